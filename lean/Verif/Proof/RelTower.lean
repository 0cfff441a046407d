import Verif.Proof.RelEcc
import Verif.Spec.TowerShape

/-!
# The tower and the pairing describe the same circuit for all witnesses
-/

namespace Verif
variable {n : ℕ} {α β γ σ τ : Type} {st : Prop}

theorem sh_f6 {a a' b b' c c' : AssignedFq2 n} (ha : sh st a a') (hb : sh st b b') (hc : sh st c c') :
    sh st (⟨a, b, c⟩ : AssignedFq6 n) ⟨a', b', c'⟩ := ⟨ha, hb, hc⟩
theorem sh_f60 {a a' : AssignedFq6 n} (h : sh st a a') : sh st a.c0 a'.c0 := Fq6Shape.c0 h
theorem sh_f61 {a a' : AssignedFq6 n} (h : sh st a a') : sh st a.c1 a'.c1 := Fq6Shape.c1 h
theorem sh_f62 {a a' : AssignedFq6 n} (h : sh st a a') : sh st a.c2 a'.c2 := Fq6Shape.c2 h
theorem sh_f12 {a a' b b' : AssignedFq6 n} (ha : sh st a a') (hb : sh st b b') :
    sh st (⟨a, b⟩ : AssignedFq12 n) ⟨a', b'⟩ := ⟨ha, hb⟩
theorem sh_f120 {a a' : AssignedFq12 n} (h : sh st a a') : sh st a.c0 a'.c0 := Fq12Shape.c0 h
theorem sh_f121 {a a' : AssignedFq12 n} (h : sh st a a') : sh st a.c1 a'.c1 := Fq12Shape.c1 h
theorem sh_ga {a a' b b' : AssignedFq2 n} {c c' : AssignedCondition n} (ha : sh st a a') (hb : sh st b b') (hc : sh st c c') :
    sh st (⟨a, b, c⟩ : AssignedG2Affine n) ⟨a', b', c'⟩ := ⟨ha, hb, hc⟩
theorem sh_gax {a a' : AssignedG2Affine n} (h : sh st a a') : sh st a.x a'.x := G2AffineShape.x h
theorem sh_gay {a a' : AssignedG2Affine n} (h : sh st a a') : sh st a.y a'.y := G2AffineShape.y h
theorem sh_gaz {a a' : AssignedG2Affine n} (h : sh st a a') : sh st a.z a'.z := G2AffineShape.z h
theorem sh_g {a a' b b' c c' : AssignedFq2 n} (ha : sh st a a') (hb : sh st b b') (hc : sh st c c') :
    sh st (⟨a, b, c⟩ : AssignedG2 n) ⟨a', b', c'⟩ := ⟨ha, hb, hc⟩
theorem sh_gx {a a' : AssignedG2 n} (h : sh st a a') : sh st a.x a'.x := G2Shape.x h
theorem sh_gy {a a' : AssignedG2 n} (h : sh st a a') : sh st a.y a'.y := G2Shape.y h
theorem sh_gz {a a' : AssignedG2 n} (h : sh st a a') : sh st a.z a'.z := G2Shape.z h
theorem sh_line {a a' b b' c c' : AssignedFq2 n} (ha : sh st a a') (hb : sh st b b') (hc : sh st c c') :
    sh st (⟨a, b, c⟩ : LineCoeffs n) ⟨a', b', c'⟩ := ⟨ha, hb, hc⟩
theorem sh_l0 {a a' : LineCoeffs n} (h : sh st a a') : sh st a.c0 a'.c0 := LineShape.c0 h
theorem sh_l1 {a a' : LineCoeffs n} (h : sh st a a') : sh st a.c1 a'.c1 := LineShape.c1 h
theorem sh_l2 {a a' : LineCoeffs n} (h : sh st a a') : sh st a.c2 a'.c2 := LineShape.c2 h

/-- Close a goal about shapes of elements of the tower. -/
macro "tower_shape" : tactic => `(tactic|
  repeat' first
    | with_reducible assumption
    | with_reducible exact trivial
    | with_reducible exact sh_nil
    | with_reducible apply sh_append
    | with_reducible apply sh_cons
    | with_reducible apply sh_f60
    | with_reducible apply sh_f61
    | with_reducible apply sh_f62
    | with_reducible apply sh_f120
    | with_reducible apply sh_f121
    | with_reducible apply sh_gax
    | with_reducible apply sh_gay
    | with_reducible apply sh_gaz
    | with_reducible apply sh_gx
    | with_reducible apply sh_gy
    | with_reducible apply sh_gz
    | with_reducible apply sh_l0
    | with_reducible apply sh_l1
    | with_reducible apply sh_l2
    | with_reducible apply sh_px
    | with_reducible apply sh_py
    | with_reducible apply sh_pz
    | with_reducible apply sh_pair
    | with_reducible apply sh_f6
    | with_reducible apply sh_f12
    | with_reducible apply sh_ga
    | with_reducible apply sh_g
    | with_reducible apply sh_line
    | (with_reducible apply sh_fst; with_reducible assumption)
    | (with_reducible apply sh_snd; with_reducible assumption)
    | with_reducible apply sh_fst
    | with_reducible apply sh_snd)

/-- `rel` for the tower. -/
macro "trel" : tactic => `(tactic|
  repeat' first
    | with_reducible intro _
    | with_reducible assumption
    | with_reducible apply Runs2.pure
    | with_reducible apply Runs2.bindS
    | with_reducible apply Runs2.bind
    | head_lemma rel
    | with_reducible apply Runs2.ite
    | (tower_shape; done)
    | dsimp only)

theorem rel_fq2_reduce (info : RangeInfo n) {x x' : AssignedFq2 n} (h_x : sh st x x') :
    Runs2 st (fq2_reduce info x) (fq2_reduce info x') (sh st) := by
  unfold fq2_reduce; trel

theorem rel_fq2_assert_equal (info : RangeInfo n) {x x' : AssignedFq2 n} (h_x : sh st x x') {y y' : AssignedFq2 n} (h_y : sh st y y') :
    Runs2 st (fq2_assert_equal info x y) (fq2_assert_equal info x' y') (sh st) := by
  unfold fq2_assert_equal; trel

theorem rel_fq2_assign_zero (info : RangeInfo n) :
    Runs2 (n := n) st (fq2_assign_zero info) (fq2_assign_zero info) (sh st) := by
  unfold fq2_assign_zero; trel

theorem rel_fq2_assign_one (info : RangeInfo n) :
    Runs2 (n := n) st (fq2_assign_one info) (fq2_assign_one info) (sh st) := by
  unfold fq2_assign_one; trel

theorem rel_fq2_assign_constant (info : RangeInfo n) (c : ℕ × ℕ) :
    Runs2 (n := n) st (fq2_assign_constant info c) (fq2_assign_constant info c) (sh st) := by
  unfold fq2_assign_constant; trel

theorem rel_fq2_add (info : RangeInfo n) {a a' : AssignedFq2 n} (h_a : sh st a a') {b b' : AssignedFq2 n} (h_b : sh st b b') :
    Runs2 st (fq2_add info a b) (fq2_add info a' b') (sh st) := by
  unfold fq2_add; trel

theorem rel_fq2_mul (info : RangeInfo n) {a a' : AssignedFq2 n} (h_a : sh st a a') {b b' : AssignedFq2 n} (h_b : sh st b b') :
    Runs2 st (fq2_mul info a b) (fq2_mul info a' b') (sh st) := by
  unfold fq2_mul; trel

theorem rel_fq2_sub (info : RangeInfo n) {a a' : AssignedFq2 n} (h_a : sh st a a') {b b' : AssignedFq2 n} (h_b : sh st b b') :
    Runs2 st (fq2_sub info a b) (fq2_sub info a' b') (sh st) := by
  unfold fq2_sub; trel

theorem rel_fq2_double (info : RangeInfo n) {a a' : AssignedFq2 n} (h_a : sh st a a') :
    Runs2 st (fq2_double info a) (fq2_double info a') (sh st) := by
  unfold fq2_double; trel

theorem rel_fq2_square (info : RangeInfo n) {a a' : AssignedFq2 n} (h_a : sh st a a') :
    Runs2 st (fq2_square info a) (fq2_square info a') (sh st) := by
  unfold fq2_square; trel

theorem rel_fq2_neg (info : RangeInfo n) {a a' : AssignedFq2 n} (h_a : sh st a a') :
    Runs2 st (fq2_neg info a) (fq2_neg info a') (sh st) := by
  unfold fq2_neg; trel

theorem rel_fq2_conjugate (info : RangeInfo n) {a a' : AssignedFq2 n} (h_a : sh st a a') :
    Runs2 st (fq2_conjugate info a) (fq2_conjugate info a') (sh st) := by
  unfold fq2_conjugate; trel

theorem rel_fq2_unsafe_invert (info : RangeInfo n) {x x' : AssignedFq2 n} (h_x : sh st x x') :
    Runs2 st (fq2_unsafe_invert info x) (fq2_unsafe_invert info x') (sh st) := by
  unfold fq2_unsafe_invert; trel

theorem rel_fq2_mul_by_nonresidue (info : RangeInfo n) (crv : PairingCurve) {a a' : AssignedFq2 n} (h_a : sh st a a') :
    Runs2 st (fq2_mul_by_nonresidue info crv a) (fq2_mul_by_nonresidue info crv a') (sh st) := by
  unfold fq2_mul_by_nonresidue; cases crv <;> trel

theorem rel_fq6_reduce (info : RangeInfo n) {x x' : AssignedFq6 n} (h_x : sh st x x') :
    Runs2 st (fq6_reduce info x) (fq6_reduce info x') (sh st) := by
  unfold fq6_reduce; trel

theorem rel_fq6_assert_equal (info : RangeInfo n) {x x' : AssignedFq6 n} (h_x : sh st x x') {y y' : AssignedFq6 n} (h_y : sh st y y') :
    Runs2 st (fq6_assert_equal info x y) (fq6_assert_equal info x' y') (sh st) := by
  unfold fq6_assert_equal; trel

theorem rel_fq6_assign_zero (info : RangeInfo n) :
    Runs2 (n := n) st (fq6_assign_zero info) (fq6_assign_zero info) (sh st) := by
  unfold fq6_assign_zero; trel

theorem rel_fq6_assign_one (info : RangeInfo n) :
    Runs2 (n := n) st (fq6_assign_one info) (fq6_assign_one info) (sh st) := by
  unfold fq6_assign_one; trel

theorem rel_fq6_add (info : RangeInfo n) {a a' : AssignedFq6 n} (h_a : sh st a a') {b b' : AssignedFq6 n} (h_b : sh st b b') :
    Runs2 st (fq6_add info a b) (fq6_add info a' b') (sh st) := by
  unfold fq6_add; trel

theorem rel_fq6_mul (info : RangeInfo n) (crv : PairingCurve) {a a' : AssignedFq6 n} (h_a : sh st a a') {b b' : AssignedFq6 n} (h_b : sh st b b') :
    Runs2 st (fq6_mul info crv a b) (fq6_mul info crv a' b') (sh st) := by
  unfold fq6_mul; trel

theorem rel_fq6_sub (info : RangeInfo n) {a a' : AssignedFq6 n} (h_a : sh st a a') {b b' : AssignedFq6 n} (h_b : sh st b b') :
    Runs2 st (fq6_sub info a b) (fq6_sub info a' b') (sh st) := by
  unfold fq6_sub; trel

theorem rel_fq6_double (info : RangeInfo n) {a a' : AssignedFq6 n} (h_a : sh st a a') :
    Runs2 st (fq6_double info a) (fq6_double info a') (sh st) := by
  unfold fq6_double; trel

theorem rel_fq6_square (info : RangeInfo n) (crv : PairingCurve) {a a' : AssignedFq6 n} (h_a : sh st a a') :
    Runs2 st (fq6_square info crv a) (fq6_square info crv a') (sh st) := by
  unfold fq6_square; trel

theorem rel_fq6_neg (info : RangeInfo n) {a a' : AssignedFq6 n} (h_a : sh st a a') :
    Runs2 st (fq6_neg info a) (fq6_neg info a') (sh st) := by
  unfold fq6_neg; trel

theorem rel_fq6_mul_by_1 (info : RangeInfo n) (crv : PairingCurve) {a a' : AssignedFq6 n} (h_a : sh st a a') {b1 b1' : AssignedFq2 n} (h_b1 : sh st b1 b1') :
    Runs2 st (fq6_mul_by_1 info crv a b1) (fq6_mul_by_1 info crv a' b1') (sh st) := by
  unfold fq6_mul_by_1; trel

theorem rel_fq6_mul_by_01 (info : RangeInfo n) (crv : PairingCurve) {a a' : AssignedFq6 n} (h_a : sh st a a') {b0 b0' : AssignedFq2 n} (h_b0 : sh st b0 b0') {b1 b1' : AssignedFq2 n} (h_b1 : sh st b1 b1') :
    Runs2 st (fq6_mul_by_01 info crv a b0 b1) (fq6_mul_by_01 info crv a' b0' b1') (sh st) := by
  unfold fq6_mul_by_01; trel

theorem rel_fq6_unsafe_invert (info : RangeInfo n) (crv : PairingCurve) {x x' : AssignedFq6 n} (h_x : sh st x x') :
    Runs2 st (fq6_unsafe_invert info crv x) (fq6_unsafe_invert info crv x') (sh st) := by
  unfold fq6_unsafe_invert; trel

theorem rel_fq6_assign_constant (info : RangeInfo n) (c : (ℕ × ℕ) × (ℕ × ℕ) × (ℕ × ℕ)) :
    Runs2 (n := n) st (fq6_assign_constant info c) (fq6_assign_constant info c) (sh st) := by
  unfold fq6_assign_constant; trel

theorem rel_fq6_mul_by_nonresidue (info : RangeInfo n) (crv : PairingCurve) {a a' : AssignedFq6 n} (h_a : sh st a a') :
    Runs2 st (fq6_mul_by_nonresidue info crv a) (fq6_mul_by_nonresidue info crv a') (sh st) := by
  unfold fq6_mul_by_nonresidue; trel

theorem rel_fq12_reduce (info : RangeInfo n) {x x' : AssignedFq12 n} (h_x : sh st x x') :
    Runs2 st (fq12_reduce info x) (fq12_reduce info x') (sh st) := by
  unfold fq12_reduce; trel

theorem rel_fq12_assert_eq (info : RangeInfo n) {x x' : AssignedFq12 n} (h_x : sh st x x') {y y' : AssignedFq12 n} (h_y : sh st y y') :
    Runs2 st (fq12_assert_eq info x y) (fq12_assert_eq info x' y') (sh st) := by
  unfold fq12_assert_eq; trel

theorem rel_fq12_assign_zero (info : RangeInfo n) :
    Runs2 (n := n) st (fq12_assign_zero info) (fq12_assign_zero info) (sh st) := by
  unfold fq12_assign_zero; trel

theorem rel_fq12_assign_one (info : RangeInfo n) :
    Runs2 (n := n) st (fq12_assign_one info) (fq12_assign_one info) (sh st) := by
  unfold fq12_assign_one; trel

theorem rel_fq12_assert_one (info : RangeInfo n) {x x' : AssignedFq12 n} (h_x : sh st x x') :
    Runs2 st (fq12_assert_one info x) (fq12_assert_one info x') (sh st) := by
  unfold fq12_assert_one; trel

theorem rel_fq12_add (info : RangeInfo n) {a a' : AssignedFq12 n} (h_a : sh st a a') {b b' : AssignedFq12 n} (h_b : sh st b b') :
    Runs2 st (fq12_add info a b) (fq12_add info a' b') (sh st) := by
  unfold fq12_add; trel

theorem rel_fq12_mul (info : RangeInfo n) (crv : PairingCurve) {a a' : AssignedFq12 n} (h_a : sh st a a') {b b' : AssignedFq12 n} (h_b : sh st b b') :
    Runs2 st (fq12_mul info crv a b) (fq12_mul info crv a' b') (sh st) := by
  unfold fq12_mul; trel

theorem rel_fq12_sub (info : RangeInfo n) {a a' : AssignedFq12 n} (h_a : sh st a a') {b b' : AssignedFq12 n} (h_b : sh st b b') :
    Runs2 st (fq12_sub info a b) (fq12_sub info a' b') (sh st) := by
  unfold fq12_sub; trel

theorem rel_fq12_double (info : RangeInfo n) {a a' : AssignedFq12 n} (h_a : sh st a a') :
    Runs2 st (fq12_double info a) (fq12_double info a') (sh st) := by
  unfold fq12_double; trel

theorem rel_fq12_square (info : RangeInfo n) (crv : PairingCurve) {a a' : AssignedFq12 n} (h_a : sh st a a') :
    Runs2 st (fq12_square info crv a) (fq12_square info crv a') (sh st) := by
  unfold fq12_square; trel

theorem rel_fq12_neg (info : RangeInfo n) {a a' : AssignedFq12 n} (h_a : sh st a a') :
    Runs2 st (fq12_neg info a) (fq12_neg info a') (sh st) := by
  unfold fq12_neg; trel

theorem rel_fq12_conjugate (info : RangeInfo n) {x x' : AssignedFq12 n} (h_x : sh st x x') :
    Runs2 st (fq12_conjugate info x) (fq12_conjugate info x') (sh st) := by
  unfold fq12_conjugate; trel

theorem rel_fq12_mul_by_014 (info : RangeInfo n) (crv : PairingCurve) {x x' : AssignedFq12 n} (h_x : sh st x x') {c0 c0' : AssignedFq2 n} (h_c0 : sh st c0 c0') {c1 c1' : AssignedFq2 n} (h_c1 : sh st c1 c1') {c4 c4' : AssignedFq2 n} (h_c4 : sh st c4 c4') :
    Runs2 st (fq12_mul_by_014 info crv x c0 c1 c4) (fq12_mul_by_014 info crv x' c0' c1' c4') (sh st) := by
  unfold fq12_mul_by_014; trel

theorem rel_fq12_mul_by_034 (info : RangeInfo n) (crv : PairingCurve) {x x' : AssignedFq12 n} (h_x : sh st x x') {c0 c0' : AssignedFq2 n} (h_c0 : sh st c0 c0') {c3 c3' : AssignedFq2 n} (h_c3 : sh st c3 c3') {c4 c4' : AssignedFq2 n} (h_c4 : sh st c4 c4') :
    Runs2 st (fq12_mul_by_034 info crv x c0 c3 c4) (fq12_mul_by_034 info crv x' c0' c3' c4') (sh st) := by
  unfold fq12_mul_by_034; trel

theorem rel_fp4_square (info : RangeInfo n) (crv : PairingCurve) {a0 a0' : AssignedFq2 n} (h_a0 : sh st a0 a0') {a1 a1' : AssignedFq2 n} (h_a1 : sh st a1 a1') :
    Runs2 st (fp4_square info crv a0 a1) (fp4_square info crv a0' a1') (sh st) := by
  unfold fp4_square; trel

theorem rel_fq12_cyclotomic_square (info : RangeInfo n) (crv : PairingCurve) {x x' : AssignedFq12 n} (h_x : sh st x x') :
    Runs2 st (fq12_cyclotomic_square info crv x) (fq12_cyclotomic_square info crv x') (sh st) := by
  unfold fq12_cyclotomic_square; trel

theorem rel_fq12_unsafe_invert (info : RangeInfo n) (crv : PairingCurve) {x x' : AssignedFq12 n} (h_x : sh st x x') :
    Runs2 st (fq12_unsafe_invert info crv x) (fq12_unsafe_invert info crv x') (sh st) := by
  unfold fq12_unsafe_invert; trel

theorem rel_fq12_assign_constant (info : RangeInfo n) (c : ((ℕ × ℕ) × (ℕ × ℕ) × (ℕ × ℕ)) × ((ℕ × ℕ) × (ℕ × ℕ) × (ℕ × ℕ))) :
    Runs2 (n := n) st (fq12_assign_constant info c) (fq12_assign_constant info c) (sh st) := by
  unfold fq12_assign_constant; trel

theorem rel_fq2_frobenius_map (info : RangeInfo n) (crv : PairingCurve) {x x' : AssignedFq2 n} (h_x : sh st x x') (power : ℕ) :
    Runs2 st (fq2_frobenius_map info crv x power) (fq2_frobenius_map info crv x' power) (sh st) := by
  unfold fq2_frobenius_map; cases crv <;> trel

theorem rel_fq6_frobenius_map (info : RangeInfo n) (crv : PairingCurve) {x x' : AssignedFq6 n} (h_x : sh st x x') (power : ℕ) :
    Runs2 st (fq6_frobenius_map info crv x power) (fq6_frobenius_map info crv x' power) (sh st) := by
  unfold fq6_frobenius_map; trel

theorem rel_fq12_frobenius_map (info : RangeInfo n) (crv : PairingCurve) {x x' : AssignedFq12 n} (h_x : sh st x x') (power : ℕ) :
    Runs2 st (fq12_frobenius_map info crv x power) (fq12_frobenius_map info crv x' power) (sh st) := by
  unfold fq12_frobenius_map; trel

theorem rel_doubling_step (info : RangeInfo n) {pt pt' : AssignedG2 n} (h_pt : sh st pt pt') :
    Runs2 st (doubling_step info pt) (doubling_step info pt') (sh st) := by
  unfold doubling_step; trel

theorem rel_addition_step (info : RangeInfo n) {pt pt' : AssignedG2 n} (h_pt : sh st pt pt') {pq pq' : AssignedG2Affine n} (h_pq : sh st pq pq') :
    Runs2 st (addition_step info pt pq) (addition_step info pt' pq') (sh st) := by
  unfold addition_step; trel

theorem rel_g2affine_to_g2 (info : RangeInfo n) {g2 g2' : AssignedG2Affine n} (h_g2 : sh st g2 g2') :
    Runs2 st (g2affine_to_g2 info g2) (g2affine_to_g2 info g2') (sh st) := by
  unfold g2affine_to_g2; trel

theorem rel_g2_neg (info : RangeInfo n) {g2 g2' : AssignedG2Affine n} (h_g2 : sh st g2 g2') :
    Runs2 st (g2_neg info g2) (g2_neg info g2') (sh st) := by
  unfold g2_neg; trel

theorem rel_ell (info : RangeInfo n) (crv : PairingCurve) {f f' : AssignedFq12 n} (h_f : sh st f f') {coeffs coeffs' : LineCoeffs n} (h_coeffs : sh st coeffs coeffs') {p p' : AssignedPoint n} (h_p : sh st p p') :
    Runs2 st (ell info crv f coeffs p) (ell info crv f' coeffs' p') (sh st) := by
  unfold ell; cases crv <;> trel

theorem rel_head {l l' : List (LineCoeffs n)} (h : sh st l l') :
    Runs2 (n := n) st (unwrap l.head?) (unwrap l'.head?) (sh st) := by
  cases h with
  | nil => exact Runs2.panic (p' := .unwrapNone)
  | cons h _ => exact Runs2.pure h

theorem sh_tail [Shaped α] {l l' : List α} (h : sh st l l') : sh st l.tail l'.tail := by
  cases h with
  | nil => exact sh_nil
  | cons _ h => exact h

theorem rel_foldlM [Shaped α] {f f' : α → β → M n α} (l : List β)
    (hf : ∀ b a a', sh st a a' → Runs2 st (f a b) (f' a' b) (sh st)) {a a' : α} (ha : sh st a a') :
    Runs2 st (l.foldlM f a) (l.foldlM f' a') (sh st) := by
  induction l generalizing a a' with
  | nil => exact Runs2.pure ha
  | cons b l ih =>
    rw [List.foldlM_cons, List.foldlM_cons]
    exact (hf b a a' ha).bind fun _ _ h => ih h

theorem rel_ell_pairs (info : RangeInfo n) (crv : PairingCurve) {f f' : AssignedFq12 n} (h_f : sh st f f')
    {l l' : List (AssignedPoint n × List (LineCoeffs n))} (h : sh st l l') :
    Runs2 st (ell_pairs info crv f l) (ell_pairs info crv f' l') (sh st) := by
  induction h generalizing f f' with
  | nil => exact Runs2.pure ⟨h_f, sh_nil⟩
  | cons h0 _ ih =>
    unfold ell_pairs
    exact (rel_head h0.2).bind fun _ _ hc => (rel_ell info crv h_f hc h0.1).bind fun _ _ hf => (ih hf).bind fun _ _ hr =>
      Runs2.pure ⟨hr.1, sh_cons ⟨h0.1, sh_tail h0.2⟩ hr.2⟩

theorem rel_assert_not_identity {l l' : List (AssignedPoint n × List (LineCoeffs n))} (h : sh st l l') :
    Runs2 (n := n) st (assert_not_identity l) (assert_not_identity l') (sh st) := by
  induction h with
  | nil => exact Runs2.pure trivial
  | cons h0 _ ih =>
    unfold assert_not_identity
    exact (rel_assert_false (sh_pz h0.1)).bind fun _ _ _ => ih

theorem rel_bn_prepare_step (info : RangeInfo n) {g2 g2' neg_g2 neg_g2' : AssignedG2Affine n} (h_g2 : sh st g2 g2')
    (h_neg : sh st neg_g2 neg_g2') {s s' : List (LineCoeffs n) × AssignedG2 n} (hs : sh st s s') (x : ℤ) :
    Runs2 st (bn_prepare_step info g2 neg_g2 s x) (bn_prepare_step info g2' neg_g2' s' x) (sh st) := by
  obtain ⟨l, r⟩ := s
  obtain ⟨l', r'⟩ := s'
  obtain ⟨h1, h2⟩ := hs
  unfold bn_prepare_step; trel

theorem rel_bn_prepare_g2 (info : RangeInfo n) {g2 g2' : AssignedG2Affine n} (h_g2 : sh st g2 g2') :
    Runs2 st (bn_prepare_g2 info g2) (bn_prepare_g2 info g2') (sh st) := by
  unfold bn_prepare_g2
  refine (rel_g2_neg info h_g2).bind fun _ _ h1 => (rel_g2affine_to_g2 info h_g2).bind fun _ _ h2 => ?_
  refine (rel_foldlM _ (fun x _ _ h => rel_bn_prepare_step info h_g2 h1 h x) ⟨sh_nil, h2⟩).bindS fun _ _ _ _ h3 h4 => ?_
  trel

theorem rel_bn_miller_loop (info : RangeInfo n) (xs : List ℤ) (first : Bool) {f f' : AssignedFq12 n} (h_f : sh st f f')
    {l l' : List (AssignedPoint n × List (LineCoeffs n))} (h : sh st l l') :
    Runs2 st (bn_miller_loop info first f l xs) (bn_miller_loop info first f' l' xs) (sh st) := by
  induction xs generalizing first f f' l l' with
  | nil => unfold bn_miller_loop; exact Runs2.pure ⟨h_f, h⟩
  | cons x xs ih =>
    unfold bn_miller_loop
    have last : ∀ {g g' : AssignedFq12 n} {k k' : List (AssignedPoint n × List (LineCoeffs n))}, sh st g g' → sh st k k' →
        Runs2 st (bn_miller_loop info false g k xs) (bn_miller_loop info false g' k' xs) (sh st) := fun h4 h5 => ih _ h4 h5
    refine Runs2.ite (Runs2.bind (Runs2.pure (R := sh st) h_f) ?_) ((rel_fq12_square info _ h_f).bind ?_) <;>
    · intro _ _ h1
      refine (rel_ell_pairs info _ h1 h).bindS fun _ _ _ _ h2 h3 => ?_
      refine Runs2.ite ?_ (Runs2.ite ?_ ?_)
      · exact (rel_ell_pairs info _ h2 h3).bindS fun _ _ _ _ h4 h5 => last h4 h5
      · exact (rel_ell_pairs info _ h2 h3).bindS fun _ _ _ _ h4 h5 => last h4 h5
      · exact last h2 h3

theorem rel_bn_multi_miller_loop (info : RangeInfo n) {l l' : List (AssignedPoint n × List (LineCoeffs n))} (h : sh st l l') :
    Runs2 st (bn_multi_miller_loop info l) (bn_multi_miller_loop info l') (sh st) := by
  unfold bn_multi_miller_loop
  refine (rel_assert_not_identity h).bind fun _ _ _ => (rel_fq12_assign_one info).bind fun _ _ h1 => ?_
  refine (rel_bn_miller_loop info _ _ h1 h).bindS fun _ _ _ _ h2 h3 => ?_
  refine (rel_ell_pairs info _ h2 h3).bindS fun _ _ _ _ h4 h5 => (rel_ell_pairs info _ h4 h5).bindS fun _ _ _ _ h6 h7 => ?_
  exact (rel_rassert _ _).bind fun _ _ _ => Runs2.pure h6

theorem rel_bn_exp_step (info : RangeInfo n) {f f' : AssignedFq12 n} (h_f : sh st f f') {res res' : AssignedFq12 n}
    (h_res : sh st res res') (bit : Bool) : Runs2 st (bn_exp_step info f res bit) (bn_exp_step info f' res' bit) (sh st) := by
  unfold bn_exp_step; trel

theorem rel_bn_exp_by_x (info : RangeInfo n) {f f' : AssignedFq12 n} (h_f : sh st f f') :
    Runs2 st (bn_exp_by_x info f) (bn_exp_by_x info f') (sh st) := by
  unfold bn_exp_by_x
  exact (rel_fq12_assign_one info).bind fun _ _ h1 => rel_foldlM _ (fun b _ _ h => rel_bn_exp_step info h_f h b) h1

theorem rel_bn_final_exponentiation (info : RangeInfo n) {f f' : AssignedFq12 n} (h_f : sh st f f') :
    Runs2 st (bn_final_exponentiation info f) (bn_final_exponentiation info f') (sh st) := by
  unfold bn_final_exponentiation; trel

theorem rel_bls_prepare_step (info : RangeInfo n) {g2 g2' : AssignedG2Affine n} (h_g2 : sh st g2 g2') (b : Bool)
    {s s' : List (LineCoeffs n) × AssignedG2 n} (hs : sh st s s') (i : Bool) :
    Runs2 st (bls_prepare_step info g2 (b, s) i) (bls_prepare_step info g2' (b, s') i) (fun r r' => r.1 = r'.1 ∧ sh st r.2 r'.2) := by
  obtain ⟨l, r⟩ := s
  obtain ⟨l', r'⟩ := s'
  obtain ⟨h1, h2⟩ := hs
  unfold bls_prepare_step
  dsimp only
  refine Runs2.ite (Runs2.pure ⟨rfl, h1, h2⟩) ((rel_doubling_step info h2).bindS fun _ _ _ _ h3 h4 => ?_)
  have h5 := sh_append h1 (sh_cons h3 sh_nil)
  exact Runs2.ite ((rel_addition_step info h4 h_g2).bindS fun _ _ _ _ h6 h7 =>
    Runs2.pure ⟨rfl, sh_append h5 (sh_cons h6 sh_nil), h7⟩) (Runs2.pure ⟨rfl, h5, h4⟩)

theorem rel_foldlM_flag [Shaped α] {f f' : Bool × α → β → M n (Bool × α)} (l : List β)
    (hf : ∀ x b a a', sh st a a' → Runs2 st (f (b, a) x) (f' (b, a') x) fun r r' => r.1 = r'.1 ∧ sh st r.2 r'.2)
    (b : Bool) {a a' : α} (ha : sh st a a') :
    Runs2 st (l.foldlM f (b, a)) (l.foldlM f' (b, a')) fun r r' => r.1 = r'.1 ∧ sh st r.2 r'.2 := by
  induction l generalizing b a a' with
  | nil => exact Runs2.pure ⟨rfl, ha⟩
  | cons x l ih =>
    rw [List.foldlM_cons, List.foldlM_cons]
    refine (hf x b a a' ha).bindP ?_
    rintro b1 a1 b2 a2 ⟨h1, h2⟩
    dsimp only at h1 h2
    subst h1
    exact ih b1 h2

theorem rel_bls_prepare_g2 (info : RangeInfo n) {g2 g2' : AssignedG2Affine n} (h_g2 : sh st g2 g2') :
    Runs2 st (bls_prepare_g2 info g2) (bls_prepare_g2 info g2') (sh st) := by
  unfold bls_prepare_g2
  refine (rel_g2affine_to_g2 info h_g2).bind fun _ _ h2 => ?_
  refine (rel_foldlM_flag _ (fun i b _ _ h => rel_bls_prepare_step info h_g2 b h i) false (a := ([], _)) (a' := ([], _))
    ⟨sh_nil, h2⟩).bind ?_
  rintro ⟨b, c, f⟩ ⟨b', c', f'⟩ ⟨-, h3, h4⟩
  exact (rel_doubling_step info h4).bindS fun _ _ _ _ h5 _ => Runs2.pure (sh_append h3 (sh_cons h5 sh_nil))

theorem rel_bls_miller_loop (info : RangeInfo n) (xs : List Bool) (found : Bool) {f f' : AssignedFq12 n} (h_f : sh st f f')
    {l l' : List (AssignedPoint n × List (LineCoeffs n))} (h : sh st l l') :
    Runs2 st (bls_miller_loop info found f l xs) (bls_miller_loop info found f' l' xs) (sh st) := by
  induction xs generalizing found f f' l l' with
  | nil => unfold bls_miller_loop; exact Runs2.pure ⟨h_f, h⟩
  | cons x xs ih =>
    unfold bls_miller_loop
    refine Runs2.ite (ih _ h_f h) ((rel_ell_pairs info _ h_f h).bindS fun _ _ _ _ h2 h3 => ?_)
    refine Runs2.ite ?_ ?_
    · exact (rel_ell_pairs info _ h2 h3).bindS fun _ _ _ _ h4 h5 =>
        (rel_fq12_square info _ h4).bind fun _ _ h6 => ih _ h6 h5
    · exact (rel_fq12_square info _ h2).bind fun _ _ h6 => ih _ h6 h3

theorem rel_bls_multi_miller_loop (info : RangeInfo n) {l l' : List (AssignedPoint n × List (LineCoeffs n))} (h : sh st l l') :
    Runs2 st (bls_multi_miller_loop info l) (bls_multi_miller_loop info l') (sh st) := by
  unfold bls_multi_miller_loop
  refine (rel_assert_not_identity h).bind fun _ _ _ => (rel_fq12_assign_one info).bind fun _ _ h1 => ?_
  refine (rel_bls_miller_loop info _ _ h1 h).bindS fun _ _ _ _ h2 h3 => ?_
  exact (rel_ell_pairs info _ h2 h3).bindS fun _ _ _ _ h4 _ => rel_fq12_conjugate info h4

theorem rel_bls_exp_step (info : RangeInfo n) {f f' : AssignedFq12 n} (h_f : sh st f f') (b : Bool) {r r' : AssignedFq12 n}
    (h : sh st r r') (i : Bool) :
    Runs2 st (bls_exp_step info f (b, r) i) (bls_exp_step info f' (b, r') i) (fun r r' => r.1 = r'.1 ∧ sh st r.2 r'.2) := by
  unfold bls_exp_step
  dsimp only
  refine Runs2.ite ((rel_fq12_cyclotomic_square info _ h).bind fun _ _ h1 => ?_) ?_
  · exact Runs2.ite ((rel_fq12_mul info _ h1 h_f).bind fun _ _ h3 => Runs2.pure ⟨rfl, h3⟩) (Runs2.pure ⟨rfl, h1⟩)
  · exact Runs2.ite ((rel_fq12_mul info _ h h_f).bind fun _ _ h3 => Runs2.pure ⟨rfl, h3⟩) (Runs2.pure ⟨rfl, h⟩)

theorem rel_bls_cyclotomic_exp (info : RangeInfo n) {f f' : AssignedFq12 n} (h_f : sh st f f') :
    Runs2 st (bls_cyclotomic_exp info f) (bls_cyclotomic_exp info f') (sh st) := by
  unfold bls_cyclotomic_exp
  refine (rel_fq12_assign_one info).bind fun _ _ h1 =>
    (rel_foldlM_flag _ (fun i b _ _ h => rel_bls_exp_step info h_f b h i) false h1).bind ?_
  rintro ⟨b1, a1⟩ ⟨b2, a2⟩ ⟨-, h2⟩
  exact rel_fq12_conjugate info h2

theorem rel_bls_final_exponentiation (info : RangeInfo n) {f f' : AssignedFq12 n} (h_f : sh st f f') :
    Runs2 st (bls_final_exponentiation info f) (bls_final_exponentiation info f') (sh st) := by
  unfold bls_final_exponentiation; trel

theorem rel_prepare_g2 (info : RangeInfo n) (crv : PairingCurve) {g2 g2' : AssignedG2Affine n} (h : sh st g2 g2') :
    Runs2 st (prepare_g2 info crv g2) (prepare_g2 info crv g2') (sh st) := by
  cases crv
  · exact rel_bn_prepare_g2 info h
  · exact rel_bls_prepare_g2 info h

theorem rel_multi_miller_loop (info : RangeInfo n) (crv : PairingCurve) {l l' : List (AssignedPoint n × List (LineCoeffs n))}
    (h : sh st l l') : Runs2 st (multi_miller_loop info crv l) (multi_miller_loop info crv l') (sh st) := by
  cases crv
  · exact rel_bn_multi_miller_loop info h
  · exact rel_bls_multi_miller_loop info h

theorem rel_final_exponentiation (info : RangeInfo n) (crv : PairingCurve) {f f' : AssignedFq12 n} (h : sh st f f') :
    Runs2 st (final_exponentiation info crv f) (final_exponentiation info crv f') (sh st) := by
  cases crv
  · exact rel_bn_final_exponentiation info h
  · exact rel_bls_final_exponentiation info h

theorem rel_prepare_terms (info : RangeInfo n) (crv : PairingCurve) {l l' : List (AssignedPoint n × AssignedG2Affine n)}
    (h : sh st l l') : Runs2 st (prepare_terms info crv l) (prepare_terms info crv l') (sh st) := by
  induction h with
  | nil => exact Runs2.pure sh_nil
  | cons h0 _ ih =>
    unfold prepare_terms
    exact (rel_prepare_g2 info crv h0.2).bind fun _ _ h1 => ih.bind fun _ _ h2 => Runs2.pure (sh_cons ⟨h0.1, h1⟩ h2)

theorem rel_pairing (info : RangeInfo n) (crv : PairingCurve) {l l' : List (AssignedPoint n × AssignedG2Affine n)}
    (h : sh st l l') : Runs2 st (pairing info crv l) (pairing info crv l') (sh st) := by
  unfold pairing
  exact (rel_prepare_terms info crv h).bind fun _ _ h1 => (rel_multi_miller_loop info crv h1).bind fun _ _ h2 =>
    rel_final_exponentiation info crv h2

theorem rel_check_pairing (info : RangeInfo n) (crv : PairingCurve) {l l' : List (AssignedPoint n × AssignedG2Affine n)}
    (h : sh st l l') : Runs2 st (check_pairing info crv l) (check_pairing info crv l') (sh st) := by
  unfold check_pairing
  exact (rel_pairing info crv h).bind fun _ _ h1 => rel_fq12_assert_one info h1

end Verif
