import Verif.Proof.CounterEcc
import Verif.Spec.TowerShape

/-!
# The tower and the pairing keep counters small
-/

set_option linter.unusedVariables false

namespace Verif
variable {n : ℕ} {α β γ : Type} {r : Tag n}

instance : HasCounters n (AssignedFq6 n) := ⟨fun a => counters a.c0 ++ counters a.c1 ++ counters a.c2⟩
instance : HasCounters n (AssignedFq12 n) := ⟨fun a => counters a.c0 ++ counters a.c1⟩
instance : HasCounters n (AssignedG2Affine n) := ⟨fun a => counters a.x ++ counters a.y ++ counters a.z⟩
instance : HasCounters n (AssignedG2 n) := ⟨fun a => counters a.x ++ counters a.y ++ counters a.z⟩
instance : HasCounters n (LineCoeffs n) := ⟨fun a => counters a.c0 ++ counters a.c1 ++ counters a.c2⟩
instance : HasCounters n Bool := ⟨fun _ => []⟩

theorem small_f6 {a b c : AssignedFq2 n} (ha : Small r a) (hb : Small r b) (hc : Small r c) : Small r (⟨a, b, c⟩ : AssignedFq6 n) :=
  small_append_counters.2 ⟨small_append_counters.2 ⟨ha, hb⟩, hc⟩
theorem small_f60 {a : AssignedFq6 n} (h : Small r a) : Small r a.c0 := (small_append_counters.1 (small_append_counters.1 h).1).1
theorem small_f61 {a : AssignedFq6 n} (h : Small r a) : Small r a.c1 := (small_append_counters.1 (small_append_counters.1 h).1).2
theorem small_f62 {a : AssignedFq6 n} (h : Small r a) : Small r a.c2 := (small_append_counters.1 h).2
theorem small_f12 {a b : AssignedFq6 n} (ha : Small r a) (hb : Small r b) : Small r (⟨a, b⟩ : AssignedFq12 n) :=
  small_append_counters.2 ⟨ha, hb⟩
theorem small_f120 {a : AssignedFq12 n} (h : Small r a) : Small r a.c0 := (small_append_counters.1 h).1
theorem small_f121 {a : AssignedFq12 n} (h : Small r a) : Small r a.c1 := (small_append_counters.1 h).2
theorem small_ga {a b : AssignedFq2 n} {c : AssignedCondition n} (ha : Small r a) (hb : Small r b) (hc : Small r c) :
    Small r (⟨a, b, c⟩ : AssignedG2Affine n) := small_append_counters.2 ⟨small_append_counters.2 ⟨ha, hb⟩, hc⟩
theorem small_gax {a : AssignedG2Affine n} (h : Small r a) : Small r a.x := (small_append_counters.1 (small_append_counters.1 h).1).1
theorem small_gay {a : AssignedG2Affine n} (h : Small r a) : Small r a.y := (small_append_counters.1 (small_append_counters.1 h).1).2
theorem small_gaz {a : AssignedG2Affine n} (h : Small r a) : Small r a.z := (small_append_counters.1 h).2
theorem small_g {a b c : AssignedFq2 n} (ha : Small r a) (hb : Small r b) (hc : Small r c) : Small r (⟨a, b, c⟩ : AssignedG2 n) :=
  small_append_counters.2 ⟨small_append_counters.2 ⟨ha, hb⟩, hc⟩
theorem small_gx {a : AssignedG2 n} (h : Small r a) : Small r a.x := (small_append_counters.1 (small_append_counters.1 h).1).1
theorem small_gy {a : AssignedG2 n} (h : Small r a) : Small r a.y := (small_append_counters.1 (small_append_counters.1 h).1).2
theorem small_gz {a : AssignedG2 n} (h : Small r a) : Small r a.z := (small_append_counters.1 h).2
theorem small_line {a b c : AssignedFq2 n} (ha : Small r a) (hb : Small r b) (hc : Small r c) : Small r (⟨a, b, c⟩ : LineCoeffs n) :=
  small_append_counters.2 ⟨small_append_counters.2 ⟨ha, hb⟩, hc⟩
theorem small_l0 {a : LineCoeffs n} (h : Small r a) : Small r a.c0 := (small_append_counters.1 (small_append_counters.1 h).1).1
theorem small_l1 {a : LineCoeffs n} (h : Small r a) : Small r a.c1 := (small_append_counters.1 (small_append_counters.1 h).1).2
theorem small_l2 {a : LineCoeffs n} (h : Small r a) : Small r a.c2 := (small_append_counters.1 h).2
theorem small_bool (b : Bool) : Small r b := small_none rfl

/-- Close a goal `Small r x` about elements of the tower. -/
macro "tcounters" : tactic => `(tactic|
  repeat' first
    | with_reducible assumption
    | with_reducible exact trivial
    | with_reducible exact small_unit _
    | with_reducible exact small_bool _
    | with_reducible exact small_nil
    | with_reducible apply small_append
    | with_reducible apply small_cons
    | with_reducible apply small_f60
    | with_reducible apply small_f61
    | with_reducible apply small_f62
    | with_reducible apply small_f120
    | with_reducible apply small_f121
    | with_reducible apply small_gax
    | with_reducible apply small_gay
    | with_reducible apply small_gaz
    | with_reducible apply small_gx
    | with_reducible apply small_gy
    | with_reducible apply small_gz
    | with_reducible apply small_l0
    | with_reducible apply small_l1
    | with_reducible apply small_l2
    | with_reducible apply small_px
    | with_reducible apply small_py
    | with_reducible apply small_pz
    | with_reducible apply small_pair
    | with_reducible apply small_f6
    | with_reducible apply small_f12
    | with_reducible apply small_ga
    | with_reducible apply small_g
    | with_reducible apply small_line
    | (with_reducible apply small_left; with_reducible assumption)
    | (with_reducible apply small_right; with_reducible assumption)
    | with_reducible apply small_fst
    | with_reducible apply small_snd)

/-- `countert` for the tower. -/
macro "tcountert" : tactic => `(tactic|
  repeat' first
    | kintro
    | with_reducible assumption
    | with_reducible apply Safe.ret
    | with_reducible exact Safe.panic (by decide)
    | with_reducible exact Safe.panic_bind (by decide)
    | with_reducible apply Safe.bindS
    | with_reducible apply Safe.bind
    | head_lemma cnt
    | with_reducible apply Safe.ite
    | (tcounters; done)
    | dsimp only)

theorem cnt_foldlM [HasCounters n α] {f : α → β → M n α} (l : List β)
    (hf : ∀ r', Later r r' → ∀ b a, Small r' a → Safe r' (f a b) Small) {a : α} (ha : Small r a) : Safe r (l.foldlM f a) Small := by
  induction l generalizing a r with
  | nil => exact .ret ha
  | cons b l ih =>
    rw [List.foldlM_cons]
    exact (hf r (.rfl _) b a ha).bind fun _ r1 l1 h => ih (fun r' h => hf r' (l1.trans h)) h

theorem cnt_head [HasCounters n α] {l : List α} (h : Small r l) : Safe r (unwrap l.head?) Small := by
  cases l with
  | nil => exact .panic (by decide)
  | cons a l => exact .ret (small_cons_iff.1 h).1

theorem cnt_fq2_reduce (info : RangeInfo n) [Six info] {x : AssignedFq2 n} (h_x : Small r x) :
    Safe r (fq2_reduce info x) Small := by
  unfold fq2_reduce; tcountert

theorem cnt_fq2_assert_equal (info : RangeInfo n) [Six info] {x : AssignedFq2 n} (h_x : Small r x) {y : AssignedFq2 n} (h_y : Small r y) :
    Safe r (fq2_assert_equal info x y) Small := by
  unfold fq2_assert_equal; tcountert

theorem cnt_fq2_assign_zero (info : RangeInfo n) [Six info] :
    Safe r (fq2_assign_zero info) Small := by
  unfold fq2_assign_zero; tcountert

theorem cnt_fq2_assign_one (info : RangeInfo n) [Six info] :
    Safe r (fq2_assign_one info) Small := by
  unfold fq2_assign_one; tcountert

theorem cnt_fq2_assign_constant (info : RangeInfo n) [Six info] (c : ℕ × ℕ) :
    Safe r (fq2_assign_constant info c) Small := by
  unfold fq2_assign_constant; tcountert

theorem cnt_fq2_add (info : RangeInfo n) [Six info] {a : AssignedFq2 n} (h_a : Small r a) {b : AssignedFq2 n} (h_b : Small r b) :
    Safe r (fq2_add info a b) Small := by
  unfold fq2_add; tcountert

theorem cnt_fq2_mul (info : RangeInfo n) [Six info] {a : AssignedFq2 n} (h_a : Small r a) {b : AssignedFq2 n} (h_b : Small r b) :
    Safe r (fq2_mul info a b) Small := by
  unfold fq2_mul; tcountert

theorem cnt_fq2_sub (info : RangeInfo n) [Six info] {a : AssignedFq2 n} (h_a : Small r a) {b : AssignedFq2 n} (h_b : Small r b) :
    Safe r (fq2_sub info a b) Small := by
  unfold fq2_sub; tcountert

theorem cnt_fq2_double (info : RangeInfo n) [Six info] {a : AssignedFq2 n} (h_a : Small r a) :
    Safe r (fq2_double info a) Small := by
  unfold fq2_double; tcountert

theorem cnt_fq2_square (info : RangeInfo n) [Six info] {a : AssignedFq2 n} (h_a : Small r a) :
    Safe r (fq2_square info a) Small := by
  unfold fq2_square; tcountert

theorem cnt_fq2_neg (info : RangeInfo n) [Six info] {a : AssignedFq2 n} (h_a : Small r a) :
    Safe r (fq2_neg info a) Small := by
  unfold fq2_neg; tcountert

theorem cnt_fq2_conjugate (info : RangeInfo n) [Six info] {a : AssignedFq2 n} (h_a : Small r a) :
    Safe r (fq2_conjugate info a) Small := by
  unfold fq2_conjugate; tcountert

theorem cnt_fq2_unsafe_invert (info : RangeInfo n) [Six info] {x : AssignedFq2 n} (h_x : Small r x) :
    Safe r (fq2_unsafe_invert info x) Small := by
  unfold fq2_unsafe_invert; tcountert

theorem cnt_fq2_mul_by_nonresidue (info : RangeInfo n) [Six info] (crv : PairingCurve) {a : AssignedFq2 n} (h_a : Small r a) :
    Safe r (fq2_mul_by_nonresidue info crv a) Small := by
  unfold fq2_mul_by_nonresidue; cases crv <;> tcountert

theorem cnt_fq6_reduce (info : RangeInfo n) [Six info] {x : AssignedFq6 n} (h_x : Small r x) :
    Safe r (fq6_reduce info x) Small := by
  unfold fq6_reduce; tcountert

theorem cnt_fq6_assert_equal (info : RangeInfo n) [Six info] {x : AssignedFq6 n} (h_x : Small r x) {y : AssignedFq6 n} (h_y : Small r y) :
    Safe r (fq6_assert_equal info x y) Small := by
  unfold fq6_assert_equal; tcountert

theorem cnt_fq6_assign_zero (info : RangeInfo n) [Six info] :
    Safe r (fq6_assign_zero info) Small := by
  unfold fq6_assign_zero; tcountert

theorem cnt_fq6_assign_one (info : RangeInfo n) [Six info] :
    Safe r (fq6_assign_one info) Small := by
  unfold fq6_assign_one; tcountert

theorem cnt_fq6_add (info : RangeInfo n) [Six info] {a : AssignedFq6 n} (h_a : Small r a) {b : AssignedFq6 n} (h_b : Small r b) :
    Safe r (fq6_add info a b) Small := by
  unfold fq6_add; tcountert

theorem cnt_fq6_mul (info : RangeInfo n) [Six info] (crv : PairingCurve) {a : AssignedFq6 n} (h_a : Small r a) {b : AssignedFq6 n} (h_b : Small r b) :
    Safe r (fq6_mul info crv a b) Small := by
  unfold fq6_mul; tcountert

theorem cnt_fq6_sub (info : RangeInfo n) [Six info] {a : AssignedFq6 n} (h_a : Small r a) {b : AssignedFq6 n} (h_b : Small r b) :
    Safe r (fq6_sub info a b) Small := by
  unfold fq6_sub; tcountert

theorem cnt_fq6_double (info : RangeInfo n) [Six info] {a : AssignedFq6 n} (h_a : Small r a) :
    Safe r (fq6_double info a) Small := by
  unfold fq6_double; tcountert

theorem cnt_fq6_square (info : RangeInfo n) [Six info] (crv : PairingCurve) {a : AssignedFq6 n} (h_a : Small r a) :
    Safe r (fq6_square info crv a) Small := by
  unfold fq6_square; tcountert

theorem cnt_fq6_neg (info : RangeInfo n) [Six info] {a : AssignedFq6 n} (h_a : Small r a) :
    Safe r (fq6_neg info a) Small := by
  unfold fq6_neg; tcountert

theorem cnt_fq6_mul_by_1 (info : RangeInfo n) [Six info] (crv : PairingCurve) {a : AssignedFq6 n} (h_a : Small r a) {b1 : AssignedFq2 n} (h_b1 : Small r b1) :
    Safe r (fq6_mul_by_1 info crv a b1) Small := by
  unfold fq6_mul_by_1; tcountert

theorem cnt_fq6_mul_by_01 (info : RangeInfo n) [Six info] (crv : PairingCurve) {a : AssignedFq6 n} (h_a : Small r a) {b0 : AssignedFq2 n} (h_b0 : Small r b0) {b1 : AssignedFq2 n} (h_b1 : Small r b1) :
    Safe r (fq6_mul_by_01 info crv a b0 b1) Small := by
  unfold fq6_mul_by_01; tcountert

theorem cnt_fq6_unsafe_invert (info : RangeInfo n) [Six info] (crv : PairingCurve) {x : AssignedFq6 n} (h_x : Small r x) :
    Safe r (fq6_unsafe_invert info crv x) Small := by
  unfold fq6_unsafe_invert; tcountert

theorem cnt_fq6_assign_constant (info : RangeInfo n) [Six info] (c : (ℕ × ℕ) × (ℕ × ℕ) × (ℕ × ℕ)) :
    Safe r (fq6_assign_constant info c) Small := by
  unfold fq6_assign_constant; tcountert

theorem cnt_fq6_mul_by_nonresidue (info : RangeInfo n) [Six info] (crv : PairingCurve) {a : AssignedFq6 n} (h_a : Small r a) :
    Safe r (fq6_mul_by_nonresidue info crv a) Small := by
  unfold fq6_mul_by_nonresidue; tcountert

theorem cnt_fq12_reduce (info : RangeInfo n) [Six info] {x : AssignedFq12 n} (h_x : Small r x) :
    Safe r (fq12_reduce info x) Small := by
  unfold fq12_reduce; tcountert

theorem cnt_fq12_assert_eq (info : RangeInfo n) [Six info] {x : AssignedFq12 n} (h_x : Small r x) {y : AssignedFq12 n} (h_y : Small r y) :
    Safe r (fq12_assert_eq info x y) Small := by
  unfold fq12_assert_eq; tcountert

theorem cnt_fq12_assign_zero (info : RangeInfo n) [Six info] :
    Safe r (fq12_assign_zero info) Small := by
  unfold fq12_assign_zero; tcountert

theorem cnt_fq12_assign_one (info : RangeInfo n) [Six info] :
    Safe r (fq12_assign_one info) Small := by
  unfold fq12_assign_one; tcountert

theorem cnt_fq12_assert_one (info : RangeInfo n) [Six info] {x : AssignedFq12 n} (h_x : Small r x) :
    Safe r (fq12_assert_one info x) Small := by
  unfold fq12_assert_one; tcountert

theorem cnt_fq12_add (info : RangeInfo n) [Six info] {a : AssignedFq12 n} (h_a : Small r a) {b : AssignedFq12 n} (h_b : Small r b) :
    Safe r (fq12_add info a b) Small := by
  unfold fq12_add; tcountert

theorem cnt_fq12_mul (info : RangeInfo n) [Six info] (crv : PairingCurve) {a : AssignedFq12 n} (h_a : Small r a) {b : AssignedFq12 n} (h_b : Small r b) :
    Safe r (fq12_mul info crv a b) Small := by
  unfold fq12_mul; tcountert

theorem cnt_fq12_sub (info : RangeInfo n) [Six info] {a : AssignedFq12 n} (h_a : Small r a) {b : AssignedFq12 n} (h_b : Small r b) :
    Safe r (fq12_sub info a b) Small := by
  unfold fq12_sub; tcountert

theorem cnt_fq12_double (info : RangeInfo n) [Six info] {a : AssignedFq12 n} (h_a : Small r a) :
    Safe r (fq12_double info a) Small := by
  unfold fq12_double; tcountert

theorem cnt_fq12_square (info : RangeInfo n) [Six info] (crv : PairingCurve) {a : AssignedFq12 n} (h_a : Small r a) :
    Safe r (fq12_square info crv a) Small := by
  unfold fq12_square; tcountert

theorem cnt_fq12_neg (info : RangeInfo n) [Six info] {a : AssignedFq12 n} (h_a : Small r a) :
    Safe r (fq12_neg info a) Small := by
  unfold fq12_neg; tcountert

theorem cnt_fq12_conjugate (info : RangeInfo n) [Six info] {x : AssignedFq12 n} (h_x : Small r x) :
    Safe r (fq12_conjugate info x) Small := by
  unfold fq12_conjugate; tcountert

theorem cnt_fq12_mul_by_014 (info : RangeInfo n) [Six info] (crv : PairingCurve) {x : AssignedFq12 n} (h_x : Small r x) {c0 : AssignedFq2 n} (h_c0 : Small r c0) {c1 : AssignedFq2 n} (h_c1 : Small r c1) {c4 : AssignedFq2 n} (h_c4 : Small r c4) :
    Safe r (fq12_mul_by_014 info crv x c0 c1 c4) Small := by
  unfold fq12_mul_by_014; tcountert

theorem cnt_fq12_mul_by_034 (info : RangeInfo n) [Six info] (crv : PairingCurve) {x : AssignedFq12 n} (h_x : Small r x) {c0 : AssignedFq2 n} (h_c0 : Small r c0) {c3 : AssignedFq2 n} (h_c3 : Small r c3) {c4 : AssignedFq2 n} (h_c4 : Small r c4) :
    Safe r (fq12_mul_by_034 info crv x c0 c3 c4) Small := by
  unfold fq12_mul_by_034; tcountert

theorem cnt_fp4_square (info : RangeInfo n) [Six info] (crv : PairingCurve) {a0 : AssignedFq2 n} (h_a0 : Small r a0) {a1 : AssignedFq2 n} (h_a1 : Small r a1) :
    Safe r (fp4_square info crv a0 a1) Small := by
  unfold fp4_square; tcountert

theorem cnt_fq12_cyclotomic_square (info : RangeInfo n) [Six info] (crv : PairingCurve) {x : AssignedFq12 n} (h_x : Small r x) :
    Safe r (fq12_cyclotomic_square info crv x) Small := by
  unfold fq12_cyclotomic_square; tcountert

theorem cnt_fq12_unsafe_invert (info : RangeInfo n) [Six info] (crv : PairingCurve) {x : AssignedFq12 n} (h_x : Small r x) :
    Safe r (fq12_unsafe_invert info crv x) Small := by
  unfold fq12_unsafe_invert; tcountert

theorem cnt_fq12_assign_constant (info : RangeInfo n) [Six info] (c : ((ℕ × ℕ) × (ℕ × ℕ) × (ℕ × ℕ)) × ((ℕ × ℕ) × (ℕ × ℕ) × (ℕ × ℕ))) :
    Safe r (fq12_assign_constant info c) Small := by
  unfold fq12_assign_constant; tcountert

theorem cnt_fq2_frobenius_map (info : RangeInfo n) [Six info] (crv : PairingCurve) {x : AssignedFq2 n} (h_x : Small r x) (power : ℕ) :
    Safe r (fq2_frobenius_map info crv x power) Small := by
  unfold fq2_frobenius_map; cases crv <;> tcountert

theorem cnt_fq6_frobenius_map (info : RangeInfo n) [Six info] (crv : PairingCurve) {x : AssignedFq6 n} (h_x : Small r x) (power : ℕ) :
    Safe r (fq6_frobenius_map info crv x power) Small := by
  unfold fq6_frobenius_map; tcountert

theorem cnt_fq12_frobenius_map (info : RangeInfo n) [Six info] (crv : PairingCurve) {x : AssignedFq12 n} (h_x : Small r x) (power : ℕ) :
    Safe r (fq12_frobenius_map info crv x power) Small := by
  unfold fq12_frobenius_map; tcountert

theorem cnt_doubling_step (info : RangeInfo n) [Six info] {pt : AssignedG2 n} (h_pt : Small r pt) :
    Safe r (doubling_step info pt) Small := by
  unfold doubling_step; tcountert

theorem cnt_addition_step (info : RangeInfo n) [Six info] {pt : AssignedG2 n} (h_pt : Small r pt) {pq : AssignedG2Affine n} (h_pq : Small r pq) :
    Safe r (addition_step info pt pq) Small := by
  unfold addition_step; tcountert

theorem cnt_g2affine_to_g2 (info : RangeInfo n) [Six info] {g2 : AssignedG2Affine n} (h_g2 : Small r g2) :
    Safe r (g2affine_to_g2 info g2) Small := by
  unfold g2affine_to_g2; tcountert

theorem cnt_g2_neg (info : RangeInfo n) [Six info] {g2 : AssignedG2Affine n} (h_g2 : Small r g2) :
    Safe r (g2_neg info g2) Small := by
  unfold g2_neg; tcountert

theorem cnt_ell (info : RangeInfo n) [Six info] (crv : PairingCurve) {f : AssignedFq12 n} (h_f : Small r f) {coeffs : LineCoeffs n} (h_coeffs : Small r coeffs) {p : AssignedPoint n} (h_p : Small r p) :
    Safe r (ell info crv f coeffs p) Small := by
  unfold ell; cases crv <;> tcountert

theorem cnt_ell_pairs (info : RangeInfo n) [Six info] (crv : PairingCurve) {f : AssignedFq12 n} (h_f : Small r f) {l : List (AssignedPoint n × List (LineCoeffs n))} (h : Small r l) :
    Safe r (ell_pairs info crv f l) Small := by
  induction l generalizing f r with
  | nil => exact .ret (small_pair h_f small_nil)
  | cons a l ih =>
    obtain ⟨p, c⟩ := a
    have h1 := (small_cons_iff.1 h).1
    have h2 := (small_cons_iff.1 h).2
    unfold ell_pairs
    refine (cnt_head (small_right h1)).bind fun _ _ l1 hc => (cnt_ell info crv (h_f.mono l1) hc ((small_left h1).mono l1)).bind
      fun _ _ l2 hf => (ih hf (h2.mono (l1.trans l2))).bind fun _ _ l3 hr => ?_
    have h1 := h1.mono ((l1.trans l2).trans l3)
    exact .ret (small_pair (small_fst hr) (small_cons (small_pair (small_left h1) (small_tail (small_right h1))) (small_snd hr)))

theorem cnt_assert_not_identity {l : List (AssignedPoint n × List (LineCoeffs n))} (h : Small r l) :
    Safe r (assert_not_identity l) Small := by
  induction l generalizing r with
  | nil => exact .ret (small_unit _)
  | cons a l ih =>
    obtain ⟨p, c⟩ := a
    unfold assert_not_identity
    exact (cnt_assert_false (small_pz (small_left (small_cons_iff.1 h).1))).bind fun _ _ l1 _ => ih ((small_cons_iff.1 h).2.mono l1)

theorem cnt_bn_prepare_step (info : RangeInfo n) [Six info] {g2 neg_g2 : AssignedG2Affine n} (h_g2 : Small r g2) (h_neg : Small r neg_g2) {s : List (LineCoeffs n) × AssignedG2 n} (hs : Small r s) (x : ℤ) :
    Safe r (bn_prepare_step info g2 neg_g2 s x) Small := by
  obtain ⟨l, q⟩ := s
  have h1 := small_left hs
  have h2 := small_right hs
  clear hs
  unfold bn_prepare_step; tcountert

theorem cnt_bn_prepare_g2 (info : RangeInfo n) [Six info] {g2 : AssignedG2Affine n} (h_g2 : Small r g2) :
    Safe r (bn_prepare_g2 info g2) Small := by
  unfold bn_prepare_g2
  refine (cnt_g2_neg info h_g2).bind fun _ _ l1 h1 => (cnt_g2affine_to_g2 info (h_g2.mono l1)).bind fun _ _ l2 h2 => ?_
  have h1 := h1.mono l2
  have h_g2 := h_g2.mono (l1.trans l2)
  refine (cnt_foldlM _ (fun _ h x _ hs => cnt_bn_prepare_step info (h_g2.mono h) (h1.mono h) hs x)
    (small_pair small_nil h2)).bindS fun _ _ _ l3 h3 h4 => ?_
  replace h_g2 := h_g2.mono l3
  clear h1 h2 l1 l2 l3
  tcountert

theorem cnt_bn_miller_loop (info : RangeInfo n) [Six info] (xs : List ℤ) (first : Bool) {f : AssignedFq12 n} (h_f : Small r f) {l : List (AssignedPoint n × List (LineCoeffs n))} (h : Small r l) :
    Safe r (bn_miller_loop info first f l xs) Small := by
  induction xs generalizing first f l r with
  | nil => unfold bn_miller_loop; exact .ret (small_pair h_f h)
  | cons x xs ih =>
    unfold bn_miller_loop
    refine Safe.ite (Safe.bind (Safe.ret (α := AssignedFq12 n) h_f) ?_) ((cnt_fq12_square info _ h_f).bind ?_) <;>
    · intro _ _ l1 h1
      refine (cnt_ell_pairs info _ h1 (h.mono l1)).bindS fun _ _ _ l2 h2 h3 => ?_
      refine Safe.ite ?_ (Safe.ite ?_ ?_)
      · exact (cnt_ell_pairs info _ h2 h3).bindS fun _ _ _ _ h4 h5 => ih _ h4 h5
      · exact (cnt_ell_pairs info _ h2 h3).bindS fun _ _ _ _ h4 h5 => ih _ h4 h5
      · exact ih _ h2 h3

theorem cnt_bn_multi_miller_loop (info : RangeInfo n) [Six info] {l : List (AssignedPoint n × List (LineCoeffs n))} (h : Small r l) :
    Safe r (bn_multi_miller_loop info l) Small := by
  unfold bn_multi_miller_loop
  refine (cnt_assert_not_identity h).bind fun _ _ l1 _ => (cnt_fq12_assign_one info).bind fun _ _ l2 h1 => ?_
  refine (cnt_bn_miller_loop info _ _ h1 (h.mono (l1.trans l2))).bindS fun _ _ _ _ h2 h3 => ?_
  refine (cnt_ell_pairs info _ h2 h3).bindS fun _ _ _ _ h4 h5 => (cnt_ell_pairs info _ h4 h5).bindS fun _ _ _ _ h6 h7 => ?_
  exact (cnt_rassert _).bind fun _ _ h _ => .ret (h6.mono h)

theorem cnt_bn_exp_step (info : RangeInfo n) [Six info] {f : AssignedFq12 n} (h_f : Small r f) {res : AssignedFq12 n} (h_res : Small r res) (bit : Bool) :
    Safe r (bn_exp_step info f res bit) Small := by
  unfold bn_exp_step; tcountert

theorem cnt_bn_exp_by_x (info : RangeInfo n) [Six info] {f : AssignedFq12 n} (h_f : Small r f) :
    Safe r (bn_exp_by_x info f) Small := by
  unfold bn_exp_by_x
  exact (cnt_fq12_assign_one info).bind fun _ _ l1 h1 => cnt_foldlM _ (fun _ h b _ hs =>
    cnt_bn_exp_step info (h_f.mono (l1.trans h)) hs b) h1

theorem cnt_bn_final_exponentiation (info : RangeInfo n) [Six info] {f : AssignedFq12 n} (h_f : Small r f) :
    Safe r (bn_final_exponentiation info f) Small := by
  unfold bn_final_exponentiation; tcountert

theorem cnt_bls_prepare_step (info : RangeInfo n) [Six info] {g2 : AssignedG2Affine n} (h_g2 : Small r g2) (b : Bool) {s : List (LineCoeffs n) × AssignedG2 n} (hs : Small r s) (i : Bool) :
    Safe r (bls_prepare_step info g2 (b, s) i) Small := by
  obtain ⟨l, q⟩ := s
  have h1 := small_left hs
  have h2 := small_right hs
  clear hs
  unfold bls_prepare_step
  tcountert

theorem cnt_bls_prepare_g2 (info : RangeInfo n) [Six info] {g2 : AssignedG2Affine n} (h_g2 : Small r g2) :
    Safe r (bls_prepare_g2 info g2) Small := by
  unfold bls_prepare_g2
  refine (cnt_g2affine_to_g2 info h_g2).bind fun _ _ l1 h2 => ?_
  refine (cnt_foldlM _ (fun _ h i a hs => cnt_bls_prepare_step info (h_g2.mono (l1.trans h)) a.1 (small_snd hs) i)
    (small_pair (small_bool _) (small_pair small_nil h2))).bind ?_
  rintro ⟨b, c, f⟩ r2 l2 h3
  have h4 := small_left (small_right h3)
  have h5 := small_right (small_right h3)
  clear h3
  dsimp only
  tcountert

theorem cnt_bls_miller_loop (info : RangeInfo n) [Six info] (xs : List Bool) (found : Bool) {f : AssignedFq12 n} (h_f : Small r f) {l : List (AssignedPoint n × List (LineCoeffs n))} (h : Small r l) :
    Safe r (bls_miller_loop info found f l xs) Small := by
  induction xs generalizing found f l r with
  | nil => unfold bls_miller_loop; exact .ret (small_pair h_f h)
  | cons x xs ih =>
    unfold bls_miller_loop
    refine Safe.ite (ih _ h_f h) ((cnt_ell_pairs info _ h_f h).bindS fun _ _ _ _ h2 h3 => ?_)
    refine Safe.ite ?_ ?_
    · exact (cnt_ell_pairs info _ h2 h3).bindS fun _ _ _ _ h4 h5 =>
        (cnt_fq12_square info _ h4).bind fun _ _ l6 h6 => ih _ h6 (h5.mono l6)
    · exact (cnt_fq12_square info _ h2).bind fun _ _ l6 h6 => ih _ h6 (h3.mono l6)

theorem cnt_bls_multi_miller_loop (info : RangeInfo n) [Six info] {l : List (AssignedPoint n × List (LineCoeffs n))} (h : Small r l) :
    Safe r (bls_multi_miller_loop info l) Small := by
  unfold bls_multi_miller_loop
  refine (cnt_assert_not_identity h).bind fun _ _ l1 _ => (cnt_fq12_assign_one info).bind fun _ _ l2 h1 => ?_
  refine (cnt_bls_miller_loop info _ _ h1 (h.mono (l1.trans l2))).bindS fun _ _ _ _ h2 h3 => ?_
  exact (cnt_ell_pairs info _ h2 h3).bindS fun _ _ _ _ h4 _ => cnt_fq12_conjugate info h4

theorem cnt_bls_exp_step (info : RangeInfo n) [Six info] {f : AssignedFq12 n} (h_f : Small r f) (b : Bool) {x : AssignedFq12 n} (h : Small r x) (i : Bool) :
    Safe r (bls_exp_step info f (b, x) i) Small := by
  unfold bls_exp_step
  tcountert

theorem cnt_bls_cyclotomic_exp (info : RangeInfo n) [Six info] {f : AssignedFq12 n} (h_f : Small r f) :
    Safe r (bls_cyclotomic_exp info f) Small := by
  unfold bls_cyclotomic_exp
  refine (cnt_fq12_assign_one info).bind fun _ _ l1 h1 =>
    (cnt_foldlM _ (fun _ h i a hs => cnt_bls_exp_step info (h_f.mono (l1.trans h)) a.1 (small_snd hs) i)
      (small_pair (small_bool _) h1)).bind ?_
  rintro ⟨b1, a1⟩ _ l2 h2
  exact cnt_fq12_conjugate info (small_right h2)

theorem cnt_bls_final_exponentiation (info : RangeInfo n) [Six info] {f : AssignedFq12 n} (h_f : Small r f) :
    Safe r (bls_final_exponentiation info f) Small := by
  unfold bls_final_exponentiation; tcountert

theorem cnt_prepare_g2 (info : RangeInfo n) [Six info] (crv : PairingCurve) {g2 : AssignedG2Affine n} (h : Small r g2) :
    Safe r (prepare_g2 info crv g2) Small := by
  cases crv
  · exact cnt_bn_prepare_g2 info h
  · exact cnt_bls_prepare_g2 info h

theorem cnt_multi_miller_loop (info : RangeInfo n) [Six info] (crv : PairingCurve) {l : List (AssignedPoint n × List (LineCoeffs n))} (h : Small r l) :
    Safe r (multi_miller_loop info crv l) Small := by
  cases crv
  · exact cnt_bn_multi_miller_loop info h
  · exact cnt_bls_multi_miller_loop info h

theorem cnt_final_exponentiation (info : RangeInfo n) [Six info] (crv : PairingCurve) {f : AssignedFq12 n} (h : Small r f) :
    Safe r (final_exponentiation info crv f) Small := by
  cases crv
  · exact cnt_bn_final_exponentiation info h
  · exact cnt_bls_final_exponentiation info h

theorem cnt_prepare_terms (info : RangeInfo n) [Six info] (crv : PairingCurve) {l : List (AssignedPoint n × AssignedG2Affine n)} (h : Small r l) :
    Safe r (prepare_terms info crv l) Small := by
  induction l generalizing r with
  | nil => exact .ret small_nil
  | cons a l ih =>
    obtain ⟨p, q⟩ := a
    have h1 := (small_cons_iff.1 h).1
    have h2 := (small_cons_iff.1 h).2
    unfold prepare_terms
    exact (cnt_prepare_g2 info crv (small_right h1)).bind fun _ _ l1 h3 => (ih (h2.mono l1)).bind fun _ _ l2 h4 =>
      .ret (small_cons (small_pair ((small_left h1).mono (l1.trans l2)) (h3.mono l2)) h4)

theorem cnt_pairing (info : RangeInfo n) [Six info] (crv : PairingCurve) {l : List (AssignedPoint n × AssignedG2Affine n)} (h : Small r l) :
    Safe r (pairing info crv l) Small := by
  unfold pairing; tcountert

theorem cnt_check_pairing (info : RangeInfo n) [Six info] (crv : PairingCurve) {l : List (AssignedPoint n × AssignedG2Affine n)} (h : Small r l) :
    Safe r (check_pairing info crv l) Small := by
  unfold check_pairing; tcountert

end Verif
