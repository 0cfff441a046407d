import Verif.Proof.CellsEcc
import Verif.Spec.TowerShape

/-!
# The tower and the pairing hand out cells with values
-/

namespace Verif
variable {n : ℕ} {α β γ : Type} {r : RecordsInner n}

instance : HasCells n (AssignedFq6 n) := ⟨fun a => cells a.c0 ++ cells a.c1 ++ cells a.c2⟩
instance : HasCells n (AssignedFq12 n) := ⟨fun a => cells a.c0 ++ cells a.c1⟩
instance : HasCells n (AssignedG2Affine n) := ⟨fun a => cells a.x ++ cells a.y ++ cells a.z⟩
instance : HasCells n (AssignedG2 n) := ⟨fun a => cells a.x ++ cells a.y ++ cells a.z⟩
instance : HasCells n (LineCoeffs n) := ⟨fun a => cells a.c0 ++ cells a.c1 ++ cells a.c2⟩
instance : HasCells n Bool := ⟨fun _ => []⟩

theorem in_f6 {a b c : AssignedFq2 n} (ha : In r a) (hb : In r b) (hc : In r c) : In r (⟨a, b, c⟩ : AssignedFq6 n) :=
  in_append_cells.2 ⟨in_append_cells.2 ⟨ha, hb⟩, hc⟩
theorem in_f60 {a : AssignedFq6 n} (h : In r a) : In r a.c0 := (in_append_cells.1 (in_append_cells.1 h).1).1
theorem in_f61 {a : AssignedFq6 n} (h : In r a) : In r a.c1 := (in_append_cells.1 (in_append_cells.1 h).1).2
theorem in_f62 {a : AssignedFq6 n} (h : In r a) : In r a.c2 := (in_append_cells.1 h).2
theorem in_f12 {a b : AssignedFq6 n} (ha : In r a) (hb : In r b) : In r (⟨a, b⟩ : AssignedFq12 n) :=
  in_append_cells.2 ⟨ha, hb⟩
theorem in_f120 {a : AssignedFq12 n} (h : In r a) : In r a.c0 := (in_append_cells.1 h).1
theorem in_f121 {a : AssignedFq12 n} (h : In r a) : In r a.c1 := (in_append_cells.1 h).2
theorem in_ga {a b : AssignedFq2 n} {c : AssignedCondition n} (ha : In r a) (hb : In r b) (hc : In r c) :
    In r (⟨a, b, c⟩ : AssignedG2Affine n) := in_append_cells.2 ⟨in_append_cells.2 ⟨ha, hb⟩, hc⟩
theorem in_gax {a : AssignedG2Affine n} (h : In r a) : In r a.x := (in_append_cells.1 (in_append_cells.1 h).1).1
theorem in_gay {a : AssignedG2Affine n} (h : In r a) : In r a.y := (in_append_cells.1 (in_append_cells.1 h).1).2
theorem in_gaz {a : AssignedG2Affine n} (h : In r a) : In r a.z := (in_append_cells.1 h).2
theorem in_g {a b c : AssignedFq2 n} (ha : In r a) (hb : In r b) (hc : In r c) : In r (⟨a, b, c⟩ : AssignedG2 n) :=
  in_append_cells.2 ⟨in_append_cells.2 ⟨ha, hb⟩, hc⟩
theorem in_gx {a : AssignedG2 n} (h : In r a) : In r a.x := (in_append_cells.1 (in_append_cells.1 h).1).1
theorem in_gy {a : AssignedG2 n} (h : In r a) : In r a.y := (in_append_cells.1 (in_append_cells.1 h).1).2
theorem in_gz {a : AssignedG2 n} (h : In r a) : In r a.z := (in_append_cells.1 h).2
theorem in_line {a b c : AssignedFq2 n} (ha : In r a) (hb : In r b) (hc : In r c) : In r (⟨a, b, c⟩ : LineCoeffs n) :=
  in_append_cells.2 ⟨in_append_cells.2 ⟨ha, hb⟩, hc⟩
theorem in_l0 {a : LineCoeffs n} (h : In r a) : In r a.c0 := (in_append_cells.1 (in_append_cells.1 h).1).1
theorem in_l1 {a : LineCoeffs n} (h : In r a) : In r a.c1 := (in_append_cells.1 (in_append_cells.1 h).1).2
theorem in_l2 {a : LineCoeffs n} (h : In r a) : In r a.c2 := (in_append_cells.1 h).2
theorem in_bool (b : Bool) : In r b := in_none rfl

/-- Close a goal `In r x` about elements of the tower. -/
macro "tcells" : tactic => `(tactic|
  repeat' first
    | with_reducible assumption
    | with_reducible exact trivial
    | with_reducible exact in_unit _
    | with_reducible exact in_bool _
    | with_reducible exact in_nil
    | with_reducible apply in_append
    | with_reducible apply in_cons
    | with_reducible apply in_f60
    | with_reducible apply in_f61
    | with_reducible apply in_f62
    | with_reducible apply in_f120
    | with_reducible apply in_f121
    | with_reducible apply in_gax
    | with_reducible apply in_gay
    | with_reducible apply in_gaz
    | with_reducible apply in_gx
    | with_reducible apply in_gy
    | with_reducible apply in_gz
    | with_reducible apply in_l0
    | with_reducible apply in_l1
    | with_reducible apply in_l2
    | with_reducible apply in_px
    | with_reducible apply in_py
    | with_reducible apply in_pz
    | with_reducible apply in_pair
    | with_reducible apply in_f6
    | with_reducible apply in_f12
    | with_reducible apply in_ga
    | with_reducible apply in_g
    | with_reducible apply in_line
    | (with_reducible apply in_left; with_reducible assumption)
    | (with_reducible apply in_right; with_reducible assumption)
    | with_reducible apply in_fst
    | with_reducible apply in_snd)

/-- `cellt` for the tower. -/
macro "tcellt" : tactic => `(tactic|
  repeat' first
    | cintro
    | with_reducible assumption
    | with_reducible apply W.ret
    | with_reducible exact W.panic
    | with_reducible exact W.panic_bind
    | with_reducible apply W.bindS
    | with_reducible apply W.bind
    | head_lemma cel
    | with_reducible apply W.ite
    | (tcells; done)
    | dsimp only)

theorem cel_foldlM [HasCells n α] {f : α → β → M n α} (l : List β)
    (hf : ∀ r', RLe r r' → ∀ b a, In r' a → W r' (f a b) In) {a : α} (ha : In r a) : W r (l.foldlM f a) In := by
  induction l generalizing a r with
  | nil => exact .ret ha
  | cons b l ih =>
    rw [List.foldlM_cons]
    exact (hf r (.rfl _) b a ha).bind fun _ r1 l1 h => ih (fun r' h => hf r' (l1.trans h)) h

theorem cel_head [HasCells n α] {l : List α} (h : In r l) : W r (unwrap l.head?) In := by
  cases l with
  | nil => exact .panic
  | cons a l => exact .ret (in_cons_iff.1 h).1

theorem cel_fq2_reduce (info : RangeInfo n) {x : AssignedFq2 n} (h_x : In r x) :
    W r (fq2_reduce info x) In := by
  unfold fq2_reduce; tcellt

theorem cel_fq2_assert_equal (info : RangeInfo n) {x : AssignedFq2 n} (h_x : In r x) {y : AssignedFq2 n} (h_y : In r y) :
    W r (fq2_assert_equal info x y) In := by
  unfold fq2_assert_equal; tcellt

theorem cel_fq2_assign_zero (info : RangeInfo n) :
    W r (fq2_assign_zero info) In := by
  unfold fq2_assign_zero; tcellt

theorem cel_fq2_assign_one (info : RangeInfo n) :
    W r (fq2_assign_one info) In := by
  unfold fq2_assign_one; tcellt

theorem cel_fq2_assign_constant (info : RangeInfo n) (c : ℕ × ℕ) :
    W r (fq2_assign_constant info c) In := by
  unfold fq2_assign_constant; tcellt

theorem cel_fq2_add (info : RangeInfo n) {a : AssignedFq2 n} (h_a : In r a) {b : AssignedFq2 n} (h_b : In r b) :
    W r (fq2_add info a b) In := by
  unfold fq2_add; tcellt

theorem cel_fq2_mul (info : RangeInfo n) {a : AssignedFq2 n} (h_a : In r a) {b : AssignedFq2 n} (h_b : In r b) :
    W r (fq2_mul info a b) In := by
  unfold fq2_mul; tcellt

theorem cel_fq2_sub (info : RangeInfo n) {a : AssignedFq2 n} (h_a : In r a) {b : AssignedFq2 n} (h_b : In r b) :
    W r (fq2_sub info a b) In := by
  unfold fq2_sub; tcellt

theorem cel_fq2_double (info : RangeInfo n) {a : AssignedFq2 n} (h_a : In r a) :
    W r (fq2_double info a) In := by
  unfold fq2_double; tcellt

theorem cel_fq2_square (info : RangeInfo n) {a : AssignedFq2 n} (h_a : In r a) :
    W r (fq2_square info a) In := by
  unfold fq2_square; tcellt

theorem cel_fq2_neg (info : RangeInfo n) {a : AssignedFq2 n} (h_a : In r a) :
    W r (fq2_neg info a) In := by
  unfold fq2_neg; tcellt

theorem cel_fq2_conjugate (info : RangeInfo n) {a : AssignedFq2 n} (h_a : In r a) :
    W r (fq2_conjugate info a) In := by
  unfold fq2_conjugate; tcellt

theorem cel_fq2_unsafe_invert (info : RangeInfo n) {x : AssignedFq2 n} (h_x : In r x) :
    W r (fq2_unsafe_invert info x) In := by
  unfold fq2_unsafe_invert; tcellt

theorem cel_fq2_mul_by_nonresidue (info : RangeInfo n) (crv : PairingCurve) {a : AssignedFq2 n} (h_a : In r a) :
    W r (fq2_mul_by_nonresidue info crv a) In := by
  unfold fq2_mul_by_nonresidue; cases crv <;> tcellt

theorem cel_fq6_reduce (info : RangeInfo n) {x : AssignedFq6 n} (h_x : In r x) :
    W r (fq6_reduce info x) In := by
  unfold fq6_reduce; tcellt

theorem cel_fq6_assert_equal (info : RangeInfo n) {x : AssignedFq6 n} (h_x : In r x) {y : AssignedFq6 n} (h_y : In r y) :
    W r (fq6_assert_equal info x y) In := by
  unfold fq6_assert_equal; tcellt

theorem cel_fq6_assign_zero (info : RangeInfo n) :
    W r (fq6_assign_zero info) In := by
  unfold fq6_assign_zero; tcellt

theorem cel_fq6_assign_one (info : RangeInfo n) :
    W r (fq6_assign_one info) In := by
  unfold fq6_assign_one; tcellt

theorem cel_fq6_add (info : RangeInfo n) {a : AssignedFq6 n} (h_a : In r a) {b : AssignedFq6 n} (h_b : In r b) :
    W r (fq6_add info a b) In := by
  unfold fq6_add; tcellt

theorem cel_fq6_mul (info : RangeInfo n) (crv : PairingCurve) {a : AssignedFq6 n} (h_a : In r a) {b : AssignedFq6 n} (h_b : In r b) :
    W r (fq6_mul info crv a b) In := by
  unfold fq6_mul; tcellt

theorem cel_fq6_sub (info : RangeInfo n) {a : AssignedFq6 n} (h_a : In r a) {b : AssignedFq6 n} (h_b : In r b) :
    W r (fq6_sub info a b) In := by
  unfold fq6_sub; tcellt

theorem cel_fq6_double (info : RangeInfo n) {a : AssignedFq6 n} (h_a : In r a) :
    W r (fq6_double info a) In := by
  unfold fq6_double; tcellt

theorem cel_fq6_square (info : RangeInfo n) (crv : PairingCurve) {a : AssignedFq6 n} (h_a : In r a) :
    W r (fq6_square info crv a) In := by
  unfold fq6_square; tcellt

theorem cel_fq6_neg (info : RangeInfo n) {a : AssignedFq6 n} (h_a : In r a) :
    W r (fq6_neg info a) In := by
  unfold fq6_neg; tcellt

theorem cel_fq6_mul_by_1 (info : RangeInfo n) (crv : PairingCurve) {a : AssignedFq6 n} (h_a : In r a) {b1 : AssignedFq2 n} (h_b1 : In r b1) :
    W r (fq6_mul_by_1 info crv a b1) In := by
  unfold fq6_mul_by_1; tcellt

theorem cel_fq6_mul_by_01 (info : RangeInfo n) (crv : PairingCurve) {a : AssignedFq6 n} (h_a : In r a) {b0 : AssignedFq2 n} (h_b0 : In r b0) {b1 : AssignedFq2 n} (h_b1 : In r b1) :
    W r (fq6_mul_by_01 info crv a b0 b1) In := by
  unfold fq6_mul_by_01; tcellt

theorem cel_fq6_unsafe_invert (info : RangeInfo n) (crv : PairingCurve) {x : AssignedFq6 n} (h_x : In r x) :
    W r (fq6_unsafe_invert info crv x) In := by
  unfold fq6_unsafe_invert; tcellt

theorem cel_fq6_assign_constant (info : RangeInfo n) (c : (ℕ × ℕ) × (ℕ × ℕ) × (ℕ × ℕ)) :
    W r (fq6_assign_constant info c) In := by
  unfold fq6_assign_constant; tcellt

theorem cel_fq6_mul_by_nonresidue (info : RangeInfo n) (crv : PairingCurve) {a : AssignedFq6 n} (h_a : In r a) :
    W r (fq6_mul_by_nonresidue info crv a) In := by
  unfold fq6_mul_by_nonresidue; tcellt

theorem cel_fq12_reduce (info : RangeInfo n) {x : AssignedFq12 n} (h_x : In r x) :
    W r (fq12_reduce info x) In := by
  unfold fq12_reduce; tcellt

theorem cel_fq12_assert_eq (info : RangeInfo n) {x : AssignedFq12 n} (h_x : In r x) {y : AssignedFq12 n} (h_y : In r y) :
    W r (fq12_assert_eq info x y) In := by
  unfold fq12_assert_eq; tcellt

theorem cel_fq12_assign_zero (info : RangeInfo n) :
    W r (fq12_assign_zero info) In := by
  unfold fq12_assign_zero; tcellt

theorem cel_fq12_assign_one (info : RangeInfo n) :
    W r (fq12_assign_one info) In := by
  unfold fq12_assign_one; tcellt

theorem cel_fq12_assert_one (info : RangeInfo n) {x : AssignedFq12 n} (h_x : In r x) :
    W r (fq12_assert_one info x) In := by
  unfold fq12_assert_one; tcellt

theorem cel_fq12_add (info : RangeInfo n) {a : AssignedFq12 n} (h_a : In r a) {b : AssignedFq12 n} (h_b : In r b) :
    W r (fq12_add info a b) In := by
  unfold fq12_add; tcellt

theorem cel_fq12_mul (info : RangeInfo n) (crv : PairingCurve) {a : AssignedFq12 n} (h_a : In r a) {b : AssignedFq12 n} (h_b : In r b) :
    W r (fq12_mul info crv a b) In := by
  unfold fq12_mul; tcellt

theorem cel_fq12_sub (info : RangeInfo n) {a : AssignedFq12 n} (h_a : In r a) {b : AssignedFq12 n} (h_b : In r b) :
    W r (fq12_sub info a b) In := by
  unfold fq12_sub; tcellt

theorem cel_fq12_double (info : RangeInfo n) {a : AssignedFq12 n} (h_a : In r a) :
    W r (fq12_double info a) In := by
  unfold fq12_double; tcellt

theorem cel_fq12_square (info : RangeInfo n) (crv : PairingCurve) {a : AssignedFq12 n} (h_a : In r a) :
    W r (fq12_square info crv a) In := by
  unfold fq12_square; tcellt

theorem cel_fq12_neg (info : RangeInfo n) {a : AssignedFq12 n} (h_a : In r a) :
    W r (fq12_neg info a) In := by
  unfold fq12_neg; tcellt

theorem cel_fq12_conjugate (info : RangeInfo n) {x : AssignedFq12 n} (h_x : In r x) :
    W r (fq12_conjugate info x) In := by
  unfold fq12_conjugate; tcellt

theorem cel_fq12_mul_by_014 (info : RangeInfo n) (crv : PairingCurve) {x : AssignedFq12 n} (h_x : In r x) {c0 : AssignedFq2 n} (h_c0 : In r c0) {c1 : AssignedFq2 n} (h_c1 : In r c1) {c4 : AssignedFq2 n} (h_c4 : In r c4) :
    W r (fq12_mul_by_014 info crv x c0 c1 c4) In := by
  unfold fq12_mul_by_014; tcellt

theorem cel_fq12_mul_by_034 (info : RangeInfo n) (crv : PairingCurve) {x : AssignedFq12 n} (h_x : In r x) {c0 : AssignedFq2 n} (h_c0 : In r c0) {c3 : AssignedFq2 n} (h_c3 : In r c3) {c4 : AssignedFq2 n} (h_c4 : In r c4) :
    W r (fq12_mul_by_034 info crv x c0 c3 c4) In := by
  unfold fq12_mul_by_034; tcellt

theorem cel_fp4_square (info : RangeInfo n) (crv : PairingCurve) {a0 : AssignedFq2 n} (h_a0 : In r a0) {a1 : AssignedFq2 n} (h_a1 : In r a1) :
    W r (fp4_square info crv a0 a1) In := by
  unfold fp4_square; tcellt

theorem cel_fq12_cyclotomic_square (info : RangeInfo n) (crv : PairingCurve) {x : AssignedFq12 n} (h_x : In r x) :
    W r (fq12_cyclotomic_square info crv x) In := by
  unfold fq12_cyclotomic_square; tcellt

theorem cel_fq12_unsafe_invert (info : RangeInfo n) (crv : PairingCurve) {x : AssignedFq12 n} (h_x : In r x) :
    W r (fq12_unsafe_invert info crv x) In := by
  unfold fq12_unsafe_invert; tcellt

theorem cel_fq12_assign_constant (info : RangeInfo n) (c : ((ℕ × ℕ) × (ℕ × ℕ) × (ℕ × ℕ)) × ((ℕ × ℕ) × (ℕ × ℕ) × (ℕ × ℕ))) :
    W r (fq12_assign_constant info c) In := by
  unfold fq12_assign_constant; tcellt

theorem cel_fq2_frobenius_map (info : RangeInfo n) (crv : PairingCurve) {x : AssignedFq2 n} (h_x : In r x) (power : ℕ) :
    W r (fq2_frobenius_map info crv x power) In := by
  unfold fq2_frobenius_map; cases crv <;> tcellt

theorem cel_fq6_frobenius_map (info : RangeInfo n) (crv : PairingCurve) {x : AssignedFq6 n} (h_x : In r x) (power : ℕ) :
    W r (fq6_frobenius_map info crv x power) In := by
  unfold fq6_frobenius_map; tcellt

theorem cel_fq12_frobenius_map (info : RangeInfo n) (crv : PairingCurve) {x : AssignedFq12 n} (h_x : In r x) (power : ℕ) :
    W r (fq12_frobenius_map info crv x power) In := by
  unfold fq12_frobenius_map; tcellt

theorem cel_doubling_step (info : RangeInfo n) {pt : AssignedG2 n} (h_pt : In r pt) :
    W r (doubling_step info pt) In := by
  unfold doubling_step; tcellt

theorem cel_addition_step (info : RangeInfo n) {pt : AssignedG2 n} (h_pt : In r pt) {pq : AssignedG2Affine n} (h_pq : In r pq) :
    W r (addition_step info pt pq) In := by
  unfold addition_step; tcellt

theorem cel_g2affine_to_g2 (info : RangeInfo n) {g2 : AssignedG2Affine n} (h_g2 : In r g2) :
    W r (g2affine_to_g2 info g2) In := by
  unfold g2affine_to_g2; tcellt

theorem cel_g2_neg (info : RangeInfo n) {g2 : AssignedG2Affine n} (h_g2 : In r g2) :
    W r (g2_neg info g2) In := by
  unfold g2_neg; tcellt

theorem cel_ell (info : RangeInfo n) (crv : PairingCurve) {f : AssignedFq12 n} (h_f : In r f) {coeffs : LineCoeffs n} (h_coeffs : In r coeffs) {p : AssignedPoint n} (h_p : In r p) :
    W r (ell info crv f coeffs p) In := by
  unfold ell; cases crv <;> tcellt

theorem cel_ell_pairs (info : RangeInfo n) (crv : PairingCurve) {f : AssignedFq12 n} (h_f : In r f) {l : List (AssignedPoint n × List (LineCoeffs n))} (h : In r l) :
    W r (ell_pairs info crv f l) In := by
  induction l generalizing f r with
  | nil => exact .ret (in_pair h_f in_nil)
  | cons a l ih =>
    obtain ⟨p, c⟩ := a
    have h1 := (in_cons_iff.1 h).1
    have h2 := (in_cons_iff.1 h).2
    unfold ell_pairs
    refine (cel_head (in_right h1)).bind fun _ _ l1 hc => (cel_ell info crv (h_f.mono l1) hc ((in_left h1).mono l1)).bind
      fun _ _ l2 hf => (ih hf (h2.mono (l1.trans l2))).bind fun _ _ l3 hr => ?_
    have h1 := h1.mono ((l1.trans l2).trans l3)
    exact .ret (in_pair (in_fst hr) (in_cons (in_pair (in_left h1) (in_tail (in_right h1))) (in_snd hr)))

theorem cel_assert_not_identity {l : List (AssignedPoint n × List (LineCoeffs n))} (h : In r l) :
    W r (assert_not_identity l) In := by
  induction l generalizing r with
  | nil => exact .ret (in_unit _)
  | cons a l ih =>
    obtain ⟨p, c⟩ := a
    unfold assert_not_identity
    exact (cel_assert_false (in_pz (in_left (in_cons_iff.1 h).1))).bind fun _ _ l1 _ => ih ((in_cons_iff.1 h).2.mono l1)

theorem cel_bn_prepare_step (info : RangeInfo n) {g2 neg_g2 : AssignedG2Affine n} (h_g2 : In r g2) (h_neg : In r neg_g2) {s : List (LineCoeffs n) × AssignedG2 n} (hs : In r s) (x : ℤ) :
    W r (bn_prepare_step info g2 neg_g2 s x) In := by
  obtain ⟨l, q⟩ := s
  have h1 := in_left hs
  have h2 := in_right hs
  clear hs
  unfold bn_prepare_step; tcellt

theorem cel_bn_prepare_g2 (info : RangeInfo n) {g2 : AssignedG2Affine n} (h_g2 : In r g2) :
    W r (bn_prepare_g2 info g2) In := by
  unfold bn_prepare_g2
  refine (cel_g2_neg info h_g2).bind fun _ _ l1 h1 => (cel_g2affine_to_g2 info (h_g2.mono l1)).bind fun _ _ l2 h2 => ?_
  have h1 := h1.mono l2
  have h_g2 := h_g2.mono (l1.trans l2)
  refine (cel_foldlM _ (fun _ h x _ hs => cel_bn_prepare_step info (h_g2.mono h) (h1.mono h) hs x)
    (in_pair in_nil h2)).bindS fun _ _ _ l3 h3 h4 => ?_
  replace h_g2 := h_g2.mono l3
  clear h1 h2 l1 l2 l3
  tcellt

theorem cel_bn_miller_loop (info : RangeInfo n) (xs : List ℤ) (first : Bool) {f : AssignedFq12 n} (h_f : In r f) {l : List (AssignedPoint n × List (LineCoeffs n))} (h : In r l) :
    W r (bn_miller_loop info first f l xs) In := by
  induction xs generalizing first f l r with
  | nil => unfold bn_miller_loop; exact .ret (in_pair h_f h)
  | cons x xs ih =>
    unfold bn_miller_loop
    refine W.ite (W.bind (W.ret (α := AssignedFq12 n) h_f) ?_) ((cel_fq12_square info _ h_f).bind ?_) <;>
    · intro _ _ l1 h1
      refine (cel_ell_pairs info _ h1 (h.mono l1)).bindS fun _ _ _ l2 h2 h3 => ?_
      refine W.ite ?_ (W.ite ?_ ?_)
      · exact (cel_ell_pairs info _ h2 h3).bindS fun _ _ _ _ h4 h5 => ih _ h4 h5
      · exact (cel_ell_pairs info _ h2 h3).bindS fun _ _ _ _ h4 h5 => ih _ h4 h5
      · exact ih _ h2 h3

theorem cel_bn_multi_miller_loop (info : RangeInfo n) {l : List (AssignedPoint n × List (LineCoeffs n))} (h : In r l) :
    W r (bn_multi_miller_loop info l) In := by
  unfold bn_multi_miller_loop
  refine (cel_assert_not_identity h).bind fun _ _ l1 _ => (cel_fq12_assign_one info).bind fun _ _ l2 h1 => ?_
  refine (cel_bn_miller_loop info _ _ h1 (h.mono (l1.trans l2))).bindS fun _ _ _ _ h2 h3 => ?_
  refine (cel_ell_pairs info _ h2 h3).bindS fun _ _ _ _ h4 h5 => (cel_ell_pairs info _ h4 h5).bindS fun _ _ _ _ h6 h7 => ?_
  exact (cel_rassert _).bind fun _ _ h _ => .ret (h6.mono h)

theorem cel_bn_exp_step (info : RangeInfo n) {f : AssignedFq12 n} (h_f : In r f) {res : AssignedFq12 n} (h_res : In r res) (bit : Bool) :
    W r (bn_exp_step info f res bit) In := by
  unfold bn_exp_step; tcellt

theorem cel_bn_exp_by_x (info : RangeInfo n) {f : AssignedFq12 n} (h_f : In r f) :
    W r (bn_exp_by_x info f) In := by
  unfold bn_exp_by_x
  exact (cel_fq12_assign_one info).bind fun _ _ l1 h1 => cel_foldlM _ (fun _ h b _ hs =>
    cel_bn_exp_step info (h_f.mono (l1.trans h)) hs b) h1

theorem cel_bn_final_exponentiation (info : RangeInfo n) {f : AssignedFq12 n} (h_f : In r f) :
    W r (bn_final_exponentiation info f) In := by
  unfold bn_final_exponentiation; tcellt

theorem cel_bls_prepare_step (info : RangeInfo n) {g2 : AssignedG2Affine n} (h_g2 : In r g2) (b : Bool) {s : List (LineCoeffs n) × AssignedG2 n} (hs : In r s) (i : Bool) :
    W r (bls_prepare_step info g2 (b, s) i) In := by
  obtain ⟨l, q⟩ := s
  have h1 := in_left hs
  have h2 := in_right hs
  clear hs
  unfold bls_prepare_step
  tcellt

theorem cel_bls_prepare_g2 (info : RangeInfo n) {g2 : AssignedG2Affine n} (h_g2 : In r g2) :
    W r (bls_prepare_g2 info g2) In := by
  unfold bls_prepare_g2
  refine (cel_g2affine_to_g2 info h_g2).bind fun _ _ l1 h2 => ?_
  refine (cel_foldlM _ (fun _ h i a hs => cel_bls_prepare_step info (h_g2.mono (l1.trans h)) a.1 (in_snd hs) i)
    (in_pair (in_bool _) (in_pair in_nil h2))).bind ?_
  rintro ⟨b, c, f⟩ r2 l2 h3
  have h4 := in_left (in_right h3)
  have h5 := in_right (in_right h3)
  clear h3
  dsimp only
  tcellt

theorem cel_bls_miller_loop (info : RangeInfo n) (xs : List Bool) (found : Bool) {f : AssignedFq12 n} (h_f : In r f) {l : List (AssignedPoint n × List (LineCoeffs n))} (h : In r l) :
    W r (bls_miller_loop info found f l xs) In := by
  induction xs generalizing found f l r with
  | nil => unfold bls_miller_loop; exact .ret (in_pair h_f h)
  | cons x xs ih =>
    unfold bls_miller_loop
    refine W.ite (ih _ h_f h) ((cel_ell_pairs info _ h_f h).bindS fun _ _ _ _ h2 h3 => ?_)
    refine W.ite ?_ ?_
    · exact (cel_ell_pairs info _ h2 h3).bindS fun _ _ _ _ h4 h5 =>
        (cel_fq12_square info _ h4).bind fun _ _ l6 h6 => ih _ h6 (h5.mono l6)
    · exact (cel_fq12_square info _ h2).bind fun _ _ l6 h6 => ih _ h6 (h3.mono l6)

theorem cel_bls_multi_miller_loop (info : RangeInfo n) {l : List (AssignedPoint n × List (LineCoeffs n))} (h : In r l) :
    W r (bls_multi_miller_loop info l) In := by
  unfold bls_multi_miller_loop
  refine (cel_assert_not_identity h).bind fun _ _ l1 _ => (cel_fq12_assign_one info).bind fun _ _ l2 h1 => ?_
  refine (cel_bls_miller_loop info _ _ h1 (h.mono (l1.trans l2))).bindS fun _ _ _ _ h2 h3 => ?_
  exact (cel_ell_pairs info _ h2 h3).bindS fun _ _ _ _ h4 _ => cel_fq12_conjugate info h4

theorem cel_bls_exp_step (info : RangeInfo n) {f : AssignedFq12 n} (h_f : In r f) (b : Bool) {x : AssignedFq12 n} (h : In r x) (i : Bool) :
    W r (bls_exp_step info f (b, x) i) In := by
  unfold bls_exp_step
  tcellt

theorem cel_bls_cyclotomic_exp (info : RangeInfo n) {f : AssignedFq12 n} (h_f : In r f) :
    W r (bls_cyclotomic_exp info f) In := by
  unfold bls_cyclotomic_exp
  refine (cel_fq12_assign_one info).bind fun _ _ l1 h1 =>
    (cel_foldlM _ (fun _ h i a hs => cel_bls_exp_step info (h_f.mono (l1.trans h)) a.1 (in_snd hs) i)
      (in_pair (in_bool _) h1)).bind ?_
  rintro ⟨b1, a1⟩ _ l2 h2
  exact cel_fq12_conjugate info (in_right h2)

theorem cel_bls_final_exponentiation (info : RangeInfo n) {f : AssignedFq12 n} (h_f : In r f) :
    W r (bls_final_exponentiation info f) In := by
  unfold bls_final_exponentiation; tcellt

theorem cel_prepare_g2 (info : RangeInfo n) (crv : PairingCurve) {g2 : AssignedG2Affine n} (h : In r g2) :
    W r (prepare_g2 info crv g2) In := by
  cases crv
  · exact cel_bn_prepare_g2 info h
  · exact cel_bls_prepare_g2 info h

theorem cel_multi_miller_loop (info : RangeInfo n) (crv : PairingCurve) {l : List (AssignedPoint n × List (LineCoeffs n))} (h : In r l) :
    W r (multi_miller_loop info crv l) In := by
  cases crv
  · exact cel_bn_multi_miller_loop info h
  · exact cel_bls_multi_miller_loop info h

theorem cel_final_exponentiation (info : RangeInfo n) (crv : PairingCurve) {f : AssignedFq12 n} (h : In r f) :
    W r (final_exponentiation info crv f) In := by
  cases crv
  · exact cel_bn_final_exponentiation info h
  · exact cel_bls_final_exponentiation info h

theorem cel_prepare_terms (info : RangeInfo n) (crv : PairingCurve) {l : List (AssignedPoint n × AssignedG2Affine n)} (h : In r l) :
    W r (prepare_terms info crv l) In := by
  induction l generalizing r with
  | nil => exact .ret in_nil
  | cons a l ih =>
    obtain ⟨p, q⟩ := a
    have h1 := (in_cons_iff.1 h).1
    have h2 := (in_cons_iff.1 h).2
    unfold prepare_terms
    exact (cel_prepare_g2 info crv (in_right h1)).bind fun _ _ l1 h3 => (ih (h2.mono l1)).bind fun _ _ l2 h4 =>
      .ret (in_cons (in_pair ((in_left h1).mono (l1.trans l2)) (h3.mono l2)) h4)

theorem cel_pairing (info : RangeInfo n) (crv : PairingCurve) {l : List (AssignedPoint n × AssignedG2Affine n)} (h : In r l) :
    W r (pairing info crv l) In := by
  unfold pairing; tcellt

theorem cel_check_pairing (info : RangeInfo n) (crv : PairingCurve) {l : List (AssignedPoint n × AssignedG2Affine n)} (h : In r l) :
    W r (check_pairing info crv l) In := by
  unfold check_pairing; tcellt

end Verif
