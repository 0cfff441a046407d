import Verif.Proof.CounterOps

/-!
# The ECC chip and scalar decomposition keep counters small
-/

set_option linter.unusedVariables false

namespace Verif
variable {n : ℕ} {α β γ : Type} {r : Tag n}

theorem cnt_assign_constant_point (info : RangeInfo n) [Six info] (c : Option (ℕ × ℕ)) :
    Safe r (assign_constant_point info c) Small := by
  unfold assign_constant_point; countert

theorem cnt_assign_point (info : RangeInfo n) [Six info] (b : ℕ) (c : Option (ℕ × ℕ)) :
    Safe r (assign_point info b c) Small := by
  unfold assign_point; countert

theorem cnt_assign_non_zero_point (info : RangeInfo n) [Six info] (b : ℕ) (c : Option (ℕ × ℕ)) :
    Safe r (assign_non_zero_point info b c) Small := by
  unfold assign_non_zero_point; countert

theorem cnt_assign_identity (info : RangeInfo n) [Six info] :
    Safe r (assign_identity info) Small := by
  unfold assign_identity; countert

theorem cnt_bisec_point (info : RangeInfo n) [Six info] {cond : AssignedCondition n} (h_cond : Small r cond) {a : AssignedPoint n} (h_a : Small r a) {b : AssignedPoint n} (h_b : Small r b) :
    Safe r (bisec_point info cond a b) Small := by
  unfold bisec_point; countert

theorem cnt_bisec_curvature (info : RangeInfo n) [Six info] {cond : AssignedCondition n} (h_cond : Small r cond) {a : AssignedCurvature n} (h_a : Small r a) {b : AssignedCurvature n} (h_b : Small r b) :
    Safe r (bisec_curvature info cond a b) Small := by
  unfold bisec_curvature; countert

theorem cnt_bisec_point_with_curvature (info : RangeInfo n) [Six info] {cond : AssignedCondition n} (h_cond : Small r cond) {a : AssignedPointWithCurvature n} (h_a : Small r a) {b : AssignedPointWithCurvature n} (h_b : Small r b) :
    Safe r (bisec_point_with_curvature info cond a b) Small := by
  unfold bisec_point_with_curvature; countert

theorem cnt_lambda_to_point_non_zero (info : RangeInfo n) [Six info] {l : AssignedInteger n} (h_l : Small r l) {a : AssignedNonZeroPoint n} (h_a : Small r a) {b : AssignedNonZeroPoint n} (h_b : Small r b) :
    Safe r (lambda_to_point_non_zero info l a b) Small := by
  unfold lambda_to_point_non_zero; countert

theorem cnt_lambda_to_point (info : RangeInfo n) [Six info] {lambda : AssignedCurvature n} (h_lambda : Small r lambda) {a : AssignedPoint n} (h_a : Small r a) {b : AssignedPoint n} (h_b : Small r b) :
    Safe r (lambda_to_point info lambda a b) Small := by
  unfold lambda_to_point; countert

theorem cnt_ecc_add (info : RangeInfo n) [Six info] {a : AssignedPointWithCurvature n} (h_a : Small r a) {b : AssignedPoint n} (h_b : Small r b) :
    Safe r (ecc_add info a b) Small := by
  unfold ecc_add; countert

theorem cnt_ecc_double (info : RangeInfo n) [Six info] (order : ℕ) {a : AssignedPointWithCurvature n} (h_a : Small r a) :
    Safe r (ecc_double info order a) Small := by
  unfold ecc_double; countert

theorem cnt_ecc_assert_equal (info : RangeInfo n) [Six info] {a : AssignedPoint n} (h_a : Small r a) {b : AssignedPoint n} (h_b : Small r b) :
    Safe r (ecc_assert_equal info a b) Small := by
  unfold ecc_assert_equal; countert

theorem cnt_ecc_neg (info : RangeInfo n) [Six info] {a : AssignedPoint n} (h_a : Small r a) :
    Safe r (ecc_neg info a) Small := by
  unfold ecc_neg; countert

theorem cnt_ecc_reduce (info : RangeInfo n) [Six info] {a : AssignedPoint n} (h_a : Small r a) :
    Safe r (ecc_reduce info a) Small := by
  unfold ecc_reduce; countert

theorem cnt_tangent_slope (info : RangeInfo n) [Six info] {x : AssignedInteger n} (h_x : Small r x) {y : AssignedInteger n} (h_y : Small r y) :
    Safe r (tangent_slope info x y) Small := by
  unfold tangent_slope; countert

theorem cnt_to_point_with_curvature (info : RangeInfo n) [Six info] {a : AssignedPoint n} (h_a : Small r a) :
    Safe r (to_point_with_curvature info a) Small := by
  unfold to_point_with_curvature; countert

theorem cnt_ecc_reduce_with_curvature (info : RangeInfo n) [Six info] {a : AssignedPoint n} (h_a : Small r a) :
    Safe r (ecc_reduce_with_curvature info a) Small := by
  unfold ecc_reduce_with_curvature; countert

theorem cnt_ecc_encode (info : RangeInfo n) [Six info] {p : AssignedPoint n} (h_p : Small r p) :
    Safe r (ecc_encode info p) Small := by
  unfold ecc_encode; countert

theorem cnt_ecc_add_unsafe (info : RangeInfo n) [Six info] {a : AssignedNonZeroPoint n} (h_a : Small r a) {b : AssignedNonZeroPoint n} (h_b : Small r b) :
    Safe r (ecc_add_unsafe info a b) Small := by
  unfold ecc_add_unsafe; countert

theorem cnt_ecc_double_unsafe (info : RangeInfo n) [Six info] {a : AssignedNonZeroPoint n} (h_a : Small r a) :
    Safe r (ecc_double_unsafe info a) Small := by
  unfold ecc_double_unsafe; countert

theorem cnt_ecc_neg_non_zero (info : RangeInfo n) [Six info] {a : AssignedNonZeroPoint n} (h_a : Small r a) :
    Safe r (ecc_neg_non_zero info a) Small := by
  unfold ecc_neg_non_zero; countert

theorem cnt_ecc_reduce_non_zero (info : RangeInfo n) [Six info] {a : AssignedNonZeroPoint n} (h_a : Small r a) :
    Safe r (ecc_reduce_non_zero info a) Small := by
  unfold ecc_reduce_non_zero; countert

theorem cnt_ecc_bisec_non_zero_point (info : RangeInfo n) [Six info] {cond : AssignedCondition n} (h_cond : Small r cond) {a : AssignedNonZeroPoint n} (h_a : Small r a) {b : AssignedNonZeroPoint n} (h_b : Small r b) :
    Safe r (ecc_bisec_non_zero_point info cond a b) Small := by
  unfold ecc_bisec_non_zero_point; countert

theorem cnt_bisec_pairs (info : RangeInfo n) [Six info] {bit : AssignedCondition n} (h_bit : Small r bit) {x0 : List (AssignedNonZeroPoint n)} (h_x0 : Small r x0) :
    Safe r (bisec_pairs info bit x0) Small := by
  induction hl : x0.length using Nat.strong_induction_on generalizing x0 r with
  | _ k ih =>
    rcases x0 with _ | ⟨a, _ | ⟨b, l⟩⟩
    · unfold bisec_pairs; exact .ret small_nil
    · unfold bisec_pairs; exact .panic (by decide)
    · unfold bisec_pairs
      have h1 := (small_cons_iff.1 h_x0).1
      have h2 := (small_cons_iff.1 (small_cons_iff.1 h_x0).2).1
      have h3 := (small_cons_iff.1 (small_cons_iff.1 h_x0).2).2
      clear h_x0
      refine (cnt_ecc_bisec_non_zero_point info h_bit h2 h1).bind fun _ _ hr hc => ?_
      refine (ih _ ?_ (h_bit.mono hr) (h3.mono hr) rfl).bind fun _ _ hr' hn => .ret (small_cons (hc.mono hr') hn)
      subst hl
      simp only [List.length_cons]
      omega

theorem cnt_bisec_rounds (info : RangeInfo n) [Six info] {candidates : List (AssignedNonZeroPoint n)} (h_candidates : Small r candidates) {x0 : List (AssignedCondition n)} (h_x0 : Small r x0) :
    Safe r (bisec_rounds info candidates x0) Small := by
  induction x0 generalizing candidates r with
  | nil => exact .ret h_candidates
  | cons b l ih =>
    exact (cnt_bisec_pairs info (small_cons_iff.1 h_x0).1 h_candidates).bind fun _ _ hr hn =>
      ih hn ((small_cons_iff.1 h_x0).2.mono hr)

theorem cnt_bisec_candidate_non_zero (info : RangeInfo n) [Six info] {candidates : List (AssignedNonZeroPoint n)} (h_candidates : Small r candidates) {group_bits : List (AssignedCondition n)} (h_group_bits : Small r group_bits) :
    Safe r (bisec_candidate_non_zero info candidates group_bits) Small := by
  unfold bisec_candidate_non_zero; countert

theorem cnt_pick_candidate_non_zero (candidates : List (AssignedNonZeroPoint n)) {group_bits : List (AssignedCondition n)} (h_group_bits : Small r group_bits) :
    Safe r (pick_candidate_non_zero candidates group_bits) fun r x => Small r x.1 := by
  unfold pick_candidate_non_zero
  refine (cnt_sum_with_constant (small_mapIdx h_group_bits _) _).bind fun _ _ _ hi => (cnt_index_any _ _).bind fun _ _ hr _ => ?_
  exact .pure fun _ hr' => (hi.mono hr).mono hr' 

theorem cnt_cache_limbs {limbs : List (AssignedValue n)} (h_limbs : Small r limbs) (sc : ℕ) (g : ℕ) (offset : ℕ) (x0 : List ℕ) :
    Safe r (cache_limbs limbs sc g offset x0) Small := by
  induction x0 generalizing r with
  | nil => exact .ret (small_unit _)
  | cons j js ih =>
    exact (cnt_index h_limbs j).bind fun _ _ hr hv => (cnt_assign_cache_value hv _ _ _).bind fun _ _ hr' _ =>
      ih ((h_limbs.mono hr).mono hr')

theorem cnt_assign_cache_integer (info : RangeInfo n) [Six info] {p : AssignedInteger n} (h_p : Small r p) (sc g offset : ℕ) :
    Safe r (assign_cache_integer info p sc g offset) Small := by
  unfold assign_cache_integer; countert

theorem cnt_assign_selected_integer (info : RangeInfo n) [Six info] (p : AssignedInteger n) {sc : AssignedValue n} (h_sc : Small r sc) (g offset : ℕ) :
    Safe r (assign_selected_integer info p sc g offset) Small := by
  unfold assign_selected_integer
  refine Safe.bind (P := Small) ?_ fun _ _ hr hl => ?_
  · refine cnt_mapM_same _ fun j r' hr => ?_
    exact Safe.bind (cnt_index_any _ _) fun _ _ hr' _ => cnt_assign_selected_value _ _ _ ((h_sc.mono hr).mono hr')
  · refine Safe.bind (P := Small) (cnt_assign_selected_value _ _ _ (h_sc.mono hr)) fun _ _ hr' hn => ?_
    exact .ret (small_int one_le_16)

theorem cnt_assign_cache_point (info : RangeInfo n) [Six info] {p : AssignedPointWithCurvature n} (h_p : Small r p) (g sc : ℕ) :
    Safe r (assign_cache_point info p g sc) Small := by
  unfold assign_cache_point; countert

theorem cnt_assign_selected_point (info : RangeInfo n) [Six info] (p : AssignedPointWithCurvature n) {sc : AssignedValue n} (h_sc : Small r sc) (g : ℕ) :
    Safe r (assign_selected_point info p sc g) Small := by
  unfold assign_selected_point; countert

theorem cnt_assign_selected_point_non_zero (info : RangeInfo n) [Six info] (p : AssignedNonZeroPoint n) {sc : AssignedValue n} (h_sc : Small r sc) (g : ℕ) :
    Safe r (assign_selected_point_non_zero info p sc g) Small := by
  unfold assign_selected_point_non_zero; countert

theorem cnt_assign_cache_point_non_zero (info : RangeInfo n) [Six info] {p : AssignedNonZeroPoint n} (h_p : Small r p) (g sc : ℕ) :
    Safe r (assign_cache_point_non_zero info p g sc) Small := by
  unfold assign_cache_point_non_zero; countert

theorem cnt_ecc_assert_equal_non_zero (info : RangeInfo n) [Six info] {a : AssignedNonZeroPoint n} (h_a : Small r a) {b : AssignedNonZeroPoint n} (h_b : Small r b) :
    Safe r (ecc_assert_equal_non_zero info a b) Small := by
  unfold ecc_assert_equal_non_zero; countert

theorem cnt_ecc_non_zero_point_downgrade {a : AssignedNonZeroPoint n} (h_a : Small r a) :
    Safe r (ecc_non_zero_point_downgrade a) Small := by
  unfold ecc_non_zero_point_downgrade; countert

theorem cnt_ecc_bisec_to_non_zero_point (info : RangeInfo n) [Six info] {a : AssignedPoint n} (h_a : Small r a) {b : AssignedNonZeroPoint n} (h_b : Small r b) :
    Safe r (ecc_bisec_to_non_zero_point info a b) Small := by
  unfold ecc_bisec_to_non_zero_point; countert

theorem cnt_native_bits (s : ℕ) (is : List ℕ) {v : AssignedValue n} (h_v : Small r v) :
    Safe r (native_bits s is v) Small := by
  induction is generalizing v r with
  | nil => exact .ret (small_pair small_nil h_v)
  | cons i is ih =>
    unfold native_bits
    countert
    · apply ih; counters

theorem cnt_pad_bits (ws rem : ℕ) {bits : List (AssignedCondition n)} (h : Small r bits) :
    Safe r (pad_bits ws rem bits) Small := by
  unfold pad_bits; countert

theorem cnt_decompose_scalar_native (num_bits ws : ℕ) {s : AssignedValue n} (h_s : Small r s) :
    Safe r (decompose_scalar_native num_bits ws s) Small := by
  unfold decompose_scalar_native; countert

theorem cnt_limb_bits_loop (v : ℕ) (js : List ℕ) {rest : AssignedValue n} (h : Small r rest) :
    Safe r (limb_bits_loop v js rest) Small := by
  induction js generalizing rest r with
  | nil => exact .ret (small_pair small_nil h)
  | cons i is ih =>
    unfold limb_bits_loop
    countert
    · apply ih; counters

theorem cnt_limbs_bits (info : RangeInfo n) [Six info] {l : List (AssignedValue n)} (h : Small r l) :
    Safe r (limbs_bits info l) Small := by
  induction l generalizing r with
  | nil => exact .ret small_nil
  | cons a l ih =>
    have h1 := (small_cons_iff.1 h).1
    have h2 := (small_cons_iff.1 h).2
    clear h
    unfold limbs_bits
    refine (cnt_limb_bits_loop _ _ h1).bind fun _ _ hr ha => (cnt_assert_constant (small_snd ha) _).bind fun _ _ hr' _ => ?_
    exact (ih ((h2.mono hr).mono hr')).bind fun _ _ hr'' hs => .ret (small_append (((small_fst ha).mono hr').mono hr'') hs)

theorem cnt_decompose_scalar_general (info : RangeInfo n) [Six info] (ws : ℕ) {s : AssignedInteger n} (h_s : Small r s) :
    Safe r (decompose_scalar_general info ws s) Small := by
  unfold decompose_scalar_general; countert

end Verif
