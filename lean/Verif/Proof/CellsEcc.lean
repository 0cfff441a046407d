import Verif.Proof.CellsOps

/-!
# The ECC chip and scalar decomposition hand out cells with values
-/

namespace Verif
variable {n : ℕ} {α β γ : Type} {r : RecordsInner n}

theorem cel_assign_constant_point (info : RangeInfo n) (c : Option (ℕ × ℕ)) :
    W r (assign_constant_point info c) In := by
  unfold assign_constant_point; cellt

theorem cel_assign_point (info : RangeInfo n) (b : ℕ) (c : Option (ℕ × ℕ)) :
    W r (assign_point info b c) In := by
  unfold assign_point; cellt

theorem cel_assign_non_zero_point (info : RangeInfo n) (b : ℕ) (c : Option (ℕ × ℕ)) :
    W r (assign_non_zero_point info b c) In := by
  unfold assign_non_zero_point; cellt

theorem cel_assign_identity (info : RangeInfo n) :
    W r (assign_identity info) In := by
  unfold assign_identity; cellt

theorem cel_bisec_point (info : RangeInfo n) {cond : AssignedCondition n} (h_cond : In r cond) {a : AssignedPoint n} (h_a : In r a) {b : AssignedPoint n} (h_b : In r b) :
    W r (bisec_point info cond a b) In := by
  unfold bisec_point; cellt

theorem cel_bisec_curvature (info : RangeInfo n) {cond : AssignedCondition n} (h_cond : In r cond) {a : AssignedCurvature n} (h_a : In r a) {b : AssignedCurvature n} (h_b : In r b) :
    W r (bisec_curvature info cond a b) In := by
  unfold bisec_curvature; cellt

theorem cel_bisec_point_with_curvature (info : RangeInfo n) {cond : AssignedCondition n} (h_cond : In r cond) {a : AssignedPointWithCurvature n} (h_a : In r a) {b : AssignedPointWithCurvature n} (h_b : In r b) :
    W r (bisec_point_with_curvature info cond a b) In := by
  unfold bisec_point_with_curvature; cellt

theorem cel_lambda_to_point_non_zero (info : RangeInfo n) {l : AssignedInteger n} (h_l : In r l) {a : AssignedNonZeroPoint n} (h_a : In r a) {b : AssignedNonZeroPoint n} (h_b : In r b) :
    W r (lambda_to_point_non_zero info l a b) In := by
  unfold lambda_to_point_non_zero; cellt

theorem cel_lambda_to_point (info : RangeInfo n) {lambda : AssignedCurvature n} (h_lambda : In r lambda) {a : AssignedPoint n} (h_a : In r a) {b : AssignedPoint n} (h_b : In r b) :
    W r (lambda_to_point info lambda a b) In := by
  unfold lambda_to_point; cellt

theorem cel_ecc_add (info : RangeInfo n) {a : AssignedPointWithCurvature n} (h_a : In r a) {b : AssignedPoint n} (h_b : In r b) :
    W r (ecc_add info a b) In := by
  unfold ecc_add; cellt

theorem cel_ecc_double (info : RangeInfo n) (order : ℕ) {a : AssignedPointWithCurvature n} (h_a : In r a) :
    W r (ecc_double info order a) In := by
  unfold ecc_double; cellt

theorem cel_ecc_assert_equal (info : RangeInfo n) {a : AssignedPoint n} (h_a : In r a) {b : AssignedPoint n} (h_b : In r b) :
    W r (ecc_assert_equal info a b) In := by
  unfold ecc_assert_equal; cellt

theorem cel_ecc_neg (info : RangeInfo n) {a : AssignedPoint n} (h_a : In r a) :
    W r (ecc_neg info a) In := by
  unfold ecc_neg; cellt

theorem cel_ecc_reduce (info : RangeInfo n) {a : AssignedPoint n} (h_a : In r a) :
    W r (ecc_reduce info a) In := by
  unfold ecc_reduce; cellt

theorem cel_tangent_slope (info : RangeInfo n) {x : AssignedInteger n} (h_x : In r x) {y : AssignedInteger n} (h_y : In r y) :
    W r (tangent_slope info x y) In := by
  unfold tangent_slope; cellt

theorem cel_to_point_with_curvature (info : RangeInfo n) {a : AssignedPoint n} (h_a : In r a) :
    W r (to_point_with_curvature info a) In := by
  unfold to_point_with_curvature; cellt

theorem cel_ecc_reduce_with_curvature (info : RangeInfo n) {a : AssignedPoint n} (h_a : In r a) :
    W r (ecc_reduce_with_curvature info a) In := by
  unfold ecc_reduce_with_curvature; cellt

theorem cel_ecc_encode (info : RangeInfo n) {p : AssignedPoint n} (h_p : In r p) :
    W r (ecc_encode info p) In := by
  unfold ecc_encode; cellt

theorem cel_ecc_add_unsafe (info : RangeInfo n) {a : AssignedNonZeroPoint n} (h_a : In r a) {b : AssignedNonZeroPoint n} (h_b : In r b) :
    W r (ecc_add_unsafe info a b) In := by
  unfold ecc_add_unsafe; cellt

theorem cel_ecc_double_unsafe (info : RangeInfo n) {a : AssignedNonZeroPoint n} (h_a : In r a) :
    W r (ecc_double_unsafe info a) In := by
  unfold ecc_double_unsafe; cellt

theorem cel_ecc_neg_non_zero (info : RangeInfo n) {a : AssignedNonZeroPoint n} (h_a : In r a) :
    W r (ecc_neg_non_zero info a) In := by
  unfold ecc_neg_non_zero; cellt

theorem cel_ecc_reduce_non_zero (info : RangeInfo n) {a : AssignedNonZeroPoint n} (h_a : In r a) :
    W r (ecc_reduce_non_zero info a) In := by
  unfold ecc_reduce_non_zero; cellt

theorem cel_ecc_bisec_non_zero_point (info : RangeInfo n) {cond : AssignedCondition n} (h_cond : In r cond) {a : AssignedNonZeroPoint n} (h_a : In r a) {b : AssignedNonZeroPoint n} (h_b : In r b) :
    W r (ecc_bisec_non_zero_point info cond a b) In := by
  unfold ecc_bisec_non_zero_point; cellt

theorem cel_bisec_pairs (info : RangeInfo n) {bit : AssignedCondition n} (h_bit : In r bit) {x0 : List (AssignedNonZeroPoint n)} (h_x0 : In r x0) :
    W r (bisec_pairs info bit x0) In := by
  induction hl : x0.length using Nat.strong_induction_on generalizing x0 r with
  | _ k ih =>
    rcases x0 with _ | ⟨a, _ | ⟨b, l⟩⟩
    · unfold bisec_pairs; exact .ret in_nil
    · unfold bisec_pairs; exact .panic
    · unfold bisec_pairs
      have h1 := (in_cons_iff.1 h_x0).1
      have h2 := (in_cons_iff.1 (in_cons_iff.1 h_x0).2).1
      have h3 := (in_cons_iff.1 (in_cons_iff.1 h_x0).2).2
      clear h_x0
      refine (cel_ecc_bisec_non_zero_point info h_bit h2 h1).bind fun _ _ hr hc => ?_
      refine (ih _ ?_ (h_bit.mono hr) (h3.mono hr) rfl).bind fun _ _ hr' hn => .ret (in_cons (hc.mono hr') hn)
      subst hl
      simp only [List.length_cons]
      omega

theorem cel_bisec_rounds (info : RangeInfo n) {candidates : List (AssignedNonZeroPoint n)} (h_candidates : In r candidates) {x0 : List (AssignedCondition n)} (h_x0 : In r x0) :
    W r (bisec_rounds info candidates x0) In := by
  induction x0 generalizing candidates r with
  | nil => exact .ret h_candidates
  | cons b l ih =>
    exact (cel_bisec_pairs info (in_cons_iff.1 h_x0).1 h_candidates).bind fun _ _ hr hn =>
      ih hn ((in_cons_iff.1 h_x0).2.mono hr)

theorem cel_bisec_candidate_non_zero (info : RangeInfo n) {candidates : List (AssignedNonZeroPoint n)} (h_candidates : In r candidates) {group_bits : List (AssignedCondition n)} (h_group_bits : In r group_bits) :
    W r (bisec_candidate_non_zero info candidates group_bits) In := by
  unfold bisec_candidate_non_zero; cellt

theorem cel_pick_candidate_non_zero (candidates : List (AssignedNonZeroPoint n)) {group_bits : List (AssignedCondition n)} (h_group_bits : In r group_bits) :
    W r (pick_candidate_non_zero candidates group_bits) fun r x => In r x.1 := by
  unfold pick_candidate_non_zero
  refine (cel_sum_with_constant (in_mapIdx h_group_bits _) _).bind fun _ _ _ hi => (cel_index_any _ _).bind fun _ _ hr _ => ?_
  exact .pure fun _ hr' => (hi.mono hr).mono hr' 

theorem cel_cache_limbs {limbs : List (AssignedValue n)} (h_limbs : In r limbs) (sc : ℕ) (g : ℕ) (offset : ℕ) (x0 : List ℕ) :
    W r (cache_limbs limbs sc g offset x0) In := by
  induction x0 generalizing r with
  | nil => exact .ret (in_unit _)
  | cons j js ih =>
    exact (cel_index h_limbs j).bind fun _ _ hr hv => (cel_assign_cache_value hv _ _ _).bind fun _ _ hr' _ =>
      ih ((h_limbs.mono hr).mono hr')

theorem cel_assign_cache_integer (info : RangeInfo n) {p : AssignedInteger n} (h_p : In r p) (sc g offset : ℕ) :
    W r (assign_cache_integer info p sc g offset) In := by
  unfold assign_cache_integer; cellt

theorem cel_assign_selected_integer (info : RangeInfo n) (p : AssignedInteger n) {sc : AssignedValue n} (h_sc : In r sc) (g offset : ℕ) :
    W r (assign_selected_integer info p sc g offset) In := by
  unfold assign_selected_integer
  refine W.bind (P := In) ?_ fun _ _ hr hl => ?_
  · refine cel_mapM_same _ fun j r' hr => ?_
    exact W.bind (cel_index_any _ _) fun _ _ hr' _ => cel_assign_selected_value _ _ _ ((h_sc.mono hr).mono hr')
  · refine W.bind (P := In) (cel_assign_selected_value _ _ _ (h_sc.mono hr)) fun _ _ hr' hn => ?_
    exact .ret (in_int (hl.mono hr') hn)

theorem cel_assign_cache_point (info : RangeInfo n) {p : AssignedPointWithCurvature n} (h_p : In r p) (g sc : ℕ) :
    W r (assign_cache_point info p g sc) In := by
  unfold assign_cache_point; cellt

theorem cel_assign_selected_point (info : RangeInfo n) (p : AssignedPointWithCurvature n) {sc : AssignedValue n} (h_sc : In r sc) (g : ℕ) :
    W r (assign_selected_point info p sc g) In := by
  unfold assign_selected_point; cellt

theorem cel_assign_selected_point_non_zero (info : RangeInfo n) (p : AssignedNonZeroPoint n) {sc : AssignedValue n} (h_sc : In r sc) (g : ℕ) :
    W r (assign_selected_point_non_zero info p sc g) In := by
  unfold assign_selected_point_non_zero; cellt

theorem cel_assign_cache_point_non_zero (info : RangeInfo n) {p : AssignedNonZeroPoint n} (h_p : In r p) (g sc : ℕ) :
    W r (assign_cache_point_non_zero info p g sc) In := by
  unfold assign_cache_point_non_zero; cellt

theorem cel_ecc_assert_equal_non_zero (info : RangeInfo n) {a : AssignedNonZeroPoint n} (h_a : In r a) {b : AssignedNonZeroPoint n} (h_b : In r b) :
    W r (ecc_assert_equal_non_zero info a b) In := by
  unfold ecc_assert_equal_non_zero; cellt

theorem cel_ecc_non_zero_point_downgrade {a : AssignedNonZeroPoint n} (h_a : In r a) :
    W r (ecc_non_zero_point_downgrade a) In := by
  unfold ecc_non_zero_point_downgrade; cellt

theorem cel_ecc_bisec_to_non_zero_point (info : RangeInfo n) {a : AssignedPoint n} (h_a : In r a) {b : AssignedNonZeroPoint n} (h_b : In r b) :
    W r (ecc_bisec_to_non_zero_point info a b) In := by
  unfold ecc_bisec_to_non_zero_point; cellt

theorem cel_native_bits (s : ℕ) (is : List ℕ) {v : AssignedValue n} (h_v : In r v) :
    W r (native_bits s is v) In := by
  induction is generalizing v r with
  | nil => exact .ret (in_pair in_nil h_v)
  | cons i is ih =>
    unfold native_bits
    cellt
    · apply ih; cells

theorem cel_pad_bits (ws rem : ℕ) {bits : List (AssignedCondition n)} (h : In r bits) :
    W r (pad_bits ws rem bits) In := by
  unfold pad_bits; cellt

theorem cel_decompose_scalar_native (num_bits ws : ℕ) {s : AssignedValue n} (h_s : In r s) :
    W r (decompose_scalar_native num_bits ws s) In := by
  unfold decompose_scalar_native; cellt

theorem cel_limb_bits_loop (v : ℕ) (js : List ℕ) {rest : AssignedValue n} (h : In r rest) :
    W r (limb_bits_loop v js rest) In := by
  induction js generalizing rest r with
  | nil => exact .ret (in_pair in_nil h)
  | cons i is ih =>
    unfold limb_bits_loop
    cellt
    · apply ih; cells

theorem cel_limbs_bits (info : RangeInfo n) {l : List (AssignedValue n)} (h : In r l) :
    W r (limbs_bits info l) In := by
  induction l generalizing r with
  | nil => exact .ret in_nil
  | cons a l ih =>
    have h1 := (in_cons_iff.1 h).1
    have h2 := (in_cons_iff.1 h).2
    clear h
    unfold limbs_bits
    refine (cel_limb_bits_loop _ _ h1).bind fun _ _ hr ha => (cel_assert_constant (in_snd ha) _).bind fun _ _ hr' _ => ?_
    exact (ih ((h2.mono hr).mono hr')).bind fun _ _ hr'' hs => .ret (in_append (((in_fst ha).mono hr').mono hr'') hs)

theorem cel_decompose_scalar_general (info : RangeInfo n) (ws : ℕ) {s : AssignedInteger n} (h_s : In r s) :
    W r (decompose_scalar_general info ws s) In := by
  unfold decompose_scalar_general; cellt

end Verif
