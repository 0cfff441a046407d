import Verif.Proof.RelOps

/-!
# The ECC chip and scalar decomposition describe the same circuit for all witnesses
-/

namespace Verif
variable {n : ℕ} {α β γ : Type} {st : Prop}

theorem rel_assign_constant_point (info : RangeInfo n) (c : Option (ℕ × ℕ)) :
    Runs2 (n := n) st (assign_constant_point info c) (assign_constant_point info c) (sh st) := by
  unfold assign_constant_point; rel

theorem rel_assign_point (info : RangeInfo n) (b : ℕ) (c c' : Option (ℕ × ℕ)) :
    Runs2 (n := n) st (assign_point info b c) (assign_point info b c') (sh st) := by
  unfold assign_point; rel

theorem rel_assign_non_zero_point (info : RangeInfo n) (b : ℕ) (c c' : Option (ℕ × ℕ)) :
    Runs2 (n := n) st (assign_non_zero_point info b c) (assign_non_zero_point info b c') (sh st) := by
  unfold assign_non_zero_point; rel

theorem rel_assign_identity (info : RangeInfo n) :
    Runs2 (n := n) st (assign_identity info) (assign_identity info) (sh st) := by
  unfold assign_identity; rel

theorem rel_bisec_point (info : RangeInfo n) {cond cond' : AssignedCondition n} (h_cond : sh st cond cond') {a a' : AssignedPoint n} (h_a : sh st a a') {b b' : AssignedPoint n} (h_b : sh st b b') :
    Runs2 st (bisec_point info cond a b) (bisec_point info cond' a' b') (sh st) := by
  unfold bisec_point; rel

theorem rel_bisec_curvature (info : RangeInfo n) {cond cond' : AssignedCondition n} (h_cond : sh st cond cond') {a a' : AssignedCurvature n} (h_a : sh st a a') {b b' : AssignedCurvature n} (h_b : sh st b b') :
    Runs2 st (bisec_curvature info cond a b) (bisec_curvature info cond' a' b') (sh st) := by
  unfold bisec_curvature; rel

theorem rel_bisec_point_with_curvature (info : RangeInfo n) {cond cond' : AssignedCondition n} (h_cond : sh st cond cond') {a a' : AssignedPointWithCurvature n} (h_a : sh st a a') {b b' : AssignedPointWithCurvature n} (h_b : sh st b b') :
    Runs2 st (bisec_point_with_curvature info cond a b) (bisec_point_with_curvature info cond' a' b') (sh st) := by
  unfold bisec_point_with_curvature; rel

theorem rel_lambda_to_point_non_zero (info : RangeInfo n) {l l' : AssignedInteger n} (h_l : sh st l l') {a a' : AssignedNonZeroPoint n} (h_a : sh st a a') {b b' : AssignedNonZeroPoint n} (h_b : sh st b b') :
    Runs2 st (lambda_to_point_non_zero info l a b) (lambda_to_point_non_zero info l' a' b') (sh st) := by
  unfold lambda_to_point_non_zero; rel

theorem rel_lambda_to_point (info : RangeInfo n) {lambda lambda' : AssignedCurvature n} (h_lambda : sh st lambda lambda') {a a' : AssignedPoint n} (h_a : sh st a a') {b b' : AssignedPoint n} (h_b : sh st b b') :
    Runs2 st (lambda_to_point info lambda a b) (lambda_to_point info lambda' a' b') (sh st) := by
  unfold lambda_to_point; rel

theorem rel_ecc_add (info : RangeInfo n) {a a' : AssignedPointWithCurvature n} (h_a : sh st a a') {b b' : AssignedPoint n} (h_b : sh st b b') :
    Runs2 st (ecc_add info a b) (ecc_add info a' b') (sh st) := by
  unfold ecc_add; rel

theorem rel_ecc_double (info : RangeInfo n) (order : ℕ) {a a' : AssignedPointWithCurvature n} (h_a : sh st a a') :
    Runs2 st (ecc_double info order a) (ecc_double info order a') (sh st) := by
  unfold ecc_double; rel

theorem rel_ecc_assert_equal (info : RangeInfo n) {a a' : AssignedPoint n} (h_a : sh st a a') {b b' : AssignedPoint n} (h_b : sh st b b') :
    Runs2 st (ecc_assert_equal info a b) (ecc_assert_equal info a' b') (sh st) := by
  unfold ecc_assert_equal; rel

theorem rel_ecc_neg (info : RangeInfo n) {a a' : AssignedPoint n} (h_a : sh st a a') :
    Runs2 st (ecc_neg info a) (ecc_neg info a') (sh st) := by
  unfold ecc_neg; rel

theorem rel_ecc_reduce (info : RangeInfo n) {a a' : AssignedPoint n} (h_a : sh st a a') :
    Runs2 st (ecc_reduce info a) (ecc_reduce info a') (sh st) := by
  unfold ecc_reduce; rel

theorem rel_tangent_slope (info : RangeInfo n) {x x' : AssignedInteger n} (h_x : sh st x x') {y y' : AssignedInteger n} (h_y : sh st y y') :
    Runs2 st (tangent_slope info x y) (tangent_slope info x' y') (sh st) := by
  unfold tangent_slope; rel

theorem rel_to_point_with_curvature (info : RangeInfo n) {a a' : AssignedPoint n} (h_a : sh st a a') :
    Runs2 st (to_point_with_curvature info a) (to_point_with_curvature info a') (sh st) := by
  unfold to_point_with_curvature; rel

theorem rel_ecc_reduce_with_curvature (info : RangeInfo n) {a a' : AssignedPoint n} (h_a : sh st a a') :
    Runs2 st (ecc_reduce_with_curvature info a) (ecc_reduce_with_curvature info a') (sh st) := by
  unfold ecc_reduce_with_curvature; rel

theorem rel_ecc_encode (info : RangeInfo n) {p p' : AssignedPoint n} (h_p : sh st p p') :
    Runs2 st (ecc_encode info p) (ecc_encode info p') (sh st) := by
  unfold ecc_encode; rel

theorem rel_ecc_add_unsafe (info : RangeInfo n) {a a' : AssignedNonZeroPoint n} (h_a : sh st a a') {b b' : AssignedNonZeroPoint n} (h_b : sh st b b') :
    Runs2 st (ecc_add_unsafe info a b) (ecc_add_unsafe info a' b') (sh st) := by
  unfold ecc_add_unsafe
  refine (rel_int_sub info (sh_nx h_a) (sh_nx h_b)).bind fun _ _ hx => ?_
  refine (rel_int_sub info (sh_ny h_a) (sh_ny h_b)).bind fun _ _ hy => ?_
  refine (rel_int_div info hy hx).bindS fun _ _ _ _ hz hv => ?_
  dsimp only
  refine (rel_try_assert_false hz).bind fun _ _ hs => ?_
  refine (rel_lambda_to_point_non_zero info hv h_a h_b).bind fun _ _ hr => ?_
  rw [hs.1, hs.2]
  exact Runs2.pure (sh_ok hr)

theorem rel_ecc_double_unsafe (info : RangeInfo n) {a a' : AssignedNonZeroPoint n} (h_a : sh st a a') :
    Runs2 st (ecc_double_unsafe info a) (ecc_double_unsafe info a') (sh st) := by
  unfold ecc_double_unsafe
  refine (rel_tangent_slope info (sh_nx h_a) (sh_ny h_a)).bindS fun _ _ _ _ hz hv => ?_
  dsimp only
  refine (rel_try_assert_false hz).bind fun _ _ hs => ?_
  refine (rel_lambda_to_point_non_zero info hv h_a h_a).bind fun _ _ hr => ?_
  rw [hs.1, hs.2]
  exact Runs2.pure (sh_ok hr)

theorem rel_ecc_neg_non_zero (info : RangeInfo n) {a a' : AssignedNonZeroPoint n} (h_a : sh st a a') :
    Runs2 st (ecc_neg_non_zero info a) (ecc_neg_non_zero info a') (sh st) := by
  unfold ecc_neg_non_zero; rel

theorem rel_ecc_reduce_non_zero (info : RangeInfo n) {a a' : AssignedNonZeroPoint n} (h_a : sh st a a') :
    Runs2 st (ecc_reduce_non_zero info a) (ecc_reduce_non_zero info a') (sh st) := by
  unfold ecc_reduce_non_zero; rel

theorem rel_ecc_bisec_non_zero_point (info : RangeInfo n) {cond cond' : AssignedCondition n} (h_cond : sh st cond cond') {a a' : AssignedNonZeroPoint n} (h_a : sh st a a') {b b' : AssignedNonZeroPoint n} (h_b : sh st b b') :
    Runs2 st (ecc_bisec_non_zero_point info cond a b) (ecc_bisec_non_zero_point info cond' a' b') (sh st) := by
  unfold ecc_bisec_non_zero_point; rel

theorem rel_bisec_pairs (info : RangeInfo n) {bit bit' : AssignedCondition n} (h_bit : sh st bit bit') {x0 x0' : List (AssignedNonZeroPoint n)} (h_x0 : sh st x0 x0') :
    Runs2 st (bisec_pairs info bit x0) (bisec_pairs info bit' x0') (sh st) := by
  induction hl : x0.length using Nat.strong_induction_on generalizing x0 x0' with
  | _ k ih =>
    rcases h_x0 with _ | ⟨h1, _ | ⟨h2, h⟩⟩
    · unfold bisec_pairs; exact Runs2.pure .nil
    · unfold bisec_pairs; exact Runs2.panic (p' := .assertion)
    · unfold bisec_pairs
      refine (rel_ecc_bisec_non_zero_point info h_bit h2 h1).bind fun _ _ hc => ?_
      refine (ih _ ?_ h rfl).bind fun _ _ hn => Runs2.pure (sh_cons hc hn)
      subst hl
      simp only [List.length_cons]
      omega

theorem rel_bisec_rounds (info : RangeInfo n) {candidates candidates' : List (AssignedNonZeroPoint n)} (h_candidates : sh st candidates candidates') {x0 x0' : List (AssignedCondition n)} (h_x0 : sh st x0 x0') :
    Runs2 st (bisec_rounds info candidates x0) (bisec_rounds info candidates' x0') (sh st) := by
  induction h_x0 generalizing candidates candidates' with
  | nil => exact Runs2.pure h_candidates
  | cons h _ ih => exact (rel_bisec_pairs info h h_candidates).bind fun _ _ hn => ih hn

theorem rel_bisec_candidate_non_zero (info : RangeInfo n) {candidates candidates' : List (AssignedNonZeroPoint n)} (h_candidates : sh st candidates candidates') {group_bits group_bits' : List (AssignedCondition n)} (h_group_bits : sh st group_bits group_bits') :
    Runs2 st (bisec_candidate_non_zero info candidates group_bits) (bisec_candidate_non_zero info candidates' group_bits') (sh st) := by
  unfold bisec_candidate_non_zero; rel

/-- Which candidate is picked depends on the witness; its cells are not used (`assign_selected_point_non_zero`). -/
theorem rel_pick_candidate_non_zero (candidates candidates' : List (AssignedNonZeroPoint n)) {group_bits group_bits' : List (AssignedCondition n)} (h_group_bits : sh st group_bits group_bits') :
    Runs2 st (pick_candidate_non_zero candidates group_bits) (pick_candidate_non_zero candidates' group_bits')
      fun r r' => sh st r.1 r'.1 := by
  unfold pick_candidate_non_zero
  refine (rel_sum_with_constant ?_ _).bind fun _ _ hi => (rel_index_any _ _ _ _).bind fun _ _ _ => Runs2.pure hi
  have key : ∀ f : ℕ → ZMod n, List.Forall₂ (ElemShape st) (group_bits.mapIdx fun i x => (x, f i))
      (group_bits'.mapIdx fun i x => (x, f i)) := by
    induction h_group_bits with
    | nil => exact fun _ => .nil
    | cons h _ ih =>
      intro f
      simp only [List.mapIdx_cons]
      exact .cons ⟨h, rfl⟩ (ih fun i => f (i + 1))
  exact key _

theorem rel_cache_limbs {limbs limbs' : List (AssignedValue n)} (h_limbs : sh st limbs limbs') (sc : ℕ) (g : ℕ) (offset : ℕ) (x0 : List ℕ) :
    Runs2 st (cache_limbs limbs sc g offset x0) (cache_limbs limbs' sc g offset x0) (sh st) := by
  induction x0 with
  | nil => exact Runs2.pure trivial
  | cons j js ih =>
    exact (rel_index h_limbs j).bind fun _ _ hv => (rel_assign_cache_value hv _ _ _).bind fun _ _ _ => ih

theorem rel_assign_cache_integer (info : RangeInfo n) {p p' : AssignedInteger n} (h_p : sh st p p') (sc g offset : ℕ) :
    Runs2 st (assign_cache_integer info p sc g offset) (assign_cache_integer info p' sc g offset) (sh st) := by
  unfold assign_cache_integer; rel

/-- Only the values of the selected integer are used. -/
theorem rel_assign_selected_integer (info : RangeInfo n) (p p' : AssignedInteger n) {sc sc' : AssignedValue n}
    (h_sc : sh st sc sc') (g offset : ℕ) :
    Runs2 st (assign_selected_integer info p sc g offset) (assign_selected_integer info p' sc' g offset) (sh st) := by
  unfold assign_selected_integer
  refine Runs2.bind (R := sh st) ?_ fun _ _ hl => ?_
  · refine rel_mapM_same _ fun j => ?_
    exact Runs2.bind (rel_index_any _ _ _ _) fun _ _ _ => rel_assign_selected_value _ _ _ _ h_sc
  · refine Runs2.bind (R := sh st) (rel_assign_selected_value _ _ _ _ h_sc) fun _ _ hn => ?_
    exact Runs2.pure (sh_int hl hn rfl)

theorem rel_assign_cache_point (info : RangeInfo n) {p p' : AssignedPointWithCurvature n} (h_p : sh st p p') (g sc : ℕ) :
    Runs2 st (assign_cache_point info p g sc) (assign_cache_point info p' g sc) (sh st) := by
  unfold assign_cache_point; rel

theorem rel_assign_selected_point (info : RangeInfo n) (p p' : AssignedPointWithCurvature n) {sc sc' : AssignedValue n}
    (h_sc : sh st sc sc') (g : ℕ) :
    Runs2 st (assign_selected_point info p sc g) (assign_selected_point info p' sc' g) (sh st) := by
  unfold assign_selected_point; rel

theorem rel_assign_selected_point_non_zero (info : RangeInfo n) (p p' : AssignedNonZeroPoint n)
    {sc sc' : AssignedValue n} (h_sc : sh st sc sc') (g : ℕ) :
    Runs2 st (assign_selected_point_non_zero info p sc g) (assign_selected_point_non_zero info p' sc' g) (sh st) := by
  unfold assign_selected_point_non_zero; rel

theorem rel_assign_cache_point_non_zero (info : RangeInfo n) {p p' : AssignedNonZeroPoint n} (h_p : sh st p p')
    (g sc : ℕ) :
    Runs2 st (assign_cache_point_non_zero info p g sc) (assign_cache_point_non_zero info p' g sc) (sh st) := by
  unfold assign_cache_point_non_zero; rel

theorem rel_ecc_assert_equal_non_zero (info : RangeInfo n) {a a' : AssignedNonZeroPoint n} (h_a : sh st a a')
    {b b' : AssignedNonZeroPoint n} (h_b : sh st b b') :
    Runs2 st (ecc_assert_equal_non_zero info a b) (ecc_assert_equal_non_zero info a' b') (sh st) := by
  unfold ecc_assert_equal_non_zero; rel

theorem rel_ecc_non_zero_point_downgrade {a a' : AssignedNonZeroPoint n} (h_a : sh st a a') :
    Runs2 st (ecc_non_zero_point_downgrade a) (ecc_non_zero_point_downgrade a') (sh st) := by
  unfold ecc_non_zero_point_downgrade; rel

theorem rel_ecc_bisec_to_non_zero_point (info : RangeInfo n) {a a' : AssignedPoint n} (h_a : sh st a a')
    {b b' : AssignedNonZeroPoint n} (h_b : sh st b b') :
    Runs2 st (ecc_bisec_to_non_zero_point info a b) (ecc_bisec_to_non_zero_point info a' b') (sh st) := by
  unfold ecc_bisec_to_non_zero_point; rel

/-! ## Scalar decomposition -/

theorem rel_native_bits (s s' : ℕ) (is : List ℕ) {v v' : AssignedValue n} (h_v : sh st v v') :
    Runs2 st (native_bits s is v) (native_bits s' is v') (sh st) := by
  induction is generalizing v v' with
  | nil => exact Runs2.pure (sh_pair sh_nil h_v)
  | cons i is ih =>
    unfold native_bits
    refine (rel_assign_bit _ _).bind fun _ _ h0 => (rel_assign_bit _ _).bind fun _ _ h1 => ?_
    refine (rel_one_line_with_last ?_ (arg_A _ h_v) _ _ _).bind fun _ _ hc => ?_
    · shape
    refine (rel_index (sh_fst hc) 0).bind fun _ _ hv => (ih hv).bind fun _ _ hr => ?_
    exact Runs2.pure (sh_pair (sh_cons h0 (sh_cons h1 (sh_fst hr))) (sh_snd hr))

theorem sh_replicate [Shaped α] {a a' : α} (h : sh st a a') (k : ℕ) :
    sh st (List.replicate k a) (List.replicate k a') := by
  induction k with
  | zero => exact .nil
  | succ k ih => exact .cons h ih

theorem sh_length [Shaped α] {l l' : List α} (h : sh st l l') : l.length = l'.length := List.Forall₂.length_eq h

theorem sh_take [Shaped α] {l l' : List α} (h : sh st l l') (k : ℕ) : sh st (l.take k) (l'.take k) :=
  List.forall₂_take k h

theorem sh_drop [Shaped α] {l l' : List α} (h : sh st l l') (k : ℕ) : sh st (l.drop k) (l'.drop k) :=
  List.forall₂_drop k h

theorem sh_reverse [Shaped α] {l l' : List α} (h : sh st l l') : sh st l.reverse l'.reverse :=
  List.forall₂_reverse_iff.2 h

theorem sh_chunks [Shaped α] (k : ℕ) {l l' : List α} (h : sh st l l') : sh st (chunks k l) (chunks k l') := by
  induction hl : l.length using Nat.strong_induction_on generalizing l l' with
  | _ m ih =>
    cases h with
    | nil => unfold chunks; simp only [true_or, dite_true]; exact sh_nil
    | @cons a a' l l' h1 h2 =>
      by_cases hk : k = 0
      · unfold chunks; simp only [hk, or_true, dite_true]; exact sh_nil
      · have h : sh st (a :: l) (a' :: l') := .cons h1 h2
        unfold chunks
        simp only [reduceCtorEq, hk, or_self, dite_false]
        refine sh_cons (sh_take h k) (ih _ ?_ (sh_drop h k) rfl)
        subst hl
        simp only [List.length_drop, List.length_cons]
        omega

theorem rel_pad_bits (ws rem : ℕ) {bits bits' : List (AssignedCondition n)} (h : sh st bits bits') :
    Runs2 st (pad_bits ws rem bits) (pad_bits ws rem bits') (sh st) := by
  unfold pad_bits
  refine Runs2.ite ?_ (Runs2.pure h)
  exact (rel_assign_constant _).bind fun _ _ hz => Runs2.pure (sh_append h (sh_replicate hz _))

theorem rel_decompose_scalar_native (num_bits ws : ℕ) {s s' : AssignedValue n} (h_s : sh st s s') :
    Runs2 st (decompose_scalar_native num_bits ws s) (decompose_scalar_native num_bits ws s') (sh st) := by
  unfold decompose_scalar_native
  refine (rel_native_bits _ _ _ h_s).bind fun _ _ hr => ?_
  refine Runs2.bind (R := sh st) (Runs2.ite ?_ ?_) fun _ _ hb => (rel_pad_bits _ _ hb).bind fun _ _ hb =>
    Runs2.pure (sh_reverse (sh_chunks ws hb))
  · exact (rel_assert_bit (sh_snd hr)).bind fun _ _ _ => Runs2.pure (sh_append (sh_fst hr) (sh_cons (sh_snd hr) sh_nil))
  · exact (rel_assert_constant (sh_snd hr) _).bind fun _ _ _ => Runs2.pure (sh_fst hr)

theorem rel_limb_bits_loop (v v' : ℕ) (js : List ℕ) {rest rest' : AssignedValue n} (h : sh st rest rest') :
    Runs2 st (limb_bits_loop v js rest) (limb_bits_loop v' js rest') (sh st) := by
  induction js generalizing rest rest' with
  | nil => exact Runs2.pure (sh_pair sh_nil h)
  | cons i is ih =>
    unfold limb_bits_loop
    refine (rel_assign_bit _ _).bind fun _ _ h0 => ?_
    refine (rel_one_line_with_last ?_ (arg_U _ _ _) _ _ _).bind fun _ _ hc => ?_
    · shape
    exact (ih (sh_snd hc)).bind fun _ _ hr => Runs2.pure (sh_pair (sh_cons h0 (sh_fst hr)) (sh_snd hr))

theorem rel_limbs_bits (info : RangeInfo n) {l l' : List (AssignedValue n)} (h : sh st l l') :
    Runs2 st (limbs_bits info l) (limbs_bits info l') (sh st) := by
  induction h with
  | nil => exact Runs2.pure sh_nil
  | cons h1 _ ih =>
    unfold limbs_bits
    refine (rel_limb_bits_loop _ _ _ h1).bind fun _ _ hr => (rel_assert_constant (sh_snd hr) _).bind fun _ _ _ => ?_
    exact ih.bind fun _ _ hs => Runs2.pure (sh_append (sh_fst hr) hs)

theorem rel_decompose_scalar_general (info : RangeInfo n) (ws : ℕ) {s s' : AssignedInteger n} (h_s : sh st s s') :
    Runs2 st (decompose_scalar_general info ws s) (decompose_scalar_general info ws s') (sh st) := by
  unfold decompose_scalar_general
  refine (rel_reduce info h_s).bind fun _ _ hs => (rel_limbs_bits info (sh_limbs hs)).bind fun _ _ hb => ?_
  rw [sh_length hb]
  refine (rel_pad_bits _ _ hb).bind fun _ _ hb => ?_
  exact (rel_rassert _ _).bind fun _ _ _ => Runs2.pure (sh_reverse (sh_chunks ws hb))

end Verif
