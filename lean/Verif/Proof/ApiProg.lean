import Verif.Proof.Raised
import Verif.Proof.MsmTop
import Verif.Proof.ProgTower
import Verif.Spec.Api

/-!
# API calls only add rows

Every API call is composed of the primitive writers and of work on clones.
-/

namespace Verif
variable {cc : Prop}
variable {n : ℕ} {σ : Type} {info : RangeInfo n} {ops : ScalarOps n σ} {best : ℕ} {before : M n Unit}
  {cache : ℕ → AssignedNonZeroPoint n → ℕ → M n Unit}
  {pick : List (List (AssignedNonZeroPoint n)) → ℕ → List (AssignedCondition n) → M n (AssignedNonZeroPoint n)}

theorem prog2_msm_after (hd : ∀ s, Built cc (ops.decompose s)) (hp : ∀ cs g l, Built cc (pick cs g l)) (scalars : List σ)
    {group_size : ℕ} (hk : group_size ≠ 0) (line_neg acc acc_neg : AssignedNonZeroPoint n)
    (candidates : List (List (AssignedNonZeroPoint n))) :
    Built2 cc (msm_after info ops pick scalars group_size line_neg acc acc_neg candidates) := by
  unfold msm_after
  refine .bind (.prog (prog_mapM hd _)) fun bits _ => .bind (.prog (prog_index _ _)) fun bits0 h0 => .tryB ?_ fun _ _ =>
    .prog (prog_msm_finish _ _ _ _ _)
  refine .parallel _ _ (fun i => prog_window_acc (hp _) i _ _ _) (fun i => neverErr_window_acc i _ _ _) ?_
  intro hw s
  refine windows_zero_panics hk ?_ _ _
  obtain ⟨s, t, h0⟩ := h0
  unfold index at h0
  rw [List.length_eq_zero_iff] at hw
  subst hw
  cases e : bits[0]? with
  | none => rw [e] at h0; cases h0
  | some x => rw [e] at h0; cases h0; rfl

theorem prog2_msm_batch (hbest : 1 ≤ best) (hd : ∀ s, Built cc (ops.decompose s)) (hbef : Built cc before)
    (hc : ∀ g p i, Built cc (cache g p i)) (hp : ∀ cs g l, Built cc (pick cs g l)) (bb : ℕ)
    (points : List (AssignedNonZeroPoint n)) (scalars : List σ) (acc_c line_c : Option (ℕ × ℕ)) :
    Built2 cc (msm_batch info bb ops best before cache pick points scalars acc_c line_c) := by
  rw [msm_batch_eq]
  refine .bind (.prog (prog_mapM (fun _ => prog_ecc_reduce_non_zero _ _) _)) fun points _ =>
    .bind (.prog (prog_assign_non_zero_point ..)) fun _ _ => .bind (.prog (prog_assign_non_zero_point ..)) fun _ _ =>
    .bind (.prog (prog_ecc_neg_non_zero ..)) fun _ _ => .bind (.prog (prog_ecc_reduce_non_zero ..)) fun _ _ =>
    .bind (.prog (prog_ecc_neg_non_zero ..)) fun _ _ => .bind (.prog (prog_ecc_reduce_non_zero ..)) fun _ _ =>
    .bind (.prog (prog_div_rem ..)) fun gs hgs => .bind (.prog hbef) fun _ _ =>
    .tryB (.prog (prog_group_candidates hc ..)) fun _ _ => prog2_msm_after hd hp _ ?_ _ _ _ _
  obtain ⟨s, t, hgs⟩ := hgs
  unfold div_rem at hgs
  split at hgs
  · cases hgs
  · rename_i h
    cases hgs
    exact Nat.one_le_iff_ne_zero.1 (group_size_bounds hbest h).1

theorem prog2_msm (hp : ScalarProg ops) (bb : ℕ) (generator : ℕ × ℕ) (r1 r2 : Option (ℕ × ℕ)) (pre : Option ℕ)
    (points : List (AssignedPoint n)) (scalars : List σ) :
    Prog2 (msm info bb ops generator r1 r2 pre points scalars) := by
  unfold msm msm_unsafe
  refine .bind (.bind (.prog (prog_assign_non_zero_point ..)) fun _ _ => .bind (.prog hp.zero) fun _ _ =>
    .bind (.prog (prog_normalize hp ..)) fun l _ => ?_) fun r _ => ?_
  · cases pre with
    | some pre =>
      exact .bind (.bind (.prog (prog_rassert _)) fun _ _ => prog2_msm_batch (by norm_num) hp.decompose (prog_rassert _)
        (fun _ _ _ => prog_assign_cache_point_non_zero trivial ..) (prog_pick_select _) _ _ _ _ _) fun _ _ => .prog (.pure _)
    | none =>
      exact .bind (prog2_msm_batch (by norm_num) hp.decompose (.pure _)
        (fun _ _ _ => .pure _) prog_pick_bisec _ _ _ _ _) fun _ _ => .prog (.pure _)
  · obtain ⟨r, pre⟩ := r
    cases r with
    | ok p => exact .prog (.pure _)
    | error e => exact .prog (.panic _)

theorem prog_elem (S : Store n) (e : ℕ × ZMod n) : Built cc (S.elem e) := by unfold Store.elem; prog
theorem prog_term (S : Store n) (e : ℕ × ℕ × ℕ × ZMod n) : Built cc (S.term e) := by unfold Store.term; prog

theorem prog_pairTerm (S : Store n) (e : ℕ × ℕ) : Built cc (S.pairTerm e) := by unfold Store.pairTerm; prog
theorem prog_lineTerm (S : Store n) (e : ℕ × ℕ) : Built cc (S.lineTerm e) := by unfold Store.lineTerm; prog

theorem prog_runTowerCall (A : Api n) (S : Store n) (c : TowerCall) : Built cc (runTowerCall A S c) := by
  cases c
  case fq2_reduce => exact .bind (prog_index _ _) fun _ => .bind (prog_fq2_reduce ..) fun _ => .pure _
  case fq2_assert_equal => exact .bind (prog_index _ _) fun _ => .bind (prog_index _ _) fun _ => .bind (prog_fq2_assert_equal ..) fun _ => .pure _
  case fq2_assign_zero => exact .bind (prog_fq2_assign_zero ..) fun _ => .pure _
  case fq2_assign_one => exact .bind (prog_fq2_assign_one ..) fun _ => .pure _
  case fq2_assign_constant => exact .bind (prog_fq2_assign_constant ..) fun _ => .pure _
  case fq2_add => exact .bind (prog_index _ _) fun _ => .bind (prog_index _ _) fun _ => .bind (prog_fq2_add ..) fun _ => .pure _
  case fq2_mul => exact .bind (prog_index _ _) fun _ => .bind (prog_index _ _) fun _ => .bind (prog_fq2_mul ..) fun _ => .pure _
  case fq2_sub => exact .bind (prog_index _ _) fun _ => .bind (prog_index _ _) fun _ => .bind (prog_fq2_sub ..) fun _ => .pure _
  case fq2_double => exact .bind (prog_index _ _) fun _ => .bind (prog_fq2_double ..) fun _ => .pure _
  case fq2_square => exact .bind (prog_index _ _) fun _ => .bind (prog_fq2_square ..) fun _ => .pure _
  case fq2_neg => exact .bind (prog_index _ _) fun _ => .bind (prog_fq2_neg ..) fun _ => .pure _
  case fq2_conjugate => exact .bind (prog_index _ _) fun _ => .bind (prog_fq2_conjugate ..) fun _ => .pure _
  case fq2_unsafe_invert => exact .bind (prog_index _ _) fun _ => .bind (prog_fq2_unsafe_invert ..) fun _ => .pure _
  case fq2_mul_by_nonresidue => exact .bind (prog_index _ _) fun _ => .bind (prog_fq2_mul_by_nonresidue ..) fun _ => .pure _
  case fq2_frobenius_map => exact .bind (prog_index _ _) fun _ => .bind (prog_fq2_frobenius_map ..) fun _ => .pure _
  case fq6_reduce => exact .bind (prog_index _ _) fun _ => .bind (prog_fq6_reduce ..) fun _ => .pure _
  case fq6_assert_equal => exact .bind (prog_index _ _) fun _ => .bind (prog_index _ _) fun _ => .bind (prog_fq6_assert_equal ..) fun _ => .pure _
  case fq6_assign_zero => exact .bind (prog_fq6_assign_zero ..) fun _ => .pure _
  case fq6_assign_one => exact .bind (prog_fq6_assign_one ..) fun _ => .pure _
  case fq6_assign_constant => exact .bind (prog_fq6_assign_constant ..) fun _ => .pure _
  case fq6_add => exact .bind (prog_index _ _) fun _ => .bind (prog_index _ _) fun _ => .bind (prog_fq6_add ..) fun _ => .pure _
  case fq6_mul => exact .bind (prog_index _ _) fun _ => .bind (prog_index _ _) fun _ => .bind (prog_fq6_mul ..) fun _ => .pure _
  case fq6_sub => exact .bind (prog_index _ _) fun _ => .bind (prog_index _ _) fun _ => .bind (prog_fq6_sub ..) fun _ => .pure _
  case fq6_double => exact .bind (prog_index _ _) fun _ => .bind (prog_fq6_double ..) fun _ => .pure _
  case fq6_square => exact .bind (prog_index _ _) fun _ => .bind (prog_fq6_square ..) fun _ => .pure _
  case fq6_neg => exact .bind (prog_index _ _) fun _ => .bind (prog_fq6_neg ..) fun _ => .pure _
  case fq6_unsafe_invert => exact .bind (prog_index _ _) fun _ => .bind (prog_fq6_unsafe_invert ..) fun _ => .pure _
  case fq6_mul_by_nonresidue => exact .bind (prog_index _ _) fun _ => .bind (prog_fq6_mul_by_nonresidue ..) fun _ => .pure _
  case fq6_frobenius_map => exact .bind (prog_index _ _) fun _ => .bind (prog_fq6_frobenius_map ..) fun _ => .pure _
  case fq12_reduce => exact .bind (prog_index _ _) fun _ => .bind (prog_fq12_reduce ..) fun _ => .pure _
  case fq12_assert_eq => exact .bind (prog_index _ _) fun _ => .bind (prog_index _ _) fun _ => .bind (prog_fq12_assert_eq ..) fun _ => .pure _
  case fq12_assign_zero => exact .bind (prog_fq12_assign_zero ..) fun _ => .pure _
  case fq12_assign_one => exact .bind (prog_fq12_assign_one ..) fun _ => .pure _
  case fq12_assert_one => exact .bind (prog_index _ _) fun _ => .bind (prog_fq12_assert_one ..) fun _ => .pure _
  case fq12_assign_constant => exact .bind (prog_fq12_assign_constant ..) fun _ => .pure _
  case fq12_add => exact .bind (prog_index _ _) fun _ => .bind (prog_index _ _) fun _ => .bind (prog_fq12_add ..) fun _ => .pure _
  case fq12_mul => exact .bind (prog_index _ _) fun _ => .bind (prog_index _ _) fun _ => .bind (prog_fq12_mul ..) fun _ => .pure _
  case fq12_sub => exact .bind (prog_index _ _) fun _ => .bind (prog_index _ _) fun _ => .bind (prog_fq12_sub ..) fun _ => .pure _
  case fq12_double => exact .bind (prog_index _ _) fun _ => .bind (prog_fq12_double ..) fun _ => .pure _
  case fq12_square => exact .bind (prog_index _ _) fun _ => .bind (prog_fq12_square ..) fun _ => .pure _
  case fq12_neg => exact .bind (prog_index _ _) fun _ => .bind (prog_fq12_neg ..) fun _ => .pure _
  case fq12_conjugate => exact .bind (prog_index _ _) fun _ => .bind (prog_fq12_conjugate ..) fun _ => .pure _
  case fq12_unsafe_invert => exact .bind (prog_index _ _) fun _ => .bind (prog_fq12_unsafe_invert ..) fun _ => .pure _
  case fq12_frobenius_map => exact .bind (prog_index _ _) fun _ => .bind (prog_fq12_frobenius_map ..) fun _ => .pure _
  case fq6_mul_by_1 => exact .bind (prog_index _ _) fun _ => .bind (prog_index _ _) fun _ => .bind (prog_fq6_mul_by_1 ..) fun _ => .pure _
  case fq6_mul_by_01 => exact .bind (prog_index _ _) fun _ => .bind (prog_index _ _) fun _ => .bind (prog_index _ _) fun _ => .bind (prog_fq6_mul_by_01 ..) fun _ => .pure _
  case fq12_mul_by_014 => exact .bind (prog_index _ _) fun _ => .bind (prog_index _ _) fun _ => .bind (prog_index _ _) fun _ => .bind (prog_index _ _) fun _ => .bind (prog_fq12_mul_by_014 ..) fun _ => .pure _
  case fq12_mul_by_034 => exact .bind (prog_index _ _) fun _ => .bind (prog_index _ _) fun _ => .bind (prog_index _ _) fun _ => .bind (prog_index _ _) fun _ => .bind (prog_fq12_mul_by_034 ..) fun _ => .pure _
  case fq12_cyclotomic_square => exact .bind (prog_index _ _) fun _ => .bind (prog_fq12_cyclotomic_square ..) fun _ => .pure _
  case g2_neg => exact .bind (prog_index _ _) fun _ => .bind (prog_g2_neg ..) fun _ => .pure _
  case prepare_g2 => exact .bind (prog_index _ _) fun _ => .bind (prog_prepare_g2 ..) fun _ => .pure _
  case multi_miller_loop => exact .bind (prog_mapM (prog_lineTerm S) _) fun _ => .bind (prog_multi_miller_loop ..) fun _ => .pure _
  case final_exponentiation => exact .bind (prog_index _ _) fun _ => .bind (prog_final_exponentiation ..) fun _ => .pure _
  case pairing => exact .bind (prog_mapM (prog_pairTerm S) _) fun _ => .bind (prog_pairing ..) fun _ => .pure _
  case check_pairing => exact .bind (prog_mapM (prog_pairTerm S) _) fun _ => .bind (prog_check_pairing ..) fun _ => .pure _
  case keccak_hash => exact .bind (prog_mapM (prog_index _) _) fun _ => .bind (prog_keccak_hash ..) fun _ => .pure _
  case decompose_scalar_as_u256_be => exact .bind (prog_index _ _) fun _ => .bind (prog_decompose_scalar_as_u256_be ..) fun _ => .pure _
  case compose_to_scalar_be => exact .bind (prog_mapM (prog_index _) _) fun _ => .bind (prog_compose_to_scalar_be ..) fun _ => .pure _
  all_goals
    unfold runTowerCall
    prog

theorem prog2_groupSelect (A : Api n) {ς : Type} {ops : ScalarOps n ς} (hp : ScalarProg ops) (r1 r2 : Option (ℕ × ℕ)) (pre : Option ℕ)
    (points : List (AssignedNonZeroPoint n)) (scalars : List ς) : Prog2 (groupSelect A ops r1 r2 pre points scalars) := by
  cases pre with
  | none => exact .prog (.panic _)
  | some pre =>
    refine .bind (.bind (.prog (prog_rassert _)) fun _ _ => prog2_msm_batch (by norm_num) hp.decompose (prog_rassert _)
      (fun _ _ _ => prog_assign_cache_point_non_zero trivial ..) (prog_pick_select _) _ _ _ _ _) fun r _ => ?_
    cases r with
    | ok p => exact .prog (.pure _)
    | error e => exact .prog (.panic _)

theorem prog2_groupBisec (A : Api n) {ς : Type} {ops : ScalarOps n ς} (hp : ScalarProg ops) (r1 r2 : Option (ℕ × ℕ))
    (points : List (AssignedNonZeroPoint n)) (scalars : List ς) : Built2 cc (groupBisec A ops r1 r2 points scalars) := by
  refine .bind (prog2_msm_batch (by norm_num) hp.decompose (.pure _)
    (fun _ _ _ => .pure _) prog_pick_bisec _ _ _ _ _) fun r _ => ?_
  cases r with
  | ok p => exact .prog (.pure _)
  | error e => exact .prog (.panic _)

theorem prog2_runCall (A : Api n) (w : Witness n) (S : Store n) (c : Call n) : Prog2 (runCall A w S c) := by
  cases c
  case msm_native ps ss r1 r2 =>
    exact .bind (.prog (prog_mapM (prog_index _) _)) fun _ _ => .bind (.prog (prog_mapM (prog_index _) _)) fun _ _ =>
      .bind (prog2_msm (nativeScalar_prog _) _ _ _ _ _ _ _) fun _ _ => .prog (.pure _)
  case msm_general ps ss r1 r2 =>
    exact .bind (.prog (prog_mapM (prog_index _) _)) fun _ _ => .bind (.prog (prog_mapM (prog_index _) _)) fun _ _ =>
      .bind (prog2_msm (generalScalar_prog _) _ _ _ _ _ _ _) fun _ _ => .prog (.pure _)
  case msm_with_select_native ps ss r1 r2 =>
    exact .bind (.prog (prog_mapM (prog_index _) _)) fun _ _ => .bind (.prog (prog_mapM (prog_index _) _)) fun _ _ =>
      .bind (prog2_groupSelect A (nativeScalar_prog _) _ _ _ _ _) fun _ _ => .prog (.pure _)
  case msm_with_select_general ps ss r1 r2 =>
    exact .bind (.prog (prog_mapM (prog_index _) _)) fun _ _ => .bind (.prog (prog_mapM (prog_index _) _)) fun _ _ =>
      .bind (prog2_groupSelect A (generalScalar_prog _) _ _ _ _ _) fun _ _ => .prog (.pure _)
  case msm_without_select_native ps ss r1 r2 =>
    exact .bind (.prog (prog_mapM (prog_index _) _)) fun _ _ => .bind (.prog (prog_mapM (prog_index _) _)) fun _ _ =>
      .bind (prog2_groupBisec A (nativeScalar_prog _) _ _ _ _) fun _ _ => .prog (.pure _)
  case msm_without_select_general ps ss r1 r2 =>
    exact .bind (.prog (prog_mapM (prog_index _) _)) fun _ _ => .bind (.prog (prog_mapM (prog_index _) _)) fun _ _ =>
      .bind (prog2_groupBisec A (generalScalar_prog _) _ _ _ _) fun _ _ => .prog (.pure _)
  case sum_with_constant_in_one_line => exact .prog (.bind (prog_mapM (prog_elem S) _) fun _ => by prog)
  case sum_with_constant => exact .prog (.bind (prog_mapM (prog_elem S) _) fun _ => by prog)
  case mul_add_with_next_line => exact .prog (.bind (prog_mapM (prog_term S) _) fun _ => by prog)
  case tower c => exact .prog (prog_runTowerCall A S c)
  all_goals
    apply Built2.prog
    unfold runCall
    prog

theorem prog2_runCalls (A : Api n) (w : Witness n) (cs : List (Call n)) (S : Store n) : Prog2 (runCalls A w cs S) := by
  induction cs generalizing S with
  | nil => exact .prog (.pure _)
  | cons c cs ih => exact .bind (prog2_runCall A w S c) fun _ _ => ih _

end Verif
