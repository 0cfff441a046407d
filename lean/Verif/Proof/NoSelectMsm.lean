import Verif.Proof.NoSelect
import Verif.Proof.BalanceMsm
import Verif.Proof.ApiProg

/-!
# Multi-scalar multiplication without the select chip does not use it
-/

namespace Verif
variable {n : ℕ} {info : RangeInfo n}

theorem nsel_fill_candidates {cache : AssignedNonZeroPoint n → ℕ → M n Unit} (hc : ∀ p i, Ns (cache p i))
    (chunk : List (AssignedNonZeroPoint n)) (is : List ℕ) :
    ∀ cl, Ns (fill_candidates info cache chunk cl is) := by
  induction is with
  | nil => intro cl; unfold fill_candidates; exact .pure _
  | cons i is ih => intro cl; unfold fill_candidates; nsel

theorem nsel_group_candidates {cache : ℕ → AssignedNonZeroPoint n → ℕ → M n Unit} (hc : ∀ g p i, Ns (cache g p i))
    (line line_neg : AssignedNonZeroPoint n) (l : List (List (AssignedNonZeroPoint n))) :
    ∀ g, Ns (group_candidates info cache line line_neg g l) := by
  induction l with
  | nil => intro g; unfold group_candidates; exact .pure _
  | cons x l ih =>
    intro g
    unfold group_candidates
    exact .bind (hc _ _ _) fun _ => nsel_tryB (nsel_fill_candidates (hc g) _ _ _) fun _ =>
      nsel_tryB (ih _) fun _ => .pure _

theorem nsel_group_bits (wi : ℕ) (group : List (List (List (AssignedCondition n)))) :
    Ns (group_bits wi group) := by unfold group_bits; nsel

theorem nsel_window_acc {pick : ℕ → List (AssignedCondition n) → M n (AssignedNonZeroPoint n)}
    (hp : ∀ g l, Ns (pick g l)) (wi : ℕ) (l : List (List (List (List (AssignedCondition n))))) :
    ∀ g acc, Ns (window_acc info pick wi g l acc) := by
  induction l with
  | nil => intro g acc; unfold window_acc; exact .pure _
  | cons x l ih =>
    intro g acc
    unfold window_acc
    exact .bind (nsel_group_bits _ _) fun _ => .bind (hp _ _) fun _ => nsel_tryB (nsel_ecc_add_unsafe _ _ _) fun _ => ih _ _

theorem nsel_pick_bisec (candidates : List (List (AssignedNonZeroPoint n))) (g : ℕ)
    (bits : List (AssignedCondition n)) : Ns (pick_bisec info candidates g bits) := by unfold pick_bisec; nsel

theorem nsel_windows_acc (odd : Bool) (line_neg : AssignedNonZeroPoint n) (l : List (AssignedNonZeroPoint n)) :
    ∀ acc, Ns (windows_acc info odd line_neg l acc) := by
  induction l with
  | nil => intro acc; unfold windows_acc; exact .pure _
  | cons x l ih => intro acc; unfold windows_acc; nsel

theorem nsel_msm_finish (odd : Bool) (line_neg acc acc_neg : AssignedNonZeroPoint n)
    (line_acc : List (AssignedNonZeroPoint n)) : Ns (msm_finish info odd line_neg acc acc_neg line_acc) := by
  unfold msm_finish
  exact nsel_tryB (nsel_windows_acc _ _ _ _) fun _ => by nsel

/-! ## Windows -/

theorem nsel_windows_parallel {α ε : Type} (windows : ℕ) {body : ℕ → M n (Except ε α)} (h : Ns (body 0)) :
    Ns (windows_parallel windows body) := ⟨fun s a t e => by
  unfold windows_parallel at e
  obtain ⟨r1, s1, h1, h2⟩ := run_bind_ok.1 e
  unfold predict at h1
  split at h1
  · cases h1
  · cases h1
    cases h2
    rfl
  · rename_i x u hu
    cases h1
    have k1 := h.out _ _ _ hu
    simp only [Context.clone_with_offset, Context.clone_without_permutation, Context.apply_offset_diff, Context.mk',
      Context.offs, Offsets.add, Nat.add_zero] at k1
    obtain ⟨r2, s2, h3, h4⟩ := run_bind_ok.1 h2
    have h5 : t = s2 := by cases r2 <;> cases h4 <;> rfl
    subst h5
    unfold rest_windows at h3
    split at h3
    · cases h3
    · cases h3
      rfl
    · rename_i l inner hl
      cases h3
      have e1 := congrArg Offsets.select (foldl_merge_offsets (l.map Prod.snd) (((s.share u.records.inner).merge u).share inner))
      simp only [Context.apply_offset_diff, Context.mk', Offsets.add, Offsets.scale, Offsets.sub, e1]
      simp only [Context.offs, Context.merge, Context.share, k1, Nat.sub_self, Nat.zero_mul, Nat.add_zero]⟩

/-! ## The scalars -/

section
variable {σ : Type} {ops : ScalarOps n σ} {best : ℕ} {before : M n Unit}
  {cache : ℕ → AssignedNonZeroPoint n → ℕ → M n Unit}
  {pick : List (List (AssignedNonZeroPoint n)) → ℕ → List (AssignedCondition n) → M n (AssignedNonZeroPoint n)}

/-- The operations of a scalar context use no row of the select chip. -/
structure ScalarNs (ops : ScalarOps n σ) : Prop where
  decompose : ∀ s, Ns (ops.decompose s)
  bisec : ∀ d a b, Ns (ops.bisec d a b)
  zero : Ns ops.zero

theorem nativeScalar_ns (num_bits : ℕ) : ScalarNs (nativeScalar (n := n) num_bits) :=
  ⟨nsel_decompose_scalar_native _ _, nsel_bisec, nsel_assign_constant _⟩

theorem generalScalar_ns (sinfo : RangeInfo n) : ScalarNs (generalScalar sinfo) :=
  ⟨nsel_decompose_scalar_general _ _, nsel_bisec_int _, nsel_assign_int_constant _ _⟩

theorem nsel_normalize (hp : ScalarNs ops) (s_zero : σ) (q : AssignedNonZeroPoint n) : ∀ l, Ns (normalize info ops s_zero q l)
  | [] => .pure _
  | _ :: rest => .bind (hp.bisec _ _ _) fun _ => .bind (nsel_ecc_bisec_to_non_zero_point ..) fun _ =>
      .bind (nsel_normalize hp s_zero q rest) fun _ => .pure _

theorem nsel_msm_after (hd : ∀ s, Ns (ops.decompose s)) (hp : ∀ cs g l, Ns (pick cs g l)) (scalars : List σ)
    (group_size : ℕ) (line_neg acc acc_neg : AssignedNonZeroPoint n)
    (candidates : List (List (AssignedNonZeroPoint n))) :
    Ns (msm_after info ops pick scalars group_size line_neg acc acc_neg candidates) :=
  .bind (nsel_mapM hd _) fun _ => .bind (nsel_index _ _) fun _ =>
    nsel_tryB (nsel_windows_parallel _ (nsel_window_acc (hp _) _ _ _ _)) fun _ => nsel_msm_finish _ _ _ _ _

theorem nsel_msm_batch (hd : ∀ s, Ns (ops.decompose s)) (hbef : Ns before)
    (hc : ∀ g p i, Ns (cache g p i)) (hp : ∀ cs g l, Ns (pick cs g l)) (bb : ℕ)
    (points : List (AssignedNonZeroPoint n)) (scalars : List σ) (acc_c line_c : Option (ℕ × ℕ)) :
    Ns (msm_batch info bb ops best before cache pick points scalars acc_c line_c) := by
  rw [msm_batch_eq]
  exact .bind (nsel_mapM (fun _ => nsel_ecc_reduce_non_zero _ _) _) fun points =>
    .bind (nsel_assign_non_zero_point ..) fun _ => .bind (nsel_assign_non_zero_point ..) fun _ =>
    .bind (nsel_ecc_neg_non_zero ..) fun _ => .bind (nsel_ecc_reduce_non_zero ..) fun _ =>
    .bind (nsel_ecc_neg_non_zero ..) fun _ => .bind (nsel_ecc_reduce_non_zero ..) fun _ =>
    .bind (nsel_div_rem ..) fun _ => .bind hbef fun _ =>
    nsel_tryB (nsel_group_candidates hc ..) fun _ => nsel_msm_after hd hp _ _ _ _ _ _

theorem nsel_msm (hp : ScalarNs ops) (bb : ℕ) (generator : ℕ × ℕ) (r1 r2 : Option (ℕ × ℕ))
    (points : List (AssignedPoint n)) (scalars : List σ) :
    Ns (msm info bb ops generator r1 r2 none points scalars) := by
  unfold msm msm_unsafe
  refine .bind (.bind (nsel_assign_non_zero_point ..) fun _ => .bind hp.zero fun _ =>
    .bind (nsel_normalize hp ..) fun l => ?_) fun r => ?_
  · exact .bind (nsel_msm_batch hp.decompose (.pure _) (fun _ _ _ => .pure _) nsel_pick_bisec _ _ _ _ _) fun _ => .pure _
  · obtain ⟨r, pre⟩ := r
    cases r with
    | ok p => exact .pure _
    | error e => exact .panic _

end

end Verif
