import Verif.Proof.Balance
import Verif.Proof.ApiProg

/-!
# Multi-scalar multiplication pays for the rows of its windows
-/

namespace Verif
variable {n : ℕ} {info : RangeInfo n} [Limbs4 info]

theorem bal_fill_candidates {cache : AssignedNonZeroPoint n → ℕ → M n Unit} (hc : ∀ p i, Bl (cache p i))
    (chunk : List (AssignedNonZeroPoint n)) (is : List ℕ) :
    ∀ cl, Bl (fill_candidates info cache chunk cl is) := by
  induction is with
  | nil => intro cl; unfold fill_candidates; exact .pure _
  | cons i is ih => intro cl; unfold fill_candidates; bal

theorem bal_group_candidates {cache : ℕ → AssignedNonZeroPoint n → ℕ → M n Unit} (hc : ∀ g p i, Bl (cache g p i))
    (line line_neg : AssignedNonZeroPoint n) (l : List (List (AssignedNonZeroPoint n))) :
    ∀ g, Bl (group_candidates info cache line line_neg g l) := by
  induction l with
  | nil => intro g; unfold group_candidates; exact .pure _
  | cons x l ih =>
    intro g
    unfold group_candidates
    exact .bind (hc _ _ _) fun _ => bal_tryB (bal_fill_candidates (hc g) _ _ _) fun _ =>
      bal_tryB (ih _) fun _ => .pure _

theorem bal_group_bits (wi : ℕ) (group : List (List (List (AssignedCondition n)))) :
    Bl (group_bits wi group) := by unfold group_bits; bal

theorem bal_window_acc {pick : ℕ → List (AssignedCondition n) → M n (AssignedNonZeroPoint n)}
    (hp : ∀ g l, Bl (pick g l)) (wi : ℕ) (l : List (List (List (List (AssignedCondition n))))) :
    ∀ g acc, Bl (window_acc info pick wi g l acc) := by
  induction l with
  | nil => intro g acc; unfold window_acc; exact .pure _
  | cons x l ih =>
    intro g acc
    unfold window_acc
    exact .bind (bal_group_bits _ _) fun _ => .bind (hp _ _) fun _ => bal_tryB (bal_ecc_add_unsafe _ _ _) fun _ => ih _ _

theorem bal_pick_bisec (candidates : List (List (AssignedNonZeroPoint n))) (g : ℕ)
    (bits : List (AssignedCondition n)) : Bl (pick_bisec info candidates g bits) := by unfold pick_bisec; bal

theorem bal_pick_select (group_prefix : ℕ) (candidates : List (List (AssignedNonZeroPoint n))) (g : ℕ)
    (bits : List (AssignedCondition n)) : Bl (pick_select info group_prefix candidates g bits) := by
  unfold pick_select; bal

theorem bal_windows_acc (odd : Bool) (line_neg : AssignedNonZeroPoint n) (l : List (AssignedNonZeroPoint n)) :
    ∀ acc, Bl (windows_acc info odd line_neg l acc) := by
  induction l with
  | nil => intro acc; unfold windows_acc; exact .pure _
  | cons x l ih => intro acc; unfold windows_acc; bal

theorem bal_msm_finish (odd : Bool) (line_neg acc acc_neg : AssignedNonZeroPoint n)
    (line_acc : List (AssignedNonZeroPoint n)) : Bl (msm_finish info odd line_neg acc acc_neg line_acc) := by
  unfold msm_finish
  exact bal_tryB (bal_windows_acc _ _ _ _) fun _ => by bal

/-! ## Windows -/

theorem foldl_merge_offsets (l : List (Context n)) : ∀ s : Context n, (l.foldl Context.merge s).offs = s.offs := by
  induction l with
  | nil => intro s; rfl
  | cons t l ih => intro s; rw [List.foldl_cons, ih]; rfl

theorem bal_windows_parallel {α ε : Type} (windows : ℕ) {body : ℕ → M n (Except ε α)} (h : Bl (body 0)) :
    Bl (windows_parallel windows body) := ⟨fun s a t e => by
  unfold windows_parallel at e
  obtain ⟨r1, s1, h1, h2⟩ := run_bind_ok.1 e
  unfold predict at h1
  split at h1
  · cases h1
  · rename_i er u hu
    cases h1
    cases h2
    exact ⟨le_rfl, le_rfl, by show (s.range_offset : ℤ) - s.range_offset ≤ 12 * ((s.base_offset : ℤ) - s.base_offset) + 0; omega⟩
  · rename_i x u hu
    cases h1
    obtain ⟨k1, k2, k3⟩ := h.out _ _ _ hu
    simp only [Context.clone_with_offset, Context.clone_without_permutation, Context.apply_offset_diff, Context.mk',
      Context.offs, Offsets.add, Nat.add_zero] at k1 k2 k3
    obtain ⟨r2, s2, h3, h4⟩ := run_bind_ok.1 h2
    have h5 : t = s2 := by cases r2 <;> cases h4 <;> rfl
    subst h5
    unfold rest_windows at h3
    split at h3
    · cases h3
    · cases h3
      exact ⟨le_rfl, le_rfl, by show (s.range_offset : ℤ) - s.range_offset ≤ 12 * ((s.base_offset : ℤ) - s.base_offset) + 0; omega⟩
    · rename_i l inner hl
      cases h3
      have e1 := congrArg Offsets.base (foldl_merge_offsets (l.map Prod.snd) (((s.share u.records.inner).merge u).share inner))
      have e2 := congrArg Offsets.range (foldl_merge_offsets (l.map Prod.snd) (((s.share u.records.inner).merge u).share inner))
      simp only [Context.apply_offset_diff, Context.mk', Offsets.add, Offsets.scale, Offsets.sub, e1, e2]
      simp only [Context.offs, Context.merge, Context.share]
      refine ⟨Nat.le_add_right _ _, Nat.le_add_right _ _, ?_⟩
      push_cast [Nat.cast_sub k1, Nat.cast_sub k2]
      have := mul_le_mul_of_nonneg_right k3 (Int.natCast_nonneg windows)
      linarith⟩

/-! ## The scalars -/

section
variable {σ : Type} {ops : ScalarOps n σ} {best : ℕ} {before : M n Unit}
  {cache : ℕ → AssignedNonZeroPoint n → ℕ → M n Unit}
  {pick : List (List (AssignedNonZeroPoint n)) → ℕ → List (AssignedCondition n) → M n (AssignedNonZeroPoint n)}

/-- The operations of a scalar context pay for their rows. -/
structure ScalarBal (ops : ScalarOps n σ) : Prop where
  decompose : ∀ s, Bl (ops.decompose s)
  bisec : ∀ d a b, Bl (ops.bisec d a b)
  zero : Bl ops.zero

theorem nativeScalar_bal (num_bits : ℕ) : ScalarBal (nativeScalar (n := n) num_bits) :=
  ⟨bal_decompose_scalar_native _ _, bal_bisec, bal_assign_constant _⟩

theorem generalScalar_bal (sinfo : RangeInfo n) [Limbs4 sinfo] : ScalarBal (generalScalar sinfo) :=
  ⟨bal_decompose_scalar_general _ _, bal_bisec_int _, bal_assign_int_constant _ _⟩

theorem bal_normalize (hp : ScalarBal ops) (s_zero : σ) (q : AssignedNonZeroPoint n) : ∀ l, Bl (normalize info ops s_zero q l)
  | [] => .pure _
  | _ :: rest => .bind (hp.bisec _ _ _) fun _ => .bind (bal_ecc_bisec_to_non_zero_point ..) fun _ =>
      .bind (bal_normalize hp s_zero q rest) fun _ => .pure _

theorem bal_msm_after (hd : ∀ s, Bl (ops.decompose s)) (hp : ∀ cs g l, Bl (pick cs g l)) (scalars : List σ)
    (group_size : ℕ) (line_neg acc acc_neg : AssignedNonZeroPoint n)
    (candidates : List (List (AssignedNonZeroPoint n))) :
    Bl (msm_after info ops pick scalars group_size line_neg acc acc_neg candidates) :=
  .bind (bal_mapM hd _) fun _ => .bind (bal_index _ _) fun _ =>
    bal_tryB (bal_windows_parallel _ (bal_window_acc (hp _) _ _ _ _)) fun _ => bal_msm_finish _ _ _ _ _

theorem bal_msm_batch (hd : ∀ s, Bl (ops.decompose s)) (hbef : Bl before)
    (hc : ∀ g p i, Bl (cache g p i)) (hp : ∀ cs g l, Bl (pick cs g l)) (bb : ℕ)
    (points : List (AssignedNonZeroPoint n)) (scalars : List σ) (acc_c line_c : Option (ℕ × ℕ)) :
    Bl (msm_batch info bb ops best before cache pick points scalars acc_c line_c) := by
  rw [msm_batch_eq]
  exact .bind (bal_mapM (fun _ => bal_ecc_reduce_non_zero _ _) _) fun points =>
    .bind (bal_assign_non_zero_point ..) fun _ => .bind (bal_assign_non_zero_point ..) fun _ =>
    .bind (bal_ecc_neg_non_zero ..) fun _ => .bind (bal_ecc_reduce_non_zero ..) fun _ =>
    .bind (bal_ecc_neg_non_zero ..) fun _ => .bind (bal_ecc_reduce_non_zero ..) fun _ =>
    .bind (bal_div_rem ..) fun _ => .bind hbef fun _ =>
    bal_tryB (bal_group_candidates hc ..) fun _ => bal_msm_after hd hp _ _ _ _ _ _

theorem bal_msm (hp : ScalarBal ops) (bb : ℕ) (generator : ℕ × ℕ) (r1 r2 : Option (ℕ × ℕ)) (pre : Option ℕ)
    (points : List (AssignedPoint n)) (scalars : List σ) :
    Bl (msm info bb ops generator r1 r2 pre points scalars) := by
  unfold msm msm_unsafe
  refine .bind (.bind (bal_assign_non_zero_point ..) fun _ => .bind hp.zero fun _ =>
    .bind (bal_normalize hp ..) fun l => ?_) fun r => ?_
  · cases pre with
    | some pre =>
      exact .bind (.bind (bal_rassert _) fun _ => bal_msm_batch hp.decompose (bal_rassert _)
        (fun _ _ _ => bal_assign_cache_point_non_zero ..) (bal_pick_select _) _ _ _ _ _) fun _ => .pure _
    | none =>
      exact .bind (bal_msm_batch hp.decompose (.pure _) (fun _ _ _ => .pure _) bal_pick_bisec _ _ _ _ _) fun _ => .pure _
  · obtain ⟨r, pre⟩ := r
    cases r with
    | ok p => exact .pure _
    | error e => exact .panic _

end

end Verif
