import Verif.Proof.RelOps

/-!
# Work on clones describes the same circuit for all witnesses
-/

namespace Verif
variable {n : ℕ} {α : Type} {st : Prop}

theorem SameShape.share {s s' t t' : Context n} (h : SameShape s s') (h' : SameShape t t') :
    SameShape (s.share t.records.inner) (s'.share t'.records.inner) :=
  ⟨h.base_offset, h.range_offset, h.select_offset, h'.base_fix, h'.range_fix, h'.select_fix, h'.flags, h.base_height,
    h.range_height, h.select_height, h.permutations⟩

theorem SameShape.clone {s s' : Context n} (h : SameShape s s') (d : Offsets) :
    SameShape (s.clone_with_offset d) (s'.clone_with_offset d) :=
  ⟨congrArg (· + d.base) h.base_offset, congrArg (· + d.range) h.range_offset, congrArg (· + d.select) h.select_offset,
    h.base_fix, h.range_fix, h.select_fix, h.flags, h.base_height, h.range_height, h.select_height, rfl⟩

theorem SameShape.apply_offset_diff {s s' : Context n} (h : SameShape s s') (d : Offsets) :
    SameShape (s.apply_offset_diff d) (s'.apply_offset_diff d) :=
  ⟨congrArg (· + d.base) h.base_offset, congrArg (· + d.range) h.range_offset, congrArg (· + d.select) h.select_offset,
    h.base_fix, h.range_fix, h.select_fix, h.flags, h.base_height, h.range_height, h.select_height, h.permutations⟩

theorem SameShape.merge {s s' t t' : Context n} (h : SameShape s s') (h' : SameShape t t') :
    SameShape (s.merge t) (s'.merge t') :=
  ⟨h.base_offset, h.range_offset, h.select_offset, h.base_fix, h.range_fix, h.select_fix, h.flags,
    congrArg₂ max h.base_height h'.base_height, congrArg₂ max h.select_height h'.range_height,
    congrArg₂ max h.select_height h'.select_height, congrArg₂ (· ++ ·) h.permutations h'.permutations⟩

theorem Offsets.add_sub (o d : Offsets) : (o.add d).sub o = d := by
  unfold Offsets.add Offsets.sub
  simp only [Nat.add_sub_cancel_left]

theorem rel_predict [Shaped α] {m m' : M n (Except UnsafeError α)} (h : Runs2 st m m' (sh st)) :
    Runs2 st (predict m) (predict m') fun r r' => ∃ a a' d, r = .ok (a, d) ∧ r' = .ok (a', d) ∧ sh st a a' := by
  intro s s' r t r' t' hs e e'
  unfold predict at e e'
  rcases em : m (s.clone_with_offset ⟨0, 0, 0⟩) with p | ⟨x, u⟩
  · rw [em] at e; cases e
  rcases em' : m' (s'.clone_with_offset ⟨0, 0, 0⟩) with p | ⟨x', u'⟩
  · rw [em'] at e'; cases e'
  rw [em] at e
  rw [em'] at e'
  obtain ⟨⟨d, hd, hd'⟩, hu, a, a', rfl, rfl, ha⟩ := h _ _ _ _ _ _ (fun h => (hs h).clone _) em em'
  have hd1 : u.offs.sub s.offs = d := by rw [hd]; exact Offsets.add_sub s.offs d
  have hd1' : u'.offs.sub s'.offs = d := by rw [hd']; exact Offsets.add_sub s'.offs d
  dsimp only at e e'
  rw [hd1] at e
  rw [hd1'] at e'
  cases e
  cases e'
  exact ⟨⟨⟨0, 0, 0⟩, rfl, rfl⟩, fun h => ((hs h).share (hu h)).merge (hu h), a, a', d, rfl, rfl, ha⟩

theorem rel_clone_body [Shaped α] {m m' : M n (Except UnsafeError α)} (diff b b' : Offsets) (h : Runs2 st m m' (sh st)) :
    Runs2 st (clone_body diff m b) (clone_body diff m' b') (sh st) := by
  unfold clone_body
  refine h.bind ?_
  rintro r r' ⟨a, a', rfl, rfl, ha⟩
  dsimp only
  refine Runs2.bind (R := fun _ _ => True) ?_ fun _ _ _ => (rel_rassert _ _).bind fun _ _ _ => Runs2.pure (sh_ok ha)
  intro s s' x t x' t' hs e e'
  cases e
  cases e'
  exact ⟨⟨⟨0, 0, 0⟩, rfl, rfl⟩, hs, trivial⟩

theorem rel_run_clones [Shaped α] {s s' : Context n} (diff : Offsets) {body body' : ℕ → M n (Except UnsafeError α)}
    (h : ∀ i, Runs2 st (body i) (body' i) (sh st)) (is : List ℕ) {inner inner' : RecordsInner n}
    (hs : st → SameShape (s.share inner) (s'.share inner')) {r r' : Except UnsafeError (List (α × Context n))}
    {o o' : RecordsInner n} (e : run_clones s diff body inner is = .ok (r, o))
    (e' : run_clones s' diff body' inner' is = .ok (r', o')) :
    ∃ l l', r = .ok l ∧ r' = .ok l' ∧ List.Forall₂ (fun x x' => sh st x.1 x'.1 ∧ (st → SameShape x.2 x'.2)) l l' ∧
      (st → SameShape (s.share o) (s'.share o')) := by
  induction is generalizing inner inner' r r' o o' with
  | nil =>
    cases e
    cases e'
    exact ⟨[], [], rfl, rfl, .nil, hs⟩
  | cons i is ih =>
    unfold run_clones at e e'
    dsimp only at e e'
    rcases em : clone_body diff (body i) ((s.share inner).clone_with_offset (diff.scale i)).offs
      ((s.share inner).clone_with_offset (diff.scale i)) with p | ⟨x, u⟩
    · rw [em] at e; cases e
    rcases em' : clone_body diff (body' i) ((s'.share inner').clone_with_offset (diff.scale i)).offs
      ((s'.share inner').clone_with_offset (diff.scale i)) with p | ⟨x', u'⟩
    · rw [em'] at e'; cases e'
    rw [em] at e
    rw [em'] at e'
    obtain ⟨-, hu, a, a', rfl, rfl, ha⟩ :=
      rel_clone_body diff _ _ (h i) _ _ _ _ _ _ (fun h => (hs h).clone _) em em'
    dsimp only at e e'
    rcases er : run_clones s diff body u.records.inner is with p | ⟨x, v⟩
    · rw [er] at e; cases e
    rcases er' : run_clones s' diff body' u'.records.inner is with p | ⟨x', v'⟩
    · rw [er'] at e'; cases e'
    obtain ⟨l, l', rfl, rfl, hl, hv⟩ := ih (fun h => (hs h).share (hu h)) er er'
    rw [er] at e
    rw [er'] at e'
    cases e
    cases e'
    exact ⟨_, _, rfl, rfl, .cons ⟨ha, hu⟩ hl, hv⟩

theorem merge_offs (s : Context n) (l : List (Context n)) : (l.foldl Context.merge s).offs = s.offs := by
  induction l generalizing s with
  | nil => rfl
  | cons t l ih => exact ih (s.merge t)

theorem sameShape_merges {s s' : Context n} (h : SameShape s s') {l l' : List (α × Context n)}
    (hl : List.Forall₂ (fun x x' => SameShape x.2 x'.2) l l') :
    SameShape ((l.map Prod.snd).foldl Context.merge s) ((l'.map Prod.snd).foldl Context.merge s') := by
  induction hl generalizing s s' with
  | nil => exact h
  | cons h1 _ ih => exact ih (h.merge h1)

theorem rel_rest_windows [Shaped α] (windows : ℕ) (diff : Offsets) {body body' : ℕ → M n (Except UnsafeError α)}
    (h : ∀ i, Runs2 st (body i) (body' i) (sh st)) :
    Runs2 st (rest_windows windows diff body) (rest_windows windows diff body') (sh st) := by
  intro s s' r t r' t' hs e e'
  unfold rest_windows at e e'
  rcases er : run_clones s diff body s.records.inner (List.range' 1 (windows - 1)) with p | ⟨x, v⟩
  · rw [er] at e; cases e
  rcases er' : run_clones s' diff body' s'.records.inner (List.range' 1 (windows - 1)) with p | ⟨x', v'⟩
  · rw [er'] at e'; cases e'
  obtain ⟨l, l', rfl, rfl, hl, hv⟩ := rel_run_clones diff h _ (fun h => (hs h).share (hs h)) er er'
  rw [er] at e
  rw [er'] at e'
  dsimp only at e e'
  cases e
  cases e'
  refine ⟨⟨diff.scale windows, ?_, ?_⟩, fun hst => SameShape.apply_offset_diff (sameShape_merges (hv hst) ?_) _, ?_⟩
  · exact congrArg (·.add (diff.scale windows)) (merge_offs (s.share v) _)
  · exact congrArg (·.add (diff.scale windows)) (merge_offs (s'.share v') _)
  · exact hl.imp fun _ _ h => h.2 hst
  · refine sh_ok ?_
    clear er er' hv
    induction hl with
    | nil => exact .nil
    | cons h1 _ ih => exact .cons h1.1 ih

theorem rel_windows_parallel [Shaped α] (windows : ℕ) {body body' : ℕ → M n (Except UnsafeError α)}
    (h : ∀ i, Runs2 st (body i) (body' i) (sh st)) :
    Runs2 st (windows_parallel windows body) (windows_parallel windows body') (sh st) := by
  unfold windows_parallel
  refine (rel_predict (h 0)).bind ?_
  rintro r r' ⟨a, a', d, rfl, rfl, ha⟩
  dsimp only
  refine (rel_rest_windows windows d h).bind ?_
  rintro r r' ⟨l, l', rfl, rfl, hl⟩
  exact Runs2.pure (sh_ok (sh_cons ha hl))

end Verif
