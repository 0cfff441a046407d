import Verif.Proof.CellsEcc
import Verif.Proof.Raised

/-!
# Work on clones hands out cells with values
-/

namespace Verif
variable {n : ℕ} {α : Type} {r : RecordsInner n}

theorem copies_nil {s : Records n} (h : s.permutations = []) : CopiesHold s := fun p hp => by
  rw [h] at hp
  cases hp

theorem copies_merge {s t : Context n} (hs : CopiesHold s.records) (h : t.records.inner = s.records.inner)
    (ht : CopiesHold t.records) : CopiesHold (s.merge t).records := by
  intro p hp
  rcases List.mem_append.1 hp with hp | hp
  · exact hs p hp
  · obtain ⟨v, h1, h2⟩ := ht p hp
    refine ⟨v, h1.mono ?_, h2.mono ?_⟩ <;>
    · show RLe t.records.inner s.records.inner
      rw [h]
      exact .rfl _

theorem cel_run_clones [HasCells n α] {s : Context n} {diff : Offsets} {body : ℕ → M n (Except UnsafeError α)}
    (h : ∀ i, W r (body i) In) (hg : ∀ i, Growing (body i)) (hne : ∀ i, NeverErr (body i)) :
    ∀ (k i : ℕ) (inner inner' : RecordsInner n) (l : List (α × Context n)),
    run_clones s diff body inner (List.range' i k) = .ok (.ok l, inner') →
    FreshFrom inner (s.offs.add (diff.scale i)) → RLe r inner →
    RLe inner inner' ∧ ∀ p ∈ l, In inner' p.1 ∧ CopiesHold { p.2.records with inner := inner' } := by
  intro k
  induction k with
  | zero =>
    intro i inner inner' l e hf hi
    cases e
    exact ⟨.rfl _, by simp⟩
  | succ k ih =>
    intro i inner inner' l e hf hi
    rw [List.range'_succ] at e
    unfold run_clones at e
    dsimp only at e
    set start := (s.share inner).clone_with_offset (diff.scale i) with hstart
    have hso : start.offs = s.offs.add (diff.scale i) := rfl
    have hsf : start.Fresh := (fresh_iff' start).2 hf
    split at e
    · cases e
    · cases e
    · rename_i a t h1
      obtain ⟨a', h2, h3, h4⟩ := clone_body_ok (hne i) h1
      cases h2
      obtain ⟨ft, gt⟩ := hg i start _ t hsf h3
      obtain ⟨g1, g2, -⟩ := (grows_iff _ _).1 gt
      have hto : t.offs = s.offs.add (diff.scale (i + 1)) := by
        apply Offsets.ext_at
        intro chip
        have e := congrArg (fun o => Offsets.at o chip) h4
        have := g1 chip
        simp only [Offsets.sub_at, hso, Offsets.add_at, Offsets.scale_at] at e this ⊢
        have e2 : diff.at chip * (i + 1) = diff.at chip * i + diff.at chip := by ring
        omega
      have ft' : FreshFrom t.records.inner (s.offs.add (diff.scale (i + 1))) := by
        rw [← hto]; exact (fresh_iff' t).1 ft
      obtain ⟨-, kt, ha⟩ := h i start _ t hsf hi h3
      have ht : CopiesHold t.records := kt.copies (copies_nil rfl)
      have hle : RLe inner t.records.inner := kt.le
      split at e
      · cases e
      · cases e
      · rename_i l inner2 h5
        cases e
        obtain ⟨k1, k2⟩ := ih _ _ _ _ h5 ft' (hi.trans hle)
        refine ⟨hle.trans k1, fun p hp => ?_⟩
        rcases List.mem_cons.1 hp with rfl | hp
        · exact ⟨(in_of_ok ha).mono k1, CopiesHold.mono (s := t.records) k1 rfl ht⟩
        · exact k2 p hp

theorem copies_merges (l : List (Context n)) {s : Context n} (hs : CopiesHold s.records)
    (hl : ∀ t ∈ l, CopiesHold { t.records with inner := s.records.inner }) :
    CopiesHold (l.foldl Context.merge s).records := by
  induction l generalizing s with
  | nil => exact hs
  | cons t l ih =>
    refine ih (s := s.merge t) ?_ fun u hu => hl u (List.mem_cons_of_mem _ hu)
    exact copies_merge (t := t.share s.records.inner) hs rfl (hl t List.mem_cons_self)

theorem inner_merges (l : List (Context n)) (s : Context n) :
    (l.foldl Context.merge s).records.inner = s.records.inner := by
  induction l generalizing s with
  | nil => rfl
  | cons t l ih => exact ih (s.merge t)

theorem cel_windows_parallel [HasCells n α] {windows : ℕ} {body : ℕ → M n (Except UnsafeError α)}
    (hg : ∀ i, Growing (body i)) (hne : ∀ i, NeverErr (body i)) (hw : windows = 0 → ∀ s, ∃ p, body 0 s = .error p)
    (h : ∀ i, W r (body i) In) : W r (windows_parallel windows body) In := by
  intro s x t hs hr e
  by_cases h0 : windows = 0
  · exact (windows_parallel_panics (hw h0) e).elim
  obtain ⟨-, -, -, ft, -⟩ := windows_parallel_ok (Nat.one_le_iff_ne_zero.2 h0) hg hne hs e
  refine ⟨ft, ?_⟩
  unfold windows_parallel at e
  obtain ⟨r1, s1, h1, h2⟩ := run_bind_ok.1 e
  obtain ⟨a, u, rfl, h3, rfl⟩ := predict_ok (hne 0) h1
  have hs0 : (s.clone_with_offset ⟨0, 0, 0⟩).Fresh := (fresh_iff' _).2 ((fresh_iff' s).1 hs)
  obtain ⟨fu, ku, ha⟩ := h 0 _ _ _ hs0 hr h3
  obtain ⟨g1, -, -⟩ := (grows_iff _ _).1 (hg 0 _ _ _ hs0 h3).2
  have hle : RLe s.records.inner u.records.inner := ku.le
  have hu : CopiesHold u.records := ku.copies (copies_nil rfl)
  set diff := u.offs.sub s.offs with hdiff
  set s1 := (s.share u.records.inner).merge u with hs1
  have hs1c : CopiesHold s.records → CopiesHold s1.records := fun hc =>
    copies_merge (s := s.share u.records.inner) (CopiesHold.mono (s := s.records) hle rfl hc) rfl hu
  dsimp only at h2
  obtain ⟨r2, s2, h4, h5⟩ := run_bind_ok.1 h2
  have hu1 : s.offs.add (diff.scale 1) = u.offs := by
    apply Offsets.ext_at
    intro chip
    have := g1 chip
    simp only [clone_zero_offs] at this
    simp only [hdiff, Offsets.sub_at, Offsets.add_at, Offsets.scale_at]
    omega
  have hso : s1.offs = s.offs := rfl
  have hf : FreshFrom s1.records.inner (s1.offs.add (diff.scale 1)) := by
    rw [hso, hu1]; exact (fresh_iff' u).1 fu
  unfold rest_windows at h4
  split at h4
  · cases h4
  · rename_i h6
    obtain ⟨l, hl, -⟩ := run_clones_ok hg hne _ _ _ _ _ h6 hf
    cases hl
  · rename_i l inner h6
    cases h4
    cases h5
    obtain ⟨k1, k2⟩ := cel_run_clones h hg hne _ _ _ _ _ h6 hf (hr.trans hle)
    have k1' : RLe u.records.inner inner := k1
    have hin : (((l.map Prod.snd).foldl Context.merge (s1.share inner)).apply_offset_diff (diff.scale windows)).records.inner = inner :=
      inner_merges _ (s1.share inner)
    refine ⟨⟨?_, fun hc => ?_⟩, ?_⟩
    · rw [hin]; exact hle.trans k1'
    · refine copies_merges (l.map Prod.snd) (s := s1.share inner) (CopiesHold.mono (s := s1.records) k1 rfl (hs1c hc)) fun t ht => ?_
      obtain ⟨p, hp, rfl⟩ := List.mem_map.1 ht
      exact (k2 p hp).2
    · rw [hin]
      refine in_ok (in_cons ((in_of_ok ha).mono k1') (in_list_iff.2 fun a ha => ?_))
      obtain ⟨p, hp, rfl⟩ := List.mem_map.1 ha
      exact (k2 p hp).1

end Verif
