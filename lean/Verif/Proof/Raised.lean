import Verif.Proof.Parallel

/-!
# Heights and offsets

Operations keep the offsets below the heights, also when they run on clones.
-/

namespace Verif
variable {n : ℕ} {α β ε : Type}

theorem merge_height (s t : Context n) (chip : Chip) : t.records.heightOf chip ≤ (s.merge t).records.heightOf chip := by
  cases chip <;> exact le_max_right _ _

theorem foldl_merge_height : ∀ (l : List (Context n)) (s : Context n),
    (∀ t ∈ l, ∀ chip, s.records.heightOf chip ≤ t.records.heightOf chip) → ∀ chip,
    s.records.heightOf chip ≤ (l.foldl Context.merge s).records.heightOf chip ∧
      ∀ t, l.getLast? = some t → t.records.heightOf chip ≤ (l.foldl Context.merge s).records.heightOf chip := by
  intro l
  induction l using List.reverseRecOn with
  | nil => intro s _ chip; exact ⟨le_rfl, fun t h => by cases h⟩
  | append_singleton l x ih =>
    intro s h chip
    rw [List.foldl_append, List.foldl_cons, List.foldl_nil]
    have hx := merge_height (l.foldl Context.merge s) x chip
    refine ⟨(h x (by simp) chip).trans hx, fun t ht => ?_⟩
    rw [List.getLast?_append] at ht
    simp at ht
    subst ht
    exact hx

/-- What the clones do to the flags and the heights. -/
theorem run_clones_raised {s : Context n} {diff : Offsets} {body : ℕ → M n (Except ε α)}
    (hg : ∀ i, Growing (body i)) (hr : ∀ i, Raises (body i)) (hne : ∀ i, NeverErr (body i)) :
    ∀ (k i : ℕ) (inner inner' : RecordsInner n) (l : List (α × Context n)),
    run_clones s diff body inner (List.range' i k) = .ok (.ok l, inner') →
    FreshFrom inner (s.offs.add (diff.scale i)) →
    (∀ c, inner.permute_flag c = true → inner'.permute_flag c = true) ∧
      (∀ x ∈ l, ∀ chip, s.records.heightOf chip ≤ x.2.records.heightOf chip) ∧
      ∀ x ∈ l, ∀ chip, diff.at chip = 0 ∨ x.2.offs.at chip ≤ x.2.records.heightOf chip := by
  intro k
  induction k with
  | zero =>
    intro i inner inner' l h hf
    cases h
    exact ⟨fun _ h => h, by simp, by simp⟩
  | succ k ih =>
    intro i inner inner' l h hf
    rw [List.range'_succ] at h
    unfold run_clones at h
    dsimp only at h
    set start := (s.share inner).clone_with_offset (diff.scale i) with hstart
    have hso : start.offs = s.offs.add (diff.scale i) := rfl
    have hsf : start.Fresh := (fresh_iff' start).2 hf
    split at h
    · cases h
    · cases h
    · rename_i a t h1
      obtain ⟨a', h2, h3, h4⟩ := clone_body_ok (hne i) h1
      cases h2
      obtain ⟨ft, gt⟩ := hg i start _ t hsf h3
      obtain ⟨g1, g2, -⟩ := (grows_iff _ _).1 gt
      have rt := hr i start _ t hsf h3
      have hto : t.offs = s.offs.add (diff.scale (i + 1)) := by
        apply Offsets.ext_at
        intro chip
        have e := congrArg (fun o => Offsets.at o chip) h4
        have := g1 chip
        simp only [Offsets.sub_at, hso, Offsets.add_at, Offsets.scale_at] at e this ⊢
        have e2 : diff.at chip * (i + 1) = diff.at chip * i + diff.at chip := by ring
        omega
      have ft' : FreshFrom t.records.inner (s.offs.add (diff.scale (i + 1))) := by
        rw [← hto]; exact (fresh_iff' t).1 ft
      split at h
      · cases h
      · cases h
      · rename_i l inner2 h5
        cases h
        obtain ⟨k1, k2, k3⟩ := ih _ _ _ _ h5 ft'
        refine ⟨fun c hc => k1 c (rt.flags c hc), ?_, ?_⟩
        · intro x hx
          rcases List.mem_cons.1 hx with rfl | hx
          · exact fun chip => rt.height chip
          · exact k2 x hx
        · intro x hx chip
          rcases List.mem_cons.1 hx with rfl | hx
          · rcases rt.top chip with e | e
            · left
              have e' := congrArg (fun o => Offsets.at o chip) h4
              simp only [Offsets.sub_at] at e'
              omega
            · exact .inr e
          · exact k3 x hx chip

theorem windows_parallel_raised {windows : ℕ} {body : ℕ → M n (Except ε α)} (hw : 1 ≤ windows)
    (hg : ∀ i, Growing (body i)) (hr : ∀ i, Raises (body i)) (hne : ∀ i, NeverErr (body i)) :
    Raises (windows_parallel windows body) := by
  intro s r t hs h
  unfold windows_parallel at h
  obtain ⟨r1, s1, h1, h2⟩ := run_bind_ok.1 h
  obtain ⟨a, u, rfl, h3, rfl⟩ := predict_ok (hne 0) h1
  have hs0 : (s.clone_with_offset ⟨0, 0, 0⟩).Fresh := (fresh_iff' _).2 ((fresh_iff' s).1 hs)
  obtain ⟨fu, gu⟩ := hg 0 _ _ _ hs0 h3
  have ru := hr 0 _ _ _ hs0 h3
  obtain ⟨g1, g2, -⟩ := (grows_iff _ _).1 gu
  set diff := u.offs.sub s.offs with hdiff
  set s1 := (s.share u.records.inner).merge u with hs1
  dsimp only at h2
  obtain ⟨r2, s2, h4, h5⟩ := run_bind_ok.1 h2
  have hu1 : s.offs.add (diff.scale 1) = u.offs := by
    apply Offsets.ext_at
    intro chip
    have := g1 chip
    simp only [clone_zero_offs] at this
    simp only [hdiff, Offsets.sub_at, Offsets.add_at, Offsets.scale_at]
    omega
  have hso : s1.offs = s.offs := rfl
  have hsu : ∀ chip, u.records.heightOf chip ≤ s1.records.heightOf chip := merge_height _ _
  have hss : ∀ chip, s.records.heightOf chip ≤ s1.records.heightOf chip := fun chip =>
    (ru.height chip).trans (hsu chip)
  unfold rest_windows at h4
  split at h4
  · cases h4
  · rename_i h6
    obtain ⟨l, hl, -⟩ := run_clones_ok hg hne _ _ _ _ _ h6 (by
      rw [hso, hu1]; exact (fresh_iff' u).1 fu)
    cases hl
  · rename_i l inner h6
    cases h4
    cases h5
    have hf : FreshFrom s1.records.inner (s1.offs.add (diff.scale 1)) := by
      rw [hso, hu1]; exact (fresh_iff' u).1 fu
    obtain ⟨k1, k2, k3⟩ := run_clones_raised hg hr hne _ _ _ _ _ h6 hf
    obtain ⟨l', hl, hlen, -, -, k4⟩ := run_clones_ok hg hne _ _ _ _ _ h6 hf
    cases hl
    obtain ⟨m1, m2, m3⟩ := foldl_merge (l.map Prod.snd) (s1.share inner)
    have hh := foldl_merge_height (l.map Prod.snd) (s1.share inner) (by
      intro t ht
      obtain ⟨x, hx, rfl⟩ := List.mem_map.1 ht
      exact k2 x hx)
    refine ⟨fun chip => (hss chip).trans (hh chip).1, fun c hc => ?_, fun chip => ?_⟩
    · show (Context.records _).inner.permute_flag c = true
      have : ((l.map Prod.snd).foldl Context.merge (s1.share inner) |>.apply_offset_diff
        (diff.scale windows)).records.inner = inner := m1
      rw [this]
      exact k1 c (ru.flags c hc)
    · have hto : ((l.map Prod.snd).foldl Context.merge (s1.share inner) |>.apply_offset_diff
          (diff.scale windows)).offs = s.offs.add (diff.scale windows) := by
        show Offsets.add (Context.offs _) _ = _
        rw [m2]; rfl
      rw [hto]
      by_cases hd : diff.at chip = 0
      · left; rw [Offsets.add_at, Offsets.scale_at, hd]; omega
      right
      cases hl : l.getLast? with
      | none =>
        have : l = [] := by simpa using hl
        subst this
        have hw1 : windows = 1 := by simp at hlen; omega
        subst hw1
        rw [hu1]
        rcases ru.top chip with e | e
        · exfalso; apply hd; rw [hdiff, Offsets.sub_at]; rw [clone_zero_offs] at e; omega
        · exact e.trans (hsu chip)
      | some x =>
        have hx : x ∈ l := List.mem_of_getLast? hl
        have hne : l ≠ [] := by rintro rfl; cases hx
        have hge := (hh chip).2 x.2 (by rw [List.getLast?_map, hl]; rfl)
        have hidx : l[l.length - 1]? = some x := by rw [← List.getLast?_eq_getElem?]; exact hl
        obtain ⟨n1, -⟩ := k4 _ _ hidx
        rcases k3 x hx chip with e | e
        · exact absurd e hd
        · refine le_trans ?_ (e.trans hge)
          rw [n1, hso]
          have : l.length ≠ 0 := fun e => hne (List.length_eq_zero_iff.1 e)
          rw [show 1 + (l.length - 1) + 1 = windows by omega]

/-! ## Programs with work on clones -/

/-- Operations composed of the primitive writers and of work on clones; cached values only if `cc`. -/
inductive Built2 (cc : Prop) : {α : Type} → M n α → Prop
  | prog {α : Type} {m : M n α} (h : Built cc m) : Built2 cc m
  | bind {α β : Type} {m : M n α} {k : α → M n β} (hm : Built2 cc m)
      (hk : ∀ a, (∃ s t, m s = .ok (a, t)) → Built2 cc (k a)) : Built2 cc (m >>= k)
  | parallel {α ε : Type} (windows : ℕ) (body : ℕ → M n (Except ε α)) (hb : ∀ i, Built cc (body i))
      (hne : ∀ i, NeverErr (body i)) (hw : windows = 0 → ∀ s, ∃ p, body 0 s = .error p) :
      Built2 cc (windows_parallel windows body)

/-- Operations composed of the primitive writers and of work on clones. -/
abbrev Prog2 (m : M n α) : Prop := Built2 True m

theorem windows_parallel_panics {windows : ℕ} {body : ℕ → M n (Except ε α)} (h : ∀ s, ∃ p, body 0 s = .error p)
    {s t : Context n} {r : Except ε (List α)} (e : windows_parallel windows body s = .ok (r, t)) : False := by
  obtain ⟨p, hp⟩ := h (s.clone_with_offset ⟨0, 0, 0⟩)
  unfold windows_parallel at e
  obtain ⟨r1, s1, h1, -⟩ := run_bind_ok.1 e
  unfold predict at h1
  rw [hp] at h1
  cases h1

theorem Built2.tidy {cc : Prop} {m : M n α} (h : Built2 cc m) : Growing m ∧ Raises m := by
  induction h with
  | prog h => exact ⟨h.weaken.growing, h.weaken.raises⟩
  | bind _ _ hm hk =>
    constructor
    · intro s b t hs e
      obtain ⟨a, u, h1, h2⟩ := run_bind_ok.1 e
      obtain ⟨f1, g1⟩ := hm.1 _ _ _ hs h1
      obtain ⟨f2, g2⟩ := (hk a ⟨_, _, h1⟩).1 _ _ _ f1 h2
      exact ⟨f2, g1.trans g2⟩
    · intro s b t hs e
      obtain ⟨a, u, h1, h2⟩ := run_bind_ok.1 e
      obtain ⟨f1, g1⟩ := hm.1 _ _ _ hs h1
      exact (hm.2 _ _ _ hs h1).trans ((hk a ⟨_, _, h1⟩).2 _ _ _ f1 h2)
  | parallel windows body hb hne hw =>
    by_cases h0 : windows = 0
    · exact ⟨fun _ _ _ _ e => (windows_parallel_panics (hw h0) e).elim,
        fun _ _ _ _ e => (windows_parallel_panics (hw h0) e).elim⟩
    · have h1 : 1 ≤ windows := Nat.one_le_iff_ne_zero.2 h0
      refine ⟨fun s r t hs e => ?_, windows_parallel_raised h1 (fun i => (hb i).weaken.growing) (fun i => (hb i).weaken.raises) hne⟩
      obtain ⟨l, -, -, f, g, -⟩ := windows_parallel_ok h1 (fun i => (hb i).weaken.growing) hne hs e
      exact ⟨f, g⟩

theorem Built2.tryB {cc : Prop} {m : M n (Except UnsafeError α)} {k : α → M n (Except UnsafeError β)} (hm : Built2 cc m)
    (hk : ∀ a, (∃ s t, m s = .ok (.ok a, t)) → Built2 cc (k a)) : Built2 cc (Verif.tryB m k) := by
  unfold Verif.tryB
  refine .bind hm ?_
  rintro (e | a) h
  · exact .prog (.pure _)
  · exact hk a h

end Verif
