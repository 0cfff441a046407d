import Verif.Proof.Log

/-!
# Work on clones

Soundness of the windows run on clones, from the soundness of the work on each.
-/

namespace Verif
variable {n : ℕ} {α β ε : Type}

/-- The fixed columns of a chip. -/
def Circuit.fixOf (c : Circuit n) : Chip → ℕ → ℕ → ZMod n
  | .base => c.baseFix
  | .range => c.rangeFix
  | .select => c.selFix

/-- Rows from `o` on are unwritten. -/
def FreshFrom (i : RecordsInner n) (o : Offsets) : Prop :=
  ∀ chip r c, o.at chip ≤ r → i.fixOf chip r c = none ∧ i.advOf chip r c = none

/-- Rows below `o` are the same. -/
def SameBelow (i j : RecordsInner n) (o : Offsets) : Prop :=
  ∀ chip r c, r < o.at chip → j.fixOf chip r c = i.fixOf chip r c ∧ j.advOf chip r c = i.advOf chip r c

/-- Componentwise order. -/
def Offsets.le (a b : Offsets) : Prop := ∀ chip, a.at chip ≤ b.at chip

theorem Offsets.le.trans {a b c : Offsets} (h : a.le b) (h' : b.le c) : a.le c := fun x => (h x).trans (h' x)

theorem Offsets.le_refl (a : Offsets) : a.le a := fun _ => le_rfl

theorem SameBelow.refl (i : RecordsInner n) (o : Offsets) : SameBelow i i o := fun _ _ _ _ => ⟨rfl, rfl⟩

theorem SameBelow.trans {i j k : RecordsInner n} {o o' : Offsets} (h : SameBelow i j o) (h' : SameBelow j k o')
    (hle : o.le o') : SameBelow i k o := fun chip r c hr =>
  let ⟨h1, h2⟩ := h chip r c hr
  let ⟨h3, h4⟩ := h' chip r c (hr.trans_le (hle chip))
  ⟨h3.trans h1, h4.trans h2⟩

theorem fresh_iff' (s : Context n) : s.Fresh ↔ FreshFrom s.records.inner s.offs := fresh_iff s

theorem grows_iff (s t : Context n) : Grows s t ↔ s.offs.le t.offs ∧ SameBelow s.records.inner t.records.inner s.offs ∧
    ∃ extra, t.records.permutations = s.records.permutations ++ extra := by
  constructor
  · intro h
    refine ⟨?_, ?_, h.perms⟩
    · rintro (_ | _ | _)
      exacts [h.baseOff, h.rangeOff, h.selOff]
    · rintro (_ | _ | _) r c hr
      exacts [⟨h.baseFix r c hr, h.baseAdv r c hr⟩, ⟨h.rangeFix r c hr, h.rangeAdv r c hr⟩,
        ⟨h.selFix r c hr, h.selAdv r c hr⟩]
  · rintro ⟨h1, h2, h3⟩
    exact ⟨h1 .base, h1 .range, h1 .select, fun r k hr => (h2 .base r k hr).1, fun r k hr => (h2 .base r k hr).2,
      fun r k hr => (h2 .range r k hr).1, fun r k hr => (h2 .range r k hr).2,
      fun r k hr => (h2 .select r k hr).1, fun r k hr => (h2 .select r k hr).2, h3⟩

theorem embeds_iff (s : Context n) (c : Circuit n) : s.Embeds c ↔ (∀ chip, s.offs.at chip ≤ c.usable) ∧
    (∀ chip r k, r < s.offs.at chip → c.fixOf chip r k = (s.records.inner.fixOf chip r k).getD 0) ∧
    ∀ p ∈ s.records.permutations, p ∈ c.copies := by
  constructor
  · intro h
    refine ⟨?_, ?_, h.copies⟩
    · rintro (_ | _ | _)
      exacts [h.fits.base, h.fits.range, h.fits.select]
    · rintro (_ | _ | _) r c hr
      exacts [h.base r c hr, h.range r c hr, h.select r c hr]
  · rintro ⟨h1, h2, h3⟩
    exact ⟨⟨h1 .base, h1 .range, h1 .select⟩, fun r k hr => h2 .base r k hr, fun r k hr => h2 .range r k hr,
      fun r k hr => h2 .select r k hr, h3⟩

theorem agrees_iff (s : Context n) (h : Advice n) : Agrees s h ↔
    ∀ chip r k, r < s.offs.at chip → h ⟨chip, k, r⟩ = (s.records.inner.advOf chip r k).getD 0 := by
  constructor
  · intro h
    rintro (_ | _ | _) r k hr
    exacts [h.base r k hr, h.range r k hr, h.select r k hr]
  · intro h
    exact ⟨fun r k hr => h .base r k hr, fun r k hr => h .range r k hr, fun r k hr => h .select r k hr⟩

theorem Embeds.mono {s t : Context n} {c : Circuit n} (h : t.Embeds c) (ho : s.offs.le t.offs)
    (hs : SameBelow s.records.inner t.records.inner s.offs)
    (hp : ∀ p ∈ s.records.permutations, p ∈ t.records.permutations) : s.Embeds c := by
  rw [embeds_iff] at h ⊢
  obtain ⟨h1, h2, h3⟩ := h
  refine ⟨fun chip => (ho chip).trans (h1 chip), fun chip r k hr => ?_, fun p h => h3 p (hp p h)⟩
  rw [h2 chip r k (hr.trans_le (ho chip)), (hs chip r k hr).1]

/-- The operation never returns an `Err`. -/
def NeverErr (m : M n (Except ε α)) : Prop := ∀ s r t, m s = .ok (r, t) → ∃ a, r = .ok a

theorem Offsets.add_at (a b : Offsets) (chip : Chip) : (a.add b).at chip = a.at chip + b.at chip := by cases chip <;> rfl
theorem Offsets.scale_at (a : Offsets) (k : ℕ) (chip : Chip) : (a.scale k).at chip = a.at chip * k := by
  cases chip <;> rfl
theorem Offsets.sub_at (a b : Offsets) (chip : Chip) : (a.sub b).at chip = a.at chip - b.at chip := by cases chip <;> rfl

theorem Offsets.ext_at {a b : Offsets} (h : ∀ chip, a.at chip = b.at chip) : a = b := by
  cases a; cases b
  have h1 := h .base
  have h2 := h .range
  have h3 := h .select
  simp only [Offsets.at] at h1 h2 h3
  subst h1; subst h2; subst h3; rfl

theorem clone_body_ok {diff before : Offsets} {m : M n (Except ε α)} (hne : NeverErr m) {s t : Context n}
    {r : Except ε α} (h : clone_body diff m before s = .ok (r, t)) :
    ∃ a, r = .ok a ∧ m s = .ok (.ok a, t) ∧ t.offs.sub before = diff := by
  unfold clone_body at h
  obtain ⟨r', t', h1, h2⟩ := run_bind_ok.1 h
  obtain ⟨a, rfl⟩ := hne _ _ _ h1
  obtain ⟨o, t'', h3, h4⟩ := run_bind_ok.1 h2
  cases h3
  obtain ⟨_, t'', h5, h6⟩ := run_bind_ok.1 h4
  unfold rassert at h5
  split at h5
  · rename_i h7
    cases h5
    cases h6
    exact ⟨a, rfl, h1, by simpa using h7⟩
  · cases h5

/-- What is known about the clones that have been run. -/
theorem run_clones_ok {s : Context n} {diff : Offsets} {body : ℕ → M n (Except ε α)}
    (hg : ∀ i, Growing (body i)) (hne : ∀ i, NeverErr (body i)) :
    ∀ (k i : ℕ) (inner inner' : RecordsInner n) (r : Except ε (List (α × Context n))),
    run_clones s diff body inner (List.range' i k) = .ok (r, inner') →
    FreshFrom inner (s.offs.add (diff.scale i)) →
    ∃ l, r = .ok l ∧ l.length = k ∧ FreshFrom inner' (s.offs.add (diff.scale (i + k))) ∧
      SameBelow inner inner' (s.offs.add (diff.scale i)) ∧
      ∀ j x, l[j]? = some x → x.2.offs = s.offs.add (diff.scale (i + j + 1)) ∧
        SameBelow x.2.records.inner inner' x.2.offs ∧
        ∃ u : Context n, u.Fresh ∧ u.records.permutations = [] ∧ u.offs = s.offs.add (diff.scale (i + j)) ∧
          SameBelow inner u.records.inner (s.offs.add (diff.scale i)) ∧ body (i + j) u = .ok (.ok x.1, x.2) := by
  intro k
  induction k with
  | zero =>
    intro i inner inner' r h hf
    cases h
    exact ⟨[], rfl, rfl, hf, .refl _ _, fun j x hx => by cases hx⟩
  | succ k ih =>
    intro i inner inner' r h hf
    rw [List.range'_succ] at h
    unfold run_clones at h
    dsimp only at h
    set start := (s.share inner).clone_with_offset (diff.scale i) with hstart
    have hso : start.offs = s.offs.add (diff.scale i) := rfl
    have hsf : start.Fresh := (fresh_iff' start).2 hf
    split at h
    · cases h
    · rename_i e t h1
      obtain ⟨a, h2, -⟩ := clone_body_ok (hne i) h1
      cases h2
    · rename_i a t h1
      obtain ⟨a', h2, h3, h4⟩ := clone_body_ok (hne i) h1
      cases h2
      obtain ⟨ft, gt⟩ := hg i start _ t hsf h3
      obtain ⟨g1, g2, -⟩ := (grows_iff _ _).1 gt
      have hto : t.offs = s.offs.add (diff.scale (i + 1)) := by
        apply Offsets.ext_at
        intro chip
        have e := congrArg (fun o => Offsets.at o chip) h4
        have := g1 chip
        simp only [Offsets.sub_at, hso, Offsets.add_at, Offsets.scale_at] at e this ⊢
        have e2 : diff.at chip * (i + 1) = diff.at chip * i + diff.at chip := by ring
        omega
      have hle : (s.offs.add (diff.scale i)).le (s.offs.add (diff.scale (i + 1))) := by rw [← hso, ← hto]; exact g1
      have ft' : FreshFrom t.records.inner (s.offs.add (diff.scale (i + 1))) := by
        rw [← hto]; exact (fresh_iff' t).1 ft
      split at h
      · cases h
      · rename_i e inner2 h5
        obtain ⟨l, hl, -⟩ := ih _ _ _ _ h5 ft'
        cases hl
      · rename_i l inner2 h5
        cases h
        obtain ⟨l', hl, hlen, k1, k2, k3⟩ := ih _ _ _ _ h5 ft'
        cases hl
        refine ⟨_, rfl, by simp [hlen], by rw [show i + (k + 1) = i + 1 + k by ring]; exact k1, ?_, ?_⟩
        · exact SameBelow.trans g2 k2 hle
        · rintro (_ | j) x hx
          · cases hx
            refine ⟨hto, by rw [hto]; exact k2, start, hsf, rfl, hso, .refl _ _, h3⟩
          · obtain ⟨m1, m2, u, m3, m4, m5, m6, m7⟩ := k3 j x hx
            refine ⟨by rw [m1]; congr 2; ring, m2, u, m3, m4, by rw [m5]; congr 2; ring, ?_, ?_⟩
            · exact SameBelow.trans g2 m6 hle
            · rw [show i + (j + 1) = i + 1 + j by ring]; exact m7

theorem foldl_merge (l : List (Context n)) (s : Context n) :
    (l.foldl Context.merge s).records.inner = s.records.inner ∧ (l.foldl Context.merge s).offs = s.offs ∧
    (l.foldl Context.merge s).records.permutations =
      s.records.permutations ++ (l.map fun t => t.records.permutations).flatten := by
  induction l generalizing s with
  | nil => simp
  | cons t l ih =>
    obtain ⟨h1, h2, h3⟩ := ih (s.merge t)
    refine ⟨h1.trans rfl, h2.trans rfl, ?_⟩
    rw [List.foldl_cons, h3, List.map_cons, List.flatten_cons, ← List.append_assoc]
    rfl

theorem predict_ok {m : M n (Except ε α)} (hne : NeverErr m) {s t : Context n} {r : Except ε (α × Offsets)}
    (h : predict m s = .ok (r, t)) : ∃ a u, r = .ok (a, u.offs.sub s.offs) ∧
      m (s.clone_with_offset ⟨0, 0, 0⟩) = .ok (.ok a, u) ∧ t = (s.share u.records.inner).merge u := by
  unfold predict at h
  split at h
  · cases h
  · rename_i h1
    obtain ⟨a, ha⟩ := hne _ _ _ h1
    cases ha
  · rename_i a u h1
    cases h
    exact ⟨a, u, rfl, h1, rfl⟩

theorem clone_zero_offs (s : Context n) : (s.clone_with_offset ⟨0, 0, 0⟩).offs = s.offs := rfl

/-- What a successful run of the windows looks like: every window is a run of its body on a fresh context whose
constraints end up in the resulting context. -/
theorem windows_parallel_ok {windows : ℕ} {body : ℕ → M n (Except ε α)} (hw : 1 ≤ windows)
    (hg : ∀ i, Growing (body i)) (hne : ∀ i, NeverErr (body i)) {s t : Context n} {r : Except ε (List α)}
    (hs : s.Fresh) (h : windows_parallel windows body s = .ok (r, t)) :
    ∃ l, r = .ok l ∧ l.length = windows ∧ t.Fresh ∧ Grows s t ∧
      ∀ i a, l[i]? = some a → ∃ u v : Context n, u.Fresh ∧ body i u = .ok (.ok a, v) ∧
        ∀ c, t.Embeds c → v.Embeds c := by
  unfold windows_parallel at h
  obtain ⟨r1, s1, h1, h2⟩ := run_bind_ok.1 h
  obtain ⟨a, u, rfl, h3, rfl⟩ := predict_ok (hne 0) h1
  have hs0 : (s.clone_with_offset ⟨0, 0, 0⟩).Fresh := (fresh_iff' _).2 ((fresh_iff' s).1 hs)
  obtain ⟨fu, gu⟩ := hg 0 _ _ _ hs0 h3
  obtain ⟨g1, g2, -⟩ := (grows_iff _ _).1 gu
  set diff := u.offs.sub s.offs with hdiff
  set s1 := (s.share u.records.inner).merge u with hs1
  dsimp only at h2
  obtain ⟨r2, s2, h4, h5⟩ := run_bind_ok.1 h2
  have hu1 : s.offs.add (diff.scale 1) = u.offs := by
    apply Offsets.ext_at
    intro chip
    have := g1 chip
    simp only [clone_zero_offs] at this
    simp only [hdiff, Offsets.sub_at, Offsets.add_at, Offsets.scale_at]
    omega
  have hso : s1.offs = s.offs := rfl
  have hle0 : s.offs.le u.offs := g1
  unfold rest_windows at h4
  split at h4
  · cases h4
  · rename_i h6
    obtain ⟨l, hl, -⟩ := run_clones_ok hg hne _ _ _ _ _ h6 (by
      rw [hso, hu1]; exact (fresh_iff' u).1 fu)
    cases hl
  · rename_i l inner h6
    cases h4
    cases h5
    obtain ⟨l', hl, hlen, k1, k2, k3⟩ := run_clones_ok hg hne _ _ _ _ _ h6 (by
      rw [hso, hu1]; exact (fresh_iff' u).1 fu)
    cases hl
    obtain ⟨m1, m2, m3⟩ := foldl_merge (l.map Prod.snd) (s1.share inner)
    rw [hso, hu1] at k2
    have hto : ((l.map Prod.snd).foldl Context.merge (s1.share inner) |>.apply_offset_diff (diff.scale windows)).offs =
        s.offs.add (diff.scale windows) := by
      show Offsets.add (Context.offs _) _ = _
      rw [m2]; rfl
    have hti : ((l.map Prod.snd).foldl Context.merge (s1.share inner) |>.apply_offset_diff
        (diff.scale windows)).records.inner = inner := m1
    have htp : ((l.map Prod.snd).foldl Context.merge (s1.share inner) |>.apply_offset_diff
        (diff.scale windows)).records.permutations = s.records.permutations ++ u.records.permutations ++
        ((l.map Prod.snd).map fun t => t.records.permutations).flatten := m3
    set T := (l.map Prod.snd).foldl Context.merge (s1.share inner) |>.apply_offset_diff (diff.scale windows)
    have hmono : ∀ i j : ℕ, i ≤ j → (s.offs.add (diff.scale i)).le (s.offs.add (diff.scale j)) := by
      intro i j hij chip
      simp only [Offsets.add_at, Offsets.scale_at]
      have := Nat.mul_le_mul_left (diff.at chip) hij
      omega
    refine ⟨a :: l.map Prod.fst, rfl, by simp [hlen]; omega, ?_, ?_, ?_⟩
    · rw [fresh_iff', hti, hto]
      rw [show 1 + (windows - 1) = windows by omega] at k1
      exact k1
    · rw [grows_iff]
      refine ⟨?_, ?_, _, by rw [htp, List.append_assoc]⟩
      · rw [hto]
        intro chip
        simp only [Offsets.add_at]
        omega
      · rw [hti]
        exact SameBelow.trans (o' := u.offs) g2 k2 hle0
    · rintro (_ | i) x hx
      · cases hx
        refine ⟨_, u, hs0, h3, fun c hc => ?_⟩
        refine Embeds.mono hc ?_ ?_ ?_
        · rw [hto, ← hu1]; exact hmono 1 windows hw
        · rw [hti]; exact k2
        · intro p hp
          rw [htp]
          exact List.mem_append_left _ (List.mem_append_right _ hp)
      · rw [List.getElem?_cons_succ, List.getElem?_map] at hx
        obtain ⟨⟨a', v⟩, hy, e⟩ := Option.map_eq_some_iff.1 hx
        cases e
        obtain ⟨n1, n2, u', n3, -, -, -, n7⟩ := k3 i _ hy
        rw [show 1 + i = i + 1 by ring] at n7
        refine ⟨u', v, n3, n7, fun c hc => ?_⟩
        have hi : i < windows - 1 := by
          rw [← hlen]; exact (List.getElem?_eq_some_iff.1 hy).1
        refine Embeds.mono hc ?_ ?_ ?_
        · rw [hto, n1]; exact hmono _ _ (by omega)
        · rw [hti]; exact n2
        · intro p hp
          rw [htp]
          refine List.mem_append_right _ (List.mem_flatten.2 ⟨_, ?_, hp⟩)
          rw [List.map_map]
          exact List.mem_map.2 ⟨_, List.mem_of_getElem? hy, rfl⟩

theorem S_windows_parallel {c : Circuit n} {windows : ℕ} {body : ℕ → M n (Except ε α)} {P : ℕ → α → Prop}
    (hw : 1 ≤ windows) (hne : ∀ i, NeverErr (body i))
    (hb : ∀ i, S c (body i) (fun r => ∃ a, r = .ok a ∧ P i a)) :
    S c (windows_parallel windows body) (fun r => ∃ l, r = .ok l ∧ l.length = windows ∧
      ∀ i a, l[i]? = some a → P i a) := by
  intro s r t hs h
  obtain ⟨l, rfl, hl, ft, gt, k⟩ := windows_parallel_ok hw (fun i => (hb i).growing) hne hs h
  refine ⟨ft, gt, fun e => ⟨l, rfl, hl, fun i a ha => ?_⟩⟩
  obtain ⟨u, v, hu, hrun, he⟩ := k i a ha
  obtain ⟨-, -, h3⟩ := hb i u _ v hu hrun
  obtain ⟨a', h4, h5⟩ := h3 (he c e)
  cases h4
  exact h5

end Verif
