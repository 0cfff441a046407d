import Verif.Proof.Parallel
import Verif.Proof.RelPar

/-!
# Work on clones, completeness

If every window alone is accepted and all windows use as many rows as the first, then the windows run on clones do not
panic and the merged rows and copy constraints are accepted.
-/

namespace Verif
variable {n : ℕ} {α ε : Type}

/-- What a successful run of the windows looks like, in detail: where each window's rows are and which copy constraints
are merged. -/
theorem windows_parallel_layout {windows : ℕ} {body : ℕ → M n (Except ε α)} (hw : 1 ≤ windows)
    (hg : ∀ i, Growing (body i)) (hne : ∀ i, NeverErr (body i)) {s t : Context n} {r : Except ε (List α)}
    (hs : s.Fresh) (h : windows_parallel windows body s = .ok (r, t)) :
    ∃ (l : List (α × Context n)) (diff : Offsets), r = .ok (l.map Prod.fst) ∧ l.length = windows ∧ t.Fresh ∧ Grows s t ∧
      t.offs = s.offs.add (diff.scale windows) ∧
      t.records.permutations = s.records.permutations ++ (l.map fun x => x.2.records.permutations).flatten ∧
      ∀ i a v, l[i]? = some (a, v) → ∃ u : Context n, u.Fresh ∧ u.records.permutations = [] ∧
        u.offs = s.offs.add (diff.scale i) ∧ v.offs = s.offs.add (diff.scale (i + 1)) ∧
        SameBelow v.records.inner t.records.inner v.offs ∧ body i u = .ok (.ok a, v) := by
  unfold windows_parallel at h
  obtain ⟨r1, s1, h1, h2⟩ := run_bind_ok.1 h
  obtain ⟨a, u, rfl, h3, rfl⟩ := predict_ok (hne 0) h1
  have hs0 : (s.clone_with_offset ⟨0, 0, 0⟩).Fresh := (fresh_iff' _).2 ((fresh_iff' s).1 hs)
  obtain ⟨fu, gu⟩ := hg 0 _ _ _ hs0 h3
  obtain ⟨g1, g2, -⟩ := (grows_iff _ _).1 gu
  set diff := u.offs.sub s.offs with hdiff
  set s1 := (s.share u.records.inner).merge u with hs1
  dsimp only at h2
  obtain ⟨r2, s2, h4, h5⟩ := run_bind_ok.1 h2
  have hu1 : s.offs.add (diff.scale 1) = u.offs := by
    apply Offsets.ext_at
    intro chip
    have := g1 chip
    simp only [clone_zero_offs] at this
    simp only [hdiff, Offsets.sub_at, Offsets.add_at, Offsets.scale_at]
    omega
  have hu0 : s.offs.add (diff.scale 0) = s.offs := by
    apply Offsets.ext_at
    intro chip
    simp only [Offsets.add_at, Offsets.scale_at, Nat.mul_zero, Nat.add_zero]
  have hso : s1.offs = s.offs := rfl
  have hle0 : s.offs.le u.offs := g1
  unfold rest_windows at h4
  split at h4
  · cases h4
  · rename_i h6
    obtain ⟨l, hl, -⟩ := run_clones_ok hg hne _ _ _ _ _ h6 (by
      rw [hso, hu1]; exact (fresh_iff' u).1 fu)
    cases hl
  · rename_i l inner h6
    cases h4
    cases h5
    obtain ⟨l', hl, hlen, k1, k2, k3⟩ := run_clones_ok hg hne _ _ _ _ _ h6 (by
      rw [hso, hu1]; exact (fresh_iff' u).1 fu)
    cases hl
    obtain ⟨m1, m2, m3⟩ := foldl_merge (l.map Prod.snd) (s1.share inner)
    rw [hso, hu1] at k2
    have hto : ((l.map Prod.snd).foldl Context.merge (s1.share inner) |>.apply_offset_diff (diff.scale windows)).offs =
        s.offs.add (diff.scale windows) := by
      show Offsets.add (Context.offs _) _ = _
      rw [m2]; rfl
    have hti : ((l.map Prod.snd).foldl Context.merge (s1.share inner) |>.apply_offset_diff
        (diff.scale windows)).records.inner = inner := m1
    have htp : ((l.map Prod.snd).foldl Context.merge (s1.share inner) |>.apply_offset_diff
        (diff.scale windows)).records.permutations = s.records.permutations ++ u.records.permutations ++
        ((l.map Prod.snd).map fun t => t.records.permutations).flatten := m3
    set T := (l.map Prod.snd).foldl Context.merge (s1.share inner) |>.apply_offset_diff (diff.scale windows)
    refine ⟨(a, u) :: l, diff, rfl, by rw [List.length_cons, hlen]; omega, ?_, ?_, hto, ?_, ?_⟩
    · rw [fresh_iff', hti, hto]
      rw [show 1 + (windows - 1) = windows by omega] at k1
      exact k1
    · rw [grows_iff]
      refine ⟨?_, ?_, _, by rw [htp, List.append_assoc]⟩
      · rw [hto]
        intro chip
        simp only [Offsets.add_at]
        omega
      · rw [hti]
        exact SameBelow.trans (o' := u.offs) g2 k2 hle0
    · rw [htp, List.map_map, List.map_cons, List.flatten_cons, List.append_assoc]
      rfl
    · rintro (_ | i) x v hx
      · cases hx
        exact ⟨_, hs0, rfl, by rw [clone_zero_offs, hu0], hu1.symm, by rw [hti]; exact k2, h3⟩
      · rw [List.getElem?_cons_succ] at hx
        obtain ⟨n1, n2, u', n3, n4, n5, -, n7⟩ := k3 i _ hx
        rw [show 1 + i = i + 1 by ring] at n1 n5 n7
        exact ⟨u', n3, n4, n5, n1, by rw [hti]; exact n2, n7⟩

theorem clone_body_run {diff before : Offsets} {m : M n (Except ε α)} {s t : Context n} {a : α}
    (h : m s = .ok (.ok a, t)) (hd : t.offs.sub before = diff) : clone_body diff m before s = .ok (.ok a, t) := by
  unfold clone_body
  rw [run_bind, h]
  dsimp only
  rw [run_bind]
  dsimp only
  rw [run_bind, hd]
  unfold rassert
  simp

theorem Offsets.le_add_scale (o d : Offsets) (i : ℕ) : o.le (o.add (d.scale i)) := fun chip => by
  rw [Offsets.add_at]; omega

theorem run_clones_run {s : Context n} {diff : Offsets} {body : ℕ → M n (Except ε α)} {windows : ℕ}
    (hb : ∀ i < windows, ∀ u : Context n, u.Fresh → ∃ a v, body i u = .ok (.ok a, v) ∧ v.Fresh ∧
      v.offs = u.offs.add diff) :
    ∀ (k i : ℕ) (inner : RecordsInner n), i + k ≤ windows → FreshFrom inner (s.offs.add (diff.scale i)) →
    ∃ l inner', run_clones s diff body inner (List.range' i k) = .ok (.ok l, inner') := by
  intro k
  induction k with
  | zero => intro i inner _ _; exact ⟨[], inner, rfl⟩
  | succ k ih =>
    intro i inner hi hf
    rw [List.range'_succ]
    unfold run_clones
    dsimp only
    set start := (s.share inner).clone_with_offset (diff.scale i) with hstart
    have hso : start.offs = s.offs.add (diff.scale i) := rfl
    obtain ⟨a, v, h1, h2, h3⟩ := hb i (by omega) start ((fresh_iff' start).2 hf)
    rw [clone_body_run h1 (by rw [h3, Offsets.add_sub])]
    dsimp only
    obtain ⟨l, inner', h4⟩ := ih (i + 1) v.records.inner (by omega) (by
      have := (fresh_iff' v).1 h2
      rw [h3, hso] at this
      have e : (s.offs.add (diff.scale i)).add diff = s.offs.add (diff.scale (i + 1)) := by
        apply Offsets.ext_at
        intro chip
        simp only [Offsets.add_at, Offsets.scale_at]
        ring
      rwa [e] at this)
    rw [h4]
    exact ⟨_, _, rfl⟩

/-- A row in `windows` blocks of the same size lies in one of them. -/
theorem row_in_window {o d windows r : ℕ} (h1 : o ≤ r) (h2 : r < o + d * windows) :
    ∃ i < windows, o + d * i ≤ r ∧ r < o + d * (i + 1) := by
  have hd : 0 < d := by
    rcases Nat.eq_zero_or_pos d with rfl | h
    · omega
    · exact h
  refine ⟨(r - o) / d, ?_, ?_, ?_⟩
  · rw [Nat.div_lt_iff_lt_mul hd, Nat.mul_comm]
    omega
  · have := Nat.div_mul_le_self (r - o) d
    rw [Nat.mul_comm] at this
    omega
  · have e1 := Nat.div_add_mod (r - o) d
    have e2 := Nat.mod_lt (r - o) hd
    rw [Nat.mul_succ]
    omega

theorem C_windows_parallel {c : Circuit n} {h : Advice n} {H : Prop} {windows : ℕ} {body : ℕ → M n (Except ε α)}
    {P Q : ℕ → α → Prop} (hw : 1 ≤ windows) (hg : ∀ i, Growing (body i)) (hne : ∀ i, NeverErr (body i))
    (hb : ∀ i < windows, C c h H (body i) (fun r => ∃ a, r = .ok a ∧ P i a) (fun r => ∀ a, r = .ok a → Q i a))
    (hrel : ∀ i < windows, Runs2 False (body 0) (body i) (fun _ _ => True)) :
    C c h H (windows_parallel windows body)
      (fun r => ∃ l, r = .ok l ∧ l.length = windows ∧ ∀ i a, l[i]? = some a → P i a)
      (fun r => ∀ l, r = .ok l → ∀ i a, l[i]? = some a → Q i a) := by
  intro s hs
  have hs0 : (s.clone_with_offset ⟨0, 0, 0⟩).Fresh := (fresh_iff' _).2 ((fresh_iff' s).1 hs)
  obtain ⟨r0, u0, e0, fu0, gu0, ⟨a0, rfl, -⟩, -⟩ := hb 0 (by omega) _ hs0
  obtain ⟨⟨diff, hd, -⟩, -⟩ := hrel 0 (by omega) _ _ _ _ _ _ (fun f => f.elim) e0 e0
  rw [clone_zero_offs] at hd
  have hrun : ∃ r t, windows_parallel windows body s = .ok (r, t) := by
    have hsub : u0.offs.sub s.offs = diff := by rw [hd, Offsets.add_sub]
    obtain ⟨l, inner, hl⟩ := run_clones_run (s := (s.share u0.records.inner).merge u0) (diff := diff) (body := body)
      (windows := windows) (fun i hi u hu => by
        obtain ⟨r, v, e, fv, -, ⟨a, rfl, -⟩, -⟩ := hb i hi u hu
        obtain ⟨⟨d, d1, d2⟩, -⟩ := hrel i hi _ _ _ _ _ _ (fun f => f.elim) e0 e
        rw [clone_zero_offs, hd] at d1
        have : diff = d := by
          have := congrArg (fun o => o.sub s.offs) d1
          simpa only [Offsets.add_sub] using this
        exact ⟨a, v, e, fv, by rw [this]; exact d2⟩) (windows - 1) 1 u0.records.inner (by omega) (by
        have := (fresh_iff' u0).1 fu0
        have e : ((s.share u0.records.inner).merge u0).offs.add (diff.scale 1) = u0.offs := by
          rw [hd]
          apply Offsets.ext_at
          intro chip
          simp only [Offsets.add_at, Offsets.scale_at, Nat.mul_one]
          rfl
        rwa [e])
    unfold windows_parallel
    rw [run_bind]
    have hp : predict (body 0) s = .ok (.ok (a0, diff), (s.share u0.records.inner).merge u0) := by
      unfold predict
      rw [e0]
      dsimp only
      rw [hsub]
    rw [hp]
    dsimp only
    rw [run_bind]
    unfold rest_windows
    rw [show ((s.share u0.records.inner).merge u0).records.inner = u0.records.inner from rfl, hl]
    exact ⟨_, _, rfl⟩
  obtain ⟨r, t, e⟩ := hrun
  obtain ⟨l, diff', rfl, hlen, ft, gt, ho, hperm, hl⟩ := windows_parallel_layout hw hg hne hs e
  -- what the windows give
  have key : ∀ i < windows, ∃ a v, l[i]? = some (a, v) ∧ P i a ∧ (H → t.Embeds c → Agrees t h →
      Q i a ∧ (∀ r, s.base_offset + diff'.base * i ≤ r → r < s.base_offset + diff'.base * (i + 1) → c.baseGate h r = 0) ∧
      (∀ r, s.range_offset + diff'.range * i ≤ r → r < s.range_offset + diff'.range * (i + 1) → c.RangeRow h r) ∧
      (∀ r, s.select_offset + diff'.select * i ≤ r → r < s.select_offset + diff'.select * (i + 1) → c.SelectRow h r) ∧
      ∀ p ∈ v.records.permutations, h p.1 = h p.2) := by
    intro i hi
    obtain ⟨⟨a, v⟩, hx⟩ : ∃ x, l[i]? = some x := ⟨_, List.getElem?_eq_getElem (by omega)⟩
    obtain ⟨u, hu, hu0, hu1, hv, hsame, hrun⟩ := hl i a v hx
    obtain ⟨r', v', e', fv, gv, ⟨a', e1, hP⟩, hQ⟩ := hb i hi u hu
    rw [hrun] at e'
    cases e'
    cases e1
    refine ⟨a, v, hx, hP, fun hH he ha => ?_⟩
    have hle : v.offs.le t.offs := by
      rw [hv, ho]
      intro chip
      simp only [Offsets.add_at, Offsets.scale_at]
      have := Nat.mul_le_mul_left (diff'.at chip) (show i + 1 ≤ windows by omega)
      omega
    have hev : v.Embeds c := by
      refine Embeds.mono he hle hsame fun p hp => ?_
      rw [hperm]
      refine List.mem_append_right _ (List.mem_flatten.2 ⟨_, List.mem_map.2 ⟨_, List.mem_of_getElem? hx, rfl⟩, hp⟩)
    have hav : Agrees v h := by
      rw [agrees_iff] at ha ⊢
      intro chip r k hr
      rw [ha chip r k (hr.trans_le (hle chip)), (hsame chip r k hr).2]
    obtain ⟨no, q⟩ := hQ hH hev hav
    refine ⟨q a rfl, ?_, ?_, ?_, ?_⟩
    · intro r h1 h2
      exact no.base r (by rw [show u.base_offset = u.offs.base from rfl, hu1]; exact h1)
        (by rw [show v.base_offset = v.offs.base from rfl, hv]; exact h2)
    · intro r h1 h2
      exact no.range r (by rw [show u.range_offset = u.offs.range from rfl, hu1]; exact h1)
        (by rw [show v.range_offset = v.offs.range from rfl, hv]; exact h2)
    · intro r h1 h2
      exact no.select r (by rw [show u.select_offset = u.offs.select from rfl, hu1]; exact h1)
        (by rw [show v.select_offset = v.offs.select from rfl, hv]; exact h2)
    · obtain ⟨x, hx1, hx2⟩ := no.copies
      rw [hu0, List.nil_append] at hx1
      rw [hx1]
      exact hx2
  refine ⟨_, t, e, ft, gt, ⟨_, rfl, by simpa using hlen, ?_⟩, fun hH he ha => ⟨⟨?_, ?_, ?_, ?_⟩, ?_⟩⟩
  · intro i a hx
    have hi : i < windows := by
      have := (List.getElem?_eq_some_iff.1 hx).1
      simpa [hlen] using this
    obtain ⟨a', v, h1, h2, -⟩ := key i hi
    rw [List.getElem?_map, h1] at hx
    cases hx
    exact h2
  · intro r h1 h2
    rw [show t.base_offset = t.offs.base from rfl, ho] at h2
    obtain ⟨i, hi, h3, h4⟩ := row_in_window h1 h2
    obtain ⟨a, v, -, -, k⟩ := key i hi
    exact (k hH he ha).2.1 r h3 h4
  · intro r h1 h2
    rw [show t.range_offset = t.offs.range from rfl, ho] at h2
    obtain ⟨i, hi, h3, h4⟩ := row_in_window h1 h2
    obtain ⟨a, v, -, -, k⟩ := key i hi
    exact (k hH he ha).2.2.1 r h3 h4
  · intro r h1 h2
    rw [show t.select_offset = t.offs.select from rfl, ho] at h2
    obtain ⟨i, hi, h3, h4⟩ := row_in_window h1 h2
    obtain ⟨a, v, -, -, k⟩ := key i hi
    exact (k hH he ha).2.2.2.1 r h3 h4
  · refine ⟨_, hperm, fun p hp => ?_⟩
    obtain ⟨x, hx1, hx2⟩ := List.mem_flatten.1 hp
    obtain ⟨⟨a, v⟩, hy, rfl⟩ := List.mem_map.1 hx1
    obtain ⟨i, hi, e1⟩ := List.getElem_of_mem hy
    obtain ⟨a', v', h1, -, k⟩ := key i (by omega)
    rw [List.getElem?_eq_getElem hi, e1] at h1
    cases h1
    exact (k hH he ha).2.2.2.2 p hx2
  · rintro _ ⟨⟩ i a hx
    have hi : i < windows := by
      have := (List.getElem?_eq_some_iff.1 hx).1
      simpa [hlen] using this
    obtain ⟨a', v, h1, -, k⟩ := key i hi
    rw [List.getElem?_map, h1] at hx
    cases hx
    exact (k hH he ha).1

end Verif
