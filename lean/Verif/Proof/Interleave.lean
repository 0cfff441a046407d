import Verif.Proof.Raised
import Verif.Spec.Interleave

/-!
# Work on clones in any order

The windows run on clones perform fixed sequences of writes on disjoint rows.
-/

namespace Verif
variable {n : ℕ} {α β σ ε : Type}

/-! ## The parts of the effect of a sequence of writes -/

/-- The copy constraints among the writes. -/
def permsOf : List (Write n) → List (Cell × Cell)
  | [] => []
  | .perm a b :: ws => (a, b) :: permsOf ws
  | _ :: ws => permsOf ws

/-- The largest height among the writes. -/
def topOf (chip : Chip) : List (Write n) → ℕ
  | [] => 0
  | .height c h :: ws => max (if c = chip then h else 0) (topOf chip ws)
  | _ :: ws => topOf chip ws

theorem Write.apply_inner (s : Records n) (w : Write n) : (w.apply s).inner = w.applyInner s.inner := by
  rcases w with ⟨_ | _ | _, r', c', v⟩ | ⟨_ | _ | _, r', c', v⟩ | f | ⟨a, b⟩ | ⟨_ | _ | _, h'⟩ <;> rfl

theorem applyAll_inner (ws : List (Write n)) (s : Records n) :
    (applyAll ws s).inner = ws.foldl Write.applyInner s.inner := by
  induction ws generalizing s with
  | nil => rfl
  | cons w ws ih => exact (ih (w.apply s)).trans (by rw [Write.apply_inner]; rfl)

theorem applyAll_perms (ws : List (Write n)) (s : Records n) :
    (applyAll ws s).permutations = s.permutations ++ permsOf ws := by
  induction ws generalizing s with
  | nil => exact (List.append_nil _).symm
  | cons w ws ih =>
    refine (ih (w.apply s)).trans ?_
    rcases w with ⟨_ | _ | _, r', c', v⟩ | ⟨_ | _ | _, r', c', v⟩ | f | ⟨a, b⟩ | ⟨_ | _ | _, h'⟩ <;> first
      | rfl
      | exact List.append_assoc _ _ _

theorem applyAll_heightOf (ws : List (Write n)) (s : Records n) (chip : Chip) :
    (applyAll ws s).heightOf chip = max (s.heightOf chip) (topOf chip ws) := by
  induction ws generalizing s with
  | nil => exact (Nat.max_zero _).symm
  | cons w ws ih =>
    refine (ih (w.apply s)).trans ?_
    rcases w with ⟨_ | _ | _, r', c', v⟩ | ⟨_ | _ | _, r', c', v⟩ | f | ⟨a, b⟩ | ⟨_ | _ | _, h'⟩ <;> first
      | rfl
      | (cases chip <;> simp [topOf, Write.apply, Records.heightOf, max_assoc])

theorem topOf_append (chip : Chip) (a b : List (Write n)) : topOf chip (a ++ b) = max (topOf chip a) (topOf chip b) := by
  induction a with
  | nil => exact (Nat.zero_max _).symm
  | cons w a ih =>
    rcases w with ⟨_ | _ | _, r', c', v⟩ | ⟨_ | _ | _, r', c', v⟩ | f | ⟨a, b⟩ | ⟨_ | _ | _, h'⟩ <;>
      simp [topOf, ih, max_assoc]

theorem permsOf_append (a b : List (Write n)) : permsOf (a ++ b) = permsOf a ++ permsOf b := by
  induction a with
  | nil => rfl
  | cons w a ih =>
    rcases w with ⟨_ | _ | _, r', c', v⟩ | ⟨_ | _ | _, r', c', v⟩ | f | ⟨a, b⟩ | ⟨_ | _ | _, h'⟩ <;>
      simp [permsOf, ih]

/-! ## Interleavings -/

/-- An interleaving of lists of steps that commute across the lists has the effect of their concatenation. -/
theorem Interleaving.foldl_eq {f : σ → β → σ} {C : β → β → Prop} (hC : ∀ x y s, C x y → f (f s x) y = f (f s y) x)
    {ls : List (List β)} {zs : List β} (h : Interleaving ls zs)
    (hp : ls.Pairwise fun l l' => ∀ x ∈ l, ∀ y ∈ l', C x y) (s : σ) : zs.foldl f s = ls.flatten.foldl f s := by
  induction h generalizing s with
  | done h =>
    have : ∀ ls : List (List β), (∀ l ∈ ls, l = []) → ls.flatten = [] := by
      intro ls h
      rw [List.flatten_eq_nil_iff]
      exact h
    rw [this _ h]
  | step pre x l post zs _ ih =>
    have hcomm : ∀ (ys : List β) (s : σ), (∀ y ∈ ys, C y x) → f (ys.foldl f s) x = ys.foldl f (f s x) := by
      intro ys
      induction ys with
      | nil => intro s _; rfl
      | cons y ys ih =>
        intro s h
        rw [List.foldl_cons, List.foldl_cons, ih _ fun z hz => h z (List.mem_cons_of_mem _ hz),
          hC y x s (h y List.mem_cons_self)]
    rw [List.foldl_cons, ih ?_ (f s x)]
    · simp only [List.flatten_append, List.flatten_cons, List.foldl_append, List.cons_append, List.foldl_cons]
      rw [hcomm]
      intro y hy
      obtain ⟨l', h1, h2⟩ := List.mem_flatten.1 hy
      exact (List.pairwise_append.1 hp).2.2 l' h1 _ List.mem_cons_self y h2 x List.mem_cons_self
    · rw [List.pairwise_append, List.pairwise_cons] at hp ⊢
      obtain ⟨h1, ⟨h2, h3⟩, h4⟩ := hp
      refine ⟨h1, ⟨fun l' hl' y hy => h2 l' hl' y (List.mem_cons_of_mem _ hy), h3⟩, fun l' hl' m hm a ha b hb => ?_⟩
      rcases List.mem_cons.1 hm with rfl | hm
      · exact h4 l' hl' _ List.mem_cons_self a ha b (List.mem_cons_of_mem _ hb)
      · exact h4 l' hl' m (List.mem_cons_of_mem _ hm) a ha b hb

theorem setCell_comm {γ : Type} (m : ℕ → ℕ → Option γ) {r r' c c' : ℕ} (v v' : γ) (h : r ≠ r') :
    setCell (setCell m r c v) r' c' v' = setCell (setCell m r' c' v') r c v := by
  funext a b
  unfold setCell
  by_cases h1 : a = r' ∧ b = c'
  · rw [if_pos h1, if_neg fun h2 => h (h2.1.symm.trans h1.1), if_pos h1]
  · rw [if_neg h1, if_neg h1]

/-- Writes to different rows commute. -/
theorem Write.applyInner_comm (x y : Write n) (s : RecordsInner n)
    (h : ∀ t, x.target = some t → y.target ≠ some t) :
    y.applyInner (x.applyInner s) = x.applyInner (y.applyInner s) := by
  rcases x with ⟨_ | _ | _, r, c, v⟩ | ⟨_ | _ | _, r, c, v⟩ | f | ⟨a, b⟩ | ⟨_ | _ | _, t⟩ <;>
  rcases y with ⟨_ | _ | _, r', c', v'⟩ | ⟨_ | _ | _, r', c', v'⟩ | f' | ⟨a', b'⟩ | ⟨_ | _ | _, t'⟩ <;> first
    | rfl
    | (simp only [Write.applyInner]
       rw [setCell_comm]
       rintro rfl
       exact h _ rfl rfl)
    | (simp only [Write.applyInner]
       congr 1
       funext c
       by_cases h1 : c = f <;> by_cases h2 : c = f' <;> simp [h1, h2])

/-! ## The clones -/

/-- Each `body` from window `i` on performs the writes of the corresponding list, between the offsets `O i` and
`O (i + 1)`, and returns the corresponding result. -/
inductive Works (body : ℕ → M n (Except ε α)) (O : ℕ → Offsets) : ℕ → List α → List (List (Write n)) → Prop
  | nil (i : ℕ) : Works body O i [] []
  | cons {i : ℕ} {a : α} {w : List (Write n)} {as : List α} {ws : List (List (Write n))} (hb : Between (O i) (O (i + 1)) w)
      (hp : Performs (body i) (O i) (.ok a) w (O (i + 1))) (h : Works body O (i + 1) as ws) :
      Works body O i (a :: as) (w :: ws)

theorem Works.length {body : ℕ → M n (Except ε α)} {O : ℕ → Offsets} {i : ℕ} {as : List α} {ws : List (List (Write n))}
    (h : Works body O i as ws) : as.length = ws.length := by
  induction h with
  | nil => rfl
  | cons _ _ _ ih => simp [ih]

theorem Works.between {body : ℕ → M n (Except ε α)} {O : ℕ → Offsets} {i : ℕ} {as : List α}
    {ws : List (List (Write n))} (h : Works body O i as ws) : Between (O i) (O (i + as.length)) ws.flatten := by
  induction h with
  | nil => exact Between.nil _
  | @cons i a w as ws hb hp _ ih =>
    rw [List.length_cons, show i + (as.length + 1) = i + 1 + as.length by ring]
    exact hb.append ih

theorem Works.disjoint {body : ℕ → M n (Except ε α)} {O : ℕ → Offsets} {i : ℕ} {as : List α}
    {ws : List (List (Write n))} (h : Works body O i as ws) :
    ws.Pairwise fun l l' => ∀ x ∈ l, ∀ y ∈ l', ∀ t, x.target = some t → y.target ≠ some t := by
  induction h with
  | nil => exact .nil
  | cons hb hp h ih =>
    refine List.Pairwise.cons (fun l' hl' x hx y hy t h1 h2 => ?_) ih
    have e1 := hb.within x hx t.1 t.2 h1
    have e2 := h.between.within y (List.mem_flatten.2 ⟨l', hl', hy⟩) t.1 t.2 h2
    omega

theorem Works.index {body : ℕ → M n (Except ε α)} {O : ℕ → Offsets} {i : ℕ} {as : List α}
    {ws : List (List (Write n))} (h : Works body O i as ws) : ∀ j a w, as[j]? = some a → ws[j]? = some w →
      Between (O (i + j)) (O (i + j + 1)) w ∧ Performs (body (i + j)) (O (i + j)) (.ok a) w (O (i + j + 1)) := by
  induction h with
  | nil => intro j a w h; cases h
  | @cons i a w as ws hb hp _ ih =>
    rintro (_ | j) a' w' h1 h2
    · cases h1; cases h2; exact ⟨hb, hp⟩
    · have := ih j a' w' h1 h2
      rw [show i + (j + 1) = i + 1 + j by ring]
      exact this

/-- One after another on one context. -/
theorem Works.sequential {body : ℕ → M n (Except ε α)} {O : ℕ → Offsets} {i : ℕ} {as : List α}
    {ws : List (List (Write n))} (h : Works body O i as ws) (u : Context n) (hu : u.Fresh) (ho : u.offs = O i) :
    Verif.sequential body (List.range' i as.length) u =
      .ok (.ok as, Context.mk' (applyAll ws.flatten u.records) (O (i + as.length))) := by
  induction h generalizing u with
  | nil i => unfold Verif.sequential; rw [List.length_nil, Nat.add_zero, ← ho]; rfl
  | @cons i a w as ws hb hp h ih =>
    rw [List.length_cons, List.range'_succ]
    unfold Verif.sequential
    rw [run_bind, hp u (ho ▸ hu.freshIn _) ho]
    dsimp only
    rw [run_bind, ih _ (hb.fresh hu ho) rfl, List.flatten_cons, applyAll_append,
      show i + (as.length + 1) = i + 1 + as.length by ring]
    rfl

/-- Any schedule of the writes. -/
theorem Works.interleave {body : ℕ → M n (Except ε α)} {O : ℕ → Offsets} {i : ℕ} {as : List α}
    {ws : List (List (Write n))} (h : Works body O i as ws) {zs : List (Write n)} (hz : Interleaving ws zs)
    (s : RecordsInner n) : zs.foldl Write.applyInner s = ws.flatten.foldl Write.applyInner s :=
  hz.foldl_eq (C := fun x y => ∀ t, x.target = some t → y.target ≠ some t)
    (fun x y s h => Write.applyInner_comm x y s h) h.disjoint s

/-- What is left of a clone's own work: its copy constraints and heights. -/
def Own (s : Context n) (x : α × Context n) (w : List (Write n)) : Prop :=
  x.2.records.permutations = permsOf w ∧
    ∀ chip, x.2.records.heightOf chip = max (s.records.heightOf chip) (topOf chip w)

theorem run_clones_works {s : Context n} {diff : Offsets} {body : ℕ → M n (Except ε α)}
    (hb : ∀ i, Logged (body i)) (hne : ∀ i, NeverErr (body i)) :
    ∀ (k i : ℕ) (inner inner' : RecordsInner n) (r : Except ε (List (α × Context n))),
    run_clones s diff body inner (List.range' i k) = .ok (r, inner') →
    FreshFrom inner (s.offs.add (diff.scale i)) →
    ∃ l ws, r = .ok l ∧ l.length = k ∧ Works body (fun j => s.offs.add (diff.scale j)) i (l.map Prod.fst) ws ∧
      inner' = ws.flatten.foldl Write.applyInner inner ∧ List.Forall₂ (Own s) l ws := by
  intro k
  induction k with
  | zero =>
    intro i inner inner' r h hf
    cases h
    exact ⟨[], [], rfl, rfl, .nil _, rfl, .nil⟩
  | succ k ih =>
    intro i inner inner' r h hf
    rw [List.range'_succ] at h
    unfold run_clones at h
    dsimp only at h
    set start := (s.share inner).clone_with_offset (diff.scale i) with hstart
    have hso : start.offs = s.offs.add (diff.scale i) := rfl
    have hsf : start.Fresh := (fresh_iff' start).2 hf
    split at h
    · cases h
    · rename_i e t h1
      obtain ⟨a, h2, -⟩ := clone_body_ok (hne i) h1
      cases h2
    · rename_i a t h1
      obtain ⟨a', h2, h3, h4⟩ := clone_body_ok (hne i) h1
      cases h2
      obtain ⟨ft, gt⟩ := (hb i).growing start _ t hsf h3
      obtain ⟨g1, g2, -⟩ := (grows_iff _ _).1 gt
      have hto : t.offs = s.offs.add (diff.scale (i + 1)) := by
        apply Offsets.ext_at
        intro chip
        have e := congrArg (fun o => Offsets.at o chip) h4
        have := g1 chip
        simp only [Offsets.sub_at, hso, Offsets.add_at, Offsets.scale_at] at e this ⊢
        have e2 : diff.at chip * (i + 1) = diff.at chip * i + diff.at chip := by ring
        omega
      have ft' : FreshFrom t.records.inner (s.offs.add (diff.scale (i + 1))) := by
        rw [← hto]; exact (fresh_iff' t).1 ft
      rcases hb i start.offs with ⟨p, hp⟩ | ⟨b, w, o', hbw, hpw⟩
      · rw [hp start hsf rfl] at h3; cases h3
      have e3 := hpw start (hsf.freshIn _) rfl
      rw [h3] at e3
      obtain ⟨rfl, rfl⟩ : b = .ok a ∧ t = Context.mk' (applyAll w start.records) o' := by cases e3; exact ⟨rfl, rfl⟩
      have ho' : o' = s.offs.add (diff.scale (i + 1)) := hto
      rw [hso, ho'] at hbw hpw
      have hinn : (applyAll w start.records).inner = w.foldl Write.applyInner inner := applyAll_inner _ _
      split at h
      · cases h
      · rename_i e inner2 h5
        obtain ⟨l, ws, hl, -⟩ := ih _ _ _ _ h5 ft'
        cases hl
      · rename_i l inner2 h5
        cases h
        obtain ⟨l', ws, hl, hlen, k1, k2, k3⟩ := ih _ _ _ _ h5 ft'
        cases hl
        refine ⟨_, w :: ws, rfl, by simp [hlen], .cons hbw hpw k1, ?_, .cons ⟨?_, fun chip => ?_⟩ k3⟩
        · rw [k2, List.flatten_cons, List.foldl_append]
          exact congrArg (fun x => List.foldl Write.applyInner x ws.flatten) hinn
        · exact (applyAll_perms _ _).trans (List.nil_append _)
        · exact applyAll_heightOf _ _ _

theorem foldl_merge_own {s0 : Context n} : ∀ (l : List (α × Context n)) (ws : List (List (Write n))) (s : Context n),
    List.Forall₂ (Own s0) l ws →
    ((l.map Prod.snd).foldl Context.merge s).records.permutations = s.records.permutations ++ permsOf ws.flatten ∧
    ∀ chip, chip ≠ .range → s0.records.heightOf chip ≤ s.records.heightOf chip →
      ((l.map Prod.snd).foldl Context.merge s).records.heightOf chip =
        max (s.records.heightOf chip) (topOf chip ws.flatten) := by
  intro l
  induction l with
  | nil =>
    intro ws s h
    cases h
    exact ⟨(List.append_nil _).symm, fun chip _ _ => (Nat.max_zero _).symm⟩
  | cons x l ih =>
    intro ws s h
    cases h with
    | @cons _ w _ ws hx h =>
      obtain ⟨h1, h2⟩ := ih ws (s.merge x.2) h
      refine ⟨?_, fun chip hc hle => ?_⟩
      · rw [List.map_cons, List.foldl_cons, h1, List.flatten_cons, permsOf_append, ← List.append_assoc]
        show s.records.permutations ++ x.2.records.permutations ++ _ = _
        rw [hx.1]
      · have hm : (s.merge x.2).records.heightOf chip = max (s.records.heightOf chip) (x.2.records.heightOf chip) := by
          cases chip
          · rfl
          · exact absurd rfl hc
          · rfl
        rw [List.map_cons, List.foldl_cons, h2 chip hc (by rw [hm]; omega), hm, hx.2, List.flatten_cons, topOf_append]
        omega

/-- The whole of the parallel work, against sequential work and against other schedules. -/
theorem windows_parallel_works {windows : ℕ} {body : ℕ → M n (Except ε α)} (hw : 1 ≤ windows)
    (hb : ∀ i, Logged (body i)) (hne : ∀ i, NeverErr (body i)) {s t : Context n} {r : Except ε (List α)}
    (hs : s.Fresh) (h : windows_parallel windows body s = .ok (r, t)) :
    ∃ O as ws, O 0 = s.offs ∧ O windows = t.offs ∧ r = .ok as ∧ as.length = windows ∧ Works body O 0 as ws ∧
      t.records.inner = ws.flatten.foldl Write.applyInner s.records.inner ∧
      t.records.permutations = s.records.permutations ++ permsOf ws.flatten ∧
      ∀ chip, chip ≠ .range →
        t.records.heightOf chip = max (s.records.heightOf chip) (topOf chip ws.flatten) := by
  have h0 := h
  unfold windows_parallel at h
  obtain ⟨r1, s1, h1, h2⟩ := run_bind_ok.1 h
  obtain ⟨a, u, rfl, h3, rfl⟩ := predict_ok (hne 0) h1
  set s0 := s.clone_with_offset ⟨0, 0, 0⟩ with hs0d
  have hs0 : s0.Fresh := (fresh_iff' _).2 ((fresh_iff' s).1 hs)
  obtain ⟨fu, gu⟩ := (hb 0).growing _ _ _ hs0 h3
  obtain ⟨g1, g2, -⟩ := (grows_iff _ _).1 gu
  set diff := u.offs.sub s.offs with hdiff
  set s1 := (s.share u.records.inner).merge u with hs1
  dsimp only at h2
  obtain ⟨r2, s2, h4, h5⟩ := run_bind_ok.1 h2
  have hu1 : s.offs.add (diff.scale 1) = u.offs := by
    apply Offsets.ext_at
    intro chip
    have := g1 chip
    simp only [hs0d, clone_zero_offs] at this
    simp only [hdiff, Offsets.sub_at, Offsets.add_at, Offsets.scale_at]
    omega
  have hu0 : s.offs.add (diff.scale 0) = s.offs := by
    apply Offsets.ext_at
    intro chip
    simp only [Offsets.add_at, Offsets.scale_at]
    omega
  have hso : s1.offs = s.offs := rfl
  rcases hb 0 s0.offs with ⟨p, hp⟩ | ⟨b, w, o', hbw, hpw⟩
  · rw [hp s0 hs0 rfl] at h3; cases h3
  have e3 := hpw s0 (hs0.freshIn _) rfl
  rw [h3] at e3
  obtain ⟨rfl, hu⟩ : b = .ok a ∧ u = Context.mk' (applyAll w s0.records) o' := by cases e3; exact ⟨rfl, rfl⟩
  have ho' : o' = u.offs := by rw [hu]; rfl
  have hinn : u.records.inner = w.foldl Write.applyInner s.records.inner := by rw [hu]; exact applyAll_inner _ _
  have hperm : u.records.permutations = permsOf w := by
    rw [hu]; exact (applyAll_perms _ _).trans (List.nil_append _)
  have hheight : ∀ chip, u.records.heightOf chip = max (s.records.heightOf chip) (topOf chip w) := by
    intro chip; rw [hu]; exact applyAll_heightOf _ _ _
  unfold rest_windows at h4
  have hf : FreshFrom s1.records.inner (s1.offs.add (diff.scale 1)) := by
    rw [hso, hu1]; exact (fresh_iff' u).1 fu
  split at h4
  · cases h4
  · rename_i h6
    obtain ⟨l, ws, hl, -⟩ := run_clones_works hb hne _ _ _ _ _ h6 hf
    cases hl
  · rename_i l inner h6
    cases h4
    cases h5
    obtain ⟨l', ws, hl, hlen, k1, k2, k3⟩ := run_clones_works hb hne _ _ _ _ _ h6 hf
    cases hl
    obtain ⟨m1, m2, -⟩ := foldl_merge (l.map Prod.snd) (s1.share inner)
    obtain ⟨m3, m4⟩ := foldl_merge_own l ws (s1.share inner) k3
    refine ⟨fun j => s.offs.add (diff.scale j), a :: l.map Prod.fst, w :: ws, hu0, ?_, rfl, by simp [hlen]; omega,
      .cons ?_ ?_ k1, ?_, ?_, ?_⟩
    · show _ = Offsets.add (Context.offs _) _
      rw [m2]; rfl
    · show Between (s.offs.add (diff.scale 0)) (s.offs.add (diff.scale 1)) w
      rw [hu0, hu1, ← ho']
      exact hbw
    · show Performs (body 0) (s.offs.add (diff.scale 0)) (.ok a) w (s.offs.add (diff.scale 1))
      rw [hu0, hu1, ← ho']
      exact hpw
    · refine m1.trans (k2.trans ?_)
      rw [List.flatten_cons, List.foldl_append, ← hinn]
      rfl
    · refine m3.trans ?_
      rw [List.flatten_cons, permsOf_append, ← List.append_assoc, ← hperm]
      rfl
    · intro chip hc
      refine (m4 chip hc le_rfl).trans ?_
      rw [List.flatten_cons, topOf_append, ← max_assoc]
      have hm : (s1.share inner).records.heightOf chip = max (s.records.heightOf chip) (u.records.heightOf chip) := by
        cases chip
        · rfl
        · exact absurd rfl hc
        · rfl
      rw [hm, hheight]
      omega

end Verif
