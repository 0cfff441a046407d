import Verif.Spec.Table
import Verif.Props.SelectPoint
import Verif.Props.MsmCalls

/-!
# Tables of points
-/

namespace Verif
variable {n wm : ℕ} {b : ZMod wm} {c : Circuit n} {info : RangeInfo n} {w h : Advice n} {H : Prop}

theorem Built.prog {α : Type} {m : M n α} (h : Built False m) : Prog m := by
  induction h with
  | pure a => exact .pure a
  | bind _ _ hm hk => exact .bind hm hk
  | panic p => exact .panic p
  | one_line _ _ _ _ hne => exact .one_line _ _ _ _ hne
  | one_line_with_last => exact .one_line_with_last _ _ _ _ _
  | assign_range => exact .assign_range _ _
  | assign_common => exact .assign_common _
  | assign_cache_value h => exact h.elim
  | assign_selected_value => exact .assign_selected_value _ _ _ _

/-- The number of values a point with curvature takes in the cache. -/
def pointLen (info : RangeInfo n) : ℕ := 3 * (info.limbs + 1) + 2

theorem emits_cache_point [Nontrivial (ZMod n)] (hn : 2 ^ 253 ≤ n) (hl : info.limbs ≤ 2 ^ 32)
    (p : AssignedPointWithCurvature n) {g sc : ℕ} (hg : g < 2 ^ 64) (hs : sc < 2 ^ 125) :
    Emits (KeysIn g sc 0 (pointLen info)) (assign_cache_point info p g sc) := by
  unfold assign_cache_point pointLen
  have inj : ∀ l l', l < 2 ^ 64 → l' < 2 ^ 64 → encode_offset n g sc l = encode_offset n g sc l' → l = l' :=
    fun l l' h h' e => (encode_offset_injective hn ⟨hg, hs, h⟩ ⟨hg, hs, h'⟩ e).2.2
  refine (Emits.bind (emits_cache_integer hn info p.x hg hs (by omega)) (B := KeysIn g sc (info.limbs + 1) (3 * (info.limbs + 1) + 2))
    (fun _ => (Emits.bind (emits_cache_integer hn info p.y (offset := info.limbs + 1) hg hs (by omega))
      (B := KeysIn g sc (2 * (info.limbs + 1)) (3 * (info.limbs + 1) + 2))
    (fun _ => (Emits.bind (emits_cache_value p.z (2 * (info.limbs + 1)) g sc)
      (B := KeysIn g sc (2 * (info.limbs + 1) + 1) (3 * (info.limbs + 1) + 2))
    (fun _ => (Emits.bind (emits_cache_integer hn info p.curvature.v (offset := 2 * (info.limbs + 1) + 1) hg hs (by omega))
      (fun _ => emits_cache_value p.curvature.z (3 * (info.limbs + 1) + 1) g sc) ?_).mono ?_) ?_).mono ?_) ?_).mono ?_) ?_).mono ?_
  · rintro key ⟨l, h1, h2, e⟩ e'
    have := inj _ _ (by omega) (by omega) (e.symm.trans e')
    omega
  · rintro key (⟨l, h1, h2, e⟩ | e)
    exacts [⟨l, by omega, by omega, e⟩, ⟨_, by omega, by omega, e⟩]
  · rintro key e ⟨l, h1, h2, e'⟩
    have := inj _ _ (by omega) (by omega) (e.symm.trans e')
    omega
  · rintro key (e | ⟨l, h1, h2, e⟩)
    exacts [⟨_, by omega, by omega, e⟩, ⟨l, by omega, by omega, e⟩]
  · rintro key ⟨l, h1, h2, e⟩ ⟨l', h1', h2', e'⟩
    have := inj _ _ (by omega) (by omega) (e.symm.trans e')
    omega
  · rintro key (⟨l, h1, h2, e⟩ | ⟨l, h1, h2, e⟩) <;> exact ⟨l, by omega, by omega, e⟩
  · rintro key ⟨l, h1, h2, e⟩ ⟨l', h1', h2', e'⟩
    have := inj _ _ (by omega) (by omega) (e.symm.trans e')
    omega
  · rintro key (⟨l, h1, h2, e⟩ | ⟨l, h1, h2, e⟩) <;> exact ⟨l, by omega, by omega, e⟩

/-- The keys of the candidates `lo` up to `hi` of group `g`. -/
def KeysTable (info : RangeInfo n) (g lo hi : ℕ) (key : ZMod n) : Prop :=
  ∃ k, lo ≤ k ∧ k < hi ∧ KeysIn g k 0 (pointLen info) key

/-- The keys of the groups `gs`, numbered from `g` on. -/
def KeysGroups {α : Type} (info : RangeInfo n) (g : ℕ) (gs : List (List α)) (key : ZMod n) : Prop :=
  ∃ i ps, gs[i]? = some ps ∧ KeysTable info (g + i) 0 ps.length key

theorem emits_cacheTable [Nontrivial (ZMod n)] (hn : 2 ^ 253 ≤ n) (hl : info.limbs ≤ 2 ^ 32) {g : ℕ} (hg : g < 2 ^ 64) :
    ∀ (ps : List (AssignedPointWithCurvature n)) (k : ℕ), k + ps.length ≤ 2 ^ 125 →
    Emits (KeysTable info g k (k + ps.length)) (cacheTable info g k ps)
  | [], k, _ => (Quiet.pure _).emits
  | p :: ps, k, h => by
    have hL : pointLen info < 2 ^ 64 := by unfold pointLen; omega
    simp only [List.length_cons] at h ⊢
    refine (Emits.bind (emits_cache_point hn hl p hg (by omega))
      (fun _ => emits_cacheTable hn hl hg ps (k + 1) (by omega)) ?_).mono ?_
    · rintro key ⟨l, h1, h2, e⟩ ⟨k', h3, h4, l', h5, h6, e'⟩
      have := (encode_offset_injective hn ⟨hg, by omega, by omega⟩ ⟨hg, by omega, by omega⟩ (e.symm.trans e')).2.1
      omega
    · rintro key (hk | ⟨k', h3, h4, hk⟩)
      exacts [⟨k, le_rfl, by omega, hk⟩, ⟨k', by omega, by omega, hk⟩]

theorem emits_cacheGroups [Nontrivial (ZMod n)] (hn : 2 ^ 253 ≤ n) (hl : info.limbs ≤ 2 ^ 32) :
    ∀ (gs : List (List (AssignedPointWithCurvature n))) (g : ℕ), g + gs.length ≤ 2 ^ 64 →
    (∀ ps ∈ gs, ps.length ≤ 2 ^ 125) → Emits (KeysGroups info g gs) (cacheGroups info g gs)
  | [], g, _, _ => (Quiet.pure _).emits
  | ps :: gs, g, h, hp => by
    have hL : pointLen info < 2 ^ 64 := by unfold pointLen; omega
    have hps := hp ps (by simp)
    simp only [List.length_cons] at h
    refine (Emits.bind (emits_cacheTable hn hl (by omega) ps 0 (by omega))
      (fun _ => emits_cacheGroups hn hl gs (g + 1) (by omega) fun q hq => hp q (by simp [hq])) ?_).mono ?_
    · rintro key ⟨k, h1, h2, l, h3, h4, e⟩ ⟨i, q, hi, k', h5, h6, l', h7, h8, e'⟩
      have hi' := (List.getElem?_eq_some_iff.1 hi).1
      have hq := hp q (by simp [List.mem_of_getElem? hi])
      have := (encode_offset_injective hn ⟨by omega, by omega, by omega⟩ ⟨by omega, by omega, by omega⟩ (e.symm.trans e')).1
      omega
    · rintro key (⟨k, h1, h2, hk⟩ | ⟨i, q, hi, hk⟩)
      · exact ⟨0, ps, rfl, k, h1, by omega, hk⟩
      · refine ⟨i + 1, q, hi, ?_⟩
        rwa [show g + (i + 1) = g + 1 + i by omega]

theorem S_cacheTable (hw : c.Sat w) (g : ℕ) : ∀ (ps : List (AssignedPointWithCurvature n)) (k : ℕ),
    S c (cacheTable info g k ps) (fun _ => ∀ (i : ℕ) p, ps[i]? = some p → CachedPointC c info w g (k + i) p)
  | [], k => S.pure fun i p h => by simp at h
  | p :: ps, k => S.bind (S_assign_cache_point_c hw p g k) fun _ => (S_cacheTable hw g ps (k + 1)).mono
      fun _ h1 h2 i q hq => by
        cases i with
        | zero => cases hq; exact h2
        | succ i =>
          have := h1 i q hq
          rwa [show k + 1 + i = k + (i + 1) by omega] at this

theorem S_cacheGroups (hw : c.Sat w) : ∀ (gs : List (List (AssignedPointWithCurvature n))) (g : ℕ),
    S c (cacheGroups info g gs) (fun _ => ∀ (j i : ℕ) ps p, gs[j]? = some ps → ps[i]? = some p →
      CachedPointC c info w (g + j) i p)
  | [], g => S.pure fun j i ps p h => by simp at h
  | ps :: gs, g => S.bind (S_cacheTable hw g ps 0) fun _ => (S_cacheGroups hw gs (g + 1)).mono
      fun _ h1 h2 j i qs p hj hi => by
        cases j with
        | zero =>
          cases hj
          have := h2 i p hi
          rwa [Nat.zero_add] at this
        | succ j =>
          have := h1 j i qs p hj hi
          rwa [show g + 1 + j = g + (j + 1) by omega] at this

/-- What the cells of a selected point are known to be: each is a cached value, under the key made of the selector. -/
theorem S_selected_cached (hw : c.Sat w) (q : AssignedPointWithCurvature n) (sel : AssignedValue n) (g : ℕ) :
    S c (assign_selected_point info q sel g) (fun _ => ∀ off < pointLen info,
      c.Bound w (w sel.cell * 2 ^ 128 + encode_offset n g 0 off) →
      ∃ x, c.Cached w (w sel.cell * 2 ^ 128 + encode_offset n g 0 off) x) := by
  refine S.bind (S_assign_selected_integer hw _ _ _ _) fun x => S.bind (S_assign_selected_integer hw _ _ _ _) fun y =>
    S.bind (S_assign_selected_value hw _ _ _ _) fun z => S.bind (S_assign_selected_integer hw _ _ _ _) fun v =>
      S.bind (S_assign_selected_value hw _ _ _ _) fun cz => S.pure fun h5 h4 h3 h2 h1 off ho hb => ?_
  unfold pointLen at ho
  have int : ∀ {r : AssignedInteger n} {o : ℕ}, SelInt c info w r (cv w sel) g o → o ≤ off → off ≤ o + info.limbs →
      ∃ x, c.Cached w (w sel.cell * 2 ^ 128 + encode_offset n g 0 off) x := by
    intro r o hr h1 h2
    obtain ⟨j, rfl⟩ := Nat.exists_eq_add_of_le h1
    rcases Nat.lt_or_ge j info.limbs with hj | hj
    · obtain ⟨v, -, hv⟩ := hr.limb j hj
      exact ⟨_, hv _ rfl hb⟩
    · obtain rfl : j = info.limbs := by omega
      exact ⟨_, hr.native _ rfl hb⟩
  rcases Nat.lt_or_ge off (info.limbs + 1) with l1 | l1
  · exact int h1 (by omega) (by omega)
  rcases Nat.lt_or_ge off (2 * (info.limbs + 1)) with l2 | l2
  · exact int h2 (by omega) (by omega)
  rcases Nat.eq_or_lt_of_le l2 with rfl | l2
  · exact ⟨_, h3 _ rfl hb⟩
  rcases Nat.lt_or_ge off (3 * (info.limbs + 1) + 1) with l3 | l3
  · exact int h4 (by omega) (by omega)
  · obtain rfl : off = 3 * (info.limbs + 1) + 1 := by omega
    exact ⟨_, h5 _ rfl hb⟩

/-- All cached rows of a run of `tableProg` have keys of its groups, and no two the same. -/
theorem tableProg_keys (hn : 2 ^ 253 ≤ n) (hl : info.limbs ≤ 2 ^ 32)
    {m : M n (List (List (AssignedPointWithCurvature n)) × AssignedValue n)} (hm : Built False m) {pre j : ℕ}
    {q : List (List (AssignedPointWithCurvature n)) → AssignedPointWithCurvature n} {gs s r t}
    (hrun : tableProg info m pre j q (.new n) = .ok ((gs, s, r), t)) (hg : pre + gs.length ≤ 2 ^ 64)
    (hp : ∀ ps ∈ gs, ps.length ≤ 2 ^ 125) :
    t.records.inner.KeysDistinct ∧ ∀ r k, t.records.inner.KeyRow r k → KeysGroups info pre gs k := by
  have := nontrivial_of_large hn
  obtain ⟨⟨gs', s'⟩, u, e1, e2⟩ := run_bind_ok.1 hrun
  obtain ⟨_, v, e3, e4⟩ := run_bind_ok.1 e2
  obtain ⟨r', x, e5, e6⟩ := run_bind_ok.1 e4
  cases e6
  have q1 := hm.quiet _ _ _ e1
  have new : ∀ r k, ¬ (Context.new n).records.inner.KeyRow r k := fun r k hk => by cases hk.2
  have none : ∀ r k, ¬ u.records.inner.KeyRow r k := fun r k hk => new r k (q1 r k hk)
  obtain ⟨p1, p2⟩ := emits_cacheGroups hn hl gs pre hg hp _ _ _ e3
  have q2 := (prog_assign_selected_point (cc := False) info _ _ _).quiet _ _ _ e5
  refine ⟨fun r r' k h1 h2 => p2 (fun r k hk => absurd hk (none r k)) (fun r r' k hk => absurd hk (none r k)) r r' k
    (q2 _ _ h1) (q2 _ _ h2), fun r k hk => (p1 r k (q2 _ _ hk)).resolve_left (none r k)⟩

theorem KeyRow.of_cached {t : Context n} {usable : ℕ} {key x : ZMod n} (h0 : key ≠ 0)
    (h : (t.circuit usable).Cached w key x) : ∃ r, t.records.inner.KeyRow r key := by
  obtain ⟨r, hr, e, -⟩ := h
  refine ⟨r, hr.2.1, ?_⟩
  have e' : (t.circuit usable).selFix r 0 = (t.records.inner.select_fix_record r 0).getD 0 := rfl
  rw [e] at e'
  cases hh : t.records.inner.select_fix_record r 0 with
  | none => rw [hh] at e'; exact absurd e' h0
  | some k => rw [hh] at e'; rw [e']; rfl

end Verif
