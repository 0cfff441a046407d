import Verif.Proof.Table
import Verif.Props.MsmForge

/-!
# C55: what is selected from a group of the table was cached in that group

The select chip does not bound the selector. In the key `selector * 2^128 + group * 2^64 + offset` a selector outside the
range of small numbers can make up for the group: the property fails for two groups (`C55_violated`). It holds if the
selector is below `2^125` (`C55_partial`), and without any condition on the selector if there is only one group
(`C55_single_group`): then the selector must be one of the indices.
-/

namespace Verif
variable {n wm : ℕ} {info : RangeInfo n} {b : ZMod wm}

/-- What the gates give for a run of `tableProg`. -/
theorem tableProg_facts [Fact wm.Prime] (hn : 2 ^ 253 ≤ n) (hl : info.limbs ≤ 2 ^ 32)
    {m : M n (List (List (AssignedPointWithCurvature n)) × AssignedValue n)} (hm : Built False m) {pre j : ℕ}
    {q : List (List (AssignedPointWithCurvature n)) → AssignedPointWithCurvature n} {gs s r t}
    (hrun : tableProg info m pre j q (.new n) = .ok ((gs, s, r), t)) (hg : pre + gs.length ≤ 2 ^ 64)
    (hp : ∀ ps ∈ gs, ps.length ≤ 2 ^ 125) {usable : ℕ} (hf : t.Fits usable) {w : Advice n}
    (hw : (t.circuit usable).Sat w) :
    (∀ off < pointLen info, w s.cell * 2 ^ 128 + encode_offset n (pre + j) 0 off ≠ 0 →
      KeysGroups info pre gs (w s.cell * 2 ^ 128 + encode_offset n (pre + j) 0 off)) ∧
    ∀ (k : ℕ) ps p (P : Pt b), w s.cell = k → gs[j]? = some ps → ps[k]? = some p →
      (∀ off < pointLen info, encode_offset n (pre + j) k off ≠ 0) → KRep info w p P → KRep info w r P := by
  obtain ⟨hd, hrows⟩ := tableProg_keys hn hl hm hrun hg hp
  have hu := keysUnique_of_distinct hd usable
  have main : S (t.circuit usable) (tableProg info m pre j q) (fun r =>
      (∀ i ps p, r.1[j]? = some ps → ps[i]? = some p → CachedPointC (t.circuit usable) info w (pre + j) i p) ∧
      (∀ off < pointLen info, (t.circuit usable).Bound w (w r.2.1.cell * 2 ^ 128 + encode_offset n (pre + j) 0 off) →
        ∃ x, (t.circuit usable).Cached w (w r.2.1.cell * 2 ^ 128 + encode_offset n (pre + j) 0 off) x) ∧
      ∀ (k : ℕ) (p : AssignedPointWithCurvature n) (P : Pt b), w r.2.1.cell = k →
        CachedPointC (t.circuit usable) info w (pre + j) k p →
        (∀ off < 3 * (info.limbs + 1) + 2, (t.circuit usable).Bound w (encode_offset n (pre + j) k off)) →
        KRep info w p P → KRep info w r.2.2 P) := by
    refine S.bind (P := fun _ => True) (fun s a t hs e => ⟨(hm.prog.growing s a t hs e).1, (hm.prog.growing s a t hs e).2, fun _ => trivial⟩)
      fun ⟨gs, s⟩ => S.bind (S_cacheGroups hw gs pre) fun _ =>
      S.bind (S.and (S_selected_cached hw _ s _) (S_assign_selected_point_c hw hu _ s _)) fun r =>
      S.pure fun h2 h1 _ => ⟨fun i ps p e1 e2 => h1 j i ps p e1 e2, h2.1, h2.2⟩
  obtain ⟨m1, m2, m3⟩ := (main _ _ _ Context.new_fresh hrun).2.2 (Context.embeds_circuit hf)
  dsimp only at m1 m2 m3
  refine ⟨fun off ho h0 => ?_, fun k ps p P hk e1 e2 hb hP => m3 k p P hk (m1 k ps p e1 e2) (fun off ho => .inl (hb off ho)) hP⟩
  obtain ⟨x, hx⟩ := m2 off ho (.inl h0)
  obtain ⟨row, hrow⟩ := KeyRow.of_cached h0 hx
  exact hrows _ _ hrow

theorem encode_ne_zero (hn : 2 ^ 253 ≤ n) {g k off : ℕ} (hg : g < 2 ^ 64) (h0 : g ≠ 0) (hk : k < 2 ^ 125)
    (ho : off < 2 ^ 64) : encode_offset n g k off ≠ 0 := fun e =>
  h0 (encode_offset_injective hn ⟨hg, hk, ho⟩ (g' := 0) (sel' := 0) (l' := 0)
      ⟨by norm_num, by norm_num, by norm_num⟩ (e.trans (by simp [encode_offset]))).1

/-- In every satisfying assignment in which the selector is below `2^125`, the selector is an index of group `j`, and the
selected point stands for what the point of that group with that index stands for. The points, the selector and
everything the circuit does before are arbitrary (`m` is any program that caches nothing), and so is the point whose
values are recorded. Missing to the full statement: the bound on the selector. -/
theorem C55_partial [Fact wm.Prime] (hn : 2 ^ 253 ≤ n) (hl : info.limbs ≤ 2 ^ 32)
    {m : M n (List (List (AssignedPointWithCurvature n)) × AssignedValue n)} (hm : Built False m) {pre j : ℕ}
    (hpre : pre ≠ 0) {q : List (List (AssignedPointWithCurvature n)) → AssignedPointWithCurvature n} {gs s r t}
    (hrun : tableProg info m pre j q (.new n) = .ok ((gs, s, r), t)) (hg : pre + gs.length ≤ 2 ^ 64)
    (hj : j < gs.length) (hp : ∀ ps ∈ gs, ps.length ≤ 2 ^ 125) {usable : ℕ} (hf : t.Fits usable) {w : Advice n}
    (hw : (t.circuit usable).Sat w) (hsel : (w s.cell).val < 2 ^ 125) :
    ∃ ps p, gs[j]? = some ps ∧ ps[(w s.cell).val]? = some p ∧ ∀ P : Pt b, KRep info w p P → KRep info w r P := by
  have hn0 : NeZero n := ⟨by rintro rfl; norm_num at hn⟩
  obtain ⟨m2, m3⟩ := tableProg_facts (b := b) hn hl hm hrun hg hp hf hw
  have hL : pointLen info < 2 ^ 64 := by unfold pointLen; omega
  have h0 : 0 < pointLen info := by unfold pointLen; omega
  have hwv : w s.cell = (((w s.cell).val : ℕ) : ZMod n) := (ZMod.natCast_zmod_val _).symm
  have hne : ∀ off < pointLen info, encode_offset n (pre + j) (w s.cell).val off ≠ 0 := fun off ho =>
    encode_ne_zero hn (by omega) (by omega) hsel (by omega)
  have ekey : w s.cell * 2 ^ 128 + encode_offset n (pre + j) 0 0 = encode_offset n (pre + j) (w s.cell).val 0 := by
    conv_lhs => rw [hwv]
    exact encode_select n _ _ _
  have := m2 0 h0 (by rw [ekey]; exact hne 0 h0)
  rw [ekey] at this
  obtain ⟨i, ps, e1, k, -, h2, l, -, h4, e⟩ := this
  have hps := hp ps (List.mem_of_getElem? e1)
  have hi := (List.getElem?_eq_some_iff.1 e1).1
  obtain ⟨a1, a2, -⟩ := encode_offset_injective hn ⟨by omega, hsel, by omega⟩ ⟨by omega, by omega, by omega⟩ e
  obtain rfl : j = i := by omega
  rw [← a2] at h2
  exact ⟨ps, ps[(w s.cell).val], e1, List.getElem?_eq_getElem h2, fun P hP => m3 _ ps _ P hwv e1
    (List.getElem?_eq_getElem h2) hne hP⟩

/-- With one group nothing is missing: in every satisfying assignment, whatever the selector is, it is an index of the
group, and the selected point stands for what the point with that index stands for. -/
theorem C55_single_group [Fact n.Prime] [Fact wm.Prime] (hn : 2 ^ 253 ≤ n) (hl : info.limbs ≤ 2 ^ 32)
    {m : M n (List (List (AssignedPointWithCurvature n)) × AssignedValue n)} (hm : Built False m) {pre : ℕ}
    (hpre : pre ≠ 0) {q : List (List (AssignedPointWithCurvature n)) → AssignedPointWithCurvature n} {ps s r t}
    (hrun : tableProg info m pre 0 q (.new n) = .ok (([ps], s, r), t)) (hg : pre < 2 ^ 64)
    (hp : ps.length ≤ 2 ^ 124) {usable : ℕ} (hf : t.Fits usable) {w : Advice n} (hw : (t.circuit usable).Sat w) :
    ∃ (k : ℕ) (p : _), w s.cell = k ∧ ps[k]? = some p ∧ ∀ P : Pt b, KRep info w p P → KRep info w r P := by
  obtain ⟨m2, m3⟩ := tableProg_facts (b := b) hn hl hm hrun (by simp; omega)
    (by simp only [List.mem_singleton, forall_eq]; omega) hf hw
  have hL : pointLen info < 2 ^ 63 := by unfold pointLen; omega
  have hL2 : 2 ≤ pointLen info := by unfold pointLen; omega
  -- the keys in the cache
  have key : ∀ off < pointLen info, w s.cell * 2 ^ 128 + encode_offset n pre 0 off ≠ 0 → ∃ k l, k < ps.length ∧
      l < pointLen info ∧ w s.cell * 2 ^ 128 + encode_offset n pre 0 off = encode_offset n pre k l := by
    intro off ho h0
    obtain ⟨i, ps', e1, k, -, h2, l, -, h4, e⟩ := m2 off ho h0
    rcases i with _ | i
    · cases e1
      exact ⟨k, l, h2, h4, e⟩
    · simp at e1
  have shift : ∀ k l d : ℕ, encode_offset n pre k l + (d : ZMod n) = encode_offset n pre k (l + d) := by
    intro k l d
    unfold encode_offset
    push_cast
    ring
  -- the key of the first value is not 0
  have h0 : w s.cell * 2 ^ 128 + encode_offset n pre 0 0 ≠ 0 := by
    intro e
    have e1 : w s.cell * 2 ^ 128 + encode_offset n pre 0 1 = encode_offset n 0 0 1 := by
      rw [show encode_offset n pre 0 1 = encode_offset n pre 0 0 + ((1 : ℕ) : ZMod n) from (shift 0 0 1).symm, ← add_assoc, e]
      simp [encode_offset]
    have hne : encode_offset n 0 0 1 ≠ 0 := fun e2 => by
      have := (encode_offset_injective hn (g' := 0) (sel' := 0) (l' := 0) ⟨by norm_num, by norm_num, by norm_num⟩
        ⟨by norm_num, by norm_num, by norm_num⟩ (e2.trans (by simp [encode_offset]))).2.2
      omega
    obtain ⟨k, l, h1, h2, e3⟩ := key 1 (by omega) (by rw [e1]; exact hne)
    rw [e1] at e3
    exact hpre (encode_offset_injective hn ⟨by norm_num, by norm_num, by norm_num⟩ ⟨hg, by omega, by omega⟩ e3).1.symm
  obtain ⟨k, a, h1, h2, e⟩ := key 0 (by omega) h0
  -- the key of the last value
  have e2 : w s.cell * 2 ^ 128 + encode_offset n pre 0 (pointLen info - 1) = encode_offset n pre k (a + (pointLen info - 1)) := by
    rw [← shift k a, ← e, add_assoc, shift, Nat.zero_add]
  have ha : a = 0 := by
    obtain ⟨k', l, h3, h4, e3⟩ := key (pointLen info - 1) (by omega)
      (by rw [e2]; exact encode_ne_zero hn hg hpre (by omega) (by omega))
    rw [e2] at e3
    have := (encode_offset_injective hn ⟨hg, by omega, by omega⟩ ⟨hg, by omega, by omega⟩ e3).2.2
    omega
  subst ha
  have hs : w s.cell = k := by
    rw [← encode_select n pre k 0] at e
    have e' := add_right_cancel e
    have h2n : (2 : ZMod n) ^ 128 ≠ 0 := by
      refine pow_ne_zero _ fun e => ?_
      have : ((2 : ℕ) : ZMod n) = 0 := by simpa using e
      rw [ZMod.natCast_eq_zero_iff] at this
      have := Nat.le_of_dvd (by norm_num) this
      have h253 : 2 < 2 ^ 253 := by norm_num
      exact absurd (hn.trans this) (by norm_num)
    exact mul_right_cancel₀ h2n e'
  exact ⟨k, ps[k], hs, List.getElem?_eq_getElem h1, fun P hP => m3 k ps _ P hs rfl (List.getElem?_eq_getElem h1)
    (fun off ho => encode_ne_zero hn hg hpre (by omega) (by omega)) hP⟩

/-! ## The counterexample -/

/-- Two groups of one point each, and a selector that nothing constrains. -/
def twoGroups (info : RangeInfo n) (bb : ℕ) (cP cQ : Option (ℕ × ℕ)) (v : ZMod n) :
    M n (List (List (AssignedPointWithCurvature n)) × AssignedValue n) := do
  let p ← assign_point info bb cP
  let p ← ecc_reduce_with_curvature info p
  let q ← assign_point info bb cQ
  let q ← ecc_reduce_with_curvature info q
  let s ← assign v
  pure ([[p], [q]], s)

/-- The first point of group `i`. -/
def firstOf (i : ℕ) (gs : List (List (AssignedPointWithCurvature n))) : AssignedPointWithCurvature n :=
  match gs[i]? with
  | some (p :: _) => p
  | _ => ⟨⟨[], ⟨⟨.base, 0, 0⟩, 0⟩, 0⟩, ⟨[], ⟨⟨.base, 0, 0⟩, 0⟩, 0⟩, ⟨⟨.base, 0, 0⟩, 0⟩, ⟨⟨[], ⟨⟨.base, 0, 0⟩, 0⟩, 0⟩, ⟨⟨.base, 0, 0⟩, 0⟩⟩⟩

theorem built_twoGroups (info : RangeInfo n) (bb : ℕ) (cP cQ : Option (ℕ × ℕ)) (v : ZMod n) :
    Built False (twoGroups info bb cP cQ v) :=
  .bind (prog_assign_point ..) fun _ => .bind (prog_ecc_reduce_with_curvature ..) fun _ =>
    .bind (prog_assign_point ..) fun _ => .bind (prog_ecc_reduce_with_curvature ..) fun _ =>
    .bind (prog_assign ..) fun _ => .pure _

section
variable [Fact n.Prime] [Fact wm.Prime] (hi : RangeInfo.new wm n 18 6 = .ok info) (hd : info.d_bits % 108 ≠ 0)
  (hb : GoodCurve b) {bb : ℕ} (hbb : bb < wm) (hbe : (bb : ZMod wm) = b) {c : Circuit n} {h : Advice n} {H : Prop}
include hi hd hb hbb hbe

/-- An honest run, if `i = 0` and `v = 0`; the run of a dishonest prover, if `i = 1` and `v = 2 ^ -64`. -/
theorem C_twoGroups {cP cQ : Option (ℕ × ℕ)} {P Q R : Pt b} (hP : ConstCoords cP P) (hQ : ConstCoords cQ Q) {i : ℕ}
    (hR : (i = 0 ∧ R = P) ∨ (i = 1 ∧ R = Q)) {v : ZMod n} (hv : v * 2 ^ 128 = i * 2 ^ 64) (pre : ℕ) :
    C c h H (tableProg info (twoGroups info bb cP cQ v) pre 0 (firstOf i))
      (fun r => ∃ p q, r.1 = [[p], [q]] ∧ HKRep info p P ∧ HKRep info q Q ∧ r.2.1.val = v ∧ HKRep info r.2.2 R)
      (fun r => ∀ p q, r.1 = [[p], [q]] → OkK h p ∧ OkK h q ∧ Ok h r.2.1 ∧ OkK h r.2.2) := by
  have hk : ∀ off, v * 2 ^ 128 + encode_offset n (pre + 0) 0 off = encode_offset n (pre + i) 0 off := by
    intro off
    rw [hv]
    unfold encode_offset
    push_cast
    ring
  unfold tableProg twoGroups
  simp only [bind_assoc, pure_bind]
  refine C.bind (C_assign_point hi hd hbb hbe hP) fun p0 h0 => C.bind (C_ecc_reduce_with_curvature hi hd hb h0.1 fun hH => hH.2)
    fun p ⟨h1, t1, t2, t3⟩ => C.bind (C_assign_point hi hd hbb hbe hQ) fun q0 h0 =>
    C.bind (C_ecc_reduce_with_curvature hi hd hb h0.1 fun hH => hH.2) fun q ⟨h2, t4, t5, t6⟩ =>
    C.bind C_assign fun s hs => ?_
  simp only [cacheGroups, cacheTable, bind_assoc, pure_bind]
  refine C.bind (C_assign_cache_point_c pre 0 h1 t1 t2 t3 fun hH => hH.1.1.1.2) fun _ _ =>
    C.bind (C_assign_cache_point_c (pre + 1) 0 h2 t4 t5 t6 fun hH => hH.1.1.2) fun _ _ => ?_
  rcases hR with ⟨rfl, rfl⟩ | ⟨rfl, rfl⟩
  · refine C.bind (C_assign_selected_point_c (p := p) (k := 0) (g' := pre) (pre + 0) h1 t1 t2 t3 (by rw [hs]; exact hk)
      fun hH => ⟨hH.1.1.2, hH.1.1.1.1.1.2, hH.1.2⟩) fun r hr => C.pure ⟨p, q, rfl, h1, h2, hs, hr⟩ ?_
    intro hH p' q' e
    cases e
    exact ⟨hH.1.1.1.1.1.1.2, hH.1.1.1.1.2, hH.1.1.1.2, hH.2⟩
  · refine C.bind (C_assign_selected_point_c (p := q) (k := 0) (g' := pre + 1) (pre + 0) h2 t4 t5 t6 (by rw [hs]; exact hk)
      fun hH => ⟨hH.1.1.2, hH.1.1.1.2, hH.2⟩) fun r hr => C.pure ⟨p, q, rfl, h1, h2, hs, hr⟩ ?_
    intro hH p' q' e
    cases e
    exact ⟨hH.1.1.1.1.1.1.2, hH.1.1.1.1.2, hH.1.1.1.2, hH.2⟩
end

/-- A point with the cells of an honestly recorded one stands for the recorded point. -/
theorem HKRep.rep_of_shape [Fact wm.Prime] {p p' : AssignedPointWithCurvature n} (hs : sh True p p') {w : Advice n}
    (hok : OkK w p') {P : Pt b} (h : HKRep info p' P) : KRep info w p P := by
  obtain ⟨h1, ⟨v, hv⟩, -, hz, hT⟩ := h
  have e : w p.curvature.z.cell = p'.curvature.z.val := by rw [hs.curvature.z trivial]; exact hok.cz
  refine ⟨HPRep.rep_of_shape (p := p.to_point) (p' := p'.to_point) ⟨hs.x, hs.y, hs.z⟩ ⟨hok.x, hok.y, hok.z⟩ h1,
    ⟨v, hv.rep_of_shape hs.curvature.v hok.v⟩, by rwa [e], fun x y hxy => ⟨fun h0 => ?_, fun h0 => ⟨?_, ?_⟩⟩⟩
  · rw [e]; exact (hT x y hxy).1 h0
  · rw [e]; exact ((hT x y hxy).2 h0).1
  · exact ((hT x y hxy).2 h0).2.rep_of_shape hs.curvature.v hok.v

/-- A point stands for at most one point of the curve. -/
theorem KRep.unique [Fact n.Prime] [Fact wm.Prime] {p : AssignedPointWithCurvature n} {w : Advice n} {P Q : Pt b}
    (hP : KRep info w p P) (hQ : KRep info w p Q) : P = Q := by
  obtain ⟨⟨x, y, hx, hy, h1⟩, -⟩ := hP
  obtain ⟨⟨x', y', hx', hy', h2⟩, -⟩ := hQ
  obtain rfl : x = x' := hx.eq.symm.trans hx'.eq
  obtain rfl : y = y' := hy.eq.symm.trans hy'.eq
  rcases h1 with ⟨e1, rfl⟩ | ⟨e1, k1, rfl⟩ <;> rcases h2 with ⟨e2, rfl⟩ | ⟨e2, k2, rfl⟩
  · rfl
  · exact absurd (e1.symm.trans e2) one_ne_zero
  · exact absurd (e1.symm.trans e2).symm one_ne_zero
  · rfl

/-- C55 fails: the point selected from group `pre` can be the one cached in group `pre + 1`. The circuit caches `P` in
group `pre` and `Q` in the next one and selects from group `pre`; the honest prover selects `P` with selector 0. With
the selector `2 ^ -64` the same circuit accepts `Q`. -/
theorem C55_violated [Fact n.Prime] [Fact wm.Prime] (hi : RangeInfo.new wm n 18 6 = .ok info)
    (hd : info.d_bits % 108 ≠ 0) (hb : GoodCurve b) {bb : ℕ} (hbb : bb < wm) (hbe : (bb : ZMod wm) = b)
    (h2 : (2 : ZMod n) ≠ 0) {cP cQ : Option (ℕ × ℕ)} {P Q : Pt b} (hP : ConstCoords cP P) (hQ : ConstCoords cQ Q)
    (hPQ : P ≠ Q) (pre : ℕ) :
    ∃ p q s r t, tableProg info (twoGroups info bb cP cQ 0) pre 0 (firstOf 0) (.new n) = .ok (([[p], [q]], s, r), t) ∧
      HKRep info r P ∧ ∃ w, ∀ usable, t.Fits usable → (t.circuit usable).Sat t.honest ∧ (t.circuit usable).Sat w ∧
        KRep info w p P ∧ KRep info w q Q ∧ KRep info w r Q ∧ ¬ KRep info w r P := by
  obtain ⟨⟨gs, s, r⟩, t, hrun, -, ⟨p, q, e, -, -, -, hr⟩, hh⟩ := C.run_new (n := n) fun c h =>
    C_twoGroups (c := c) (h := h) (H := True) (R := P) hi hd hb hbb hbe hP hQ (i := 0) (v := 0) (.inl ⟨rfl, rfl⟩) (by simp) pre
  dsimp only at e hr
  subst e
  obtain ⟨⟨gs', s', r'⟩, w, hsh, ⟨p', q', e, k1, k2, -, k3⟩, hw⟩ := forge
    (m' := tableProg info (twoGroups info bb cP cQ ((2 ^ 64)⁻¹)) pre 0 (firstOf 1)) (by
      unfold tableProg twoGroups
      simp only [bind_assoc, pure_bind]
      refine (rel_assign_point info bb _ _).bind fun _ _ h1 => (rel_ecc_reduce_with_curvature info h1).bind fun _ _ h2 =>
        (rel_assign_point info bb _ _).bind fun _ _ h3 => (rel_ecc_reduce_with_curvature info h3).bind fun _ _ h4 =>
        (rel_assign _ _).bind fun _ _ h5 => ?_
      simp only [cacheGroups, cacheTable, bind_assoc, pure_bind]
      exact (rel_assign_cache_point info h2 _ _).bind fun _ _ _ => (rel_assign_cache_point info h4 _ _).bind fun _ _ _ =>
        (rel_assign_selected_point info _ _ h5 _).bind fun _ _ h6 =>
        Runs2.pure (sh_pair (sh_cons (sh_cons h2 sh_nil) (sh_cons (sh_cons h4 sh_nil) sh_nil)) (sh_pair h5 h6))) hrun
    (fun c h => C_twoGroups (c := c) (h := h) (H := True) (R := Q) hi hd hb hbb hbe hP hQ (i := 1) (v := (2 ^ 64)⁻¹)
      (.inr ⟨rfl, rfl⟩) (by
        have h64 : (2 : ZMod n) ^ 64 ≠ 0 := pow_ne_zero _ h2
        rw [show (128 : ℕ) = 64 + 64 from rfl, pow_add, inv_mul_cancel_left₀ h64]
        simp) pre)
  dsimp only at e k3
  subst e
  obtain ⟨s1, s2⟩ := hsh
  refine ⟨p, q, s, r, t, hrun, hr, w, fun usable hf => ?_⟩
  obtain ⟨w1, w2⟩ := hw usable hf
  obtain ⟨o1, o2, o3, o4⟩ := w2 p' q' rfl
  obtain ⟨⟨g1, -⟩, ⟨⟨g2, -⟩, -⟩⟩ : (sh True p p' ∧ sh True ([] : List (AssignedPointWithCurvature n)) []) ∧
      (sh True q q' ∧ sh True ([] : List (AssignedPointWithCurvature n)) []) ∧ True := by
    cases s1 with
    | cons a b =>
      cases a with
      | cons a1 a2 =>
        cases b with
        | cons b1 b2 =>
          cases b1 with
          | cons b3 b4 => exact ⟨⟨a1, a2⟩, ⟨b3, b4⟩, trivial⟩
  have hQ' := k3.rep_of_shape s2.2 o4
  exact ⟨(hh usable hf).1, w1, k1.rep_of_shape g1 o1, k2.rep_of_shape g2 o2, hQ', fun h => hPQ (h.unique hQ')⟩

/-- Non-vacuity, and the counterexample in numbers: on bn256, with the generator in group 1 and its opposite in group 2. -/
example : ∃ info : RangeInfo bnR, RangeInfo.new bnQ bnR 18 6 = .ok info ∧ ∃ G : Pt (3 : ZMod bnQ), HasCoords G 1 2 ∧
    ∃ p q s r t, tableProg info (twoGroups info 3 (some (1, 2)) (some (1, bnQ - 2)) 0) 1 0 (firstOf 0) (.new bnR) =
      .ok (([[p], [q]], s, r), t) ∧ HKRep info r G ∧ ∃ w, ∀ usable, t.Fits usable →
        (t.circuit usable).Sat t.honest ∧ (t.circuit usable).Sat w ∧
        KRep info w p G ∧ KRep info w q (-G) ∧ KRep info w r (-G) ∧ ¬ KRep info w r G := by
  obtain ⟨info, hs⟩ := Setup.of_summary summary_bnQ
  have hd : info.d_bits % 108 ≠ 0 := by
    have := hs.summary
    simp only [List.cons.injEq] at this
    omega
  obtain ⟨G, hG⟩ := bn_generator
  have e2 : ((bnQ - 2 : ℕ) : ZMod bnQ) = -((2 : ℕ) : ZMod bnQ) := by
    rw [Nat.cast_sub (by decide +kernel)]
    simp
  have hG' : HasCoords (-G) ((1 : ℕ) : ZMod bnQ) ((bnQ - 2 : ℕ) : ZMod bnQ) := by rw [e2]; exact hG.neg
  have hne : G ≠ -G := fun e => by
    have h' := hG'
    rw [← e] at h'
    have := (hG.unique h').2
    revert this
    decide +kernel
  exact ⟨info, hs.new, G, by simpa using hG, C55_violated hs.new hd good_bn (by decide +kernel) (by norm_num)
    (by decide +kernel) (.inr ⟨1, 2, rfl, by decide +kernel, by decide +kernel, hG⟩)
    (.inr ⟨1, bnQ - 2, rfl, by decide +kernel, by decide +kernel, hG'⟩) hne 1⟩

/-- Non-vacuity of `C55_partial`: the honest run of the same circuit meets the hypotheses. -/
example : ∃ info : RangeInfo bnR, ∃ G : Pt (3 : ZMod bnQ), HasCoords G 1 2 ∧ ∃ gs s r t usable,
    tableProg info (twoGroups info 3 (some (1, 2)) none 0) 1 0 (firstOf 0) (.new bnR) = .ok ((gs, s, r), t) ∧
    (t.circuit usable).Sat t.honest ∧ KRep info t.honest r G := by
  obtain ⟨info, hs⟩ := Setup.of_summary summary_bnQ
  have hd : info.d_bits % 108 ≠ 0 := by
    have := hs.summary
    simp only [List.cons.injEq] at this
    omega
  have hl : info.limbs ≤ 2 ^ 32 := by
    have := hs.summary
    simp only [List.cons.injEq] at this
    omega
  obtain ⟨G, hG⟩ := bn_generator
  obtain ⟨⟨gs, s, r⟩, t, hrun, -, ⟨p, q, e, h1, -, hv, -⟩, hh⟩ := C.run_new (n := bnR) fun c h =>
    C_twoGroups (c := c) (h := h) (H := True) (bb := 3) (P := G) (Q := 0) (R := G) hs.new hd good_bn (by decide +kernel)
      (by norm_num) (.inr ⟨1, 2, rfl, by decide +kernel, by decide +kernel, hG⟩) (.inl ⟨rfl, rfl⟩) (i := 0) (v := 0)
      (.inl ⟨rfl, rfl⟩) (by simp) 1
  dsimp only at e hv
  subst e
  have hf : t.Fits (max t.base_offset (max t.range_offset t.select_offset)) := by constructor <;> omega
  obtain ⟨k1, k2⟩ := hh _ hf
  obtain ⟨o1, -, o3, -⟩ := k2 p q rfl
  have ev : t.honest s.cell = 0 := by rw [← hv]; exact o3
  obtain ⟨ps, p', a1, a2, a3⟩ := C55_partial (b := (3 : ZMod bnQ)) (j := 0) C31_fields_large.1 hl (built_twoGroups ..) one_ne_zero hrun
    (by simp) (by simp) (by simp) hf k1 (by rw [ev, ZMod.val_zero]; norm_num)
  cases a1
  rw [ev, ZMod.val_zero] at a2
  cases a2
  have hint : ∀ a : AssignedInteger bnR, sh True a a := fun a =>
    ⟨List.forall₂_same.2 fun _ _ _ => rfl, fun _ => rfl, rfl⟩
  have hsh : sh True p p := ⟨hint _, hint _, fun _ => rfl, ⟨hint _, fun _ => rfl⟩⟩
  exact ⟨info, G, by simpa using hG, _, s, r, t, _, hrun, k1, a3 G (h1.rep_of_shape hsh o1)⟩

/-- One group of two points. -/
def oneGroup (info : RangeInfo n) (bb : ℕ) (cP cQ : Option (ℕ × ℕ)) (v : ZMod n) :
    M n (List (List (AssignedPointWithCurvature n)) × AssignedValue n) := do
  let p ← assign_point info bb cP
  let p ← ecc_reduce_with_curvature info p
  let q ← assign_point info bb cQ
  let q ← ecc_reduce_with_curvature info q
  let s ← assign v
  pure ([[p, q]], s)

/-- The second point of the group. -/
def secondOf (gs : List (List (AssignedPointWithCurvature n))) : AssignedPointWithCurvature n :=
  match gs with
  | [[_, q]] => q
  | _ => firstOf 0 []

/-- Non-vacuity of `C55_single_group`: a run that selects the second of two points. -/
example : ∃ info : RangeInfo bnR, ∃ G : Pt (3 : ZMod bnQ), HasCoords G 1 2 ∧ ∃ gs s r t usable,
    tableProg info (oneGroup info 3 none (some (1, 2)) 1) 1 0 secondOf (.new bnR) = .ok ((gs, s, r), t) ∧
    (t.circuit usable).Sat t.honest ∧ KRep info t.honest r G := by
  obtain ⟨info, hs⟩ := Setup.of_summary summary_bnQ
  have hd : info.d_bits % 108 ≠ 0 := by
    have := hs.summary
    simp only [List.cons.injEq] at this
    omega
  have hl : info.limbs ≤ 2 ^ 32 := by
    have := hs.summary
    simp only [List.cons.injEq] at this
    omega
  obtain ⟨G, hG⟩ := bn_generator
  obtain ⟨⟨gs, s, r⟩, t, hrun, -, ⟨p, q, e, h1, hv, -⟩, hh⟩ := C.run_new (n := bnR)
    (m := tableProg info (oneGroup info 3 none (some (1, 2)) 1) 1 0 secondOf)
    (P := fun r => ∃ p q, r.1 = [[p, q]] ∧ HKRep info q G ∧ r.2.1.val = 1 ∧ HKRep info r.2.2 G)
    (Q := fun h r => ∀ p q, r.1 = [[p, q]] → OkK h q ∧ Ok h r.2.1) fun c h => by
    unfold tableProg oneGroup
    simp only [bind_assoc, pure_bind]
    refine C.bind (C_assign_point hs.new hd (by decide +kernel) (by norm_num) (P := (0 : Pt (3 : ZMod bnQ))) (.inl ⟨rfl, rfl⟩)) fun p0 h0 =>
      C.bind (C_ecc_reduce_with_curvature hs.new hd good_bn h0.1 fun hH => hH.2) fun p ⟨h1, t1, t2, t3⟩ =>
      C.bind (C_assign_point hs.new hd (by decide +kernel) (by norm_num) (P := G)
        (.inr ⟨1, 2, rfl, by decide +kernel, by decide +kernel, hG⟩)) fun q0 h0 =>
      C.bind (C_ecc_reduce_with_curvature hs.new hd good_bn h0.1 fun hH => hH.2) fun q ⟨h2, t4, t5, t6⟩ =>
      C.bind C_assign fun s hs' => ?_
    simp only [cacheGroups, cacheTable, bind_assoc, pure_bind]
    refine C.bind (C_assign_cache_point_c 1 0 h1 t1 t2 t3 fun hH => hH.1.1.1.2) fun _ _ =>
      C.bind (C_assign_cache_point_c 1 1 h2 t4 t5 t6 fun hH => hH.1.1.2) fun _ _ => ?_
    refine C.bind (C_assign_selected_point_c (p := q) (k := 1) (g' := 1) 1 h2 t4 t5 t6
      (fun _ => by rw [hs', ← encode_select bnR 1 1]; simp)
      fun hH => ⟨hH.1.1.2, hH.1.1.1.2, hH.2⟩) fun r hr => C.pure ⟨p, q, rfl, h2, hs', hr⟩ ?_
    intro hH p' q' e
    cases e
    exact ⟨hH.1.1.1.1.2, hH.1.1.1.2⟩
  dsimp only at e hv
  subst e
  have hf : t.Fits (max t.base_offset (max t.range_offset t.select_offset)) := by constructor <;> omega
  obtain ⟨k1, k2⟩ := hh _ hf
  obtain ⟨o1, o3⟩ := k2 p q rfl
  have ev : t.honest s.cell = 1 := by rw [← hv]; exact o3
  have hb : Built False (oneGroup info 3 none (some (1, 2)) 1) :=
    .bind (prog_assign_point ..) fun _ => .bind (prog_ecc_reduce_with_curvature ..) fun _ =>
      .bind (prog_assign_point ..) fun _ => .bind (prog_ecc_reduce_with_curvature ..) fun _ =>
      .bind (prog_assign ..) fun _ => .pure _
  obtain ⟨k, p', a1, a2, a3⟩ := C55_single_group (b := (3 : ZMod bnQ)) C31_fields_large.1 hl hb one_ne_zero hrun
    (by norm_num) (by simp) hf k1
  have hk : k = 1 := by
    rcases k with _ | _ | k
    · rw [ev] at a1; exact absurd a1 (by simp)
    · rfl
    · simp at a2
  subst hk
  cases a2
  have hint : ∀ a : AssignedInteger bnR, sh True a a := fun a =>
    ⟨List.forall₂_same.2 fun _ _ _ => rfl, fun _ => rfl, rfl⟩
  have hsh : sh True q q := ⟨hint _, hint _, fun _ => rfl, ⟨hint _, fun _ => rfl⟩⟩
  exact ⟨info, G, by simpa using hG, _, s, r, t, _, hrun, k1, a3 G (h1.rep_of_shape hsh o1)⟩

end Verif
