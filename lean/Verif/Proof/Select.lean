import Verif.Spec.Select
import Verif.Proof.Msm
import Verif.Proof.Scalar

/-!
# Cached and selected values, soundness
-/

namespace Verif
variable {n wm : ℕ} {info : RangeInfo n} {b : ZMod wm} {c : Circuit n} {w : Advice n}

theorem S_assign_cache_value (hw : c.Sat w) (v : AssignedValue n) (off g sc : ℕ) :
    S c (assign_cache_value v off g sc) (fun _ => c.Cached w (encode_offset n g sc off) (cv w v)) := by
  intro s a t hs e
  obtain ⟨h1, h2⟩ := (prog_assign_cache_value trivial v off g sc).growing s a t hs e
  refine ⟨h1, h2, fun he => ?_⟩
  cases e
  have hlt : s.select_offset < c.usable := lt_of_lt_of_le (Nat.lt_succ_self _) he.fits.select
  have hc := he.copies (⟨.select, 0, s.select_offset⟩, v.cell) (by
    show _ ∈ (Records.assign_cache_value ..).permutations
    unfold Records.assign_cache_value
    dsimp only
    split <;> simp [Records.assign_fix_cell_in_select_chip, Records.assign_adv_cell_in_select_chip,
      Records.enable_permute, Records.ValueCol])
  have f0 := he.select s.select_offset 0 (Nat.lt_succ_self _)
  have f1 := he.select s.select_offset 1 (Nat.lt_succ_self _)
  refine ⟨s.select_offset, ⟨hlt, ?_, .inr ⟨_, hc⟩⟩, ?_, hw.copy _ hc⟩
  · rw [f1]
    unfold Records.assign_cache_value
    dsimp only
    split <;> simp [Records.assign_fix_cell_in_select_chip, setCell, Records.IsLookupCol, Records.EncodeCol]
  · rw [f0]
    unfold Records.assign_cache_value
    dsimp only
    split <;> simp [Records.assign_fix_cell_in_select_chip, setCell, Records.IsLookupCol, Records.EncodeCol]

/-- When what a selecting row finds is a cached value: the missing constraint, or a key other than 0. -/
def Circuit.Bound (c : Circuit n) (w : Advice n) (key : ZMod n) : Prop :=
  key ≠ 0 ∨ (c.LookupsCached w ∧ c.ZeroKeyUnique)

theorem Circuit.Bound.zero {key : ZMod n} (h : c.Bound w key) : key ≠ 0 ∨ c.ZeroKeyUnique := h.imp id And.right

theorem S_assign_selected_value (hw : c.Sat w) (v : AssignedValue n) (off g : ℕ) (sel : AssignedValue n) :
    S c (assign_selected_value v off g sel) (fun r => ∀ key, key = cv w sel * 2 ^ 128 + encode_offset n g 0 off →
      c.Bound w key → c.Cached w key (cv w r)) := by
  intro s a t hs e
  obtain ⟨h1, h2⟩ := (prog_assign_selected_value v off g sel).growing s a t hs e
  refine ⟨h1, h2, fun he key hkey hb => ?_⟩
  cases e
  have hlt : s.select_offset < c.usable := lt_of_lt_of_le (Nat.lt_succ_self _) he.fits.select
  have hc := he.copies (⟨.select, 1, s.select_offset⟩, sel.cell) (by
    show _ ∈ (Records.assign_select_value ..).2.permutations
    unfold Records.assign_select_value
    dsimp only
    split <;> simp [Records.assign_fix_cell_in_select_chip, Records.assign_adv_cell_in_select_chip,
      Records.enable_permute, Records.SelectCol])
  have hsel : w ⟨.select, 1, s.select_offset⟩ = cv w sel := hw.copy _ hc
  have f0 := he.select s.select_offset 0 (Nat.lt_succ_self _)
  have f1 := he.select s.select_offset 1 (Nat.lt_succ_self _)
  have e0 : c.selFix s.select_offset 0 = encode_offset n g 0 off := by
    rw [f0]
    unfold Records.assign_select_value
    dsimp only
    split <;> simp [Records.assign_fix_cell_in_select_chip, setCell, Records.IsLookupCol, Records.EncodeCol]
  have e1 : c.selFix s.select_offset 1 = 1 := by
    rw [f1]
    unfold Records.assign_select_value
    dsimp only
    split <;> simp [Records.assign_fix_cell_in_select_chip, setCell, Records.IsLookupCol, Records.EncodeCol]
  have ek : w ⟨.select, 1, s.select_offset⟩ * 2 ^ 128 + c.selFix s.select_offset 0 = key := by
    rw [hsel, e0, hkey]
  rcases hb with h0 | ⟨hb, -⟩
  · obtain ⟨t, ht, e2, e3, e4⟩ := hw.select _ hlt
    have e5 := e3.symm.trans ek
    exact ⟨t, ⟨ht, e4.symm, .inl (by rw [e5]; exact h0)⟩, e5, e2.symm⟩
  · obtain ⟨t, ht, e2, e3⟩ := hb _ hlt e1
    exact ⟨t, ht, e3.symm.trans ek, e2.symm⟩

/-! ## Integers and points -/

/-- The integer `p` is cached for selector value `sc` of group `g`, from position `offset` on. -/
structure CachedInt (c : Circuit n) (info : RangeInfo n) (w : Advice n) (p : AssignedInteger n) (sc g offset : ℕ) :
    Prop where
  times : p.times = 1
  limb : ∀ j < info.limbs, ∃ v, p.limbs_le[j]? = some v ∧ c.Cached w (encode_offset n g sc (offset + j)) (cv w v)
  native : c.Cached w (encode_offset n g sc (offset + info.limbs)) (cv w p.native)

theorem S_cache_limbs (hw : c.Sat w) (limbs : List (AssignedValue n)) (sc g offset : ℕ) : ∀ js,
    S c (cache_limbs limbs sc g offset js) (fun _ => ∀ j ∈ js, ∃ v, limbs[j]? = some v ∧
      c.Cached w (encode_offset n g sc (offset + j)) (cv w v))
  | [] => S.pure fun _ h => absurd h (List.not_mem_nil)
  | j :: js => by
    refine S.bind_index fun v hv => S.bind (S_assign_cache_value hw v _ g sc) fun _ =>
      (S_cache_limbs hw limbs sc g offset js).mono fun _ h1 h2 i hi => ?_
    rcases List.mem_cons.1 hi with rfl | hi
    · exact ⟨v, hv, h2⟩
    · exact h1 i hi

theorem S_assign_cache_integer (hw : c.Sat w) (p : AssignedInteger n) (sc g offset : ℕ) :
    S c (assign_cache_integer info p sc g offset) (fun _ => CachedInt c info w p sc g offset) := by
  unfold assign_cache_integer
  refine S.bind_rassert fun ht => S.bind (S_cache_limbs hw _ _ _ _ _) fun _ =>
    (S_assign_cache_value hw _ _ _ _).mono fun _ h1 h2 => ⟨by simpa using ht, fun j hj => ?_, h1⟩
  exact h2 j (List.mem_range.2 hj)

/-- The point `p` is cached as candidate `i` of group `g`. -/
def CachedPoint (c : Circuit n) (info : RangeInfo n) (w : Advice n) (g i : ℕ) (p : AssignedNonZeroPoint n) : Prop :=
  CachedInt c info w p.x i g 0 ∧ CachedInt c info w p.y i g (info.limbs + 1)

theorem S_assign_cache_point (hw : c.Sat w) (p : AssignedNonZeroPoint n) (g sc : ℕ) :
    S c (assign_cache_point_non_zero info p g sc) (fun _ => CachedPoint c info w g sc p) :=
  S.bind (S_assign_cache_integer hw _ _ _ _) fun _ => (S_assign_cache_integer hw _ _ _ _).mono fun _ h1 h2 => ⟨h2, h1⟩

/-- What is known of a selected integer. -/
structure SelInt (c : Circuit n) (info : RangeInfo n) (w : Advice n) (r : AssignedInteger n) (sc : ZMod n)
    (g offset : ℕ) : Prop where
  times : r.times = 1
  len : r.limbs_le.length = info.limbs
  limb : ∀ j < info.limbs, ∃ v, r.limbs_le[j]? = some v ∧ ∀ key, key = sc * 2 ^ 128 + encode_offset n g 0 (offset + j) →
    c.Bound w key → c.Cached w key (cv w v)
  native : ∀ key, key = sc * 2 ^ 128 + encode_offset n g 0 (offset + info.limbs) →
    c.Bound w key → c.Cached w key (cv w r.native)

theorem S_assign_selected_integer (hw : c.Sat w) (p : AssignedInteger n) (sc : AssignedValue n) (g offset : ℕ) :
    S c (assign_selected_integer info p sc g offset) (fun r => SelInt c info w r (cv w sc) g offset) := by
  unfold assign_selected_integer
  refine S.bind (S.mapM_range (P := fun j v => ∀ key, key = cv w sc * 2 ^ 128 + encode_offset n g 0 (offset + j) →
    c.Bound w key → c.Cached w key (cv w v)) fun j _ => S.bind_index fun v _ => S_assign_selected_value hw _ _ _ _)
    fun ls => S.bind (S_assign_selected_value hw _ _ _ _) fun r => S.pure fun h1 h2 => ⟨rfl, h2.1, h2.2, h1⟩

theorem Rep.of_cells {a a' : AssignedInteger n} {x : ZMod wm} (h : Rep wm info w a x)
    (hl : a'.limbs_le.map (cv w) = a.limbs_le.map (cv w)) (hn : cv w a'.native = cv w a.native)
    (ht : a'.times = a.times) : Rep wm info w a' x := by
  have h1 : ∀ i, limbAt (cv w) a'.limbs_le i = limbAt (cv w) a.limbs_le i := fun i => by
    have : ∀ l : List (AssignedValue n), limbAt (cv w) l i = ((l.map (cv w))[i]?).elim 0 ZMod.val := fun l => by
      unfold limbAt
      rw [List.getElem?_map]
      cases l[i]? <;> rfl
    rw [this, this, hl]
  have h2 : a'.limbs_le.length = a.limbs_le.length := by simpa using congrArg List.length hl
  have h3 : V (cv w) a' = V (cv w) a := by
    unfold V VL
    rw [h2]
    exact Finset.sum_congr rfl fun i _ => by rw [h1]
  refine ⟨⟨h2.trans h.wf.len, ht ▸ h.wf.times_pos, ht ▸ h.wf.times_lt, fun i => ?_, ?_, ?_⟩, ?_⟩
  · rw [h1, ht]; exact h.wf.limb i
  · rw [h3, ht]; exact h.wf.val
  · rw [hn, h3]; exact h.wf.native
  · rw [h3]; exact h.eq

theorem encode_select (n g k off : ℕ) :
    ((k : ℕ) : ZMod n) * 2 ^ 128 + encode_offset n g 0 off = encode_offset n g k off := by
  unfold encode_offset; push_cast; ring

/-- A selected integer equals the cached one it was selected from. -/
theorem SelInt.rep (hu : c.KeysUnique) {r p : AssignedInteger n} {k g offset : ℕ} {x : ZMod wm}
    (hs : SelInt c info w r (k : ZMod n) g offset) (hc : CachedInt c info w p k g offset)
    (hb : ∀ j ≤ info.limbs, c.Bound w (encode_offset n g k (offset + j))) (hx : Rep wm info w p x) :
    Rep wm info w r x := by
  refine hx.of_cells (List.ext_getElem? fun j => ?_) ?_ (hs.times.trans hc.times.symm)
  · rw [List.getElem?_map, List.getElem?_map]
    rcases Nat.lt_or_ge j info.limbs with hj | hj
    · obtain ⟨v, e1, h1⟩ := hs.limb j hj
      obtain ⟨u, e2, h2⟩ := hc.limb j hj
      rw [e1, e2]
      exact congrArg some (hu.cached (hb j hj.le).zero (h1 _ (encode_select n g k _).symm (hb j hj.le)) h2)
    · rw [List.getElem?_eq_none (by rw [hs.len]; exact hj), List.getElem?_eq_none (by rw [hx.wf.len]; exact hj)]
  · exact hu.cached (hb _ le_rfl).zero (hs.native _ (encode_select n g k _).symm (hb _ le_rfl)) hc.native

theorem sumW_bits [NeZero n] (w : Advice n) : ∀ (bits : List (AssignedValue n)) (k : ℕ),
    sumW w (bits.mapIdx fun i x => (x, ((2 ^ (i + k) : ℕ) : ZMod n))) = 2 ^ k * (binVal (cv w) bits : ZMod n)
  | [], k => by simp [binVal]
  | x :: bits, k => by
    have ih := sumW_bits w bits (k + 1)
    have e : (fun (i : ℕ) (x : AssignedValue n) => (x, ((2 ^ (i + 1 + k) : ℕ) : ZMod n)))
        = fun i x => (x, ((2 ^ (i + (k + 1)) : ℕ) : ZMod n)) := by
      funext i x; rw [Nat.add_assoc, Nat.add_comm 1 k]
    rw [List.mapIdx_cons, sumW_cons]
    show _ + sumW w (bits.mapIdx fun i x => (x, ((2 ^ (i + 1 + k) : ℕ) : ZMod n))) = _
    rw [e, ih]
    simp only [binVal]
    push_cast
    rw [ZMod.natCast_zmod_val, zero_add]
    show cv w x * _ + _ = _
    ring

theorem S_pick_candidate [NeZero n] (hw : c.Sat w) (cl : List (AssignedNonZeroPoint n))
    (bits : List (AssignedCondition n)) :
    S c (pick_candidate_non_zero cl bits) (fun r => cv w r.1 = (binVal (cv w) bits : ZMod n)) := by
  unfold pick_candidate_non_zero
  refine S.bind (S_sum hw _ _) fun idx => S.bind_index fun ci _ => S.pure fun h => ?_
  show w idx.cell = _
  rw [h]
  have := sumW_bits w bits 0
  simpa using this

theorem S_pick_select [Fact n.Prime] (hw : c.Sat w) (hu : c.KeysUnique) (pre : ℕ)
    {G B : ℕ} (hb : ∀ g k off, g < G → k < 2 ^ B → off < 2 * (info.limbs + 1) →
      c.Bound w (encode_offset n (g + pre) k off)) :
    PickSound c info w b G B (fun g i p => CachedPoint c info w (g + pre) i p) (pick_select info pre) := by
  have : 1 < n := (Fact.out : n.Prime).one_lt
  have : NeZero n := ⟨by omega⟩
  intro cs g bits
  unfold pick_select
  refine S.bind_index fun cl hcl => S.bind (S_pick_candidate hw cl bits) fun r => ?_
  refine S.bind (S_assign_selected_integer hw _ _ _ _) fun x => S.bind (S_assign_selected_integer hw _ _ _ _) fun y =>
    S.pure fun hy hx hr => ⟨cl, hcl, fun Q hQ hlen hg hB hbit => ?_⟩
  have hlt := binVal_lt hbit
  have hlt' := lt_of_lt_of_le hlt (Nat.pow_le_pow_right (by norm_num) hB)
  obtain ⟨p, hp⟩ : ∃ p, cl[binVal (cv w) bits]? = some p :=
    ⟨_, List.getElem?_eq_getElem (by rw [hlen]; exact hlt)⟩
  obtain ⟨⟨px, py, hpx, hpy, hP⟩, kx, ky⟩ := hQ _ _ hp
  rw [hr] at hx hy
  exact ⟨px, py, hx.rep hu kx (fun j hj => hb _ _ _ hg hlt' (by omega)) hpx, hy.rep hu ky (fun j hj => hb _ _ _ hg hlt' (by omega)) hpy, hP⟩

end Verif
