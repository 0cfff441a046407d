import Verif.Proof.Select
import Verif.Proof.EccComplete

/-!
# Cached and selected values, completeness
-/

namespace Verif
variable {n wm : ℕ} {info : RangeInfo n} {b : ZMod wm} {c : Circuit n} {h : Advice n} {H : Prop}

theorem C_assign_cache_value {v : AssignedValue n} (off g sc : ℕ) (hok : H → Ok h v) :
    C c h H (assign_cache_value v off g sc) (fun _ => True)
      (fun _ => c.Cached h (encode_offset n g sc off) (cv h v)) := by
  intro s hs
  obtain ⟨t, e⟩ : ∃ t, assign_cache_value v off g sc s = .ok ((), t) := ⟨_, rfl⟩
  obtain ⟨h1, h2⟩ := (prog_assign_cache_value trivial v off g sc).growing s _ t hs e
  refine ⟨(), t, e, h1, h2, trivial, fun hH he ha => ?_⟩
  have hperm : t.records.permutations = s.records.permutations ++ [(⟨.select, 0, s.select_offset⟩, v.cell)] := by
    cases e
    unfold Records.assign_cache_value
    dsimp only
    split <;> simp [Records.assign_fix_cell_in_select_chip, Records.assign_adv_cell_in_select_chip,
      Records.enable_permute, Records.ValueCol]
  have ho : t.select_offset = s.select_offset + 1 := by cases e; rfl
  have hob : t.base_offset = s.base_offset := by cases e; rfl
  have hor : t.range_offset = s.range_offset := by cases e; rfl
  have hlt : s.select_offset < c.usable := by
    have := he.fits.select
    omega
  have hmem : ((⟨.select, 0, s.select_offset⟩, v.cell) : Cell × Cell) ∈ c.copies :=
    he.copies _ (by rw [hperm]; simp)
  have f0 : c.selFix s.select_offset 0 = encode_offset n g sc off := by
    rw [he.select _ 0 (by omega)]
    cases e
    unfold Records.assign_cache_value
    dsimp only
    split <;> simp [Records.assign_fix_cell_in_select_chip, setCell, Records.IsLookupCol, Records.EncodeCol]
  have f1 : c.selFix s.select_offset 1 = 0 := by
    rw [he.select _ 1 (by omega)]
    cases e
    unfold Records.assign_cache_value
    dsimp only
    split <;> simp [Records.assign_fix_cell_in_select_chip, setCell, Records.IsLookupCol, Records.EncodeCol]
  have a0 : h ⟨.select, 0, s.select_offset⟩ = v.val := by
    rw [ha.select _ 0 (by omega)]
    cases e
    unfold Records.assign_cache_value
    dsimp only
    split <;> simp [Records.assign_fix_cell_in_select_chip, Records.assign_adv_cell_in_select_chip, setCell,
      Records.enable_permute, Records.ValueCol]
  have a1 : h ⟨.select, 1, s.select_offset⟩ = 0 := by
    rw [ha.select _ 1 (by omega)]
    have := hs.selAdv s.select_offset 1 le_rfl
    cases e
    unfold Records.assign_cache_value
    dsimp only
    split <;> simp [Records.assign_fix_cell_in_select_chip, Records.assign_adv_cell_in_select_chip, setCell,
      Records.enable_permute, Records.ValueCol, this]
  have hv : h v.cell = v.val := hok hH
  refine ⟨⟨fun r k1 k2 => by omega, fun r k1 k2 => by omega, fun r k1 k2 => ?_, _, hperm, ?_⟩, ?_⟩
  · obtain rfl : r = s.select_offset := by omega
    exact ⟨_, hlt, rfl, by rw [a1, zero_mul, zero_add], f1.symm⟩
  · intro p hp
    rw [List.mem_singleton.1 hp, a0, hv]
  · exact ⟨_, ⟨hlt, f1, .inr ⟨_, hmem⟩⟩, f0, by rw [a0]; exact hv.symm⟩

theorem C_assign_selected_value {v : AssignedValue n} (off g : ℕ) {sel : AssignedValue n} (hok : H → Ok h sel ∧
    c.Cached h (sel.val * 2 ^ 128 + encode_offset n g 0 off) v.val) :
    C c h H (assign_selected_value v off g sel) (fun r => r.val = v.val) (Ok h) := by
  intro s hs
  obtain ⟨r, t, e⟩ : ∃ r t, assign_selected_value v off g sel s = .ok (r, t) := ⟨_, _, rfl⟩
  obtain ⟨h1, h2⟩ := (prog_assign_selected_value v off g sel).growing s _ t hs e
  have hr : r = ⟨⟨.select, 0, s.select_offset⟩, v.val⟩ := by cases e; rfl
  refine ⟨r, t, e, h1, h2, by rw [hr], fun hH he ha => ?_⟩
  have hperm : t.records.permutations = s.records.permutations ++ [(⟨.select, 1, s.select_offset⟩, sel.cell)] := by
    cases e
    unfold Records.assign_select_value
    dsimp only
    split <;> simp [Records.assign_fix_cell_in_select_chip, Records.assign_adv_cell_in_select_chip,
      Records.enable_permute, Records.SelectCol]
  have ho : t.select_offset = s.select_offset + 1 := by cases e; rfl
  have hob : t.base_offset = s.base_offset := by cases e; rfl
  have hor : t.range_offset = s.range_offset := by cases e; rfl
  have f0 : c.selFix s.select_offset 0 = encode_offset n g 0 off := by
    rw [he.select _ 0 (by omega)]
    cases e
    unfold Records.assign_select_value
    dsimp only
    split <;> simp [Records.assign_fix_cell_in_select_chip, setCell, Records.IsLookupCol, Records.EncodeCol]
  have a0 : h ⟨.select, 0, s.select_offset⟩ = v.val := by
    rw [ha.select _ 0 (by omega)]
    cases e
    unfold Records.assign_select_value
    dsimp only
    split <;> simp [Records.assign_fix_cell_in_select_chip, Records.assign_adv_cell_in_select_chip, setCell,
      Records.enable_permute, Records.ValueCol, Records.SelectCol]
  have a1 : h ⟨.select, 1, s.select_offset⟩ = sel.val := by
    rw [ha.select _ 1 (by omega)]
    cases e
    unfold Records.assign_select_value
    dsimp only
    split <;> simp [Records.assign_fix_cell_in_select_chip, Records.assign_adv_cell_in_select_chip, setCell,
      Records.enable_permute, Records.ValueCol, Records.SelectCol]
  obtain ⟨hsel, t', ⟨k1, k2, -⟩, k3, k4⟩ := hok hH
  have hsel : h sel.cell = sel.val := hsel
  refine ⟨⟨fun r k1 k2 => by omega, fun r k1 k2 => by omega, fun r k5 k6 => ?_, _, hperm, ?_⟩, ?_⟩
  · obtain rfl : r = s.select_offset := by omega
    exact ⟨t', k1, by rw [a0, k4], by rw [a1, f0, k3], k2.symm⟩
  · intro p hp
    rw [List.mem_singleton.1 hp, a1, hsel]
  · show h r.cell = r.val
    rw [hr]
    exact a0

/-! ## Integers and points -/

theorem HRep.of_vals {a a' : AssignedInteger n} {x : ZMod wm} (h : HRep wm info a x)
    (hl : a'.limbs_le.map AssignedValue.val = a.limbs_le.map AssignedValue.val) (hn : a'.native.val = a.native.val)
    (ht : a'.times = a.times) : HRep wm info a' x := by
  have h1 : ∀ i, limbAt AssignedValue.val a'.limbs_le i = limbAt AssignedValue.val a.limbs_le i := fun i => by
    have : ∀ l : List (AssignedValue n), limbAt AssignedValue.val l i =
        ((l.map AssignedValue.val)[i]?).elim 0 ZMod.val := fun l => by
      unfold limbAt
      rw [List.getElem?_map]
      cases l[i]? <;> rfl
    rw [this, this, hl]
  have h2 : a'.limbs_le.length = a.limbs_le.length := by simpa using congrArg List.length hl
  have h3 : V AssignedValue.val a' = V AssignedValue.val a := by
    unfold V VL
    rw [h2]
    exact Finset.sum_congr rfl fun i _ => by rw [h1]
  have hw := h.honest.wf
  refine ⟨⟨⟨h2.trans hw.len, ht ▸ hw.times_pos, ht ▸ hw.times_lt, fun i => ?_, ?_, ?_⟩, ?_⟩, ?_⟩
  · rw [h1, ht]; exact hw.limb i
  · rw [h3, ht]; exact hw.val
  · rw [hn, h3]; exact hw.native
  · rw [h3, ht]; exact h.honest.canon
  · rw [h3]; exact h.eq

theorem C_cache_limbs (limbs : List (AssignedValue n)) (sc g offset : ℕ) : ∀ (js : List ℕ) {H : Prop},
    (∀ j ∈ js, j < limbs.length) → (H → ∀ x ∈ limbs, Ok h x) →
    C c h H (cache_limbs limbs sc g offset js) (fun _ => True) (fun _ => ∀ j ∈ js, ∃ v, limbs[j]? = some v ∧
      c.Cached h (encode_offset n g sc (offset + j)) (cv h v))
  | [], _, _, _ => C.pure trivial fun _ _ h => absurd h (List.not_mem_nil)
  | j :: js, H, hj, hok => by
    have hlt := hj j (by simp)
    refine C.bind_index (List.getElem?_eq_getElem hlt) (C.bind (C_assign_cache_value _ g sc fun hH =>
      hok hH _ (List.getElem_mem hlt)) fun _ _ => (C_cache_limbs limbs sc g offset js (fun i hi => hj i (by simp [hi]))
        fun hH => hok hH.1).mono (fun _ h => h) fun _ hH _ hq i hi => ?_)
    rcases List.mem_cons.1 hi with rfl | hi
    · exact ⟨_, List.getElem?_eq_getElem hlt, hH.2⟩
    · exact hq i hi

theorem C_assign_cache_integer {p : AssignedInteger n} (sc g offset : ℕ) (ht : p.times = 1)
    (hl : p.limbs_le.length = info.limbs) (hok : H → OkI h p) :
    C c h H (assign_cache_integer info p sc g offset) (fun _ => True)
      (fun _ => CachedInt c info h p sc g offset) := by
  unfold assign_cache_integer
  refine C.bind_rassert (by simpa using ht) (C.bind (C_cache_limbs _ _ _ _ _ (fun j hj => ?_) fun hH =>
    (hok hH).limb) fun _ _ => (C_assign_cache_value _ _ _ fun hH => (hok hH.1).native).mono (fun _ h => h)
    fun _ hH _ hq => ⟨ht, fun j hj => hH.2 j (List.mem_range.2 hj), hq⟩)
  rw [hl]
  exact List.mem_range.1 hj

theorem C_assign_cache_point {p : AssignedNonZeroPoint n} {P : Pt b} (g sc : ℕ) (hp : HNRep info p P)
    (tx : p.x.times = 1) (ty : p.y.times = 1) (hok : H → OkN h p) :
    C c h H (assign_cache_point_non_zero info p g sc) (fun _ => True) (fun _ => CachedPoint c info h g sc p) := by
  obtain ⟨⟨x, y, hx, hy, -⟩, -⟩ := hp
  refine C.bind (C_assign_cache_integer _ _ _ tx hx.honest.wf.len fun hH => (hok hH).x) fun _ _ =>
    (C_assign_cache_integer _ _ _ ty hy.honest.wf.len fun hH => (hok hH.1).y).mono (fun _ h => h)
      fun _ hH _ hq => ⟨hH.2, hq⟩

/-- Selecting under a key that is that of candidate `k` of some group `g'`. -/
theorem C_assign_selected_integer' {p : AssignedInteger n} {x : ZMod wm} {sc : AssignedValue n} {k g' : ℕ} (g offset : ℕ)
    (hp : HRep wm info p x) (ht : p.times = 1)
    (hk : ∀ off, sc.val * 2 ^ 128 + encode_offset n g 0 off = encode_offset n g' k off)
    (hok : H → Ok h sc ∧ OkI h p ∧ CachedInt c info h p k g' offset) :
    C c h H (assign_selected_integer info p sc g offset) (fun r => HRep wm info r x ∧ r.times = 1) (OkI h) := by
  have hlen := hp.honest.wf.len
  unfold assign_selected_integer
  refine C.bind (C.mapM_range (P := fun j v => ∃ u, p.limbs_le[j]? = some u ∧ v.val = u.val) (Q := fun _ v => Ok h v)
    fun j hj => ?_) fun ls hls => C.bind (C_assign_selected_value _ _ fun hH => ?_) fun r hr =>
      C.pure ⟨hp.of_vals ?_ hr ht.symm, rfl⟩ fun hH => ⟨?_, hH.2⟩
  · have hlt : j < p.limbs_le.length := by omega
    refine C.bind_index (List.getElem?_eq_getElem hlt) ((C_assign_selected_value _ _ fun hH => ?_).mono
      (fun r hr => ⟨_, List.getElem?_eq_getElem hlt, hr⟩) fun _ _ _ q => q)
    obtain ⟨h1, h2, h3⟩ := hok hH
    refine ⟨h1, ?_⟩
    obtain ⟨v, hv, hc⟩ := h3.limb j hj
    rw [List.getElem?_eq_getElem hlt] at hv
    cases hv
    rw [hk]
    have : cv h p.limbs_le[j] = p.limbs_le[j].val := h2.limb _ (List.getElem_mem hlt)
    rwa [this] at hc
  · obtain ⟨h1, h2, h3⟩ := hok hH.1
    refine ⟨h1, ?_⟩
    rw [hk]
    have := h3.native
    rwa [show cv h p.native = p.native.val from h2.native] at this
  · refine List.ext_getElem? fun j => ?_
    rw [List.getElem?_map, List.getElem?_map]
    rcases Nat.lt_or_ge j info.limbs with hj | hj
    · obtain ⟨v, e1, u, e2, e3⟩ := hls.2 j hj
      rw [e1, e2, Option.map_some, Option.map_some, e3]
    · rw [List.getElem?_eq_none (by rw [hls.1]; exact hj), List.getElem?_eq_none (by omega)]
  · intro v hv
    obtain ⟨i, hi⟩ := List.mem_iff_getElem?.1 hv
    exact hH.1.2 i v hi

theorem C_assign_selected_integer {p : AssignedInteger n} {x : ZMod wm} {sc : AssignedValue n} {k : ℕ} (g offset : ℕ)
    (hp : HRep wm info p x) (ht : p.times = 1) (hk : sc.val = (k : ZMod n))
    (hok : H → Ok h sc ∧ OkI h p ∧ CachedInt c info h p k g offset) :
    C c h H (assign_selected_integer info p sc g offset) (fun r => HRep wm info r x ∧ r.times = 1) (OkI h) :=
  C_assign_selected_integer' g offset hp ht (fun _ => by rw [hk, encode_select]) hok

theorem C_assign_selected_point {p : AssignedNonZeroPoint n} {P : Pt b} {sc : AssignedValue n} {k : ℕ} (g : ℕ)
    (hp : HNRep info p P) (tx : p.x.times = 1) (ty : p.y.times = 1) (hk : sc.val = (k : ZMod n))
    (hok : H → Ok h sc ∧ OkN h p ∧ CachedPoint c info h g k p) :
    C c h H (assign_selected_point_non_zero info p sc g) (fun r => HNRep info r P) (OkN h) := by
  obtain ⟨⟨x, y, hx, hy, hP⟩, -⟩ := hp
  refine C.bind (C_assign_selected_integer _ _ hx tx hk fun hH => ⟨(hok hH).1, (hok hH).2.1.x, (hok hH).2.2.1⟩)
    fun rx h1 => C.bind (C_assign_selected_integer _ _ hy ty hk fun hH =>
      ⟨(hok hH.1).1, (hok hH.1).2.1.y, (hok hH.1).2.2.2⟩) fun ry h2 =>
    C.pure ⟨⟨x, y, h1.1, h2.1, hP⟩, ?_, ?_⟩ fun hH => ⟨hH.1.2, hH.2⟩
  · show rx.times ≤ 16
    have := h1.2
    omega
  · show ry.times ≤ 16
    have := h2.2
    omega

theorem sumVal_bits [NeZero n] : ∀ (bits : List (AssignedValue n)) (k : ℕ),
    sumVal (bits.mapIdx fun i x => (x, ((2 ^ (i + k) : ℕ) : ZMod n))) = 2 ^ k * (binVal AssignedValue.val bits : ZMod n)
  | [], k => by simp [binVal]
  | x :: bits, k => by
    have ih := sumVal_bits bits (k + 1)
    have e : (fun (i : ℕ) (x : AssignedValue n) => (x, ((2 ^ (i + 1 + k) : ℕ) : ZMod n)))
        = fun i x => (x, ((2 ^ (i + (k + 1)) : ℕ) : ZMod n)) := by
      funext i x; rw [Nat.add_assoc, Nat.add_comm 1 k]
    rw [List.mapIdx_cons, sumVal_cons]
    show _ + sumVal (bits.mapIdx fun i x => (x, ((2 ^ (i + 1 + k) : ℕ) : ZMod n))) = _
    rw [e, ih]
    simp only [binVal]
    push_cast
    rw [ZMod.natCast_zmod_val, zero_add]
    ring

end Verif
