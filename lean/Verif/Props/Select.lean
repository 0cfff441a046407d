import Verif.Proof.Select
import Verif.Props.Base

/-!
# C30: a selected limb equals the cached limb

The property fails as stated. A lookup row with key 0 (group 0, selector value 0, limb 0) is also answered by every row
of the select chip that was never assigned: its fixed cells are 0 and its advice cell is free.
-/

namespace Verif
variable {n : ℕ}

/-- Cache `v` under group 0, selector 0, limb 0, and select that limb with a selector fixed to 0. -/
def selDemo (v : ZMod n) : M n (AssignedValue n × AssignedValue n) := do
  let z ← assign_constant 0
  let a ← assign v
  assign_cache_value a 0 0 0
  let r ← assign_selected_value a 0 0 z
  pure (a, r)

/-- The forged advice: as recorded, except for the selected value (row 1 of the select chip) and the first unassigned
row (row 2). -/
def forgeSel (v x : ZMod n) : Advice n
  | ⟨.base, 0, 1⟩ => v
  | ⟨.select, 0, 0⟩ => v
  | ⟨.select, 0, 1⟩ => x
  | ⟨.select, 0, 2⟩ => x
  | _ => 0

/-- C30 fails: `v` is cached under (0, 0, 0) and nothing else is cached; the value selected for (0, 0, 0) may be any
`x`. The row used needs to exist, so the circuit must have one usable row more than the context wrote. -/
theorem C30_violated (v x : ZMod n) : ∃ a r t, selDemo v (Context.new n) = .ok ((a, r), t) ∧
    ∀ usable, t.Fits usable → t.select_offset < usable →
      ∃ w, (t.circuit usable).Sat w ∧ w a.cell = v ∧ w r.cell = x := by
  obtain ⟨t, e, ho, hperm, hbase, hrange, hsel⟩ : ∃ t, selDemo v (Context.new n) =
      .ok ((⟨⟨.base, 0, 1⟩, v⟩, ⟨⟨.select, 0, 1⟩, v⟩), t) ∧ t.select_offset = 2 ∧
      t.records.permutations = [(⟨.select, 0, 0⟩, ⟨.base, 0, 1⟩), (⟨.select, 1, 1⟩, ⟨.base, 0, 0⟩)] ∧
      (∀ r c, t.records.inner.base_fix_record r c = if r = 0 ∧ c = 0 then some (-1) else
        if r = 0 ∧ c = 8 then some 0 else if r = 1 ∧ c = 0 then some 0 else none) ∧
      (∀ r c, t.records.inner.range_fix_record r c = none) ∧
      (∀ r c, t.records.inner.select_fix_record r c = if (r = 0 ∨ r = 1) ∧ c = 0 then some (encode_offset n 0 0 0) else
        if r = 0 ∧ c = 1 then some 0 else if r = 1 ∧ c = 1 then some 1 else none) := by
    refine ⟨_, rfl, rfl, rfl, ?_, fun _ _ => rfl, ?_⟩
    · intro r c
      rcases r with _ | _ | r <;> rcases c with _ | _ | _ | _ | _ | _ | _ | _ | _ | c <;> rfl
    · intro r c
      rcases r with _ | _ | r <;> rcases c with _ | _ | c <;> rfl
  refine ⟨_, _, t, e, fun usable hf hu => ⟨forgeSel v x, ⟨?_, ?_, ?_, ?_⟩, rfl, rfl⟩⟩
  · intro r _
    have hfix : ∀ k, (t.circuit usable).baseFix r k = (t.records.inner.base_fix_record r k).getD 0 := fun _ => rfl
    unfold Circuit.baseGate
    simp only [hfix, hbase]
    rcases r with _ | _ | r <;> simp [forgeSel]
  · intro r _
    have hfix : ∀ k, (t.circuit usable).rangeFix r k = 0 := by
      intro k
      show (t.records.inner.range_fix_record r k).getD 0 = _
      rw [hrange]; rfl
    refine ⟨⟨0, 0, Nat.zero_le _, by norm_num, by simp [hfix], by simp [forgeSel]⟩,
      ⟨18, 0, le_rfl, by norm_num, rfl, by simp [forgeSel]⟩, ?_, ?_, ?_⟩ <;>
      simp [Circuit.rangeGate1, Circuit.rangeGate2, Circuit.rangeGate3, hfix]
  · intro r hr
    have hfix : ∀ r k, (t.circuit usable).selFix r k = (t.records.inner.select_fix_record r k).getD 0 := fun _ _ => rfl
    unfold Circuit.SelectRow
    simp only [hfix, hsel]
    have e0 : encode_offset n 0 0 0 = 0 := by simp [encode_offset]
    rcases r with _ | _ | r
    · exact ⟨0, hr, rfl, by simp [forgeSel], by simp⟩
    · exact ⟨2, by rw [ho] at hu; exact hu, rfl, by simp [forgeSel, e0], by simp⟩
    · exact ⟨r + 2, hr, rfl, by rcases r with _ | r <;> simp [forgeSel], by simp⟩
  · intro p hp
    have : p ∈ t.records.permutations := hp
    rw [hperm] at this
    simp only [List.mem_cons, List.not_mem_nil, or_false] at this
    rcases this with rfl | rfl <;> rfl

/-- In particular, where 5 was cached, 7 can be selected. -/
example : ∃ a r t, selDemo (5 : ZMod bnR) (Context.new bnR) = .ok ((a, r), t) ∧
    ∀ usable, t.Fits usable → t.select_offset < usable →
      ∃ w, (t.circuit usable).Sat w ∧ w a.cell = 5 ∧ w r.cell = 7 := C30_violated 5 7

/-- What remains of C30. Full statement: in every satisfying assignment the value selected with group `g`, limb `off`
and a selector cell holding `k` equals the value cached under `(g, k, off)`. Missing: for the key 0, the constraint that
lookups are answered by cached values (`LookupsCached`). For every other key nothing is missing: that the cache holds one
value per key (`KeysUnique`) is C31, see `keysUnique_of_distinct`. -/
theorem C30_partial (v : AssignedValue n) (off g : ℕ) (sel : AssignedValue n) (c : Circuit n) (w : Advice n)
    (hw : c.Sat w) (hu : c.KeysUnique) :
    S c (assign_selected_value v off g sel) (fun r => ∀ k : ℕ, w sel.cell = k → ∀ x,
      c.Cached w (encode_offset n g k off) x →
      (encode_offset n g k off ≠ 0 ∨ (c.LookupsCached w ∧ c.ZeroKeyUnique)) → w r.cell = x) :=
  (S_assign_selected_value hw v off g sel).mono fun r hr k hk x hx hb => by
    have e : encode_offset n g k off = cv w sel * 2 ^ 128 + encode_offset n g 0 off := by
      show _ = w sel.cell * 2 ^ 128 + _
      rw [hk, encode_select]
    exact hu.cached (hb.imp id And.right) (hr _ e hb) hx

/-- C30: what `assign_cache_value` caches is the value of the cell it is given. -/
theorem C30_cache_sound (v : AssignedValue n) (off g k : ℕ) : ∀ (c : Circuit n) (w : Advice n), c.Sat w →
    S c (assign_cache_value v off g k) (fun _ => c.Cached w (encode_offset n g k off) (w v.cell)) :=
  fun _ _ hw => S_assign_cache_value hw v off g k

end Verif
