import Mathlib.Tactic.LinearCombination
import Mathlib.Tactic.Ring
import Mathlib.Tactic.IntervalCases
import Verif.Model.RangeChip
import Verif.Proof.Logic

/-!
# Range chip: soundness and completeness
-/

namespace Verif

variable {n : ℕ}

/-- The effect of adding `k` range-chip rows. -/
structure RangeAdded (s t : Context n) (k : ℕ) (fix adv : ℕ → ℕ → Option (ZMod n)) : Prop where
  rangeOff : t.range_offset = s.range_offset + k
  baseOff : t.base_offset = s.base_offset
  selOff : t.select_offset = s.select_offset
  fix : ∀ r j, t.records.inner.range_fix_record r j =
    if s.range_offset ≤ r ∧ r < s.range_offset + k then fix (r - s.range_offset) j
    else s.records.inner.range_fix_record r j
  adv : ∀ r j, t.records.inner.range_adv_record r j =
    if s.range_offset ≤ r ∧ r < s.range_offset + k then adv (r - s.range_offset) j
    else s.records.inner.range_adv_record r j
  baseFix : t.records.inner.base_fix_record = s.records.inner.base_fix_record
  baseAdv : t.records.inner.base_adv_record = s.records.inner.base_adv_record
  selFix : t.records.inner.select_fix_record = s.records.inner.select_fix_record
  selAdv : t.records.inner.select_adv_record = s.records.inner.select_adv_record
  perms : t.records.permutations = s.records.permutations

namespace RangeAdded
variable {s t : Context n} {k : ℕ} {fix adv : ℕ → ℕ → Option (ZMod n)}

theorem fresh (h : RangeAdded s t k fix adv) (hs : s.Fresh) : t.Fresh where
  rangeFix r c hr := by
    rw [h.rangeOff] at hr
    rw [h.fix, if_neg (by omega)]; exact hs.rangeFix r c (by omega)
  rangeAdv r c hr := by
    rw [h.rangeOff] at hr
    rw [h.adv, if_neg (by omega)]; exact hs.rangeAdv r c (by omega)
  baseFix r c hr := by rw [h.baseFix]; exact hs.baseFix r c (h.baseOff ▸ hr)
  baseAdv r c hr := by rw [h.baseAdv]; exact hs.baseAdv r c (h.baseOff ▸ hr)
  selFix r c hr := by rw [h.selFix]; exact hs.selFix r c (h.selOff ▸ hr)
  selAdv r c hr := by rw [h.selAdv]; exact hs.selAdv r c (h.selOff ▸ hr)

theorem grows (h : RangeAdded s t k fix adv) : Grows s t where
  rangeOff := by rw [h.rangeOff]; omega
  baseOff := h.baseOff.ge
  selOff := h.selOff.ge
  rangeFix r k hr := by rw [h.fix, if_neg (by omega)]
  rangeAdv r k hr := by rw [h.adv, if_neg (by omega)]
  baseFix r k _ := by rw [h.baseFix]
  baseAdv r k _ := by rw [h.baseAdv]
  selFix r k _ := by rw [h.selFix]
  selAdv r k _ := by rw [h.selAdv]
  perms := ⟨[], by rw [h.perms, List.append_nil]⟩

theorem row (h : RangeAdded s t k fix adv) {c : Circuit n} {w : Advice n} (hw : c.Sat w)
    (e : t.Embeds c) {i : ℕ} (hi : i < k) : c.RangeRow w (s.range_offset + i) :=
  hw.range _ (by have := e.fits.range; rw [h.rangeOff] at this; omega)

theorem fixed (h : RangeAdded s t k fix adv) {c : Circuit n} (e : t.Embeds c) {i : ℕ} (hi : i < k)
    (j : ℕ) : c.rangeFix (s.range_offset + i) j = (fix i j).getD 0 := by
  rw [e.range _ _ (by rw [h.rangeOff]; omega), h.fix, if_pos (by omega), Nat.add_sub_cancel_left]

theorem honest (h : RangeAdded s t k fix adv) {a : Advice n} (e : Agrees t a) {i : ℕ} (hi : i < k)
    (j : ℕ) : a ⟨.range, j, s.range_offset + i⟩ = (adv i j).getD 0 := by
  rw [e.range _ _ (by rw [h.rangeOff]; omega), h.adv, if_pos (by omega), Nat.add_sub_cancel_left]

theorem newOk (k' : RangeAdded s t k fix adv) {c : Circuit n} {h : Advice n}
    (hr : ∀ i < k, c.RangeRow h (s.range_offset + i)) : NewOk c h s t where
  base r h1 h2 := by rw [k'.baseOff] at h2; omega
  range r h1 h2 := by
    rw [k'.rangeOff] at h2
    have := hr (r - s.range_offset) (by omega)
    rwa [Nat.add_sub_cancel' h1] at this
  select r h1 h2 := by rw [k'.selOff] at h2; omega
  copies := ⟨[], by rw [k'.perms, List.append_nil], by simp⟩

end RangeAdded

/-- Fixed cells of a one-line range value. -/
def fix1 (bits : ℕ) : ℕ → ℕ → Option (ZMod n)
  | 0, 0 => some 1
  | 0, 1 => some (bits : ZMod n)
  | _, _ => none
/-- Advice cells of a one-line range value. -/
def adv1 (v0 a : ZMod n) : ℕ → ℕ → Option (ZMod n)
  | 0, 0 => some a
  | 0, 1 => some v0
  | _, _ => none
/-- Fixed cells of a two-line range value. -/
def fix2 (t0 t1 : ℕ) : ℕ → ℕ → Option (ZMod n)
  | 0, 0 => some 2
  | 0, 1 => some (t0 : ZMod n)
  | 1, 1 => some (t1 : ZMod n)
  | _, _ => none
/-- Advice cells of a two-line range value. -/
def adv2 (v0 v1 v2 v3 a : ZMod n) : ℕ → ℕ → Option (ZMod n)
  | 0, 0 => some a
  | 0, 1 => some v2
  | 1, 1 => some v3
  | 0, 2 => some v0
  | 1, 2 => some v1
  | _, _ => none
/-- Fixed cells of a three-line range value. -/
def fix3 (t0 t1 t2 : ℕ) : ℕ → ℕ → Option (ZMod n)
  | 0, 0 => some 3
  | 0, 1 => some (t0 : ZMod n)
  | 1, 1 => some (t1 : ZMod n)
  | 2, 1 => some (t2 : ZMod n)
  | _, _ => none
/-- Advice cells of a three-line range value. -/
def adv3 (v0 v1 v2 v3 v4 v5 a : ZMod n) : ℕ → ℕ → Option (ZMod n)
  | 0, 0 => some a
  | 0, 1 => some v3
  | 1, 1 => some v4
  | 2, 1 => some v5
  | 0, 2 => some v0
  | 1, 2 => some v1
  | 2, 2 => some v2
  | _, _ => none

open Records in
theorem Records.ensure_inner (s : Records n) (o : ℕ) :
    (s.ensure_range_record_size o).inner = s.inner ∧
    (s.ensure_range_record_size o).permutations = s.permutations := by
  unfold ensure_range_record_size; split <;> exact ⟨rfl, rfl⟩

theorem cell_cases {o r k : ℕ} (hk : k ≤ 3) (h : o ≤ r ∧ r < o + k) :
    (r = o ∧ 0 < k) ∨ (r = o + 1 ∧ 1 < k) ∨ (r = o + 2 ∧ 2 < k) := by omega

theorem one_line_range_run {s : Context n} (hs : s.Fresh) {v : List (ZMod n)} {v0 a : ZMod n} {bits : ℕ}
    (hb : bits ≤ 18) (hv : v[0]? = some v0) :
    ∃ t, s.records.assign_one_line_range_value s.range_offset v a bits
      = .ok (⟨⟨.range, 0, s.range_offset⟩, a⟩, t) ∧
      RangeAdded s { s with records := t, range_offset := s.range_offset + 1 } 1 (fix1 bits) (adv1 v0 a) := by
  obtain ⟨e1, e2⟩ := s.records.ensure_inner (s.range_offset + 1)
  unfold Records.assign_one_line_range_value
  rw [if_neg (by simpa using hb), hv]
  refine ⟨_, rfl, rfl, rfl, rfl, ?_, ?_, ?_, ?_, ?_, ?_, ?_⟩
  · intro r j
    show setCell (setCell _ _ _ _) _ _ _ _ _ = _
    rw [e1]
    by_cases hr : s.range_offset ≤ r ∧ r < s.range_offset + 1
    · rw [if_pos hr]
      obtain rfl : r = s.range_offset := by omega
      rcases j with _ | _ | j <;>
        simp [setCell, fix1, hs.rangeFix, Records.AccLinesCol, Records.TagCol]
    · rw [if_neg hr]
      simp [setCell, show ¬ r = s.range_offset by omega]
  · intro r j
    show setCell (setCell _ _ _ _) _ _ _ _ _ = _
    show setCell (setCell (s.records.ensure_range_record_size _).inner.range_adv_record _ _ _) _ _ _ _ _ = _
    rw [e1]
    by_cases hr : s.range_offset ≤ r ∧ r < s.range_offset + 1
    · rw [if_pos hr]
      obtain rfl : r = s.range_offset := by omega
      rcases j with _ | _ | j <;>
        simp [setCell, adv1, hs.rangeAdv, Records.ValueAccCol, Records.TaggedRangeCol]
    · rw [if_neg hr]
      simp [setCell, show ¬ r = s.range_offset by omega]
  · show (s.records.ensure_range_record_size _).inner.base_fix_record = _; rw [e1]
  · show (s.records.ensure_range_record_size _).inner.base_adv_record = _; rw [e1]
  · show (s.records.ensure_range_record_size _).inner.select_fix_record = _; rw [e1]
  · show (s.records.ensure_range_record_size _).inner.select_adv_record = _; rw [e1]
  · exact e2

theorem two_line_range_run {s : Context n} (hs : s.Fresh) {v0 v1 v2 v3 a : ZMod n} {l : List (ZMod n)}
    {bits : ℕ} (hb : 36 ≤ bits) (hb' : bits ≤ 72) :
    ∃ t, s.records.assign_two_line_range_value s.range_offset (v0 :: v1 :: v2 :: v3 :: l) a bits
      = .ok (⟨⟨.range, 0, s.range_offset⟩, a⟩, t) ∧
      RangeAdded s { s with records := t, range_offset := s.range_offset + 2 } 2
        (fix2 (Records.two_line_tag0 bits) (Records.two_line_tag1 bits)) (adv2 v0 v1 v2 v3 a) := by
  obtain ⟨e1, e2⟩ := s.records.ensure_inner (s.range_offset + 2)
  unfold Records.assign_two_line_range_value
  rw [if_neg (by simp only [not_not]; show 18 * _ ≤ _; omega), if_neg (by simp only [not_not]; show _ ≤ 18 * _; omega)]
  refine ⟨_, rfl, rfl, rfl, rfl, ?_, ?_, ?_, ?_, ?_, ?_, ?_⟩
  · intro r j
    simp only [Records.assign_fix_cell_in_range_chip, Records.assign_adv_cell_in_range_chip, e1]
    by_cases hr : s.range_offset ≤ r ∧ r < s.range_offset + 2
    · rw [if_pos hr]
      rcases cell_cases (by omega) hr with ⟨rfl, _⟩ | ⟨rfl, _⟩ | ⟨_, _⟩
      · rcases j with _ | _ | j <;>
          simp [setCell, fix2, hs.rangeFix, Records.AccLinesCol, Records.TagCol, one_add_one_eq_two]
      · rcases j with _ | _ | j <;>
          simp [setCell, fix2, hs.rangeFix, Records.AccLinesCol, Records.TagCol]
      · omega
    · rw [if_neg hr]
      simp [setCell, show ¬ r = s.range_offset by omega, show ¬ r = s.range_offset + 1 by omega]
  · intro r j
    simp only [Records.assign_fix_cell_in_range_chip, Records.assign_adv_cell_in_range_chip, e1]
    by_cases hr : s.range_offset ≤ r ∧ r < s.range_offset + 2
    · rw [if_pos hr]
      rcases cell_cases (by omega) hr with ⟨rfl, _⟩ | ⟨rfl, _⟩ | ⟨_, _⟩
      · rcases j with _ | _ | _ | j <;>
          simp [setCell, adv2, hs.rangeAdv, Records.ValueAccCol, Records.TaggedRangeCol,
            Records.CommonRangeCol]
      · rcases j with _ | _ | _ | j <;>
          simp [setCell, adv2, hs.rangeAdv, Records.ValueAccCol, Records.TaggedRangeCol,
            Records.CommonRangeCol]
      · omega
    · rw [if_neg hr]
      simp [setCell, show ¬ r = s.range_offset by omega, show ¬ r = s.range_offset + 1 by omega]
  · simp only [Records.assign_fix_cell_in_range_chip, Records.assign_adv_cell_in_range_chip, e1]
  · simp only [Records.assign_fix_cell_in_range_chip, Records.assign_adv_cell_in_range_chip, e1]
  · simp only [Records.assign_fix_cell_in_range_chip, Records.assign_adv_cell_in_range_chip, e1]
  · simp only [Records.assign_fix_cell_in_range_chip, Records.assign_adv_cell_in_range_chip, e1]
  · simp only [Records.assign_fix_cell_in_range_chip, Records.assign_adv_cell_in_range_chip, e2]

theorem three_line_range_run {s : Context n} (hs : s.Fresh) {v0 v1 v2 v3 v4 v5 a : ZMod n}
    {l : List (ZMod n)} {bits : ℕ} (hb : 54 ≤ bits) (hb' : bits ≤ 108) :
    ∃ t, s.records.assign_three_line_range_value s.range_offset
        (v0 :: v1 :: v2 :: v3 :: v4 :: v5 :: l) a bits
      = .ok (⟨⟨.range, 0, s.range_offset⟩, a⟩, t) ∧
      RangeAdded s { s with records := t, range_offset := s.range_offset + 3 } 3
        (fix3 (Records.three_line_tag0 bits) (Records.three_line_tag1 bits)
          (Records.three_line_tag2 bits)) (adv3 v0 v1 v2 v3 v4 v5 a) := by
  obtain ⟨e1, e2⟩ := s.records.ensure_inner (s.range_offset + 3)
  unfold Records.assign_three_line_range_value
  rw [if_neg (by simp only [not_not]; show 18 * _ ≤ _; omega), if_neg (by simp only [not_not]; show _ ≤ 18 * _; omega)]
  refine ⟨_, rfl, rfl, rfl, rfl, ?_, ?_, ?_, ?_, ?_, ?_, ?_⟩
  · intro r j
    simp only [Records.assign_fix_cell_in_range_chip, Records.assign_adv_cell_in_range_chip, e1]
    by_cases hr : s.range_offset ≤ r ∧ r < s.range_offset + 3
    · rw [if_pos hr]
      rcases cell_cases (by omega) hr with ⟨rfl, _⟩ | ⟨rfl, _⟩ | ⟨rfl, _⟩
      all_goals
        rcases j with _ | _ | j <;>
          simp [setCell, fix3, hs.rangeFix, Records.AccLinesCol, Records.TagCol, one_add_one_eq_two,
            two_add_one_eq_three]
    · rw [if_neg hr]
      simp [setCell, show ¬ r = s.range_offset by omega, show ¬ r = s.range_offset + 1 by omega,
        show ¬ r = s.range_offset + 2 by omega]
  · intro r j
    simp only [Records.assign_fix_cell_in_range_chip, Records.assign_adv_cell_in_range_chip, e1]
    by_cases hr : s.range_offset ≤ r ∧ r < s.range_offset + 3
    · rw [if_pos hr]
      rcases cell_cases (by omega) hr with ⟨rfl, _⟩ | ⟨rfl, _⟩ | ⟨rfl, _⟩
      all_goals
        rcases j with _ | _ | _ | j <;>
          simp [setCell, adv3, hs.rangeAdv, Records.ValueAccCol, Records.TaggedRangeCol,
            Records.CommonRangeCol]
    · rw [if_neg hr]
      simp [setCell, show ¬ r = s.range_offset by omega, show ¬ r = s.range_offset + 1 by omega,
        show ¬ r = s.range_offset + 2 by omega]
  · simp only [Records.assign_fix_cell_in_range_chip, Records.assign_adv_cell_in_range_chip, e1]
  · simp only [Records.assign_fix_cell_in_range_chip, Records.assign_adv_cell_in_range_chip, e1]
  · simp only [Records.assign_fix_cell_in_range_chip, Records.assign_adv_cell_in_range_chip, e1]
  · simp only [Records.assign_fix_cell_in_range_chip, Records.assign_adv_cell_in_range_chip, e1]
  · simp only [Records.assign_fix_cell_in_range_chip, Records.assign_adv_cell_in_range_chip, e2]

end Verif
