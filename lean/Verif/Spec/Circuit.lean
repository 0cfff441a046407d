import Verif.Model.Core

/-!
# What a recorded circuit means

The halo2 reading of the recorded circuit, independent of how it was recorded: gates and lookups hold on
every usable row, unassigned fixed cells are 0, copy constraints identify cells, and the advice assignment
is chosen freely by the prover.
-/

namespace Verif

/-- The part of a synthesized circuit that is fixed at key generation. -/
structure Circuit (n : ℕ) where
  /-- number of usable rows: gates and lookups are enforced on rows `< usable` -/
  usable : ℕ
  baseFix : ℕ → ℕ → ZMod n
  rangeFix : ℕ → ℕ → ZMod n
  selFix : ℕ → ℕ → ZMod n
  copies : List (Cell × Cell)

/-- An advice assignment (chosen by the prover). -/
abbrev Advice (n : ℕ) := Cell → ZMod n

namespace Circuit
variable {n : ℕ} (c : Circuit n) (w : Advice n)

/-- The base gate, `src/circuit/base_chip.rs:50-69`.
Fixed columns: 0-4 `coeff`, 5-6 `mul_coeff`, 7 `next_coeff`, 8 `constant`. -/
def baseGate (r : ℕ) : ZMod n :=
  c.baseFix r 8 + w ⟨.base, 4, r + 1⟩ * c.baseFix r 7
    + w ⟨.base, 0, r⟩ * c.baseFix r 0
    + w ⟨.base, 1, r⟩ * c.baseFix r 1
    + w ⟨.base, 2, r⟩ * c.baseFix r 2
    + w ⟨.base, 3, r⟩ * c.baseFix r 3
    + w ⟨.base, 4, r⟩ * c.baseFix r 4
    + w ⟨.base, 0, r⟩ * w ⟨.base, 1, r⟩ * c.baseFix r 5
    + w ⟨.base, 2, r⟩ * w ⟨.base, 3, r⟩ * c.baseFix r 6

/-- Membership in the range table, `src/circuit/range_chip.rs:230-257`:
all pairs `(tag, value)` with `tag ≤ 18` and `value < 2 ^ tag`. -/
def inRangeTable (tag value : ZMod n) : Prop :=
  ∃ t v : ℕ, t ≤ COMMON_RANGE_BITS ∧ v < 2 ^ t ∧ tag = (t : ZMod n) ∧ value = (v : ZMod n)

/-- `acc value check one line`, `src/circuit/range_chip.rs:139-154`. -/
def rangeGate1 (r : ℕ) : ZMod n :=
  (w ⟨.range, 0, r⟩ - w ⟨.range, 1, r⟩) * c.rangeFix r 0
    * (c.rangeFix r 0 - 2) * (c.rangeFix r 0 - 3)

/-- `acc value check two lines`, `src/circuit/range_chip.rs:156-187`. -/
def rangeGate2 (r : ℕ) : ZMod n :=
  (w ⟨.range, 0, r⟩ - w ⟨.range, 2, r⟩ - w ⟨.range, 2, r + 1⟩ * 2 ^ 18
    - w ⟨.range, 1, r⟩ * 2 ^ 36 - w ⟨.range, 1, r + 1⟩ * 2 ^ 54) * c.rangeFix r 0
    * (c.rangeFix r 0 - 1) * (c.rangeFix r 0 - 3)

/-- `acc value check three lines`, `src/circuit/range_chip.rs:189-220`. -/
def rangeGate3 (r : ℕ) : ZMod n :=
  (w ⟨.range, 0, r⟩ - w ⟨.range, 2, r⟩ - w ⟨.range, 2, r + 1⟩ * 2 ^ 18
    - w ⟨.range, 2, r + 2⟩ * 2 ^ 36 - w ⟨.range, 1, r⟩ * 2 ^ 54 - w ⟨.range, 1, r + 1⟩ * 2 ^ 72
    - w ⟨.range, 1, r + 2⟩ * 2 ^ 90) * c.rangeFix r 0
    * (c.rangeFix r 0 - 1) * (c.rangeFix r 0 - 2)

/-- The constraints of row `r` of the range chip, `src/circuit/range_chip.rs:118-220`. -/
structure RangeRow (r : ℕ) : Prop where
  tagged : inRangeTable (c.rangeFix r 1) (w ⟨.range, 1, r⟩)
  common : inRangeTable (n := n) (COMMON_RANGE_BITS : ℕ) (w ⟨.range, 2, r⟩)
  one : c.rangeGate1 w r = 0
  two : c.rangeGate2 w r = 0
  three : c.rangeGate3 w r = 0

/-- The select-chip lookup of row `r`, `src/circuit/select_chip.rs:71-90`:
`(limb_info, selector * 2^128 + encoded_offset, 0)` occurs among the triples
`(limb_info, encoded_offset, is_lookup)` of the usable rows. -/
def SelectRow (r : ℕ) : Prop :=
  ∃ t, t < c.usable ∧ w ⟨.select, 0, r⟩ = w ⟨.select, 0, t⟩ ∧
    w ⟨.select, 1, r⟩ * 2 ^ 128 + c.selFix r 0 = c.selFix t 0 ∧ (0 : ZMod n) = c.selFix t 1

/-- The advice assignment `w` satisfies the circuit `c`. -/
structure Sat : Prop where
  base : ∀ r < c.usable, c.baseGate w r = 0
  range : ∀ r < c.usable, c.RangeRow w r
  select : ∀ r < c.usable, c.SelectRow w r
  copy : ∀ p ∈ c.copies, w p.1 = w p.2

/-- Row `r` carries the fixed cells written by `assign_bit` (and `assert_bit`): the gate reads
`x₀ - x₀ * x₁ = 0`. -/
def BitRow (r : ℕ) : Prop :=
  c.baseFix r 0 = 1 ∧ c.baseFix r 5 = -1 ∧ ∀ k, k ≠ 0 → k ≠ 5 → c.baseFix r k = 0

/-- The hypothesis missing from `assign_bit`: in every such row the two cells hold the same value. (The code
forgets the copy constraint; `assert_bit` has it.) -/
def BitRowsConsistent : Prop :=
  ∀ r < c.usable, c.BitRow r → w ⟨.base, 0, r⟩ = w ⟨.base, 1, r⟩

end Circuit

namespace Context
variable {n : ℕ}

/-- The circuit recorded in a context, on `usable` rows: unassigned fixed cells are 0. -/
def circuit (s : Context n) (usable : ℕ) : Circuit n where
  usable := usable
  baseFix r c := (s.records.inner.base_fix_record r c).getD 0
  rangeFix r c := (s.records.inner.range_fix_record r c).getD 0
  selFix r c := (s.records.inner.select_fix_record r c).getD 0
  copies := s.records.permutations

/-- The advice assignment recorded in a context (the honest witness): unassigned advice cells are 0. -/
def honest (s : Context n) : Advice n := fun c =>
  match c.region with
  | .base => (s.records.inner.base_adv_record c.row c.col).getD 0
  | .range => (s.records.inner.range_adv_record c.row c.col).getD 0
  | .select => (s.records.inner.select_adv_record c.row c.col).getD 0

/-- All rows used by the context are usable rows. -/
structure Fits (s : Context n) (usable : ℕ) : Prop where
  base : s.base_offset ≤ usable
  range : s.range_offset ≤ usable
  select : s.select_offset ≤ usable

/-- No row at or above the offsets has been written. Holds of `Context.new` and is preserved by every
operation. -/
structure Fresh (s : Context n) : Prop where
  baseFix : ∀ r c, s.base_offset ≤ r → s.records.inner.base_fix_record r c = none
  baseAdv : ∀ r c, s.base_offset ≤ r → s.records.inner.base_adv_record r c = none
  rangeFix : ∀ r c, s.range_offset ≤ r → s.records.inner.range_fix_record r c = none
  rangeAdv : ∀ r c, s.range_offset ≤ r → s.records.inner.range_adv_record r c = none
  selFix : ∀ r c, s.select_offset ≤ r → s.records.inner.select_fix_record r c = none
  selAdv : ∀ r c, s.select_offset ≤ r → s.records.inner.select_adv_record r c = none

/-- `s.Embeds c`: the constraints recorded in `s` are part of the circuit `c`. (`c` may contain more,
because more operations follow.) -/
structure Embeds (s : Context n) (c : Circuit n) : Prop where
  fits : s.Fits c.usable
  base : ∀ r k, r < s.base_offset → c.baseFix r k = (s.records.inner.base_fix_record r k).getD 0
  range : ∀ r k, r < s.range_offset → c.rangeFix r k = (s.records.inner.range_fix_record r k).getD 0
  select : ∀ r k, r < s.select_offset → c.selFix r k = (s.records.inner.select_fix_record r k).getD 0
  copies : ∀ p ∈ s.records.permutations, p ∈ c.copies

end Context

end Verif
