import Verif.Model.Core

/-!
# Synthesis of the recorded circuit

Model of `src/context.rs:309-588`: how the records are handed to the constraint system. What is assigned is collected in a
`Layout`; the errors of the constraint system itself (too few rows) are not modelled. `max_rows` is the length of the
record vectors (`src/context.rs:36, 257-261`).
-/

namespace Verif
variable {n : ℕ}

/-- What has been assigned: advice and fixed cells, and copy constraints. -/
structure Layout (n : ℕ) where
  adv : Chip → ℕ → ℕ → Option (ZMod n)
  fix : Chip → ℕ → ℕ → Option (ZMod n)
  copies : List (Cell × Cell)

/-- The advice columns of one chip: what is assigned, and the cells remembered for copy constraints (`cells`), of which
there are `height` per column. -/
structure ChipLayout (n : ℕ) where
  adv : ℕ → ℕ → Option (ZMod n)
  fix : ℕ → ℕ → Option (ZMod n)
  cols : ℕ
  height : ℕ
  cells : ℕ → ℕ → Bool

/-- `chunk_size`, `src/context.rs:328` and `417`: both computed from the height of the base chip. -/
def chunk_size (s : Records n) : ℕ := (s.base_height + 16 - 1) / 16
/-- `chunk_num`, `src/context.rs:329` and `418`. -/
def chunk_num (s : Records n) : ℕ := chunk_size s * 16

/-- The rows visited by `par_chunks(chunk_size).take(chunk_num)`, `src/context.rs:330-337` and `419-426`. -/
def visited (s : Records n) (max_rows row : ℕ) : Bool := row < max_rows && row < chunk_size s * chunk_num s

/-- `_assign_to_base_chip`, `src/context.rs:310-383`. `par_chunks(0)` panics. The `cells` are written through a raw
pointer: a row that is not below the height would be written outside of the vector, which counts as a panic here. -/
def _assign_to_base_chip (s : Records n) (max_rows : ℕ) : Except Panic (ChipLayout n) := do
  if chunk_size s = 0 then throw .assertion
  if (List.range max_rows).any fun row => s.base_height ≤ row && visited s max_rows row &&
      (List.range VAR_COLUMNS).any fun col =>
        (s.inner.base_adv_record row col).isSome && s.inner.permute_flag ⟨.base, col, row⟩ then
    throw .indexOutOfBounds
  pure {
    adv := fun row col => if visited s max_rows row then s.inner.base_adv_record row col else none
    fix := fun row col => if row < max_rows ∧ row < s.base_height then s.inner.base_fix_record row col else none
    cols := VAR_COLUMNS
    height := s.base_height
    cells := fun col row => visited s max_rows row && (s.inner.base_adv_record row col).isSome &&
      s.inner.permute_flag ⟨.base, col, row⟩ }

/-- `_assign_to_range_chip`, `src/context.rs:385-453`. The chunks have the size computed from the height of the base
chip. -/
def _assign_to_range_chip (s : Records n) (max_rows : ℕ) : Except Panic (ChipLayout n) := do
  if chunk_size s = 0 then throw .assertion
  if (List.range max_rows).any fun row => s.range_height ≤ row && visited s max_rows row &&
      (List.range 3).any fun col =>
        (s.inner.range_adv_record row col).isSome && s.inner.permute_flag ⟨.range, col, row⟩ then
    throw .indexOutOfBounds
  pure {
    adv := fun row col => if visited s max_rows row then s.inner.range_adv_record row col else none
    fix := fun row col => if row < max_rows ∧ row < s.range_height + 1 then s.inner.range_fix_record row col else none
    cols := 3
    height := s.range_height
    cells := fun col row => visited s max_rows row && (s.inner.range_adv_record row col).isSome &&
      s.inner.permute_flag ⟨.range, col, row⟩ }

/-- `_assign_to_select_chip`, `src/context.rs:455-521`. The loops visit one row more than `cells` has. -/
def _assign_to_select_chip (s : Records n) (max_rows : ℕ) : Except Panic (ChipLayout n) := do
  if s.select_height < max_rows && (List.range 2).any fun col =>
      (s.inner.select_adv_record s.select_height col).isSome && s.inner.permute_flag ⟨.select, col, s.select_height⟩ then
    throw .indexOutOfBounds
  pure {
    adv := fun row col => if row < max_rows ∧ row < s.select_height + 1 then s.inner.select_adv_record row col else none
    fix := fun row col => if row < max_rows ∧ row < s.select_height + 1 then s.inner.select_fix_record row col else none
    cols := 4
    height := s.select_height
    cells := fun col row => row < max_rows && row < s.select_height + 1 && col < 2 &&
      (s.inner.select_adv_record row col).isSome && s.inner.permute_flag ⟨.select, col, row⟩ }

/-- `cells[region][col][row].as_ref().unwrap()`, `src/context.rs:529-536`. -/
def lookup_cell (c : ChipLayout n) (col row : ℕ) : Except Panic Unit :=
  if ¬ (col < c.cols ∧ row < c.height) then .error .indexOutOfBounds
  else if c.cells col row then .ok () else .error .unwrapNone

/-- `_assign_permutation`, `src/context.rs:523-543`. -/
def _assign_permutation (of : Chip → ChipLayout n) : List (Cell × Cell) → Except Panic (List (Cell × Cell))
  | [] => .ok []
  | (left, right) :: rest => do
    lookup_cell (of left.region) left.col left.row
    lookup_cell (of right.region) right.col right.row
    let l ← _assign_permutation of rest
    pure ((left, right) :: l)

/-- `assign_all`, `src/context.rs:575-588`. -/
def assign_all (s : Records n) (max_rows : ℕ) : Except Panic (Layout n) := do
  let b ← _assign_to_base_chip s max_rows
  let r ← _assign_to_range_chip s max_rows
  let c ← _assign_to_select_chip s max_rows
  let of : Chip → ChipLayout n := fun | .base => b | .range => r | .select => c
  let copies ← _assign_permutation of s.permutations
  pure ⟨fun chip => (of chip).adv, fun chip => (of chip).fix, copies⟩

/-- `assign_all_with_optional_select_chip` without a select chip, `src/context.rs:556-573`: the select columns are not
assigned, and there is no `cells` entry for the select chip. -/
def assign_all_without_select (s : Records n) (max_rows : ℕ) : Except Panic (Layout n) := do
  let b ← _assign_to_base_chip s max_rows
  let r ← _assign_to_range_chip s max_rows
  let c : ChipLayout n := ⟨fun _ _ => none, fun _ _ => none, 0, 0, fun _ _ => false⟩
  if ¬ s.select_height = 0 then throw .assertion
  let of : Chip → ChipLayout n := fun | .base => b | .range => r | .select => c
  let copies ← _assign_permutation of s.permutations
  pure ⟨fun chip => (of chip).adv, fun chip => (of chip).fix, copies⟩

end Verif
