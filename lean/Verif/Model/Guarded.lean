import Verif.Model.BaseChip
import Verif.Model.RangeChip
import Verif.Model.SelectChip
import Verif.Model.Parallel

/-!
# The writers with their guards

The rest of the model leaves out two ways the writers of `src/context.rs` can abort, because neither can happen with the
constants in the source and enough rows: the `SANITY_CHECK` assertions (compiled out, `src/context.rs:37`) and indexing
a record array past its end (the arrays have `HALO2ECC_S_MAX_ROWS` rows, `src/context.rs:257-273`). Here are the same
writers with both, for arbitrary values of the two constants.
-/

namespace Verif
variable {n : ℕ} {α : Type}

/-- The two constants: `SANITY_CHECK`, `src/context.rs:37`, and the length of the record arrays (`max_rows`,
`src/context.rs:257-261`), `none` for arrays that never end. -/
structure Guards where
  sanity_check : Bool
  max_rows : Option ℕ

namespace Guarded
variable (g : Guards)

/-- `v[row]` on a vector with `max_rows` elements. -/
def row_index (row : ℕ) : Except Panic Unit :=
  match g.max_rows with
  | none => pure ()
  | some k => if row < k then pure () else throw .indexOutOfBounds

/-- `if SANITY_CHECK { assert!(b) }`. -/
def check (b : Bool) : Except Panic Unit := if g.sanity_check && !b then throw .assertion else pure ()

/-- `old.is_none() || old == Some(val)`. -/
def unwritten (old : Option (ZMod n)) (v : ZMod n) : Bool := old.isNone || old == some v

/-- `enable_permute`, `src/context.rs:590-608`. The column of the cell is not checked (it is one of the chip's). -/
def enable_permute (s : Records n) (cell : Cell) : Except Panic (Records n) := do
  row_index g cell.row
  pure (s.enable_permute cell)

/-- `assign_adv_cell_in_base_chip`, `src/context.rs:610-620`. -/
def assign_adv_cell_in_base_chip (s : Records n) (offset col : ℕ) (v : ZMod n) : Except Panic (Records n) := do
  row_index g offset
  check g (unwritten (s.inner.base_adv_record offset col) v)
  pure (s.assign_adv_cell_in_base_chip offset col v)

/-- `assign_fix_cell_in_base_chip`, `src/context.rs:622-632`. -/
def assign_fix_cell_in_base_chip (s : Records n) (offset col : ℕ) (v : ZMod n) : Except Panic (Records n) := do
  row_index g offset
  check g (unwritten (s.inner.base_fix_record offset col) v)
  pure (s.assign_fix_cell_in_base_chip offset col v)

/-- `assign_adv_cell_in_range_chip`, `src/context.rs:803-815`. -/
def assign_adv_cell_in_range_chip (s : Records n) (offset col : ℕ) (v : ZMod n) : Except Panic (Records n) := do
  row_index g offset
  check g (unwritten (s.inner.range_adv_record offset col) v)
  pure (s.assign_adv_cell_in_range_chip offset col v)

/-- `assign_fix_cell_in_range_chip`, `src/context.rs:817-833`; `<=` on the field compares canonical representatives. -/
def assign_fix_cell_in_range_chip (s : Records n) (offset col : ℕ) (v : ZMod n) : Except Panic (Records n) := do
  if col = Records.AccLinesCol then check g (v == 1 || v == 2 || v == 3)
  else check g (v.val ≤ ((COMMON_RANGE_BITS : ℕ) : ZMod n).val)
  row_index g offset
  check g (unwritten (s.inner.range_fix_record offset col) v)
  pure (s.assign_fix_cell_in_range_chip offset col v)

/-- `assign_adv_cell_in_select_chip`, `src/context.rs:722-735`. -/
def assign_adv_cell_in_select_chip (s : Records n) (offset col : ℕ) (v : ZMod n) : Except Panic (Records n) := do
  row_index g offset
  check g (unwritten (s.inner.select_adv_record offset col) v)
  pure (s.assign_adv_cell_in_select_chip offset col v)

/-- `assign_fix_cell_in_select_chip`, `src/context.rs:737-747`. -/
def assign_fix_cell_in_select_chip (s : Records n) (offset col : ℕ) (v : ZMod n) : Except Panic (Records n) := do
  row_index g offset
  check g (unwritten (s.inner.select_fix_record offset col) v)
  pure (s.assign_fix_cell_in_select_chip offset col v)

/-- One iteration of the loop in `one_line`, `src/context.rs:649-663`, and the tail handling of
`one_line_with_last`, `src/context.rs:698-713`. -/
def line_cell (s : Records n) (offset i : ℕ) (base : ValueSchema n) (coeff : ZMod n) : Except Panic (Records n) := do
  let s ← match base.cell with
    | some cell => do
      let new_cell : Cell := ⟨.base, i, offset⟩
      let s ← enable_permute g s new_cell
      let s ← enable_permute g s cell
      pure { s with permutations := s.permutations ++ [(cell, new_cell)] }
    | none => pure s
  let s ← assign_adv_cell_in_base_chip g s offset i base.value
  assign_fix_cell_in_base_chip g s offset i coeff

/-- The loop of `one_line`, `src/context.rs:649-663`, from column `i` on. -/
def line_cells (s : Records n) (offset : ℕ) : ℕ → List (ValueSchema n × ZMod n) → Except Panic (Records n)
  | _, [] => pure s
  | i, (base, coeff) :: rest => do
    let s ← line_cell g s offset i base coeff
    line_cells s offset (i + 1) rest

/-- The loop over `mul_coeffs` in `one_line`, `src/context.rs:666-668`. -/
def mul_cells (s : Records n) (offset : ℕ) : ℕ → List (ZMod n) → Except Panic (Records n)
  | _, [] => pure s
  | i, k :: rest => do
    let s ← assign_fix_cell_in_base_chip g s offset (VAR_COLUMNS + i) k
    mul_cells s offset (i + 1) rest

/-- Write `v` to a fixed column, or assert that it is empty, `src/context.rs:670-682`. -/
def optional_cell (s : Records n) (offset col : ℕ) (v : Option (ZMod n)) : Except Panic (Records n) :=
  match v with
  | some v => assign_fix_cell_in_base_chip g s offset col v
  | none => do
    row_index g offset
    if (s.inner.base_fix_record offset col).isNone then pure s else throw .assertion

/-- `Records::one_line`, `src/context.rs:634-683`, with the simplification of `Records.one_line`. -/
def records_one_line (s : Records n) (offset : ℕ) (pairs : List (ValueSchema n × ZMod n))
    (constant : Option (ZMod n)) (mul : List (ZMod n)) (next : Option (ZMod n)) : Except Panic (Records n) := do
  if ¬ pairs.length ≤ VAR_COLUMNS then throw .assertion
  if ¬ mul.length ≤ MUL_COLUMNS then throw .indexOutOfBounds
  let s := if offset ≥ s.base_height then { s with base_height := offset + 1 } else s
  let s ← line_cells g s offset 0 pairs
  let s ← mul_cells g s offset 0 mul
  let s ← optional_cell g s offset (VAR_COLUMNS + MUL_COLUMNS) next
  optional_cell g s offset (VAR_COLUMNS + MUL_COLUMNS + 1) constant

/-- `Records::one_line_with_last`, `src/context.rs:685-714`. -/
def records_one_line_with_last (s : Records n) (offset : ℕ) (pairs : List (ValueSchema n × ZMod n))
    (tail : ValueSchema n × ZMod n) (constant : Option (ZMod n)) (mul : List (ZMod n))
    (next : Option (ZMod n)) : Except Panic (Records n) := do
  if ¬ pairs.length ≤ VAR_COLUMNS - 1 then throw .assertion
  let s ← records_one_line g s offset pairs constant mul next
  line_cell g s offset (VAR_COLUMNS - 1) tail.1 tail.2

open Records in
/-- `assign_one_line_range_value`, `src/context.rs:835-857`. -/
def assign_one_line_range_value (s : Records n) (offset : ℕ) (v : List (ZMod n)) (v_acc : ZMod n)
    (bits : ℕ) : Except Panic (AssignedValue n × Records n) := do
  if ¬ bits ≤ COMMON_RANGE_BITS then throw .assertion
  match v with
  | v0 :: _ =>
    let s := s.ensure_range_record_size (offset + 1)
    let s ← assign_fix_cell_in_range_chip g s offset AccLinesCol 1
    let s ← assign_fix_cell_in_range_chip g s offset TagCol (bits : ZMod n)
    let s ← assign_adv_cell_in_range_chip g s offset TaggedRangeCol v0
    let s ← assign_adv_cell_in_range_chip g s offset ValueAccCol v_acc
    pure (⟨⟨.range, ValueAccCol, offset⟩, v_acc⟩, s)
  | _ => throw .indexOutOfBounds

open Records in
/-- `assign_two_line_range_value`, `src/context.rs:859-907`. -/
def assign_two_line_range_value (s : Records n) (offset : ℕ) (v : List (ZMod n)) (v_acc : ZMod n)
    (bits : ℕ) : Except Panic (AssignedValue n × Records n) := do
  if ¬ bits ≥ COMMON_RANGE_BITS * 2 then throw .assertion
  if ¬ bits ≤ COMMON_RANGE_BITS * 4 then throw .assertion
  match v with
  | v0 :: v1 :: v2 :: v3 :: _ =>
    let s := s.ensure_range_record_size (offset + 2)
    let s ← assign_fix_cell_in_range_chip g s offset AccLinesCol (1 + 1)
    let s ← assign_adv_cell_in_range_chip g s offset CommonRangeCol v0
    let s ← assign_adv_cell_in_range_chip g s (offset + 1) CommonRangeCol v1
    let s ← assign_fix_cell_in_range_chip g s offset TagCol (two_line_tag0 bits : ZMod n)
    let s ← assign_adv_cell_in_range_chip g s offset TaggedRangeCol v2
    let s ← assign_fix_cell_in_range_chip g s (offset + 1) TagCol (two_line_tag1 bits : ZMod n)
    let s ← assign_adv_cell_in_range_chip g s (offset + 1) TaggedRangeCol v3
    let s ← assign_adv_cell_in_range_chip g s offset ValueAccCol v_acc
    pure (⟨⟨.range, ValueAccCol, offset⟩, v_acc⟩, s)
  | _ => throw .indexOutOfBounds

open Records in
/-- `assign_three_line_range_value`, `src/context.rs:909-972`. -/
def assign_three_line_range_value (s : Records n) (offset : ℕ) (v : List (ZMod n)) (v_acc : ZMod n)
    (bits : ℕ) : Except Panic (AssignedValue n × Records n) := do
  if ¬ bits ≥ COMMON_RANGE_BITS * 3 then throw .assertion
  if ¬ bits ≤ COMMON_RANGE_BITS * 6 then throw .assertion
  match v with
  | v0 :: v1 :: v2 :: v3 :: v4 :: v5 :: _ =>
    let s := s.ensure_range_record_size (offset + 3)
    let s ← assign_fix_cell_in_range_chip g s offset AccLinesCol (1 + 1 + 1)
    let s ← assign_adv_cell_in_range_chip g s offset CommonRangeCol v0
    let s ← assign_adv_cell_in_range_chip g s (offset + 1) CommonRangeCol v1
    let s ← assign_adv_cell_in_range_chip g s (offset + 2) CommonRangeCol v2
    let s ← assign_fix_cell_in_range_chip g s offset TagCol (three_line_tag0 bits : ZMod n)
    let s ← assign_adv_cell_in_range_chip g s offset TaggedRangeCol v3
    let s ← assign_fix_cell_in_range_chip g s (offset + 1) TagCol (three_line_tag1 bits : ZMod n)
    let s ← assign_adv_cell_in_range_chip g s (offset + 1) TaggedRangeCol v4
    let s ← assign_fix_cell_in_range_chip g s (offset + 2) TagCol (three_line_tag2 bits : ZMod n)
    let s ← assign_adv_cell_in_range_chip g s (offset + 2) TaggedRangeCol v5
    let s ← assign_adv_cell_in_range_chip g s offset ValueAccCol v_acc
    pure (⟨⟨.range, ValueAccCol, offset⟩, v_acc⟩, s)
  | _ => throw .indexOutOfBounds

/-- `assign_range_value`, `src/context.rs:974-997`; also returns the number of rows used. -/
def assign_range_value (s : Records n) (offset : ℕ) (v : List (ZMod n)) (v_acc : ZMod n)
    (bits : ℕ) : Except Panic ((AssignedValue n × ℕ) × Records n) :=
  if bits ≤ COMMON_RANGE_BITS then do
    let (a, s) ← assign_one_line_range_value g s offset v v_acc bits
    pure ((a, 1), s)
  else if bits < 2 * COMMON_RANGE_BITS then throw .unreachable
  else if bits ≤ 4 * COMMON_RANGE_BITS then do
    let (a, s) ← assign_two_line_range_value g s offset (Records.resize v 4) v_acc bits
    pure ((a, 2), s)
  else if bits ≤ 6 * COMMON_RANGE_BITS then do
    let (a, s) ← assign_three_line_range_value g s offset (Records.resize v 6) v_acc bits
    pure ((a, 3), s)
  else throw .unreachable

open Records in
/-- `Records::assign_cache_value`, `src/context.rs:749-767`. -/
def records_assign_cache_value (s : Records n) (offset : ℕ) (v : AssignedValue n) (encode : ZMod n) :
    Except Panic (Records n) := do
  let s := if offset ≥ s.select_height then { s with select_height := offset + 1 } else s
  let s ← assign_adv_cell_in_select_chip g s offset ValueCol v.val
  let idx : Cell := ⟨.select, ValueCol, offset⟩
  let s : Records n := { s with permutations := s.permutations ++ [(idx, v.cell)] }
  let s ← enable_permute g s idx
  let s ← enable_permute g s v.cell
  let s ← assign_fix_cell_in_select_chip g s offset EncodeCol encode
  assign_fix_cell_in_select_chip g s offset IsLookupCol 0

open Records in
/-- `Records::assign_select_value`, `src/context.rs:769-799`. -/
def records_assign_select_value (s : Records n) (offset : ℕ) (v : AssignedValue n) (encode : ZMod n)
    (selector : AssignedValue n) : Except Panic (AssignedValue n × Records n) := do
  let s := if offset ≥ s.select_height then { s with select_height := offset + 1 } else s
  let s ← assign_adv_cell_in_select_chip g s offset ValueCol v.val
  let s ← assign_adv_cell_in_select_chip g s offset SelectCol selector.val
  let selector_cell : Cell := ⟨.select, SelectCol, offset⟩
  let s : Records n := { s with permutations := s.permutations ++ [(selector_cell, selector.cell)] }
  let s ← enable_permute g s selector_cell
  let s ← enable_permute g s selector.cell
  let s ← assign_fix_cell_in_select_chip g s offset EncodeCol encode
  let s ← assign_fix_cell_in_select_chip g s offset IsLookupCol 1
  pure (⟨⟨.select, ValueCol, offset⟩, v.val⟩, s)

/-- `one_line`, `src/circuit/base_chip.rs:516-539`. -/
def one_line (pairs : List (ValueSchema n × ZMod n)) (constant : Option (ZMod n))
    (mul : List (ZMod n)) (next : Option (ZMod n)) : M n (List (AssignedValue n)) := fun s => do
  let records ← records_one_line g s.records s.base_offset pairs constant mul next
  pure (lineCells s.base_offset pairs, { s with records, base_offset := s.base_offset + 1 })

/-- `one_line_with_last`, `src/circuit/base_chip.rs:541-572`. -/
def one_line_with_last (pairs : List (ValueSchema n × ZMod n)) (last : ValueSchema n × ZMod n)
    (constant : Option (ZMod n)) (mul : List (ZMod n)) (next : Option (ZMod n)) :
    M n (List (AssignedValue n) × AssignedValue n) := fun s => do
  let records ← records_one_line_with_last g s.records s.base_offset pairs last constant mul next
  pure ((lineCells s.base_offset pairs, ⟨⟨.base, VAR_COLUMNS - 1, s.base_offset⟩, last.1.value⟩),
    { s with records, base_offset := s.base_offset + 1 })

/-- The common part of the limb assignments, `src/circuit/range_chip.rs:307-315` and similar. -/
def assign_range (v : ZMod n × List (ZMod n)) (bits : ℕ) : M n (AssignedValue n) := fun s => do
  let ((res, offset_increase), records) ← assign_range_value g s.records s.range_offset v.2 v.1 bits
  pure (res, { s with records, range_offset := s.range_offset + offset_increase })

/-- `assign_common`, `src/circuit/range_chip.rs:287-298`. -/
def assign_common (bn : ℕ) : M n (AssignedValue n) := fun s => do
  let (res, records) ← assign_one_line_range_value g s.records s.range_offset [(bn : ZMod n)] (bn : ZMod n)
    COMMON_RANGE_BITS
  pure (res, { s with records, range_offset := s.range_offset + 1 })

/-- `assign_cache_value`, `src/circuit/select_chip.rs:129-143`. -/
def assign_cache_value (v : AssignedValue n) (offset group_index selector : ℕ) : M n Unit := fun s => do
  let records ← records_assign_cache_value g s.records s.select_offset v (encode_offset n group_index selector offset)
  pure ((), { s with records, select_offset := s.select_offset + 1 })

/-- `assign_selected_value`, `src/circuit/select_chip.rs:144-161`. -/
def assign_selected_value (v : AssignedValue n) (offset group_index : ℕ) (selector : AssignedValue n) :
    M n (AssignedValue n) := fun s => do
  let (res, records) ← records_assign_select_value g s.records s.select_offset v
    (encode_offset n group_index 0 offset) selector
  pure (res, { s with records, select_offset := s.select_offset + 1 })

end Guarded

/-- `check_row_has_some`, `src/context.rs:81-125`: panic if a row below the offset of its chip has no fixed value.
`VAR_COLUMNS + MUL_COLUMNS + 2` is `FIXED_COLUMNS`, `src/circuit/base_chip.rs:16`; the printing is left out. -/
def check_row_has_some : M n Unit := fun s => do
  let rows (offset cols : ℕ) (record : ℕ → ℕ → Option (ZMod n)) : Except Panic Unit :=
    if (List.range offset).all fun i => (List.range cols).any fun j => (record i j).isSome then pure ()
    else throw .assertion
  rows s.base_offset (VAR_COLUMNS + MUL_COLUMNS + 2) s.records.inner.base_fix_record
  rows s.range_offset 2 s.records.inner.range_fix_record
  rows s.select_offset 2 s.records.inner.select_fix_record
  pure ((), s)

end Verif
