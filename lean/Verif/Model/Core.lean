import Mathlib.Data.ZMod.Basic
import Mathlib.Algebra.Field.ZMod

/-!
# Context and records

Model of `src/assign.rs` and `src/context.rs`.

* The native field `N` is `ZMod n`.
* The vectors of `RecordsInner` (one array per row, `MAX_ROWS` rows) are total functions
  `row → column → Option`, unassigned cells being `none`; the row limit `MAX_ROWS` is not modelled.
* The `bool` stored next to every advice value (`true` = "the cell takes part in a copy constraint")
  is kept in a separate function `permute_flag`.
* A Rust panic is `Except.error`.
-/

namespace Verif

/-- `src/assign.rs:5-10`. -/
inductive Chip where
  | base
  | range
  | select
deriving DecidableEq, Repr

/-- `src/assign.rs:12-17`. -/
structure Cell where
  region : Chip
  col : ℕ
  row : ℕ
deriving DecidableEq, Repr

/-- `src/assign.rs:25-29`. -/
structure AssignedValue (n : ℕ) where
  cell : Cell
  val : ZMod n

/-- `AssignedCondition`, `src/assign.rs:84-85`: a newtype around `AssignedValue`; the model uses the
underlying value directly. -/
abbrev AssignedCondition (n : ℕ) := AssignedValue n

/-- `AssignedInteger`, `src/assign.rs:31-37` (the phantom type `W` is dropped). -/
structure AssignedInteger (n : ℕ) where
  limbs_le : List (AssignedValue n)
  native : AssignedValue n
  times : ℕ

/-- `src/assign.rs:123-127`. -/
inductive ValueSchema (n : ℕ) where
  | assigned (v : AssignedValue n)
  | unassigned (v : ZMod n)

namespace ValueSchema
variable {n : ℕ}

/-- `ValueSchema::value`, `src/assign.rs:130-135`. -/
def value : ValueSchema n → ZMod n
  | assigned v => v.val
  | unassigned v => v

/-- `ValueSchema::cell`, `src/assign.rs:137-142`. -/
def cell : ValueSchema n → Option Cell
  | assigned v => some v.cell
  | unassigned _ => none

/-- `From<N>`, `src/assign.rs:152-156` (the `pair!` macro on a field element). -/
instance : Coe (ZMod n) (ValueSchema n) := ⟨unassigned⟩

/-- `From<&AssignedValue>`, `src/assign.rs:158-162` (the `pair!` macro on an assigned value). -/
instance : Coe (AssignedValue n) (ValueSchema n) := ⟨assigned⟩

end ValueSchema

/-- The ways a Rust run can abort. -/
inductive Panic where
  | assertion
  | unwrapNone
  | indexOutOfBounds
  | unreachable
  | underflow
  | divByZero
  | overflow
deriving DecidableEq, Repr

/-- `VAR_COLUMNS`, `src/circuit/base_chip.rs:14`. -/
abbrev VAR_COLUMNS : ℕ := 5
/-- `MUL_COLUMNS`, `src/circuit/base_chip.rs:15`. -/
abbrev MUL_COLUMNS : ℕ := 2
/-- `COMMON_RANGE_BITS`, `src/circuit/range_chip.rs:23-24`. -/
abbrev COMMON_RANGE_BITS : ℕ := 18

/-- `RecordsInner`, `src/context.rs:241-252`. -/
structure RecordsInner (n : ℕ) where
  base_adv_record : ℕ → ℕ → Option (ZMod n)
  base_fix_record : ℕ → ℕ → Option (ZMod n)
  range_adv_record : ℕ → ℕ → Option (ZMod n)
  range_fix_record : ℕ → ℕ → Option (ZMod n)
  select_adv_record : ℕ → ℕ → Option (ZMod n)
  select_fix_record : ℕ → ℕ → Option (ZMod n)
  /-- the `bool` components of the `*_adv_record`s -/
  permute_flag : Cell → Bool

/-- `Records`, `src/context.rs:294-301`. `permutations` is in push order. -/
structure Records (n : ℕ) where
  inner : RecordsInner n
  base_height : ℕ
  range_height : ℕ
  select_height : ℕ
  permutations : List (Cell × Cell)

/-- `Context`, `src/context.rs:41-46`. -/
structure Context (n : ℕ) where
  records : Records n
  base_offset : ℕ
  range_offset : ℕ
  select_offset : ℕ

/-- `RecordsInner::default`, `src/context.rs:254-292`. -/
def RecordsInner.default (n : ℕ) : RecordsInner n where
  base_adv_record _ _ := none
  base_fix_record _ _ := none
  range_adv_record _ _ := none
  range_fix_record _ _ := none
  select_adv_record _ _ := none
  select_fix_record _ _ := none
  permute_flag _ := false

/-- `Context::new`, `src/context.rs:136-143`. -/
def Context.new (n : ℕ) : Context n where
  records := ⟨RecordsInner.default n, 0, 0, 0, []⟩
  base_offset := 0
  range_offset := 0
  select_offset := 0

/-- Operations on a context that may panic. -/
abbrev M (n : ℕ) := StateT (Context n) (Except Panic)

/-- A Rust `panic!`. -/
def panic {n : ℕ} {α : Type} (p : Panic) : M n α := fun _ => .error p

/-- `assert!(b)`. -/
def rassert {n : ℕ} (b : Bool) : M n Unit := if b then pure () else panic .assertion

/-- The overflow check on a `u64` computed by addition or multiplication, as in builds with debug assertions. (Builds
without them wrap around instead; `C68_no_overflow` shows that the check never fails, so they compute the same.) -/
def fits_u64 {n : ℕ} (x : ℕ) : M n Unit := if x < 2 ^ 64 then pure () else panic .overflow

/-- Small numbers pass the check. -/
theorem lt_u64 {x : ℕ} (h : x < 4096) : x < 2 ^ 64 := Nat.lt_trans h (by decide)

/-- `Option::unwrap`. -/
def unwrap {n : ℕ} {α : Type} : Option α → M n α
  | some a => pure a
  | none => panic .unwrapNone

/-- `v[i]` on a Rust vector. -/
def index {n : ℕ} {α : Type} (l : List α) (i : ℕ) : M n α :=
  match l[i]? with
  | some a => pure a
  | none => panic .indexOutOfBounds

/-- Write one cell of a record. -/
def setCell {α : Type} (m : ℕ → ℕ → Option α) (row col : ℕ) (v : α) : ℕ → ℕ → Option α :=
  fun r c => if r = row ∧ c = col then some v else m r c

namespace Records
variable {n : ℕ}

/-- `enable_permute`, `src/context.rs:590-610`. -/
def enable_permute (s : Records n) (cell : Cell) : Records n :=
  { s with inner := { s.inner with
      permute_flag := fun c => if c = cell then true else s.inner.permute_flag c } }

/-- `assign_adv_cell_in_base_chip`, `src/context.rs:610-620` (`SANITY_CHECK` is `false`, l. 37). -/
def assign_adv_cell_in_base_chip (s : Records n) (offset col : ℕ) (v : ZMod n) : Records n :=
  { s with inner := { s.inner with
      base_adv_record := setCell s.inner.base_adv_record offset col v } }

/-- `assign_fix_cell_in_base_chip`, `src/context.rs:622-632`. -/
def assign_fix_cell_in_base_chip (s : Records n) (offset col : ℕ) (v : ZMod n) : Records n :=
  { s with inner := { s.inner with
      base_fix_record := setCell s.inner.base_fix_record offset col v } }

/-- One iteration of the loop in `one_line`, `src/context.rs:649-663`, and the tail handling of
`one_line_with_last`, `src/context.rs:698-713`: record the copy constraint of an already assigned
value, the advice value and the coefficient. -/
def line_cell (s : Records n) (offset i : ℕ) (base : ValueSchema n) (coeff : ZMod n) : Records n :=
  let s := match base.cell with
    | some cell =>
      let new_cell : Cell := ⟨.base, i, offset⟩
      let s := s.enable_permute new_cell
      let s := s.enable_permute cell
      { s with permutations := s.permutations ++ [(cell, new_cell)] }
    | none => s
  let s := s.assign_adv_cell_in_base_chip offset i base.value
  s.assign_fix_cell_in_base_chip offset i coeff

/-- The loop of `one_line`, `src/context.rs:649-663`, from column `i` on. -/
def line_cells (s : Records n) (offset : ℕ) : ℕ → List (ValueSchema n × ZMod n) → Records n
  | _, [] => s
  | i, (base, coeff) :: rest => line_cells (s.line_cell offset i base coeff) offset (i + 1) rest

/-- The loop over `mul_coeffs` in `one_line`, `src/context.rs:666-668`. -/
def mul_cells (s : Records n) (offset : ℕ) : ℕ → List (ZMod n) → Records n
  | _, [] => s
  | i, k :: rest =>
    mul_cells (s.assign_fix_cell_in_base_chip offset (VAR_COLUMNS + i) k) offset (i + 1) rest

/-- `one_line`, `src/context.rs:634-683`.  Simplification: more than `MUL_COLUMNS` multiplication
coefficients are rejected (Rust would write into the neighbouring fixed columns; no caller does). -/
def one_line (s : Records n) (offset : ℕ) (pairs : List (ValueSchema n × ZMod n))
    (constant : Option (ZMod n)) (mul : List (ZMod n)) (next : Option (ZMod n)) :
    Except Panic (Records n) := do
  if ¬ pairs.length ≤ VAR_COLUMNS then throw .assertion
  if ¬ mul.length ≤ MUL_COLUMNS then throw .indexOutOfBounds
  let s := if offset ≥ s.base_height then { s with base_height := offset + 1 } else s
  let s := s.line_cells offset 0 pairs
  let s := s.mul_cells offset 0 mul
  let s ← match next with
    | some v => pure (s.assign_fix_cell_in_base_chip offset (VAR_COLUMNS + MUL_COLUMNS) v)
    | none =>
      if (s.inner.base_fix_record offset (VAR_COLUMNS + MUL_COLUMNS)).isNone then pure s
      else throw .assertion
  match constant with
    | some v => pure (s.assign_fix_cell_in_base_chip offset (VAR_COLUMNS + MUL_COLUMNS + 1) v)
    | none =>
      if (s.inner.base_fix_record offset (VAR_COLUMNS + MUL_COLUMNS + 1)).isNone then pure s
      else throw .assertion

/-- `one_line_with_last`, `src/context.rs:685-714`. -/
def one_line_with_last (s : Records n) (offset : ℕ) (pairs : List (ValueSchema n × ZMod n))
    (tail : ValueSchema n × ZMod n) (constant : Option (ZMod n)) (mul : List (ZMod n))
    (next : Option (ZMod n)) : Except Panic (Records n) := do
  if ¬ pairs.length ≤ VAR_COLUMNS - 1 then throw .assertion
  let s ← s.one_line offset pairs constant mul next
  pure (s.line_cell offset (VAR_COLUMNS - 1) tail.1 tail.2)

/-- `ensure_range_record_size`, `src/context.rs:716-720`. -/
def ensure_range_record_size (s : Records n) (offset : ℕ) : Records n :=
  if offset ≥ s.range_height then { s with range_height := offset + 1 } else s

/-- `assign_adv_cell_in_range_chip`, `src/context.rs:803-815`. -/
def assign_adv_cell_in_range_chip (s : Records n) (offset col : ℕ) (v : ZMod n) : Records n :=
  { s with inner := { s.inner with
      range_adv_record := setCell s.inner.range_adv_record offset col v } }

/-- `assign_fix_cell_in_range_chip`, `src/context.rs:817-833`. -/
def assign_fix_cell_in_range_chip (s : Records n) (offset col : ℕ) (v : ZMod n) : Records n :=
  { s with inner := { s.inner with
      range_fix_record := setCell s.inner.range_fix_record offset col v } }

/-- `RangeAdvColIndex`, `src/circuit/range_chip.rs:81-86`. -/
abbrev ValueAccCol : ℕ := 0
abbrev TaggedRangeCol : ℕ := 1
abbrev CommonRangeCol : ℕ := 2
/-- `RangeFixColIndex`, `src/circuit/range_chip.rs:88-92`. -/
abbrev AccLinesCol : ℕ := 0
abbrev TagCol : ℕ := 1

/-- `assign_one_line_range_value`, `src/context.rs:835-857`. -/
def assign_one_line_range_value (s : Records n) (offset : ℕ) (v : List (ZMod n)) (v_acc : ZMod n)
    (bits : ℕ) : Except Panic (AssignedValue n × Records n) := do
  if ¬ bits ≤ COMMON_RANGE_BITS then throw .assertion
  let v0 ← (match v[0]? with | some x => pure x | none => throw .indexOutOfBounds)
  let s := s.ensure_range_record_size (offset + 1)
  let s := s.assign_fix_cell_in_range_chip offset AccLinesCol 1
  let s := s.assign_fix_cell_in_range_chip offset TagCol (bits : ZMod n)
  let s := s.assign_adv_cell_in_range_chip offset TaggedRangeCol v0
  let s := s.assign_adv_cell_in_range_chip offset ValueAccCol v_acc
  pure (⟨⟨.range, ValueAccCol, offset⟩, v_acc⟩, s)

/-- Tag of the first tagged cell of a two-line range value, `src/context.rs:879-883`. -/
def two_line_tag0 (bits : ℕ) : ℕ :=
  if bits ≥ 3 * COMMON_RANGE_BITS then COMMON_RANGE_BITS else bits % COMMON_RANGE_BITS
/-- Tag of the second tagged cell of a two-line range value, `src/context.rs:887-891`. -/
def two_line_tag1 (bits : ℕ) : ℕ :=
  if bits > 3 * COMMON_RANGE_BITS then bits - 3 * COMMON_RANGE_BITS else 0

/-- `assign_two_line_range_value`, `src/context.rs:859-907`. -/
def assign_two_line_range_value (s : Records n) (offset : ℕ) (v : List (ZMod n)) (v_acc : ZMod n)
    (bits : ℕ) : Except Panic (AssignedValue n × Records n) := do
  if ¬ bits ≥ COMMON_RANGE_BITS * 2 then throw .assertion
  if ¬ bits ≤ COMMON_RANGE_BITS * 4 then throw .assertion
  match v with
  | v0 :: v1 :: v2 :: v3 :: _ =>
    let s := s.ensure_range_record_size (offset + 2)
    let s := s.assign_fix_cell_in_range_chip offset AccLinesCol (1 + 1)
    let s := s.assign_adv_cell_in_range_chip offset CommonRangeCol v0
    let s := s.assign_adv_cell_in_range_chip (offset + 1) CommonRangeCol v1
    let s := s.assign_fix_cell_in_range_chip offset TagCol (two_line_tag0 bits : ZMod n)
    let s := s.assign_adv_cell_in_range_chip offset TaggedRangeCol v2
    let s := s.assign_fix_cell_in_range_chip (offset + 1) TagCol (two_line_tag1 bits : ZMod n)
    let s := s.assign_adv_cell_in_range_chip (offset + 1) TaggedRangeCol v3
    let s := s.assign_adv_cell_in_range_chip offset ValueAccCol v_acc
    pure (⟨⟨.range, ValueAccCol, offset⟩, v_acc⟩, s)
  | _ => throw .indexOutOfBounds

/-- Tags of the tagged cells of a three-line range value, `src/context.rs:929-933`. -/
def three_line_tag0 (bits : ℕ) : ℕ :=
  if bits ≥ 4 * COMMON_RANGE_BITS then COMMON_RANGE_BITS else bits % COMMON_RANGE_BITS
/-- `src/context.rs:937-943`. -/
def three_line_tag1 (bits : ℕ) : ℕ :=
  if bits ≥ 5 * COMMON_RANGE_BITS then COMMON_RANGE_BITS
  else if bits > 4 * COMMON_RANGE_BITS then bits % COMMON_RANGE_BITS else 0
/-- `src/context.rs:951-955`. -/
def three_line_tag2 (bits : ℕ) : ℕ :=
  if bits > 5 * COMMON_RANGE_BITS then bits - 5 * COMMON_RANGE_BITS else 0

/-- `assign_three_line_range_value`, `src/context.rs:909-972`. -/
def assign_three_line_range_value (s : Records n) (offset : ℕ) (v : List (ZMod n)) (v_acc : ZMod n)
    (bits : ℕ) : Except Panic (AssignedValue n × Records n) := do
  if ¬ bits ≥ COMMON_RANGE_BITS * 3 then throw .assertion
  if ¬ bits ≤ COMMON_RANGE_BITS * 6 then throw .assertion
  match v with
  | v0 :: v1 :: v2 :: v3 :: v4 :: v5 :: _ =>
    let s := s.ensure_range_record_size (offset + 3)
    let s := s.assign_fix_cell_in_range_chip offset AccLinesCol (1 + 1 + 1)
    let s := s.assign_adv_cell_in_range_chip offset CommonRangeCol v0
    let s := s.assign_adv_cell_in_range_chip (offset + 1) CommonRangeCol v1
    let s := s.assign_adv_cell_in_range_chip (offset + 2) CommonRangeCol v2
    let s := s.assign_fix_cell_in_range_chip offset TagCol (three_line_tag0 bits : ZMod n)
    let s := s.assign_adv_cell_in_range_chip offset TaggedRangeCol v3
    let s := s.assign_fix_cell_in_range_chip (offset + 1) TagCol (three_line_tag1 bits : ZMod n)
    let s := s.assign_adv_cell_in_range_chip (offset + 1) TaggedRangeCol v4
    let s := s.assign_fix_cell_in_range_chip (offset + 2) TagCol (three_line_tag2 bits : ZMod n)
    let s := s.assign_adv_cell_in_range_chip (offset + 2) TaggedRangeCol v5
    let s := s.assign_adv_cell_in_range_chip offset ValueAccCol v_acc
    pure (⟨⟨.range, ValueAccCol, offset⟩, v_acc⟩, s)
  | _ => throw .indexOutOfBounds

/-- `Vec::resize(len, 0)`. -/
def resize (v : List (ZMod n)) (len : ℕ) : List (ZMod n) :=
  v.take len ++ List.replicate (len - v.length) 0

/-- `assign_range_value`, `src/context.rs:974-997`; also returns the number of rows used. -/
def assign_range_value (s : Records n) (offset : ℕ) (v : List (ZMod n)) (v_acc : ZMod n)
    (bits : ℕ) : Except Panic ((AssignedValue n × ℕ) × Records n) :=
  if bits ≤ COMMON_RANGE_BITS then do
    let (a, s) ← s.assign_one_line_range_value offset v v_acc bits
    pure ((a, 1), s)
  else if bits < 2 * COMMON_RANGE_BITS then throw .unreachable
  else if bits ≤ 4 * COMMON_RANGE_BITS then do
    let (a, s) ← s.assign_two_line_range_value offset (resize v 4) v_acc bits
    pure ((a, 2), s)
  else if bits ≤ 6 * COMMON_RANGE_BITS then do
    let (a, s) ← s.assign_three_line_range_value offset (resize v 6) v_acc bits
    pure ((a, 3), s)
  else throw .unreachable

/-- `SelectAdvColIndex`, `SelectFixColIndex`, `src/circuit/select_chip.rs:42-52`. -/
abbrev ValueCol : ℕ := 0
abbrev SelectCol : ℕ := 1
abbrev EncodeCol : ℕ := 0
abbrev IsLookupCol : ℕ := 1

/-- `assign_adv_cell_in_select_chip`, `src/context.rs:722-735`. -/
def assign_adv_cell_in_select_chip (s : Records n) (offset col : ℕ) (v : ZMod n) : Records n :=
  { s with inner := { s.inner with
      select_adv_record := setCell s.inner.select_adv_record offset col v } }

/-- `assign_fix_cell_in_select_chip`, `src/context.rs:737-747`. -/
def assign_fix_cell_in_select_chip (s : Records n) (offset col : ℕ) (v : ZMod n) : Records n :=
  { s with inner := { s.inner with
      select_fix_record := setCell s.inner.select_fix_record offset col v } }

/-- `assign_cache_value`, `src/context.rs:749-767`. -/
def assign_cache_value (s : Records n) (offset : ℕ) (v : AssignedValue n) (encode : ZMod n) :
    Records n :=
  let s := if offset ≥ s.select_height then { s with select_height := offset + 1 } else s
  let s := s.assign_adv_cell_in_select_chip offset ValueCol v.val
  let idx : Cell := ⟨.select, ValueCol, offset⟩
  let s := { s with permutations := s.permutations ++ [(idx, v.cell)] }
  let s := s.enable_permute idx
  let s := s.enable_permute v.cell
  let s := s.assign_fix_cell_in_select_chip offset EncodeCol encode
  s.assign_fix_cell_in_select_chip offset IsLookupCol 0

/-- `assign_select_value`, `src/context.rs:769-799`. -/
def assign_select_value (s : Records n) (offset : ℕ) (v : AssignedValue n) (encode : ZMod n)
    (selector : AssignedValue n) : AssignedValue n × Records n :=
  let s := if offset ≥ s.select_height then { s with select_height := offset + 1 } else s
  let s := s.assign_adv_cell_in_select_chip offset ValueCol v.val
  let s := s.assign_adv_cell_in_select_chip offset SelectCol selector.val
  let selector_cell : Cell := ⟨.select, SelectCol, offset⟩
  let s := { s with permutations := s.permutations ++ [(selector_cell, selector.cell)] }
  let s := s.enable_permute selector_cell
  let s := s.enable_permute selector.cell
  let s := s.assign_fix_cell_in_select_chip offset EncodeCol encode
  let s := s.assign_fix_cell_in_select_chip offset IsLookupCol 1
  (⟨⟨.select, ValueCol, offset⟩, v.val⟩, s)

end Records

end Verif
