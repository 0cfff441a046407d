import Verif.Model.Core

/-!
# The constraint system of the chips

Model of the `configure` functions of the three chips (`src/circuit/base_chip.rs:41-85`, `src/circuit/range_chip.rs:102-228`,
`src/circuit/select_chip.rs:62-102`), of `init_table` (`src/circuit/range_chip.rs:230-257`), and of the part of halo2's
`ConstraintSystem` they use. Names of gates and lookups, and the order in which columns are queried, are left out.
-/

namespace Verif
variable {n : ℕ}

/-- halo2's `Column<Any>`: an index and the kind of the column. (There are no instance columns here.) -/
inductive Column where
  | advice (index : ℕ)
  | fixed (index : ℕ)
deriving DecidableEq

/-- halo2's `Expression<F>`. A query of a column carries its rotation. -/
inductive Expression (n : ℕ) where
  | constant (c : ZMod n)
  | query (col : Column) (rotation : ℤ)
  | negated (e : Expression n)
  | sum (a b : Expression n)
  | product (a b : Expression n)
  | scaled (e : Expression n) (c : ZMod n)

namespace Expression
instance : Add (Expression n) := ⟨sum⟩
instance : Mul (Expression n) := ⟨product⟩
/-- As in halo2: `self + (-rhs)`. -/
instance : Sub (Expression n) := ⟨fun a b => sum a (negated b)⟩
end Expression

/-- The part of halo2's `ConstraintSystem<F>` that the chips use. A gate is a list of polynomials; a lookup is a list of
pairs of an input expression and a table expression. -/
structure ConstraintSystem (n : ℕ) where
  num_advice_columns : ℕ
  num_fixed_columns : ℕ
  permutation : List Column
  gates : List (List (Expression n))
  lookups : List (List (Expression n × Expression n))

namespace ConstraintSystem

/-- The constraint system that halo2 passes to `Circuit::configure`. -/
def empty (n : ℕ) : ConstraintSystem n := ⟨0, 0, [], [], []⟩

/-- `configure` functions work on a constraint system. -/
abbrev Meta (n : ℕ) := StateM (ConstraintSystem n)

/-- halo2's `advice_column`. -/
def advice_column : Meta n Column := fun cs =>
  (.advice cs.num_advice_columns, { cs with num_advice_columns := cs.num_advice_columns + 1 })

/-- halo2's `fixed_column`. -/
def fixed_column : Meta n Column := fun cs =>
  (.fixed cs.num_fixed_columns, { cs with num_fixed_columns := cs.num_fixed_columns + 1 })

/-- halo2's `lookup_table_column`: a fixed column. -/
def lookup_table_column : Meta n Column := fixed_column

/-- halo2's `enable_equality`. -/
def enable_equality (c : Column) : Meta n Unit := fun cs =>
  ((), { cs with permutation := if c ∈ cs.permutation then cs.permutation else cs.permutation ++ [c] })

/-- halo2's `create_gate`. -/
def create_gate (polys : List (Expression n)) : Meta n Unit := fun cs => ((), { cs with gates := cs.gates ++ [polys] })

/-- halo2's `lookup_any`. -/
def lookup_any (l : List (Expression n × Expression n)) : Meta n Unit := fun cs =>
  ((), { cs with lookups := cs.lookups ++ [l] })

/-- halo2's `lookup`: into table columns, which are queried in the current row. -/
def lookup (l : List (Expression n × Column)) : Meta n Unit := lookup_any (l.map fun p => (p.1, .query p.2 0))

end ConstraintSystem

open ConstraintSystem

/-! ## Base chip -/

/-- `BaseChipConfig`, `src/circuit/base_chip.rs:18-25`. -/
structure BaseChipConfig where
  base : List Column
  coeff : List Column
  mul_coeff : List Column
  next_coeff : Column
  constant : Column

/-- An array of columns, indexed as in the code. (The indices in the code are constants within the bounds, so that the
default is not used.) -/
def colAt (l : List Column) (i : ℕ) : Column := l.getD i (.fixed 0)

/-- The polynomial of the base gate, `src/circuit/base_chip.rs:50-69`. -/
def base_gate (cfg : BaseChipConfig) : Expression n :=
  let _constant := .query cfg.constant 0
  let _next := .query (colAt cfg.base (VAR_COLUMNS - 1)) 1
  let _next_coeff := .query cfg.next_coeff 0
  let acc := _constant + _next * _next_coeff
  let acc := (List.range VAR_COLUMNS).foldl (fun acc i =>
    acc + .query (colAt cfg.base i) 0 * .query (colAt cfg.coeff i) 0) acc
  (List.range MUL_COLUMNS).foldl (fun acc i =>
    acc + .query (colAt cfg.base (i * 2)) 0 * .query (colAt cfg.base (i * 2 + 1)) 0 * .query (colAt cfg.mul_coeff i) 0) acc

/-- `BaseChip::configure`, `src/circuit/base_chip.rs:41-79`. -/
def base_configure : Meta n BaseChipConfig := do
  let base ← (List.range VAR_COLUMNS).mapM fun _ => advice_column
  let coeff ← (List.range VAR_COLUMNS).mapM fun _ => fixed_column
  let mul_coeff ← (List.range MUL_COLUMNS).mapM fun _ => fixed_column
  let next_coeff ← fixed_column
  let constant ← fixed_column
  base.forM enable_equality
  let cfg : BaseChipConfig := ⟨base, coeff, mul_coeff, next_coeff, constant⟩
  create_gate [base_gate cfg]
  pure cfg

/-- The column that a recorded fixed cell of the base chip goes to, `src/context.rs:365-375`. -/
def BaseChipConfig.fixCol (cfg : BaseChipConfig) (col : ℕ) : Column :=
  if col < VAR_COLUMNS then colAt cfg.coeff col
  else if col - VAR_COLUMNS < MUL_COLUMNS then colAt cfg.mul_coeff (col - VAR_COLUMNS)
  else if col - VAR_COLUMNS - MUL_COLUMNS = 0 then cfg.next_coeff
  else cfg.constant

/-! ## Range chip -/

/-- `RangeChipConfig`, `src/circuit/range_chip.rs:67-74`. -/
structure RangeChipConfig where
  range_tag_table_column : Column
  range_value_table_column : Column
  adv_cols : List Column
  fix_cols : List Column

/-- The factors `acc_lines * ∏ (acc_lines - root)` that switch a gate off, `src/circuit/range_chip.rs:147-152`, `180-185`,
`213-218`: `lines` is the number of lines for which the gate is on. -/
def switch_lines (lines : ℕ) (acc_lines acc : Expression n) : Expression n :=
  ([1, 2, 3] : List ℕ).foldl (fun acc root =>
    if root ≠ lines then acc * (acc_lines - .constant (root : ZMod n)) else acc) (acc * acc_lines)

/-- `acc value check one line`, `src/circuit/range_chip.rs:139-154`. -/
def one_line_gate (acc_lines value_acc tagged : Column) : Expression n :=
  let acc : Expression n := .query value_acc 0
  let acc := acc - .query tagged 0
  switch_lines 1 (.query acc_lines 0) acc

/-- The loops that subtract the chunks, `src/circuit/range_chip.rs:165-178` and `198-211`. The state is `(acc, shift)`. -/
def sub_chunks (col : Column) (lines : ℕ) (st : Expression n × ZMod n) : Expression n × ZMod n :=
  (List.range lines).foldl (fun st (j : ℕ) =>
    (st.1 - .query col (j : ℤ) * .constant st.2, st.2 * ((1 <<< COMMON_RANGE_BITS : ℕ) : ZMod n))) st

/-- `acc value check two lines` and `acc value check three lines`, `src/circuit/range_chip.rs:156-187` and `189-220`. -/
def lines_gate (lines : ℕ) (acc_lines value_acc tagged common : Column) : Expression n :=
  let st := sub_chunks common lines (.query value_acc 0, 1)
  let st := sub_chunks tagged lines st
  switch_lines lines (.query acc_lines 0) st.1

/-- `RangeChip::configure`, `src/circuit/range_chip.rs:102-228`. Its assertions are about constants. -/
def range_configure : Meta n RangeChipConfig := do
  let fix_cols ← (List.range 2).mapM fun _ => fixed_column
  let adv_cols ← (List.range 3).mapM fun _ => advice_column
  let range_tag_table_column ← lookup_table_column
  let range_value_table_column ← lookup_table_column
  let tag := colAt fix_cols 1
  let acc_lines := colAt fix_cols 0
  let value_acc := colAt adv_cols 0
  let tagged_range_col := colAt adv_cols 1
  let common_range_col := colAt adv_cols 2
  enable_equality value_acc
  lookup [(.query tag 0, range_tag_table_column), (.query tagged_range_col 0, range_value_table_column)]
  lookup [(.constant (COMMON_RANGE_BITS : ℕ), range_tag_table_column),
    (.query common_range_col 0, range_value_table_column)]
  create_gate [one_line_gate acc_lines value_acc tagged_range_col]
  create_gate [lines_gate 2 acc_lines value_acc tagged_range_col common_range_col]
  create_gate [lines_gate 3 acc_lines value_acc tagged_range_col common_range_col]
  pure ⟨range_tag_table_column, range_value_table_column, adv_cols, fix_cols⟩

/-- `RangeChip::init_table`, `src/circuit/range_chip.rs:230-257`: the rows `(tag, value)` it assigns, in order of their
offsets. -/
def init_table (n : ℕ) : List (ZMod n × ZMod n) :=
  (List.range (COMMON_RANGE_BITS + 1)).flatMap fun tag : ℕ => (List.range (1 <<< tag)).map fun value : ℕ =>
    ((tag : ZMod n), (value : ZMod n))

/-! ## Select chip -/

/-- `SelectChipConfig`, `src/circuit/select_chip.rs:31-36`. -/
structure SelectChipConfig where
  limb_info : Column
  selector : Column
  encoded_offset : Column
  is_lookup : Column

/-- `SelectChip::configure`, `src/circuit/select_chip.rs:62-102`. -/
def select_configure : Meta n SelectChipConfig := do
  let limb_info ← advice_column
  let selector ← advice_column
  let encoded_offset ← fixed_column
  let is_lookup ← fixed_column
  enable_equality limb_info
  enable_equality selector
  lookup_any [
    (.query limb_info 0, .query limb_info 0),
    (.scaled (.query selector 0) ((1 <<< 128 : ℕ) : ZMod n) + .query encoded_offset 0, .query encoded_offset 0),
    (.constant 0, .query is_lookup 0)]
  pure ⟨limb_info, selector, encoded_offset, is_lookup⟩

/-! ## Circuits

`src/tests/mod.rs:60-120` (with select chip) and `200-260` (without); the circuits of the clients are built in the same way. -/

/-- The configuration of a circuit with these chips. -/
structure ChipsConfig where
  base : BaseChipConfig
  range : RangeChipConfig
  select : Option SelectChipConfig

/-- `Circuit::configure`, `src/tests/mod.rs:80-89` and `220-227`. -/
def configure (select : Bool) : Meta n ChipsConfig := do
  let base ← base_configure
  let range ← range_configure
  if select then
    let s ← select_configure
    pure ⟨base, range, some s⟩
  else pure ⟨base, range, none⟩

/-- The advice column that a recorded advice cell goes to, `src/context.rs:343`, `432`, `477-482`. -/
def ChipsConfig.advCol (cfg : ChipsConfig) : Chip → ℕ → Option Column
  | .base, col => cfg.base.base[col]?
  | .range, col => cfg.range.adv_cols[col]?
  | .select, col => cfg.select.bind fun s => [s.limb_info, s.selector][col]?

/-- The fixed column that a recorded fixed cell goes to, `src/context.rs:365-375`, `407`, `502-507`. -/
def ChipsConfig.fixCol (cfg : ChipsConfig) : Chip → ℕ → Option Column
  | .base, col => some (cfg.base.fixCol col)
  | .range, col => cfg.range.fix_cols[col]?
  | .select, col => cfg.select.bind fun s => [s.encoded_offset, s.is_lookup][col]?

/-- The cell of the constraint system that a recorded advice cell is assigned to, as `constrain_equal` sees it: halo2
returns an error (here: nothing) if equality is not enabled for the column. -/
def ChipsConfig.place (cfg : ChipsConfig) (cs : ConstraintSystem n) (c : Cell) : Option (Column × ℕ) :=
  (cfg.advCol c.region c.col).bind fun k => if k ∈ cs.permutation then some (k, c.row) else none

/-- The calls of `constrain_equal`, `src/context.rs:528-539`. -/
def constrain_all (cfg : ChipsConfig) (cs : ConstraintSystem n) :
    List (Cell × Cell) → Option (List ((Column × ℕ) × (Column × ℕ)))
  | [] => some []
  | (left, right) :: rest => do
    let l ← cfg.place cs left
    let r ← cfg.place cs right
    let rest ← constrain_all cfg cs rest
    some ((l, r) :: rest)

end Verif
