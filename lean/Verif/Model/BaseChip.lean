import Verif.Model.Core

/-!
# Base chip

Model of `src/circuit/base_chip.rs`.  `var_columns() = 5` and `mul_columns() = 2`
(l. 504-510), so the `assert!`s on the column counts are trivially true and omitted.
-/

namespace Verif
variable {n : ℕ}

/-- `pair!(x, y)` with an assigned value (`src/assign.rs:145-162`). -/
abbrev pairA (x : AssignedValue n) (y : ZMod n) : ValueSchema n × ZMod n := (.assigned x, y)
/-- `pair!(x, y)` with a field element (`src/assign.rs:145-162`): no copy constraint. -/
abbrev pairU (x : ZMod n) (y : ZMod n) : ValueSchema n × ZMod n := (.unassigned x, y)

/-- The cells of a row, as returned by `one_line` (`src/circuit/base_chip.rs:522-527`). -/
def lineCells (offset : ℕ) (pairs : List (ValueSchema n × ZMod n)) : List (AssignedValue n) :=
  pairs.mapIdx fun i p => ⟨⟨.base, i, offset⟩, p.1.value⟩

/-- `one_line`, `src/circuit/base_chip.rs:516-539`. -/
def one_line (pairs : List (ValueSchema n × ZMod n)) (constant : Option (ZMod n))
    (mul : List (ZMod n)) (next : Option (ZMod n)) : M n (List (AssignedValue n)) := fun s =>
  match s.records.one_line s.base_offset pairs constant mul next with
  | .error e => .error e
  | .ok records =>
    .ok (lineCells s.base_offset pairs, { s with records, base_offset := s.base_offset + 1 })

/-- `one_line_add`, `src/circuit/base_chip.rs:94-100`. -/
def one_line_add (pairs : List (ValueSchema n × ZMod n)) (constant : Option (ZMod n)) :
    M n (List (AssignedValue n)) :=
  one_line pairs constant [] none

/-- `one_line_with_last`, `src/circuit/base_chip.rs:541-572`. -/
def one_line_with_last (pairs : List (ValueSchema n × ZMod n)) (last : ValueSchema n × ZMod n)
    (constant : Option (ZMod n)) (mul : List (ZMod n)) (next : Option (ZMod n)) :
    M n (List (AssignedValue n) × AssignedValue n) := fun s =>
  match s.records.one_line_with_last s.base_offset pairs last constant mul next with
  | .error e => .error e
  | .ok records =>
    .ok ((lineCells s.base_offset pairs, ⟨⟨.base, VAR_COLUMNS - 1, s.base_offset⟩, last.1.value⟩),
      { s with records, base_offset := s.base_offset + 1 })

/-- The weighted sum `Σ x.val * y` of the values (`src/circuit/base_chip.rs:117-121`). -/
def sumVal (elems : List (AssignedValue n × ZMod n)) : ZMod n :=
  (elems.map fun e => e.1.val * e.2).sum

/-- `sum_with_constant_in_one_line`, `src/circuit/base_chip.rs:110-132`.
`reduce(..).unwrap()` panics on the empty list. -/
def sum_with_constant_in_one_line (elems : List (AssignedValue n × ZMod n))
    (constant : Option (ZMod n)) : M n (AssignedValue n) := do
  rassert (elems.length < VAR_COLUMNS)
  if elems.isEmpty then panic .unwrapNone
  let sum := sumVal elems
  let sum := constant.elim sum (fun x => x + sum)
  let cells ← one_line_with_last (elems.map fun e => pairA e.1 e.2) (pairU sum (-1)) constant [] none
  pure cells.2

/-- The loop `for chunk in tail.chunks(columns - 2)` of `sum_with_constant`,
`src/circuit/base_chip.rs:147-151`. -/
def sum_chunks (acc : AssignedValue n) : List (AssignedValue n × ZMod n) → M n (AssignedValue n)
  | [] => pure acc
  | [a] => sum_with_constant_in_one_line [a, (acc, 1)] none
  | [a, b] => sum_with_constant_in_one_line [a, b, (acc, 1)] none
  | a :: b :: c :: rest => do
    let acc ← sum_with_constant_in_one_line [a, b, c, (acc, 1)] none
    sum_chunks acc rest

/-- `sum_with_constant`, `src/circuit/base_chip.rs:134-153`. -/
def sum_with_constant (elems : List (AssignedValue n × ZMod n)) (constant : Option (ZMod n)) :
    M n (AssignedValue n) :=
  if elems.length < VAR_COLUMNS then sum_with_constant_in_one_line elems constant
  else do
    let acc ← sum_with_constant_in_one_line (elems.take (VAR_COLUMNS - 1)) constant
    sum_chunks acc (elems.drop (VAR_COLUMNS - 1))

/-- `add`, `src/circuit/base_chip.rs:155-160`. -/
def add (a b : AssignedValue n) : M n (AssignedValue n) :=
  sum_with_constant [(a, 1), (b, 1)] none

/-- `add_constant`, `src/circuit/base_chip.rs:162-167`. -/
def add_constant (a : AssignedValue n) (c : ZMod n) : M n (AssignedValue n) :=
  sum_with_constant [(a, 1)] (some c)

/-- `sub`, `src/circuit/base_chip.rs:169-174`. -/
def sub (a b : AssignedValue n) : M n (AssignedValue n) :=
  sum_with_constant [(a, 1), (b, -1)] none

/-- `mul`, `src/circuit/base_chip.rs:176-193`. -/
def mul (a b : AssignedValue n) : M n (AssignedValue n) := do
  let c := a.val * b.val
  let cells ← one_line_with_last [pairA a 0, pairA b 0] (pairU c (-1)) none [1] none
  pure cells.2

/-- `mul_add_constant`, `src/circuit/base_chip.rs:195-217`. -/
def mul_add_constant (a b : AssignedValue n) (c : ZMod n) : M n (AssignedValue n) := do
  let d := a.val * b.val + c
  let cells ← one_line_with_last [pairA a 0, pairA b 0] (pairU d (-1)) (some c) [1] none
  pure cells.2

/-- `mul_add`, `src/circuit/base_chip.rs:219-243`. -/
def mul_add (a b : AssignedValue n) (ab_coeff : ZMod n) (c : AssignedValue n) (c_coeff : ZMod n) :
    M n (AssignedValue n) := do
  let d := a.val * b.val * ab_coeff + c.val * c_coeff
  let cells ← one_line_with_last [pairA a 0, pairA b 0, pairA c c_coeff] (pairU d (-1)) none
    [ab_coeff] none
  pure cells.2

/-- A term `a * b + c * c_coeff` of `mul_add_with_next_line`. -/
structure MulTerm (n : ℕ) where
  a : AssignedValue n
  b : AssignedValue n
  c : AssignedValue n
  c_coeff : ZMod n

/-- The loop of `mul_add_with_next_line`, `src/circuit/base_chip.rs:262-276`; `first` is `i == 0`.
Returns the accumulated value. -/
def mul_add_lines (first : Bool) (t : ZMod n) : List (MulTerm n) → M n (ZMod n)
  | [] => pure t
  | l :: rest => do
    let _ ← one_line_with_last [pairA l.a 0, pairA l.b 0, pairA l.c l.c_coeff]
      (if first then pairU t 0 else pairU t 1) none [1] (some (-1))
    mul_add_lines false (l.a.val * l.b.val + l.c.val * l.c_coeff + t) rest

/-- `mul_add_with_next_line`, `src/circuit/base_chip.rs:245-281`. -/
def mul_add_with_next_line (ls : List (MulTerm n)) : M n (AssignedValue n) := do
  rassert (0 < ls.length)
  match ls with
  | [l] => mul_add l.a l.b 1 l.c l.c_coeff
  | ls => do
    let t ← mul_add_lines true 0 ls
    let cells ← one_line_with_last [] (pairU t 0) none [] none
    pure cells.2

/-- `Field::invert`: `None` on zero. -/
def invert? (a : ZMod n) : Option (ZMod n) := if a = 0 then none else some a⁻¹

/-- `invert_unsafe`, `src/circuit/base_chip.rs:283-296`. -/
def invert_unsafe (a : AssignedValue n) : M n (AssignedValue n) := do
  let b ← unwrap (invert? a.val)
  let cells ← one_line [pairA a 0, pairU b 0] (some (-1)) [1] none
  index cells 1

/-- `invert`, `src/circuit/base_chip.rs:298-321`. -/
def invert (a : AssignedValue n) : M n (AssignedCondition n × AssignedValue n) := do
  let b := (invert? a.val).getD 0
  let c := 1 - a.val * b
  let cells ← one_line [pairA a 0, pairU c 0] none [1] none
  let c ← index cells 1
  let cells ← one_line_with_last [pairA a 0, pairU b 0] (pairA c 1) (some (-1)) [1] none
  let b ← index cells.1 1
  pure (cells.2, b)

/-- `is_zero`, `src/circuit/base_chip.rs:323-325`. -/
def is_zero (a : AssignedValue n) : M n (AssignedCondition n) := do
  pure (← invert a).1

/-- `div_unsafe`, `src/circuit/base_chip.rs:327-342`. -/
def div_unsafe (a b : AssignedValue n) : M n (AssignedValue n) := do
  let c := (← unwrap (invert? b.val)) * a.val
  let cells ← one_line_with_last [pairA b 0, pairU c 0] (pairA a (-1)) none [1] none
  index cells.1 1

/-- `assign_constant`, `src/circuit/base_chip.rs:344-349`. -/
def assign_constant (v : ZMod n) : M n (AssignedValue n) := do
  let cells ← one_line_add [pairU v (-1)] (some v)
  index cells 0

/-- `assign`, `src/circuit/base_chip.rs:351-355`. -/
def assign (v : ZMod n) : M n (AssignedValue n) := do
  let cells ← one_line_add [pairU v 0] none
  index cells 0

/-- `assign_bit`, `src/circuit/base_chip.rs:357-367`: here `a` is a field element, so both `pair!`s are
unassigned and no copy constraint ties the two cells. -/
def assign_bit (a : ZMod n) : M n (AssignedCondition n) := do
  let cells ← one_line [pairU a 1, pairU a 0] none [-1] none
  index cells 0

/-- `assert_equal`, `src/circuit/base_chip.rs:369-373`. -/
def assert_equal (a b : AssignedValue n) : M n Unit := do
  let _ ← one_line_add [pairA a (-1), pairA b 1] none

/-- `assert_constant`, `src/circuit/base_chip.rs:375-379` (with its run-time `assert_eq!`). -/
def assert_constant (a : AssignedValue n) (b : ZMod n) : M n Unit := do
  rassert (a.val = b)
  let _ ← one_line_add [pairA a (-1)] (some b)

/-- `assert_bit`, `src/circuit/base_chip.rs:381-390`. -/
def assert_bit (a : AssignedValue n) : M n Unit := do
  let _ ← one_line [pairA a 1, pairA a 0] none [-1] none

/-- `and`, `src/circuit/base_chip.rs:392-396`. -/
def and (a b : AssignedCondition n) : M n (AssignedCondition n) := mul a b

/-- `not`, `src/circuit/base_chip.rs:398-403`. -/
def not (a : AssignedCondition n) : M n (AssignedCondition n) :=
  sum_with_constant [(a, -1)] (some 1)

/-- `not_and`, `src/circuit/base_chip.rs:405-426`. -/
def not_and (a b : AssignedCondition n) : M n (AssignedCondition n) := do
  let c := b.val - a.val * b.val
  let cells ← one_line_with_last [pairA a 0, pairA b 1] (pairU c (-1)) none [-1] none
  pure cells.2

/-- `or`, `src/circuit/base_chip.rs:428-439`. -/
def or (a b : AssignedCondition n) : M n (AssignedCondition n) := do
  let c := a.val + b.val - a.val * b.val
  let cells ← one_line_with_last [pairA a 1, pairA b 1] (pairU c (-1)) none [-1] none
  pure cells.2

/-- `xor`, `src/circuit/base_chip.rs:441-453`. -/
def xor (a b : AssignedCondition n) : M n (AssignedCondition n) := do
  let two : ZMod n := 1 + 1
  let c := a.val + b.val - two * a.val * b.val
  let cells ← one_line_with_last [pairA a 1, pairA b 1] (pairU c (-1)) none [-two] none
  pure cells.2

/-- `xnor`, `src/circuit/base_chip.rs:455-467`. -/
def xnor (a b : AssignedCondition n) : M n (AssignedCondition n) := do
  let two : ZMod n := 1 + 1
  let c := 1 - a.val - b.val + two * a.val * b.val
  let cells ← one_line_with_last [pairA a (-1), pairA b (-1)] (pairU c (-1)) (some 1) [two] none
  pure cells.2

/-- `bisec`, `src/circuit/base_chip.rs:574-604` (the branch for five columns). -/
def bisec (cond : AssignedCondition n) (a b : AssignedValue n) : M n (AssignedValue n) := do
  let c := cond.val * a.val + (1 - cond.val) * b.val
  let cells ← one_line_with_last [pairA cond 0, pairA a 0, pairA cond 0, pairA b 1] (pairU c (-1))
    none [1, -1] none
  pure cells.2

/-- `bisec_cond`, `src/circuit/base_chip.rs:477-485`. -/
def bisec_cond (cond a b : AssignedCondition n) : M n (AssignedCondition n) := bisec cond a b

/-- `assert_true`, `src/circuit/base_chip.rs:487-490`. -/
def assert_true (a : AssignedCondition n) : M n Unit := do
  rassert (a.val = 1)
  assert_constant a 1

/-- `assert_false`, `src/circuit/base_chip.rs:492-495`. -/
def assert_false (a : AssignedCondition n) : M n Unit := do
  rassert (a.val = 0)
  assert_constant a 0

/-- `try_assert_false`, `src/circuit/base_chip.rs:497-500`. -/
def try_assert_false (a : AssignedCondition n) : M n Bool := do
  assert_constant a 0
  pure (a.val = 0)

end Verif
