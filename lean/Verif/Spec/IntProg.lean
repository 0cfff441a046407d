import Verif.Spec.Integer

/-!
# Programs over the integer chip

A finite history of calls to the integer chip, as data: instructions refer to earlier results by index. `exec` issues
the calls; `Step` and `eval` are the reference meaning in the field `ZMod wm`, written without reference to
limbs, counters or circuits.
-/

namespace Verif
variable {n : ℕ}

/-- One public call. Indices refer to the integers (or conditions) produced so far. -/
inductive Instr (wm : ℕ) where
  | assign (x : ZMod wm)
  | const (x : ZMod wm)
  | add (i j : ℕ)
  | sub (i j : ℕ)
  | neg (i : ℕ)
  | mul (i j : ℕ)
  | square (i : ℕ)
  | smallMul (i k : ℕ)
  | div (i j : ℕ)
  | reduce (i : ℕ)
  | isZero (i : ℕ)
  | isEqual (i j : ℕ)
  | not (b : ℕ)
  | and (b b' : ℕ)
  | or (b b' : ℕ)
  | select (b i j : ℕ)
  | assertEqual (i j : ℕ)
  | assertTrue (b : ℕ)

/-- The integers and conditions produced so far. -/
structure St (n : ℕ) where
  ints : List (AssignedInteger n)
  conds : List (AssignedCondition n)

def St.pushI (s : St n) (a : AssignedInteger n) : St n := { s with ints := s.ints ++ [a] }
def St.pushC (s : St n) (b : AssignedCondition n) : St n := { s with conds := s.conds ++ [b] }

/-- Issue one call. -/
def Instr.exec {wm : ℕ} (info : RangeInfo n) : Instr wm → St n → M n (St n)
  | .assign x, s => do pure (s.pushI (← assign_w info x.val))
  | .const x, s => do pure (s.pushI (← assign_int_constant info x.val))
  | .add i j, s => do
    let a ← index s.ints i
    let b ← index s.ints j
    pure (s.pushI (← int_add info a b))
  | .sub i j, s => do
    let a ← index s.ints i
    let b ← index s.ints j
    pure (s.pushI (← int_sub info a b))
  | .neg i, s => do
    let a ← index s.ints i
    pure (s.pushI (← int_neg info a))
  | .mul i j, s => do
    let a ← index s.ints i
    let b ← index s.ints j
    pure (s.pushI (← int_mul info a b))
  | .square i, s => do
    let a ← index s.ints i
    pure (s.pushI (← int_square info a))
  | .smallMul i k, s => do
    let a ← index s.ints i
    pure (s.pushI (← int_mul_small_constant info a k))
  | .div i j, s => do
    let a ← index s.ints i
    let b ← index s.ints j
    let r ← int_div info a b
    pure ((s.pushI r.2).pushC r.1)
  | .reduce i, s => do
    let a ← index s.ints i
    pure (s.pushI (← Verif.reduce info a))
  | .isZero i, s => do
    let a ← index s.ints i
    pure (s.pushC (← is_int_zero info a))
  | .isEqual i j, s => do
    let a ← index s.ints i
    let b ← index s.ints j
    pure (s.pushC (← is_int_equal info a b))
  | .not b, s => do
    let b ← index s.conds b
    pure (s.pushC (← Verif.not b))
  | .and b b', s => do
    let b ← index s.conds b
    let b' ← index s.conds b'
    pure (s.pushC (← Verif.and b b'))
  | .or b b', s => do
    let b ← index s.conds b
    let b' ← index s.conds b'
    pure (s.pushC (← Verif.or b b'))
  | .select b i j, s => do
    let b ← index s.conds b
    let x ← index s.ints i
    let y ← index s.ints j
    pure (s.pushI (← bisec_int info b x y))
  | .assertEqual i j, s => do
    let a ← index s.ints i
    let b ← index s.ints j
    assert_int_equal info a b
    pure s
  | .assertTrue b, s => do
    let b ← index s.conds b
    assert_true b
    pure s

/-- Issue a sequence of calls. -/
def execAll {wm : ℕ} (info : RangeInfo n) : List (Instr wm) → St n → M n (St n)
  | [], s => pure s
  | i :: is, s => do execAll info is (← i.exec info s)

/-- Reference state: field elements and Booleans. -/
structure Ref (wm : ℕ) where
  vals : List (ZMod wm)
  flags : List Bool

def Ref.pushV {wm : ℕ} (s : Ref wm) (x : ZMod wm) : Ref wm := { s with vals := s.vals ++ [x] }
def Ref.pushF {wm : ℕ} (s : Ref wm) (b : Bool) : Ref wm := { s with flags := s.flags ++ [b] }

/-- Reference meaning of one call. An assigned input may be any field element (it is chosen by the prover),
and so may the quotient of a division by zero (which is flagged); everything else is determined. -/
inductive Step {wm : ℕ} : Instr wm → Ref wm → Ref wm → Prop
  | assign {s} (x y : ZMod wm) : Step (.assign x) s (s.pushV y)
  | const {s} (x : ZMod wm) : Step (.const x) s (s.pushV x)
  | add {s i j x y} : s.vals[i]? = some x → s.vals[j]? = some y → Step (.add i j) s (s.pushV (x + y))
  | sub {s i j x y} : s.vals[i]? = some x → s.vals[j]? = some y → Step (.sub i j) s (s.pushV (x - y))
  | neg {s i x} : s.vals[i]? = some x → Step (.neg i) s (s.pushV (-x))
  | mul {s i j x y} : s.vals[i]? = some x → s.vals[j]? = some y → Step (.mul i j) s (s.pushV (x * y))
  | square {s i x} : s.vals[i]? = some x → Step (.square i) s (s.pushV (x ^ 2))
  | smallMul {s i k x} : s.vals[i]? = some x → Step (.smallMul i k) s (s.pushV (x * (k : ZMod wm)))
  | div {s i j x y q} : s.vals[i]? = some x → s.vals[j]? = some y → (y ≠ 0 → q = x * y⁻¹) →
      Step (.div i j) s ((s.pushV q).pushF (decide (y = 0)))
  | reduce {s i x} : s.vals[i]? = some x → Step (.reduce i) s (s.pushV x)
  | isZero {s i x} : s.vals[i]? = some x → Step (.isZero i) s (s.pushF (decide (x = 0)))
  | isEqual {s i j x y} : s.vals[i]? = some x → s.vals[j]? = some y →
      Step (.isEqual i j) s (s.pushF (decide (x = y)))
  | not {s b x} : s.flags[b]? = some x → Step (.not b) s (s.pushF (!x))
  | and {s b b' x y} : s.flags[b]? = some x → s.flags[b']? = some y → Step (.and b b') s (s.pushF (x && y))
  | or {s b b' x y} : s.flags[b]? = some x → s.flags[b']? = some y → Step (.or b b') s (s.pushF (x || y))
  | select {s b i j c x y} : s.flags[b]? = some c → s.vals[i]? = some x → s.vals[j]? = some y →
      Step (.select b i j) s (s.pushV (if c then x else y))
  | assertEqual {s i j x} : s.vals[i]? = some x → s.vals[j]? = some x → Step (.assertEqual i j) s s
  | assertTrue {s b} : s.flags[b]? = some true → Step (.assertTrue b) s s

/-- Reference meaning of a sequence of calls. -/
inductive Steps {wm : ℕ} : List (Instr wm) → Ref wm → Ref wm → Prop
  | nil {s} : Steps [] s s
  | cons {i is s t u} : Step i s t → Steps is t u → Steps (i :: is) s u

/-- The honest run: assigned inputs take the given values, division by zero gives zero. `none` if a call is
outside its domain (unknown index, multiplier not in 1..15) or an assertion fails. -/
def Instr.eval {wm : ℕ} : Instr wm → Ref wm → Option (Ref wm)
  | .assign x, s => some (s.pushV x)
  | .const x, s => some (s.pushV x)
  | .add i j, s => s.vals[i]? >>= fun x => s.vals[j]? >>= fun y => some (s.pushV (x + y))
  | .sub i j, s => s.vals[i]? >>= fun x => s.vals[j]? >>= fun y => some (s.pushV (x - y))
  | .neg i, s => s.vals[i]? >>= fun x => some (s.pushV (-x))
  | .mul i j, s => s.vals[i]? >>= fun x => s.vals[j]? >>= fun y => some (s.pushV (x * y))
  | .square i, s => s.vals[i]? >>= fun x => some (s.pushV (x ^ 2))
  | .smallMul i k, s => s.vals[i]? >>= fun x =>
      if 1 ≤ k ∧ k < 16 then some (s.pushV (x * (k : ZMod wm))) else none
  | .div i j, s => s.vals[i]? >>= fun x => s.vals[j]? >>= fun y =>
      some ((s.pushV (x * y⁻¹)).pushF (decide (y = 0)))
  | .reduce i, s => s.vals[i]? >>= fun x => some (s.pushV x)
  | .isZero i, s => s.vals[i]? >>= fun x => some (s.pushF (decide (x = 0)))
  | .isEqual i j, s => s.vals[i]? >>= fun x => s.vals[j]? >>= fun y => some (s.pushF (decide (x = y)))
  | .not b, s => s.flags[b]? >>= fun x => some (s.pushF (!x))
  | .and b b', s => s.flags[b]? >>= fun x => s.flags[b']? >>= fun y => some (s.pushF (x && y))
  | .or b b', s => s.flags[b]? >>= fun x => s.flags[b']? >>= fun y => some (s.pushF (x || y))
  | .select b i j, s => s.flags[b]? >>= fun c => s.vals[i]? >>= fun x => s.vals[j]? >>= fun y =>
      some (s.pushV (if c then x else y))
  | .assertEqual i j, s => s.vals[i]? >>= fun x => s.vals[j]? >>= fun y => if x = y then some s else none
  | .assertTrue b, s => s.flags[b]? >>= fun x => if x then some s else none

/-- The honest run of a sequence of calls. -/
def evalAll {wm : ℕ} : List (Instr wm) → Ref wm → Option (Ref wm)
  | [], s => some s
  | i :: is, s => i.eval s >>= evalAll is

/-- A cell holding the bit `b` under `w`. -/
def Holds (w : Advice n) (a : AssignedValue n) (b : Bool) : Prop := w a.cell = if b then 1 else 0

/-- The state `s` stands for the reference state `r` under the assignment `w`. -/
structure RepSt (wm : ℕ) (info : RangeInfo n) (w : Advice n) (s : St n) (r : Ref wm) : Prop where
  ints : List.Forall₂ (Rep wm info w) s.ints r.vals
  conds : List.Forall₂ (Holds w) s.conds r.flags

/-- The recorded values of the state `s` are the honest ones for the reference state `r`, and all counters are
between 1 and 16. -/
structure HRepSt (wm : ℕ) (info : RangeInfo n) (s : St n) (r : Ref wm) : Prop where
  ints : List.Forall₂ (fun a x => HRep wm info a x ∧ 1 ≤ a.times ∧ a.times ≤ 16) s.ints r.vals
  conds : List.Forall₂ (fun a b => a.val = if b then 1 else 0) s.conds r.flags

/-- All cells of the state are recorded faithfully. -/
structure OkSt (h : Advice n) (s : St n) : Prop where
  ints : ∀ a ∈ s.ints, OkI h a
  conds : ∀ a ∈ s.conds, Ok h a

end Verif
