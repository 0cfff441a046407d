import Verif.Model.Keccak
import Verif.Spec.Keccak
import Verif.Spec.IntProg

/-!
# Programs over the base chip

A finite history of calls on values of the native field and on conditions, as data: the calls of the base chip, the
assignment of a value of 18 bits, and the Keccak hash. Instructions refer to earlier results by index. `exec` issues the
calls; `NStep` and `eval` are the reference meaning in `ZMod n` and the Booleans, written without reference to rows or
cells.
-/

namespace Verif
variable {n : ℕ}

/-- One public call. Indices refer to the values (or conditions) produced so far. -/
inductive NInstr (n : ℕ) where
  /-- `assign` -/
  | assign (x : ZMod n)
  /-- `assign_constant` -/
  | const (x : ZMod n)
  /-- `assign_common`, a value of 18 bits -/
  | small (x : ℕ)
  /-- `sum_with_constant` -/
  | sum (es : List (ℕ × ZMod n)) (k : Option (ZMod n))
  | add (i j : ℕ)
  | addConst (i : ℕ) (k : ZMod n)
  | sub (i j : ℕ)
  | mul (i j : ℕ)
  /-- `mul_add_constant` -/
  | mulAddConst (i j : ℕ) (k : ZMod n)
  /-- `mul_add` -/
  | mulAdd (i j : ℕ) (k : ZMod n) (d : ℕ) (l : ZMod n)
  /-- `mul_add_with_next_line` -/
  | mulAdds (ts : List (ℕ × ℕ × ℕ × ZMod n))
  /-- `invert_unsafe` -/
  | invUnsafe (i : ℕ)
  /-- `div_unsafe` -/
  | divUnsafe (i j : ℕ)
  /-- `invert` -/
  | invert (i : ℕ)
  /-- `is_zero` -/
  | isZero (i : ℕ)
  /-- `assign_bit` -/
  | bit (f : Bool)
  /-- `assert_bit`; the value is a condition from then on -/
  | assertBit (i : ℕ)
  /-- the cell of a condition, as a value -/
  | value (b : ℕ)
  | not (b : ℕ)
  | and (b b' : ℕ)
  | or (b b' : ℕ)
  /-- `not_and` -/
  | notAnd (b b' : ℕ)
  | xor (b b' : ℕ)
  | xnor (b b' : ℕ)
  /-- `bisec` -/
  | select (b i j : ℕ)
  /-- `bisec_cond` -/
  | selectCond (b i j : ℕ)
  | assertEqual (i j : ℕ)
  /-- `assert_constant` -/
  | assertConst (i : ℕ) (k : ZMod n)
  | assertTrue (b : ℕ)
  | assertFalse (b : ℕ)
  /-- `keccak_hash` -/
  | hash (is : List ℕ)

/-- The values and conditions produced so far. -/
structure NSt (n : ℕ) where
  vals : List (AssignedValue n)
  conds : List (AssignedCondition n)

def NSt.pushV (s : NSt n) (a : AssignedValue n) : NSt n := { s with vals := s.vals ++ [a] }
def NSt.pushC (s : NSt n) (b : AssignedCondition n) : NSt n := { s with conds := s.conds ++ [b] }

/-- Look up the results at the given indices. -/
def getM {A : Type} (l : List A) : List ℕ → M n (List A)
  | [] => pure []
  | i :: is => do
    let a ← index l i
    let as ← getM l is
    pure (a :: as)

/-- Look up the operands of a linear combination. -/
def elemsM (vals : List (AssignedValue n)) : List (ℕ × ZMod n) → M n (List (AssignedValue n × ZMod n))
  | [] => pure []
  | e :: es => do
    let a ← index vals e.1
    let as ← elemsM vals es
    pure ((a, e.2) :: as)

/-- Look up the operands of a sum of products. -/
def termsM (vals : List (AssignedValue n)) : List (ℕ × ℕ × ℕ × ZMod n) → M n (List (MulTerm n))
  | [] => pure []
  | t :: ts => do
    let a ← index vals t.1
    let b ← index vals t.2.1
    let c ← index vals t.2.2.1
    let as ← termsM vals ts
    pure (⟨a, b, c, t.2.2.2⟩ :: as)

/-- Issue one call. -/
def NInstr.exec : NInstr n → NSt n → M n (NSt n)
  | .assign x, s => do pure (s.pushV (← Verif.assign x))
  | .const x, s => do pure (s.pushV (← assign_constant x))
  | .small x, s => do pure (s.pushV (← assign_common x))
  | .sum es k, s => do
    let as ← elemsM s.vals es
    pure (s.pushV (← sum_with_constant as k))
  | .add i j, s => do
    let a ← index s.vals i
    let b ← index s.vals j
    pure (s.pushV (← Verif.add a b))
  | .addConst i k, s => do
    let a ← index s.vals i
    pure (s.pushV (← add_constant a k))
  | .sub i j, s => do
    let a ← index s.vals i
    let b ← index s.vals j
    pure (s.pushV (← Verif.sub a b))
  | .mul i j, s => do
    let a ← index s.vals i
    let b ← index s.vals j
    pure (s.pushV (← Verif.mul a b))
  | .mulAddConst i j k, s => do
    let a ← index s.vals i
    let b ← index s.vals j
    pure (s.pushV (← mul_add_constant a b k))
  | .mulAdd i j k d l, s => do
    let a ← index s.vals i
    let b ← index s.vals j
    let d ← index s.vals d
    pure (s.pushV (← mul_add a b k d l))
  | .mulAdds ts, s => do
    let as ← termsM s.vals ts
    pure (s.pushV (← mul_add_with_next_line as))
  | .invUnsafe i, s => do
    let a ← index s.vals i
    pure (s.pushV (← invert_unsafe a))
  | .divUnsafe i j, s => do
    let a ← index s.vals i
    let b ← index s.vals j
    pure (s.pushV (← div_unsafe a b))
  | .invert i, s => do
    let a ← index s.vals i
    let r ← Verif.invert a
    pure ((s.pushV r.2).pushC r.1)
  | .isZero i, s => do
    let a ← index s.vals i
    pure (s.pushC (← is_zero a))
  | .bit f, s => do pure (s.pushC (← assign_bit (if f then 1 else 0)))
  | .assertBit i, s => do
    let a ← index s.vals i
    assert_bit a
    pure (s.pushC a)
  | .value b, s => do
    let a ← index s.conds b
    pure (s.pushV a)
  | .not b, s => do
    let b ← index s.conds b
    pure (s.pushC (← Verif.not b))
  | .and b b', s => do
    let b ← index s.conds b
    let b' ← index s.conds b'
    pure (s.pushC (← Verif.and b b'))
  | .or b b', s => do
    let b ← index s.conds b
    let b' ← index s.conds b'
    pure (s.pushC (← Verif.or b b'))
  | .notAnd b b', s => do
    let b ← index s.conds b
    let b' ← index s.conds b'
    pure (s.pushC (← not_and b b'))
  | .xor b b', s => do
    let b ← index s.conds b
    let b' ← index s.conds b'
    pure (s.pushC (← Verif.xor b b'))
  | .xnor b b', s => do
    let b ← index s.conds b
    let b' ← index s.conds b'
    pure (s.pushC (← Verif.xnor b b'))
  | .select b i j, s => do
    let b ← index s.conds b
    let x ← index s.vals i
    let y ← index s.vals j
    pure (s.pushV (← bisec b x y))
  | .selectCond b i j, s => do
    let b ← index s.conds b
    let x ← index s.conds i
    let y ← index s.conds j
    pure (s.pushC (← bisec_cond b x y))
  | .assertEqual i j, s => do
    let a ← index s.vals i
    let b ← index s.vals j
    assert_equal a b
    pure s
  | .assertConst i k, s => do
    let a ← index s.vals i
    assert_constant a k
    pure s
  | .assertTrue b, s => do
    let b ← index s.conds b
    assert_true b
    pure s
  | .assertFalse b, s => do
    let b ← index s.conds b
    assert_false b
    pure s
  | .hash is, s => do
    let as ← getM s.vals is
    pure (s.pushV (← keccak_hash as))

/-- Issue a sequence of calls. -/
def nexecAll : List (NInstr n) → NSt n → M n (NSt n)
  | [], s => pure s
  | i :: is, s => do nexecAll is (← i.exec s)

/-! ## Reference meaning -/

/-- Reference state: field elements and Booleans. -/
structure NRef (n : ℕ) where
  vals : List (ZMod n)
  flags : List Bool

def NRef.pushV (s : NRef n) (x : ZMod n) : NRef n := { s with vals := s.vals ++ [x] }
def NRef.pushF (s : NRef n) (b : Bool) : NRef n := { s with flags := s.flags ++ [b] }

/-- The elements at the given indices. -/
def getAll {X : Type} (l : List X) : List ℕ → Option (List X)
  | [] => some []
  | i :: is => l[i]? >>= fun x => getAll l is >>= fun xs => some (x :: xs)

/-- A linear combination. -/
def linComb (vals : List (ZMod n)) : List (ℕ × ZMod n) → Option (ZMod n)
  | [] => some 0
  | e :: es => vals[e.1]? >>= fun x => linComb vals es >>= fun y => some (x * e.2 + y)

/-- A sum of products and multiples. -/
def mulSum (vals : List (ZMod n)) : List (ℕ × ℕ × ℕ × ZMod n) → Option (ZMod n)
  | [] => some 0
  | t :: ts => vals[t.1]? >>= fun x => vals[t.2.1]? >>= fun y => vals[t.2.2.1]? >>= fun z =>
      mulSum vals ts >>= fun v => some (x * y + z * t.2.2.2 + v)

/-- A number of 256 bits that stands for a field element. -/
def WordOf (x : ZMod n) (W : ℕ) : Prop := W < 2 ^ 256 ∧ (W : ZMod n) = x

/-- Reference meaning of one call. Chosen by the prover are: an assigned value, an assigned bit, a value of 18 bits, the
"inverse" of zero (which is flagged), the unsafe quotient of zero by zero, and the words of 256 bits that stand for the
operands of a hash. Everything else is determined. -/
inductive NStep : NInstr n → NRef n → NRef n → Prop
  | assign {s} (x y : ZMod n) : NStep (.assign x) s (s.pushV y)
  | const {s} (x : ZMod n) : NStep (.const x) s (s.pushV x)
  | small {s} (x y : ℕ) : y < 2 ^ 18 → NStep (.small x) s (s.pushV (y : ZMod n))
  | sum {s es k x} : linComb s.vals es = some x → NStep (.sum es k) s (s.pushV (k.getD 0 + x))
  | add {s i j x y} : s.vals[i]? = some x → s.vals[j]? = some y → NStep (.add i j) s (s.pushV (x + y))
  | addConst {s i k x} : s.vals[i]? = some x → NStep (.addConst i k) s (s.pushV (x + k))
  | sub {s i j x y} : s.vals[i]? = some x → s.vals[j]? = some y → NStep (.sub i j) s (s.pushV (x - y))
  | mul {s i j x y} : s.vals[i]? = some x → s.vals[j]? = some y → NStep (.mul i j) s (s.pushV (x * y))
  | mulAddConst {s i j k x y} : s.vals[i]? = some x → s.vals[j]? = some y →
      NStep (.mulAddConst i j k) s (s.pushV (x * y + k))
  | mulAdd {s i j k d l x y z} : s.vals[i]? = some x → s.vals[j]? = some y → s.vals[d]? = some z →
      NStep (.mulAdd i j k d l) s (s.pushV (x * y * k + z * l))
  | mulAdds {s ts x} : mulSum s.vals ts = some x → NStep (.mulAdds ts) s (s.pushV x)
  | invUnsafe {s i x y} : s.vals[i]? = some x → x * y = 1 → NStep (.invUnsafe i) s (s.pushV y)
  | divUnsafe {s i j x y q} : s.vals[i]? = some x → s.vals[j]? = some y → y * q = x →
      NStep (.divUnsafe i j) s (s.pushV q)
  | invert {s i x y} : s.vals[i]? = some x → (x ≠ 0 → x * y = 1) →
      NStep (.invert i) s ((s.pushV y).pushF (decide (x = 0)))
  | isZero {s i x} : s.vals[i]? = some x → NStep (.isZero i) s (s.pushF (decide (x = 0)))
  | bit {s} (f g : Bool) : NStep (.bit f) s (s.pushF g)
  | assertBit {s i f} : s.vals[i]? = some (if f then 1 else 0) → NStep (.assertBit i) s (s.pushF f)
  | value {s b f} : s.flags[b]? = some f → NStep (.value b) s (s.pushV (if f then 1 else 0))
  | not {s b x} : s.flags[b]? = some x → NStep (.not b) s (s.pushF (!x))
  | and {s b b' x y} : s.flags[b]? = some x → s.flags[b']? = some y → NStep (.and b b') s (s.pushF (x && y))
  | or {s b b' x y} : s.flags[b]? = some x → s.flags[b']? = some y → NStep (.or b b') s (s.pushF (x || y))
  | notAnd {s b b' x y} : s.flags[b]? = some x → s.flags[b']? = some y → NStep (.notAnd b b') s (s.pushF (!x && y))
  | xor {s b b' x y} : s.flags[b]? = some x → s.flags[b']? = some y → NStep (.xor b b') s (s.pushF (x != y))
  | xnor {s b b' x y} : s.flags[b]? = some x → s.flags[b']? = some y → NStep (.xnor b b') s (s.pushF (x == y))
  | select {s b i j f x y} : s.flags[b]? = some f → s.vals[i]? = some x → s.vals[j]? = some y →
      NStep (.select b i j) s (s.pushV (if f then x else y))
  | selectCond {s b i j f x y} : s.flags[b]? = some f → s.flags[i]? = some x → s.flags[j]? = some y →
      NStep (.selectCond b i j) s (s.pushF (if f then x else y))
  | assertEqual {s i j x} : s.vals[i]? = some x → s.vals[j]? = some x → NStep (.assertEqual i j) s s
  | assertConst {s i k} : s.vals[i]? = some k → NStep (.assertConst i k) s s
  | assertTrue {s b} : s.flags[b]? = some true → NStep (.assertTrue b) s s
  | assertFalse {s b} : s.flags[b]? = some false → NStep (.assertFalse b) s s
  | hash {s is xs Ws} : getAll s.vals is = some xs → List.Forall₂ WordOf xs Ws →
      NStep (.hash is) s (s.pushV (Keccak.hashWords Ws : ℕ))

/-- Reference meaning of a sequence of calls. -/
inductive NSteps : List (NInstr n) → NRef n → NRef n → Prop
  | nil {s} : NSteps [] s s
  | cons {i is s t u} : NStep i s t → NSteps is t u → NSteps (i :: is) s u

/-- The honest run: what is assigned takes the given value, the inverse of zero is zero, and a hash is that of the
canonical representatives. `none` if a call is outside its domain (unknown index, a value of more than 18 bits, an empty
combination, an unsafe division by zero) or an assertion fails. -/
def NInstr.eval : NInstr n → NRef n → Option (NRef n)
  | .assign x, s => some (s.pushV x)
  | .const x, s => some (s.pushV x)
  | .small x, s => if x < 2 ^ 18 then some (s.pushV (x : ZMod n)) else none
  | .sum es k, s => linComb s.vals es >>= fun x => if es = [] then none else some (s.pushV (k.getD 0 + x))
  | .add i j, s => s.vals[i]? >>= fun x => s.vals[j]? >>= fun y => some (s.pushV (x + y))
  | .addConst i k, s => s.vals[i]? >>= fun x => some (s.pushV (x + k))
  | .sub i j, s => s.vals[i]? >>= fun x => s.vals[j]? >>= fun y => some (s.pushV (x - y))
  | .mul i j, s => s.vals[i]? >>= fun x => s.vals[j]? >>= fun y => some (s.pushV (x * y))
  | .mulAddConst i j k, s => s.vals[i]? >>= fun x => s.vals[j]? >>= fun y => some (s.pushV (x * y + k))
  | .mulAdd i j k d l, s => s.vals[i]? >>= fun x => s.vals[j]? >>= fun y => s.vals[d]? >>= fun z =>
      some (s.pushV (x * y * k + z * l))
  | .mulAdds ts, s => mulSum s.vals ts >>= fun x => if ts = [] then none else some (s.pushV x)
  | .invUnsafe i, s => s.vals[i]? >>= fun x => if x = 0 then none else some (s.pushV x⁻¹)
  | .divUnsafe i j, s => s.vals[i]? >>= fun x => s.vals[j]? >>= fun y =>
      if y = 0 then none else some (s.pushV (x * y⁻¹))
  | .invert i, s => s.vals[i]? >>= fun x => some ((s.pushV x⁻¹).pushF (decide (x = 0)))
  | .isZero i, s => s.vals[i]? >>= fun x => some (s.pushF (decide (x = 0)))
  | .bit f, s => some (s.pushF f)
  | .assertBit i, s => s.vals[i]? >>= fun x =>
      if x = 1 then some (s.pushF true) else if x = 0 then some (s.pushF false) else none
  | .value b, s => s.flags[b]? >>= fun f => some (s.pushV (if f then 1 else 0))
  | .not b, s => s.flags[b]? >>= fun x => some (s.pushF (!x))
  | .and b b', s => s.flags[b]? >>= fun x => s.flags[b']? >>= fun y => some (s.pushF (x && y))
  | .or b b', s => s.flags[b]? >>= fun x => s.flags[b']? >>= fun y => some (s.pushF (x || y))
  | .notAnd b b', s => s.flags[b]? >>= fun x => s.flags[b']? >>= fun y => some (s.pushF (!x && y))
  | .xor b b', s => s.flags[b]? >>= fun x => s.flags[b']? >>= fun y => some (s.pushF (x != y))
  | .xnor b b', s => s.flags[b]? >>= fun x => s.flags[b']? >>= fun y => some (s.pushF (x == y))
  | .select b i j, s => s.flags[b]? >>= fun f => s.vals[i]? >>= fun x => s.vals[j]? >>= fun y =>
      some (s.pushV (if f then x else y))
  | .selectCond b i j, s => s.flags[b]? >>= fun f => s.flags[i]? >>= fun x => s.flags[j]? >>= fun y =>
      some (s.pushF (if f then x else y))
  | .assertEqual i j, s => s.vals[i]? >>= fun x => s.vals[j]? >>= fun y => if x = y then some s else none
  | .assertConst i k, s => s.vals[i]? >>= fun x => if x = k then some s else none
  | .assertTrue b, s => s.flags[b]? >>= fun x => if x then some s else none
  | .assertFalse b, s => s.flags[b]? >>= fun x => if x then none else some s
  | .hash is, s => getAll s.vals is >>= fun xs => some (s.pushV (Keccak.hashWords (xs.map ZMod.val) : ℕ))

/-- The honest run of a sequence of calls. -/
def nevalAll : List (NInstr n) → NRef n → Option (NRef n)
  | [], s => some s
  | i :: is, s => i.eval s >>= nevalAll is

/-- A cell holding the value `x` under `w`. -/
def HoldsV (w : Advice n) (a : AssignedValue n) (x : ZMod n) : Prop := w a.cell = x

/-- The state `s` stands for the reference state `r` under the assignment `w`. -/
structure RepNSt (w : Advice n) (s : NSt n) (r : NRef n) : Prop where
  vals : List.Forall₂ (HoldsV w) s.vals r.vals
  conds : List.Forall₂ (Holds w) s.conds r.flags

/-- The recorded values of the state `s` are the honest ones for the reference state `r`. -/
structure HRepNSt (s : NSt n) (r : NRef n) : Prop where
  vals : List.Forall₂ (fun a x => a.val = x) s.vals r.vals
  conds : List.Forall₂ (fun a b => a.val = if b then 1 else 0) s.conds r.flags

/-- All cells of the state are recorded faithfully. -/
structure OkNSt (h : Advice n) (s : NSt n) : Prop where
  vals : ∀ a ∈ s.vals, Ok h a
  conds : ∀ a ∈ s.conds, Ok h a

/-- The calls that record bits: only for these is `BitRowsConsistent` needed (see C06). -/
def NInstr.usesBits : NInstr n → Prop
  | .bit _ => True
  | .hash _ => True
  | _ => False

end Verif
