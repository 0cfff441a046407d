import Verif.Model.Core
import Mathlib.Logic.Function.Basic

/-!
# Model of the ownership of contexts, `src/context.rs:161-241` and the clones of `ParallelClone`

Contexts are shared by reference counting, `Rc<RefCell<Context<N>>>`. In the rest of the model there is one context, the
state. Here the contents are left out, and what is modelled is who refers to which context: the strong counts, which objects
are alive, the conversions back to a context, which panic unless the count is 1, and the two borrows of `merge`, which panic
if they are of one context. All other borrows last for a single statement.

An object is named by the slot it is in. A move empties the slot; using an empty slot, or one of another type, is
what the compiler rejects.
-/

namespace Verif.Owner

/-- The objects that hold references; the numbers are those of the contexts. -/
inductive Obj where
  /-- `Rc<RefCell<Context<N>>>`. -/
  | rc (k : ℕ)
  /-- `IntegerContext`, `src/context.rs:161-165`. -/
  | int (k : ℕ)
  /-- `NativeScalarEccContext`, `src/context.rs:190-193`. -/
  | native (k : ℕ)
  /-- `GeneralScalarEccContext`, `src/context.rs:216-221`: the references of `base_integer_ctx`, of `scalar_integer_ctx` and
  `native_ctx`. The constructor makes them the same; the fields are public, so that they need not be. -/
  | general (a b k : ℕ)

inductive Fault where
  /-- The compiler rejects the program. -/
  | rejected
  | panic (p : Panic)

/-- Strong counts, the number of contexts allocated so far, and the slots. -/
structure State where
  cnt : ℕ → ℕ
  next : ℕ
  slots : List (Option Obj)

def State.empty : State := ⟨fun _ => 0, 0, []⟩

/-- `Rc::clone`. -/
def State.inc (s : State) (k : ℕ) : State := { s with cnt := Function.update s.cnt k (s.cnt k + 1) }
/-- Drop of an `Rc`. -/
def State.dec (s : State) (k : ℕ) : State := { s with cnt := Function.update s.cnt k (s.cnt k - 1) }
/-- `Rc::new`. -/
def State.alloc (s : State) : State := { s with cnt := Function.update s.cnt s.next 1, next := s.next + 1 }
def State.push (s : State) (o : Obj) : State := { s with slots := s.slots ++ [some o] }
def State.put (s : State) (i : ℕ) (o : Option Obj) : State := { s with slots := s.slots.set i o }

def State.get (s : State) (i : ℕ) : Except Fault Obj :=
  match s.slots[i]? with
  | some (some o) => .ok o
  | _ => .error .rejected

/-- `Rc::try_unwrap(..).unwrap()`. -/
def State.try_unwrap (s : State) (k : ℕ) : Except Fault State :=
  if s.cnt k = 1 then .ok (s.dec k) else .error (.panic .unwrapNone)

/-- Drop of an object: of its fields, in order. -/
def State.drop_obj (s : State) : Obj → State
  | .rc k | .int k | .native k => s.dec k
  | .general a b k => ((s.dec a).dec b).dec k

inductive Op where
  | newRc
  | cloneRc (i : ℕ)
  | newInt (i : ℕ)
  | cloneInt (i : ℕ)
  | newNative (i : ℕ)
  | newGeneral (i : ℕ)
  | pack (i j k : ℕ)
  | unpackNative (i : ℕ)
  | unpackGeneral (i : ℕ)
  | cloneWithOffset (i : ℕ)
  | drop (i : ℕ)
  | merge (i j : ℕ)
  | take (i : ℕ)

/-- `merge`, `src/circuit/native_scalar_ecc_chip.rs:80-89` and `src/circuit/general_scalar_ecc_chip.rs:82-91`: both contexts are
borrowed mutably at the same time; then `other`, in slot `j`, is dropped. -/
def State.merge_step (s : State) (j k k' : ℕ) (other : Obj) : Except Fault State :=
  if k = k' then .error (.panic .assertion) else .ok ((s.put j none).drop_obj other)

def step (s : State) : Op → Except Fault State
  -- `Rc::new(RefCell::new(Context::new()))` by the client
  | .newRc => .ok (s.alloc.push (.rc s.next))
  -- `Rc::clone` by the client
  | .cloneRc i => do
    match ← s.get i with
    | .rc k => .ok ((s.inc k).push (.rc k))
    | _ => .error .rejected
  -- `IntegerContext::new`, `src/context.rs:174-187`: takes the reference
  | .newInt i => do
    match ← s.get i with
    | .rc k => .ok (s.put i (some (.int k)))
    | _ => .error .rejected
  -- `#[derive(Clone)]` of `IntegerContext`, `src/context.rs:161`
  | .cloneInt i => do
    match ← s.get i with
    | .int k => .ok ((s.inc k).push (.int k))
    | _ => .error .rejected
  -- `NativeScalarEccContext::new_with_select_chip`, `new_without_select_chip`, `src/context.rs:195-207`
  | .newNative i => do
    match ← s.get i with
    | .int k => .ok (s.put i (some (.native k)))
    | _ => .error .rejected
  -- `GeneralScalarEccContext::new`, `src/context.rs:231-240`: two clones, and the reference itself
  | .newGeneral i => do
    match ← s.get i with
    | .rc k => .ok (((s.inc k).inc k).put i (some (.general k k k)))
    | _ => .error .rejected
  -- a `GeneralScalarEccContext` from its public fields
  | .pack i j k => do
    if i = j ∨ i = k ∨ j = k then .error .rejected else
    match ← s.get i, ← s.get j, ← s.get k with
    | .int a, .int b, .rc c => .ok (((s.put i none).put j none).put k (some (.general a b c)))
    | _, _, _ => .error .rejected
  -- the public field of a `NativeScalarEccContext`
  | .unpackNative i => do
    match ← s.get i with
    | .native k => .ok (s.put i (some (.int k)))
    | _ => .error .rejected
  -- the public fields of a `GeneralScalarEccContext`
  | .unpackGeneral i => do
    match ← s.get i with
    | .general a b k => .ok (((s.put i (some (.rc k))).push (.int a)).push (.int b))
    | _ => .error .rejected
  -- `clone_with_offset`, `src/circuit/native_scalar_ecc_chip.rs:57-70` (a new `Rc`) and
  -- `src/circuit/general_scalar_ecc_chip.rs:51-72` (a new `Rc`, three clones of it, and it is dropped at the end)
  | .cloneWithOffset i => do
    match ← s.get i with
    | .native _ => .ok (s.alloc.push (.native s.next))
    | .general _ _ _ => .ok (((((s.alloc.inc s.next).inc s.next).inc s.next).dec s.next).push (.general s.next s.next s.next))
    | _ => .error .rejected
  | .drop i => do
    let o ← s.get i
    .ok ((s.put i none).drop_obj o)
  | .merge i j => do
    if i = j then .error .rejected else
    match ← s.get i, ← s.get j with
    | .native k, .native k' => s.merge_step j k k' (.native k')
    | .general _ _ k, .general a b k' => s.merge_step j k k' (.general a b k')
    | _, _ => .error .rejected
  -- the conversions to `Context`, `src/context.rs:167-171`, `209-213`, `223-229`
  | .take i => do
    match ← s.get i with
    | .int k | .native k => (s.put i none).try_unwrap k
    | .general a b k => (((s.put i none).dec a).dec b).try_unwrap k
    | .rc _ => .error .rejected

def run (s : State) : List Op → Except Fault State
  | [] => .ok s
  | o :: os => do run (← step s o) os

/-- The clones and merges of a multi-scalar multiplication with `w + 1` windows on the curve context in slot `i`, when `l`
slots are in use, `src/circuit/ecc_chip.rs:152-204` and `289-352`: one for the first window, which is merged at once, and one
for each of the others. -/
def msmOps (i l w : ℕ) : List Op :=
  [.cloneWithOffset i, .merge i l] ++
    ((List.range w).map (fun _ => Op.cloneWithOffset i) ++ (List.range w).map fun t => Op.merge i (l + 1 + t))

end Verif.Owner
