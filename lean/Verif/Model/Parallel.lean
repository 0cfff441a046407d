import Verif.Model.Core

/-!
# Clones of a context and merging

Model of `Offset` and `ParallelClone`, `src/circuit/ecc_chip.rs:36-77`, implemented identically for the two scalar
contexts in `src/circuit/native_scalar_ecc_chip.rs:50-90` and `src/circuit/general_scalar_ecc_chip.rs:43-91`.

A clone shares the record arrays of the original (`inner` is an `Arc` written through `Arc::get_mut_unchecked`), and has
its own list of copy constraints, heights and offsets. In the model, work on a clone runs on a context whose `inner` is
the current shared one, and its writes are carried over to the parent afterwards. The clones of
`par_iter_mut` are run one after another here; that no interleaving of their writes gives anything else is C34.
-/

namespace Verif
variable {n : ℕ} {α ε : Type}

/-- `Offset`, `src/circuit/ecc_chip.rs:36-41`. -/
structure Offsets where
  base : ℕ
  range : ℕ
  select : ℕ
deriving DecidableEq

/-- `Offset::scale`, `src/circuit/ecc_chip.rs:54-62`. -/
def Offsets.scale (o : Offsets) (k : ℕ) : Offsets := ⟨o.base * k, o.range * k, o.select * k⟩

/-- `Offset::sub`, `src/circuit/ecc_chip.rs:43-52` (subtraction of naturals; the offsets only grow, C33). -/
def Offsets.sub (a b : Offsets) : Offsets := ⟨a.base - b.base, a.range - b.range, a.select - b.select⟩

/-- Componentwise sum. -/
def Offsets.add (a b : Offsets) : Offsets := ⟨a.base + b.base, a.range + b.range, a.select + b.select⟩

/-- `offset`, `src/circuit/native_scalar_ecc_chip.rs:72-78`. -/
def Context.offs (s : Context n) : Offsets := ⟨s.base_offset, s.range_offset, s.select_offset⟩

/-- The context with these records and offsets. -/
def Context.mk' (r : Records n) (o : Offsets) : Context n := ⟨r, o.base, o.range, o.select⟩

/-- `apply_offset_diff`, `src/circuit/native_scalar_ecc_chip.rs:51-55`. -/
def Context.apply_offset_diff (s : Context n) (d : Offsets) : Context n := Context.mk' s.records (s.offs.add d)

/-- `clone_without_permutation`, `src/context.rs:145-158`. -/
def Context.clone_without_permutation (s : Context n) : Context n :=
  { s with records := { s.records with permutations := [] } }

/-- `clone_with_offset`, `src/circuit/native_scalar_ecc_chip.rs:57-70`. -/
def Context.clone_with_offset (s : Context n) (d : Offsets) : Context n :=
  s.clone_without_permutation.apply_offset_diff d

/-- The effect on `s` of writes made through a clone, whose shared arrays are now `inner`. -/
def Context.share (s : Context n) (inner : RecordsInner n) : Context n :=
  { s with records := { s.records with inner := inner } }

/-- `merge`, `src/circuit/native_scalar_ecc_chip.rs:80-89`. The range height is computed from the select height, as in
the code. -/
def Context.merge (s other : Context n) : Context n :=
  { s with records := { s.records with
      permutations := s.records.permutations ++ other.records.permutations
      base_height := max s.records.base_height other.records.base_height
      range_height := max s.records.select_height other.records.range_height
      select_height := max s.records.select_height other.records.select_height } }

/-- Run `m` on a clone made with `Context::clone`, `src/context.rs:40` (`derive(Clone)`; also for `Records`, l. 293). The
arrays are behind an `Arc` (l. 295), which `clone` copies as a pointer, and are written through
`Arc::get_mut_unchecked`. Returns the result, the original as it is afterwards, and the clone. -/
def onClone (m : M n α) (s : Context n) : Except Panic (α × Context n × Context n) :=
  match m s with
  | .error p => .error p
  | .ok (a, t) => .ok (a, s.share t.records.inner, t)

/-- The first window, `src/circuit/ecc_chip.rs:152-167` and `289-309`: run on a clone, measure the offsets used, merge. -/
def predict (m : M n (Except ε α)) : M n (Except ε (α × Offsets)) := fun s =>
  match m (s.clone_with_offset ⟨0, 0, 0⟩) with
  | .error p => .error p
  | .ok (.error e, t) => .ok (.error e, s.share t.records.inner)
  | .ok (.ok a, t) => .ok (.ok (a, t.offs.sub s.offs), (s.share t.records.inner).merge t)

/-- The work on one clone, `src/circuit/ecc_chip.rs:176-194` and `318-342`, and the assertion on the offsets it used. -/
def clone_body (diff : Offsets) (m : M n (Except ε α)) (before : Offsets) : M n (Except ε α) := do
  let r ← m
  match r with
  | .error e => pure (.error e)
  | .ok a => do
    let after ← fun s => .ok (s.offs, s)
    rassert (after.sub before = diff)
    pure (.ok a)

/-- The clones for the windows in the list, `src/circuit/ecc_chip.rs:170-195` and `312-343`. `s` is the context cloned;
`inner` are the shared arrays. Returns the results with the clones' final contexts and the shared arrays. -/
def run_clones (s : Context n) (diff : Offsets) (body : ℕ → M n (Except ε α)) :
    RecordsInner n → List ℕ → Except Panic (Except ε (List (α × Context n)) × RecordsInner n)
  | inner, [] => .ok (.ok [], inner)
  | inner, i :: is =>
    let start := (s.share inner).clone_with_offset (diff.scale i)
    match clone_body diff (body i) start.offs start with
    | .error p => .error p
    | .ok (.error e, t) => .ok (.error e, t.records.inner)
    | .ok (.ok a, t) =>
      match run_clones s diff body t.records.inner is with
      | .error p => .error p
      | .ok (.error e, inner) => .ok (.error e, inner)
      | .ok (.ok l, inner) => .ok (.ok ((a, t) :: l), inner)

/-- The windows after the first, `src/circuit/ecc_chip.rs:170-204` and `312-352`: merge the clones and move the offsets
behind the last window. -/
def rest_windows (windows : ℕ) (diff : Offsets) (body : ℕ → M n (Except ε α)) : M n (Except ε (List α)) := fun s =>
  match run_clones s diff body s.records.inner (List.range' 1 (windows - 1)) with
  | .error p => .error p
  | .ok (.error e, inner) => .ok (.error e, s.share inner)
  | .ok (.ok l, inner) => .ok (.ok (l.map Prod.fst),
      ((l.map Prod.snd).foldl Context.merge (s.share inner)).apply_offset_diff (diff.scale windows))

/-- All windows, `src/circuit/ecc_chip.rs:152-204` and `289-352`: the first on a clone that measures the offsets, the
others on clones shifted by multiples of what it used. -/
def windows_parallel (windows : ℕ) (body : ℕ → M n (Except ε α)) : M n (Except ε (List α)) := do
  let r ← predict (body 0)
  match r with
  | .error e => pure (.error e)
  | .ok (a, diff) => do
    let r ← rest_windows windows diff body
    match r with
    | .error e => pure (.error e)
    | .ok l => pure (.ok (a :: l))

end Verif
