import Verif.Spec.Judgement
import Verif.Model.Parallel

/-!
# Atomic writes to the records

The elementary effects an operation can have on the records, and what it means for an operation to be a fixed
sequence of such effects.
-/

namespace Verif
variable {n : ℕ} {α : Type}

/-- The offset of a chip. -/
def Offsets.at (o : Offsets) : Chip → ℕ
  | .base => o.base
  | .range => o.range
  | .select => o.select

/-- An elementary effect: write an advice cell, write a fixed cell, mark a cell as taking part in a copy constraint,
append a copy constraint, raise a height to at least `h`. -/
inductive Write (n : ℕ) where
  | adv (chip : Chip) (row col : ℕ) (v : ZMod n)
  | fix (chip : Chip) (row col : ℕ) (v : ZMod n)
  | flag (cell : Cell)
  | perm (a b : Cell)
  | height (chip : Chip) (h : ℕ)

/-- The effect of a write on the records. -/
def Write.apply (s : Records n) : Write n → Records n
  | .adv .base r c v => { s with inner := { s.inner with base_adv_record := setCell s.inner.base_adv_record r c v } }
  | .adv .range r c v => { s with inner := { s.inner with range_adv_record := setCell s.inner.range_adv_record r c v } }
  | .adv .select r c v => { s with inner := { s.inner with select_adv_record := setCell s.inner.select_adv_record r c v } }
  | .fix .base r c v => { s with inner := { s.inner with base_fix_record := setCell s.inner.base_fix_record r c v } }
  | .fix .range r c v => { s with inner := { s.inner with range_fix_record := setCell s.inner.range_fix_record r c v } }
  | .fix .select r c v => { s with inner := { s.inner with select_fix_record := setCell s.inner.select_fix_record r c v } }
  | .flag cell => { s with inner := { s.inner with
      permute_flag := fun c => if c = cell then true else s.inner.permute_flag c } }
  | .perm a b => { s with permutations := s.permutations ++ [(a, b)] }
  | .height .base h => { s with base_height := max s.base_height h }
  | .height .range h => { s with range_height := max s.range_height h }
  | .height .select h => { s with select_height := max s.select_height h }

/-- The effect of a sequence of writes. -/
def applyAll (ws : List (Write n)) (s : Records n) : Records n := ws.foldl Write.apply s

/-- The cell written, if any. -/
def Write.target : Write n → Option (Chip × ℕ)
  | .adv chip r _ _ => some (chip, r)
  | .fix chip r _ _ => some (chip, r)
  | _ => none

/-- The advice record of a chip. -/
def RecordsInner.advOf (s : RecordsInner n) : Chip → ℕ → ℕ → Option (ZMod n)
  | .base => s.base_adv_record
  | .range => s.range_adv_record
  | .select => s.select_adv_record

/-- The fixed record of a chip. -/
def RecordsInner.fixOf (s : RecordsInner n) : Chip → ℕ → ℕ → Option (ZMod n)
  | .base => s.base_fix_record
  | .range => s.range_fix_record
  | .select => s.select_fix_record

/-- The rows from `o` up to `o'` are unwritten. -/
def FreshIn (o o' : Offsets) (s : RecordsInner n) : Prop :=
  ∀ chip r c, o.at chip ≤ r → r < o'.at chip → s.fixOf chip r c = none ∧ s.advOf chip r c = none

/-- `m` started at offsets `o` performs exactly the writes `ws`, whatever the records (as long as the rows it is
going to use are unwritten), returns `a` and moves the offsets to `o'`. -/
def Performs (m : M n α) (o : Offsets) (a : α) (ws : List (Write n)) (o' : Offsets) : Prop :=
  ∀ s : Context n, FreshIn o o' s.records.inner → s.offs = o → m s = .ok (a, Context.mk' (applyAll ws s.records) o')

/-- The sequence of writes `ws` stays between the offsets `o` and `o'` and raises the heights above every row it
writes and every offset it moves. -/
structure Between (o o' : Offsets) (ws : List (Write n)) : Prop where
  le : ∀ chip, o.at chip ≤ o'.at chip
  within : ∀ w ∈ ws, ∀ chip r, w.target = some (chip, r) → o.at chip ≤ r ∧ r < o'.at chip
  covered : ∀ w ∈ ws, ∀ chip r, w.target = some (chip, r) → ∃ h, .height chip h ∈ ws ∧ r < h
  top : ∀ chip, o'.at chip = o.at chip ∨ ∃ h, .height chip h ∈ ws ∧ o'.at chip ≤ h

/-- `m` is a straight-line sequence of writes: at given offsets it either always panics, or always performs the same
writes, between the offsets where it starts and where it ends. -/
def Logged (m : M n α) : Prop :=
  ∀ o, (∃ p, ∀ s : Context n, s.Fresh → s.offs = o → m s = .error p) ∨
    ∃ a ws o', Between o o' ws ∧ Performs m o a ws o'

/-- The height of a chip. -/
def Records.heightOf (s : Records n) : Chip → ℕ
  | .base => s.base_height
  | .range => s.range_height
  | .select => s.select_height

/-- Heights and permutation flags only grow, and every offset moved stays below the height. -/
structure Raised (s t : Context n) : Prop where
  height : ∀ chip, s.records.heightOf chip ≤ t.records.heightOf chip
  flags : ∀ c, s.records.inner.permute_flag c = true → t.records.inner.permute_flag c = true
  top : ∀ chip, t.offs.at chip = s.offs.at chip ∨ t.offs.at chip ≤ t.records.heightOf chip

end Verif
