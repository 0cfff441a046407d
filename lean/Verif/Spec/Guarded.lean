import Verif.Model.Guarded
import Verif.Spec.Log
import Verif.Spec.Synthesis
import Verif.Proof.Parallel

/-!
# An operation with its guards

`Guarding g m m'`: `m'` is the operation `m` in which every primitive writer also checks its guards.
-/

namespace Verif
variable {n : ℕ} {α : Type}

/-- `m'` is `m` with every primitive writer replaced by the one that checks the guards `g`. The continuation of a
sequence only matters for values its first part can return. -/
inductive Guarding (g : Guards) : {α : Type} → M n α → M n α → Prop
  | pure {α : Type} (a : α) : Guarding g (pure a : M n α) (pure a)
  | panic {α : Type} (p : Panic) : Guarding g (panic p : M n α) (panic p)
  | bind {α β : Type} {m m' : M n α} {k k' : α → M n β} (hm : Guarding g m m')
      (hk : ∀ a, (∃ s t, m s = .ok (a, t)) → Guarding g (k a) (k' a)) : Guarding g (m >>= k) (m' >>= k')
  | one_line (pairs : List (ValueSchema n × ZMod n)) (constant : Option (ZMod n)) (mul : List (ZMod n))
      (next : Option (ZMod n)) (hne : pairs ≠ []) :
      Guarding g (one_line pairs constant mul next) (Guarded.one_line g pairs constant mul next)
  | one_line_with_last (pairs : List (ValueSchema n × ZMod n)) (last : ValueSchema n × ZMod n)
      (constant : Option (ZMod n)) (mul : List (ZMod n)) (next : Option (ZMod n)) :
      Guarding g (one_line_with_last pairs last constant mul next)
        (Guarded.one_line_with_last g pairs last constant mul next)
  | assign_range (v : ZMod n × List (ZMod n)) (bits : ℕ) : Guarding g (assign_range v bits) (Guarded.assign_range g v bits)
  | assign_common (bn : ℕ) : Guarding g (assign_common bn) (Guarded.assign_common g bn)
  | assign_cache_value (v : AssignedValue n) (offset group_index selector : ℕ) :
      Guarding g (assign_cache_value v offset group_index selector)
        (Guarded.assign_cache_value g v offset group_index selector)
  | assign_selected_value (v : AssignedValue n) (offset group_index : ℕ) (selector : AssignedValue n) :
      Guarding g (assign_selected_value v offset group_index selector)
        (Guarded.assign_selected_value g v offset group_index selector)
  | parallel {α ε : Type} (windows : ℕ) {body body' : ℕ → M n (Except ε α)}
      (hb : ∀ i, Guarding g (body i) (body' i)) (hne : ∀ i, NeverErr (body i))
      (hw : windows = 0 → ∀ s, ∃ p, body 0 s = .error p) :
      Guarding g (windows_parallel windows body) (windows_parallel windows body')

/-- No offset is past the end of the arrays. -/
def Guards.FitsOffs (g : Guards) (o : Offsets) : Prop := ∀ k, g.max_rows = some k → ∀ chip, o.at chip ≤ k

/-- No copied cell is past the end of the arrays. -/
def Guards.FitsPerms (g : Guards) (l : List (Cell × Cell)) : Prop :=
  ∀ k, g.max_rows = some k → ∀ p ∈ l, p.1.row < k ∧ p.2.row < k

/-- The rows used and the cells copied fit into the arrays. -/
def Guards.Fits (g : Guards) (s : Context n) : Prop := g.FitsOffs s.offs ∧ g.FitsPerms s.records.permutations

/-- The number of fixed columns of a chip. -/
def Chip.fixCols : Chip → ℕ
  | .base => 9
  | .range => 2
  | .select => 2

/-- Every row of every chip from `o` up to `o'` has a fixed value and an advice value. -/
def FilledIn (o o' : Offsets) (s : RecordsInner n) : Prop :=
  ∀ chip r, o.at chip ≤ r → r < o'.at chip → (∃ c, c < chip.fixCols ∧ s.fixOf chip r c ≠ none) ∧
    ∃ c, c < chip.width ∧ s.advOf chip r c ≠ none

end Verif
