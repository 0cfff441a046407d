import Verif.Model.Synthesis
import Verif.Spec.Log

/-!
# What synthesis needs and yields
-/

namespace Verif
variable {n : ℕ}

/-- The number of advice columns of a chip. -/
def Chip.width : Chip → ℕ
  | .base => 5
  | .range => 3
  | .select => 2

/-- The number of advice columns of a chip that may take part in copy constraints: those for which `configure` enables
equality, `src/circuit/base_chip.rs:48`, `src/circuit/range_chip.rs:116`, `src/circuit/select_chip.rs:68-69`. They are the
first ones. (For the code that enables them see `Model/Configure.lean`.) -/
def Chip.copyable : Chip → ℕ
  | .base => 5
  | .range => 1
  | .select => 2

/-- Every recorded row is within the arrays. -/
def RowsFit (s : Records n) (max_rows : ℕ) : Prop :=
  ∀ chip r c, s.inner.fixOf chip r c ≠ none ∨ s.inner.advOf chip r c ≠ none → r < max_rows

/-- Every recorded row is below the height. -/
def RowsBelow (s : Records n) : Prop :=
  ∀ chip r c, s.inner.fixOf chip r c ≠ none ∨ s.inner.advOf chip r c ≠ none → r < s.heightOf chip

/-- The cell exists, may be copied, has a value, and is marked as taking part in a copy constraint. -/
def CellReady (s : Records n) (c : Cell) : Prop :=
  c.col < c.region.copyable ∧ s.inner.advOf c.region c.row c.col ≠ none ∧ s.inner.permute_flag c = true

/-- Every copy constraint is between such cells. -/
def CopiesReady (s : Records n) : Prop := ∀ p ∈ s.permutations, CellReady s p.1 ∧ CellReady s p.2

/-- The cell exists, may be copied, has this value, and is marked as taking part in a copy constraint. -/
def CellHolds (s : Records n) (c : Cell) (v : ZMod n) : Prop :=
  c.col < c.region.copyable ∧ s.inner.advOf c.region c.row c.col = some v ∧ s.inner.permute_flag c = true

/-- The recorded values satisfy every copy constraint. -/
def CopiesHold (s : Records n) : Prop := ∀ p ∈ s.permutations, ∃ v, CellHolds s p.1 v ∧ CellHolds s p.2 v

/-- Exactly what is recorded has been assigned. -/
def Layout.Is (L : Layout n) (s : Records n) : Prop :=
  L.adv = s.inner.advOf ∧ L.fix = s.inner.fixOf ∧ L.copies = s.permutations

end Verif
