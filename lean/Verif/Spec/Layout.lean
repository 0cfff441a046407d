import Verif.Spec.Synthesis
import Verif.Spec.Circuit

/-!
# What has been synthesized

The circuit and the witness that the constraint system gets to see: what synthesis has assigned, where cells that have not
been assigned are 0 (as in halo2).
-/

namespace Verif
namespace Layout
variable {n : ℕ}

/-- The synthesized circuit, on `usable` rows. -/
def circuit (L : Layout n) (usable : ℕ) : Circuit n where
  usable := usable
  baseFix r c := (L.fix .base r c).getD 0
  rangeFix r c := (L.fix .range r c).getD 0
  selFix r c := (L.fix .select r c).getD 0
  copies := L.copies

/-- The synthesized witness. -/
def witness (L : Layout n) : Advice n := fun c => (L.adv c.region c.row c.col).getD 0

end Layout

/-- Synthesis, with or without a select chip. -/
def synthesize {n : ℕ} (select : Bool) (s : Records n) (max_rows : ℕ) : Except Panic (Layout n) :=
  if select then assign_all s max_rows else assign_all_without_select s max_rows

/-- The records as they are handed to the constraint system: synthesis goes through, the circuit that the constraint
system sees is the recorded one, and the witness that it sees is the recorded one and satisfies it. -/
def Handed {n : ℕ} (select : Bool) (t : Context n) (max_rows : ℕ) : Prop :=
  ∃ L, synthesize select t.records max_rows = .ok L ∧ L.witness = t.honest ∧ ∀ usable, L.circuit usable = t.circuit usable ∧
    (t.Fits usable → (L.circuit usable).Sat L.witness)

/-- What `C36_exact_partial` asks for: a row of the base chip, and not too many rows of the range chip. -/
def Balanced {n : ℕ} (t : Context n) : Prop :=
  1 ≤ t.records.base_height ∧ t.range_offset ≤ 16 * ((t.records.base_height + 15) / 16) ^ 2

end Verif
