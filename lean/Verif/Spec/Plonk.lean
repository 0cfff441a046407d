import Verif.Model.Configure
import Verif.Spec.Layout
import Verif.Spec.Guarded

/-!
# What a constraint system means

Halo2's reading of a constraint system, independent of the chips. The rows of a circuit are `0, …, rows - 1`, with
wrap-around; the last ones are not usable. Polynomials of gates vanish on every row (also on those which are not usable);
lookups are done from usable rows into usable rows.
-/

namespace Verif
variable {n : ℕ}

/-- The values of all columns. -/
abbrev Assignment (n : ℕ) := Column → ℕ → ZMod n

/-- The row that a query refers to. -/
def rotated (rows r : ℕ) (rotation : ℤ) : ℕ := (((r : ℤ) + rotation) % (rows : ℤ)).toNat

/-- The value of an expression in a row. -/
def Expression.eval (rows : ℕ) (A : Assignment n) (r : ℕ) : Expression n → ZMod n
  | .constant c => c
  | .query col rotation => A col (rotated rows r rotation)
  | .negated e => - e.eval rows A r
  | .sum a b => a.eval rows A r + b.eval rows A r
  | .product a b => a.eval rows A r * b.eval rows A r
  | .scaled e c => e.eval rows A r * c

/-- The assignment satisfies the constraint system and these copy constraints. -/
structure ConstraintSystem.Satisfied (cs : ConstraintSystem n) (rows usable : ℕ) (copies : List ((Column × ℕ) × (Column × ℕ)))
    (A : Assignment n) : Prop where
  gates : ∀ g ∈ cs.gates, ∀ p ∈ g, ∀ r < rows, p.eval rows A r = 0
  lookups : ∀ l ∈ cs.lookups, ∀ r < usable, ∃ t < usable, ∀ p ∈ l, p.1.eval rows A r = p.2.eval rows A t
  copies : ∀ p ∈ copies, A p.1.1 p.1.2 = A p.2.1 p.2.2

/-- The fixed columns hold what key generation puts there: what synthesis has assigned and 0 elsewhere, and the range
table, which is filled up with its first row. -/
structure Carries (cfg : ChipsConfig) (L : Layout n) (usable : ℕ) (A : Assignment n) : Prop where
  fix : ∀ chip col k, col < chip.fixCols → cfg.fixCol chip col = some k →
    ∀ r, A k r = if r < usable then (L.fix chip r col).getD 0 else 0
  tag : ∀ r < usable, A cfg.range.range_tag_table_column r = ((init_table n)[r]?.getD ((init_table n).headD (0, 0))).1
  value : ∀ r < usable, A cfg.range.range_value_table_column r = ((init_table n)[r]?.getD ((init_table n).headD (0, 0))).2

/-- The advice cells of the chips in an assignment. (The cells of a chip that is not there count as 0.) -/
def adviceOf (cfg : ChipsConfig) (A : Assignment n) : Advice n := fun c =>
  (cfg.advCol c.region c.col).elim 0 fun k => A k c.row

end Verif
