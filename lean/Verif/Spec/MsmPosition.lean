import Mathlib.Algebra.BigOperators.Group.List.Basic
import Mathlib.Algebra.Group.Defs
import Mathlib.Data.Finset.Card
import Mathlib.Data.Nat.Notation

/-!
# General position of the inputs of the multi-scalar multiplication

The algorithm adds and doubles affine points with incomplete formulas. It succeeds when none of these additions meets
two points with the same abscissa and none of the doublings a point of order two. This file says which points are
added, in terms of the points `Ps`, the scalars `ks` (numbers of `W` bits), the two random points `A` and `L` and the
size of the groups. Nothing here refers to the model.
-/

namespace Verif
variable {α G : Type} [AddCommGroup G]

/-- Bit `wi` of a scalar of `W` bits, the most significant bit first. -/
def windowBit (W wi k : ℕ) : ℕ := k / 2 ^ (W - 1 - wi) % 2

/-- The sum of the points whose scalar has bit `wi` set. -/
def windowSum (W wi : ℕ) (ks : List ℕ) (Ps : List G) : G := (List.zipWith (fun k P => windowBit W wi k • P) ks Ps).sum

/-- The sum of the points weighted by the leading `t` bits of their scalars. -/
def prefixSum (W t : ℕ) (ks : List ℕ) (Ps : List G) : G :=
  (List.zipWith (fun k P => (k / 2 ^ (W - t)) • P) ks Ps).sum

/-- Group `g` of the list, in groups of `size`. -/
def groupOf (size g : ℕ) (l : List α) : List α := (l.drop (g * size)).take size

/-- The random point `L` enters group `g` with alternating sign. -/
def lineSign (L : G) (g : ℕ) : G := if g % 2 = 0 then L else -L

/-- What remains of the signed points of the first `g` groups. -/
def lineRest (L : G) (g : ℕ) : G := if g % 2 = 1 then L else 0

/-- The number of groups of `N` points in groups of `size`. -/
def groupCount (size N : ℕ) : ℕ := (N + size - 1) / size

/-- The size of the groups for `N` points when groups of up to `best` points are wanted: as equal as possible. -/
def groupSize (best N : ℕ) : ℕ := (N + groupCount best N - 1) / groupCount best N

/-- Two points that the incomplete addition accepts. -/
def Addable (P Q : G) : Prop := P ≠ Q ∧ P ≠ -Q

/-- No addition is exceptional.
* `candidates`: building the table of a group adds each of its points to `± L` plus some of the later points.
* `windows`: in each window, the chosen entry of each group is added to `- A` plus the entries of the groups before.
* `double`, `add`, `line`: the accumulator `A + prefixSum t` is doubled, the sum of window `t` is added and, for an odd
  number of groups, `L` is taken off again. -/
structure GeneralPosition (W size : ℕ) (ks : List ℕ) (Ps : List G) (A L : G) : Prop where
  candidates : ∀ g (before : List G) (P : G) (after S : List G), groupOf size g Ps = before ++ P :: after → S.Sublist after →
    Addable (lineSign L g + S.sum) P
  windows : ∀ wi g, wi < W → g * size < Ps.length →
    Addable (lineSign L g + windowSum W wi (groupOf size g ks) (groupOf size g Ps))
      (-A + lineRest L g + windowSum W wi (ks.take (g * size)) (Ps.take (g * size)))
  double : ∀ t < W, (A + prefixSum W t ks Ps) + (A + prefixSum W t ks Ps) ≠ 0
  add : ∀ t < W, Addable (-A + lineRest L (groupCount size Ps.length) + windowSum W t ks Ps)
    ((A + prefixSum W t ks Ps) + (A + prefixSum W t ks Ps))
  line : groupCount size Ps.length % 2 = 1 → ∀ t < W, Addable (A + prefixSum W (t + 1) ks Ps + L) (-L)

open Classical in
/-- The points the batch works on: the identity is replaced by some other point `Gn`. -/
noncomputable def cleanPoints (Gn : G) (Ps : List G) : List G :=
  Ps.map fun P => if P = 0 then Gn else P

open Classical in
/-- The scalars the batch works on: the identity gets the scalar zero. -/
noncomputable def cleanScalars (Ps : List G) (ks : List ℕ) : List ℕ :=
  List.zipWith (fun P k => if P = 0 then 0 else k) Ps ks

/-- At most `k` elements satisfy `p`. -/
def AtMost {α : Type} (k : ℕ) (p : α → Prop) : Prop := ∃ F : Finset α, F.card ≤ k ∧ ∀ A, p A → A ∈ F

end Verif
