import Verif.Model.EccChip
import Verif.Spec.Curve

/-!
# Tables of points

A client of the select chip: it caches groups of points and reads one point back.
-/

namespace Verif
variable {n : ℕ}

/-- Cache the points under group `g` and the selector values `k, k + 1, ..`. -/
def cacheTable (info : RangeInfo n) (g : ℕ) : ℕ → List (AssignedPointWithCurvature n) → M n Unit
  | _, [] => pure ()
  | k, p :: ps => do
    assign_cache_point info p g k
    cacheTable info g (k + 1) ps

/-- Cache the groups under the numbers `g, g + 1, ..`. -/
def cacheGroups (info : RangeInfo n) : ℕ → List (List (AssignedPointWithCurvature n)) → M n Unit
  | _, [] => pure ()
  | g, ps :: gs => do
    cacheTable info g 0 ps
    cacheGroups info (g + 1) gs

/-- Run `m`, which computes the points of all groups and a selector; cache the groups from number `pre` on; select from
group `j`. `q` says which point the recorded values are taken from. -/
def tableProg (info : RangeInfo n) (m : M n (List (List (AssignedPointWithCurvature n)) × AssignedValue n)) (pre j : ℕ)
    (q : List (List (AssignedPointWithCurvature n)) → AssignedPointWithCurvature n) :
    M n (List (List (AssignedPointWithCurvature n)) × AssignedValue n × AssignedPointWithCurvature n) := do
  let (gs, s) ← m
  cacheGroups info pre gs
  let r ← assign_selected_point info (q gs) s (pre + j)
  pure (gs, s, r)

end Verif
