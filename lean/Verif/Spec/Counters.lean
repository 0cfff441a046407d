import Verif.Spec.ApiStore

/-!
# The integers held by a client

Every assigned object is built from `AssignedInteger`s (and values and conditions). Each of them carries a `u64`, the
number of additions since the last reduction (`AssignedInteger::times`, `src/assign.rs:35`).
-/

namespace Verif
variable {n : ℕ}

def AssignedPoint.ints (p : AssignedPoint n) : List (AssignedInteger n) := [p.x, p.y]
def AssignedNonZeroPoint.ints (p : AssignedNonZeroPoint n) : List (AssignedInteger n) := [p.x, p.y]
def AssignedPointWithCurvature.ints (p : AssignedPointWithCurvature n) : List (AssignedInteger n) := [p.x, p.y, p.curvature.v]
def AssignedFq2.ints (a : AssignedFq2 n) : List (AssignedInteger n) := [a.1, a.2]
def AssignedFq6.ints (a : AssignedFq6 n) : List (AssignedInteger n) := [a.c0.1, a.c0.2, a.c1.1, a.c1.2, a.c2.1, a.c2.2]
def AssignedFq12.ints (a : AssignedFq12 n) : List (AssignedInteger n) := a.c0.ints ++ a.c1.ints
def AssignedG2Affine.ints (a : AssignedG2Affine n) : List (AssignedInteger n) := [a.x.1, a.x.2, a.y.1, a.y.2]
def LineCoeffs.ints (a : LineCoeffs n) : List (AssignedInteger n) := [a.c0.1, a.c0.2, a.c1.1, a.c1.2, a.c2.1, a.c2.2]

/-- All integers a client holds. -/
def Store.ints (σ : Store n) : List (AssignedInteger n) :=
  σ.i ++ σ.p.flatMap AssignedPoint.ints ++ σ.c.flatMap AssignedPointWithCurvature.ints ++
  σ.z.flatMap AssignedNonZeroPoint.ints ++ σ.f2.flatMap AssignedFq2.ints ++ σ.f6.flatMap AssignedFq6.ints ++
  σ.f12.flatMap AssignedFq12.ints ++ σ.g2.flatMap AssignedG2Affine.ints ++ σ.lines.flatten.flatMap LineCoeffs.ints

end Verif
