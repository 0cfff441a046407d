import Verif.Spec.ApiStore
import Verif.Spec.Synthesis

/-! # The assigned values inside the objects a client holds -/

namespace Verif
variable {n : ℕ}

def AssignedInteger.values (a : AssignedInteger n) : List (AssignedValue n) := a.limbs_le ++ [a.native]
def AssignedPoint.values (a : AssignedPoint n) : List (AssignedValue n) := a.x.values ++ a.y.values ++ [a.z]
def AssignedNonZeroPoint.values (a : AssignedNonZeroPoint n) : List (AssignedValue n) := a.x.values ++ a.y.values
def AssignedPointWithCurvature.values (a : AssignedPointWithCurvature n) : List (AssignedValue n) :=
  a.x.values ++ a.y.values ++ [a.z] ++ (a.curvature.v.values ++ [a.curvature.z])
def fq2Values (a : AssignedFq2 n) : List (AssignedValue n) := a.1.values ++ a.2.values
def AssignedFq6.values (a : AssignedFq6 n) : List (AssignedValue n) := fq2Values a.c0 ++ fq2Values a.c1 ++ fq2Values a.c2
def AssignedFq12.values (a : AssignedFq12 n) : List (AssignedValue n) := a.c0.values ++ a.c1.values
def AssignedG2Affine.values (a : AssignedG2Affine n) : List (AssignedValue n) := fq2Values a.x ++ fq2Values a.y ++ [a.z]
def LineCoeffs.values (a : LineCoeffs n) : List (AssignedValue n) := fq2Values a.c0 ++ fq2Values a.c1 ++ fq2Values a.c2

/-- All assigned values in a store. -/
def Store.values (σ : Store n) : List (AssignedValue n) :=
  σ.v ++ σ.i.flatMap (·.values) ++ σ.p.flatMap (·.values) ++ σ.c.flatMap (·.values) ++ σ.z.flatMap (·.values) ++
    σ.f2.flatMap fq2Values ++ σ.f6.flatMap (·.values) ++ σ.f12.flatMap (·.values) ++ σ.g2.flatMap (·.values) ++
    σ.lines.flatMap fun l => l.flatMap (·.values)

/-- The cell of the assigned value exists, may be copied, and the value recorded in it is the value the object carries. -/
def Recorded (t : Context n) (a : AssignedValue n) : Prop :=
  a.cell.col < a.cell.region.copyable ∧ t.records.inner.advOf a.cell.region a.cell.row a.cell.col = some a.val

end Verif
