import Verif.Spec.Shape
import Verif.Model.Pairing

/-! # The shape of elements of the tower and of points over it -/

namespace Verif
variable {n : ℕ}

structure Fq6Shape (st : Prop) (a a' : AssignedFq6 n) : Prop where
  c0 : sh st a.c0 a'.c0
  c1 : sh st a.c1 a'.c1
  c2 : sh st a.c2 a'.c2
instance : Shaped (AssignedFq6 n) := ⟨Fq6Shape⟩

structure Fq12Shape (st : Prop) (a a' : AssignedFq12 n) : Prop where
  c0 : sh st a.c0 a'.c0
  c1 : sh st a.c1 a'.c1
instance : Shaped (AssignedFq12 n) := ⟨Fq12Shape⟩

structure G2AffineShape (st : Prop) (a a' : AssignedG2Affine n) : Prop where
  x : sh st a.x a'.x
  y : sh st a.y a'.y
  z : sh st a.z a'.z
instance : Shaped (AssignedG2Affine n) := ⟨G2AffineShape⟩

structure G2Shape (st : Prop) (a a' : AssignedG2 n) : Prop where
  x : sh st a.x a'.x
  y : sh st a.y a'.y
  z : sh st a.z a'.z
instance : Shaped (AssignedG2 n) := ⟨G2Shape⟩

structure LineShape (st : Prop) (a a' : LineCoeffs n) : Prop where
  c0 : sh st a.c0 a'.c0
  c1 : sh st a.c1 a'.c1
  c2 : sh st a.c2 a'.c2
instance : Shaped (LineCoeffs n) := ⟨LineShape⟩

end Verif
