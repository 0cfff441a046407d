import Verif.Model.Msm
import Verif.Model.Pairing
import Verif.Model.Keccak

/-! # What a client of the library holds -/

namespace Verif
variable {n : ℕ}

/-- The set-up of a client: the range infos of the coordinate field and of the scalar field, curve constant, modulus
of the scalar field, bits of the native field, generator of the curve. -/
structure Api (n : ℕ) where
  info : RangeInfo n
  sinfo : RangeInfo n
  b : ℕ
  order : ℕ
  num_bits : ℕ
  generator : ℕ × ℕ

/-- The range info used by a call of the integer chip. -/
def Api.infoOf (A : Api n) : Bool → RangeInfo n
  | true => A.sinfo
  | false => A.info

/-- A witness: field elements, integers and points (`none` is the identity). -/
structure Witness (n : ℕ) where
  field : ℕ → ZMod n
  nat : ℕ → ℕ
  point : ℕ → Option (ℕ × ℕ)

/-- The objects a client has obtained so far, and the msm prefix state of its context (`none`: no select chip). -/
structure Store (n : ℕ) where
  v : List (AssignedValue n)
  i : List (AssignedInteger n)
  p : List (AssignedPoint n)
  c : List (AssignedPointWithCurvature n)
  z : List (AssignedNonZeroPoint n)
  f2 : List (AssignedFq2 n)
  f6 : List (AssignedFq6 n)
  f12 : List (AssignedFq12 n)
  g2 : List (AssignedG2Affine n)
  lines : List (List (LineCoeffs n))
  msm_prefix : Option ℕ

namespace Store
/-- No objects yet. -/
def empty (n : ℕ) (pre : Option ℕ) : Store n := ⟨[], [], [], [], [], [], [], [], [], [], pre⟩
def pushV (σ : Store n) (x : AssignedValue n) : Store n := { σ with v := σ.v ++ [x] }
def pushVs (σ : Store n) (x : List (AssignedValue n)) : Store n := { σ with v := σ.v ++ x }
def pushI (σ : Store n) (x : AssignedInteger n) : Store n := { σ with i := σ.i ++ [x] }
def pushP (σ : Store n) (x : AssignedPoint n) : Store n := { σ with p := σ.p ++ [x] }
def pushC (σ : Store n) (x : AssignedPointWithCurvature n) : Store n := { σ with c := σ.c ++ [x] }
def pushN (σ : Store n) (x : AssignedNonZeroPoint n) : Store n := { σ with z := σ.z ++ [x] }
def pushQ (σ : Store n) (x : AssignedFq2 n) : Store n := { σ with f2 := σ.f2 ++ [x] }
def pushS (σ : Store n) (x : AssignedFq6 n) : Store n := { σ with f6 := σ.f6 ++ [x] }
def pushT (σ : Store n) (x : AssignedFq12 n) : Store n := { σ with f12 := σ.f12 ++ [x] }
def pushG (σ : Store n) (x : AssignedG2Affine n) : Store n := { σ with g2 := σ.g2 ++ [x] }
def pushL (σ : Store n) (x : List (LineCoeffs n)) : Store n := { σ with lines := σ.lines ++ [x] }
/-- A term of a linear combination. -/
def elem (σ : Store n) (e : ℕ × ZMod n) : M n (AssignedValue n × ZMod n) := do
  let a ← index σ.v e.1
  pure (a, e.2)
/-- A term of `mul_add_with_next_line`. -/
def term (σ : Store n) (e : ℕ × ℕ × ℕ × ZMod n) : M n (MulTerm n) := do
  let a ← index σ.v e.1
  let b ← index σ.v e.2.1
  let c ← index σ.v e.2.2.1
  pure ⟨a, b, c, e.2.2.2⟩
/-- A pair of points. -/
def pairTerm (σ : Store n) (e : ℕ × ℕ) : M n (AssignedPoint n × AssignedG2Affine n) := do
  let p ← index σ.p e.1
  let q ← index σ.g2 e.2
  pure (p, q)
/-- A point and a prepared point. -/
def lineTerm (σ : Store n) (e : ℕ × ℕ) : M n (AssignedPoint n × List (LineCoeffs n)) := do
  let p ← index σ.p e.1
  let q ← index σ.lines e.2
  pure (p, q)
end Store

end Verif
