import Mathlib.AlgebraicGeometry.EllipticCurve.Affine.Point
import Verif.Spec.Integer
import Verif.Model.EccChip

/-!
# What an assigned point stands for

The curve is `y² = x³ + b` over `ZMod wm`; its group of points is Mathlib's.
-/

namespace Verif
variable {n wm : ℕ}

/-- The curve `y² = x³ + b`. -/
def curve (b : ZMod wm) : WeierstrassCurve.Affine (ZMod wm) := ⟨0, 0, 0, 0, b⟩

/-- The points of the curve, with the point at infinity `0`. -/
abbrev Pt (b : ZMod wm) := (curve b).Point

/-- The curve is not singular. -/
structure GoodCurve (b : ZMod wm) : Prop where
  b_ne : b ≠ 0
  two_ne : (2 : ZMod wm) ≠ 0
  three_ne : (3 : ZMod wm) ≠ 0

/-- `P` is the affine point `(x, y)`. -/
def HasCoords {b : ZMod wm} (P : Pt b) (x y : ZMod wm) : Prop := ∃ h, P = .some x y h

/-- Under the assignment `w`, the affine point `p` stands for `P`. -/
def NRep (info : RangeInfo n) (w : Advice n) {b : ZMod wm} (p : AssignedNonZeroPoint n) (P : Pt b) : Prop :=
  ∃ x y, Rep wm info w p.x x ∧ Rep wm info w p.y y ∧ HasCoords P x y

/-- Under the assignment `w`, the point `p` stands for `P`: flag 1 and `P` is the identity (the coordinates are
then arbitrary), or flag 0 and `P` is the affine point given by the coordinates. -/
def PRep (info : RangeInfo n) (w : Advice n) {b : ZMod wm} (p : AssignedPoint n) (P : Pt b) : Prop :=
  ∃ x y, Rep wm info w p.x x ∧ Rep wm info w p.y y ∧
    ((w p.z.cell = 1 ∧ P = 0) ∨ (w p.z.cell = 0 ∧ HasCoords P x y))

/-- The curvature `l` belongs to the point `(x, y)`: flag 1 if the tangent is vertical, else flag 0 and the slope
of the tangent. -/
def TangentRep [Fact wm.Prime] (info : RangeInfo n) (w : Advice n) (l : AssignedCurvature n) (x y : ZMod wm) : Prop :=
  (y = 0 → w l.z.cell = 1) ∧ (y ≠ 0 → w l.z.cell = 0 ∧ Rep wm info w l.v (3 * x ^ 2 / (2 * y)))

/-- Under `w`, the point with curvature `p` stands for `P`. -/
def KRep [Fact wm.Prime] (info : RangeInfo n) (w : Advice n) {b : ZMod wm} (p : AssignedPointWithCurvature n)
    (P : Pt b) : Prop :=
  PRep info w p.to_point P ∧ (∃ v : ZMod wm, Rep wm info w p.curvature.v v) ∧
    (w p.curvature.z.cell = 0 ∨ w p.curvature.z.cell = 1) ∧
    ∀ x y, HasCoords P x y → TangentRep info w p.curvature x y

/-- The recorded point `p` is that of an honest prover for `P`. -/
def HNRep (info : RangeInfo n) {b : ZMod wm} (p : AssignedNonZeroPoint n) (P : Pt b) : Prop :=
  (∃ x y, HRep wm info p.x x ∧ HRep wm info p.y y ∧ HasCoords P x y) ∧ p.x.times ≤ 16 ∧ p.y.times ≤ 16

/-- The recorded point `p` is that of an honest prover for `P`. -/
def HPRep (info : RangeInfo n) {b : ZMod wm} (p : AssignedPoint n) (P : Pt b) : Prop :=
  (∃ x y, HRep wm info p.x x ∧ HRep wm info p.y y ∧
    ((p.z.val = 1 ∧ P = 0) ∨ (p.z.val = 0 ∧ HasCoords P x y))) ∧ p.x.times ≤ 16 ∧ p.y.times ≤ 16

/-- As `TangentRep`, for the recorded values. -/
def HTangentRep [Fact wm.Prime] (info : RangeInfo n) (l : AssignedCurvature n) (x y : ZMod wm) : Prop :=
  (y = 0 → l.z.val = 1) ∧ (y ≠ 0 → l.z.val = 0 ∧ HRep wm info l.v (3 * x ^ 2 / (2 * y)))

/-- The recorded point with curvature `p` is that of an honest prover for `P`. -/
def HKRep [Fact wm.Prime] (info : RangeInfo n) {b : ZMod wm} (p : AssignedPointWithCurvature n) (P : Pt b) : Prop :=
  HPRep info p.to_point P ∧ (∃ v : ZMod wm, HRep wm info p.curvature.v v) ∧ p.curvature.v.times ≤ 16 ∧
    (p.curvature.z.val = 0 ∨ p.curvature.z.val = 1) ∧
    ∀ x y, HasCoords P x y → HTangentRep info p.curvature x y

/-- All cells of the point are recorded faithfully. -/
structure OkN (h : Advice n) (p : AssignedNonZeroPoint n) : Prop where
  x : OkI h p.x
  y : OkI h p.y

/-- All cells of the point are recorded faithfully. -/
structure OkP (h : Advice n) (p : AssignedPoint n) : Prop where
  x : OkI h p.x
  y : OkI h p.y
  z : Ok h p.z

/-- All cells of the point are recorded faithfully. -/
structure OkK (h : Advice n) (p : AssignedPointWithCurvature n) : Prop where
  x : OkI h p.x
  y : OkI h p.y
  z : Ok h p.z
  v : OkI h p.curvature.v
  cz : Ok h p.curvature.z

/-- The affine coordinates of a constant point, as the library takes them (`none` for the identity): canonical
representatives. -/
def ConstCoords {b : ZMod wm} (c : Option (ℕ × ℕ)) (P : Pt b) : Prop :=
  (c = none ∧ P = 0) ∨ ∃ x y, c = some (x, y) ∧ x < wm ∧ y < wm ∧ HasCoords P (x : ZMod wm) (y : ZMod wm)

end Verif
