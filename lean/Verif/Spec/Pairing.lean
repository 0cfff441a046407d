import Mathlib.AlgebraicGeometry.EllipticCurve.Affine.Point
import Verif.Model.Pairing
import Verif.Spec.Tower
import Verif.Proof.Primes

/-!
# Points of the twist, lines and Miller functions

Textbook definitions, over the groups of points of Mathlib.
-/

namespace Verif

section
variable {K : Type}

/-- Jacobian coordinates. -/
@[ext] structure Jac (K : Type) where
  x : K
  y : K
  z : K

/-- Coefficients of a line: `c0 Y + c1 X + c2`. -/
@[ext] structure Line (K : Type) where
  c0 : K
  c1 : K
  c2 : K

/-- The coordinates `p` describe the affine point `(x, y)`: `x = X / Z²`, `y = Y / Z³`. -/
def Jac.Is [CommRing K] (p : Jac K) (x y : K) : Prop := p.z ≠ 0 ∧ p.x = x * p.z ^ 2 ∧ p.y = y * p.z ^ 3

/-- `c` describes the line through `(x, y)` of slope `l`, that is `(Y - y) - l (X - x)` up to a non-zero factor. -/
def Line.Is [CommRing K] (c : Line K) (l x y : K) : Prop :=
  ∃ k, k ≠ 0 ∧ c.c0 = k ∧ c.c1 = -(k * l) ∧ c.c2 = k * (l * x - y)

/-- The curve `y² = x³ + b`. -/
def curveOver [CommRing K] (b : K) : WeierstrassCurve.Affine K := ⟨0, 0, 0, 0, b⟩

/-- Doubling, with the tangent: if `p` describes the point `(x, y)` with `y ≠ 0` of a curve `y² = x³ + b`, then `r`
consists of the tangent at the point and of the double of the point. -/
def IsDouble [Field K] [DecidableEq K] (p : Jac K) (r : Line K × Jac K) : Prop :=
  ∀ (b x y : K) (h : (curveOver b).Nonsingular x y), p.Is x y → y ≠ 0 →
    r.1.Is ((curveOver b).slope x x y y) x y ∧
      ∃ x' y' h', WeierstrassCurve.Affine.Point.some x y h + .some x y h = .some x' y' h' ∧ r.2.Is x' y'

/-- Addition, with the chord: if `p` describes the point `(x, y)` and `q` is a point with another abscissa, then `r`
consists of the line through the points and of their sum. -/
def IsSum [Field K] [DecidableEq K] (p : Jac K) (q : K × K) (r : Line K × Jac K) : Prop :=
  ∀ (b x y : K) (h : (curveOver b).Nonsingular x y) (h₂ : (curveOver b).Nonsingular q.1 q.2), p.Is x y → x ≠ q.1 →
    r.1.Is ((curveOver b).slope x q.1 y q.2) q.1 q.2 ∧
      ∃ x' y' h', WeierstrassCurve.Affine.Point.some x y h + .some q.1 q.2 h₂ = .some x' y' h' ∧ r.2.Is x' y'

end

/-- Flag and coordinates of a point, flag and coordinates of a point of the twist. -/
structure PairV (n wm : ℕ) where
  pz : ZMod n
  px : ZMod wm
  py : ZMod wm
  qz : ZMod n
  qx : Fq2 wm
  qy : Fq2 wm

/-! ## Encodings -/

section
variable {n : ℕ} (wm : ℕ) (info : RangeInfo n)

/-- Points in Jacobian coordinates. -/
def encJac : Enc n (AssignedG2 n) (Jac (Fq2 wm)) :=
  ⟨fun w a p => Rep2 wm info w a.x p.x ∧ Rep2 wm info w a.y p.y ∧ Rep2 wm info w a.z p.z,
   fun a p => HRep2 wm info a.x p.x ∧ HRep2 wm info a.y p.y ∧ HRep2 wm info a.z p.z,
   fun h a => OkI2 h a.x ∧ OkI2 h a.y ∧ OkI2 h a.z⟩

/-- Lines. -/
def encLine : Enc n (LineCoeffs n) (Line (Fq2 wm)) :=
  ⟨fun w a l => Rep2 wm info w a.c0 l.c0 ∧ Rep2 wm info w a.c1 l.c1 ∧ Rep2 wm info w a.c2 l.c2,
   fun a l => HRep2 wm info a.c0 l.c0 ∧ HRep2 wm info a.c1 l.c1 ∧ HRep2 wm info a.c2 l.c2,
   fun h a => OkI2 h a.c0 ∧ OkI2 h a.c1 ∧ OkI2 h a.c2⟩

/-- The coordinates of affine points of the twist. -/
def encAff : Enc n (AssignedG2Affine n) (Fq2 wm × Fq2 wm) :=
  ⟨fun w a q => Rep2 wm info w a.x q.1 ∧ Rep2 wm info w a.y q.2,
   fun a q => HRep2 wm info a.x q.1 ∧ HRep2 wm info a.y q.2,
   fun h a => OkI2 h a.x ∧ OkI2 h a.y⟩

/-- The inputs of a pairing. -/
def encPair : Enc n (AssignedPoint n × AssignedG2Affine n) (PairV n wm) :=
  ⟨fun w a v => (w a.1.z.cell = v.pz ∧ Rep wm info w a.1.x v.px ∧ Rep wm info w a.1.y v.py) ∧
     w a.2.z.cell = v.qz ∧ Rep2 wm info w a.2.x v.qx ∧ Rep2 wm info w a.2.y v.qy,
   fun a v => (a.1.z.val = v.pz ∧ HRep1 wm info a.1.x v.px ∧ HRep1 wm info a.1.y v.py) ∧
     a.2.z.val = v.qz ∧ HRep2 wm info a.2.x v.qx ∧ HRep2 wm info a.2.y v.qy,
   fun h a => (Ok h a.1.z ∧ OkI h a.1.x ∧ OkI h a.1.y) ∧ Ok h a.2.z ∧ OkI2 h a.2.x ∧ OkI2 h a.2.y⟩

variable {A X : Type}

/-- Lists. -/
def Enc.list (e : Enc n A X) : Enc n (List A) (List X) :=
  ⟨fun w => List.Forall₂ (e.rep w), List.Forall₂ e.hrep, fun h as => ∀ a ∈ as, e.ok h a⟩

/-- The elements with `D`. -/
def Enc.sub (e : Enc n A X) (D : X → Prop) : Enc n A {x // D x} :=
  ⟨fun w a x => e.rep w a x, fun a x => e.hrep a x, e.ok⟩

end

end Verif
