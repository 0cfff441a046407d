import Verif.Spec.IntProg
import Verif.Spec.Curve

/-!
# Programs over the integer chip and the ECC chip

A finite history of calls, as data: integer and condition calls as in `Spec/IntProg.lean`, and calls on points.
Instructions refer to earlier results by index. `exec` issues the calls; `PStep` and `eval` are the reference meaning
in the group of points of `y² = x³ + b` over `ZMod wm`, written without reference to limbs, slopes, flags or circuits.
-/

namespace Verif
variable {n wm : ℕ}

/-- The coordinates handed to the library for a point: `none` for the identity. -/
def Pt.coords {b : ZMod wm} : Pt b → Option (ℕ × ℕ)
  | .zero => none
  | .some x y _ => some (x.val, y.val)

/-- The affine coordinates; `none` for the identity. -/
def Pt.xy {b : ZMod wm} : Pt b → Option (ZMod wm × ZMod wm)
  | .zero => none
  | .some x y _ => some (x, y)

/-- One public call. Indices refer to the points (with identity flag), points with curvature, affine points, integers
or conditions produced so far. -/
inductive PInstr (b : ZMod wm) where
  /-- a call to the integer chip or on conditions -/
  | int (i : Instr wm)
  /-- `assign_constant_point` -/
  | const (P : Pt b)
  /-- `assign_point` -/
  | assign (P : Pt b)
  /-- `assign_non_zero_point` -/
  | assignA (P : Pt b)
  /-- `assign_identity` -/
  | identity
  /-- `to_point_with_curvature` -/
  | curv (i : ℕ)
  /-- `ecc_reduce_with_curvature` -/
  | reduceCurv (i : ℕ)
  /-- `to_point` -/
  | uncurv (i : ℕ)
  /-- `ecc_add` -/
  | add (i j : ℕ)
  /-- `ecc_double` -/
  | double (i : ℕ)
  /-- `ecc_neg` -/
  | neg (i : ℕ)
  /-- `ecc_reduce` -/
  | reduce (i : ℕ)
  /-- `bisec_point` -/
  | select (c i j : ℕ)
  /-- `bisec_point_with_curvature` -/
  | selectCurv (c i j : ℕ)
  /-- `ecc_assert_equal` -/
  | assertEqual (i j : ℕ)
  /-- the field `z` of a point, as a condition -/
  | isIdentity (i : ℕ)
  /-- the fields `x` and `y` of a point, as integers -/
  | coords (i : ℕ)
  /-- `ecc_add_unsafe`, unwrapped -/
  | addA (i j : ℕ)
  /-- `ecc_double_unsafe`, unwrapped -/
  | doubleA (i : ℕ)
  /-- `ecc_neg_non_zero` -/
  | negA (i : ℕ)
  /-- `ecc_reduce_non_zero` -/
  | reduceA (i : ℕ)
  /-- `ecc_bisec_non_zero_point` -/
  | selectA (c i j : ℕ)
  /-- `ecc_assert_equal_non_zero` -/
  | assertEqualA (i j : ℕ)
  /-- `ecc_non_zero_point_downgrade` -/
  | downgrade (i : ℕ)
  /-- `ecc_bisec_to_non_zero_point` -/
  | toA (i j : ℕ)
  /-- the fields `x` and `y` of an affine point, as integers -/
  | coordsA (i : ℕ)

/-- What has been produced so far. -/
structure PSt (n : ℕ) where
  base : St n
  pts : List (AssignedPoint n)
  crvs : List (AssignedPointWithCurvature n)
  affs : List (AssignedNonZeroPoint n)

def PSt.pushP (s : PSt n) (a : AssignedPoint n) : PSt n := { s with pts := s.pts ++ [a] }
def PSt.pushK (s : PSt n) (a : AssignedPointWithCurvature n) : PSt n := { s with crvs := s.crvs ++ [a] }
def PSt.pushA (s : PSt n) (a : AssignedNonZeroPoint n) : PSt n := { s with affs := s.affs ++ [a] }
def PSt.pushC (s : PSt n) (a : AssignedCondition n) : PSt n := { s with base := s.base.pushC a }
def PSt.pushXY (s : PSt n) (x y : AssignedInteger n) : PSt n := { s with base := (s.base.pushI x).pushI y }

/-- Issue one call; `order` is the order of the scalar field (`ecc_double` asserts it is odd). -/
def PInstr.exec {b : ZMod wm} (info : RangeInfo n) (order : ℕ) : PInstr b → PSt n → M n (PSt n)
  | .int i, s => do pure { s with base := ← i.exec info s.base }
  | .const P, s => do pure (s.pushP (← assign_constant_point info P.coords))
  | .assign P, s => do pure (s.pushP (← assign_point info b.val P.coords))
  | .assignA P, s => do pure (s.pushA (← assign_non_zero_point info b.val P.coords))
  | .identity, s => do pure (s.pushK (← assign_identity info))
  | .curv i, s => do
    let p ← index s.pts i
    pure (s.pushK (← to_point_with_curvature info p))
  | .reduceCurv i, s => do
    let p ← index s.pts i
    pure (s.pushK (← ecc_reduce_with_curvature info p))
  | .uncurv i, s => do
    let p ← index s.crvs i
    pure (s.pushP p.to_point)
  | .add i j, s => do
    let p ← index s.crvs i
    let q ← index s.pts j
    pure (s.pushP (← ecc_add info p q))
  | .double i, s => do
    let p ← index s.crvs i
    pure (s.pushP (← ecc_double info order p))
  | .neg i, s => do
    let p ← index s.pts i
    pure (s.pushP (← ecc_neg info p))
  | .reduce i, s => do
    let p ← index s.pts i
    pure (s.pushP (← ecc_reduce info p))
  | .select c i j, s => do
    let c ← index s.base.conds c
    let p ← index s.pts i
    let q ← index s.pts j
    pure (s.pushP (← bisec_point info c p q))
  | .selectCurv c i j, s => do
    let c ← index s.base.conds c
    let p ← index s.crvs i
    let q ← index s.crvs j
    pure (s.pushK (← bisec_point_with_curvature info c p q))
  | .assertEqual i j, s => do
    let p ← index s.pts i
    let q ← index s.pts j
    ecc_assert_equal info p q
    pure s
  | .isIdentity i, s => do
    let p ← index s.pts i
    pure (s.pushC p.z)
  | .coords i, s => do
    let p ← index s.pts i
    pure (s.pushXY p.x p.y)
  | .addA i j, s => do
    let p ← index s.affs i
    let q ← index s.affs j
    let r ← ecc_add_unsafe info p q
    let r ← unwrap r.toOption
    pure (s.pushA r)
  | .doubleA i, s => do
    let p ← index s.affs i
    let r ← ecc_double_unsafe info p
    let r ← unwrap r.toOption
    pure (s.pushA r)
  | .negA i, s => do
    let p ← index s.affs i
    pure (s.pushA (← ecc_neg_non_zero info p))
  | .reduceA i, s => do
    let p ← index s.affs i
    pure (s.pushA (← ecc_reduce_non_zero info p))
  | .selectA c i j, s => do
    let c ← index s.base.conds c
    let p ← index s.affs i
    let q ← index s.affs j
    pure (s.pushA (← ecc_bisec_non_zero_point info c p q))
  | .assertEqualA i j, s => do
    let p ← index s.affs i
    let q ← index s.affs j
    ecc_assert_equal_non_zero info p q
    pure s
  | .downgrade i, s => do
    let p ← index s.affs i
    pure (s.pushP (← ecc_non_zero_point_downgrade p))
  | .toA i j, s => do
    let p ← index s.pts i
    let q ← index s.affs j
    pure (s.pushA (← ecc_bisec_to_non_zero_point info p q))
  | .coordsA i, s => do
    let p ← index s.affs i
    pure (s.pushXY p.x p.y)

/-- Issue a sequence of calls. -/
def pexecAll {b : ZMod wm} (info : RangeInfo n) (order : ℕ) : List (PInstr b) → PSt n → M n (PSt n)
  | [], s => pure s
  | i :: is, s => do pexecAll info order is (← i.exec info order s)

/-- Reference state: field elements, Booleans and points of the curve. -/
structure PRef (b : ZMod wm) where
  base : Ref wm
  pts : List (Pt b)
  crvs : List (Pt b)
  affs : List (Pt b)

section
variable {b : ZMod wm}

def PRef.pushP (s : PRef b) (P : Pt b) : PRef b := { s with pts := s.pts ++ [P] }
def PRef.pushK (s : PRef b) (P : Pt b) : PRef b := { s with crvs := s.crvs ++ [P] }
def PRef.pushA (s : PRef b) (P : Pt b) : PRef b := { s with affs := s.affs ++ [P] }
def PRef.pushC (s : PRef b) (f : Bool) : PRef b := { s with base := s.base.pushF f }
def PRef.pushXY (s : PRef b) (x y : ZMod wm) : PRef b := { s with base := (s.base.pushV x).pushV y }

variable [Fact wm.Prime]

open Classical in
/-- Reference meaning of one call. An assigned point may be any point of the curve (it is chosen by the prover; an
affine one is not the identity), and the coordinates read from the identity may be anything; the operations on affine
points exclude their degenerate cases; everything else is determined. -/
inductive PStep : PInstr b → PRef b → PRef b → Prop
  | int {s i t} : Step i s.base t → PStep (.int i) s { s with base := t }
  | const {s} (P : Pt b) : PStep (.const P) s (s.pushP P)
  | assign {s} (P Q : Pt b) : PStep (.assign P) s (s.pushP Q)
  | assignA {s} (P Q : Pt b) : Q ≠ 0 → PStep (.assignA P) s (s.pushA Q)
  | identity {s} : PStep .identity s (s.pushK 0)
  | curv {s i P} : s.pts[i]? = some P → PStep (.curv i) s (s.pushK P)
  | reduceCurv {s i P} : s.pts[i]? = some P → PStep (.reduceCurv i) s (s.pushK P)
  | uncurv {s i P} : s.crvs[i]? = some P → PStep (.uncurv i) s (s.pushP P)
  | add {s i j P Q} : s.crvs[i]? = some P → s.pts[j]? = some Q → PStep (.add i j) s (s.pushP (P + Q))
  | double {s i P} : s.crvs[i]? = some P → PStep (.double i) s (s.pushP (P + P))
  | neg {s i P} : s.pts[i]? = some P → PStep (.neg i) s (s.pushP (-P))
  | reduce {s i P} : s.pts[i]? = some P → PStep (.reduce i) s (s.pushP P)
  | select {s c i j f P Q} : s.base.flags[c]? = some f → s.pts[i]? = some P → s.pts[j]? = some Q →
      PStep (.select c i j) s (s.pushP (if f then P else Q))
  | selectCurv {s c i j f P Q} : s.base.flags[c]? = some f → s.crvs[i]? = some P → s.crvs[j]? = some Q →
      PStep (.selectCurv c i j) s (s.pushK (if f then P else Q))
  | assertEqual {s i j P} : s.pts[i]? = some P → s.pts[j]? = some P → PStep (.assertEqual i j) s s
  | isIdentity {s i P} : s.pts[i]? = some P → PStep (.isIdentity i) s (s.pushC (decide (P = 0)))
  | coords {s i P x y} : s.pts[i]? = some P → (P ≠ 0 → HasCoords P x y) → PStep (.coords i) s (s.pushXY x y)
  | addA {s i j P Q} : s.affs[i]? = some P → s.affs[j]? = some Q → P ≠ Q → P ≠ -Q →
      PStep (.addA i j) s (s.pushA (P + Q))
  | doubleA {s i P} : s.affs[i]? = some P → P + P ≠ 0 → PStep (.doubleA i) s (s.pushA (P + P))
  | negA {s i P} : s.affs[i]? = some P → PStep (.negA i) s (s.pushA (-P))
  | reduceA {s i P} : s.affs[i]? = some P → PStep (.reduceA i) s (s.pushA P)
  | selectA {s c i j f P Q} : s.base.flags[c]? = some f → s.affs[i]? = some P → s.affs[j]? = some Q →
      PStep (.selectA c i j) s (s.pushA (if f then P else Q))
  | assertEqualA {s i j P} : s.affs[i]? = some P → s.affs[j]? = some P → PStep (.assertEqualA i j) s s
  | downgrade {s i P} : s.affs[i]? = some P → PStep (.downgrade i) s (s.pushP P)
  | toA {s i j P Q} : s.pts[i]? = some P → s.affs[j]? = some Q →
      PStep (.toA i j) s (s.pushA (if P = 0 then Q else P))
  | coordsA {s i P x y} : s.affs[i]? = some P → HasCoords P x y → PStep (.coordsA i) s (s.pushXY x y)

/-- Reference meaning of a sequence of calls. -/
inductive PSteps : List (PInstr b) → PRef b → PRef b → Prop
  | nil {s} : PSteps [] s s
  | cons {i is s t u} : PStep i s t → PSteps is t u → PSteps (i :: is) s u

open Classical in
/-- The honest run: assigned points take the given values. `none` if a call is outside its domain (unknown index,
coordinates of the identity, an affine point that is the identity, a degenerate operation on affine points) or an
assertion fails. -/
noncomputable def PInstr.eval : PInstr b → PRef b → Option (PRef b)
  | .int i, s => i.eval s.base >>= fun t => some { s with base := t }
  | .const P, s => some (s.pushP P)
  | .assign P, s => some (s.pushP P)
  | .assignA P, s => if P = 0 then none else some (s.pushA P)
  | .identity, s => some (s.pushK 0)
  | .curv i, s => s.pts[i]? >>= fun P => some (s.pushK P)
  | .reduceCurv i, s => s.pts[i]? >>= fun P => some (s.pushK P)
  | .uncurv i, s => s.crvs[i]? >>= fun P => some (s.pushP P)
  | .add i j, s => s.crvs[i]? >>= fun P => s.pts[j]? >>= fun Q => some (s.pushP (P + Q))
  | .double i, s => s.crvs[i]? >>= fun P => some (s.pushP (P + P))
  | .neg i, s => s.pts[i]? >>= fun P => some (s.pushP (-P))
  | .reduce i, s => s.pts[i]? >>= fun P => some (s.pushP P)
  | .select c i j, s => s.base.flags[c]? >>= fun f => s.pts[i]? >>= fun P => s.pts[j]? >>= fun Q =>
      some (s.pushP (if f then P else Q))
  | .selectCurv c i j, s => s.base.flags[c]? >>= fun f => s.crvs[i]? >>= fun P => s.crvs[j]? >>= fun Q =>
      some (s.pushK (if f then P else Q))
  | .assertEqual i j, s => s.pts[i]? >>= fun P => s.pts[j]? >>= fun Q => if P = Q then some s else none
  | .isIdentity i, s => s.pts[i]? >>= fun P => some (s.pushC (decide (P = 0)))
  | .coords i, s => s.pts[i]? >>= fun P => P.xy >>= fun v => some (s.pushXY v.1 v.2)
  | .addA i j, s => s.affs[i]? >>= fun P => s.affs[j]? >>= fun Q =>
      if P ≠ Q ∧ P ≠ -Q then some (s.pushA (P + Q)) else none
  | .doubleA i, s => s.affs[i]? >>= fun P => if P + P ≠ 0 then some (s.pushA (P + P)) else none
  | .negA i, s => s.affs[i]? >>= fun P => some (s.pushA (-P))
  | .reduceA i, s => s.affs[i]? >>= fun P => some (s.pushA P)
  | .selectA c i j, s => s.base.flags[c]? >>= fun f => s.affs[i]? >>= fun P => s.affs[j]? >>= fun Q =>
      some (s.pushA (if f then P else Q))
  | .assertEqualA i j, s => s.affs[i]? >>= fun P => s.affs[j]? >>= fun Q => if P = Q then some s else none
  | .downgrade i, s => s.affs[i]? >>= fun P => some (s.pushP P)
  | .toA i j, s => s.pts[i]? >>= fun P => s.affs[j]? >>= fun Q => some (s.pushA (if P = 0 then Q else P))
  | .coordsA i, s => s.affs[i]? >>= fun P => P.xy >>= fun v => some (s.pushXY v.1 v.2)

/-- The honest run of a sequence of calls. -/
noncomputable def pevalAll : List (PInstr b) → PRef b → Option (PRef b)
  | [], s => some s
  | i :: is, s => i.eval s >>= pevalAll is

/-- The state `s` stands for the reference state `r` under the assignment `w`. -/
structure RepPSt (info : RangeInfo n) (w : Advice n) (s : PSt n) (r : PRef b) : Prop where
  base : RepSt wm info w s.base r.base
  pts : List.Forall₂ (PRep info w) s.pts r.pts
  crvs : List.Forall₂ (KRep info w) s.crvs r.crvs
  affs : List.Forall₂ (NRep info w) s.affs r.affs

/-- The recorded values of the state `s` are the honest ones for the reference state `r`. -/
structure HRepPSt (info : RangeInfo n) (s : PSt n) (r : PRef b) : Prop where
  base : HRepSt wm info s.base r.base
  pts : List.Forall₂ (HPRep info) s.pts r.pts
  crvs : List.Forall₂ (HKRep info) s.crvs r.crvs
  affs : List.Forall₂ (HNRep info) s.affs r.affs

end

/-- All cells of the state are recorded faithfully. -/
structure OkPSt (h : Advice n) (s : PSt n) : Prop where
  base : OkSt h s.base
  pts : ∀ a ∈ s.pts, OkP h a
  crvs : ∀ a ∈ s.crvs, OkK h a
  affs : ∀ a ∈ s.affs, OkN h a

end Verif
