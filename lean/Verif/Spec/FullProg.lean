import Verif.Model.Msm
import Verif.Spec.Encode
import Verif.Spec.Msm
import Verif.Spec.MsmPosition
import Verif.Spec.NativeProg
import Verif.Spec.TowerProg

/-!
# Programs over all chips

A finite history of calls of any kind for the curve bn256 over its own scalar field, as data: integers, conditions,
points, the tower, pairings (`Spec/TowerProg`), values of the native field and hashes (`Spec/NativeProg`), the encoding of
points as native values, and multi-scalar multiplications with native scalars, with the select chip (`pre = some _`) or
without. Conditions are shared between the chips. `exec` issues the calls; `XStep` and `eval` are the reference meaning,
written without reference to rows, cells or limbs.
-/

namespace Verif

/-- The points of bn256. -/
abbrev BnPt := Pt (pairBq .bn256)

/-- One public call. Indices refer to what has been produced so far. -/
inductive XInstr where
  /-- a call on integers, conditions, points, the tower or the pairing -/
  | tower (i : TInstr .bn256)
  /-- a call on native values and conditions -/
  | native (i : NInstr bnR)
  /-- `ecc_encode` of a point; produces three native values -/
  | encode (i : ℕ)
  /-- `msm` of points and native scalars; the two points the prover draws at random are `A` and `L` -/
  | msm (ps ss : List ℕ) (A L : BnPt)

/-- What has been produced so far, and the number of the next group of cached points (`none` without a select chip). -/
structure XSt where
  base : TSt bnR
  vals : List (AssignedValue bnR)
  pre : Option ℕ

/-- The part of the state that calls on native values see. -/
def XSt.native (s : XSt) : NSt bnR := ⟨s.vals, s.base.base.base.conds⟩

def XSt.setNative (s : XSt) (t : NSt bnR) : XSt :=
  { s with vals := t.vals, base := { s.base with base := { s.base.base with base := { s.base.base.base with conds := t.conds } } } }

def XSt.pushP (s : XSt) (p : AssignedPoint bnR) (pre : Option ℕ) : XSt :=
  { s with base := { s.base with base := s.base.base.pushP p }, pre := pre }

/-- Issue one call. -/
noncomputable def XInstr.exec (info : RangeInfo bnR) (order : ℕ) : XInstr → XSt → M bnR XSt
  | .tower i, s => do pure { s with base := ← i.exec info order s.base }
  | .native i, s => do pure (s.setNative (← i.exec s.native))
  | .encode i, s => do
    let p ← index s.base.base.pts i
    pure { s with vals := s.vals ++ (← ecc_encode info p) }
  | .msm ps ss A L, s => do
    let points ← getM s.base.base.pts ps
    let scalars ← getM s.vals ss
    let r ← Verif.msm info (pairB .bn256) (nativeScalar 254) (1, 2) A.coords L.coords s.pre points scalars
    pure (s.pushP r.1 r.2)

/-- Issue a sequence of calls. -/
noncomputable def xexecAll (info : RangeInfo bnR) (order : ℕ) : List XInstr → XSt → M bnR XSt
  | [], s => pure s
  | i :: is, s => do xexecAll info order is (← i.exec info order s)

/-- Nothing produced yet. -/
def XSt.empty (pre : Option ℕ) : XSt := ⟨TSt.empty bnR, [], pre⟩

/-! ## Reference meaning -/

/-- Reference state: that of `TRef`, and elements of the native field. -/
structure XRef where
  base : TRef .bn256
  vals : List (ZMod bnR)

def XRef.native (s : XRef) : NRef bnR := ⟨s.vals, s.base.base.base.flags⟩

def XRef.setNative (s : XRef) (t : NRef bnR) : XRef :=
  { s with vals := t.vals, base := { s.base with base := { s.base.base with base := { s.base.base.base with flags := t.flags } } } }

def XRef.pushP (s : XRef) (P : BnPt) : XRef := { s with base := { s.base with base := s.base.base.pushP P } }

/-- Nothing produced yet. -/
def XRef.empty : XRef := ⟨TRef.empty .bn256, []⟩

/-- Numbers that stand for the coordinates of a point; both 0 for the identity. -/
def CoordNums (P : BnPt) (X Y : ℕ) : Prop :=
  (P = 0 ∧ X = 0 ∧ Y = 0) ∨ HasCoords P (X : ZMod (pairQ .bn256)) (Y : ZMod (pairQ .bn256))

/-- Reference meaning of one call. In an encoding the prover chooses the numbers of 254 bits that stand for the
coordinates. -/
inductive XStep : XInstr → XRef → XRef → Prop
  | tower {r i t} : TStep i r.base t → XStep (.tower i) r { r with base := t }
  | native {r i t} : NStep i r.native t → XStep (.native i) r (r.setNative t)
  | encode {r i P X Y} : r.base.base.pts[i]? = some P → X < 2 ^ 254 → Y < 2 ^ 254 → CoordNums P X Y →
      XStep (.encode i) r { r with vals := r.vals ++ encTriple bnR X Y }
  | msm {r ps ss A L Ps xs} : getAll r.base.base.pts ps = some Ps → getAll r.vals ss = some xs →
      XStep (.msm ps ss A L) r (r.pushP (msmSum xs Ps))

/-- Reference meaning of a sequence of calls. -/
inductive XSteps : List XInstr → XRef → XRef → Prop
  | nil {r} : XSteps [] r r
  | cons {i is r s t} : XStep i r s → XSteps is s t → XSteps (i :: is) r t

/-- What a multi-scalar multiplication asks for: as many scalars as points and at least one, random points other than the
identity, that no addition is exceptional, and with a select chip that there are groups left. -/
def MsmDomain (pre : Option ℕ) (Ps : List BnPt) (xs : List (ZMod bnR)) (A L : BnPt) : Prop :=
  Ps.length = xs.length ∧ Ps ≠ [] ∧ A ≠ 0 ∧ L ≠ 0 ∧ (∀ p, pre = some p → p < 2 ^ 28 ∧ Ps.length ≤ 2 ^ 20) ∧
    ∃ Gn : BnPt, HasCoords Gn 1 2 ∧ GeneralPosition 254 (groupSize (if pre.isSome then 5 else 2) Ps.length)
      (cleanScalars Ps (xs.map ZMod.val)) (cleanPoints Gn Ps) A L

open Classical in
/-- The honest run, together with the number of the next group. `none` if a call is outside its domain or an assertion
fails; an encoding is that of the canonical representatives. -/
noncomputable def XInstr.eval : XInstr → XRef × Option ℕ → Option (XRef × Option ℕ)
  | .tower i, r => i.eval r.1.base >>= fun t => some ({ r.1 with base := t }, r.2)
  | .native i, r => i.eval r.1.native >>= fun t => some (r.1.setNative t, r.2)
  | .encode i, r => r.1.base.base.pts[i]? >>= fun P =>
      some ({ r.1 with vals := r.1.vals ++ encTriple bnR (P.coords.getD (0, 0)).1 (P.coords.getD (0, 0)).2 }, r.2)
  | .msm ps ss A L, r => getAll r.1.base.base.pts ps >>= fun Ps => getAll r.1.vals ss >>= fun xs =>
      if MsmDomain r.2 Ps xs A L then some (r.1.pushP (msmSum xs Ps), r.2.map (· + 2 ^ 20)) else none

/-- The honest run of a sequence of calls. -/
noncomputable def xevalAll : List XInstr → XRef × Option ℕ → Option (XRef × Option ℕ)
  | [], r => some r
  | i :: is, r => i.eval r >>= xevalAll is

/-- The state `s` stands for the reference state `r` under the assignment `w`. -/
structure RepXSt (info : RangeInfo bnR) (w : Advice bnR) (s : XSt) (r : XRef) : Prop where
  base : RepTSt info w s.base r.base
  vals : List.Forall₂ (HoldsV w) s.vals r.vals

/-- The recorded values of the state `s` are the honest ones for the reference state `r`. -/
structure HRepXSt (info : RangeInfo bnR) (s : XSt) (r : XRef × Option ℕ) : Prop where
  base : HRepTSt info s.base r.1.base
  vals : List.Forall₂ (fun a x => a.val = x) s.vals r.1.vals
  pre : s.pre = r.2

/-- All cells of the state are recorded faithfully. -/
structure OkXSt (info : RangeInfo bnR) (h : Advice bnR) (s : XSt) : Prop where
  base : OkTSt info .bn256 h s.base
  vals : ∀ a ∈ s.vals, Ok h a

/-- The calls that record bits: only for these is `BitRowsConsistent` needed (see C06). -/
def XInstr.usesBits : XInstr → Prop
  | .tower (.pt (.assign _)) => True
  | .native i => i.usesBits
  | .msm _ _ _ _ => True
  | _ => False

def XInstr.isMsm : XInstr → Prop
  | .msm _ _ _ _ => True
  | _ => False

end Verif
