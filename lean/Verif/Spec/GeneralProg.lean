import Verif.Model.Msm
import Verif.Spec.Encode
import Verif.Spec.Msm
import Verif.Spec.MsmPosition
import Verif.Spec.NativeProg
import Verif.Spec.TowerProg

/-!
# Programs over all chips, scalars in a field of their own

A finite history of calls of any kind for the curve bls12_381 over the scalar field of bn256, as data: integers modulo the
base field's modulus, conditions, points, the tower, pairings (`Spec/TowerProg`), values of the native field and hashes
(`Spec/NativeProg`), integers modulo the order of the curve's subgroup (`Spec/IntProg`), the encoding of points, and
multi-scalar multiplications with such integers as scalars, with the select chip (`pre = some _`) or without. Conditions
are shared between the chips. `exec` issues the calls; `GStep` and `eval` are the reference meaning, written without
reference to rows, cells or limbs.
-/

namespace Verif

/-- The points of bls12_381. -/
abbrev BlsPt := Pt (pairBq .bls12_381)

/-- The generator of the subgroup of bls12_381. -/
def blsGen : ℕ × ℕ :=
  (0x17f1d3a73197d7942695638c4fa9ac0fc3688c4f9774b905a14e3a3f171bac586c55e83ff97a1aeffb3af00adb22c6bb,
    0x8b3f481e3aaa0f1a09e30ed741d8ae4fcf5e095d5d00af600db18cb2c04b3edd03cc744a2888ae40caa232946c5e7e1)

/-- One public call. Indices refer to what has been produced so far. -/
inductive GInstr where
  /-- a call on integers, conditions, points, the tower or the pairing -/
  | tower (i : TInstr .bls12_381)
  /-- a call on native values and conditions -/
  | native (i : NInstr bnR)
  /-- a call on scalars and conditions -/
  | scalar (i : Instr blsR)
  /-- `ecc_encode` of a point; produces three native values -/
  | encode (i : ℕ)
  /-- `msm` of points and scalars; the two points the prover draws at random are `A` and `L` -/
  | msm (ps ss : List ℕ) (A L : BlsPt)

/-- What has been produced so far, and the number of the next group of cached points (`none` without a select chip). -/
structure GSt where
  base : TSt bnR
  vals : List (AssignedValue bnR)
  scalars : List (AssignedInteger bnR)
  pre : Option ℕ

/-- The part of the state that calls on native values see. -/
def GSt.native (s : GSt) : NSt bnR := ⟨s.vals, s.base.base.base.conds⟩

/-- The part of the state that calls on scalars see. -/
def GSt.scalar (s : GSt) : St bnR := ⟨s.scalars, s.base.base.base.conds⟩

def GSt.setConds (s : GSt) (l : List (AssignedCondition bnR)) : GSt :=
  { s with base := { s.base with base := { s.base.base with base := { s.base.base.base with conds := l } } } }

def GSt.pushP (s : GSt) (p : AssignedPoint bnR) (pre : Option ℕ) : GSt :=
  { s with base := { s.base with base := s.base.base.pushP p }, pre := pre }

/-- Issue one call; `info` are the parameters of the base field, `sinfo` those of the scalar field. -/
noncomputable def GInstr.exec (info sinfo : RangeInfo bnR) (order : ℕ) : GInstr → GSt → M bnR GSt
  | .tower i, s => do pure { s with base := ← i.exec info order s.base }
  | .native i, s => do
    let t ← i.exec s.native
    pure { s.setConds t.conds with vals := t.vals }
  | .scalar i, s => do
    let t ← i.exec sinfo s.scalar
    pure { s.setConds t.conds with scalars := t.ints }
  | .encode i, s => do
    let p ← index s.base.base.pts i
    pure { s with vals := s.vals ++ (← ecc_encode info p) }
  | .msm ps ss A L, s => do
    let points ← getM s.base.base.pts ps
    let scalars ← getM s.scalars ss
    let r ← Verif.msm info (pairB .bls12_381) (generalScalar sinfo) blsGen A.coords L.coords s.pre points scalars
    pure (s.pushP r.1 r.2)

/-- Issue a sequence of calls. -/
noncomputable def gexecAll (info sinfo : RangeInfo bnR) (order : ℕ) : List GInstr → GSt → M bnR GSt
  | [], s => pure s
  | i :: is, s => do gexecAll info sinfo order is (← i.exec info sinfo order s)

/-- Nothing produced yet. -/
def GSt.empty (pre : Option ℕ) : GSt := ⟨TSt.empty bnR, [], [], pre⟩

/-! ## Reference meaning -/

/-- Reference state: that of `TRef`, elements of the native field and elements of the scalar field. -/
structure GRef where
  base : TRef .bls12_381
  vals : List (ZMod bnR)
  scalars : List (ZMod blsR)

def GRef.native (s : GRef) : NRef bnR := ⟨s.vals, s.base.base.base.flags⟩

def GRef.scalar (s : GRef) : Ref blsR := ⟨s.scalars, s.base.base.base.flags⟩

def GRef.setFlags (s : GRef) (l : List Bool) : GRef :=
  { s with base := { s.base with base := { s.base.base with base := { s.base.base.base with flags := l } } } }

def GRef.pushP (s : GRef) (P : BlsPt) : GRef := { s with base := { s.base with base := s.base.base.pushP P } }

/-- Nothing produced yet. -/
def GRef.empty : GRef := ⟨TRef.empty .bls12_381, [], []⟩

/-- Numbers that stand for the coordinates of a point; both 0 for the identity. -/
def BlsCoordNums (P : BlsPt) (X Y : ℕ) : Prop :=
  (P = 0 ∧ X = 0 ∧ Y = 0) ∨ HasCoords P (X : ZMod (pairQ .bls12_381)) (Y : ZMod (pairQ .bls12_381))

/-- Reference meaning of one call. In an encoding the prover chooses the numbers of 381 bits that stand for the
coordinates. In a multi-scalar multiplication the prover chooses the numbers that stand for the scalars; for points of the
subgroup of order `blsR` the choice does not matter, but the curve has other points. -/
inductive GStep : GInstr → GRef → GRef → Prop
  | tower {r i t} : TStep i r.base t → GStep (.tower i) r { r with base := t }
  | native {r i t} : NStep i r.native t → GStep (.native i) r { r.setFlags t.flags with vals := t.vals }
  | scalar {r i t} : Step i r.scalar t → GStep (.scalar i) r { r.setFlags t.flags with scalars := t.vals }
  | encode {r i P X Y} : r.base.base.pts[i]? = some P → X < 2 ^ 381 → Y < 2 ^ 381 → BlsCoordNums P X Y →
      GStep (.encode i) r { r with vals := r.vals ++ encTriple bnR X Y }
  | msm {r ps ss A L Ps xs} {ks : List ℕ} : getAll r.base.base.pts ps = some Ps → getAll r.scalars ss = some xs →
      List.Forall₂ (fun (k : ℕ) (x : ZMod blsR) => (k : ZMod blsR) = x) ks xs →
      GStep (.msm ps ss A L) r (r.pushP (natSum ks Ps))

/-- Reference meaning of a sequence of calls. -/
inductive GSteps : List GInstr → GRef → GRef → Prop
  | nil {r} : GSteps [] r r
  | cons {i is r s t} : GStep i r s → GSteps is s t → GSteps (i :: is) r t

/-- What a multi-scalar multiplication asks for: as many scalars as points and at least one, random points other than the
identity, that no addition is exceptional, and with a select chip that there are groups left. Scalars have three limbs of
108 bits, all of which are processed. -/
def BlsMsmDomain (pre : Option ℕ) (Ps : List BlsPt) (xs : List (ZMod blsR)) (A L : BlsPt) : Prop :=
  Ps.length = xs.length ∧ Ps ≠ [] ∧ A ≠ 0 ∧ L ≠ 0 ∧ (∀ p, pre = some p → p < 2 ^ 28 ∧ Ps.length ≤ 2 ^ 20) ∧
    ∃ Gn : BlsPt, HasCoords Gn blsGen.1 blsGen.2 ∧ GeneralPosition 324 (groupSize (if pre.isSome then 5 else 2) Ps.length)
      (cleanScalars Ps (xs.map ZMod.val)) (cleanPoints Gn Ps) A L

open Classical in
/-- The honest run, together with the number of the next group. `none` if a call is outside its domain or an assertion
fails; an encoding is that of the canonical representatives, and so is a multi-scalar multiplication. -/
noncomputable def GInstr.eval : GInstr → GRef × Option ℕ → Option (GRef × Option ℕ)
  | .tower i, r => i.eval r.1.base >>= fun t => some ({ r.1 with base := t }, r.2)
  | .native i, r => i.eval r.1.native >>= fun t => some ({ r.1.setFlags t.flags with vals := t.vals }, r.2)
  | .scalar i, r => i.eval r.1.scalar >>= fun t => some ({ r.1.setFlags t.flags with scalars := t.vals }, r.2)
  | .encode i, r => r.1.base.base.pts[i]? >>= fun P =>
      some ({ r.1 with vals := r.1.vals ++ encTriple bnR (P.coords.getD (0, 0)).1 (P.coords.getD (0, 0)).2 }, r.2)
  | .msm ps ss A L, r => getAll r.1.base.base.pts ps >>= fun Ps => getAll r.1.scalars ss >>= fun xs =>
      if BlsMsmDomain r.2 Ps xs A L then some (r.1.pushP (msmSum xs Ps), r.2.map (· + 2 ^ 20)) else none

/-- The honest run of a sequence of calls. -/
noncomputable def gevalAll : List GInstr → GRef × Option ℕ → Option (GRef × Option ℕ)
  | [], r => some r
  | i :: is, r => i.eval r >>= gevalAll is

/-- The state `s` stands for the reference state `r` under the assignment `w`. -/
structure RepGSt (info sinfo : RangeInfo bnR) (w : Advice bnR) (s : GSt) (r : GRef) : Prop where
  base : RepTSt info w s.base r.base
  vals : List.Forall₂ (HoldsV w) s.vals r.vals
  scalars : List.Forall₂ (Rep blsR sinfo w) s.scalars r.scalars

/-- The recorded values of the state `s` are the honest ones for the reference state `r`, and all counters of scalars are
between 1 and 16. -/
structure HRepGSt (info sinfo : RangeInfo bnR) (s : GSt) (r : GRef × Option ℕ) : Prop where
  base : HRepTSt info s.base r.1.base
  vals : List.Forall₂ (fun a x => a.val = x) s.vals r.1.vals
  scalars : List.Forall₂ (fun a x => HRep blsR sinfo a x ∧ 1 ≤ a.times ∧ a.times ≤ 16) s.scalars r.1.scalars
  pre : s.pre = r.2

/-- All cells of the state are recorded faithfully. -/
structure OkGSt (info : RangeInfo bnR) (h : Advice bnR) (s : GSt) : Prop where
  base : OkTSt info .bls12_381 h s.base
  vals : ∀ a ∈ s.vals, Ok h a
  scalars : ∀ a ∈ s.scalars, OkI h a

/-- The calls that record bits: only for these is `BitRowsConsistent` needed (see C06). -/
def GInstr.usesBits : GInstr → Prop
  | .tower (.pt (.assign _)) => True
  | .native i => i.usesBits
  | .msm _ _ _ _ => True
  | _ => False

def GInstr.isMsm : GInstr → Prop
  | .msm _ _ _ _ => True
  | _ => False

end Verif
