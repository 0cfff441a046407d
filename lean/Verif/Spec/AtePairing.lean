import Verif.Spec.Pairing
import Verif.Props.FinalExp

/-!
# The optimal ate pairing

The curve `E : y² = x³ + b` over `Fq12`, with Mathlib's group of points; the points of the twist over `Fq2` brought to
`E` by the untwisting map; the lines, Miller's algorithm and the pairing as in the literature (Vercauteren, *Optimal
pairings*; denominators are left out, as usual). Nothing here refers to the circuit, except the table of digits.
-/

namespace Verif
open WeierstrassCurve.Affine

/-- A commutative ring in which the units are the non-zero elements is a field. -/
noncomputable abbrev fieldOf {R : Type} [hR : CommRing R] (h : ∀ x : R, IsUnit x ↔ x ≠ 0) : Field R :=
  { hR with
    inv := Ring.inverse
    exists_pair_ne := ⟨1, 0, (h 1).1 isUnit_one⟩
    mul_inv_cancel := fun x hx => Ring.mul_inverse_cancel x ((h x).2 hx)
    inv_zero := Ring.inverse_non_unit 0 fun hz => (h 0).1 hz rfl
    nnqsmul := _
    nnqsmul_def := fun _ _ => rfl
    qsmul := _
    qsmul_def := fun _ _ => rfl }

noncomputable instance (priority := 50) (crv : PairingCurve) : Field (Fq12 (pairQ crv) crv) := fieldOf (C38_tower_is_field crv).2.2
noncomputable instance (q : ℕ) (crv : PairingCurve) : DecidableEq (Fq12 q crv) := Classical.decEq _

section lines
variable {F : Type} [Field F] [DecidableEq F] {W : WeierstrassCurve.Affine F}

/-- The value at `P` of the line through `S` and `T`, the tangent if they are equal. -/
noncomputable def lineAt (S T : W.Point) (P : F × F) : F :=
  match S, T with
  | .some x y _, .some x' y' _ => (P.2 - y) - W.slope x x' y y' * (P.1 - x)
  | _, _ => 1

/-- One step of Miller's algorithm for `Q`, evaluated at `P`, for the signed digit `d`. The state is the value so far and
the multiple of `Q` so far. -/
noncomputable def millerStep (Q : W.Point) (P : F × F) (s : F × W.Point) (d : ℤ) : F × W.Point :=
  let t := (s.1 ^ 2 * lineAt s.2 s.2 P, s.2 + s.2)
  if d = 0 then t else (t.1 * lineAt t.2 (d • Q) P, t.2 + d • Q)

/-- Miller's algorithm over the signed digits `ds`, most significant first, after a leading 1. -/
noncomputable def miller (ds : List ℤ) (Q : W.Point) (P : F × F) : F × W.Point := ds.foldl (millerStep Q P) (1, Q)

end lines

/-- The number with the signed digits `ds`, most significant first, after a leading 1. -/
def digitValue (ds : List ℤ) : ℤ := ds.foldl (fun m d => 2 * m + d) 1

/-- The constant of the curve equation. -/
def pairB : PairingCurve → ℕ
  | .bn256 => 3
  | .bls12_381 => 4

section curve
variable (crv : PairingCurve)

/-- The curve over `Fq12`. -/
noncomputable abbrev pairE : WeierstrassCurve.Affine (Fq12 (pairQ crv) crv) := curveOver (pairB crv : Fq12 (pairQ crv) crv)

/-- `Fq2` in `Fq12`. -/
def emb12 {q : ℕ} {crv : PairingCurve} (x : Fq2 q) : Fq12 q crv := ⟨⟨x, 0, 0⟩, 0⟩

/-- `Fq` in `Fq12`. -/
def embQ {q : ℕ} {crv : PairingCurve} (x : ZMod q) : Fq12 q crv := emb12 ⟨x, 0⟩

/-- `w`, a sixth root of `ξ`. -/
def w12 {q : ℕ} {crv : PairingCurve} : Fq12 q crv := ⟨0, 1⟩

/-- The factor of the untwisting map: `w` for the D-twist of bn256, `1 / w` for the M-twist of bls12_381. -/
noncomputable def untwistU : (crv : PairingCurve) → Fq12 (pairQ crv) crv
  | .bn256 => w12
  | .bls12_381 => w12⁻¹

open Classical in
/-- The untwisting map `(x, y) ↦ (x u², y u³)`, for points of the twist. -/
noncomputable def untwist (Q : Fq2 (pairQ crv) × Fq2 (pairQ crv)) : (pairE crv).Point :=
  if h : (pairE crv).Nonsingular (emb12 Q.1 * untwistU crv ^ 2) (emb12 Q.2 * untwistU crv ^ 3) then .some _ _ h else 0

open Classical in
/-- The Frobenius endomorphism `(x, y) ↦ (x ^ q, y ^ q)` of `E`. -/
noncomputable def frobE : (pairE crv).Point → (pairE crv).Point
  | .zero => 0
  | .some x y _ => if h : (pairE crv).Nonsingular (x ^ pairQ crv) (y ^ pairQ crv) then .some _ _ h else 0

/-- The second pairing group: the points other than 0 of order `r` on which Frobenius acts as multiplication by `q`. -/
structure InG2 (Q : (pairE crv).Point) : Prop where
  ne_zero : Q ≠ 0
  order : pairR crv • Q = 0
  frob : frobE crv Q = pairQ crv • Q

/-- The signed digits of the loop counter: `6 u + 2` for bn256, `|x|` for bls12_381. -/
def loopDigits : PairingCurve → List ℤ
  | .bn256 => naf_digits
  | .bls12_381 => ((Nat.digits 2 0xd201000000010000).reverse.tail).map Int.ofNat

/-- Miller's function of the optimal ate pairing. The loop counter of bls12_381 is negative, whence the inverse. -/
noncomputable def ateMiller : (crv : PairingCurve) → (Q : (pairE crv).Point) →
    (P : Fq12 (pairQ crv) crv × Fq12 (pairQ crv) crv) → Fq12 (pairQ crv) crv
  | .bn256, Q, P =>
    let s := miller (loopDigits .bn256) Q P
    s.1 * lineAt s.2 (frobE _ Q) P * lineAt (s.2 + frobE _ Q) (-frobE _ (frobE _ Q)) P
  | .bls12_381, Q, P => (miller (loopDigits .bls12_381) Q P).1⁻¹

/-- The optimal ate pairing (for bls12_381 its third power, as is customary). -/
noncomputable def ate (Q : (pairE crv).Point) (P : Fq12 (pairQ crv) crv × Fq12 (pairQ crv) crv) : Fq12 (pairQ crv) crv :=
  ateMiller crv Q P ^ finalExponent crv

end curve

end Verif
