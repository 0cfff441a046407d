import Verif.Spec.EccProg
import Verif.Spec.AtePairing
import Mathlib.Data.Fin.VecNotation

/-!
# Programs over the tower and the pairing chips

A finite history of calls, as data: integer, condition and point calls as in `Spec/EccProg.lean`, calls on the three
levels of the tower, and pairings. `exec` issues the calls; `TStep` and `eval` are the reference meaning in the tower of
fields, written without reference to limbs or circuits.
-/

namespace Verif
variable {n : ℕ} {crv : PairingCurve}

/-- The levels of the tower. -/
inductive Lv where
  | f2
  | f6
  | f12

/-- Assigned elements. -/
@[reducible] def Lv.T (n : ℕ) : Lv → Type
  | .f2 => AssignedFq2 n
  | .f6 => AssignedFq6 n
  | .f12 => AssignedFq12 n

/-- Elements. -/
@[reducible] def Lv.V (crv : PairingCurve) : Lv → Type
  | .f2 => Fq2 (pairQ crv)
  | .f6 => Fq6 (pairQ crv) crv
  | .f12 => Fq12 (pairQ crv) crv

/-- What an assigned element stands for. -/
def Lv.enc (info : RangeInfo n) (crv : PairingCurve) : (l : Lv) → Enc n (l.T n) (l.V crv)
  | .f2 => enc2 (pairQ crv) info
  | .f6 => enc6 (pairQ crv) info crv
  | .f12 => enc12 (pairQ crv) info crv

noncomputable instance (l : Lv) : CommRing (l.V crv) :=
  match l with
  | .f2 => inferInstanceAs (CommRing (Fq2 (pairQ crv)))
  | .f6 => inferInstanceAs (CommRing (Fq6 (pairQ crv) crv))
  | .f12 => inferInstanceAs (CommRing (Fq12 (pairQ crv) crv))

/-- Tuples, by the levels of the components. -/
@[reducible] def Tup (F : Lv → Type) : List Lv → Type
  | [] => Unit
  | l :: ls => F l × Tup F ls

/-- Tuples of references to earlier results. -/
@[reducible] def Args : List Lv → Type
  | [] => Unit
  | _ :: ls => ℕ × Args ls

/-- What a tuple stands for. -/
def encTup (info : RangeInfo n) (crv : PairingCurve) : (ls : List Lv) → Enc n (Tup (Lv.T n) ls) (Tup (Lv.V crv) ls)
  | [] => encU
  | l :: ls => (l.enc info crv).prod (encTup info crv ls)

/-- The calls that produce an element of the tower, by the levels of the operands and of the result. -/
inductive TOp (crv : PairingCurve) : List Lv → Lv → Type
  /-- `fq2_assign_zero`, `fq6_assign_zero`, `fq12_assign_zero` -/
  | zero (l : Lv) : TOp crv [] l
  /-- `fq2_assign_one`, … -/
  | one (l : Lv) : TOp crv [] l
  /-- `fq2_assign_constant`, … -/
  | const (l : Lv) (x : l.V crv) : TOp crv [] l
  /-- `fq2_neg`, … -/
  | neg (l : Lv) : TOp crv [l] l
  /-- `fq2_double`, … -/
  | double (l : Lv) : TOp crv [l] l
  /-- `fq2_square`, … -/
  | square (l : Lv) : TOp crv [l] l
  /-- `fq2_reduce`, … -/
  | reduce (l : Lv) : TOp crv [l] l
  /-- `fq2_add`, … -/
  | add (l : Lv) : TOp crv [l, l] l
  /-- `fq2_sub`, … -/
  | sub (l : Lv) : TOp crv [l, l] l
  /-- `fq2_mul`, … -/
  | mul (l : Lv) : TOp crv [l, l] l
  /-- `fq2_unsafe_invert`, … -/
  | inv (l : Lv) : TOp crv [l] l
  /-- `fq2_frobenius_map`, … -/
  | frob (l : Lv) (power : ℕ) : TOp crv [l] l
  /-- `fq2_conjugate` -/
  | conj2 : TOp crv [.f2] .f2
  /-- `fq12_conjugate` -/
  | conj12 : TOp crv [.f12] .f12
  /-- `fq2_mul_by_nonresidue` -/
  | xi2 : TOp crv [.f2] .f2
  /-- `fq6_mul_by_nonresidue` -/
  | xi6 : TOp crv [.f6] .f6
  /-- `fq6_mul_by_1` -/
  | mul1 : TOp crv [.f6, .f2] .f6
  /-- `fq6_mul_by_01` -/
  | mul01 : TOp crv [.f6, .f2, .f2] .f6
  /-- `fq12_mul_by_014` -/
  | mul014 : TOp crv [.f12, .f2, .f2, .f2] .f12
  /-- `fq12_mul_by_034` -/
  | mul034 : TOp crv [.f12, .f2, .f2, .f2] .f12
  /-- `fq12_cyclotomic_square` -/
  | cyc : TOp crv [.f12] .f12
  /-- `final_exponentiation` -/
  | finalExp : TOp crv [.f12] .f12
  /-- an element of `Fq6` from its components -/
  | make6 : TOp crv [.f2, .f2, .f2] .f6
  /-- an element of `Fq12` from its components -/
  | make12 : TOp crv [.f6, .f6] .f12
  /-- a component of an element of `Fq6` -/
  | part6 (k : Fin 3) : TOp crv [.f6] .f2
  /-- a component of an element of `Fq12` -/
  | part12 (k : Fin 2) : TOp crv [.f12] .f6

/-- The constants as they are handed to the library. -/
def nat2 {q : ℕ} (x : Fq2 q) : ℕ × ℕ := (x.re.val, x.im.val)
/-- See `nat2`. -/
def nat6 {q : ℕ} (x : Fq6 q crv) : (ℕ × ℕ) × (ℕ × ℕ) × (ℕ × ℕ) := (nat2 x.c0, nat2 x.c1, nat2 x.c2)

/-- `zero` at each level. -/
def Lv.zero (info : RangeInfo n) : (l : Lv) → M n (l.T n)
  | .f2 => fq2_assign_zero info
  | .f6 => fq6_assign_zero info
  | .f12 => fq12_assign_zero info
/-- `one` at each level. -/
def Lv.one (info : RangeInfo n) : (l : Lv) → M n (l.T n)
  | .f2 => fq2_assign_one info
  | .f6 => fq6_assign_one info
  | .f12 => fq12_assign_one info
/-- `const` at each level. -/
def Lv.const (info : RangeInfo n) (crv : PairingCurve) : (l : Lv) → l.V crv → M n (l.T n)
  | .f2, x => fq2_assign_constant info (nat2 x)
  | .f6, x => fq6_assign_constant info (nat6 x)
  | .f12, x => fq12_assign_constant info (nat6 x.re, nat6 x.im)
/-- `neg` at each level. -/
def Lv.neg (info : RangeInfo n) : (l : Lv) → l.T n → M n (l.T n)
  | .f2, a => fq2_neg info a
  | .f6, a => fq6_neg info a
  | .f12, a => fq12_neg info a
/-- `double` at each level. -/
def Lv.double (info : RangeInfo n) : (l : Lv) → l.T n → M n (l.T n)
  | .f2, a => fq2_double info a
  | .f6, a => fq6_double info a
  | .f12, a => fq12_double info a
/-- `square` at each level. -/
def Lv.square (info : RangeInfo n) (crv : PairingCurve) : (l : Lv) → l.T n → M n (l.T n)
  | .f2, a => fq2_square info a
  | .f6, a => fq6_square info crv a
  | .f12, a => fq12_square info crv a
/-- `reduce` at each level. -/
def Lv.reduce (info : RangeInfo n) : (l : Lv) → l.T n → M n (l.T n)
  | .f2, a => fq2_reduce info a
  | .f6, a => fq6_reduce info a
  | .f12, a => fq12_reduce info a
/-- `inv` at each level. -/
def Lv.inv (info : RangeInfo n) (crv : PairingCurve) : (l : Lv) → l.T n → M n (l.T n)
  | .f2, a => fq2_unsafe_invert info a
  | .f6, a => fq6_unsafe_invert info crv a
  | .f12, a => fq12_unsafe_invert info crv a
/-- `add` at each level. -/
def Lv.add (info : RangeInfo n) : (l : Lv) → l.T n → l.T n → M n (l.T n)
  | .f2, a, b => fq2_add info a b
  | .f6, a, b => fq6_add info a b
  | .f12, a, b => fq12_add info a b
/-- `sub` at each level. -/
def Lv.sub (info : RangeInfo n) : (l : Lv) → l.T n → l.T n → M n (l.T n)
  | .f2, a, b => fq2_sub info a b
  | .f6, a, b => fq6_sub info a b
  | .f12, a, b => fq12_sub info a b
/-- `mul` at each level. -/
def Lv.mul (info : RangeInfo n) (crv : PairingCurve) : (l : Lv) → l.T n → l.T n → M n (l.T n)
  | .f2, a, b => fq2_mul info a b
  | .f6, a, b => fq6_mul info crv a b
  | .f12, a, b => fq12_mul info crv a b
/-- `frob` at each level. -/
def Lv.frob (info : RangeInfo n) (crv : PairingCurve) : (l : Lv) → l.T n → ℕ → M n (l.T n)
  | .f2, a, k => fq2_frobenius_map info crv a k
  | .f6, a, k => fq6_frobenius_map info crv a k
  | .f12, a, k => fq12_frobenius_map info crv a k

/-- Issue a call. -/
def TOp.run (info : RangeInfo n) : {ls : List Lv} → {l : Lv} → TOp crv ls l → Tup (Lv.T n) ls → M n (l.T n)
  | _, _, .zero l, _ => l.zero info
  | _, _, .one l, _ => l.one info
  | _, _, .const l x, _ => l.const info crv x
  | _, _, .neg l, a => l.neg info a.1
  | _, _, .double l, a => l.double info a.1
  | _, _, .square l, a => l.square info crv a.1
  | _, _, .reduce l, a => l.reduce info a.1
  | _, _, .inv l, a => l.inv info crv a.1
  | _, _, .add l, a => l.add info a.1 a.2.1
  | _, _, .sub l, a => l.sub info a.1 a.2.1
  | _, _, .mul l, a => l.mul info crv a.1 a.2.1
  | _, _, .frob l k, a => l.frob info crv a.1 k
  | _, _, .conj2, a => fq2_conjugate info a.1
  | _, _, .conj12, a => fq12_conjugate info a.1
  | _, _, .xi2, a => fq2_mul_by_nonresidue info crv a.1
  | _, _, .xi6, a => fq6_mul_by_nonresidue info crv a.1
  | _, _, .mul1, a => fq6_mul_by_1 info crv a.1 a.2.1
  | _, _, .mul01, a => fq6_mul_by_01 info crv a.1 a.2.1 a.2.2.1
  | _, _, .mul014, a => fq12_mul_by_014 info crv a.1 a.2.1 a.2.2.1 a.2.2.2.1
  | _, _, .mul034, a => fq12_mul_by_034 info crv a.1 a.2.1 a.2.2.1 a.2.2.2.1
  | _, _, .cyc, a => fq12_cyclotomic_square info crv a.1
  | _, _, .finalExp, a => final_exponentiation info crv a.1
  | _, _, .make6, a => pure ⟨a.1, a.2.1, a.2.2.1⟩
  | _, _, .make12, a => pure ⟨a.1, a.2.1⟩
  | _, _, .part6 k, a => pure (![a.1.c0, a.1.c1, a.1.c2] k)
  | _, _, .part12 k, a => pure (![a.1.c0, a.1.c1] k)

/-- Reference meaning of a call, in the tower of fields. What a Frobenius map of bls12_381 computes for powers other than
1 (`C40_violated`), and a cyclotomic squaring outside of the cyclotomic subgroup (`C39_restriction_needed`), is left
open. -/
def TOp.rel : {ls : List Lv} → {l : Lv} → TOp crv ls l → Tup (Lv.V crv) ls → l.V crv → Prop
  | _, _, .zero _, _, y => y = 0
  | _, _, .one _, _, y => y = 1
  | _, _, .const _ x, _, y => y = x
  | _, _, .neg _, x, y => y = -x.1
  | _, _, .double _, x, y => y = x.1 + x.1
  | _, _, .square _, x, y => y = x.1 ^ 2
  | _, _, .reduce _, x, y => y = x.1
  | _, _, .add _, x, y => y = x.1 + x.2.1
  | _, _, .sub _, x, y => y = x.1 - x.2.1
  | _, _, .mul _, x, y => y = x.1 * x.2.1
  | _, _, .inv _, x, y => x.1 * y = 1
  | _, _, .frob _ k, x, y => crv = .bn256 ∨ k = 1 → y = x.1 ^ pairQ crv ^ k
  | _, _, .conj2, x, y => y.re = x.1.re ∧ y.im = -x.1.im
  | _, _, .conj12, x, y => y.re = x.1.re ∧ y.im = -x.1.im
  | _, _, .xi2, x, y => y = xi (pairQ crv) crv * x.1
  | _, _, .xi6, x, y => y = Cubic.v * x.1
  | _, _, .mul1, x, y => y = x.1 * (Cubic.of x.2.1 * Cubic.v)
  | _, _, .mul01, x, y => y = x.1 * (Cubic.of x.2.1 + Cubic.of x.2.2.1 * Cubic.v)
  | _, _, .mul014, x, y => y = x.1 * ⟨Cubic.of x.2.1 + Cubic.of x.2.2.1 * Cubic.v, Cubic.of x.2.2.2.1 * Cubic.v⟩
  | _, _, .mul034, x, y => y = x.1 * ⟨Cubic.of x.2.1, Cubic.of x.2.2.1 + Cubic.of x.2.2.2.1 * Cubic.v⟩
  | _, _, .cyc, x, y => x.1 ^ (pairQ crv ^ 4 - pairQ crv ^ 2 + 1) = 1 → y = x.1 ^ 2
  | _, _, .finalExp, x, y => x.1 ≠ 0 ∧ y = x.1 ^ finalExponent crv
  | _, _, .make6, x, y => y.c0 = x.1 ∧ y.c1 = x.2.1 ∧ y.c2 = x.2.2.1
  | _, _, .make12, x, y => y.re = x.1 ∧ y.im = x.2.1
  | _, _, .part6 k, x, y => y = ![x.1.c0, x.1.c1, x.1.c2] k
  | _, _, .part12 k, x, y => y = ![x.1.re, x.1.im] k

/-! ## Programs -/

/-- The constant of the curve equation, in the base field. -/
abbrev pairBq (crv : PairingCurve) : ZMod (pairQ crv) := (pairB crv : ZMod (pairQ crv))

/-- One public call. Indices refer to what has been produced so far. -/
inductive TInstr (crv : PairingCurve) where
  /-- a call on integers, conditions or points -/
  | pt (i : PInstr (pairBq crv))
  /-- an element of `Fq2` from two integers -/
  | pair2 (i j : ℕ)
  /-- the components of an element of `Fq2`, as integers -/
  | parts2 (i : ℕ)
  /-- a call that produces an element of the tower -/
  | op {ls : List Lv} {l : Lv} (o : TOp crv ls l) (args : Args ls)
  /-- `fq2_assert_equal`, `fq6_assert_equal`, `fq12_assert_eq` -/
  | assertEq (l : Lv) (i j : ℕ)
  /-- `fq12_assert_one` -/
  | assertOne (i : ℕ)
  /-- a point of the twist from its coordinates and a condition -/
  | g2 (x y z : ℕ)
  /-- `g2_neg` -/
  | negG2 (i : ℕ)
  /-- `pairing`, on pairs of a point and a point of the twist -/
  | pairing (ts : List (ℕ × ℕ))
  /-- `check_pairing` -/
  | checkPairing (ts : List (ℕ × ℕ))

/-- What has been produced so far. -/
structure TSt (n : ℕ) where
  base : PSt n
  regs : (l : Lv) → List (l.T n)
  g2s : List (AssignedG2Affine n)

/-- Append to the results of a level. -/
def pushAt {F : Lv → Type} (regs : (l : Lv) → List (F l)) : (l : Lv) → F l → (l : Lv) → List (F l)
  | .f2, a, .f2 => regs .f2 ++ [a]
  | .f6, a, .f6 => regs .f6 ++ [a]
  | .f12, a, .f12 => regs .f12 ++ [a]
  | _, _, l => regs l

def TSt.push (s : TSt n) (l : Lv) (a : l.T n) : TSt n := { s with regs := pushAt s.regs l a }
def TSt.pushG (s : TSt n) (a : AssignedG2Affine n) : TSt n := { s with g2s := s.g2s ++ [a] }

/-- Look up operands. -/
def fetchM (regs : (l : Lv) → List (l.T n)) : (ls : List Lv) → Args ls → M n (Tup (Lv.T n) ls)
  | [], _ => pure ()
  | l :: ls, a => do
    let x ← index (regs l) a.1
    let xs ← fetchM regs ls a.2
    pure (x, xs)

/-- Look up the inputs of a pairing. -/
def inputsM (pts : List (AssignedPoint n)) (g2s : List (AssignedG2Affine n)) :
    List (ℕ × ℕ) → M n (List (AssignedPoint n × AssignedG2Affine n))
  | [] => pure []
  | t :: ts => do
    let p ← index pts t.1
    let q ← index g2s t.2
    let xs ← inputsM pts g2s ts
    pure ((p, q) :: xs)

/-- The assertions of equality at each level. -/
def Lv.assertEq (info : RangeInfo n) : (l : Lv) → l.T n → l.T n → M n Unit
  | .f2, a, b => fq2_assert_equal info a b
  | .f6, a, b => fq6_assert_equal info a b
  | .f12, a, b => fq12_assert_eq info a b

/-- Issue one call. -/
def TInstr.exec (info : RangeInfo n) (order : ℕ) : TInstr crv → TSt n → M n (TSt n)
  | .pt i, s => do pure { s with base := ← i.exec info order s.base }
  | .pair2 i j, s => do
    let a ← index s.base.base.ints i
    let b ← index s.base.base.ints j
    pure (s.push .f2 (a, b))
  | .parts2 i, s => do
    let a ← index (s.regs .f2) i
    pure { s with base := s.base.pushXY a.1 a.2 }
  | .op (ls := ls) (l := l) o args, s => do
    let a ← fetchM s.regs ls args
    pure (s.push l (← o.run info a))
  | .assertEq l i j, s => do
    let a ← index (s.regs l) i
    let b ← index (s.regs l) j
    l.assertEq info a b
    pure s
  | .assertOne i, s => do
    let a ← index (s.regs .f12) i
    fq12_assert_one info a
    pure s
  | .g2 x y z, s => do
    let x ← index (s.regs .f2) x
    let y ← index (s.regs .f2) y
    let z ← index s.base.base.conds z
    pure (s.pushG ⟨x, y, z⟩)
  | .negG2 i, s => do
    let a ← index s.g2s i
    pure (s.pushG (← g2_neg info a))
  | .pairing ts, s => do
    let ps ← inputsM s.base.pts s.g2s ts
    pure (s.push .f12 (← Verif.pairing info crv ps))
  | .checkPairing ts, s => do
    let ps ← inputsM s.base.pts s.g2s ts
    check_pairing info crv ps
    pure s

/-- Issue a sequence of calls. -/
def texecAll (info : RangeInfo n) (order : ℕ) : List (TInstr crv) → TSt n → M n (TSt n)
  | [], s => pure s
  | i :: is, s => do texecAll info order is (← i.exec info order s)

/-- Nothing produced yet. -/
def TSt.empty (n : ℕ) : TSt n := ⟨⟨⟨[], []⟩, [], [], []⟩, fun _ => [], []⟩

/-! ## Reference meaning -/

/-- Reference state: field elements, Booleans, points of the curve, elements of the tower, and points of the twist as
a flag (identity) and coordinates. -/
structure TRef (crv : PairingCurve) where
  base : PRef (pairBq crv)
  regs : (l : Lv) → List (l.V crv)
  g2s : List (Bool × Fq2 (pairQ crv) × Fq2 (pairQ crv))

def TRef.push (r : TRef crv) (l : Lv) (y : l.V crv) : TRef crv := { r with regs := pushAt r.regs l y }
def TRef.pushG (r : TRef crv) (y : Bool × Fq2 (pairQ crv) × Fq2 (pairQ crv)) : TRef crv := { r with g2s := r.g2s ++ [y] }

/-- Nothing produced yet. -/
def TRef.empty (crv : PairingCurve) : TRef crv := ⟨⟨⟨[], []⟩, [], [], []⟩, fun _ => [], []⟩

/-- The operands. -/
def fetch {F : Lv → Type} (regs : (l : Lv) → List (F l)) : (ls : List Lv) → Args ls → Option (Tup F ls)
  | [], _ => some ()
  | l :: ls, a => (regs l)[a.1]? >>= fun x => fetch regs ls a.2 >>= fun xs => some (x, xs)

/-- The coordinates of the two points of an input of a pairing; `none` if one of them is the identity. -/
def TRef.input (r : TRef crv) (t : ℕ × ℕ) :
    Option ((ZMod (pairQ crv) × ZMod (pairQ crv)) × (Fq2 (pairQ crv) × Fq2 (pairQ crv))) :=
  r.base.pts[t.1]? >>= fun P => P.xy >>= fun p => r.g2s[t.2]? >>= fun g => if g.1 then none else some (p, g.2)

/-- The inputs of a pairing. -/
def TRef.inputs (r : TRef crv) : List (ℕ × ℕ) →
    Option (List ((ZMod (pairQ crv) × ZMod (pairQ crv)) × (Fq2 (pairQ crv) × Fq2 (pairQ crv))))
  | [] => some []
  | t :: ts => r.input t >>= fun v => r.inputs ts >>= fun vs => some (v :: vs)

/-- The second points lie in the second pairing group. -/
def InSecond (vs : List ((ZMod (pairQ crv) × ZMod (pairQ crv)) × (Fq2 (pairQ crv) × Fq2 (pairQ crv)))) : Prop :=
  ∀ v ∈ vs, InG2 crv (untwist crv v.2)

/-- The product of the optimal ate pairings. -/
noncomputable def ateProd (vs : List ((ZMod (pairQ crv) × ZMod (pairQ crv)) × (Fq2 (pairQ crv) × Fq2 (pairQ crv)))) :
    Fq12 (pairQ crv) crv :=
  (vs.map fun v => ate crv (untwist crv v.2) (embQ v.1.1, embQ v.1.2)).prod

/-- Reference meaning of one call. What a pairing gives for points outside of the second pairing group is left open; that
no input is the identity is not. -/
inductive TStep : TInstr crv → TRef crv → TRef crv → Prop
  | pt {r i t} : PStep i r.base t → TStep (.pt i) r { r with base := t }
  | pair2 {r i j x y} : r.base.base.vals[i]? = some x → r.base.base.vals[j]? = some y →
      TStep (.pair2 i j) r (r.push .f2 ⟨x, y⟩)
  | parts2 {r i} {x : Fq2 (pairQ crv)} : (r.regs .f2)[i]? = some x →
      TStep (.parts2 i) r { r with base := r.base.pushXY x.re x.im }
  | op {r} {ls : List Lv} {l : Lv} {o : TOp crv ls l} {args x y} : fetch r.regs ls args = some x → o.rel x y →
      TStep (.op o args) r (r.push l y)
  | assertEq {r l i j x} : (r.regs l)[i]? = some x → (r.regs l)[j]? = some x → TStep (.assertEq l i j) r r
  | assertOne {r i} : (r.regs .f12)[i]? = some 1 → TStep (.assertOne i) r r
  | g2 {r i j k x y z} : (r.regs .f2)[i]? = some x → (r.regs .f2)[j]? = some y → r.base.base.flags[k]? = some z →
      TStep (.g2 i j k) r (r.pushG (z, x, y))
  | negG2 {r i z x y} : r.g2s[i]? = some (z, x, y) → TStep (.negG2 i) r (r.pushG (z, x, -y))
  | pairing {r ts vs y} : r.inputs ts = some vs → (InSecond vs → y = ateProd vs) →
      TStep (.pairing ts) r (r.push .f12 y)
  | checkPairing {r ts vs} : r.inputs ts = some vs → (InSecond vs → ateProd vs = 1) → TStep (.checkPairing ts) r r

/-- Reference meaning of a sequence of calls. -/
inductive TSteps : List (TInstr crv) → TRef crv → TRef crv → Prop
  | nil {r} : TSteps [] r r
  | cons {i is r s t} : TStep i r s → TSteps is s t → TSteps (i :: is) r t

open Classical in
/-- The honest run. `none` if a call is outside its domain: an unknown index, an operation whose meaning does not single
out one result (such as the inverse of zero), a pairing at the identity or outside of the second pairing group, or an
assertion that fails. -/
noncomputable def TInstr.eval : TInstr crv → TRef crv → Option (TRef crv)
  | .pt i, r => i.eval r.base >>= fun t => some { r with base := t }
  | .pair2 i j, r => r.base.base.vals[i]? >>= fun x => r.base.base.vals[j]? >>= fun y => some (r.push .f2 ⟨x, y⟩)
  | .parts2 i, r => (r.regs .f2)[i]? >>= fun x => some { r with base := r.base.pushXY x.re x.im }
  | .op (ls := ls) (l := l) o args, r => fetch r.regs ls args >>= fun x =>
      if h : ∃! y, o.rel x y then some (r.push l h.choose) else none
  | .assertEq l i j, r => (r.regs l)[i]? >>= fun x => (r.regs l)[j]? >>= fun y => if x = y then some r else none
  | .assertOne i, r => (r.regs .f12)[i]? >>= fun x => if x = 1 then some r else none
  | .g2 i j k, r => (r.regs .f2)[i]? >>= fun x => (r.regs .f2)[j]? >>= fun y => r.base.base.flags[k]? >>= fun z =>
      some (r.pushG (z, x, y))
  | .negG2 i, r => r.g2s[i]? >>= fun g => some (r.pushG (g.1, g.2.1, -g.2.2))
  | .pairing ts, r => r.inputs ts >>= fun vs => if InSecond vs then some (r.push .f12 (ateProd vs)) else none
  | .checkPairing ts, r => r.inputs ts >>= fun vs => if InSecond vs ∧ ateProd vs = 1 then some r else none

/-- The honest run of a sequence of calls. -/
noncomputable def tevalAll : List (TInstr crv) → TRef crv → Option (TRef crv)
  | [], r => some r
  | i :: is, r => i.eval r >>= tevalAll is

/-- The state `s` stands for the reference state `r` under the assignment `w`. -/
structure RepTSt (info : RangeInfo n) (w : Advice n) (s : TSt n) (r : TRef crv) : Prop where
  base : RepPSt info w s.base r.base
  regs : ∀ l, List.Forall₂ ((l.enc info crv).rep w) (s.regs l) (r.regs l)
  g2s : List.Forall₂ (fun a v => Holds w a.z v.1 ∧ Rep2 (pairQ crv) info w a.x v.2.1 ∧ Rep2 (pairQ crv) info w a.y v.2.2)
    s.g2s r.g2s

/-- The recorded values of the state `s` are the honest ones for the reference state `r`. -/
structure HRepTSt (info : RangeInfo n) (s : TSt n) (r : TRef crv) : Prop where
  base : HRepPSt info s.base r.base
  regs : ∀ l, List.Forall₂ (l.enc info crv).hrep (s.regs l) (r.regs l)
  g2s : List.Forall₂ (fun a v => a.z.val = (if v.1 then 1 else 0) ∧ HRep2 (pairQ crv) info a.x v.2.1 ∧
    HRep2 (pairQ crv) info a.y v.2.2) s.g2s r.g2s

/-- All cells of the state are recorded faithfully. -/
structure OkTSt (info : RangeInfo n) (crv : PairingCurve) (h : Advice n) (s : TSt n) : Prop where
  base : OkPSt h s.base
  regs : ∀ l, ∀ a ∈ s.regs l, (l.enc info crv).ok h a
  g2s : ∀ a ∈ s.g2s, Ok h a.z ∧ OkI2 h a.x ∧ OkI2 h a.y

end Verif
