import Mathlib.Algebra.QuadraticAlgebra.Basic
import Mathlib.Tactic.Ring
import Verif.Model.Fq12
import Verif.Spec.Integer

/-!
# The tower of extension fields

`Fq2 = Fq[u]/(u² + 1)`, `Fq6 = Fq2[v]/(v³ - ξ)`, `Fq12 = Fq6[w]/(w² - v)`, written out in coordinates. `ξ` is `9 + u`
for bn256 and `1 + u` for bls12_381. Nothing here refers to the circuit except `Rep2`, `Rep6`, `Rep12`, which say
that assigned values represent an element in an advice assignment.
-/

namespace Verif

/-- `R[v]/(v³ - ξ)`, as triples of coordinates with respect to `1, v, v²`. -/
@[ext] structure Cubic (R : Type) (ξ : R) where
  c0 : R
  c1 : R
  c2 : R

namespace Cubic
variable {R : Type} [CommRing R] {ξ : R}

instance : Zero (Cubic R ξ) := ⟨⟨0, 0, 0⟩⟩
instance : One (Cubic R ξ) := ⟨⟨1, 0, 0⟩⟩
instance : Add (Cubic R ξ) := ⟨fun x y => ⟨x.c0 + y.c0, x.c1 + y.c1, x.c2 + y.c2⟩⟩
instance : Neg (Cubic R ξ) := ⟨fun x => ⟨-x.c0, -x.c1, -x.c2⟩⟩
instance : Sub (Cubic R ξ) := ⟨fun x y => ⟨x.c0 - y.c0, x.c1 - y.c1, x.c2 - y.c2⟩⟩
/-- The product of polynomials, with `v³` replaced by `ξ`. -/
instance : Mul (Cubic R ξ) := ⟨fun x y =>
  ⟨x.c0 * y.c0 + ξ * (x.c1 * y.c2 + x.c2 * y.c1),
   x.c0 * y.c1 + x.c1 * y.c0 + ξ * (x.c2 * y.c2),
   x.c0 * y.c2 + x.c1 * y.c1 + x.c2 * y.c0⟩⟩

@[simp] theorem c0_zero : (0 : Cubic R ξ).c0 = 0 := rfl
@[simp] theorem c1_zero : (0 : Cubic R ξ).c1 = 0 := rfl
@[simp] theorem c2_zero : (0 : Cubic R ξ).c2 = 0 := rfl
@[simp] theorem c0_one : (1 : Cubic R ξ).c0 = 1 := rfl
@[simp] theorem c1_one : (1 : Cubic R ξ).c1 = 0 := rfl
@[simp] theorem c2_one : (1 : Cubic R ξ).c2 = 0 := rfl
@[simp] theorem c0_add (x y : Cubic R ξ) : (x + y).c0 = x.c0 + y.c0 := rfl
@[simp] theorem c1_add (x y : Cubic R ξ) : (x + y).c1 = x.c1 + y.c1 := rfl
@[simp] theorem c2_add (x y : Cubic R ξ) : (x + y).c2 = x.c2 + y.c2 := rfl
@[simp] theorem c0_sub (x y : Cubic R ξ) : (x - y).c0 = x.c0 - y.c0 := rfl
@[simp] theorem c1_sub (x y : Cubic R ξ) : (x - y).c1 = x.c1 - y.c1 := rfl
@[simp] theorem c2_sub (x y : Cubic R ξ) : (x - y).c2 = x.c2 - y.c2 := rfl
@[simp] theorem c0_neg (x : Cubic R ξ) : (-x).c0 = -x.c0 := rfl
@[simp] theorem c1_neg (x : Cubic R ξ) : (-x).c1 = -x.c1 := rfl
@[simp] theorem c2_neg (x : Cubic R ξ) : (-x).c2 = -x.c2 := rfl
@[simp] theorem c0_mul (x y : Cubic R ξ) :
    (x * y).c0 = x.c0 * y.c0 + ξ * (x.c1 * y.c2 + x.c2 * y.c1) := rfl
@[simp] theorem c1_mul (x y : Cubic R ξ) :
    (x * y).c1 = x.c0 * y.c1 + x.c1 * y.c0 + ξ * (x.c2 * y.c2) := rfl
@[simp] theorem c2_mul (x y : Cubic R ξ) :
    (x * y).c2 = x.c0 * y.c2 + x.c1 * y.c1 + x.c2 * y.c0 := rfl

instance : CommRing (Cubic R ξ) where
  add_assoc x y z := by ext <;> simp [_root_.add_assoc]
  zero_add x := by ext <;> simp
  add_zero x := by ext <;> simp
  add_comm x y := by ext <;> simp [_root_.add_comm]
  left_distrib x y z := by ext <;> simp <;> ring
  right_distrib x y z := by ext <;> simp <;> ring
  zero_mul x := by ext <;> simp
  mul_zero x := by ext <;> simp
  mul_assoc x y z := by ext <;> simp <;> ring
  one_mul x := by ext <;> simp
  mul_one x := by ext <;> simp
  mul_comm x y := by ext <;> simp <;> ring
  neg_add_cancel x := by ext <;> simp
  sub_eq_add_neg x y := by ext <;> simp [_root_.sub_eq_add_neg]
  nsmul := nsmulRec
  zsmul := zsmulRec

/-- The adjoined root. -/
def v : Cubic R ξ := ⟨0, 1, 0⟩

/-- Elements of the base ring. -/
def of (x : R) : Cubic R ξ := ⟨x, 0, 0⟩

theorem v_pow_three : (v : Cubic R ξ) ^ 3 = of ξ := by
  rw [pow_succ, sq]
  ext <;> simp [v, of]

end Cubic

/-- `Fq[u]/(u² + 1)`. -/
abbrev Fq2 (q : ℕ) : Type := QuadraticAlgebra (ZMod q) (-1) 0

/-- The cubic non-residue: `9 + u` for bn256, `1 + u` for bls12_381. -/
def xi (q : ℕ) : PairingCurve → Fq2 q
  | .bn256 => ⟨9, 1⟩
  | .bls12_381 => ⟨1, 1⟩

/-- `Fq2[v]/(v³ - ξ)`. -/
abbrev Fq6 (q : ℕ) (crv : PairingCurve) : Type := Cubic (Fq2 q) (xi q crv)

/-- `Fq6[w]/(w² - v)`. -/
abbrev Fq12 (q : ℕ) (crv : PairingCurve) : Type := QuadraticAlgebra (Fq6 q crv) Cubic.v 0

section
variable {n : ℕ} (wm : ℕ) (info : RangeInfo n) (w : Advice n)

/-- In the assignment `w`, `a` represents `x ∈ Fq2`. -/
structure Rep2 (a : AssignedFq2 n) (x : Fq2 wm) : Prop where
  re : Rep wm info w a.1 x.re
  im : Rep wm info w a.2 x.im

/-- In the assignment `w`, `a` represents `x ∈ Fq6`. -/
structure Rep6 {crv : PairingCurve} (a : AssignedFq6 n) (x : Fq6 wm crv) : Prop where
  c0 : Rep2 wm info w a.c0 x.c0
  c1 : Rep2 wm info w a.c1 x.c1
  c2 : Rep2 wm info w a.c2 x.c2

/-- In the assignment `w`, `a` represents `x ∈ Fq12`. -/
structure Rep12 {crv : PairingCurve} (a : AssignedFq12 n) (x : Fq12 wm crv) : Prop where
  re : Rep6 wm info w a.c0 x.re
  im : Rep6 wm info w a.c1 x.im

/-- The recorded witness of `a` is a faithful representation of `x`, reduced as the results of all operations are. -/
structure HRep1 (a : AssignedInteger n) (x : ZMod wm) : Prop where
  rep : HRep wm info a x
  times : a.times ≤ 16

/-- `HRep1` of both components. -/
structure HRep2 (a : AssignedFq2 n) (x : Fq2 wm) : Prop where
  re : HRep1 wm info a.1 x.re
  im : HRep1 wm info a.2 x.im

/-- `HRep2` of the three components. -/
structure HRep6 {crv : PairingCurve} (a : AssignedFq6 n) (x : Fq6 wm crv) : Prop where
  c0 : HRep2 wm info a.c0 x.c0
  c1 : HRep2 wm info a.c1 x.c1
  c2 : HRep2 wm info a.c2 x.c2

/-- `HRep6` of both components. -/
structure HRep12 {crv : PairingCurve} (a : AssignedFq12 n) (x : Fq12 wm crv) : Prop where
  re : HRep6 wm info a.c0 x.re
  im : HRep6 wm info a.c1 x.im

/-- The assignment `w` carries the recorded values. -/
def OkI2 (a : AssignedFq2 n) : Prop := OkI w a.1 ∧ OkI w a.2
/-- The assignment `w` carries the recorded values. -/
def OkI6 (a : AssignedFq6 n) : Prop := OkI2 w a.c0 ∧ OkI2 w a.c1 ∧ OkI2 w a.c2
/-- The assignment `w` carries the recorded values. -/
def OkI12 (a : AssignedFq12 n) : Prop := OkI6 w a.c0 ∧ OkI6 w a.c1

end

/-- How assigned values of type `A` encode elements of `X`: `rep w a x` says that `a` represents `x` in the advice
assignment `w`, `hrep a x` that the recorded witness of `a` faithfully represents `x`, and `ok h a` that the assignment
`h` carries the recorded witness of `a`. -/
structure Enc (n : ℕ) (A X : Type) where
  rep : Advice n → A → X → Prop
  hrep : A → X → Prop
  ok : Advice n → A → Prop

section
variable {n : ℕ} (wm : ℕ) (info : RangeInfo n)

/-- Elements of the base field. -/
def enc1 : Enc n (AssignedInteger n) (ZMod wm) := ⟨Rep wm info, HRep1 wm info, OkI⟩
/-- Elements of `Fq2`. -/
def enc2 : Enc n (AssignedFq2 n) (Fq2 wm) := ⟨Rep2 wm info, HRep2 wm info, OkI2⟩
/-- Elements of `Fq6`. -/
def enc6 (crv : PairingCurve) : Enc n (AssignedFq6 n) (Fq6 wm crv) := ⟨fun w a x => Rep6 wm info w a x, HRep6 wm info, OkI6⟩
/-- Elements of `Fq12`. -/
def enc12 (crv : PairingCurve) : Enc n (AssignedFq12 n) (Fq12 wm crv) := ⟨fun w a x => Rep12 wm info w a x, HRep12 wm info, OkI12⟩
/-- Pairs. -/
def Enc.prod {A B X Y : Type} (e : Enc n A X) (f : Enc n B Y) : Enc n (A × B) (X × Y) :=
  ⟨fun w a x => e.rep w a.1 x.1 ∧ f.rep w a.2 x.2, fun a x => e.hrep a.1 x.1 ∧ f.hrep a.2 x.2,
   fun h a => e.ok h a.1 ∧ f.ok h a.2⟩
/-- Nothing. -/
def encU : Enc n Unit Unit := ⟨fun _ _ _ => True, fun _ _ => True, fun _ _ => True⟩

variable {A B X Y : Type}

/-- The chip operation `m` realises the relation `G`. Soundness: in every satisfying assignment in which the input
represents `x`, the result represents some `y` with `G x y`. Completeness: when such a `y` exists for the recorded
input, the operation does not panic, records a witness for such a `y`, and what it records is satisfied. -/
structure Realises (dom : Enc n A X) (cod : Enc n B Y) (m : A → M n B) (G : X → Y → Prop) : Prop where
  sound : ∀ a, Sound (m a) (fun w r => ∀ x, dom.rep w a x → ∃ y, G x y ∧ cod.rep w r y)
  complete : ∀ a x, dom.hrep a x → (∃ y, G x y) →
    Complete (m a) (fun h => dom.ok h a) (fun r => ∃ y, G x y ∧ cod.hrep r y) cod.ok

/-- The chip operation `m` computes the function `f`. -/
def Computes (dom : Enc n A X) (cod : Enc n B Y) (m : A → M n B) (f : X → Y) : Prop :=
  Realises dom cod m (fun x y => y = f x)

end
end Verif
