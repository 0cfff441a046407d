import Mathlib.Algebra.BigOperators.Intervals
import Verif.Model.IntegerChip
import Verif.Spec.Judgement

/-!
# What an assigned integer stands for

`f` gives the value of a cell: `cv w` (the advice assignment `w`) or `AssignedValue.val` (the recorded
value).
-/

namespace Verif
variable {n : ℕ}

/-- The value of an assigned value under an advice assignment. -/
def cv (w : Advice n) (x : AssignedValue n) : ZMod n := w x.cell

/-- Limb `i` as a natural number (0 beyond the end). -/
def limbAt (f : AssignedValue n → ZMod n) (l : List (AssignedValue n)) (i : ℕ) : ℕ :=
  (l[i]?).elim 0 fun x => (f x).val

/-- The natural number a little-endian list of 108-bit limbs stands for. -/
def VL (f : AssignedValue n → ZMod n) (l : List (AssignedValue n)) : ℕ :=
  ∑ i ∈ Finset.range l.length, limbAt f l i * 2 ^ (108 * i)

/-- The natural number an assigned integer stands for. -/
def V (f : AssignedValue n → ZMod n) (a : AssignedInteger n) : ℕ := VL f a.limbs_le

/-- A well-formed assigned integer: the right number of limbs, limbs and value within the bounds the
counter `times` promises, and a native cell carrying the value modulo `n`. -/
structure WF (info : RangeInfo n) (f : AssignedValue n → ZMod n) (a : AssignedInteger n) : Prop where
  len : a.limbs_le.length = info.limbs
  times_pos : 1 ≤ a.times
  times_lt : a.times < 64
  limb : ∀ i, limbAt f a.limbs_le i < a.times * 2 ^ 108
  val : V f a < a.times * 2 ^ info.w_ceil_bits
  native : f a.native = (V f a : ZMod n)

/-- All cells of the integer are recorded faithfully. -/
structure OkI (h : Advice n) (a : AssignedInteger n) : Prop where
  limb : ∀ x ∈ a.limbs_le, Ok h x
  native : Ok h a.native

/-- The recorded integer is well formed, and canonical when its counter is 1 (as every integer with counter
1 made by an honest prover is). -/
structure Honest (w : ℕ) (info : RangeInfo n) (a : AssignedInteger n) : Prop where
  wf : WF info AssignedValue.val a
  canon : a.times = 1 → V AssignedValue.val a < w

/-- Under the advice assignment `w`, the integer `a` is well formed and stands for the element `x` of the
foreign field. -/
structure Rep (wm : ℕ) (info : RangeInfo n) (w : Advice n) (a : AssignedInteger n) (x : ZMod wm) : Prop where
  wf : WF info (cv w) a
  eq : (V (cv w) a : ZMod wm) = x

/-- The recorded value of the integer `a` is that of an honest prover and stands for the element `x` of the
foreign field. -/
structure HRep (wm : ℕ) (info : RangeInfo n) (a : AssignedInteger n) (x : ZMod wm) : Prop where
  honest : Honest wm info a
  eq : (V AssignedValue.val a : ZMod wm) = x

end Verif
