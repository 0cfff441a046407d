import Verif.Spec.Log
import Verif.Model.Msm

/-!
# The shape of a circuit

What two contexts, and the values handed out by them, have in common when they describe the same circuit with different
witnesses.
-/

namespace Verif
variable {n : ℕ} {α β : Type}

/-- Two contexts with the same circuit: everything but the recorded advice values agrees. -/
structure SameShape (s s' : Context n) : Prop where
  base_offset : s.base_offset = s'.base_offset
  range_offset : s.range_offset = s'.range_offset
  select_offset : s.select_offset = s'.select_offset
  base_fix : s.records.inner.base_fix_record = s'.records.inner.base_fix_record
  range_fix : s.records.inner.range_fix_record = s'.records.inner.range_fix_record
  select_fix : s.records.inner.select_fix_record = s'.records.inner.select_fix_record
  flags : s.records.inner.permute_flag = s'.records.inner.permute_flag
  base_height : s.records.base_height = s'.records.base_height
  range_height : s.records.range_height = s'.records.range_height
  select_height : s.records.select_height = s'.records.select_height
  permutations : s.records.permutations = s'.records.permutations

/-- Handed-out objects of the same shape. `sh True a a'`: the same cells and the same overflow counters, that is,
everything but the witness values agrees. `sh False a a'`: the same lengths and counters; cells may differ. -/
class Shaped (α : Type) where
  sh : Prop → α → α → Prop

export Shaped (sh)

/-- `src/assign.rs:25-29`: the cell, not the value. -/
instance : Shaped (AssignedValue n) := ⟨fun st a a' => st → a.cell = a'.cell⟩
instance : Shaped Unit := ⟨fun _ _ _ => True⟩
instance [Shaped α] : Shaped (List α) := ⟨fun st => List.Forall₂ (sh st)⟩
instance [Shaped α] [Shaped β] : Shaped (α × β) := ⟨fun st x y => sh st x.1 y.1 ∧ sh st x.2 y.2⟩

/-- Limbs, native residue and overflow counter of an integer. -/
structure IntShape (st : Prop) (a a' : AssignedInteger n) : Prop where
  limbs : sh st a.limbs_le a'.limbs_le
  native : sh st a.native a'.native
  times : a.times = a'.times
instance : Shaped (AssignedInteger n) := ⟨IntShape⟩

structure CurvShape (st : Prop) (a a' : AssignedCurvature n) : Prop where
  v : sh st a.v a'.v
  z : sh st a.z a'.z
instance : Shaped (AssignedCurvature n) := ⟨CurvShape⟩

structure PointShape (st : Prop) (a a' : AssignedPoint n) : Prop where
  x : sh st a.x a'.x
  y : sh st a.y a'.y
  z : sh st a.z a'.z
instance : Shaped (AssignedPoint n) := ⟨PointShape⟩

structure NZShape (st : Prop) (a a' : AssignedNonZeroPoint n) : Prop where
  x : sh st a.x a'.x
  y : sh st a.y a'.y
instance : Shaped (AssignedNonZeroPoint n) := ⟨NZShape⟩

structure PointCShape (st : Prop) (a a' : AssignedPointWithCurvature n) : Prop where
  x : sh st a.x a'.x
  y : sh st a.y a'.y
  z : sh st a.z a'.z
  curvature : sh st a.curvature a'.curvature
instance : Shaped (AssignedPointWithCurvature n) := ⟨PointCShape⟩

/-- A `Result` whose error case never happens. -/
instance [Shaped α] : Shaped (Except UnsafeError α) :=
  ⟨fun st x y => ∃ a a', x = .ok a ∧ y = .ok a' ∧ sh st a a'⟩

/-- Two runs, possibly with different witness values. When neither panics: both move the offsets by the same amounts,
the results are related by `R`, and (if `st`) from contexts with the same circuit they lead to contexts with the same
circuit. -/
def Runs2 (st : Prop) (m m' : M n α) (R : α → α → Prop) : Prop :=
  ∀ s s' a t a' t', (st → SameShape s s') → m s = .ok (a, t) → m' s' = .ok (a', t') →
    (∃ d, t.offs = s.offs.add d ∧ t'.offs = s'.offs.add d) ∧ (st → SameShape t t') ∧ R a a'

/-- `m` and `m'` describe the same circuit. -/
def SameCircuit [Shaped α] (m m' : M n α) : Prop := Runs2 True m m' (sh True)

end Verif
