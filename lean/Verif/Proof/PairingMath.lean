import Mathlib.Tactic.FieldSimp
import Mathlib.Tactic.LinearCombination
import Verif.Proof.PairingCalc

/-!
# The line steps compute tangents and chords
-/

namespace Verif
open WeierstrassCurve.Affine
variable {K : Type} [Field K] [DecidableEq K] {b : K}

theorem curveOver_negY (x y : K) : (curveOver b).negY x y = -y := by simp [curveOver, negY]

theorem curveOver_addX (x x' l : K) : (curveOver b).addX x x' l = l ^ 2 - x - x' := by simp [curveOver, addX]

theorem curveOver_addY (x x' y l : K) : (curveOver b).addY x x' y l = l * (x - (l ^ 2 - x - x')) - y := by
  rw [addY, negAddY, curveOver_addX, curveOver_negY]
  ring

theorem ne_negY (h2 : (2 : K) ≠ 0) {x y : K} (hy : y ≠ 0) : y ≠ (curveOver b).negY x y := by
  rw [curveOver_negY]
  intro e
  have : 2 * y = 0 := by linear_combination e
  exact (mul_ne_zero h2 hy) this

theorem slope_tangent (h2 : (2 : K) ≠ 0) {x y : K} (hy : y ≠ 0) :
    (curveOver b).slope x x y y = 3 * x ^ 2 / (2 * y) := by
  rw [slope_of_Y_ne rfl (ne_negY h2 hy), curveOver_negY]
  simp only [curveOver]
  ring

theorem dblV_is (h2 : (2 : K) ≠ 0) {p : Jac K} {x y : K} (hp : p.Is x y) (hy : y ≠ 0) (h : (curveOver b).Nonsingular x y) :
    (dblV p).1.Is ((curveOver b).slope x x y y) x y ∧
      ∃ x' y' h', Point.some x y h + Point.some x y h = Point.some x' y' h' ∧ (dblV p).2.Is x' y' := by
  obtain ⟨hz, hx, hY⟩ := hp
  have h4 : (4 : K) ≠ 0 := by
    have : (4 : K) = 2 * 2 := by norm_num
    rw [this]
    exact mul_ne_zero h2 h2
  constructor
  · rw [slope_tangent h2 hy]
    refine ⟨_, ?_, rfl, ?_, ?_⟩
    · show 4 * (p.y * p.z ^ 3) ≠ 0
      rw [hY]
      exact mul_ne_zero h4 (mul_ne_zero (mul_ne_zero hy (pow_ne_zero _ hz)) (pow_ne_zero _ hz))
    · simp only [dblV]
      rw [hx, hY]
      field_simp
      ring
    · simp only [dblV]
      rw [hx, hY]
      field_simp
      ring
  · refine ⟨_, _, _, Point.add_self_of_Y_ne (ne_negY h2 hy), ?_, ?_, ?_⟩
    · show 2 * (p.y * p.z) ≠ 0
      rw [hY]
      exact mul_ne_zero h2 (mul_ne_zero (mul_ne_zero hy (pow_ne_zero _ hz)) hz)
    · rw [curveOver_addX, slope_tangent h2 hy]
      simp only [dblV]
      rw [hx, hY]
      field_simp
      ring
    · rw [curveOver_addY, slope_tangent h2 hy]
      simp only [dblV]
      rw [hx, hY]
      field_simp
      ring

theorem addV_is (h2 : (2 : K) ≠ 0) {p : Jac K} {x y x₂ y₂ : K} (hp : p.Is x y) (hxx : x ≠ x₂)
    (h : (curveOver b).Nonsingular x y) (h' : (curveOver b).Nonsingular x₂ y₂) :
    (addV p (x₂, y₂)).1.Is ((curveOver b).slope x x₂ y y₂) x₂ y₂ ∧
      ∃ x' y' h'', Point.some x y h + Point.some x₂ y₂ h' = Point.some x' y' h'' ∧ (addV p (x₂, y₂)).2.Is x' y' := by
  obtain ⟨hz, hx, hY⟩ := hp
  have hd : x - x₂ ≠ 0 := sub_ne_zero.2 hxx
  have hd' : x₂ * p.z ^ 2 - x * p.z ^ 2 ≠ 0 := by
    rw [← sub_mul]
    exact mul_ne_zero (sub_ne_zero.2 hxx.symm) (pow_ne_zero _ hz)
  have hs : (curveOver b).slope x x₂ y y₂ = (y - y₂) / (x - x₂) := slope_of_X_ne hxx
  constructor
  · rw [hs]
    refine ⟨_, ?_, rfl, ?_, ?_⟩
    · simp only [addV]
      rw [hx]
      exact mul_ne_zero h2 (mul_ne_zero h2 (mul_ne_zero hz hd'))
    · simp only [addV]
      rw [hx, hY]
      field_simp
      ring
    · simp only [addV]
      rw [hx, hY]
      field_simp
      ring
  · refine ⟨_, _, _, Point.add_of_X_ne hxx, ?_, ?_, ?_⟩
    · simp only [addV]
      rw [hx]
      exact mul_ne_zero h2 (mul_ne_zero hz hd')
    · rw [curveOver_addX, hs]
      simp only [addV]
      rw [hx, hY]
      field_simp
      ring
    · rw [curveOver_addY, hs]
      simp only [addV]
      rw [hx, hY]
      field_simp
      ring

end Verif
