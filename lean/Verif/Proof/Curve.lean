import Verif.Spec.Curve
import Mathlib.Tactic.LinearCombination
import Mathlib.Tactic.FieldSimp
import Mathlib.Tactic.NormNum

/-!
# The group law of `y² = x³ + b` in coordinates
-/

namespace Verif
variable {wm : ℕ} [Fact wm.Prime] {b : ZMod wm}

theorem HasCoords.mk {x y x' y' : ZMod wm} (h : (curve b).Nonsingular x y) (hx : x = x') (hy : y = y') :
    HasCoords (.some x y h : Pt b) x' y' := by
  subst hx hy
  exact ⟨h, rfl⟩

theorem HasCoords.eqn {P : Pt b} {x y : ZMod wm} (h : HasCoords P x y) : y ^ 2 = x ^ 3 + b := by
  obtain ⟨h, -⟩ := h
  have := (WeierstrassCurve.Affine.equation_iff ..).1 h.1
  simpa [curve] using this

theorem HasCoords.of_eqn (hb : GoodCurve b) {x y : ZMod wm} (h : y ^ 2 = x ^ 3 + b) :
    ∃ P : Pt b, HasCoords P x y := by
  have hn : (curve b).Nonsingular x y := by
    rw [WeierstrassCurve.Affine.nonsingular_iff']
    refine ⟨(WeierstrassCurve.Affine.equation_iff ..).2 (by simpa [curve] using h), ?_⟩
    by_contra hc
    push Not at hc
    obtain ⟨h1, h2⟩ := hc
    simp only [curve, zero_mul, mul_zero, add_zero, zero_sub, neg_eq_zero, mul_eq_zero, hb.two_ne, hb.three_ne,
      false_or, ne_eq, OfNat.ofNat_ne_zero, not_false_eq_true, pow_eq_zero_iff] at h1 h2
    rw [h1, h2] at h
    apply hb.b_ne
    linear_combination -h
  exact ⟨.some x y hn, hn, rfl⟩

theorem HasCoords.unique {P : Pt b} {x y x' y' : ZMod wm} (h : HasCoords P x y) (h' : HasCoords P x' y') :
    x = x' ∧ y = y' := by
  obtain ⟨h, rfl⟩ := h
  obtain ⟨h', e⟩ := h'
  injection e with e1 e2
  exact ⟨e1, e2⟩

theorem HasCoords.inj {P Q : Pt b} {x y : ZMod wm} (h : HasCoords P x y) (h' : HasCoords Q x y) : P = Q := by
  obtain ⟨h, rfl⟩ := h
  obtain ⟨h', rfl⟩ := h'
  rfl

theorem HasCoords.ne_zero {P : Pt b} {x y : ZMod wm} (h : HasCoords P x y) : P ≠ 0 := by
  obtain ⟨h, rfl⟩ := h
  exact WeierstrassCurve.Affine.Point.some_ne_zero h

theorem HasCoords.neg {P : Pt b} {x y : ZMod wm} (h : HasCoords P x y) : HasCoords (-P) x (-y) := by
  obtain ⟨h, rfl⟩ := h
  rw [WeierstrassCurve.Affine.Point.neg_some]
  have : (curve b).negY x y = -y := by simp [curve, WeierstrassCurve.Affine.negY]
  exact HasCoords.mk _ rfl this

/-- Chord. -/
theorem HasCoords.add {P Q : Pt b} {x₁ y₁ x₂ y₂ l : ZMod wm} (h₁ : HasCoords P x₁ y₁) (h₂ : HasCoords Q x₂ y₂)
    (hx : x₁ ≠ x₂) (hl : l = (y₁ - y₂) / (x₁ - x₂)) :
    HasCoords (P + Q) (l ^ 2 - x₁ - x₂) ((x₁ - (l ^ 2 - x₁ - x₂)) * l - y₁) := by
  obtain ⟨h₁, rfl⟩ := h₁
  obtain ⟨h₂, rfl⟩ := h₂
  rw [WeierstrassCurve.Affine.Point.add_of_X_ne hx]
  have e1 : (curve b).addX x₁ x₂ ((curve b).slope x₁ x₂ y₁ y₂) = l ^ 2 - x₁ - x₂ := by
    rw [WeierstrassCurve.Affine.slope_of_X_ne hx, ← hl]
    simp [curve, WeierstrassCurve.Affine.addX]
  have e2 : (curve b).addY x₁ x₂ y₁ ((curve b).slope x₁ x₂ y₁ y₂) = (x₁ - (l ^ 2 - x₁ - x₂)) * l - y₁ := by
    rw [WeierstrassCurve.Affine.addY, WeierstrassCurve.Affine.negAddY, e1,
      WeierstrassCurve.Affine.slope_of_X_ne hx, ← hl]
    simp only [curve, WeierstrassCurve.Affine.negY]
    ring
  exact HasCoords.mk _ e1 e2

/-- Tangent. -/
theorem HasCoords.double (hb : GoodCurve b) {P : Pt b} {x y l : ZMod wm} (h : HasCoords P x y) (hy : y ≠ 0)
    (hl : l = 3 * x ^ 2 / (2 * y)) :
    HasCoords (P + P) (l ^ 2 - x - x) ((x - (l ^ 2 - x - x)) * l - y) := by
  obtain ⟨h, rfl⟩ := h
  have hn : (curve b).negY x y = -y := by simp [curve, WeierstrassCurve.Affine.negY]
  have hne : y ≠ (curve b).negY x y := by
    rw [hn]
    intro e
    have : 2 * y = 0 := by linear_combination e
    rcases mul_eq_zero.1 this with k | k
    exacts [hb.two_ne k, hy k]
  rw [WeierstrassCurve.Affine.Point.add_self_of_Y_ne hne]
  have hs : (curve b).slope x x y y = l := by
    rw [WeierstrassCurve.Affine.slope_of_Y_ne rfl hne, hn, hl]
    simp only [curve]
    ring
  have e1 : (curve b).addX x x ((curve b).slope x x y y) = l ^ 2 - x - x := by
    rw [hs]
    simp [curve, WeierstrassCurve.Affine.addX]
  have e2 : (curve b).addY x x y ((curve b).slope x x y y) = (x - (l ^ 2 - x - x)) * l - y := by
    rw [WeierstrassCurve.Affine.addY, WeierstrassCurve.Affine.negAddY, e1, hs]
    simp only [curve, WeierstrassCurve.Affine.negY]
    ring
  exact HasCoords.mk _ e1 e2

/-- Same abscissa, different ordinates: opposite points. -/
theorem HasCoords.opposite {P Q : Pt b} {x y₁ y₂ : ZMod wm} (h₁ : HasCoords P x y₁) (h₂ : HasCoords Q x y₂)
    (hy : y₁ ≠ y₂) : P + Q = 0 := by
  have e1 := h₁.eqn
  have e2 := h₂.eqn
  have : (y₁ - y₂) * (y₁ + y₂) = 0 := by linear_combination e1 - e2
  obtain ⟨h₁, rfl⟩ := h₁
  obtain ⟨h₂, rfl⟩ := h₂
  refine WeierstrassCurve.Affine.Point.add_of_Y_eq rfl ?_
  rcases mul_eq_zero.1 this with k | k
  · exact absurd (sub_eq_zero.1 k) hy
  · simp only [curve, WeierstrassCurve.Affine.negY]
    linear_combination k

/-- Vertical tangent. -/
theorem HasCoords.double_zero {P : Pt b} {x : ZMod wm} (h : HasCoords P x 0) : P + P = 0 := by
  obtain ⟨h, rfl⟩ := h
  refine WeierstrassCurve.Affine.Point.add_of_Y_eq rfl ?_
  simp [curve, WeierstrassCurve.Affine.negY]

end Verif
