import Verif.Proof.PairingMath
import Verif.Spec.AtePairing

/-!
# Line steps on the twist are line steps on the curve
-/

namespace Verif
open WeierstrassCurve.Affine

section generic
variable {K F : Type} [CommRing K] [Field F] [DecidableEq F] (i : K →+* F) (u : F) {b : F}

/-- Jacobian coordinates of the untwisted point. -/
def jmap (p : Jac K) : Jac F := ⟨i p.x * u ^ 2, i p.y * u ^ 3, i p.z⟩

/-- The value of a line at an untwisted point. -/
def lev (l : Line K) (P : F × F) : F := i l.c0 * P.2 + i l.c1 * u * P.1 + i l.c2 * u ^ 3

/-- `p` are coordinates of the point `T` before untwisting. -/
def Jat (p : Jac K) (T : (curveOver b).Point) : Prop := ∃ x y h, T = .some x y h ∧ (jmap i u p).Is x y
/-- `q` are affine coordinates of the point `T` before untwisting. -/
def Aat (q : K × K) (T : (curveOver b).Point) : Prop := ∃ h, T = .some (i q.1 * u ^ 2) (i q.2 * u ^ 3) h

variable {i u}

theorem Aat.jat {q : K × K} {T : (curveOver b).Point} (h : Aat i u q T) : Jat i u ⟨q.1, q.2, 1⟩ T := by
  obtain ⟨h, rfl⟩ := h
  exact ⟨_, _, h, rfl, by simp [jmap], by simp [jmap], by simp [jmap]⟩

theorem Aat.mk {q : K × K} {x y : F} {h : (curveOver b).Nonsingular x y} (hx : x = i q.1 * u ^ 2) (hy : y = i q.2 * u ^ 3) :
    Aat i u q (Point.some x y h) := by
  subst hx hy
  exact ⟨h, rfl⟩

theorem Aat.neg {q : K × K} {T : (curveOver b).Point} (h : Aat i u q T) : Aat i u (q.1, -q.2) (-T) := by
  obtain ⟨h, rfl⟩ := h
  have e : (curveOver b).negY (i q.1 * u ^ 2) (i q.2 * u ^ 3) = i (-q.2) * u ^ 3 := by rw [curveOver_negY, map_neg, neg_mul]
  have h' := (nonsingular_neg _ _).2 h
  rw [e] at h'
  refine ⟨h', ?_⟩
  rw [Point.neg_some]
  simp only [Point.some.injEq]
  exact ⟨trivial, e⟩

theorem Aat.ne_zero {q : K × K} {T : (curveOver b).Point} (h : Aat i u q T) : T ≠ 0 := by
  obtain ⟨h, rfl⟩ := h
  exact Point.some_ne_zero h

theorem dbl_at (h2 : (2 : F) ≠ 0) (hu : u ≠ 0) {p : Jac K} {T : (curveOver b).Point} (hp : Jat i u p T) (hT : T + T ≠ 0) :
    Jat i u (dblV p).2 (T + T) ∧ i (dblV p).1.c0 ≠ 0 ∧ ∀ P, lev i u (dblV p).1 P = i (dblV p).1.c0 * lineAt T T P := by
  obtain ⟨x, y, h, rfl, hp⟩ := hp
  have hy : y ≠ 0 := by
    rintro rfl
    exact hT (Point.add_self_of_Y_eq (by rw [curveOver_negY, neg_zero]))
  obtain ⟨⟨k, hk, e0, e1, e2⟩, x', y', h', es, hz, ex, ey⟩ := dblV_is h2 hp hy h
  have c0 : (dblV (jmap i u p)).1.c0 = i (dblV p).1.c0 * u ^ 3 := by
    simp only [dblV, jmap, map_mul, map_pow, map_ofNat]; ring
  have c1 : (dblV (jmap i u p)).1.c1 = i (dblV p).1.c1 * u ^ 4 := by
    simp only [dblV, jmap, map_mul, map_pow, map_ofNat, map_neg]; ring
  have c2 : (dblV (jmap i u p)).1.c2 = i (dblV p).1.c2 * u ^ 6 := by
    simp only [dblV, jmap, map_mul, map_pow, map_ofNat, map_sub]; ring
  have cx : (dblV (jmap i u p)).2.x = (jmap i u (dblV p).2).x * u ^ 6 := by
    simp only [dblV, jmap, map_mul, map_pow, map_ofNat, map_sub]; ring
  have cy : (dblV (jmap i u p)).2.y = (jmap i u (dblV p).2).y * u ^ 9 := by
    simp only [dblV, jmap, map_mul, map_pow, map_ofNat, map_sub]; ring
  have cz : (dblV (jmap i u p)).2.z = (jmap i u (dblV p).2).z * u ^ 3 := by
    simp only [dblV, jmap, map_mul, map_pow, map_ofNat]; ring
  refine ⟨⟨x', y', h', es, ?_, ?_, ?_⟩, ?_, ?_⟩
  · intro e; rw [cz, e, zero_mul] at hz; exact hz rfl
  · apply mul_right_cancel₀ (pow_ne_zero 6 hu); rw [← cx, ex, cz]; ring
  · apply mul_right_cancel₀ (pow_ne_zero 9 hu); rw [← cy, ey, cz]; ring
  · intro e; rw [c0, e, zero_mul] at e0; exact hk e0.symm
  · intro P
    apply mul_right_cancel₀ (pow_ne_zero 3 hu)
    simp only [lev, lineAt]
    rw [c0] at e0; rw [c1] at e1; rw [c2] at e2
    generalize (curveOver b).slope x x y y = l at *
    linear_combination P.2 * e0 + P.1 * e1 + e2 - ((P.2 - y) - l * (P.1 - x)) * e0

theorem add_at (h2 : (2 : F) ≠ 0) (hu : u ≠ 0) {p : Jac K} {q : K × K} {T S : (curveOver b).Point} (hp : Jat i u p T)
    (hq : Aat i u q S) (hTS : T ≠ S) (hTS' : T ≠ -S) :
    Jat i u (addV p q).2 (T + S) ∧ i (addV p q).1.c0 ≠ 0 ∧ ∀ P, lev i u (addV p q).1 P = i (addV p q).1.c0 * lineAt T S P := by
  obtain ⟨x, y, h, rfl, hp⟩ := hp
  obtain ⟨h', rfl⟩ := hq
  have hx : x ≠ i q.1 * u ^ 2 := by
    rintro rfl
    rcases Y_eq_of_X_eq h.1 h'.1 rfl with e | e
    · subst e; exact hTS rfl
    · subst e; exact hTS' (by rw [Point.neg_some])
  obtain ⟨⟨k, hk, e0, e1, e2⟩, x', y', h', es, hz, ex, ey⟩ := addV_is h2 hp hx h h'
  have c0 : (addV (jmap i u p) (i q.1 * u ^ 2, i q.2 * u ^ 3)).1.c0 = i (addV p q).1.c0 * u ^ 2 := by
    simp only [addV, jmap, map_mul, map_pow, map_ofNat, map_sub]; ring
  have c1 : (addV (jmap i u p) (i q.1 * u ^ 2, i q.2 * u ^ 3)).1.c1 = i (addV p q).1.c1 * u ^ 3 := by
    simp only [addV, jmap, map_mul, map_pow, map_ofNat, map_sub, map_neg]; ring
  have c2 : (addV (jmap i u p) (i q.1 * u ^ 2, i q.2 * u ^ 3)).1.c2 = i (addV p q).1.c2 * u ^ 5 := by
    simp only [addV, jmap, map_mul, map_pow, map_ofNat, map_sub]; ring
  have cx : (addV (jmap i u p) (i q.1 * u ^ 2, i q.2 * u ^ 3)).2.x = (jmap i u (addV p q).2).x * u ^ 4 := by
    simp only [addV, jmap, map_mul, map_pow, map_ofNat, map_sub]; ring
  have cy : (addV (jmap i u p) (i q.1 * u ^ 2, i q.2 * u ^ 3)).2.y = (jmap i u (addV p q).2).y * u ^ 6 := by
    simp only [addV, jmap, map_mul, map_pow, map_ofNat, map_sub]; ring
  have cz : (addV (jmap i u p) (i q.1 * u ^ 2, i q.2 * u ^ 3)).2.z = (jmap i u (addV p q).2).z * u ^ 2 := by
    simp only [addV, jmap, map_mul, map_pow, map_ofNat, map_sub]; ring
  refine ⟨⟨x', y', h', es, ?_, ?_, ?_⟩, ?_, ?_⟩
  · intro e; rw [cz, e, zero_mul] at hz; exact hz rfl
  · apply mul_right_cancel₀ (pow_ne_zero 4 hu); rw [← cx, ex, cz]; ring
  · apply mul_right_cancel₀ (pow_ne_zero 6 hu); rw [← cy, ey, cz]; ring
  · intro e; rw [c0, e, zero_mul] at e0; exact hk e0.symm
  · intro P
    apply mul_right_cancel₀ (pow_ne_zero 2 hu)
    simp only [lev, lineAt]
    rw [c0] at e0; rw [c1] at e1; rw [c2] at e2
    have es : (y - i q.2 * u ^ 3) = (curveOver b).slope x (i q.1 * u ^ 2) y (i q.2 * u ^ 3) * (x - i q.1 * u ^ 2) := by
      rw [slope_of_X_ne hx, div_mul_cancel₀ _ (sub_ne_zero.2 hx)]
    generalize (curveOver b).slope x (i q.1 * u ^ 2) y (i q.2 * u ^ 3) = l at *
    linear_combination P.2 * e0 + P.1 * e1 + e2 - ((P.2 - y) - l * (P.1 - x)) * e0 + k * es

end generic

end Verif
