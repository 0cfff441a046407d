import Mathlib.Algebra.CharP.Frobenius
import Mathlib.Algebra.CharP.Algebra
import Mathlib.Algebra.Field.ZMod
import Mathlib.FieldTheory.Finite.Basic
import Verif.Spec.Tower

/-!
# Algebra of the tower: Frobenius maps and cyclotomic squares
-/

namespace Verif

open QuadraticAlgebra in
/-- Elements of the base ring. -/
def quadOf {R : Type} [CommRing R] (a : R) : R →+* QuadraticAlgebra R a 0 where
  toFun x := ⟨x, 0⟩
  map_one' := rfl
  map_zero' := rfl
  map_add' x y := by ext <;> simp
  map_mul' x y := by ext <;> simp

theorem quadOf_injective {R : Type} [CommRing R] (a : R) : Function.Injective (quadOf a) :=
  fun _ _ h => congrArg QuadraticAlgebra.re h

/-- Elements of the base ring. -/
def cubicOf {R : Type} [CommRing R] (ξ : R) : R →+* Cubic R ξ where
  toFun := Cubic.of
  map_one' := rfl
  map_zero' := rfl
  map_add' x y := by ext <;> simp [Cubic.of]
  map_mul' x y := by ext <;> simp [Cubic.of]

theorem cubicOf_injective {R : Type} [CommRing R] (ξ : R) : Function.Injective (cubicOf ξ) :=
  fun _ _ h => congrArg Cubic.c0 h

@[simp] theorem quadOf_re {R : Type} [CommRing R] (a x : R) : (quadOf a x).re = x := rfl
@[simp] theorem quadOf_im {R : Type} [CommRing R] (a x : R) : (quadOf a x).im = 0 := rfl
@[simp] theorem cubicOf_c0 {R : Type} [CommRing R] (a x : R) : (cubicOf a x).c0 = x := rfl
@[simp] theorem cubicOf_c1 {R : Type} [CommRing R] (a x : R) : (cubicOf a x).c1 = 0 := rfl
@[simp] theorem cubicOf_c2 {R : Type} [CommRing R] (a x : R) : (cubicOf a x).c2 = 0 := rfl

theorem quad_eq {R : Type} [CommRing R] {a : R} (x : QuadraticAlgebra R a 0) :
    x = quadOf a x.re + quadOf a x.im * ⟨0, 1⟩ := by
  ext <;> simp

theorem cubic_eq {R : Type} [CommRing R] {ξ : R} (x : Cubic R ξ) :
    x = cubicOf ξ x.c0 + cubicOf ξ x.c1 * Cubic.v + cubicOf ξ x.c2 * Cubic.v ^ 2 := by
  rw [sq]
  ext <;> simp [Cubic.v]

section
variable {q : ℕ} [hq : Fact q.Prime] {crv : PairingCurve}

instance : CharP (Fq2 q) q := charP_of_injective_ringHom (quadOf_injective (-1 : ZMod q)) q
instance : CharP (Fq6 q crv) q := charP_of_injective_ringHom (cubicOf_injective (xi q crv)) q
instance : CharP (Fq12 q crv) q := charP_of_injective_ringHom (quadOf_injective (Cubic.v : Fq6 q crv)) q

/-- Conjugation in `Fq2`. -/
def conj2 (x : Fq2 q) : Fq2 q := ⟨x.re, -x.im⟩

theorem frob2 (h4 : q % 4 = 3) (x : Fq2 q) : x ^ q = conj2 x := by
  have hu : (⟨0, 1⟩ : Fq2 q) ^ 2 = -1 := by rw [sq]; ext <;> simp [QuadraticAlgebra.re_one, QuadraticAlgebra.im_one]
  have hu' : (⟨0, 1⟩ : Fq2 q) ^ q = -⟨0, 1⟩ := by
    have e : ∀ e k, e = 2 * (2 * k + 1) + 1 → (⟨0, 1⟩ : Fq2 q) ^ e = -⟨0, 1⟩ := by
      rintro _ k rfl
      rw [pow_succ, pow_mul, hu, pow_succ, pow_mul]
      simp
    exact e q (q / 4) (by omega)
  have h := map_add (frobenius (Fq2 q) q) (quadOf (-1 : ZMod q) x.re) (quadOf (-1 : ZMod q) x.im * ⟨0, 1⟩)
  rw [← quad_eq, map_mul, frobenius_def, frobenius_def, frobenius_def, frobenius_def, ← map_pow, ← map_pow,
    ZMod.pow_card, ZMod.pow_card, hu'] at h
  rw [h]
  ext <;> simp [conj2]

/-- The Frobenius map of `Fq6` with coefficients `γ`, `γ₂`. -/
def frobC6 (φ : Fq2 q → Fq2 q) (γ γ₂ : Fq2 q) (x : Fq6 q crv) : Fq6 q crv := ⟨φ x.c0, φ x.c1 * γ, φ x.c2 * γ₂⟩

/-- The Frobenius map of `Fq12` with coefficient `δ`. -/
def frobC12 (φ : Fq2 q → Fq2 q) (γ γ₂ δ : Fq2 q) (x : Fq12 q crv) : Fq12 q crv :=
  ⟨frobC6 φ γ γ₂ x.re, frobC6 φ γ γ₂ x.im * Cubic.of δ⟩

theorem frob6 (h4 : q % 4 = 3) (h3 : q % 3 = 1) (x : Fq6 q crv) :
    x ^ q = frobC6 conj2 (xi q crv ^ ((q - 1) / 3)) ((xi q crv ^ ((q - 1) / 3)) ^ 2) x := by
  have hv : (Cubic.v : Fq6 q crv) ^ q = cubicOf _ (xi q crv ^ ((q - 1) / 3)) * Cubic.v := by
    have e : ∀ e k, e = 3 * k + 1 → (Cubic.v : Fq6 q crv) ^ e = cubicOf _ (xi q crv ^ k) * Cubic.v := by
      rintro _ k rfl
      rw [pow_succ, pow_mul, Cubic.v_pow_three, map_pow]
      rfl
    exact e q _ (by omega)
  have h := map_add (frobenius (Fq6 q crv) q) (cubicOf _ x.c0 + cubicOf _ x.c1 * Cubic.v)
    (cubicOf _ x.c2 * Cubic.v ^ 2)
  rw [← cubic_eq, map_mul, map_add, map_mul, map_pow, frobenius_def, frobenius_def, frobenius_def, frobenius_def,
    frobenius_def, ← map_pow, ← map_pow, ← map_pow, frob2 h4, frob2 h4, frob2 h4, hv] at h
  rw [h]
  generalize xi q crv ^ ((q - 1) / 3) = γ
  rw [sq (_ * _), sq γ]
  ext1 <;> simp [Cubic.v, frobC6]

theorem frob12 (h4 : q % 4 = 3) (h3 : q % 3 = 1) (x : Fq12 q crv) :
    x ^ q = frobC12 conj2 (xi q crv ^ ((q - 1) / 3)) ((xi q crv ^ ((q - 1) / 3)) ^ 2) (xi q crv ^ ((q - 1) / 6)) x := by
  have hw2 : (⟨0, 1⟩ : Fq12 q crv) ^ 2 = quadOf _ Cubic.v := by
    rw [sq]; ext1 <;> simp
  have hw : (⟨0, 1⟩ : Fq12 q crv) ^ q = quadOf _ (Cubic.of (xi q crv ^ ((q - 1) / 6))) * ⟨0, 1⟩ := by
    have e : ∀ e k, e = 2 * (3 * k) + 1 →
        (⟨0, 1⟩ : Fq12 q crv) ^ e = quadOf _ (Cubic.of (xi q crv ^ k)) * ⟨0, 1⟩ := by
      rintro _ k rfl
      rw [pow_succ, pow_mul, hw2, ← map_pow, pow_mul, Cubic.v_pow_three]
      show quadOf _ (cubicOf _ (xi q crv) ^ _) * _ = quadOf _ (cubicOf _ (xi q crv ^ _)) * _
      simp only [map_pow]
    exact e q _ (by omega)
  have h := map_add (frobenius (Fq12 q crv) q) (quadOf _ x.re) (quadOf _ x.im * ⟨0, 1⟩)
  rw [← quad_eq, map_mul, frobenius_def, frobenius_def, frobenius_def, frobenius_def, ← map_pow, ← map_pow,
    frob6 h4 h3, frob6 h4 h3, hw] at h
  rw [h]
  ext1 <;> simp [frobC12]

end
end Verif
