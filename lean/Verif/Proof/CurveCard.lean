import Verif.Proof.CurveOrder
import Mathlib.FieldTheory.Finite.Basic

/-!
# The bn256 curve has exponent `bnR`

The curve has at most `2 q + 1` points and the generator has order `r`, with `2 q + 1 < 3 r`; so it has `r` or `2 r`
points. There is no point of order 2, because `-3` is not a cube.
-/

namespace Verif
variable {q : ℕ} [Fact q.Prime] {b : ZMod q}

/-- Compressed form of a point: the abscissa and the parity of the ordinate. -/
noncomputable def compress : Pt b → Option (ZMod q × Bool)
  | .zero => none
  | .some x y _ => some (x, decide (y.val % 2 = 0))

theorem compress_injective (h2 : q % 2 = 1) : Function.Injective (compress : Pt b → _) := by
  intro P Q e
  match P, Q, e with
  | .zero, .zero, _ => rfl
  | .zero, .some _ _ _, e => cases e
  | .some _ _ _, .zero, e => cases e
  | .some x y h, .some x' y' h', e =>
    simp only [compress, Option.some.injEq, Prod.mk.injEq] at e
    obtain ⟨rfl, e⟩ := e
    have h1 : HasCoords (.some x y h : Pt b) x y := ⟨h, rfl⟩
    have h2' : HasCoords (.some x y' h' : Pt b) x y' := ⟨h', rfl⟩
    have e1 := h1.eqn
    have e2 := h2'.eqn
    have : (y - y') * (y + y') = 0 := by linear_combination e1 - e2
    have hy : y = y' := by
      rcases mul_eq_zero.1 this with h | h
      · exact sub_eq_zero.1 h
      · have hn : y' = -y := by linear_combination h
        by_cases h0 : y = 0
        · rw [hn, h0, neg_zero]
        · exfalso
          haveI : NeZero y := ⟨h0⟩
          have hv := ZMod.val_neg_of_ne_zero y
          have hlt := ZMod.val_lt y
          rw [hn, hv] at e
          have := decide_eq_decide.1 e
          omega
    subst hy
    rfl

instance : Finite (Pt b) := by
  have : Function.Injective (fun P : Pt b => match P with
      | .zero => (none : Option (ZMod q × ZMod q))
      | .some x y _ => some (x, y)) := by
    intro P Q e
    match P, Q, e with
    | .zero, .zero, _ => rfl
    | .zero, .some _ _ _, e => cases e
    | .some _ _ _, .zero, e => cases e
    | .some x y h, .some x' y' h', e =>
      simp only [Option.some.injEq, Prod.mk.injEq] at e
      obtain ⟨rfl, rfl⟩ := e
      rfl
  exact Finite.of_injective _ this

theorem card_le (h2 : q % 2 = 1) : Nat.card (Pt b) ≤ 2 * q + 1 := by
  refine (Nat.card_le_card_of_injective _ (compress_injective h2)).trans ?_
  rw [Nat.card_eq_fintype_card, Fintype.card_option, Fintype.card_prod, ZMod.card, Fintype.card_bool]
  omega

/-- `-3` is not a cube modulo `bnQ`. -/
theorem neg_three_not_cube (x : ZMod bnQ) : x ^ 3 ≠ -3 := by
  intro h
  have h0 : x ≠ 0 := by
    rintro rfl
    exact absurd h (by decide +kernel)
  have h1 := ZMod.pow_card_sub_one_eq_one h0
  have e : bnQ - 1 = 3 * ((bnQ - 1) / 3) := by decide +kernel
  rw [e, pow_mul, h] at h1
  have hc : ((bnQ - 3 : ℕ) : ZMod bnQ) = -3 := by
    rw [neg_cast (by decide +kernel)]; norm_num
  rw [← hc] at h1
  have hp := pw_eq bnQ 400 (bnQ - 3) ((bnQ - 1) / 3) 1 (by decide +kernel)
  rw [h1, Nat.cast_one, one_mul] at hp
  have := (ZMod.natCast_eq_natCast_iff' _ 1 bnQ).1 (by rw [hp]; simp : ((pw bnQ 400 (bnQ - 3) ((bnQ - 1) / 3) 1 : ℕ) : ZMod bnQ) = (1 : ℕ))
  exact absurd this (by decide +kernel)

theorem bn_card : Nat.card (Pt (3 : ZMod bnQ)) = bnR := by
  obtain ⟨G, hG⟩ := bn_generator
  have ho : addOrderOf G = bnR := addOrderOf_eq_prime (bnG_order hG) hG.ne_zero
  obtain ⟨k, hk⟩ := ho ▸ addOrderOf_dvd_natCard G
  have hpos : 0 < Nat.card (Pt (3 : ZMod bnQ)) := Nat.card_pos
  have hle := card_le (b := (3 : ZMod bnQ)) (by decide +kernel)
  have h3 : 2 * bnQ + 1 < bnR * 3 := by decide +kernel
  have hk3 : k < 3 := by
    by_contra hc
    have : bnR * 3 ≤ bnR * k := Nat.mul_le_mul_left _ (by omega)
    omega
  have hk0 : k ≠ 0 := by rintro rfl; omega
  have hk2 : k ≠ 2 := by
    rintro rfl
    haveI := Fintype.ofFinite (Pt (3 : ZMod bnQ))
    obtain ⟨P, hP⟩ := exists_prime_addOrderOf_dvd_card (G := Pt (3 : ZMod bnQ)) 2 (by
      rw [← Nat.card_eq_fintype_card, hk]; exact Dvd.intro_left _ rfl)
    have h2 := addOrderOf_nsmul_eq_zero P
    rw [hP] at h2
    have hne : P ≠ 0 := by rintro rfl; simp at hP
    have hneg : P = -P := by rw [two_nsmul] at h2; exact eq_neg_of_add_eq_zero_left h2
    match P, hne, hneg with
    | .zero, hne, _ => exact hne rfl
    | .some x y h, _, hneg =>
      have hc : HasCoords (.some x y h : Pt (3 : ZMod bnQ)) x y := ⟨h, rfl⟩
      have hc' := hc.neg
      rw [← hneg] at hc'
      have hy : y = -y := (hc.unique hc').2
      have hy0 : y = 0 := by
        have : (2 : ZMod bnQ) * y = 0 := by linear_combination hy
        exact (mul_eq_zero.1 this).resolve_left good_bn.two_ne
      have := hc.eqn
      rw [hy0] at this
      exact neg_three_not_cube x (by linear_combination -this)
  have : k = 1 := by omega
  rw [hk, this, mul_one]

/-- Every point of the bn256 curve has order dividing `bnR`. -/
theorem bn_order (P : Pt (3 : ZMod bnQ)) : bnR • P = 0 := by
  rw [← bn_card]
  exact card_nsmul_eq_zero'

end Verif
