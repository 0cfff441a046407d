import Verif.Proof.Pairing
import Verif.Proof.AteNeg

/-!
# Miller's algorithm for bls12_381 at a point with abscissa 0

There every line has values `a + b w³`, in the subfield of `q⁴` elements, which the final exponentiation maps to 1.
-/

namespace Verif

section
variable {q : ℕ} [hq : Fact q.Prime] {crv : PairingCurve}

theorem frob2_four (h4 : q % 4 = 3) (x : Fq2 q) : x ^ q ^ 4 = x := by
  have e : x ^ q ^ 4 = (((x ^ q) ^ q) ^ q) ^ q := by rw [← pow_mul, ← pow_mul, ← pow_mul]; congr 1; ring
  rw [e, frob2 h4, frob2 h4, frob2 h4, frob2 h4, conj2_conj2, conj2_conj2]

theorem frob2_two (h4 : q % 4 = 3) (x : Fq2 q) : x ^ q ^ 2 = x := by
  have e : x ^ q ^ 2 = (x ^ q) ^ q := by rw [← pow_mul]; congr 1; ring
  rw [e, frob2 h4, frob2 h4, conj2_conj2]

/-- `a + b w³`. -/
theorem frob_quartic (h4 : q % 4 = 3) (h3 : q % 3 = 1) (hx : IsUnit (xi q crv)) (a b : Fq2 q) :
    (emb12 a + emb12 b * w12 ^ 3 : Fq12 q crv) ^ q ^ 4 = emb12 a + emb12 b * w12 ^ 3 := by
  have hw : (w12 : Fq12 q crv) ^ (3 * q ^ 4) = w12 ^ 3 := by
    have h6 : q % 6 = 1 := by omega
    rw [w12_pow_three (by rw [Nat.pow_mod, h6])]
    have hu : xi q crv ^ (q ^ 2 - 1) = 1 := by
      have h2 := frob2_two h4 (xi q crv)
      have hp : 1 ≤ q ^ 2 := Nat.one_le_pow _ _ hq.out.pos
      obtain ⟨m, hm⟩ := Nat.exists_eq_add_of_le' hp
      rw [hm, pow_succ] at h2
      rw [hm, Nat.add_sub_cancel]
      exact hx.mul_right_cancel (h2.trans (one_mul _).symm)
    have he : (q ^ 4 - 1) / 2 = (q ^ 2 - 1) * ((q ^ 2 + 1) / 2) := by
      obtain ⟨k, hk⟩ : ∃ k, q ^ 2 = 2 * k + 1 := by
        have : q ^ 2 % 2 = 1 := by rw [Nat.pow_mod, show q % 2 = 1 by omega]
        exact ⟨q ^ 2 / 2, by omega⟩
      rw [show q ^ 4 = (q ^ 2) ^ 2 by ring, hk, show (2 * k + 1) ^ 2 - 1 = 2 * (2 * k * (k + 1)) by
        rw [Nat.sub_eq_iff_eq_add (Nat.one_le_pow _ _ (by omega))]; ring, Nat.mul_div_cancel_left _ (by norm_num),
        show 2 * k + 1 + 1 = 2 * (k + 1) by ring, Nat.mul_div_cancel_left _ (by norm_num), Nat.add_sub_cancel]
    rw [he, pow_mul, hu, one_pow]
    show embHom q crv 1 * _ = _
    rw [map_one, one_mul]
  rw [add_pow_char_pow, mul_pow, ← emb12_pow, ← emb12_pow, frob2_four h4, frob2_four h4, ← pow_mul, hw]

end

/-- The elements of the subfield of `q⁴` elements. -/
def Quartic {crv : PairingCurve} (x : Fq12 (pairQ crv) crv) : Prop := x ^ pairQ crv ^ 4 = x

section
variable {crv : PairingCurve} {x y : Fq12 (pairQ crv) crv}

theorem Quartic.mul (hx : Quartic x) (hy : Quartic y) : Quartic (x * y) := by
  unfold Quartic at *; rw [mul_pow, hx, hy]

theorem Quartic.one : Quartic (1 : Fq12 (pairQ crv) crv) := one_pow _

theorem Quartic.conj (hx : Quartic x) : Quartic (conj12 x) := by
  have h := map_pow (conjHom (pairQ crv) crv) x (pairQ crv ^ 4)
  rw [show x ^ pairQ crv ^ 4 = x from hx] at h
  exact h.symm

theorem Quartic.prod {xs : List (Fq12 (pairQ crv) crv)} (h : ∀ x ∈ xs, Quartic x) : Quartic xs.prod := by
  induction xs with
  | nil => exact Quartic.one
  | cons x xs ih =>
    rw [List.prod_cons]
    exact (h x List.mem_cons_self).mul (ih fun y hy => h y (List.mem_cons_of_mem _ hy))

theorem Quartic.final (hx : Quartic x) (h0 : x ≠ 0) : x ^ finalExponent crv = 1 := by
  obtain ⟨k, hk⟩ : pairQ crv ^ 4 - 1 ∣ finalExponent crv := by cases crv <;> decide +kernel
  have hp : 1 ≤ pairQ crv ^ 4 := by cases crv <;> decide +kernel
  obtain ⟨m, hm⟩ := Nat.exists_eq_add_of_le' hp
  have h1 : x ^ (pairQ crv ^ 4 - 1) = 1 := by
    unfold Quartic at hx
    rw [hm, pow_succ] at hx
    rw [hm, Nat.add_sub_cancel]
    exact mul_right_cancel₀ h0 (hx.trans (one_mul _).symm)
  rw [hk, pow_mul, h1, one_pow]

end

theorem quartic_add {crv : PairingCurve} (a b : Fq2 (pairQ crv)) : Quartic (emb12 a + emb12 b * w12 ^ 3 : Fq12 (pairQ crv) crv) := by
  have h := towerOk crv
  exact frob_quartic h.mod4 h.mod3 (isUnit_iff2.2 (norm_xi_ne_zero h)) a b

theorem quartic_line (l : Line (Fq2 (pairQ .bls12_381))) (y : ZMod (pairQ .bls12_381)) :
    Quartic (evLine .bls12_381 l (0, y)) := by
  have e : (evLine .bls12_381 l (0, y) : Fq12 (pairQ .bls12_381) .bls12_381) =
      emb12 l.c2 + emb12 ⟨l.c0.re * y, l.c0.im * y⟩ * w12 ^ 3 := by
    rw [w12_cube]
    ext <;> simp [evLine, emb12]
  rw [e]
  exact quartic_add _ _

/-- All terms have abscissa 0. -/
def AtZero (vs : List (TermV (pairQ .bls12_381))) : Prop := ∀ v ∈ vs, v.1.1 = 0

theorem AtZero.drop {vs : List (TermV (pairQ .bls12_381))} (h : AtZero vs) (k : ℕ) : AtZero (dropV k vs) := by
  intro v hv
  obtain ⟨u, hu, rfl⟩ := List.mem_map.1 hv
  exact h u hu

theorem quartic_ell {x : Fq12 (pairQ .bls12_381) .bls12_381} {vs : List (TermV (pairQ .bls12_381))} (hx : Quartic x) (h : AtZero vs) :
    Quartic (ellV x vs) := by
  refine hx.mul (Quartic.prod fun y hy => ?_)
  obtain ⟨⟨⟨px, py⟩, ls⟩, hv, rfl⟩ := List.mem_map.1 hy
  obtain rfl : px = 0 := h _ hv
  exact quartic_line _ _

theorem quartic_loop (is : List Bool) : ∀ (b : Bool) {x : Fq12 (pairQ .bls12_381) .bls12_381} {vs : List (TermV (pairQ .bls12_381))},
    Quartic x → AtZero vs → Quartic (blsLoopV b x vs is) := by
  induction is with
  | nil => intro b x vs hx _; cases b <;> exact hx
  | cons i is ih =>
    intro b x vs hx h
    cases b
    · exact ih i hx h
    · have h1 := quartic_ell hx h
      cases i
      · have e : blsLoopV true x vs (false :: is) = blsLoopV true (ellV x vs * ellV x vs) (dropV 1 vs) is := by
          simp only [blsLoopV, Bool.false_eq_true, if_false]
        rw [e]
        have h2 := h1.mul h1
        exact ih true h2 (h.drop 1)
      · have e : blsLoopV true x vs (true :: is) = blsLoopV true (ellV (ellV x vs) (dropV 1 vs) * ellV (ellV x vs) (dropV 1 vs))
            (dropV 2 vs) is := by
          simp only [blsLoopV, if_true]
        rw [e]
        have h2 := quartic_ell h1 (h.drop 1)
        have h3 := h2.mul h2
        exact ih true h3 (h.drop 2)

theorem quartic_miller {vs : List (TermV (pairQ .bls12_381))} (h : AtZero vs) : Quartic (millerV .bls12_381 vs) :=
  (quartic_ell (quartic_loop _ _ .one h) (h.drop _)).conj

end Verif
