import Verif.Props.Frobenius
import Verif.Proof.FinalExp
import Mathlib.Algebra.Polynomial.Roots

/-!
# C43: the final exponentiation

The exponent is `k (q¹² - 1) / r` with `k = 1` for bn256 and `k = 3` for bls12_381.
-/

namespace Verif

/-- The order of the pairing groups of a curve. -/
def pairR : PairingCurve → ℕ
  | .bn256 => bnR
  | .bls12_381 => blsR

/-- The exponent `final_exponentiation` is to raise to. -/
def finalExponent : PairingCurve → ℕ
  | .bn256 => (bnQ ^ 12 - 1) / bnR
  | .bls12_381 => 3 * ((blsQ ^ 12 - 1) / blsR)

/-- C43 for bn256: every satisfying assignment has a non-zero input `x` and the result `x ^ ((q¹² - 1) / r)`; the recorded
witness is accepted for every non-zero input. -/
theorem C43_bn256_final_exponentiation {n : ℕ} {info : RangeInfo n} (E : Env bnQ info) :
    Realises (enc12 bnQ info .bn256) (enc12 bnQ info .bn256) (final_exponentiation info .bn256)
      (fun x y => x ≠ 0 ∧ y = x ^ finalExponent .bn256) :=
  Realises.of_J enc12_at enc12_at (fun x => norm2 (norm6 (norm12 x)) ≠ 0) _
    (fun x h => ⟨((C38_tower_is_field .bn256).2.2 x).1 (isUnit_iff12.2 h), bn_final_value h⟩)
    (fun x _ h => isUnit_iff12.1 (((C38_tower_is_field .bn256).2.2 x).2 h.1))
    fun _ _ _ hx => J_bn_final_exponentiation E (List.Subset.refl _) hx

/-- C43 for bls12_381. -/
theorem C43_bls12_381_final_exponentiation {n : ℕ} {info : RangeInfo n} (E : Env blsQ info) :
    Realises (enc12 blsQ info .bls12_381) (enc12 blsQ info .bls12_381) (final_exponentiation info .bls12_381)
      (fun x y => x ≠ 0 ∧ y = x ^ finalExponent .bls12_381) :=
  Realises.of_J enc12_at enc12_at (fun x => norm2 (norm6 (norm12 x)) ≠ 0) _
    (fun x h => ⟨((C38_tower_is_field .bls12_381).2.2 x).1 (isUnit_iff12.2 h), bls_final_value h⟩)
    (fun x _ h => isUnit_iff12.1 (((C38_tower_is_field .bls12_381).2.2 x).2 h.1))
    fun _ _ _ hx => J_bls_final_exponentiation E (List.Subset.refl _) hx

/-- The exponent is a multiple of `(q¹² - 1) / r`, and not of `r ((q¹² - 1) / r) = q¹² - 1`. -/
theorem C43_exponent (crv : PairingCurve) :
    pairR crv * ((pairQ crv ^ 12 - 1) / pairR crv) = pairQ crv ^ 12 - 1 ∧
      (pairQ crv ^ 12 - 1) / pairR crv ∣ finalExponent crv ∧ ¬ pairQ crv ^ 12 - 1 ∣ finalExponent crv := by
  cases crv
  · refine ⟨?_, Dvd.intro 1 (Nat.mul_one _), ?_⟩ <;> decide +kernel
  · refine ⟨?_, Dvd.intro 3 (Nat.mul_comm _ _), ?_⟩ <;> decide +kernel

/-- The number of elements of the tower. -/
theorem card_tower (q : ℕ) [Fact q.Prime] (crv : PairingCurve) : Nat.card (Fq12 q crv) = q ^ 12 := by
  have e2 : Nat.card (Fq2 q) = q ^ 2 := by
    rw [Nat.card_congr (QuadraticAlgebra.equivProd (-1 : ZMod q) 0), Nat.card_prod, Nat.card_zmod, sq]
  have e6 : Nat.card (Fq6 q crv) = q ^ 6 := by
    let e : Fq6 q crv ≃ Fq2 q × Fq2 q × Fq2 q :=
      ⟨fun x => (x.c0, x.c1, x.c2), fun x => ⟨x.1, x.2.1, x.2.2⟩, fun _ => rfl, fun _ => rfl⟩
    rw [Nat.card_congr e, Nat.card_prod, Nat.card_prod, e2]
    ring
  rw [Nat.card_congr (QuadraticAlgebra.equivProd _ _), Nat.card_prod, e6]
  ring

/-- A non-zero exponent below `q¹² - 1` does not kill all non-zero elements. -/
theorem exists_pow_ne_one (crv : PairingCurve) {k : ℕ} (h0 : 0 < k) (hk : k < pairQ crv ^ 12 - 1) :
    ∃ x : Fq12 (pairQ crv) crv, x ≠ 0 ∧ x ^ k ≠ 1 := by
  classical
  by_contra hc
  push Not at hc
  have hc : ∀ x : Fq12 (pairQ crv) crv, x ≠ 0 → x ^ k = 1 := hc
  have hf := (C38_tower_is_field crv).2.2
  haveI : Nontrivial (Fq12 (pairQ crv) crv) :=
    ⟨1, 0, fun e => one_ne_zero (congrArg (fun y : Fq12 (pairQ crv) crv => y.re.c0.re) e)⟩
  haveI : IsDomain (Fq12 (pairQ crv) crv) := by
    haveI : NoZeroDivisors (Fq12 (pairQ crv) crv) := ⟨fun {a b} hab => by
      by_contra hn
      rw [not_or] at hn
      exact hn.2 (((hf a).2 hn.1).mul_left_cancel (hab.trans (mul_zero a).symm))⟩
    exact NoZeroDivisors.to_isDomain _
  have hcard := card_tower (pairQ crv) crv
  haveI : Finite (Fq12 (pairQ crv) crv) := Nat.finite_of_card_ne_zero (by
    rw [hcard]; exact pow_ne_zero _ (Fact.out : (pairQ crv).Prime).ne_zero)
  letI := Fintype.ofFinite (Fq12 (pairQ crv) crv)
  have h1 : (Finset.univ.erase (0 : Fq12 (pairQ crv) crv)).val ≤ Polynomial.nthRoots k 1 := by
    rw [Multiset.le_iff_subset (Finset.nodup _)]
    intro x hx
    rw [Polynomial.mem_nthRoots h0]
    exact hc x (Finset.ne_of_mem_erase hx)
  have h2 := (Multiset.card_le_card h1).trans (Polynomial.card_nthRoots k 1)
  rw [Finset.card_val, Finset.card_erase_of_mem (Finset.mem_univ _), Finset.card_univ, ← Nat.card_eq_fintype_card,
    hcard] at h2
  exact absurd hk (Nat.not_lt.2 h2)

/-- The result of the final exponentiation lies in the group of `r`-th roots of unity, and the map is not trivial on the
group of non-zero elements. -/
theorem C43_roots_of_unity (crv : PairingCurve) :
    (∀ x : Fq12 (pairQ crv) crv, x ≠ 0 → (x ^ finalExponent crv) ^ pairR crv = 1) ∧
      ∃ x : Fq12 (pairQ crv) crv, x ≠ 0 ∧ x ^ finalExponent crv ≠ 1 := by
  obtain ⟨h1, ⟨k, h2⟩, -⟩ := C43_exponent crv
  refine ⟨fun x hx => ?_, exists_pow_ne_one crv ?_ ?_⟩
  · rw [← pow_mul, h2, Nat.mul_right_comm, Nat.mul_comm _ (pairR crv), h1, pow_mul,
      pow_card (towerOk crv) (((C38_tower_is_field crv).2.2 x).2 hx), one_pow]
  · cases crv <;> decide +kernel
  · cases crv <;> decide +kernel

/-- The hypotheses of C43 are met: both environments exist, and the input `2 + w` is not zero. -/
example : (∃ info : RangeInfo bnR, Env bnQ info) ∧ (∃ info : RangeInfo bnR, Env blsQ info) ∧
    (⟨2, 1⟩ : Fq12 bnQ .bn256) ≠ 0 :=
  ⟨env_bn256, env_bls12_381, fun e => one_ne_zero (congrArg (fun y : Fq12 bnQ .bn256 => y.im.c0.re) e)⟩

end Verif
