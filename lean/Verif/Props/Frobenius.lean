import Verif.Props.Tower
import Verif.Proof.Frobenius

/-!
# C39, C40: cyclotomic squaring and Frobenius maps
-/

namespace Verif

/-- The base field modulus of a pairing curve. -/
def pairQ : PairingCurve → ℕ
  | .bn256 => bnQ
  | .bls12_381 => blsQ

instance (crv : PairingCurve) : Fact (pairQ crv).Prime := by
  cases crv
  · exact inferInstanceAs (Fact bnQ.Prime)
  · exact inferInstanceAs (Fact blsQ.Prime)

theorem towerOk (crv : PairingCurve) : TowerOk (pairQ crv) crv := by
  cases crv
  · exact towerOk_bn256
  · exact towerOk_bls12_381

/-! ## The tower is a field -/

/-- For both curves the tower is a field: every non-zero element is invertible. So the inversion gadgets of C38 accept
exactly the non-zero elements. -/
theorem C38_tower_is_field (crv : PairingCurve) :
    (∀ x : Fq2 (pairQ crv), IsUnit x ↔ x ≠ 0) ∧ (∀ x : Fq6 (pairQ crv) crv, IsUnit x ↔ x ≠ 0) ∧
      ∀ x : Fq12 (pairQ crv) crv, IsUnit x ↔ x ≠ 0 := by
  have h := towerOk crv
  have key : ∀ {R : Type} [CommRing R] (x : R), (1 : R) ≠ 0 → IsUnit x → x ≠ 0 := by
    rintro R _ x h1 hx rfl
    obtain ⟨e, he⟩ := hx.exists_right_inv
    rw [zero_mul] at he
    exact h1 he.symm
  refine ⟨fun x => ⟨key x fun e => ?_, isUnit2 h⟩, fun x => ⟨key x fun e => ?_, isUnit6 h⟩,
    fun x => ⟨key x fun e => ?_, isUnit12 h⟩⟩
  · exact one_ne_zero (congrArg (fun y : Fq2 (pairQ crv) => y.re) e)
  · exact one_ne_zero (congrArg (fun y : Fq6 (pairQ crv) crv => y.c0.re) e)
  · exact one_ne_zero (congrArg (fun y : Fq12 (pairQ crv) crv => y.re.c0.re) e)

/-! ## C39 -/

section
variable {n : ℕ} {crv : PairingCurve} {info : RangeInfo n} (E : Env (pairQ crv) info)
include E

/-- C39: on the cyclotomic subgroup, the elements of order dividing `q⁴ - q² + 1`, `fq12_cyclotomic_square` returns the
square, in every satisfying assignment. -/
theorem C39_cyclotomic_square_sound (a : AssignedFq12 n) :
    Sound (fq12_cyclotomic_square info crv a) (fun w r => ∀ x : Fq12 (pairQ crv) crv,
      Rep12 (pairQ crv) info w a x → x ^ (pairQ crv ^ 4 - pairQ crv ^ 2 + 1) = 1 → Rep12 (pairQ crv) info w r (x ^ 2)) := by
  intro c w hw
  refine S.forall fun x => S.mono (J_fq12_cyclotomic_square E (md := .sound c w hw) (x := x) (a := a)
    (List.Subset.refl _)) fun r hr hx h1 => ?_
  have h := (enc12_at.rep w r _).2 (hr ((enc12_at.rep w a x).1 hx))
  rw [sq, ← cycSq_eq (towerOk crv) x (cyclotomic_of h1)]
  exact h

/-- C39, completeness. -/
theorem C39_cyclotomic_square_complete (a : AssignedFq12 n) (x : Fq12 (pairQ crv) crv)
    (ha : HRep12 (pairQ crv) info a x) (h1 : x ^ (pairQ crv ^ 4 - pairQ crv ^ 2 + 1) = 1) :
    Complete (fq12_cyclotomic_square info crv a) (fun h => OkI12 h a)
      (fun r => HRep12 (pairQ crv) info r (x ^ 2)) OkI12 := by
  intro c k
  refine C.mono ((J_fq12_cyclotomic_square E (md := .honest c k) (x := x) (a := a) (List.Subset.refl _)
    ((enc12_at.hrep a x).1 ha)).weaken fun ho => ((enc12_at (info := info)).ok k a x).1 ho)
    (fun r hr => ?_) fun r _ _ hr => ((enc12_at (info := info)).ok k r _).2 hr
  have h := (enc12_at.hrep r _).2 hr
  rw [sq, ← cycSq_eq (towerOk crv) x (cyclotomic_of h1)]
  exact h

end

/-- The elements `x ^ ((q⁶ - 1)(q² + 1))` with `x ≠ 0`, as computed by the first part of the final exponentiation, are
in the subgroup. -/
theorem C39_cyclotomic_subgroup (crv : PairingCurve) (x : Fq12 (pairQ crv) crv) (hx : x ≠ 0) :
    (x ^ ((pairQ crv ^ 6 - 1) * (pairQ crv ^ 2 + 1))) ^ (pairQ crv ^ 4 - pairQ crv ^ 2 + 1) = 1 := by
  rw [← pow_mul, cyc_mul, pow_card (towerOk crv) (((C38_tower_is_field crv).2.2 x).2 hx)]

/-- The subgroup is not trivial: the hypotheses of C39 are met by elements other than 1. -/
example (crv : PairingCurve) : ∃ x : Fq12 (pairQ crv) crv, x ≠ 1 ∧ x ^ (pairQ crv ^ 4 - pairQ crv ^ 2 + 1) = 1 :=
  ⟨_, cyc_nontrivial (towerOk crv), C39_cyclotomic_subgroup crv _ fun h =>
    one_ne_zero (congrArg (fun y : Fq12 (pairQ crv) crv => y.re.c0.re) h)⟩

/-- Outside the subgroup the operation does not compute the square, so the restriction is needed. -/
theorem C39_restriction_needed {n : ℕ} {crv : PairingCurve} {info : RangeInfo n} (E : Env (pairQ crv) info) :
    Computes (enc12 (pairQ crv) info crv) (enc12 (pairQ crv) info crv) (fq12_cyclotomic_square info crv) cycSq ∧
    cycSq (⟨⟨⟨2, 0⟩, 0, 0⟩, 0⟩ : Fq12 (pairQ crv) crv) ≠ ⟨⟨⟨2, 0⟩, 0, 0⟩, 0⟩ ^ 2 := by
  refine ⟨Computes.of_J enc12_at enc12_at fun _ _ _ => J_fq12_cyclotomic_square E (by sub), fun h => ?_⟩
  have h2 := two_ne_zero_q (towerOk crv)
  have e := congrArg (fun y : Fq12 (pairQ crv) crv => y.re.c0.re) h
  rw [sq] at e
  have t2 : ∀ y : Fq2 (pairQ crv), 2 * y = y + y := fun y => by ring
  have t3 : ∀ y : Fq2 (pairQ crv), 3 * y = y + y + y := fun y => by ring
  simp [cycSq, sq4, t2, t3] at e
  have h4 : (2 : ZMod (pairQ crv)) * 2 = 0 := by linear_combination e
  exact mul_ne_zero h2 h2 h4

/-! ## C40 -/

/-- C40, bn256 tables: every entry is the stated power of the non-residue `ξ = 9 + u`. -/
theorem C40_bn256_tables :
    (∀ k < 12, toFq2 bnQ (tab FROBENIUS_COEFF_FQ12_C1 k) = xi bnQ .bn256 ^ ((bnQ ^ k - 1) / 6)) ∧
    (∀ k < 6, toFq2 bnQ (tab FROBENIUS_COEFF_FQ6_C1 k) = xi bnQ .bn256 ^ ((bnQ ^ k - 1) / 3)) ∧
    (∀ k < 6, toFq2 bnQ (tab FROBENIUS_COEFF_FQ6_C2 k) = xi bnQ .bn256 ^ (2 * ((bnQ ^ k - 1) / 3))) ∧
    FROBENIUS_COEFF_FQ2_C1.map (fun l => (from_bytes_le l : ZMod bnQ)) = [1, -1] ∧
    toFq2 bnQ (from_bytes_le ((XI_TO_Q_MINUS_1_OVER_2[0]?).getD []), from_bytes_le ((XI_TO_Q_MINUS_1_OVER_2[1]?).getD []))
      = xi bnQ .bn256 ^ ((bnQ - 1) / 2) := by
  have h := towerOk_bn256
  have hq : 0 < bnQ := by decide +kernel
  have h6 : ∀ k, (bnQ ^ k - 1) / 3 = (bnQ ^ k - 1) / 6 * 2 := fun k => by
    have : bnQ ^ k % 6 = 1 := by
      rw [Nat.pow_mod, show bnQ % 6 = 1 by decide +kernel, one_pow]
      norm_num
    generalize bnQ ^ k = m at this ⊢
    omega
  have sq6 : ∀ k, toFq2 bnQ (tab FROBENIUS_COEFF_FQ6_C1 (k % 6)) = xi bnQ .bn256 ^ ((bnQ ^ k - 1) / 3) := fun k => by
    rw [← frobD_bn_sq, frobD_eq h, ← pow_mul, h6]
  refine ⟨fun k hk => ?_, fun k hk => ?_, fun k hk => ?_, ?_, ?_⟩
  · rw [← frobD_eq h, frobD_bn, Nat.mod_eq_of_lt hk]
  · rw [← sq6, Nat.mod_eq_of_lt hk]
  · rw [mul_comm, pow_mul, ← sq6, Nat.mod_eq_of_lt hk, tab6_c2 k hk, toFq2_mul hq, sq]
  · have := congrArg (List.map (Nat.cast : ℕ → ZMod bnQ)) tab2
    rw [List.map_map] at this
    refine this.trans ?_
    simp only [List.map_cons, List.map_nil, Nat.cast_one]
    congr 2
  · rw [tabXi, pw2_eq hq _ _ _ _ (by decide +kernel), toFq2_one, _root_.one_mul, toFq2_xi_bn]

section
variable {n : ℕ}

/-- C40, bn256 maps: for every power and every element the maps compute `x ^ (q ^ power)`. -/
theorem C40_bn256_fq2_frobenius {info : RangeInfo n} (E : Env bnQ info) (power : ℕ) :
    Computes (enc2 bnQ info) (enc2 bnQ info) (fun a => fq2_frobenius_map info .bn256 a power)
      (fun x => x ^ bnQ ^ power) :=
  Computes.of_J enc2_at enc2_at fun _ _ _ => J_fq2_frobenius_map_bn E (by sub)

theorem C40_bn256_fq6_frobenius {info : RangeInfo n} (E : Env bnQ info) (power : ℕ) :
    Computes (enc6 bnQ info .bn256) (enc6 bnQ info .bn256) (fun a => fq6_frobenius_map info .bn256 a power)
      (fun x => x ^ bnQ ^ power) :=
  Computes.of_J enc6_at enc6_at fun _ _ _ => J_fq6_frobenius_map_bn E (by sub)

theorem C40_bn256_fq12_frobenius {info : RangeInfo n} (E : Env bnQ info) (power : ℕ) :
    Computes (enc12 bnQ info .bn256) (enc12 bnQ info .bn256) (fun a => fq12_frobenius_map info .bn256 a power)
      (fun x => x ^ bnQ ^ power) :=
  Computes.of_J enc12_at enc12_at fun _ _ _ => J_fq12_frobenius_map_bn E (by sub)

/-- C40, bls12_381 constants: the three constants are the stated powers of the non-residue `ξ = 1 + u`. -/
theorem C40_bls12_381_constants (info : RangeInfo n) (power : ℕ) :
    toFq2 blsQ (frobenius_coeff12 info .bls12_381 power) = xi blsQ .bls12_381 ^ ((blsQ - 1) / 6) ∧
    toFq2 blsQ (frobenius_coeff6 info .bls12_381 power).1 = xi blsQ .bls12_381 ^ ((blsQ - 1) / 3) ∧
    toFq2 blsQ (frobenius_coeff6 info .bls12_381 power).2 = xi blsQ .bls12_381 ^ (2 * ((blsQ - 1) / 3)) := by
  have hq : 0 < blsQ := by decide +kernel
  have e3 : (blsQ - 1) / 6 * 2 = (blsQ - 1) / 3 := by decide +kernel
  have e4 : (blsQ - 1) / 6 * 4 = 2 * ((blsQ - 1) / 3) := by decide +kernel
  rw [bls_coeff12, bls_coeff6]
  dsimp only
  rw [pw2_eq hq _ _ _ _ (by decide +kernel), pw2_eq hq _ _ _ _ (by decide +kernel), pw2_eq hq _ _ _ _ (by decide +kernel),
    toFq2_one, _root_.one_mul, _root_.one_mul, _root_.one_mul, toFq2_xi_bls, e3, e4]
  exact ⟨rfl, rfl, rfl⟩

/-- C40, bls12_381 maps: whatever the power asked for, the maps compute `x ^ q`. That is the property for power 1, the
only power used by the library; for other powers it is not (`C40_violated`). -/
theorem C40_bls12_381_fq2_frobenius_partial {info : RangeInfo n} (E : Env blsQ info) (power : ℕ) :
    Computes (enc2 blsQ info) (enc2 blsQ info) (fun a => fq2_frobenius_map info .bls12_381 a power)
      (fun x => x ^ blsQ) :=
  Computes.of_J enc2_at enc2_at fun _ _ _ => J_fq2_frobenius_map_bls E (by sub)

theorem C40_bls12_381_fq6_frobenius_partial {info : RangeInfo n} (E : Env blsQ info) (power : ℕ) :
    Computes (enc6 blsQ info .bls12_381) (enc6 blsQ info .bls12_381)
      (fun a => fq6_frobenius_map info .bls12_381 a power) (fun x => x ^ blsQ) :=
  Computes.of_J enc6_at enc6_at fun _ _ _ => J_fq6_frobenius_map_bls E (by sub)

theorem C40_bls12_381_fq12_frobenius_partial {info : RangeInfo n} (E : Env blsQ info) (power : ℕ) :
    Computes (enc12 blsQ info .bls12_381) (enc12 blsQ info .bls12_381)
      (fun a => fq12_frobenius_map info .bls12_381 a power) (fun x => x ^ blsQ) :=
  Computes.of_J enc12_at enc12_at fun _ _ _ => J_fq12_frobenius_map_bls E (by sub)

/-- C40 is violated by bls12_381: asked for the second power, the map on `Fq2` does not compute `x ^ (q ^ 2)`. -/
theorem C40_violated {info : RangeInfo n} (E : Env blsQ info) :
    ¬ Computes (enc2 blsQ info) (enc2 blsQ info) (fun a => fq2_frobenius_map info .bls12_381 a 2)
      (fun x => x ^ blsQ ^ 2) := by
  intro hc
  have h1 := C40_bls12_381_fq2_frobenius_partial E 2
  -- an honest representation of `u`
  have ha := C38_fq2_assign_constant E (c := (0, 1)) E.prime_w.pos E.prime_w.one_lt
  obtain ⟨a, t, -, -, -, ⟨x, hx, hax⟩, -⟩ := ha.complete () () trivial ⟨_, rfl⟩
    ((Context.new n).circuit 0) (fun _ => 0) (Context.new n) Context.new_fresh
  obtain ⟨r, t, hr, -, -, ⟨y, hy, hry⟩, -⟩ := hc.complete a x hax ⟨_, rfl⟩
    ((Context.new n).circuit 0) (fun _ => 0) (Context.new n) Context.new_fresh
  obtain ⟨r', t', hr', -, -, ⟨y', hy', hry'⟩, -⟩ := h1.complete a x hax ⟨_, rfl⟩
    ((Context.new n).circuit 0) (fun _ => 0) (Context.new n) Context.new_fresh
  rw [hr] at hr'
  cases hr'
  have hyy : y.im = y'.im := by rw [← hry.im.rep.eq, ← hry'.im.rep.eq]
  rw [hy, hy', hx] at hyy
  dsimp only at hyy
  rw [frob_pow2 towerOk_bls12_381, frob2 towerOk_bls12_381.mod4] at hyy
  have : (1 : ZMod blsQ) = -1 := by simpa [conj2] using hyy
  revert this
  decide +kernel

end
end Verif
