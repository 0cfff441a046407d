import Verif.Model.Pairing
import Verif.Proof.TowerField

/-!
# The Frobenius maps
-/

namespace Verif

/-! ## Kernel arithmetic in `Fq2` -/

/-- Multiplication in `Fq2` on pairs of natural numbers. -/
def mul2 (q : ℕ) (x y : ℕ × ℕ) : ℕ × ℕ :=
  ((x.1 * y.1 + (q - x.2 % q) * y.2) % q, (x.1 * y.2 + x.2 * y.1) % q)

/-- The element a pair of natural numbers stands for. -/
def toFq2 (q : ℕ) (x : ℕ × ℕ) : Fq2 q := ⟨x.1, x.2⟩

theorem toFq2_mul {q : ℕ} (hq : 0 < q) (x y : ℕ × ℕ) : toFq2 q (mul2 q x y) = toFq2 q x * toFq2 q y := by
  have h : ((q - x.2 % q : ℕ) : ZMod q) = -(x.2 : ZMod q) := by
    rw [Nat.cast_sub (Nat.mod_lt _ hq).le, ZMod.natCast_self, ZMod.natCast_mod, zero_sub]
  ext
  · show (((x.1 * y.1 + (q - x.2 % q) * y.2) % q : ℕ) : ZMod q) = x.1 * y.1 + -1 * x.2 * y.2
    rw [ZMod.natCast_mod, Nat.cast_add, Nat.cast_mul, Nat.cast_mul, h]
    ring
  · show (((x.1 * y.2 + x.2 * y.1) % q : ℕ) : ZMod q) = x.1 * y.2 + x.2 * y.1 + 0 * x.2 * y.2
    rw [ZMod.natCast_mod]
    push_cast
    ring

/-- Powers in `Fq2` by repeated squaring. -/
def pw2 (q : ℕ) : ℕ → ℕ × ℕ → ℕ → ℕ × ℕ → ℕ × ℕ
  | 0, _, _, acc => acc
  | f + 1, b, e, acc =>
    if e = 0 then acc else pw2 q f (mul2 q b b) (e / 2) (if e % 2 = 1 then mul2 q acc b else acc)

theorem pw2_eq {q : ℕ} (hq : 0 < q) : ∀ (f : ℕ) (b : ℕ × ℕ) (e : ℕ) (acc : ℕ × ℕ), e < 2 ^ f →
    toFq2 q (pw2 q f b e acc) = toFq2 q acc * toFq2 q b ^ e
  | 0, b, e, acc, h => by
    obtain rfl : e = 0 := by omega
    simp [pw2]
  | f + 1, b, e, acc, h => by
    unfold pw2
    split
    · rename_i h0; subst h0; simp
    · rw [pw2_eq hq f _ _ _ (by rw [pow_succ] at h; omega), toFq2_mul hq, ← sq, ← pow_mul]
      split
      · rename_i h1
        rw [toFq2_mul hq, _root_.mul_assoc, ← pow_succ']
        congr 2
        omega
      · congr 2
        omega

/-- Conjugation. -/
def conjP (q : ℕ) (x : ℕ × ℕ) : ℕ × ℕ := (x.1, q - x.2 % q)

theorem toFq2_conj {q : ℕ} [Fact q.Prime] (hq : 0 < q) (x : ℕ × ℕ) : toFq2 q (conjP q x) = conj2 (toFq2 q x) := by
  ext
  · rfl
  · show ((q - x.2 % q : ℕ) : ZMod q) = -(x.2 : ZMod q)
    rw [Nat.cast_sub (Nat.mod_lt _ hq).le, ZMod.natCast_self, ZMod.natCast_mod, zero_sub]

/-! ## The tables of bn256 -/

/-- Entry `k` of a table of pairs of byte strings. -/
def tab (t : List (List (List ℕ))) (k : ℕ) : ℕ × ℕ :=
  (from_bytes_le ((((t[k]?).getD [])[0]?).getD []), from_bytes_le ((((t[k]?).getD [])[1]?).getD []))

theorem tab12_zero : tab FROBENIUS_COEFF_FQ12_C1 0 = (1, 0) := by decide +kernel
theorem tab12_one : tab FROBENIUS_COEFF_FQ12_C1 1 = pw2 bnQ 400 (9, 1) ((bnQ - 1) / 6) (1, 0) := by decide +kernel
theorem tab12_succ : ∀ k < 12, tab FROBENIUS_COEFF_FQ12_C1 ((k + 1) % 12) =
    mul2 bnQ (conjP bnQ (tab FROBENIUS_COEFF_FQ12_C1 k)) (tab FROBENIUS_COEFF_FQ12_C1 1) := by decide +kernel
theorem tab6_c1 : ∀ k < 12, tab FROBENIUS_COEFF_FQ6_C1 (k % 6) =
    mul2 bnQ (tab FROBENIUS_COEFF_FQ12_C1 k) (tab FROBENIUS_COEFF_FQ12_C1 k) := by decide +kernel
theorem tab6_c2 : ∀ k < 6, tab FROBENIUS_COEFF_FQ6_C2 k =
    mul2 bnQ (tab FROBENIUS_COEFF_FQ6_C1 k) (tab FROBENIUS_COEFF_FQ6_C1 k) := by decide +kernel
theorem tab2 : (FROBENIUS_COEFF_FQ2_C1.map from_bytes_le) = [1, bnQ - 1] := by decide +kernel
theorem tabXi : (from_bytes_le ((XI_TO_Q_MINUS_1_OVER_2[0]?).getD []), from_bytes_le ((XI_TO_Q_MINUS_1_OVER_2[1]?).getD []))
    = pw2 bnQ 400 (9, 1) ((bnQ - 1) / 2) (1, 0) := by decide +kernel

theorem toFq2_one (q : ℕ) : toFq2 q (1, 0) = 1 := by
  ext
  · exact Nat.cast_one
  · exact Nat.cast_zero

theorem toFq2_xi_bn : toFq2 bnQ (9, 1) = xi bnQ .bn256 := by
  ext
  · show ((9 : ℕ) : ZMod bnQ) = 9
    decide +kernel
  · exact Nat.cast_one

theorem frobD_bn (k : ℕ) : frobD bnQ .bn256 k = toFq2 bnQ (tab FROBENIUS_COEFF_FQ12_C1 (k % 12)) := by
  have hq : 0 < bnQ := by decide +kernel
  induction k with
  | zero => rw [Nat.zero_mod, tab12_zero, toFq2_one]; rfl
  | succ k ih =>
    have h1 : (k + 1) % 12 = (k % 12 + 1) % 12 := by omega
    rw [h1, tab12_succ _ (Nat.mod_lt _ (by norm_num)), toFq2_mul hq, toFq2_conj hq, ← ih, frobD, tab12_one,
      pw2_eq hq 400 _ _ _ (by decide +kernel), toFq2_one, _root_.one_mul, toFq2_xi_bn]

theorem frobD_bn_sq (k : ℕ) : frobD bnQ .bn256 k ^ 2 = toFq2 bnQ (tab FROBENIUS_COEFF_FQ6_C1 (k % 6)) := by
  have hq : 0 < bnQ := by decide +kernel
  have h1 : k % 6 = k % 12 % 6 := by omega
  rw [h1, tab6_c1 _ (Nat.mod_lt _ (by norm_num)), toFq2_mul hq, ← frobD_bn, sq]

theorem frobD_bn_four (k : ℕ) : frobD bnQ .bn256 k ^ 4 = toFq2 bnQ (tab FROBENIUS_COEFF_FQ6_C2 (k % 6)) := by
  have hq : 0 < bnQ := by decide +kernel
  rw [tab6_c2 _ (Nat.mod_lt _ (by norm_num)), toFq2_mul hq, ← frobD_bn_sq]
  ring

/-! ## Powers in `Fq6` and `Fq2` -/

section
variable {q : ℕ} [hq : Fact q.Prime] {crv : PairingCurve}

theorem frob_pow2 (h : TowerOk q crv) (k : ℕ) (x : Fq2 q) : x ^ q ^ k = conj2^[k] x := by
  induction k with
  | zero => simp
  | succ k ih => rw [pow_succ, pow_mul, ih, frob2 h.mod4, Function.iterate_succ']; rfl

theorem frob_pow6 (h : TowerOk q crv) (k : ℕ) (x : Fq6 q crv) :
    x ^ q ^ k = frobC6 (conj2^[k]) (frobD q crv k ^ 2) (frobD q crv k ^ 4) x := by
  have e := frob_pow h k (quadOf Cubic.v x)
  rw [← map_pow] at e
  exact congrArg (fun y : Fq12 q crv => y.re) e

end

/-! ## bn256 -/

theorem Env.modulus {n wm : ℕ} {info : RangeInfo n} (E : Env wm info) : info.w_modulus = wm :=
  (RangeInfo.new_valid E.range).w_modulus

theorem field_const_lt {n wm : ℕ} {info : RangeInfo n} (E : Env wm info) (l : List ℕ) : field_const info l < wm := by
  unfold field_const
  rw [E.modulus]
  exact Nat.mod_lt _ E.prime_w.pos

theorem field_const_cast {n wm : ℕ} {info : RangeInfo n} (E : Env wm info) (l : List ℕ) :
    ((field_const info l : ℕ) : ZMod wm) = (from_bytes_le l : ZMod wm) := by
  unfold field_const
  rw [E.modulus, ZMod.natCast_mod]

theorem toFq2_field_const2 {n wm : ℕ} {info : RangeInfo n} (E : Env wm info) (t : List (List (List ℕ))) (k : ℕ) :
    toFq2 wm (field_const2 info t k) = toFq2 wm (tab t k) := by
  unfold field_const2 tab toFq2
  dsimp only
  rw [field_const_cast E, field_const_cast E]

section bn
variable {n : ℕ} {info : RangeInfo n} {md : Mode n} {L : List (Atom n bnQ)} (E : Env bnQ info)
include E

theorem J_fq2_frobenius_map_bn {a : AssignedFq2 n} {x : Fq2 bnQ} {power : ℕ} (ha : at2 a x ⊆ L) :
    J info md L (fq2_frobenius_map info .bn256 a power) (fun r => at2 r (x ^ bnQ ^ power)) := by
  unfold fq2_frobenius_map
  dsimp only
  refine J.bind (J_assign_int_constant E (field_const_lt E _)) fun v => ?_
  refine J.bind (J_int_mul E (by sub) (by sub)) fun r => ?_
  fin2
  rw [frob_pow2 towerOk_bn256, field_const_cast E]
  have h2 : ∀ k, conj2^[k] x = ⟨x.re, x.im * ((from_bytes_le ((FROBENIUS_COEFF_FQ2_C1[k % 2]?).getD []) : ℕ) : ZMod bnQ)⟩ := by
    have e0 : ∀ y : Fq2 bnQ, (conj2^[2]) y = y := fun y => by simp [conj2_conj2]
    intro k
    conv_lhs => rw [← Nat.mod_add_div k 2, Function.iterate_add_apply, Function.iterate_mul,
      Function.iterate_fixed (e0 x)]
    have t0 : from_bytes_le ((FROBENIUS_COEFF_FQ2_C1[0]?).getD []) = 1 := by decide +kernel
    have t1 : from_bytes_le ((FROBENIUS_COEFF_FQ2_C1[1]?).getD []) = bnQ - 1 := by decide +kernel
    rcases Nat.mod_two_eq_zero_or_one k with h | h <;> rw [h]
    · rw [t0, Nat.cast_one, _root_.mul_one]; rfl
    · rw [t1]
      have : ((bnQ - 1 : ℕ) : ZMod bnQ) = -1 := by decide +kernel
      rw [this]
      ext
      · rfl
      · show -x.im = x.im * -1
        ring
  exact (h2 power).symm

theorem J_fq6_frobenius_map_bn {a : AssignedFq6 n} {x : Fq6 bnQ .bn256} {power : ℕ} (ha : at6 a x ⊆ L) :
    J info md L (fq6_frobenius_map info .bn256 a power) (fun r => at6 r (x ^ bnQ ^ power)) := by
  unfold fq6_frobenius_map frobenius_coeff6
  dsimp only
  refine J.bind (J_fq2_frobenius_map_bn E (x := x.c0) (by sub)) fun c0 => ?_
  refine J.bind (J_fq2_frobenius_map_bn E (x := x.c1) (by sub)) fun c1 => ?_
  refine J.bind (J_fq2_frobenius_map_bn E (x := x.c2) (by sub)) fun c2 => ?_
  refine J.bind (J_fq2_assign_constant E (field_const_lt E _) (field_const_lt E _)) fun k1 => ?_
  step
  refine J.bind (J_fq2_assign_constant E (field_const_lt E _) (field_const_lt E _)) fun k2 => ?_
  step
  fin6
  rw [frob_pow6 towerOk_bn256, frobD_bn_sq, frobD_bn_four, ← toFq2_field_const2 E, ← toFq2_field_const2 E,
    frob_pow2 towerOk_bn256, frob_pow2 towerOk_bn256, frob_pow2 towerOk_bn256]
  rfl

theorem J_fq12_frobenius_map_bn {a : AssignedFq12 n} {x : Fq12 bnQ .bn256} {power : ℕ} (ha : at12 a x ⊆ L) :
    J info md L (fq12_frobenius_map info .bn256 a power) (fun r => at12 r (x ^ bnQ ^ power)) := by
  unfold fq12_frobenius_map frobenius_coeff12
  dsimp only
  refine J.bind (J_fq6_frobenius_map_bn E (x := x.re) (by sub)) fun c0 => ?_
  refine J.bind (J_fq6_frobenius_map_bn E (x := x.im) (by sub)) fun c1 => ?_
  refine J.bind (J_fq2_assign_constant E (field_const_lt E _) (field_const_lt E _)) fun k1 => ?_
  repeat step
  fin12
  rw [frob_pow towerOk_bn256, frob_pow6 towerOk_bn256, frob_pow6 towerOk_bn256, frobD_bn power,
    ← toFq2_field_const2 E]
  simp only [frobC12]
  ext1
  · rfl
  · ext1 <;> simp [Cubic.of, toFq2]

end bn

/-! ## bls12_381 -/

section bls

theorem from_raw_lt (l : List ℕ) : from_raw_unchecked l < blsQ := Nat.mod_lt _ (by decide +kernel)

theorem toFq2_xi_bls : toFq2 blsQ (1, 1) = xi blsQ .bls12_381 := by
  ext
  · exact Nat.cast_one
  · exact Nat.cast_one

theorem bls_coeff12 {n : ℕ} (info : RangeInfo n) (k : ℕ) : frobenius_coeff12 info .bls12_381 k =
    pw2 blsQ 400 (1, 1) ((blsQ - 1) / 6) (1, 0) := by
  unfold frobenius_coeff12
  dsimp only
  decide +kernel

theorem bls_coeff6 {n : ℕ} (info : RangeInfo n) (k : ℕ) : frobenius_coeff6 info .bls12_381 k =
    (pw2 blsQ 400 (1, 1) ((blsQ - 1) / 6 * 2) (1, 0), pw2 blsQ 400 (1, 1) ((blsQ - 1) / 6 * 4) (1, 0)) := by
  unfold frobenius_coeff6
  dsimp only
  decide +kernel

variable {n : ℕ} {info : RangeInfo n} {md : Mode n} {L : List (Atom n blsQ)} (E : Env blsQ info)
include E

theorem J_fq2_frobenius_map_bls {a : AssignedFq2 n} {x : Fq2 blsQ} {power : ℕ} (ha : at2 a x ⊆ L) :
    J info md L (fq2_frobenius_map info .bls12_381 a power) (fun r => at2 r (x ^ blsQ)) := by
  rw [frob2 towerOk_bls12_381.mod4]
  exact J_fq2_conjugate E ha

theorem J_fq6_frobenius_map_bls {a : AssignedFq6 n} {x : Fq6 blsQ .bls12_381} {power : ℕ} (ha : at6 a x ⊆ L) :
    J info md L (fq6_frobenius_map info .bls12_381 a power) (fun r => at6 r (x ^ blsQ)) := by
  have hq : 0 < blsQ := by decide +kernel
  unfold fq6_frobenius_map
  refine J.bind (J_fq2_frobenius_map_bls E (x := x.c0) (by sub)) fun c0 => ?_
  refine J.bind (J_fq2_frobenius_map_bls E (x := x.c1) (by sub)) fun c1 => ?_
  refine J.bind (J_fq2_frobenius_map_bls E (x := x.c2) (by sub)) fun c2 => ?_
  refine J.bind (J_fq2_assign_constant E (by exact hq) (from_raw_lt _)) fun k1 => ?_
  step
  refine J.bind (J_fq2_assign_constant E (from_raw_lt _) (by exact hq)) fun k2 => ?_
  step
  fin6
  have h := frob_pow6 towerOk_bls12_381 1 x
  rw [pow_one] at h
  have e1 := pw2_eq hq 400 (1, 1) ((blsQ - 1) / 6 * 2) (1, 0) (by decide +kernel)
  have e2 := pw2_eq hq 400 (1, 1) ((blsQ - 1) / 6 * 4) (1, 0) (by decide +kernel)
  rw [toFq2_one, toFq2_xi_bls, _root_.one_mul, pow_mul] at e1 e2
  rw [h, frobD, frobD, conj2_one, _root_.one_mul, ← e1, ← e2, bls_coeff6,
    frob2 towerOk_bls12_381.mod4, frob2 towerOk_bls12_381.mod4, frob2 towerOk_bls12_381.mod4]
  rfl

theorem J_fq12_frobenius_map_bls {a : AssignedFq12 n} {x : Fq12 blsQ .bls12_381} {power : ℕ} (ha : at12 a x ⊆ L) :
    J info md L (fq12_frobenius_map info .bls12_381 a power) (fun r => at12 r (x ^ blsQ)) := by
  have hq : 0 < blsQ := by decide +kernel
  unfold fq12_frobenius_map
  refine J.bind (J_fq6_frobenius_map_bls E (x := x.re) (by sub)) fun c0 => ?_
  refine J.bind (J_fq6_frobenius_map_bls E (x := x.im) (by sub)) fun c1 => ?_
  refine J.bind (J_fq2_assign_constant E (from_raw_lt _) (from_raw_lt _)) fun k1 => ?_
  repeat step
  fin12
  have h := frob_pow towerOk_bls12_381 1 x
  have h0 := frob_pow6 towerOk_bls12_381 1 x.re
  have h1 := frob_pow6 towerOk_bls12_381 1 x.im
  rw [pow_one] at h h0 h1
  have e1 := pw2_eq hq 400 (1, 1) ((blsQ - 1) / 6) (1, 0) (by decide +kernel)
  rw [toFq2_one, toFq2_xi_bls, _root_.one_mul, ← bls_coeff12 info power] at e1
  have e2 : frobD blsQ .bls12_381 1 = toFq2 blsQ (frobenius_coeff12 info .bls12_381 power) := by
    rw [frobD, frobD, conj2_one, _root_.one_mul, e1]
  rw [h, h0, h1, e2]
  simp only [frobC12]
  ext1
  · rfl
  · ext1 <;> simp [Cubic.of, toFq2]

end bls
end Verif
