import Mathlib.Algebra.CharP.Frobenius
import Verif.Proof.AteLoop

/-!
# The Frobenius endomorphism
-/

namespace Verif
open WeierstrassCurve.Affine
variable {crv : PairingCurve}

instance (crv : PairingCurve) : CharP (Fq12 (pairQ crv) crv) (pairQ crv) := by
  let f : ZMod (pairQ crv) →+* Fq12 (pairQ crv) crv :=
    { toFun := embQ
      map_one' := rfl
      map_zero' := rfl
      map_add' := fun x y => by ext <;> simp [embQ, emb12]
      map_mul' := fun x y => by ext <;> simp [embQ, emb12] }
  exact charP_of_injective_ringHom (f := f)
    (fun x y h => congrArg (fun z : Fq12 (pairQ crv) crv => z.re.c0.re) h) (pairQ crv)

theorem frob_curve (crv : PairingCurve) : (pairE crv).map (frobenius (Fq12 (pairQ crv) crv) (pairQ crv)) = pairE crv := by
  ext <;> simp [curveOver]

theorem frob_nonsingular {x y : Fq12 (pairQ crv) crv} (h : (pairE crv).Nonsingular x y) :
    (pairE crv).Nonsingular (x ^ pairQ crv) (y ^ pairQ crv) := by
  have := ((pairE crv).map_nonsingular (f := frobenius (Fq12 (pairQ crv) crv) (pairQ crv))
    (frobenius_inj _ _) x y).2 h
  rwa [frob_curve] at this

theorem frobE_some {x y : Fq12 (pairQ crv) crv} (h : (pairE crv).Nonsingular x y) :
    frobE crv (.some x y h) = .some _ _ (frob_nonsingular h) := by
  rw [frobE, dif_pos (frob_nonsingular h)]

theorem frobE_zero : frobE crv 0 = 0 := rfl

theorem frobE_add (S T : (pairE crv).Point) : frobE crv (S + T) = frobE crv S + frobE crv T := by
  have hs := map_slope (W := pairE crv) (frobenius (Fq12 (pairQ crv) crv) (pairQ crv))
  have hx := fun x x' l => map_addX (W' := pairE crv) (frobenius (Fq12 (pairQ crv) crv) (pairQ crv)) x x' l
  have hy := fun x x' y l => map_addY (W' := pairE crv) (frobenius (Fq12 (pairQ crv) crv) (pairQ crv)) x x' y l
  have hn := fun x y => map_negY (W' := pairE crv) (frobenius (Fq12 (pairQ crv) crv) (pairQ crv)) x y
  rw [frob_curve] at hs hx hy hn
  simp only [frobenius_def] at hs hx hy hn
  cases S with
  | zero => rw [← Point.zero_def, _root_.zero_add, frobE_zero, _root_.zero_add]
  | some x y h =>
    cases T with
    | zero => rw [← Point.zero_def, _root_.add_zero, frobE_zero, _root_.add_zero]
    | some x' y' h' =>
      by_cases hxy : x = x' ∧ y = (pairE crv).negY x' y'
      · rw [Point.add_of_Y_eq hxy.1 hxy.2, frobE_zero, frobE_some, frobE_some, Point.add_of_Y_eq]
        · rw [hxy.1]
        · rw [hn, hxy.2]
      · have hxy' : ¬ (x ^ pairQ crv = x' ^ pairQ crv ∧ y ^ pairQ crv = (pairE crv).negY (x' ^ pairQ crv) (y' ^ pairQ crv)) := by
          rw [hn]
          exact fun h => hxy ⟨frobenius_inj _ (pairQ crv) h.1, frobenius_inj _ (pairQ crv) h.2⟩
        rw [Point.add_some hxy, frobE_some, frobE_some, frobE_some, Point.add_some hxy']
        simp only [Point.some.injEq]
        rw [hs, hx, hy]
        exact ⟨rfl, rfl⟩

noncomputable def frobHom (crv : PairingCurve) : (pairE crv).Point →+ (pairE crv).Point where
  toFun := frobE crv
  map_zero' := frobE_zero
  map_add' := frobE_add

/-! ## The constants of bn256 -/

theorem w12_pow_two {q : ℕ} {crv : PairingCurve} {m : ℕ} (h : m % 6 = 1) :
    (w12 : Fq12 q crv) ^ (2 * m) = emb12 (xi q crv ^ ((m - 1) / 3)) * w12 ^ 2 := by
  have e : 2 * m = 6 * ((m - 1) / 3) + 2 := by omega
  have := map_pow (embHom q crv) (xi q crv) ((m - 1) / 3)
  rw [embHom_apply, embHom_apply] at this
  rw [e, pow_add, pow_mul, w12_six, this]

theorem w12_pow_three {q : ℕ} {crv : PairingCurve} {m : ℕ} (h : m % 6 = 1) :
    (w12 : Fq12 q crv) ^ (3 * m) = emb12 (xi q crv ^ ((m - 1) / 2)) * w12 ^ 3 := by
  have e : 3 * m = 6 * ((m - 1) / 2) + 3 := by omega
  have := map_pow (embHom q crv) (xi q crv) ((m - 1) / 2)
  rw [embHom_apply, embHom_apply] at this
  rw [e, pow_add, pow_mul, w12_six, this]

theorem emb12_mul {q : ℕ} {crv : PairingCurve} (x y : Fq2 q) : (emb12 (x * y) : Fq12 q crv) = emb12 x * emb12 y :=
  map_mul (embHom q crv) x y

theorem emb12_pow {q : ℕ} {crv : PairingCurve} (x : Fq2 q) (k : ℕ) : (emb12 (x ^ k) : Fq12 q crv) = emb12 x ^ k :=
  map_pow (embHom q crv) x k

section
variable {q : ℕ} [Fact q.Prime] {crv : PairingCurve} (h : TowerOk q crv)
include h

theorem q_mod6 (k : ℕ) : q ^ k % 6 = 1 := by
  have h3 := h.mod3
  have h4 := h.mod4
  rw [Nat.pow_mod, show q % 6 = 1 by omega, one_pow]
  norm_num

theorem frob_x (x : Fq2 q) (k : ℕ) : (emb12 x * w12 ^ 2 : Fq12 q crv) ^ q ^ k =
    emb12 (conj2^[k] x * xi q crv ^ ((q ^ k - 1) / 3)) * w12 ^ 2 := by
  rw [mul_pow, ← emb12_pow, frob_pow2 h, ← pow_mul, w12_pow_two (q_mod6 h k), emb12_mul, _root_.mul_assoc]

theorem frob_y (x : Fq2 q) (k : ℕ) : (emb12 x * w12 ^ 3 : Fq12 q crv) ^ q ^ k =
    emb12 (conj2^[k] x * xi q crv ^ ((q ^ k - 1) / 2)) * w12 ^ 3 := by
  rw [mul_pow, ← emb12_pow, frob_pow2 h, ← pow_mul, w12_pow_three (q_mod6 h k), emb12_mul, _root_.mul_assoc]

theorem xi_half : xi q crv ^ ((q ^ 2 - 1) / 2) = -1 := by
  have hr := rootD_root h
  unfold rootD at hr
  have e := frobD_eq h 2
  have e3 : (q ^ 2 - 1) / 2 = (q ^ 2 - 1) / 6 * 3 := by
    have := q_mod6 h 2
    generalize q ^ 2 = m at this
    omega
  rw [e3, pow_mul, ← e]
  linear_combination (frobD q crv 2 + 1) * hr

/-- The coordinates of the image under Frobenius, before untwisting by `w`. -/
theorem frob_coords (x y : Fq2 q) :
    (emb12 x * w12 ^ 2 : Fq12 q crv) ^ q = emb12 (conj2 x * xi q crv ^ ((q ^ 1 - 1) / 3)) * w12 ^ 2 ∧
    (emb12 y * w12 ^ 3 : Fq12 q crv) ^ q = emb12 (conj2 y * xi q crv ^ ((q - 1) / 2)) * w12 ^ 3 := by
  have hx := frob_x h x 1
  have hy := frob_y h y 1
  rw [pow_one] at hx hy
  rw [pow_one]
  exact ⟨hx, hy⟩

/-- The coordinates of the image under the square of Frobenius. -/
theorem frob2_coords (x y : Fq2 q) :
    ((emb12 x * w12 ^ 2 : Fq12 q crv) ^ q) ^ q = emb12 (x * xi q crv ^ ((q ^ 2 - 1) / 3)) * w12 ^ 2 ∧
    ((emb12 y * w12 ^ 3 : Fq12 q crv) ^ q) ^ q = emb12 (-y) * w12 ^ 3 := by
  have hx := frob_x h x 2
  have hy := frob_y h y 2
  rw [xi_half h, _root_.mul_neg, _root_.mul_one] at hy
  simp only [Function.iterate_succ, Function.iterate_zero, Function.comp, id, conj2_conj2] at hx hy
  rw [← pow_mul, ← pow_mul, ← _root_.sq]
  exact ⟨hx, hy⟩

end

section
variable {crv : PairingCurve} {Q : (pairE crv).Point} {q : Fq2 (pairQ crv) × Fq2 (pairQ crv)}

theorem conj2_eta {q : ℕ} [Fact q.Prime] (x : Fq2 q) : (⟨x.re, -x.im⟩ : Fq2 q) = conj2 x := rfl

theorem Aat.of_eq (hu : untwistU crv = w12) {x y : Fq12 (pairQ crv) crv} {h : (pairE crv).Nonsingular x y}
    (hx : x = emb12 q.1 * w12 ^ 2) (hy : y = emb12 q.2 * w12 ^ 3) :
    Aat (embHom (pairQ crv) crv) (untwistU crv) q (Point.some x y h) := by
  apply Aat.mk
  · rw [hx, embHom_apply, hu]
  · rw [hy, embHom_apply, hu]

theorem Aat.frob (hu : untwistU crv = w12) (h : Aat (embHom (pairQ crv) crv) (untwistU crv) q Q) :
    Aat (embHom (pairQ crv) crv) (untwistU crv) (conj2 q.1 * xi (pairQ crv) crv ^ ((pairQ crv ^ 1 - 1) / 3),
      conj2 q.2 * xi (pairQ crv) crv ^ ((pairQ crv - 1) / 2)) (frobE crv Q) := by
  obtain ⟨h, rfl⟩ := h
  have hc := frob_coords (towerOk crv) q.1 q.2
  rw [frobE_some]
  apply Aat.of_eq hu
  · rw [embHom_apply, hu, hc.1]
  · rw [embHom_apply, hu, hc.2]

theorem Aat.frob2 (hu : untwistU crv = w12) (h : Aat (embHom (pairQ crv) crv) (untwistU crv) q Q) :
    Aat (embHom (pairQ crv) crv) (untwistU crv) (q.1 * xi (pairQ crv) crv ^ ((pairQ crv ^ 2 - 1) / 3), q.2)
      (-frobE crv (frobE crv Q)) := by
  obtain ⟨h, rfl⟩ := h
  have hc := frob2_coords (towerOk crv) q.1 q.2
  rw [frobE_some, frobE_some]
  have h' := frob_nonsingular (frob_nonsingular h)
  have ea : Aat (embHom (pairQ crv) crv) (untwistU crv) (q.1 * xi (pairQ crv) crv ^ ((pairQ crv ^ 2 - 1) / 3), -q.2)
      (Point.some _ _ h') := by
    apply Aat.of_eq hu
    · rw [embHom_apply, hu, hc.1]
    · rw [embHom_apply, hu, hc.2]
  have := ea.neg
  simp only [neg_neg] at this
  exact this

end

theorem bn_c1 : (bnC (pairQ .bn256)).1 = xi (pairQ .bn256) .bn256 ^ ((pairQ .bn256 ^ 1 - 1) / 3) :=
  C40_bn256_tables.2.1 1 (by norm_num)

theorem bn_c2 : (bnC (pairQ .bn256)).2.1 = xi (pairQ .bn256) .bn256 ^ ((pairQ .bn256 ^ 2 - 1) / 3) :=
  C40_bn256_tables.2.1 2 (by norm_num)

theorem pairQ_bn : pairQ .bn256 = bnQ := by unfold pairQ; rfl

theorem bn_c3' {q : ℕ} (hq : q = bnQ) : (bnC q).2.2 = xi q .bn256 ^ ((q - 1) / 2) := by
  subst hq
  exact C40_bn256_tables.2.2.2.2

theorem bn_c3 : (bnC (pairQ .bn256)).2.2 = xi (pairQ .bn256) .bn256 ^ ((pairQ .bn256 - 1) / 2) := bn_c3' pairQ_bn

theorem bnQ1_eq (q : Fq2 (pairQ .bn256) × Fq2 (pairQ .bn256)) :
    bnQ1 q = (conj2 q.1 * xi (pairQ .bn256) .bn256 ^ ((pairQ .bn256 ^ 1 - 1) / 3),
      conj2 q.2 * xi (pairQ .bn256) .bn256 ^ ((pairQ .bn256 - 1) / 2)) := by
  rw [← bn_c1, ← bn_c3]
  rfl

theorem bnQ2_eq (q : Fq2 (pairQ .bn256) × Fq2 (pairQ .bn256)) :
    bnQ2 q = (q.1 * xi (pairQ .bn256) .bn256 ^ ((pairQ .bn256 ^ 2 - 1) / 3), q.2) := by
  rw [← bn_c2]

end Verif
