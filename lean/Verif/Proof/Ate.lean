import Verif.Proof.AteFrob

/-!
# The Miller loops of both curves, over lists of pairs
-/

namespace Verif
open WeierstrassCurve.Affine

theorem frobE_zsmul {crv : PairingCurve} (k : ℤ) (Q : (pairE crv).Point) : frobE crv (k • Q) = k • frobE crv Q :=
  map_zsmul (frobHom crv) k Q

theorem sim_mul {crv : PairingCurve} {N : ℕ} {a b c d : Fq12 (pairQ crv) crv} (h : Sim N a b) (h' : Sim N c d) :
    Sim N (a * c) (b * d) := h.mul h'

/-! ## bn256 -/

theorem goodDigits_bn : goodDigits bnR 1 naf_digits = true := by decide +kernel
theorem naf_small : ∀ d ∈ naf_digits, d = 0 ∨ d = 1 ∨ d = -1 := by decide +kernel
theorem digitValue_bn : digitValue naf_digits = 6 * BN_X + 2 := by decide +kernel

theorem bn_end : ((6 * BN_X + 2 - bnQ : ℤ) % bnR ≠ 0 ∧ (6 * BN_X + 2 + bnQ : ℤ) % bnR ≠ 0) ∧
    ((6 * BN_X + 2 + bnQ + bnQ * bnQ : ℤ) % bnR ≠ 0 ∧ (6 * BN_X + 2 + bnQ - bnQ * bnQ : ℤ) % bnR ≠ 0) := by
  decide +kernel

section
local notation "bnE" => embHom (pairQ PairingCurve.bn256) PairingCurve.bn256
local notation "bnU" => untwistU PairingCurve.bn256
variable {Q : (pairE .bn256).Point} {q : Fq2 (pairQ .bn256) × Fq2 (pairQ .bn256)} {P : ZMod (pairQ .bn256) × ZMod (pairQ .bn256)}

theorem bn_single (hq : Aat bnE bnU q Q) (hG : InG2 .bn256 Q) :
    Sim (finalExponent .bn256) (millerV .bn256 [(P, prepV .bn256 q)]) (ateMiller .bn256 Q (embP P)) := by
  have hr : bnR.Prime := Fact.out
  have h2 : (2 : Fq12 (pairQ .bn256) .bn256) ≠ 0 := two_ne_zero_12
  have hu : bnU ≠ 0 := untwistU_ne_zero _
  have h0 := hG.ne_zero
  have hQ : bnR • Q = 0 := hG.order
  have hF : frobE .bn256 Q = (bnQ : ℤ) • Q := by rw [hG.frob, natCast_zsmul]; rfl
  have hF2 : frobE .bn256 (frobE .bn256 Q) = (bnQ * bnQ : ℤ) • Q := by
    rw [mul_zsmul, hF, frobE_zsmul, hF]
  have hq1 : Aat bnE bnU (bnQ1 q) ((bnQ : ℤ) • Q) := by
    rw [bnQ1_eq, ← hF]; exact Aat.frob untwistU_bn hq
  have hq2 : Aat bnE bnU (bnQ2 q) (-((bnQ * bnQ : ℤ) • Q)) := by
    rw [bnQ2_eq, ← hF2]; exact Aat.frob2 untwistU_bn hq
  have hstart : Jat bnE bnU ⟨q.1, q.2, 1⟩ ((1 : ℤ) • Q) := by rw [one_zsmul]; exact hq.jat
  set st := bnFold q naf_digits with hst
  set a := addV st.2 (bnQ1 q) with ha
  set b := addV a.2 (bnQ2 q) with hb
  obtain ⟨s1, s2, s3⟩ := bn_loop (P := P) hq hQ naf_digits true 1 1 1 ⟨q.1, q.2, 1⟩ [a.1, b.1] naf_small (fun _ => rfl)
    (Sim.refl _) hstart goodDigits_bn
  have hd : naf_digits.foldl (fun m d => 2 * m + d) 1 = (6 * BN_X + 2 : ℤ) := digitValue_bn
  rw [hd] at s3
  rw [one_zsmul] at s1 s2 s3
  rw [s3] at s2
  obtain ⟨a1, a2, a3⟩ := add_at h2 hu s2 hq1 (ne_of hr h0 hQ bn_end.1.1)
    (by rw [← neg_zsmul]; exact ne_of hr h0 hQ (by rw [sub_neg_eq_add]; exact bn_end.1.2))
  rw [← add_zsmul] at a1
  obtain ⟨b1, b2, b3⟩ := add_at h2 hu a1 hq2
    (by rw [← neg_zsmul]; exact ne_of hr h0 hQ (by rw [sub_neg_eq_add]; exact bn_end.2.1))
    (by rw [neg_neg]; exact ne_of hr h0 hQ bn_end.2.2)
  have e1 : prepV .bn256 q = st.1 ++ [a.1, b.1] := by
    show st.1 ++ [a.1] ++ [b.1] = _
    simp
  have el : st.1.length = bnNeed naf_digits := by rw [hst]; simp only [bnFold, bnFold_length, List.length_nil, Nat.zero_add]
  have e2 : dropV (bnNeed naf_digits) [(P, st.1 ++ [a.1, b.1])] = [(P, [a.1, b.1])] := by
    rw [← el]; simp [dropV]
  have e3 : dropV (bnNeed naf_digits + 1) [(P, st.1 ++ [a.1, b.1])] = [(P, [b.1])] := by
    rw [← dropV_dropV, e2, dropV_one]
  have e4 : millerV .bn256 [(P, st.1 ++ [a.1, b.1])] =
      bnLoopV true 1 [(P, st.1 ++ [a.1, b.1])] naf_digits * evLine .bn256 a.1 P * evLine .bn256 b.1 P := by
    show ellV (ellV _ (dropV _ _)) (dropV _ _) = _
    rw [e2, e3, ellV_one, ellV_one]
  rw [e1, e4]
  have e5 : ateMiller .bn256 Q (embP P) = (naf_digits.foldl (millerStep Q (embP P)) (1, Q)).1 *
      lineAt ((6 * BN_X + 2 : ℤ) • Q) ((bnQ : ℤ) • Q) (embP P) *
      lineAt ((6 * BN_X + 2 + bnQ : ℤ) • Q) (-((bnQ * bnQ : ℤ) • Q)) (embP P) := by
    simp only [ateMiller, miller, loopDigits]
    rw [hF2, hF, s3, ← add_zsmul]
  rw [e5]
  have A := evLine_sim (P := P) a2 (a3 (embP P))
  have B := evLine_sim (P := P) b2 (b3 (embP P))
  exact sim_mul (sim_mul s1 A) B

end

/-! ## bls12_381 -/

/-- The bits of the loop counter but for the first and the last. -/
def blsBits : List Bool := (bits64 (BLS_X >>> 1)).drop 2

def bitDigit (b : Bool) : ℤ := if b then 1 else 0

theorem blsBits_eq : bits64 (BLS_X >>> 1) = false :: true :: blsBits := by decide +kernel
theorem bls_digits : loopDigits .bls12_381 = blsBits.map bitDigit ++ [0] := by decide +kernel
theorem goodDigits_bls : goodDigits blsR 1 (blsBits.map bitDigit) = true := by decide +kernel
theorem bls_end : (2 * (blsBits.map bitDigit).foldl (fun m d => 2 * m + d) (1 : ℤ)) % blsR ≠ 0 := by decide +kernel
theorem digitValue_bls : digitValue (loopDigits .bls12_381) = BLS_X := by decide +kernel

theorem blsFold_acc {K : Type} [CommRing K] (q : K × K) (is : List Bool) : ∀ (ls : List (Line K)) (p : Jac K),
    (is.foldl (blsPrepStepV q) (true, ls, p)).2 =
      (ls ++ (is.foldl (blsPrepStepV q) (true, [], p)).2.1, (is.foldl (blsPrepStepV q) (true, [], p)).2.2) := by
  induction is with
  | nil => intro ls p; simp
  | cons i is ih =>
    intro ls p
    simp only [List.foldl_cons]
    cases i
    · simp only [blsPrepStepV]
      rw [ih, ih ([] ++ [(dblV p).1])]
      simp
    · simp only [blsPrepStepV]
      rw [ih, ih ([] ++ [(dblV p).1] ++ _)]
      simp

section
local notation "blE" => embHom (pairQ PairingCurve.bls12_381) PairingCurve.bls12_381
local notation "blU" => untwistU PairingCurve.bls12_381
variable {Q : (pairE .bls12_381).Point} {q : Fq2 (pairQ .bls12_381) × Fq2 (pairQ .bls12_381)}
  {P : ZMod (pairQ .bls12_381) × ZMod (pairQ .bls12_381)}

theorem bls_loop (hq : Aat blE blU q Q) (hQ : blsR • Q = 0) (is : List Bool) :
    ∀ (X f : Fq12 (pairQ .bls12_381) .bls12_381) (m : ℤ) (p : Jac (Fq2 (pairQ .bls12_381))) (rest : List (Line (Fq2 (pairQ .bls12_381)))),
      Sim (finalExponent .bls12_381) X (f ^ 2) → Jat blE blU p (m • Q) →
      goodDigits blsR m (is.map bitDigit) →
      Sim (finalExponent .bls12_381) (blsLoopV true X [(P, (is.foldl (blsPrepStepV q) (true, [], p)).2.1 ++ rest)] is)
        (((is.map bitDigit).foldl (millerStep Q (embP (crv := .bls12_381) P)) (f, m • Q)).1 ^ 2) ∧
      Jat blE blU (is.foldl (blsPrepStepV q) (true, [], p)).2.2
        ((is.map bitDigit).foldl (millerStep Q (embP (crv := .bls12_381) P)) (f, m • Q)).2 ∧
      ((is.map bitDigit).foldl (millerStep Q (embP (crv := .bls12_381) P)) (f, m • Q)).2 =
        ((is.map bitDigit).foldl (fun m d => 2 * m + d) m) • Q := by
  have hr : blsR.Prime := Fact.out
  have h2 : (2 : Fq12 (pairQ .bls12_381) .bls12_381) ≠ 0 := two_ne_zero_12
  have hu : blU ≠ 0 := untwistU_ne_zero _
  induction is with
  | nil => exact fun X f m p rest hX hp _ => ⟨hX, hp, rfl⟩
  | cons i is ih =>
    intro X f m p rest hX hp hg
    simp only [List.map_cons, goodDigits, Bool.and_eq_true, decide_eq_true_eq] at hg
    obtain ⟨hg1, hg2⟩ := hg
    have hdd : m • Q + m • Q = (2 * m) • Q := by rw [← add_zsmul, two_mul]
    have hT : m • Q + m • Q ≠ 0 := by rw [hdd]; exact zsmul_ne_zero_of hr hq.ne_zero hQ hg1
    obtain ⟨hj, hc, hl⟩ := dbl_at h2 hu hp hT
    have hX2 : Sim (finalExponent .bls12_381) (X * evLine .bls12_381 (dblV p).1 P)
        (f ^ 2 * lineAt (m • Q) (m • Q) (embP P)) := hX.mul (evLine_sim hc (hl _))
    rw [hdd] at hj
    simp only [List.map_cons, List.foldl_cons]
    cases i
    · have hb : bitDigit false = 0 := rfl
      rw [hb, if_pos rfl] at hg2
      rw [hb]
      have e1 : blsPrepStepV q (true, [], p) false = (true, [(dblV p).1], (dblV p).2) := by simp [blsPrepStepV]
      have e2 : millerStep Q (embP (crv := .bls12_381) P) (f, m • Q) 0 =
          (f ^ 2 * lineAt (m • Q) (m • Q) (embP P), (2 * m) • Q) := by simp [millerStep, hdd]
      rw [e1, e2, blsFold_acc, _root_.add_zero]
      have := ih _ _ (2 * m) (dblV p).2 rest hX2.sq hj hg2
      simpa only [blsLoopV, List.singleton_append, List.cons_append, List.append_assoc, ellV_one, dropV_one,
        Bool.false_eq_true, if_false, List.nil_append] using this
    · have hb : bitDigit true = 1 := rfl
      rw [hb, if_neg (by decide)] at hg2
      rw [hb]
      simp only [Bool.and_eq_true, decide_eq_true_eq] at hg2
      obtain ⟨⟨hg3, hg4⟩, hg5⟩ := hg2
      have hdq : Aat blE blU q ((1 : ℤ) • Q) := by rw [one_zsmul]; exact hq
      obtain ⟨ha, hc', hl'⟩ := add_at h2 hu hj hdq (ne_of hr hq.ne_zero hQ hg3)
        (by rw [← neg_zsmul]; exact ne_of hr hq.ne_zero hQ (by rwa [sub_neg_eq_add]))
      rw [← add_zsmul] at ha
      have e1 : blsPrepStepV q (true, [], p) true =
          (true, [(dblV p).1] ++ [(addV (dblV p).2 q).1], (addV (dblV p).2 q).2) := by
        simp [blsPrepStepV]
      have e2 : millerStep Q (embP (crv := .bls12_381) P) (f, m • Q) 1 =
          (f ^ 2 * lineAt (m • Q) (m • Q) (embP P) * lineAt ((2 * m) • Q) ((1 : ℤ) • Q) (embP P), (2 * m + 1) • Q) := by
        simp [millerStep, hdd, add_zsmul]
      rw [e1, e2, blsFold_acc]
      have := ih _ _ (2 * m + 1) _ rest (hX2.mul (evLine_sim (P := P) hc' (hl' _))).sq ha hg5
      simpa only [blsLoopV, List.singleton_append, List.cons_append, List.append_assoc, ellV_one, dropV_one, dropV_two,
        if_true, List.nil_append] using this

theorem bls_single (hq : Aat blE blU q Q) (hG : InG2 .bls12_381 Q) :
    Sim (finalExponent .bls12_381)
      (ellV (blsLoopV false 1 [(P, prepV .bls12_381 q)] (bits64 (BLS_X >>> 1)))
        (dropV (blsNeed false (bits64 (BLS_X >>> 1))) [(P, prepV .bls12_381 q)]))
      (miller (loopDigits .bls12_381) Q (embP (crv := .bls12_381) P)).1 := by
  have hr : blsR.Prime := Fact.out
  have h2 : (2 : Fq12 (pairQ .bls12_381) .bls12_381) ≠ 0 := two_ne_zero_12
  have hu : blU ≠ 0 := untwistU_ne_zero _
  have h0 := hG.ne_zero
  have hQ : blsR • Q = 0 := hG.order
  have hstart : Jat blE blU ⟨q.1, q.2, 1⟩ ((1 : ℤ) • Q) := by rw [one_zsmul]; exact hq.jat
  set st := (blsBits.foldl (blsPrepStepV q) (true, [], ⟨q.1, q.2, 1⟩)).2 with hst
  set a := dblV st.2 with ha
  obtain ⟨s1, s2, s3⟩ := bls_loop (P := P) hq hQ blsBits 1 1 1 ⟨q.1, q.2, 1⟩ [a.1]
    (by rw [one_pow]; exact Sim.refl _) hstart goodDigits_bls
  rw [← hst] at s1 s2
  rw [one_zsmul] at s1 s2 s3
  have hT : ((blsBits.map bitDigit).foldl (millerStep Q (embP (crv := .bls12_381) P)) (1, Q)).2 +
      ((blsBits.map bitDigit).foldl (millerStep Q (embP (crv := .bls12_381) P)) (1, Q)).2 ≠ 0 := by
    rw [s3, ← add_zsmul, ← two_mul]
    exact zsmul_ne_zero_of hr h0 hQ bls_end
  obtain ⟨-, a2, a3⟩ := dbl_at h2 hu s2 hT
  have e0 : blsFold q (bits64 (BLS_X >>> 1)) = blsBits.foldl (blsPrepStepV q) (true, [], ⟨q.1, q.2, 1⟩) := by
    simp only [blsFold, blsBits_eq, List.foldl_cons, blsPrepStepV]
  have e1 : prepV .bls12_381 q = st.1 ++ [a.1] := by
    show (blsFold q (bits64 (BLS_X >>> 1))).2.1 ++ [(dblV (blsFold q (bits64 (BLS_X >>> 1))).2.2).1] = _
    rw [e0]
  have el : st.1.length = blsNeed false (bits64 (BLS_X >>> 1)) := by
    rw [hst, blsFold_length, List.length_nil, Nat.zero_add, blsBits_eq]; rfl
  have e2 : dropV (blsNeed false (bits64 (BLS_X >>> 1))) [(P, st.1 ++ [a.1])] = [(P, [a.1])] := by
    rw [← el]; simp [dropV]
  have e3 : blsLoopV false 1 [(P, st.1 ++ [a.1])] (bits64 (BLS_X >>> 1)) = blsLoopV true 1 [(P, st.1 ++ [a.1])] blsBits := by
    simp only [blsBits_eq, blsLoopV]
  rw [e1, e2, e3, ellV_one, bls_digits, miller, List.foldl_append, List.foldl_cons, List.foldl_nil]
  have e4 : ∀ s : Fq12 (pairQ .bls12_381) .bls12_381 × (pairE .bls12_381).Point,
      (millerStep Q (embP (crv := .bls12_381) P) s 0).1 = s.1 ^ 2 * lineAt s.2 s.2 (embP P) := fun s => by
    simp [millerStep]
  rw [e4]
  have A := evLine_sim (P := P) a2 (a3 (embP P))
  exact sim_mul s1 A

end

/-! ## Powers -/

theorem exponent_conj (crv : PairingCurve) : pairQ crv ^ 12 - 1 ∣ (pairQ crv ^ 6 + 1) * finalExponent crv := by
  cases crv <;> decide +kernel

theorem conj_pow {crv : PairingCurve} (x : Fq12 (pairQ crv) crv) :
    conj12 x ^ finalExponent crv = x⁻¹ ^ finalExponent crv := by
  by_cases hx : x = 0
  · have h0 : (conj12 (0 : Fq12 (pairQ crv) crv)) = 0 := by
      have : (conj12 (0 : Fq12 (pairQ crv) crv)) = (0 : Fq12 (pairQ crv) crv) ^ pairQ crv ^ 6 := (frob_six (towerOk crv) 0).symm
      rw [this, zero_pow]
      exact pow_ne_zero _ (Fact.out : (pairQ crv).Prime).ne_zero
    rw [hx, h0, inv_zero]
  · have e : conj12 x = x ^ pairQ crv ^ 6 := (frob_six (towerOk crv) x).symm
    obtain ⟨k, hk⟩ := exponent_conj crv
    have h1 : conj12 x ^ finalExponent crv * x ^ finalExponent crv = 1 := by
      rw [← mul_pow, e, ← pow_succ, ← pow_mul, hk, pow_mul, unit_pow hx, one_pow]
    rw [inv_pow]
    exact eq_inv_of_mul_eq_one_left h1

/-- What the circuit computes for one pair is the optimal ate pairing. -/
theorem single_ate {crv : PairingCurve} {Q : (pairE crv).Point} {q : Fq2 (pairQ crv) × Fq2 (pairQ crv)}
    {P : ZMod (pairQ crv) × ZMod (pairQ crv)} (hq : Aat (embHom (pairQ crv) crv) (untwistU crv) q Q) (hG : InG2 crv Q) :
    millerV crv [(P, prepV crv q)] ^ finalExponent crv = ate crv Q (embP P) := by
  cases crv
  · exact (bn_single hq hG).pow_eq
  · have h := (bls_single (P := P) hq hG).pow_eq
    rw [ate, millerV, ateMiller, conj_pow, inv_pow, inv_pow, h]

/-! ## Lists of pairs -/

section list
variable {wm : ℕ} {crv : PairingCurve}

theorem ellV_cons (x y : Fq12 wm crv) (v : TermV wm) (vs : List (TermV wm)) :
    ellV (x * y) (v :: vs) = ellV x [v] * ellV y vs := by
  simp only [ellV, List.map_cons, List.prod_cons, List.map_nil, List.prod_nil]
  ring

theorem dropV_cons (k : ℕ) (v : TermV wm) (vs : List (TermV wm)) : dropV k (v :: vs) = (v.1, v.2.drop k) :: dropV k vs := rfl
theorem dropV_single (k : ℕ) (v : TermV wm) : dropV k [v] = [(v.1, v.2.drop k)] := rfl

theorem bnLoopV_cons (ds : List ℤ) : ∀ (first : Bool) (x y : Fq12 wm .bn256) (v : TermV wm) (vs : List (TermV wm)),
    bnLoopV first (x * y) (v :: vs) ds = bnLoopV first x [v] ds * bnLoopV first y vs ds := by
  induction ds with
  | nil => intros; rfl
  | cons d ds ih =>
    intro first x y v vs
    have e : (if first then x * y else x * y * (x * y)) = (if first then x else x * x) * (if first then y else y * y) := by
      cases first
      · simp only [Bool.false_eq_true, if_false]; ring
      · simp
    simp only [bnLoopV]
    split
    · rw [e, dropV_cons, dropV_cons, ellV_cons, ellV_cons, ih, dropV_single, dropV_single]
    · rw [e, dropV_cons, ellV_cons, ih, dropV_single]

theorem blsLoopV_cons (is : List Bool) : ∀ (first : Bool) (x y : Fq12 wm .bls12_381) (v : TermV wm) (vs : List (TermV wm)),
    blsLoopV first (x * y) (v :: vs) is = blsLoopV first x [v] is * blsLoopV first y vs is := by
  induction is with
  | nil => intros; simp only [blsLoopV]
  | cons i is ih =>
    intro first x y v vs
    cases first
    · simp only [blsLoopV]; exact ih _ _ _ _ _
    · simp only [blsLoopV]
      have e : ∀ a b : Fq12 wm .bls12_381, a * b * (a * b) = a * a * (b * b) := fun a b => by ring
      split
      · rw [dropV_cons, dropV_cons, ellV_cons, ellV_cons, e, ih, dropV_single, dropV_single]
      · rw [dropV_cons, ellV_cons, e, ih, dropV_single]

theorem ellV_nil (x : Fq12 wm crv) : ellV x [] = x := by simp [ellV]

theorem bnLoopV_nil (ds : List ℤ) : ∀ first : Bool, bnLoopV first (1 : Fq12 wm .bn256) [] ds = 1 := by
  induction ds with
  | nil => intro _; rfl
  | cons d ds ih =>
    intro first
    have e : (if first then (1 : Fq12 wm .bn256) else 1 * 1) = 1 := by cases first <;> simp
    simp only [bnLoopV]
    rw [e, ellV_nil]
    split <;> simp only [dropV, List.map_nil, ellV_nil, ih]

theorem blsLoopV_nil (is : List Bool) : ∀ first : Bool, blsLoopV first (1 : Fq12 wm .bls12_381) [] is = 1 := by
  induction is with
  | nil => intro _; simp only [blsLoopV]
  | cons i is ih =>
    intro first
    cases first
    · simp only [blsLoopV]; exact ih _
    · simp only [blsLoopV, dropV, List.map_nil, ellV_nil, _root_.mul_one, ih, ite_self]

theorem conj12_mul (x y : Fq12 wm crv) : conj12 (x * y) = conj12 x * conj12 y := by
  ext1
  · simp only [conj12, QuadraticAlgebra.re_mul]; ring
  · simp only [conj12, QuadraticAlgebra.im_mul]; ring

theorem conj12_one : conj12 (1 : Fq12 wm crv) = 1 := by
  ext1
  · rfl
  · exact neg_zero

theorem millerV_nil : millerV crv ([] : List (TermV wm)) = 1 := by
  cases crv
  · simp only [millerV, bnLoopV_nil, dropV, List.map_nil, ellV_nil]
  · simp only [millerV, blsLoopV_nil, dropV, List.map_nil, ellV_nil, conj12_one]

theorem millerV_cons (v : TermV wm) (vs : List (TermV wm)) : millerV crv (v :: vs) = millerV crv [v] * millerV crv vs := by
  cases crv
  · have h := bnLoopV_cons naf_digits true (1 : Fq12 wm .bn256) 1 v vs
    rw [_root_.mul_one] at h
    simp only [millerV]
    rw [h, dropV_cons, dropV_cons, ellV_cons, ellV_cons, dropV_single, dropV_single]
  · have h := blsLoopV_cons (bits64 (BLS_X >>> 1)) false (1 : Fq12 wm .bls12_381) 1 v vs
    rw [_root_.mul_one] at h
    simp only [millerV]
    rw [h, dropV_cons, ellV_cons, conj12_mul, dropV_single]

theorem millerV_prod (vs : List (TermV wm)) : millerV crv vs = (vs.map fun v => millerV crv [v]).prod := by
  induction vs with
  | nil => exact millerV_nil
  | cons v vs ih => rw [millerV_cons, ih, List.map_cons, List.prod_cons]

end list

end Verif
