import Verif.Proof.AteMath
import Verif.Proof.PairingLoop

/-!
# The Miller loops compute the Miller function of the optimal ate pairing, up to factors killed by the exponentiation
-/

namespace Verif
open WeierstrassCurve.Affine

/-! ## Equality up to factors killed by `N` -/

/-- `a` and `b` differ by a factor whose `N`-th power is 1. -/
def Sim {F : Type} [Field F] (N : ℕ) (a b : F) : Prop := ∃ k, k ^ N = 1 ∧ a = k * b

section sim
variable {F : Type} [Field F] {N : ℕ} {a b c d : F}

theorem Sim.refl (a : F) : Sim N a a := ⟨1, one_pow _, (_root_.one_mul _).symm⟩

theorem Sim.mul (h : Sim N a b) (h' : Sim N c d) : Sim N (a * c) (b * d) := by
  obtain ⟨k, hk, rfl⟩ := h
  obtain ⟨k', hk', rfl⟩ := h'
  exact ⟨k * k', by rw [mul_pow, hk, hk', _root_.one_mul], by ring⟩

theorem Sim.sq (h : Sim N a b) : Sim N (a * a) (b ^ 2) := by rw [_root_.sq]; exact h.mul h

theorem Sim.pow_eq (h : Sim N a b) : a ^ N = b ^ N := by
  obtain ⟨k, hk, rfl⟩ := h
  rw [mul_pow, hk, _root_.one_mul]

end sim

/-! ## The tower -/

section
variable {q : ℕ} {crv : PairingCurve}

/-- `Fq2` in `Fq12`. -/
def embHom (q : ℕ) (crv : PairingCurve) : Fq2 q →+* Fq12 q crv where
  toFun := emb12
  map_one' := rfl
  map_zero' := rfl
  map_add' x y := by ext <;> simp [emb12]
  map_mul' x y := by ext <;> simp [emb12]

theorem v_c0 {R : Type} [CommRing R] {ξ : R} : (Cubic.v : Cubic R ξ).c0 = 0 := rfl
theorem v_c1 {R : Type} [CommRing R] {ξ : R} : (Cubic.v : Cubic R ξ).c1 = 1 := rfl
theorem v_c2 {R : Type} [CommRing R] {ξ : R} : (Cubic.v : Cubic R ξ).c2 = 0 := rfl

theorem w12_sq : (w12 : Fq12 q crv) ^ 2 = ⟨⟨0, 1, 0⟩, 0⟩ := by
  rw [_root_.sq]; ext <;> simp [w12] <;> rfl

theorem w12_cube : (w12 : Fq12 q crv) ^ 3 = ⟨0, ⟨0, 1, 0⟩⟩ := by
  rw [pow_succ, w12_sq]; ext <;> simp [w12] <;> rfl

theorem w12_six : (w12 : Fq12 q crv) ^ 6 = emb12 (xi q crv) := by
  rw [show 6 = 3 * 2 from rfl, pow_mul, w12_cube, _root_.sq]; ext <;> simp [emb12, v_c0, v_c1, v_c2]

end

section
variable {crv : PairingCurve}

theorem w12_ne_zero : (w12 : Fq12 (pairQ crv) crv) ≠ 0 := fun h =>
  one_ne_zero (congrArg (fun y : Fq12 (pairQ crv) crv => y.im.c0.re) h)

theorem untwistU_ne_zero : ∀ crv, untwistU crv ≠ 0
  | .bn256 => w12_ne_zero
  | .bls12_381 => inv_ne_zero w12_ne_zero

/-- A point over `Fq`, over `Fq12`. -/
def embP (P : ZMod (pairQ crv) × ZMod (pairQ crv)) : Fq12 (pairQ crv) crv × Fq12 (pairQ crv) crv := (embQ P.1, embQ P.2)

theorem two_ne_zero_12 : (2 : Fq12 (pairQ crv) crv) ≠ 0 := fun h =>
  two_ne_zero_q (towerOk crv) (by
    have e : (2 : Fq12 (pairQ crv) crv) = 1 + 1 := by norm_num
    rw [e] at h
    have := congrArg (fun y : Fq12 (pairQ crv) crv => y.re.c0.re) h
    have e' : (2 : ZMod (pairQ crv)) = 1 + 1 := by norm_num
    rw [e']
    exact this)

/-- The factor by which the code's line values differ from the untwisted ones. -/
noncomputable def twistS : (crv : PairingCurve) → Fq12 (pairQ crv) crv
  | .bn256 => 1
  | .bls12_381 => w12 ^ 3

theorem twistS_bn : twistS .bn256 = 1 := rfl
theorem twistS_bls : twistS .bls12_381 = w12 ^ 3 := rfl
theorem untwistU_bn : untwistU .bn256 = w12 := rfl
theorem untwistU_bls : untwistU .bls12_381 = w12⁻¹ := rfl
theorem embHom_apply {q : ℕ} (x : Fq2 q) : embHom q crv x = emb12 x := rfl

theorem evLine_bn {q : ℕ} (l : Line (Fq2 q)) (P : ZMod q × ZMod q) :
    evLine .bn256 l P = emb12 l.c0 * embQ P.2 + emb12 l.c1 * w12 * embQ P.1 + emb12 l.c2 * w12 ^ 3 := by
  rw [w12_cube]
  ext <;> simp [evLine, emb12, embQ, w12, v_c0, v_c1, v_c2]

theorem evLine_bls {q : ℕ} (l : Line (Fq2 q)) (P : ZMod q × ZMod q) :
    evLine .bls12_381 l P = emb12 l.c0 * embQ P.2 * w12 ^ 3 + emb12 l.c1 * w12 ^ 2 * embQ P.1 + emb12 l.c2 := by
  rw [w12_cube, w12_sq]
  ext <;> simp [evLine, emb12, embQ, v_c0, v_c1, v_c2]

theorem evLine_eq (l : Line (Fq2 (pairQ crv))) (P : ZMod (pairQ crv) × ZMod (pairQ crv)) :
    evLine crv l P = twistS crv * lev (embHom (pairQ crv) crv) (untwistU crv) l (embP P) := by
  cases crv
  · rw [evLine_bn, twistS_bn, _root_.one_mul, lev, untwistU_bn]
    simp only [embHom_apply, embP]
  · rw [evLine_bls, twistS_bls, lev, untwistU_bls]
    have hw := w12_ne_zero (crv := .bls12_381)
    simp only [embHom_apply, embP]
    field_simp

theorem unit_pow {x : Fq12 (pairQ crv) crv} (hx : x ≠ 0) : x ^ (pairQ crv ^ 12 - 1) = 1 :=
  pow_card (towerOk crv) (((C38_tower_is_field crv).2.2 x).2 hx)

theorem exponent_dvd (crv : PairingCurve) : 2 * (pairQ crv ^ 2 - 1) ∣ finalExponent crv := by
  cases crv <;> decide +kernel

theorem emb_ne_zero {x : Fq2 (pairQ crv)} (hx : x ≠ 0) : (embHom (pairQ crv) crv x) ≠ 0 := fun h =>
  hx (congrArg (fun y : Fq12 (pairQ crv) crv => y.re.c0) h)

theorem emb_pow_card {x : Fq2 (pairQ crv)} (hx : x ≠ 0) : (embHom (pairQ crv) crv x) ^ (pairQ crv ^ 2 - 1) = 1 := by
  rw [← map_pow]
  have h := frob_pow2 (towerOk crv) 2 x
  simp only [Function.iterate_succ, Function.iterate_zero, Function.comp, id, conj2_conj2] at h
  have hu := ((C38_tower_is_field crv).1 x).2 hx
  have hp : 1 ≤ pairQ crv ^ 2 := Nat.one_le_pow _ _ (Fact.out : (pairQ crv).Prime).pos
  have : x * x ^ (pairQ crv ^ 2 - 1) = x * 1 := by rw [← pow_succ', Nat.sub_add_cancel hp, h, _root_.mul_one]
  rw [hu.mul_left_cancel this, map_one]

theorem emb_pow {x : Fq2 (pairQ crv)} (hx : x ≠ 0) : (embHom (pairQ crv) crv x) ^ finalExponent crv = 1 := by
  obtain ⟨k, hk⟩ := exponent_dvd crv
  rw [hk, Nat.mul_comm 2, Nat.mul_assoc, pow_mul, emb_pow_card hx, one_pow]

theorem xi_ne_zero (crv : PairingCurve) : xi (pairQ crv) crv ≠ 0 := fun h =>
  norm_xi_ne_zero (towerOk crv) (by rw [h]; simp [norm2])

theorem twistS_pow : (twistS crv) ^ finalExponent crv = 1 := by
  cases crv
  · exact one_pow _
  · obtain ⟨k, hk⟩ := exponent_dvd .bls12_381
    show (w12 ^ 3) ^ _ = _
    have e := emb_pow_card (xi_ne_zero .bls12_381)
    change (emb12 _) ^ _ = _ at e
    rw [hk, ← pow_mul, Nat.mul_assoc 2, ← Nat.mul_assoc 3, pow_mul, w12_six, pow_mul, e, one_pow]

theorem evLine_sim {l : Line (Fq2 (pairQ crv))} {v : Fq12 (pairQ crv) crv} {P : ZMod (pairQ crv) × ZMod (pairQ crv)}
    (h0 : embHom (pairQ crv) crv l.c0 ≠ 0)
    (h : lev (embHom (pairQ crv) crv) (untwistU crv) l (embP P) = embHom (pairQ crv) crv l.c0 * v) :
    Sim (finalExponent crv) (evLine crv l P) v := by
  refine ⟨twistS crv * embHom (pairQ crv) crv l.c0, ?_, ?_⟩
  · rw [mul_pow, twistS_pow, emb_pow (fun e => h0 (by rw [e, map_zero])), _root_.one_mul]
  · rw [evLine_eq, h, _root_.mul_assoc]

end

/-! ## Loops over one pair -/

section
variable {q : ℕ} {crv : PairingCurve}

theorem ellV_one (x : Fq12 q crv) (P : ZMod q × ZMod q) (l : Line (Fq2 q)) (ls : List (Line (Fq2 q))) :
    ellV x [(P, l :: ls)] = x * evLine crv l P := by simp [ellV, headV]

theorem dropV_one (P : ZMod q × ZMod q) (l : Line (Fq2 q)) (ls : List (Line (Fq2 q))) : dropV 1 [(P, l :: ls)] = [(P, ls)] := rfl
theorem dropV_two (P : ZMod q × ZMod q) (l l' : Line (Fq2 q)) (ls : List (Line (Fq2 q))) :
    dropV 2 [(P, l :: l' :: ls)] = [(P, ls)] := rfl

end

/-- No exceptional case occurs for the multiples of a point of order `r`. -/
def goodDigits (r : ℕ) : ℤ → List ℤ → Bool
  | _, [] => true
  | m, d :: ds => decide ((2 * m) % r ≠ 0) &&
    (if d = 0 then goodDigits r (2 * m) ds
     else decide ((2 * m - d) % r ≠ 0) && decide ((2 * m + d) % r ≠ 0) && goodDigits r (2 * m + d) ds)

theorem bnFold_acc {K : Type} [CommRing K] (q nq : K × K) (ds : List ℤ) : ∀ (ls : List (Line K)) (p : Jac K),
    ds.foldl (bnPrepStepV q nq) (ls, p) =
      (ls ++ (ds.foldl (bnPrepStepV q nq) ([], p)).1, (ds.foldl (bnPrepStepV q nq) ([], p)).2) := by
  induction ds with
  | nil => intro ls p; simp
  | cons d ds ih =>
    intro ls p
    simp only [List.foldl_cons]
    have e : bnPrepStepV q nq (ls, p) d = (ls ++ (bnPrepStepV q nq ([], p) d).1, (bnPrepStepV q nq ([], p) d).2) := by
      simp only [bnPrepStepV]
      split_ifs <;> simp
    rw [e, ih, ih (bnPrepStepV q nq ([], p) d).1]
    simp

section order
variable {F : Type} [Field F] [DecidableEq F] {W : WeierstrassCurve.Affine F} {Q : W.Point} {r : ℕ}

theorem zsmul_ne_zero_of (hr : r.Prime) (h0 : Q ≠ 0) (h : r • Q = 0) {k : ℤ} (hk : k % r ≠ 0) : k • Q ≠ 0 := by
  intro e
  have ho : addOrderOf Q = r := (addOrderOf_eq_prime (hp := ⟨hr⟩) h h0)
  have := addOrderOf_dvd_iff_zsmul_eq_zero.2 e
  rw [ho] at this
  exact hk (Int.emod_eq_zero_of_dvd this)

theorem ne_of (hr : r.Prime) (h0 : Q ≠ 0) (h : r • Q = 0) {k l : ℤ} (hk : (k - l) % r ≠ 0) : k • Q ≠ l • Q := by
  intro e
  refine zsmul_ne_zero_of hr h0 h hk ?_
  rw [sub_zsmul, e, add_neg_cancel]

end order

section bn
local notation "bnW" => pairE PairingCurve.bn256
variable {Q : (pairE .bn256).Point} {q : Fq2 (pairQ .bn256) × Fq2 (pairQ .bn256)} {P : ZMod (pairQ .bn256) × ZMod (pairQ .bn256)}

local notation "bnE" => embHom (pairQ PairingCurve.bn256) PairingCurve.bn256
local notation "bnU" => untwistU PairingCurve.bn256

theorem bn_loop (hq : Aat bnE bnU q Q) (hQ : bnR • Q = 0) (ds : List ℤ) :
    ∀ (first : Bool) (X f : Fq12 (pairQ .bn256) .bn256) (m : ℤ) (p : Jac (Fq2 (pairQ .bn256))) (rest : List (Line (Fq2 (pairQ .bn256)))),
      (∀ d ∈ ds, d = 0 ∨ d = 1 ∨ d = -1) → (first → f = 1) → Sim (finalExponent .bn256) X f → Jat bnE bnU p (m • Q) →
      goodDigits bnR m ds →
      Sim (finalExponent .bn256) (bnLoopV first X [(P, (ds.foldl (bnPrepStepV q (q.1, -q.2)) ([], p)).1 ++ rest)] ds)
        (ds.foldl (millerStep Q (embP (crv := .bn256) P)) (f, m • Q)).1 ∧
      Jat bnE bnU (ds.foldl (bnPrepStepV q (q.1, -q.2)) ([], p)).2
        (ds.foldl (millerStep Q (embP (crv := .bn256) P)) (f, m • Q)).2 ∧
      (ds.foldl (millerStep Q (embP (crv := .bn256) P)) (f, m • Q)).2 = (ds.foldl (fun m d => 2 * m + d) m) • Q := by
  have hr : bnR.Prime := Fact.out
  have h2 : (2 : Fq12 (pairQ .bn256) .bn256) ≠ 0 := two_ne_zero_12
  have hu : bnU ≠ 0 := untwistU_ne_zero _
  induction ds with
  | nil => exact fun first X f m p rest _ _ hX hp _ => ⟨hX, hp, rfl⟩
  | cons d ds ih =>
    intro first X f m p rest hds hf hX hp hg
    have hds' := fun e h => hds e (List.mem_cons_of_mem _ h)
    simp only [goodDigits, Bool.and_eq_true, decide_eq_true_eq] at hg
    obtain ⟨hg1, hg2⟩ := hg
    have hdd : m • Q + m • Q = (2 * m) • Q := by rw [← add_zsmul, two_mul]
    have hT : m • Q + m • Q ≠ 0 := by rw [hdd]; exact zsmul_ne_zero_of hr hq.ne_zero hQ hg1
    obtain ⟨hj, hc, hl⟩ := dbl_at h2 hu hp hT
    have hX2 : Sim (finalExponent .bn256) ((if first then X else X * X) * evLine .bn256 (dblV p).1 P)
        (f ^ 2 * lineAt (m • Q) (m • Q) (embP P)) := by
      refine Sim.mul ?_ (evLine_sim hc (hl _))
      cases first
      · exact hX.sq
      · rw [hf rfl, one_pow]; rw [hf rfl] at hX; exact hX
    rw [hdd] at hj
    simp only [List.foldl_cons]
    by_cases hd : d = 0
    · subst hd
      rw [if_pos rfl] at hg2
      have e1 : bnPrepStepV q (q.1, -q.2) ([], p) 0 = ([(dblV p).1], (dblV p).2) := by simp [bnPrepStepV]
      have e2 : millerStep Q (embP (crv := .bn256) P) (f, m • Q) 0 =
          (f ^ 2 * lineAt (m • Q) (m • Q) (embP P), (2 * m) • Q) := by simp [millerStep, hdd]
      rw [e1, e2, bnFold_acc, _root_.add_zero]
      have := ih false _ _ (2 * m) (dblV p).2 rest hds' (by simp) hX2 hj hg2
      simpa only [bnLoopV, List.singleton_append, List.cons_append, List.append_assoc, ellV_one, dropV_one,
        show ¬ ((0 : ℤ) = 1 ∨ (0 : ℤ) = -1) by decide, if_false, List.nil_append] using this
    · rw [if_neg hd] at hg2
      simp only [Bool.and_eq_true, decide_eq_true_eq] at hg2
      obtain ⟨⟨hg3, hg4⟩, hg5⟩ := hg2
      have hd1 : d = 1 ∨ d = -1 := (hds d List.mem_cons_self).resolve_left hd
      have hdq : Aat bnE bnU (if d = 1 then q else (q.1, -q.2)) (d • Q) := by
        rcases hd1 with rfl | rfl
        · rw [if_pos rfl, one_zsmul]; exact hq
        · rw [if_neg (by decide), neg_zsmul, one_zsmul]; exact hq.neg
      obtain ⟨ha, hc', hl'⟩ := add_at h2 hu hj hdq (ne_of hr hq.ne_zero hQ hg3)
        (by rw [← neg_zsmul]; exact ne_of hr hq.ne_zero hQ (by rwa [sub_neg_eq_add]))
      rw [← add_zsmul] at ha
      have e1 : bnPrepStepV q (q.1, -q.2) ([], p) d =
          ([(dblV p).1] ++ [(addV (dblV p).2 (if d = 1 then q else (q.1, -q.2))).1],
            (addV (dblV p).2 (if d = 1 then q else (q.1, -q.2))).2) := by
        rcases hd1 with rfl | rfl <;> simp [bnPrepStepV]
      have e2 : millerStep Q (embP (crv := .bn256) P) (f, m • Q) d =
          (f ^ 2 * lineAt (m • Q) (m • Q) (embP P) * lineAt ((2 * m) • Q) (d • Q) (embP P), (2 * m + d) • Q) := by
        simp [millerStep, hdd, hd, add_zsmul]
      rw [e1, e2, bnFold_acc]
      have := ih false _ _ (2 * m + d) _ rest hds' (by simp) (hX2.mul (evLine_sim (P := P) hc' (hl' _))) ha hg5
      simpa only [bnLoopV, List.singleton_append, List.cons_append, List.append_assoc, ellV_one, dropV_one, dropV_two, hd1,
        if_true, List.nil_append] using this

end bn

end Verif
