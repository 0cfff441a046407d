import Verif.Proof.G2Gen

/-!
# The pairing at the opposite point

For points on which the conjugation of `Fq12` over `Fq6` acts as `-1` the line at `-P` is, up to sign, the conjugate of the
line at `P`.
-/

namespace Verif
open WeierstrassCurve.Affine

set_option linter.unusedSectionVars false

section
variable {F : Type} [Field F] [DecidableEq F] {b : F} {σ : F →+* F}

/-- `σ` acts as `-1` on the point. -/
def Anti (σ : F →+* F) (S : (curveOver b).Point) : Prop := ∀ x y h, S = Point.some x y h → σ x = x ∧ σ y = -y

theorem slope_neg (x x' y y' : F) : (curveOver b).slope x x' (-y) (-y') = -(curveOver b).slope x x' y y' := by
  have n : ∀ x y : F, (curveOver b).negY x y = -y := fun x y => by simp [negY, curveOver]
  by_cases h1 : x = x'
  · by_cases h2 : y = -y'
    · rw [slope_of_Y_eq h1 (by rw [n, h2]), slope_of_Y_eq h1 (by rw [n, h2]), neg_zero]
    · rw [slope_of_Y_ne h1 (by rw [n]; exact fun e => h2 (neg_injective e)), slope_of_Y_ne h1 (by rw [n]; exact h2), n, n,
        show -y - - -y = -(y - -y) by ring, div_neg]
      simp [curveOver]
  · rw [slope_of_X_ne h1, slope_of_X_ne h1, show -y - -y' = -(y - y') by ring, neg_div]

theorem slope_anti (hb : σ b = b) {x x' y y' : F} (hx : σ x = x) (hx' : σ x' = x') (hy : σ y = -y) (hy' : σ y' = -y') :
    σ ((curveOver b).slope x x' y y') = -(curveOver b).slope x x' y y' := by
  have hs := map_slope (W := curveOver b) σ x x' y y'
  have e : (curveOver b).map σ = curveOver b := by ext <;> simp [curveOver, hb]
  rw [e, hx, hx', hy, hy', slope_neg] at hs
  exact hs.symm

theorem Anti.zero : Anti σ (0 : (curveOver b).Point) := fun x y h e => by cases e

theorem Anti.add (hb : σ b = b) {S T : (curveOver b).Point} (hS : Anti σ S) (hT : Anti σ T) : Anti σ (S + T) := by
  cases S with
  | zero => rw [← Point.zero_def, _root_.zero_add]; exact hT
  | some x y h =>
    cases T with
    | zero => rw [← Point.zero_def, _root_.add_zero]; exact hS
    | some x' y' h' =>
      by_cases hxy : x = x' ∧ y = (curveOver b).negY x' y'
      · rw [Point.add_of_Y_eq hxy.1 hxy.2]; exact Anti.zero
      · rw [Point.add_some hxy]
        obtain ⟨h1, h2⟩ := hS x y h rfl
        obtain ⟨h3, h4⟩ := hT x' y' h' rfl
        have hl := slope_anti hb h1 h3 h2 h4
        intro X Y hn e
        rw [Point.some.injEq] at e
        obtain ⟨rfl, rfl⟩ := e
        generalize (curveOver b).slope x x' y y' = l at hl
        simp only [addX, addY, negAddY, negY, curveOver, map_sub, map_add, map_mul, map_pow, map_neg, map_zero, hl, h1, h2, h3]
        constructor <;> ring

theorem Anti.neg {S : (curveOver b).Point} (hS : Anti σ S) : Anti σ (-S) := by
  cases S with
  | zero => exact Anti.zero
  | some x y h =>
    obtain ⟨h1, h2⟩ := hS x y h rfl
    intro X Y hn e
    rw [Point.neg_some, Point.some.injEq] at e
    obtain ⟨rfl, rfl⟩ := e
    simp only [negY, curveOver, map_sub, map_neg, map_mul, map_zero, h1, h2]
    exact ⟨_root_.trivial, by ring⟩

theorem Anti.zsmul (hb : σ b = b) {S : (curveOver b).Point} (hS : Anti σ S) (m : ℤ) : Anti σ (m • S) := by
  have hn : ∀ k : ℕ, Anti σ (k • S) := fun k => by
    induction k with
    | zero => rw [zero_nsmul]; exact Anti.zero
    | succ k ih => rw [succ_nsmul]; exact ih.add hb hS
  cases m with
  | ofNat k => rw [Int.ofNat_eq_natCast, natCast_zsmul]; exact hn k
  | negSucc k => rw [negSucc_zsmul]; exact (hn _).neg

/-- `v` is the conjugate of `u`, up to sign, and not zero. -/
def Conj (σ : F →+* F) (u v : F) : Prop := u ≠ 0 ∧ v ≠ 0 ∧ (v = σ u ∨ v = -σ u)

theorem Conj.one : Conj σ 1 1 := ⟨one_ne_zero, one_ne_zero, .inl (map_one σ).symm⟩

theorem Conj.mul {u v u' v' : F} (h : Conj σ u v) (h' : Conj σ u' v') : Conj σ (u * u') (v * v') := by
  obtain ⟨h1, h2, h3⟩ := h
  obtain ⟨h1', h2', h3'⟩ := h'
  refine ⟨mul_ne_zero h1 h1', mul_ne_zero h2 h2', ?_⟩
  rw [map_mul]
  rcases h3 with rfl | rfl <;> rcases h3' with rfl | rfl
  · exact .inl rfl
  · exact .inr (by ring)
  · exact .inr (by ring)
  · exact .inl (by ring)

theorem Conj.inv {u v : F} (h : Conj σ u v) : Conj σ u⁻¹ v⁻¹ := by
  obtain ⟨h1, h2, h3⟩ := h
  refine ⟨inv_ne_zero h1, inv_ne_zero h2, ?_⟩
  rw [map_inv₀]
  rcases h3 with rfl | rfl
  · exact .inl rfl
  · exact .inr (by rw [inv_neg])

theorem Conj.line (hb : σ b = b) (h2 : (2 : F) ≠ 0) {S T : (curveOver b).Point} (hS : Anti σ S) (hT : Anti σ T) {P : F × F}
    (hP1 : σ P.1 = P.1) (hP2 : σ P.2 = P.2) (hP : P.2 ≠ 0) :
    Conj σ (lineAt S T P) (lineAt S T (P.1, -P.2)) := by
  cases S with
  | zero => exact Conj.one
  | some x y h =>
    cases T with
    | zero => exact Conj.one
    | some x' y' h' =>
      obtain ⟨h1, h2'⟩ := hS x y h rfl
      obtain ⟨h3, h4⟩ := hT x' y' h' rfl
      have hl := slope_anti hb h1 h3 h2' h4
      have e : lineAt (Point.some x y h) (Point.some x' y' h') P = (P.2 - y) - (curveOver b).slope x x' y y' * (P.1 - x) := rfl
      have e' : lineAt (Point.some x y h) (Point.some x' y' h') (P.1, -P.2) =
        (-P.2 - y) - (curveOver b).slope x x' y y' * (P.1 - x) := rfl
      rw [e, e']
      generalize (curveOver b).slope x x' y y' = l at hl
      have hs : σ (P.2 - y - l * (P.1 - x)) = P.2 + y + l * (P.1 - x) := by
        simp only [map_sub, map_mul, hl, h1, h2', hP1, hP2]; ring
      have hne : P.2 - y - l * (P.1 - x) ≠ 0 := by
        intro h0
        rw [h0, map_zero] at hs
        have : (2 : F) * P.2 = 0 := by linear_combination h0 - hs
        rcases mul_eq_zero.1 this with h | h
        · exact h2 h
        · exact hP h
      have e2 : -P.2 - y - l * (P.1 - x) = -σ (P.2 - y - l * (P.1 - x)) := by rw [hs]; ring
      refine ⟨hne, ?_, .inr e2⟩
      rw [e2]
      exact neg_ne_zero.2 ((map_ne_zero σ).2 hne)

theorem Conj.miller (hb : σ b = b) (h2 : (2 : F) ≠ 0) {Q : (curveOver b).Point} (hQ : Anti σ Q) {P : F × F}
    (hP1 : σ P.1 = P.1) (hP2 : σ P.2 = P.2) (hP : P.2 ≠ 0) (ds : List ℤ) {P' : F × F} (hP' : P' = (P.1, -P.2)) :
    Conj σ (miller ds Q P).1 (miller ds Q P').1 ∧ (miller ds Q P).2 = (miller ds Q P').2 ∧ Anti σ (miller ds Q P).2 := by
  subst hP'
  have key : ∀ (ds : List ℤ) (s s' : F × (curveOver b).Point), Conj σ s.1 s'.1 → s.2 = s'.2 → Anti σ s.2 →
      Conj σ (ds.foldl (millerStep Q P) s).1 (ds.foldl (millerStep Q (P.1, -P.2)) s').1 ∧
      (ds.foldl (millerStep Q P) s).2 = (ds.foldl (millerStep Q (P.1, -P.2)) s').2 ∧
      Anti σ (ds.foldl (millerStep Q P) s).2 := by
    intro ds
    induction ds with
    | nil => exact fun s s' h h' h'' => ⟨h, h', h''⟩
    | cons d ds ih =>
      intro s s' h h' h''
      rw [List.foldl_cons, List.foldl_cons]
      have hl : Conj σ (s.1 ^ 2 * lineAt s.2 s.2 P) (s'.1 ^ 2 * lineAt s'.2 s'.2 (P.1, -P.2)) := by
        rw [← h', _root_.sq, _root_.sq]
        exact (h.mul h).mul (.line hb h2 h'' h'' hP1 hP2 hP)
      by_cases hd : d = 0
      · have e : ∀ P s, millerStep Q P s d = (s.1 ^ 2 * lineAt s.2 s.2 P, s.2 + s.2) := fun P s => if_pos hd
        rw [e, e]
        exact ih _ _ hl (by simp only [h']) (h''.add hb h'')
      · have e : ∀ P s, millerStep Q P s d =
          (s.1 ^ 2 * lineAt s.2 s.2 P * lineAt (s.2 + s.2) (d • Q) P, s.2 + s.2 + d • Q) := fun P s => if_neg hd
        rw [e, e]
        refine ih _ _ (hl.mul ?_) (by simp only [h']) ((h''.add hb h'').add hb (hQ.zsmul hb d))
        rw [← h']
        exact .line hb h2 (h''.add hb h'') (hQ.zsmul hb d) hP1 hP2 hP
  exact key ds (1, Q) (1, Q) Conj.one rfl hQ

theorem Conj.line' (hb : σ b = b) (h2 : (2 : F) ≠ 0) {S S' T : (curveOver b).Point} (hS : Anti σ S) (hT : Anti σ T) {P : F × F}
    (hP1 : σ P.1 = P.1) (hP2 : σ P.2 = P.2) (hP : P.2 ≠ 0) {P' : F × F} (hP' : P' = (P.1, -P.2)) (e : S = S') :
    Conj σ (lineAt S T P) (lineAt S' T P') := by
  rw [hP', ← e]
  exact .line hb h2 hS hT hP1 hP2 hP

end

section
variable {crv : PairingCurve}

/-- The conjugation as a homomorphism. -/
def conjHom (q : ℕ) (crv : PairingCurve) : Fq12 q crv →+* Fq12 q crv where
  toFun := conj12
  map_one' := conj12_one
  map_mul' := conj12_mul
  map_zero' := by ext <;> simp [conj12]
  map_add' x y := by ext <;> simp [conj12] <;> ring

theorem conjHom_apply {q : ℕ} (x : Fq12 q crv) : conjHom q crv x = conj12 x := rfl

theorem conjHom_emb {q : ℕ} (x : Fq2 q) : conjHom q crv (emb12 x) = emb12 x := by
  rw [conjHom_apply, conj12]; ext <;> simp [emb12]

theorem conjHom_w {q : ℕ} : conjHom q crv w12 = -w12 := by
  rw [conjHom_apply, conj12]; ext <;> simp [w12]

theorem conjHom_u : ∀ crv : PairingCurve, conjHom (pairQ crv) crv (untwistU crv) = -untwistU crv
  | .bn256 => conjHom_w
  | .bls12_381 => by rw [untwistU_bls, map_inv₀, conjHom_w, inv_neg]

theorem conjHom_nat {q : ℕ} (b : ℕ) : conjHom q crv (b : Fq12 q crv) = b := map_natCast _ _

theorem anti_of {g : Fq2 (pairQ crv) × Fq2 (pairQ crv)} {Q : (pairE crv).Point}
    (h : Aat (embHom (pairQ crv) crv) (untwistU crv) g Q) : Anti (conjHom (pairQ crv) crv) Q := by
  obtain ⟨h, rfl⟩ := h
  intro x y hn e
  rw [Point.some.injEq] at e
  obtain ⟨rfl, rfl⟩ := e
  rw [map_mul, map_mul, map_pow, map_pow, conjHom_u, embHom_apply, embHom_apply, conjHom_emb, conjHom_emb]
  constructor <;> ring

theorem Conj.pow {u v : Fq12 (pairQ crv) crv} (h : Conj (conjHom (pairQ crv) crv) u v) :
    u ^ finalExponent crv * v ^ finalExponent crv = 1 := by
  obtain ⟨h1, -, h3⟩ := h
  have hN : Even (finalExponent crv) := by cases crv <;> decide +kernel
  have : v ^ finalExponent crv = conj12 u ^ finalExponent crv := by
    rcases h3 with rfl | rfl
    · rfl
    · exact hN.neg_pow _
  rw [this, conj_pow, ← mul_pow, mul_inv_cancel₀ h1, one_pow]

theorem conj_mul12 {σ : Fq12 (pairQ crv) crv →+* Fq12 (pairQ crv) crv} {u v u' v' : Fq12 (pairQ crv) crv} (h : Conj σ u v)
    (h' : Conj σ u' v') : Conj σ (u * u') (v * v') := h.mul h'

theorem ate_neg_of {g : Fq2 (pairQ crv) × Fq2 (pairQ crv)} {Q : (pairE crv).Point}
    (hQ : Aat (embHom (pairQ crv) crv) (untwistU crv) g Q) (hG : InG2 crv Q)
    (hf : (∀ P, ateMiller crv Q P = (miller (loopDigits crv) Q P).1 * lineAt (miller (loopDigits crv) Q P).2 (frobE crv Q) P *
        lineAt ((miller (loopDigits crv) Q P).2 + frobE crv Q) (-frobE crv (frobE crv Q)) P) ∨
      ∀ P, ateMiller crv Q P = (miller (loopDigits crv) Q P).1⁻¹)
    (x y : ZMod (pairQ crv)) (hy : y ≠ 0) :
    ate crv Q (embQ x, embQ y) * ate crv Q (embQ x, embQ (-y)) = 1 := by
  have ha := anti_of hQ
  have hb := conjHom_nat (q := pairQ crv) (crv := crv) (pairB crv)
  have hf1 : Anti (conjHom (pairQ crv) crv) (frobE crv Q) := by
    rw [hG.frob, ← natCast_zsmul]; exact ha.zsmul hb _
  have hf2 : Anti (conjHom (pairQ crv) crv) (-frobE crv (frobE crv Q)) := by
    have e := (frobHom crv).map_nsmul (pairQ crv) Q
    rw [show frobE crv (frobE crv Q) = pairQ crv • frobE crv Q from by
      conv_lhs => rw [hG.frob]
      exact e, ← natCast_zsmul]
    exact (hf1.zsmul hb _).neg
  have he : (embQ (-y) : Fq12 (pairQ crv) crv) = -embQ y := by ext <;> simp [embQ, emb12]
  have hP1 : conjHom (pairQ crv) crv (embQ x) = embQ x := conjHom_emb _
  have hP2 : conjHom (pairQ crv) crv (embQ y) = embQ y := conjHom_emb _
  have hP : (embQ y : Fq12 (pairQ crv) crv) ≠ 0 := by
    intro h
    exact hy (congrArg (fun z : Fq12 (pairQ crv) crv => z.re.c0.re) h)
  have hP' : ((embQ x, embQ (-y)) : Fq12 (pairQ crv) crv × Fq12 (pairQ crv) crv) = (embQ x, -embQ y) := by rw [he]
  obtain ⟨m1, m2, m3⟩ := Conj.miller (P := (embQ x, embQ y)) hb two_ne_zero_12 ha hP1 hP2 hP (loopDigits crv) hP'
  apply Conj.pow
  rcases hf with hf | hf
  · rw [hf, hf]
    refine conj_mul12 (conj_mul12 m1 ?_) ?_
    · exact Conj.line' (P := (embQ x, embQ y)) hb two_ne_zero_12 m3 hf1 hP1 hP2 hP hP' m2
    · exact Conj.line' (P := (embQ x, embQ y)) hb two_ne_zero_12 (m3.add hb hf1) hf2 hP1 hP2 hP hP' (by rw [m2])
  · rw [hf, hf]
    exact m1.inv

/-- The pairing at the opposite point is the inverse. -/
theorem ate_neg {g : Fq2 (pairQ crv) × Fq2 (pairQ crv)} {Q : (pairE crv).Point}
    (hQ : Aat (embHom (pairQ crv) crv) (untwistU crv) g Q) (hG : InG2 crv Q) (x y : ZMod (pairQ crv)) (hy : y ≠ 0) :
    ate crv Q (embQ x, embQ y) * ate crv Q (embQ x, embQ (-y)) = 1 := by
  refine ate_neg_of hQ hG ?_ x y hy
  cases crv
  · exact .inl fun P => rfl
  · exact .inr fun P => rfl

/-! ## The generators are in the second group -/

theorem bls_const {k m : ℕ} {c : Fq2 (pairQ crv)} (hu : untwistU crv = w12⁻¹)
    (h : (w12 : Fq12 (pairQ crv) crv) ^ (k * pairQ crv) = emb12 (xi (pairQ crv) crv ^ m) * w12 ^ k)
    (hc : c * xi (pairQ crv) crv ^ m = 1) : untwistU crv ^ (k * pairQ crv) = emb12 c * untwistU crv ^ k := by
  have e : (emb12 c * emb12 (xi (pairQ crv) crv ^ m) : Fq12 (pairQ crv) crv) = 1 := by
    rw [← emb12_mul, hc]; exact map_one (embHom (pairQ crv) crv)
  rw [hu, inv_pow, inv_pow, h, mul_inv]
  rw [eq_inv_of_mul_eq_one_left e]

end

theorem bn_const {k m : ℕ} {t : ℕ × ℕ} (ht : t = pw2 bnQ 400 (9, 1) m (1, 0)) (hm : m < 2 ^ 400)
    (h : (w12 : Fq12 bnQ .bn256) ^ (k * bnQ) = emb12 (xi bnQ .bn256 ^ m) * w12 ^ k) :
    untwistU .bn256 ^ (k * pairQ .bn256) = emb12 (toFq2 (pairQ .bn256) t) * untwistU .bn256 ^ k := by
  have e : toFq2 bnQ t = xi bnQ .bn256 ^ m := by
    rw [ht, pw2_eq (by decide +kernel) 400 _ _ _ hm, toFq2_one, _root_.one_mul, toFq2_xi_bn]
  rw [untwistU_bn]
  exact h.trans (by rw [← e]; rfl)

theorem bls_const' {k m : ℕ} {t : ℕ × ℕ} (ht : mul2 blsQ t (pw2 blsQ 400 (1, 1) m (1, 0)) = (1, 0)) (hm : m < 2 ^ 400)
    (h : (w12 : Fq12 blsQ .bls12_381) ^ (k * blsQ) = emb12 (xi blsQ .bls12_381 ^ m) * w12 ^ k) :
    untwistU .bls12_381 ^ (k * pairQ .bls12_381) = emb12 (toFq2 (pairQ .bls12_381) t) * untwistU .bls12_381 ^ k := by
  refine bls_const untwistU_bls h ?_
  have e := congrArg (toFq2 blsQ) ht
  rwa [toFq2_mul (by decide +kernel), pw2_eq (by decide +kernel) 400 _ _ _ hm, toFq2_one, _root_.one_mul, toFq2_xi_bls] at e

/-- The generator as a pair of elements of `Fq2`. -/
def genQ (crv : PairingCurve) : Fq2 (pairQ crv) × Fq2 (pairQ crv) := (toFq2 _ (genG2 crv).1, toFq2 _ (genG2 crv).2)

def bnFrobC : ℕ × ℕ := pw2 bnQ 400 (9, 1) ((bnQ - 1) / 3) (1, 0)
def bnFrobD : ℕ × ℕ := pw2 bnQ 400 (9, 1) ((bnQ - 1) / 2) (1, 0)
def blsFrobC : ℕ × ℕ := pw2 blsQ 800 (1, 1) (blsQ ^ 2 - 1 - (blsQ - 1) / 3) (1, 0)
def blsFrobD : ℕ × ℕ := pw2 blsQ 800 (1, 1) (blsQ ^ 2 - 1 - (blsQ - 1) / 2) (1, 0)

theorem bn_eq : let g := bnG2
    mul2 bnQ (9, 1) (mul2 bnQ g.2 g.2) = sub2 bnQ (mul2 bnQ (9, 1) (mul2 bnQ (mul2 bnQ g.1 g.1) g.1)) (bnQ - 3, 0) := by
  decide +kernel

theorem bls_eq : let g := blsG2
    mul2 blsQ g.2 g.2 = sub2 blsQ (mul2 blsQ (mul2 blsQ g.1 g.1) g.1) (mul2 blsQ (blsQ - 4, 0) (1, 1)) := by
  decide +kernel

theorem toFq2_neg {q b : ℕ} (h : b ≤ q) : toFq2 q (q - b, 0) = -(b : Fq2 q) := by
  have : (b : Fq2 q) = toFq2 q (b, 0) := by ext <;> simp [toFq2]
  rw [this]
  ext
  · simp [toFq2, Nat.cast_sub h]
  · simp [toFq2]

theorem gen_at : ∀ crv, Aat (embHom (pairQ crv) crv) (untwistU crv) (genQ crv) (untwist crv (genQ crv))
  | .bn256 => by
    refine untwist_at (toFq2_nz (by decide +kernel)) (eq_bn untwistU_bn ?_)
    have e := congrArg (toFq2 bnQ) bn_eq
    have hq : 0 < bnQ := by decide +kernel
    rw [toFq2_mul hq, toFq2_mul hq, toFq2_sub hq, toFq2_mul hq, toFq2_mul hq, toFq2_mul hq, toFq2_neg (by decide +kernel),
      sub_neg_eq_add, toFq2_xi_bn] at e
    exact e
  | .bls12_381 => by
    refine untwist_at (toFq2_nz (by decide +kernel)) (eq_bls untwistU_bls ?_)
    have e := congrArg (toFq2 blsQ) bls_eq
    have hq : 0 < blsQ := by decide +kernel
    rw [toFq2_mul hq, toFq2_sub hq, toFq2_mul hq, toFq2_mul hq, toFq2_mul hq, toFq2_neg (by decide +kernel),
      toFq2_xi_bls, neg_mul, sub_neg_eq_add] at e
    exact e

theorem gen_inG2 : ∀ crv, InG2 crv (untwist crv (genQ crv))
  | .bn256 => inG2_of (g := bnG2) (c := bnFrobC) (d := bnFrobD) (ds := tailBits (bnR - 1)) (es := tailBits (bnQ % bnR))
      (bn_const rfl (by decide +kernel) (w12_pow_two (by decide +kernel)))
      (bn_const rfl (by decide +kernel) (w12_pow_three (by decide +kernel)))
      (gen_at .bn256) (by decide +kernel) (by decide +kernel) (by decide +kernel) (by decide +kernel)
  | .bls12_381 => inG2_of (g := blsG2) (c := blsFrobC) (d := blsFrobD) (ds := tailBits (blsR - 1)) (es := tailBits (blsQ % blsR))
      (bls_const' (m := (blsQ - 1) / 3) (by decide +kernel) (by decide +kernel) (w12_pow_two (by decide +kernel)))
      (bls_const' (m := (blsQ - 1) / 2) (by decide +kernel) (by decide +kernel) (w12_pow_three (by decide +kernel)))
      (gen_at .bls12_381) (by decide +kernel) (by decide +kernel) (by decide +kernel) (by decide +kernel)

end Verif
