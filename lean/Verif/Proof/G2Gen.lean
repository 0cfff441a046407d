import Verif.Proof.Ate

/-!
# Points of the second pairing groups

Multiples of points of the twists, computed in Jacobian coordinates on pairs of natural numbers and checked by the kernel.
-/

namespace Verif
open WeierstrassCurve.Affine

/-! ## Kernel arithmetic -/

def sub2 (q : ℕ) (x y : ℕ × ℕ) : ℕ × ℕ := ((x.1 + (q - y.1 % q)) % q, (x.2 + (q - y.2 % q)) % q)
def sml2 (q k : ℕ) (x : ℕ × ℕ) : ℕ × ℕ := (k * x.1 % q, k * x.2 % q)
def nz2 (q : ℕ) (x : ℕ × ℕ) : Bool := !(x.1 % q == 0 && x.2 % q == 0)

abbrev JacN : Type := (ℕ × ℕ) × (ℕ × ℕ) × (ℕ × ℕ)

def dblN (q : ℕ) (p : JacN) : JacN :=
  let x2 := mul2 q p.1 p.1
  let y2 := mul2 q p.2.1 p.2.1
  let xy2 := mul2 q p.1 y2
  let rx := sub2 q (sml2 q 9 (mul2 q x2 x2)) (sml2 q 8 xy2)
  (rx, sub2 q (mul2 q (sub2 q (sml2 q 4 xy2) rx) (sml2 q 3 x2)) (sml2 q 8 (mul2 q y2 y2)), sml2 q 2 (mul2 q p.2.1 p.2.2))

def hN (q : ℕ) (p : JacN) (g : (ℕ × ℕ) × (ℕ × ℕ)) : ℕ × ℕ := sub2 q (mul2 q g.1 (mul2 q p.2.2 p.2.2)) p.1

def addN (q : ℕ) (p : JacN) (g : (ℕ × ℕ) × (ℕ × ℕ)) : JacN :=
  let h := hN q p g
  let s := sml2 q 2 (sub2 q (mul2 q g.2 (mul2 q (mul2 q p.2.2 p.2.2) p.2.2)) p.2.1)
  let h2 := mul2 q h h
  let h3 := mul2 q h2 h
  let rx := sub2 q (sub2 q (mul2 q s s) (sml2 q 4 h3)) (mul2 q (sml2 q 8 h2) p.1)
  (rx, sub2 q (mul2 q s (sub2 q (mul2 q (sml2 q 4 h2) p.1) rx)) (mul2 q (sml2 q 8 h3) p.2.1), sml2 q 2 (mul2 q p.2.2 h))

/-- `p` are the coordinates of `t`, after doubling and adding `g` along the bits. -/
def checkN (q : ℕ) (g t : (ℕ × ℕ) × (ℕ × ℕ)) : List Bool → JacN → Bool
  | [], p => p.1 == mul2 q t.1 (mul2 q p.2.2 p.2.2) && p.2.1 == mul2 q t.2 (mul2 q (mul2 q p.2.2 p.2.2) p.2.2)
  | d :: ds, p =>
    if p.1.1 < q ∧ p.1.2 < q ∧ p.2.2.1 < q ∧ p.2.2.2 < q ∧ nz2 q p.2.1 = true then
      let p' := dblN q p
      if d then if nz2 q (hN q p' g) = true then checkN q g t ds (addN q p' g) else false
      else checkN q g t ds p'
    else false

section
variable {q : ℕ} (hq : 0 < q)
include hq

theorem toFq2_sub (x y : ℕ × ℕ) : toFq2 q (sub2 q x y) = toFq2 q x - toFq2 q y := by
  have h : ∀ k : ℕ, ((q - k % q : ℕ) : ZMod q) = -(k : ZMod q) := fun k => by
    rw [Nat.cast_sub (Nat.mod_lt _ hq).le, ZMod.natCast_self, ZMod.natCast_mod, zero_sub]
  ext
  · show (((x.1 + (q - y.1 % q)) % q : ℕ) : ZMod q) = x.1 - y.1
    rw [ZMod.natCast_mod, Nat.cast_add, h, sub_eq_add_neg]
  · show (((x.2 + (q - y.2 % q)) % q : ℕ) : ZMod q) = x.2 - y.2
    rw [ZMod.natCast_mod, Nat.cast_add, h, sub_eq_add_neg]

omit hq in
theorem natCast_fq2 (k : ℕ) : (k : Fq2 q) = ⟨k, 0⟩ := rfl

omit hq in
theorem toFq2_sml (k : ℕ) (x : ℕ × ℕ) : toFq2 q (sml2 q k x) = (k : Fq2 q) * toFq2 q x := by
  rw [natCast_fq2]
  ext
  · show ((k * x.1 % q : ℕ) : ZMod q) = k * x.1 + -1 * 0 * x.2
    rw [ZMod.natCast_mod]; push_cast; ring
  · show ((k * x.2 % q : ℕ) : ZMod q) = k * x.2 + 0 * x.1 + 0 * 0 * x.2
    rw [ZMod.natCast_mod]; push_cast; ring

omit hq in
theorem toFq2_nz {x : ℕ × ℕ} (h : nz2 q x = true) : toFq2 q x ≠ 0 := by
  intro e
  have h1 : (x.1 : ZMod q) = 0 := congrArg QuadraticAlgebra.re e
  have h2 : (x.2 : ZMod q) = 0 := congrArg QuadraticAlgebra.im e
  rw [ZMod.natCast_eq_zero_iff] at h1 h2
  simp [nz2, Nat.mod_eq_zero_of_dvd h1, Nat.mod_eq_zero_of_dvd h2] at h

def toJac (q : ℕ) (p : JacN) : Jac (Fq2 q) := ⟨toFq2 q p.1, toFq2 q p.2.1, toFq2 q p.2.2⟩

theorem toJac_dbl (p : JacN) : toJac q (dblN q p) = (dblV (toJac q p)).2 := by
  ext1
  all_goals
    simp only [toJac, dblN, dblV, toFq2_sub hq, toFq2_mul hq, toFq2_sml]
    push_cast
    ring

theorem toFq2_h (p : JacN) (g : (ℕ × ℕ) × (ℕ × ℕ)) :
    toFq2 q (hN q p g) = toFq2 q g.1 * (toJac q p).z ^ 2 - (toJac q p).x := by
  simp only [toJac, hN, toFq2_sub hq, toFq2_mul hq]
  ring

theorem toJac_add (p : JacN) (g : (ℕ × ℕ) × (ℕ × ℕ)) :
    toJac q (addN q p g) = (addV (toJac q p) (toFq2 q g.1, toFq2 q g.2)).2 := by
  ext1
  all_goals
    simp only [addN, addV]
    simp only [toJac, toFq2_sub hq, toFq2_mul hq, toFq2_sml, toFq2_h hq]
    push_cast
    ring

end

/-! ## Multiples -/

section generic
variable {K F : Type} [CommRing K] [Field F] [DecidableEq F] {i : K →+* F} {u b : F} {T Q : (curveOver b).Point}

theorem jat_dbl (hi : Function.Injective i) (h2 : (2 : F) ≠ 0) (hu : u ≠ 0) {p : Jac K} (hp : Jat i u p T) (hy : p.y ≠ 0) :
    Jat i u (dblV p).2 (T + T) := by
  refine (dbl_at h2 hu hp ?_).1
  obtain ⟨x, y, h, rfl, hz, hx, hyy⟩ := hp
  have hy' : i p.y ≠ 0 := fun e => hy (hi (e.trans (map_zero i).symm))
  have : y ≠ 0 := by
    rintro rfl
    rw [zero_mul] at hyy
    exact mul_ne_zero hy' (pow_ne_zero 3 hu) hyy
  rw [Point.add_self_of_Y_ne (by
    rw [curveOver_negY]
    intro e
    have : (2 : F) * y = 0 := by linear_combination e
    rcases mul_eq_zero.1 this with h | h
    · exact h2 h
    · contradiction)]
  exact Point.some_ne_zero _

theorem jat_add (hi : Function.Injective i) (h2 : (2 : F) ≠ 0) (hu : u ≠ 0) {p : Jac K} {g : K × K} (hp : Jat i u p T)
    (hg : Aat i u g Q) (hh : g.1 * p.z ^ 2 - p.x ≠ 0) : Jat i u (addV p g).2 (T + Q) := by
  have hp' := hp
  have hg' := hg
  obtain ⟨x, y, h, rfl, hz, hx, hyy⟩ := hp
  obtain ⟨h', rfl⟩ := hg
  have hne : x ≠ i g.1 * u ^ 2 := by
    rintro rfl
    apply hh
    apply hi
    rw [map_sub, map_mul, map_pow, map_zero, sub_eq_zero]
    apply mul_right_cancel₀ (pow_ne_zero 2 hu)
    have hx : i p.x * u ^ 2 = i g.1 * u ^ 2 * i p.z ^ 2 := hx
    rw [hx]; ring
  refine (add_at h2 hu hp' hg' ?_ ?_).1
  · intro e
    simp only [Point.some.injEq] at e
    exact hne e.1
  · intro e
    rw [Point.neg_some] at e
    simp only [Point.some.injEq] at e
    exact hne e.1

theorem jat_eq {p : Jac K} {g : K × K} (hp : Jat i u p T) (hg : Aat i u g Q) (hx : p.x = g.1 * p.z ^ 2)
    (hy : p.y = g.2 * p.z ^ 3) : T = Q := by
  obtain ⟨x, y, h, rfl, hz, ex, ey⟩ := hp
  obtain ⟨h', rfl⟩ := hg
  have hz : i p.z ≠ 0 := hz
  have ex : i p.x * u ^ 2 = x * i p.z ^ 2 := ex
  have ey : i p.y * u ^ 3 = y * i p.z ^ 3 := ey
  rw [hx, map_mul, map_pow] at ex
  rw [hy, map_mul, map_pow] at ey
  simp only [Point.some.injEq]
  constructor
  · apply mul_right_cancel₀ (pow_ne_zero 2 hz); rw [← ex]; ring
  · apply mul_right_cancel₀ (pow_ne_zero 3 hz); rw [← ey]; ring

end generic

section
variable {crv : PairingCurve} {Q T : (pairE crv).Point}

theorem emb_inj : Function.Injective (embHom (pairQ crv) crv) := fun _ _ h =>
  congrArg (fun y : Fq12 (pairQ crv) crv => y.re.c0) h

/-- The number with the binary digits `ds` after the digits of `m`. -/
def bitsVal (m : ℕ) (ds : List Bool) : ℕ := ds.foldl (fun m d => 2 * m + if d then 1 else 0) m

theorem checkN_sound {g t : (ℕ × ℕ) × (ℕ × ℕ)}
    (hg : Aat (embHom (pairQ crv) crv) (untwistU crv) (toFq2 _ g.1, toFq2 _ g.2) Q)
    (ht : Aat (embHom (pairQ crv) crv) (untwistU crv) (toFq2 _ t.1, toFq2 _ t.2) T) (ds : List Bool) : ∀ (m : ℕ) (p : JacN),
    Jat (embHom (pairQ crv) crv) (untwistU crv) (toJac _ p) (m • Q) → checkN (pairQ crv) g t ds p = true →
      bitsVal m ds • Q = T := by
  have hq : 0 < pairQ crv := (Fact.out : (pairQ crv).Prime).pos
  induction ds with
  | nil =>
    intro m p hp h
    simp only [checkN, Bool.and_eq_true, beq_iff_eq] at h
    refine jat_eq hp ht ?_ ?_
    · show toFq2 _ p.1 = toFq2 _ t.1 * toFq2 _ p.2.2 ^ 2
      rw [h.1, toFq2_mul hq, toFq2_mul hq]; ring
    · show toFq2 _ p.2.1 = toFq2 _ t.2 * toFq2 _ p.2.2 ^ 3
      rw [h.2, toFq2_mul hq, toFq2_mul hq, toFq2_mul hq]; ring
  | cons d ds ih =>
    intro m p hp h
    unfold checkN at h
    split at h
    · next hc =>
      have h1 := jat_dbl emb_inj two_ne_zero_12 (untwistU_ne_zero _) hp (toFq2_nz hc.2.2.2.2)
      rw [← toJac_dbl hq, ← two_nsmul, ← mul_nsmul'] at h1
      cases d
      · simp only [Bool.false_eq_true, if_false] at h
        have := ih (2 * m) _ h1 h
        exact this
      · simp only [if_true] at h
        split at h
        · next hc' =>
          have h2 := jat_add emb_inj two_ne_zero_12 (untwistU_ne_zero _) h1 hg (by
            have := toFq2_nz hc'
            rwa [toFq2_h hq] at this)
          rw [← toJac_add hq, ← succ_nsmul] at h2
          exact ih (2 * m + 1) _ h2 h
        · cases h
    · cases h

theorem Aat.frob' {g : Fq2 (pairQ crv) × Fq2 (pairQ crv)} {c d : Fq2 (pairQ crv)}
    (hc : untwistU crv ^ (2 * pairQ crv) = emb12 c * untwistU crv ^ 2)
    (hd : untwistU crv ^ (3 * pairQ crv) = emb12 d * untwistU crv ^ 3)
    (h : Aat (embHom (pairQ crv) crv) (untwistU crv) g Q) :
    Aat (embHom (pairQ crv) crv) (untwistU crv) (conj2 g.1 * c, conj2 g.2 * d) (frobE crv Q) := by
  obtain ⟨h, rfl⟩ := h
  have hf := fun x : Fq2 (pairQ crv) => frob_pow2 (towerOk crv) 1 x
  simp only [Function.iterate_succ, Function.iterate_zero, Function.comp, id, pow_one] at hf
  have e : ∀ (x c : Fq2 (pairQ crv)) (k : ℕ), untwistU crv ^ (k * pairQ crv) = emb12 c * untwistU crv ^ k →
      (embHom (pairQ crv) crv x * untwistU crv ^ k) ^ pairQ crv = embHom (pairQ crv) crv (conj2 x * c) * untwistU crv ^ k := by
    intro x c k hk
    rw [mul_pow, ← pow_mul, hk, ← map_pow, hf, map_mul, ← embHom_apply, _root_.mul_assoc]
  rw [frobE_some]
  exact Aat.mk (e _ _ _ hc) (e _ _ _ hd)

theorem nonsingular_of {x y : Fq12 (pairQ crv) crv} (hy : y ≠ 0) (h : y ^ 2 = x ^ 3 + (pairB crv : Fq12 (pairQ crv) crv)) :
    (pairE crv).Nonsingular x y := by
  rw [nonsingular_iff, equation_iff]
  simp only [pairE, curveOver]
  refine ⟨by linear_combination h, .inr fun e => ?_⟩
  have : (2 : Fq12 (pairQ crv) crv) * y = 0 := by linear_combination e
  rcases mul_eq_zero.1 this with h | h
  · exact two_ne_zero_12 h
  · contradiction

theorem untwist_at {g : Fq2 (pairQ crv) × Fq2 (pairQ crv)} (hy : g.2 ≠ 0)
    (h : (emb12 g.2 * untwistU crv ^ 3) ^ 2 = (emb12 g.1 * untwistU crv ^ 2) ^ 3 + (pairB crv : Fq12 (pairQ crv) crv)) :
    Aat (embHom (pairQ crv) crv) (untwistU crv) g (untwist crv g) := by
  have hn : (pairE crv).Nonsingular (emb12 g.1 * untwistU crv ^ 2) (emb12 g.2 * untwistU crv ^ 3) :=
    nonsingular_of (mul_ne_zero (emb_ne_zero hy) (pow_ne_zero 3 (untwistU_ne_zero crv))) h
  unfold untwist
  rw [dif_pos hn]
  exact ⟨hn, rfl⟩

theorem eq_bn (hu : untwistU crv = w12) {g : Fq2 (pairQ crv) × Fq2 (pairQ crv)}
    (h : xi (pairQ crv) crv * (g.2 * g.2) = xi (pairQ crv) crv * (g.1 * g.1 * g.1) + (pairB crv : Fq2 (pairQ crv))) :
    (emb12 g.2 * untwistU crv ^ 3) ^ 2 = (emb12 g.1 * untwistU crv ^ 2) ^ 3 + (pairB crv : Fq12 (pairQ crv) crv) := by
  have h' := congrArg (embHom (pairQ crv) crv) h
  simp only [map_add, map_mul, map_natCast, embHom_apply] at h'
  have h6 := w12_six (q := pairQ crv) (crv := crv)
  rw [hu, mul_pow, mul_pow, ← pow_mul, ← pow_mul, show 3 * 2 = 6 from rfl, h6]
  linear_combination h'

theorem eq_bls (hu : untwistU crv = w12⁻¹) {g : Fq2 (pairQ crv) × Fq2 (pairQ crv)}
    (h : g.2 * g.2 = g.1 * g.1 * g.1 + (pairB crv : Fq2 (pairQ crv)) * xi (pairQ crv) crv) :
    (emb12 g.2 * untwistU crv ^ 3) ^ 2 = (emb12 g.1 * untwistU crv ^ 2) ^ 3 + (pairB crv : Fq12 (pairQ crv) crv) := by
  have h' := congrArg (embHom (pairQ crv) crv) h
  simp only [map_add, map_mul, map_natCast, embHom_apply] at h'
  have h6 := w12_six (q := pairQ crv) (crv := crv)
  have h0 : (w12 : Fq12 (pairQ crv) crv) ^ 6 ≠ 0 := pow_ne_zero 6 w12_ne_zero
  rw [hu, mul_pow, mul_pow, ← pow_mul, ← pow_mul, show 3 * 2 = 6 from rfl, inv_pow]
  apply mul_right_cancel₀ h0
  rw [_root_.add_mul, inv_mul_cancel_right₀ h0, inv_mul_cancel_right₀ h0, h6]
  linear_combination h'

/-- A point with checked multiples lies in the group. -/
theorem inG2_of {g : (ℕ × ℕ) × (ℕ × ℕ)} {c d : ℕ × ℕ} {ds es : List Bool}
    (hc : untwistU crv ^ (2 * pairQ crv) = emb12 (toFq2 _ c) * untwistU crv ^ 2)
    (hd : untwistU crv ^ (3 * pairQ crv) = emb12 (toFq2 _ d) * untwistU crv ^ 3)
    (hg : Aat (embHom (pairQ crv) crv) (untwistU crv) (toFq2 _ g.1, toFq2 _ g.2) Q)
    (h1 : checkN (pairQ crv) g (g.1, sub2 (pairQ crv) (0, 0) g.2) ds (g.1, g.2, (1, 0)) = true)
    (h1' : bitsVal 1 ds + 1 = pairR crv)
    (h2 : checkN (pairQ crv) g (mul2 (pairQ crv) (conjP (pairQ crv) g.1) c, mul2 (pairQ crv) (conjP (pairQ crv) g.2) d) es
      (g.1, g.2, (1, 0)) = true)
    (h2' : bitsVal 1 es = pairQ crv % pairR crv) : InG2 crv Q := by
  have hq : 0 < pairQ crv := (Fact.out : (pairQ crv).Prime).pos
  have hs : Jat (embHom (pairQ crv) crv) (untwistU crv) (toJac _ (g.1, g.2, (1, 0))) (1 • Q) := by
    rw [one_nsmul]
    have := hg.jat
    unfold toJac
    rw [toFq2_one]
    exact this
  have hneg : Aat (embHom (pairQ crv) crv) (untwistU crv) (toFq2 _ g.1, toFq2 _ (sub2 (pairQ crv) (0, 0) g.2)) (-Q) := by
    have := hg.neg
    rw [toFq2_sub hq, show toFq2 (pairQ crv) (0, 0) = 0 from by ext <;> simp [toFq2], zero_sub]
    exact this
  have hfr := hg.frob' hc hd
  have e1 := checkN_sound hg hneg ds 1 _ hs h1
  have hord : pairR crv • Q = 0 := by rw [← h1', succ_nsmul, e1, neg_add_cancel]
  have e2 := checkN_sound (T := frobE crv Q)
    (t := (mul2 (pairQ crv) (conjP (pairQ crv) g.1) c, mul2 (pairQ crv) (conjP (pairQ crv) g.2) d)) hg (by
      rw [toFq2_mul hq, toFq2_mul hq, toFq2_conj hq, toFq2_conj hq]
      exact hfr) es 1 _ hs h2
  refine ⟨hg.ne_zero, hord, ?_⟩
  have key : ∀ a b : ℕ, b • Q = 0 → (a % b) • Q = a • Q := fun a b hb => by
    conv_rhs => rw [← Nat.mod_add_div a b, add_nsmul, mul_nsmul, hb, nsmul_zero, _root_.add_zero]
  rw [← e2, h2']
  exact key _ _ hord

end

/-! ## The generators -/

/-- The binary digits of a number after the first. -/
def tailBits (m : ℕ) : List Bool := (Nat.bits m).reverse.tail

def bnG2 : (ℕ × ℕ) × (ℕ × ℕ) :=
  ((10857046999023057135944570762232829481370756359578518086990519993285655852781,
    11559732032986387107991004021392285783925812861821192530917403151452391805634),
   (8495653923123431417604973247489272438418190587263600148770280649306958101930,
    4082367875863433681332203403145435568316851327593401208105741076214120093531))

def blsG2 : (ℕ × ℕ) × (ℕ × ℕ) :=
  ((0x024aa2b2f08f0a91260805272dc51051c6e47ad4fa403b02b4510b647ae3d1770bac0326a805bbefd48056c8c121bdb8,
    0x13e02b6052719f607dacd3a088274f65596bd0d09920b61ab5da61bbdc7f5049334cf11213945d57e5ac7d055d042b7e),
   (0x0ce5d527727d6e118cc9cdc6da2e351aadfd9baa8cbdd3a76d429a695160d12c923ac9cc3baca289e193548608b82801,
    0x0606c4a02ea734cc32acd2b02bc28b99cb3e287e85a763af267492ab572e99ab3f370d275cec1da1aaa9075ff05f79be))

/-- The generator of the second group of each curve, on the twist. -/
def genG2 : (crv : PairingCurve) → (ℕ × ℕ) × (ℕ × ℕ)
  | .bn256 => bnG2
  | .bls12_381 => blsG2

end Verif
