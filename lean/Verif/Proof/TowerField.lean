import Mathlib.NumberTheory.LegendreSymbol.Basic
import Mathlib.Tactic.LinearCombination
import Verif.Proof.TowerMath
import Verif.Proof.Tower
import Verif.Proof.Primes

/-!
# The tower is a field; iterated Frobenius maps; the cyclotomic subgroup
-/

namespace Verif

/-- What is used about the modulus and the non-residue. -/
structure TowerOk (q : ℕ) (crv : PairingCurve) : Prop where
  mod4 : q % 4 = 3
  mod3 : q % 3 = 1
  root : (norm2 (xi q crv) ^ ((q - 1) / 6)) ^ 2 - norm2 (xi q crv) ^ ((q - 1) / 6) + 1 = 0

section
variable {q : ℕ} [hq : Fact q.Prime] {crv : PairingCurve}

theorem conj2_mul (x y : Fq2 q) : conj2 (x * y) = conj2 x * conj2 y := by
  ext <;> simp [conj2] <;> ring

theorem conj2_one : conj2 (1 : Fq2 q) = 1 := by
  ext
  · rfl
  · show -(0 : ZMod q) = 0
    simp

theorem conj2_pow (x : Fq2 q) (k : ℕ) : conj2 (x ^ k) = conj2 x ^ k := by
  induction k with
  | zero => simp [conj2_one]
  | succ k ih => rw [pow_succ, conj2_mul, ih, pow_succ]

theorem conj2_conj2 (x : Fq2 q) : conj2 (conj2 x) = x := by ext <;> simp [conj2]

theorem conj2_mul_self (x : Fq2 q) : conj2 x * x = quadOf _ (norm2 x) := by
  ext
  · show x.re * x.re + -1 * -x.im * x.im = x.re ^ 2 + x.im ^ 2
    ring
  · show x.re * x.im + -x.im * x.re + 0 * -x.im * x.im = 0
    ring

theorem norm2_pow (x : Fq2 q) (k : ℕ) : norm2 (x ^ k) = norm2 x ^ k := by
  induction k with
  | zero => simp [norm2_one]
  | succ k ih => rw [pow_succ, norm2_mul, ih, pow_succ]

/-- `ξ ^ ((q ^ k - 1) / 6)`, by recursion. -/
noncomputable def frobD (q : ℕ) [Fact q.Prime] (crv : PairingCurve) : ℕ → Fq2 q
  | 0 => 1
  | k + 1 => conj2 (frobD q crv k) * xi q crv ^ ((q - 1) / 6)

theorem frob12' (h : TowerOk q crv) (x : Fq12 q crv) :
    x ^ q = frobC12 conj2 ((xi q crv ^ ((q - 1) / 6)) ^ 2) ((xi q crv ^ ((q - 1) / 6)) ^ 4)
      (xi q crv ^ ((q - 1) / 6)) x := by
  have h3 := h.mod3
  have h4 := h.mod4
  have e : xi q crv ^ ((q - 1) / 3) = (xi q crv ^ ((q - 1) / 6)) ^ 2 := by
    rw [← pow_mul]; congr 1; omega
  rw [frob12 h4 h3, e, ← pow_mul _ 2 2]

theorem frobC12_comp (φ : Fq2 q → Fq2 q) (hφ : ∀ x, φ x = conj2 x) (ψ : Fq2 q → Fq2 q) (d e : Fq2 q) (x : Fq12 q crv) :
    frobC12 φ (d ^ 2) (d ^ 4) d (frobC12 ψ (e ^ 2) (e ^ 4) e x) =
      frobC12 (fun y => conj2 (ψ y)) ((conj2 e * d) ^ 2) ((conj2 e * d) ^ 4) (conj2 e * d) x := by
  simp only [frobC12, frobC6]
  ext1
  · ext1 <;> simp only [hφ, conj2_mul, conj2_pow] <;> ring
  · ext1 <;> simp [hφ, Cubic.of, conj2_mul, conj2_pow] <;> ring

theorem frob_pow (h : TowerOk q crv) (k : ℕ) (x : Fq12 q crv) :
    x ^ q ^ k = frobC12 (conj2^[k]) (frobD q crv k ^ 2) (frobD q crv k ^ 4) (frobD q crv k) x := by
  induction k with
  | zero =>
    simp only [pow_zero, pow_one, frobD, one_pow, Function.iterate_zero, frobC12, frobC6]
    ext1 <;> ext1 <;> simp [Cubic.of]
  | succ k ih =>
    rw [pow_succ, pow_mul, ih, frob12' h, frobC12_comp _ (fun _ => rfl), frobD, Function.iterate_succ']
    rfl

/-- The closed form. -/
theorem frobD_eq (h : TowerOk q crv) (k : ℕ) : frobD q crv k = xi q crv ^ ((q ^ k - 1) / 6) := by
  have h3 := h.mod3
  have h4 := h.mod4
  have hq6 : ∀ k, q ^ k % 6 = 1 := fun k => by
    rw [Nat.pow_mod, show q % 6 = 1 by omega, one_pow]
    norm_num
  induction k with
  | zero => simp [frobD]
  | succ k ih =>
    rw [frobD, ih, ← frob2 h4, ← pow_mul, ← pow_add]
    congr 1
    obtain ⟨m, hm⟩ : ∃ m, q ^ k = 6 * m + 1 := ⟨q ^ k / 6, by have := hq6 k; omega⟩
    obtain ⟨l, hl⟩ : ∃ l, q = 6 * l + 1 := ⟨q / 6, by omega⟩
    rw [pow_succ, hm]
    have e1 : (6 * m + 1 - 1) / 6 = m := by omega
    have e2 : (q - 1) / 6 = l := by omega
    have e3 : (6 * m + 1) * q - 1 = 6 * (m * q + l) := by
      have : (6 * m + 1) * q = 6 * (m * q) + q := by ring
      omega
    rw [e1, e2, e3]
    omega

/-- `d = ξ ^ ((q² - 1) / 6)`, a primitive sixth root of unity. -/
noncomputable def rootD (q : ℕ) [Fact q.Prime] (crv : PairingCurve) : Fq2 q := frobD q crv 2

theorem rootD_root (h : TowerOk q crv) : rootD q crv ^ 2 - rootD q crv + 1 = 0 := by
  have e : rootD q crv = quadOf _ (norm2 (xi q crv) ^ ((q - 1) / 6)) := by
    rw [rootD, frobD, frobD, frobD, conj2_one, one_mul, conj2_mul_self, norm2_pow]
  rw [e, ← map_pow, ← map_sub, ← map_one (quadOf (-1 : ZMod q)), ← map_add, h.root, map_zero]

theorem frob_two (h : TowerOk q crv) (x : Fq12 q crv) :
    x ^ q ^ 2 = ⟨⟨x.re.c0, x.re.c1 * (rootD q crv - 1), x.re.c2 * -rootD q crv⟩,
      ⟨x.im.c0 * rootD q crv, -x.im.c1, x.im.c2 * (1 - rootD q crv)⟩⟩ := by
  have hd := rootD_root h
  rw [frob_pow h]
  have e : conj2^[2] = (id : Fq2 q → Fq2 q) := by funext x; simp [conj2_conj2]
  rw [e]
  simp only [frobC12, frobC6, show frobD q crv 2 = rootD q crv from rfl]
  generalize rootD q crv = d at hd
  ext1
  · ext1 <;> simp only [id]
    · linear_combination (x.re.c1) * hd
    · linear_combination (x.re.c2 * (d ^ 2 + d)) * hd
  · ext1 <;> simp [Cubic.of]
    · linear_combination (x.im.c1 * (d + 1)) * hd
    · linear_combination (x.im.c2 * (d ^ 3 + d ^ 2 - 1)) * hd

theorem frob_four (h : TowerOk q crv) (x : Fq12 q crv) :
    x ^ q ^ 4 = ⟨⟨x.re.c0, x.re.c1 * -rootD q crv, x.re.c2 * (rootD q crv - 1)⟩,
      ⟨x.im.c0 * (rootD q crv - 1), x.im.c1, x.im.c2 * -rootD q crv⟩⟩ := by
  have hd := rootD_root h
  have e4 : x ^ q ^ 4 = (x ^ q ^ 2) ^ q ^ 2 := by rw [← pow_mul, ← pow_add]
  rw [e4, frob_two h, frob_two h]
  generalize rootD q crv = d at *
  ext1
  · ext1 <;> dsimp only
    · linear_combination x.re.c1 * hd
    · linear_combination x.re.c2 * hd
  · ext1 <;> dsimp only
    · linear_combination x.im.c0 * hd
    · ring
    · linear_combination x.im.c2 * hd

theorem cycSq_eq (h : TowerOk q crv) (x : Fq12 q crv) (hx : x ^ q ^ 4 * x = x ^ q ^ 2) : cycSq x = x * x := by
  have hd := rootD_root h
  rw [frob_four h, frob_two h] at hx
  generalize rootD q crv = d at *
  have hd' : d * (1 - d) = 1 := by linear_combination -hd
  have g1 := congrArg (fun y : Fq12 q crv => y.re.c0) hx
  have g2 := congrArg (fun y : Fq12 q crv => y.im.c0) hx
  have g3 := congrArg (fun y : Fq12 q crv => y.re.c1) hx
  have g4 := congrArg (fun y : Fq12 q crv => y.im.c1) hx
  have g5 := congrArg (fun y : Fq12 q crv => y.re.c2) hx
  have g6 := congrArg (fun y : Fq12 q crv => y.im.c2) hx
  simp only [QuadraticAlgebra.re_mul, QuadraticAlgebra.im_mul] at g1 g2 g3 g4 g5 g6
  simp [Cubic.v] at g1 g2 g3 g4 g5 g6
  clear hx h
  simp only [cycSq, sq4]
  ext1
  · ext1 <;> simp [Cubic.v]
    · linear_combination 2 * g1
    · linear_combination (2 * -d) * g3 -
        (2 * (x.im.c0 ^ 2 + xi q crv * x.re.c2 ^ 2 - x.re.c0 * x.re.c1 - xi q crv * x.im.c1 * x.im.c2 - x.re.c1)) * hd'
    · linear_combination (2 * (d - 1)) * g5 -
        (2 * (x.re.c1 ^ 2 + xi q crv * x.im.c2 ^ 2 - x.re.c0 * x.re.c2 - x.im.c0 * x.im.c1 - x.re.c2)) * hd'
  · ext1 <;> simp [Cubic.v]
    · linear_combination (-2 * (1 - d)) * g2 +
        (2 * (x.re.c0 * x.im.c0 + xi q crv * x.im.c1 * x.re.c2 - 2 * xi q crv * x.re.c1 * x.im.c2 - x.im.c0)) * hd'
    · linear_combination 2 * g4
    · linear_combination (-2 * d) * g6 +
        (2 * (x.re.c0 * x.im.c2 + x.re.c1 * x.im.c1 - 2 * x.im.c0 * x.re.c2 - x.im.c2)) * hd'

/-! ## The tower is a field -/

theorem isUnit2 (h : TowerOk q crv) {x : Fq2 q} (hx : x ≠ 0) : IsUnit x := by
  rw [isUnit_iff2]
  intro h0
  apply hx
  have hs : ¬ IsSquare (-1 : ZMod q) := by
    intro hs
    exact ZMod.exists_sq_eq_neg_one_iff.1 hs h.mod4
  have hi : x.im = 0 := by
    by_contra hi
    apply hs
    refine ⟨x.re / x.im, ?_⟩
    have : x.re * x.re + x.im * x.im = 0 := by rw [← sq, ← sq]; exact h0
    field_simp
    linear_combination -this
  have hr : x.re = 0 := by
    have : x.re ^ 2 + x.im ^ 2 = 0 := h0
    rw [hi] at this
    simpa using this
  ext
  · exact hr
  · exact hi

theorem root_cube (h : TowerOk q crv) : norm2 (xi q crv) ^ ((q - 1) / 2) = -1 := by
  have h3 := h.mod3
  have h4 := h.mod4
  have e : (q - 1) / 2 = (q - 1) / 6 * 3 := by omega
  rw [e, pow_mul]
  have := h.root
  generalize norm2 (xi q crv) ^ ((q - 1) / 6) = d at this
  linear_combination (d + 1) * this

theorem norm_xi_ne_zero (h : TowerOk q crv) : norm2 (xi q crv) ≠ 0 := by
  intro h0
  have := h.root
  have h3 := h.mod3
  have h4 := h.mod4
  rw [h0, zero_pow (by omega)] at this
  simp at this

theorem norm_xi_not_square (h : TowerOk q crv) (y : ZMod q) : norm2 (xi q crv) ≠ y ^ 2 := by
  intro hy
  have h0 := norm_xi_ne_zero h
  have h3 := h.mod3
  have h4 := h.mod4
  have hc := root_cube h
  rw [hy, ← pow_mul, show 2 * ((q - 1) / 2) = q - 1 by omega] at hc
  have hy0 : y ≠ 0 := by rintro rfl; exact h0 (by rw [hy]; simp)
  rw [ZMod.pow_card_sub_one_eq_one hy0] at hc
  have h2 : (2 : ZMod q) = 0 := by linear_combination hc
  have : ((2 : ℕ) : ZMod q) = 0 := by exact_mod_cast h2
  rw [ZMod.natCast_eq_zero_iff] at this
  have := Nat.le_of_dvd (by norm_num) this
  have := hq.out.two_le
  omega

theorem norm_xi_not_cube (h : TowerOk q crv) (y : ZMod q) : norm2 (xi q crv) ≠ y ^ 3 := by
  intro hy
  have h0 := norm_xi_ne_zero h
  have h3 := h.mod3
  have h4 := h.mod4
  have hr := h.root
  have hy0 : y ≠ 0 := by rintro rfl; exact h0 (by rw [hy]; simp)
  have h1 : (norm2 (xi q crv) ^ ((q - 1) / 6)) ^ 2 = 1 := by
    rw [hy, ← pow_mul, ← pow_mul, show 3 * ((q - 1) / 6 * 2) = q - 1 by omega]
    exact ZMod.pow_card_sub_one_eq_one hy0
  generalize norm2 (xi q crv) ^ ((q - 1) / 6) = d at hr h1
  have hd : d = 2 := by linear_combination h1 - hr
  rw [hd] at h1
  have h3' : (3 : ZMod q) = 0 := by linear_combination h1
  have : ((3 : ℕ) : ZMod q) = 0 := by exact_mod_cast h3'
  rw [ZMod.natCast_eq_zero_iff] at this
  have hle := Nat.le_of_dvd (by norm_num) this
  have := hq.out.two_le
  interval_cases q <;> omega

theorem xi_not_cube (h : TowerOk q crv) (y : Fq2 q) : xi q crv ≠ y ^ 3 := fun hy =>
  norm_xi_not_cube h (norm2 y) (by rw [hy, norm2_pow])

theorem eq_zero_of_pow_three (h : TowerOk q crv) {a : Fq2 q} (ha : a ^ 3 = 0) : a = 0 := by
  by_contra h0
  obtain ⟨e, he⟩ := (isUnit2 h h0).exists_right_inv
  have h1 : (1 : Fq2 q) = 0 := by
    linear_combination -(a ^ 2 * e ^ 2 + a * e + 1) * he + e ^ 3 * ha
  exact one_ne_zero (congrArg QuadraticAlgebra.re h1)

theorem norm6_zero_aux (h : TowerOk q crv) {a b : Fq2 q} (h0 : norm6 (⟨a, b, 0⟩ : Fq6 q crv) = 0) : a = 0 ∧ b = 0 := by
  have h0' : a ^ 3 + xi q crv * b ^ 3 = 0 := by
    simp [norm6, cof6] at h0
    linear_combination h0
  have hb : b = 0 := by
    by_contra hb
    obtain ⟨e, he⟩ := (isUnit2 h hb).exists_right_inv
    refine xi_not_cube h (-a * e) ?_
    linear_combination e ^ 3 * h0' - xi q crv * (b ^ 2 * e ^ 2 + b * e + 1) * he
  refine ⟨eq_zero_of_pow_three h ?_, hb⟩
  rw [hb] at h0'
  linear_combination h0'

theorem norm6_zero (h : TowerOk q crv) {x : Fq6 q crv} (h0 : norm6 x = 0) : x = 0 := by
  by_cases hc : x.c2 = 0
  · have ex : (⟨x.c0, x.c1, 0⟩ : Fq6 q crv) = x := by ext1; exacts [rfl, rfl, hc.symm]
    obtain ⟨h1, h2⟩ := norm6_zero_aux h (a := x.c0) (b := x.c1) (crv := crv) (by rw [ex]; exact h0)
    ext1
    exacts [h1, h2, hc]
  · exfalso
    obtain ⟨e, he⟩ := (isUnit2 h hc).exists_right_inv
    have hp : x * ⟨-x.c1 * e, 1, 0⟩ = ⟨x.c0 * (-x.c1 * e) + xi q crv * x.c2, x.c0 + x.c1 * (-x.c1 * e), 0⟩ := by
      ext1 <;> simp
      linear_combination -x.c1 * he
    have hn := norm6_mul x (⟨-x.c1 * e, 1, 0⟩ : Fq6 q crv)
    rw [hp, h0, zero_mul] at hn
    obtain ⟨h1, h2⟩ := norm6_zero_aux h hn
    refine xi_not_cube h (x.c1 * e) ?_
    linear_combination e * h1 + x.c1 * e ^ 2 * h2 - xi q crv * he

theorem isUnit6 (h : TowerOk q crv) {x : Fq6 q crv} (hx : x ≠ 0) : IsUnit x := by
  rw [isUnit_iff6, ← isUnit_iff2]
  exact isUnit2 h fun h0 => hx (norm6_zero h h0)

theorem isUnit12 (h : TowerOk q crv) {x : Fq12 q crv} (hx : x ≠ 0) : IsUnit x := by
  rw [isUnit_iff12, ← isUnit_iff6]
  apply isUnit6 h
  intro h0
  apply hx
  have h0' : x.re * x.re = Cubic.v * (x.im * x.im) := sub_eq_zero.1 h0
  by_cases hi : x.im = 0
  · rw [hi] at h0'
    have hr : x.re = 0 := by
      by_contra hr
      have := (isUnit6 h hr).mul (isUnit6 h hr)
      rw [h0', mul_zero, mul_zero] at this
      obtain ⟨e, he⟩ := this.exists_right_inv
      rw [zero_mul] at he
      exact one_ne_zero (congrArg (fun y : Fq6 q crv => y.c0.re) he.symm)
    ext1
    · exact hr
    · exact hi
  · exfalso
    obtain ⟨u, hu⟩ := (isUnit6 h hi).exists_right_inv
    have hv : (Cubic.v : Fq6 q crv) = (x.re * u) * (x.re * u) := by
      linear_combination (-u * u) * h0' - Cubic.v * (x.im * u + 1) * hu
    have hn := congrArg (fun y => norm2 (norm6 y)) hv
    simp only [norm6_mul, norm2_mul] at hn
    refine norm_xi_not_square h (norm2 (norm6 (x.re * u))) ?_
    rw [sq, norm6_mul, norm2_mul, ← hn]
    congr 1
    simp [norm6, cof6, Cubic.v]

theorem frob_six (h : TowerOk q crv) (x : Fq12 q crv) : x ^ q ^ 6 = ⟨x.re, -x.im⟩ := by
  have hd := rootD_root h
  have e : x ^ q ^ 6 = (x ^ q ^ 4) ^ q ^ 2 := by rw [← pow_mul, ← pow_add]
  rw [e, frob_two h, frob_four h]
  generalize rootD q crv = d at *
  ext1
  · ext1 <;> dsimp only
    · linear_combination -x.re.c1 * hd
    · linear_combination -x.re.c2 * hd
  · ext1 <;> simp
    · linear_combination x.im.c0 * hd
    · linear_combination -x.im.c2 * hd

theorem frob_twelve (h : TowerOk q crv) (x : Fq12 q crv) : x ^ q ^ 12 = x := by
  have e : x ^ q ^ 12 = (x ^ q ^ 6) ^ q ^ 6 := by rw [← pow_mul, ← pow_add]
  rw [e, frob_six h, frob_six h]
  ext1 <;> simp

theorem pow_card (h : TowerOk q crv) {x : Fq12 q crv} (hx : IsUnit x) : x ^ (q ^ 12 - 1) = 1 := by
  have h1 : x ^ (q ^ 12 - 1) * x = 1 * x := by
    rw [← pow_succ, Nat.sub_add_cancel (Nat.one_le_pow _ _ hq.out.pos), frob_twelve h, one_mul]
  exact hx.mul_right_cancel h1

theorem cyc_le (q : ℕ) [hq : Fact q.Prime] : q ^ 2 ≤ q ^ 4 := Nat.pow_le_pow_right hq.out.pos (by norm_num)

theorem cyc_mul (q : ℕ) [hq : Fact q.Prime] : (q ^ 6 - 1) * (q ^ 2 + 1) * (q ^ 4 - q ^ 2 + 1) = q ^ 12 - 1 := by
  have h1 := cyc_le q
  have h2 : 1 ≤ q ^ 6 := Nat.one_le_pow _ _ hq.out.pos
  have h3 : 1 ≤ q ^ 12 := Nat.one_le_pow _ _ hq.out.pos
  zify [h1, h2, h3]
  ring

theorem cyclotomic_of {x : Fq12 q crv} (hx : x ^ (q ^ 4 - q ^ 2 + 1) = 1) : x ^ q ^ 4 * x = x ^ q ^ 2 := by
  have h1 := cyc_le q
  rw [← pow_succ, show q ^ 4 + 1 = (q ^ 4 - q ^ 2 + 1) + q ^ 2 by omega, pow_add, hx, one_mul]

theorem two_ne_zero_q (h : TowerOk q crv) : (2 : ZMod q) ≠ 0 := by
  intro h2
  have : ((2 : ℕ) : ZMod q) = 0 := by exact_mod_cast h2
  rw [ZMod.natCast_eq_zero_iff] at this
  have := Nat.le_of_dvd (by norm_num) this
  have := hq.out.two_le
  have := h.mod4
  omega

theorem three_ne_zero_q (h : TowerOk q crv) : (3 : ZMod q) ≠ 0 := by
  intro h2
  have : ((3 : ℕ) : ZMod q) = 0 := by exact_mod_cast h2
  rw [ZMod.natCast_eq_zero_iff] at this
  have := Nat.le_of_dvd (by norm_num) this
  have := hq.out.two_le
  have := h.mod4
  have := h.mod3
  omega

/-- `(1 + w) ^ ((q⁶ - 1)(q² + 1))` is a non-trivial element of the cyclotomic subgroup. -/
theorem cyc_nontrivial (h : TowerOk q crv) : (⟨1, 1⟩ : Fq12 q crv) ^ ((q ^ 6 - 1) * (q ^ 2 + 1)) ≠ 1 := by
  intro h1
  have hd := rootD_root h
  generalize hx : (⟨1, 1⟩ : Fq12 q crv) = x at h1
  have h6 : 1 ≤ q ^ 6 := Nat.one_le_pow _ _ hq.out.pos
  have e : x ^ q ^ 8 * x ^ q ^ 6 = x ^ q ^ 2 * x := by
    have : x ^ ((q ^ 6 - 1) * (q ^ 2 + 1)) * x ^ (q ^ 2 + 1) = x ^ (q ^ 2 + 1) := by rw [h1, one_mul]
    rw [← pow_add, show (q ^ 6 - 1) * (q ^ 2 + 1) + (q ^ 2 + 1) = q ^ 8 + q ^ 6 by zify [h6]; ring, pow_add,
      pow_add, pow_one] at this
    exact this
  have e8 : x ^ q ^ 8 = (x ^ q ^ 6) ^ q ^ 2 := by rw [← pow_mul, ← pow_add]
  rw [e8, frob_two h, frob_two h, frob_six h, ← hx] at e
  have g := congrArg (fun y : Fq12 q crv => y.im.c0) e
  simp only [QuadraticAlgebra.im_mul] at g
  simp at g
  generalize rootD q crv = d at *
  have h2 := two_ne_zero_q h
  have h3 := three_ne_zero_q h
  have g2 : (2 : Fq2 q) * 2 * 3 = 0 := by linear_combination (4 : Fq2 q) * hd + (2 * (d - 2)) * g
  have g3 : quadOf (-1 : ZMod q) (2 * 2 * 3) = 0 := by rw [← g2]; simp [map_ofNat]
  have g4 := congrArg (fun y : Fq2 q => y.re) g3
  exact mul_ne_zero (mul_ne_zero h2 h2) h3 g4

end

/-! ## The two curves -/

theorem towerOk_of {q : ℕ} {crv : PairingCurve} (N : ℕ) (hN : norm2 (xi q crv) = N) (h4 : q % 4 = 3) (h3 : q % 3 = 1)
    (hb : (q - 1) / 6 < 2 ^ 400)
    (hr : ((pw q 400 N ((q - 1) / 6) 1) ^ 2 + (q - pw q 400 N ((q - 1) / 6) 1) + 1) % q = 0)
    (hl : pw q 400 N ((q - 1) / 6) 1 ≤ q) : TowerOk q crv where
  mod4 := h4
  mod3 := h3
  root := by
    rw [hN]
    have e := pw_eq q 400 N ((q - 1) / 6) 1 hb
    rw [Nat.cast_one, one_mul] at e
    rw [← e]
    have := (ZMod.natCast_eq_zero_iff _ q).2 (Nat.dvd_of_mod_eq_zero hr)
    rw [Nat.cast_add, Nat.cast_add, Nat.cast_pow, Nat.cast_sub hl, ZMod.natCast_self] at this
    rw [← this]
    push_cast
    ring

theorem towerOk_bn256 : TowerOk bnQ .bn256 :=
  towerOk_of 82 (by show (9 : ZMod bnQ) ^ 2 + 1 ^ 2 = ((82 : ℕ) : ZMod bnQ); decide +kernel) (by decide +kernel) (by decide +kernel)
    (by decide +kernel) (by decide +kernel) (by decide +kernel)

theorem towerOk_bls12_381 : TowerOk blsQ .bls12_381 :=
  towerOk_of 2 (by show (1 : ZMod blsQ) ^ 2 + 1 ^ 2 = ((2 : ℕ) : ZMod blsQ); decide +kernel) (by decide +kernel) (by decide +kernel)
    (by decide +kernel) (by decide +kernel) (by decide +kernel)

end Verif
