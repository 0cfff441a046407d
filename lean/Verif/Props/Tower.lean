import Verif.Proof.Enc
import Verif.Props.Params

/-!
# C38: arithmetic in the tower of extension fields

Every operation of `Fq2ChipOps`, `Fq6ChipOps` and `Fq12ChipOps` computes the operation of the tower of `Spec/Tower.lean`
it is named after, for all operands: soundly, in every satisfying advice assignment, and completely, for the recorded
witness.
-/

namespace Verif
variable {n wm : ℕ} {info : RangeInfo n} (E : Env wm info) (crv : PairingCurve)
include E

/-! ## Fq2 -/

theorem C38_fq2_add : Computes ((enc2 wm info).prod (enc2 wm info)) (enc2 wm info)
    (fun p => fq2_add info p.1 p.2) (fun p => p.1 + p.2) :=
  Computes.of_J (enc2_at.prod enc2_at) enc2_at fun _ _ _ => J_fq2_add E (by sub) (by sub)

theorem C38_fq2_sub : Computes ((enc2 wm info).prod (enc2 wm info)) (enc2 wm info)
    (fun p => fq2_sub info p.1 p.2) (fun p => p.1 - p.2) :=
  Computes.of_J (enc2_at.prod enc2_at) enc2_at fun _ _ _ => J_fq2_sub E (by sub) (by sub)

theorem C38_fq2_mul : Computes ((enc2 wm info).prod (enc2 wm info)) (enc2 wm info)
    (fun p => fq2_mul info p.1 p.2) (fun p => p.1 * p.2) :=
  Computes.of_J (enc2_at.prod enc2_at) enc2_at fun _ _ _ => J_fq2_mul E (by sub) (by sub)

theorem C38_fq2_neg : Computes (enc2 wm info) (enc2 wm info) (fq2_neg info) (fun x => -x) :=
  Computes.of_J enc2_at enc2_at fun _ _ _ => J_fq2_neg E (by sub)

theorem C38_fq2_double : Computes (enc2 wm info) (enc2 wm info) (fq2_double info) (fun x => x + x) :=
  Computes.of_J enc2_at enc2_at fun _ _ _ => J_fq2_double E (by sub)

theorem C38_fq2_square : Computes (enc2 wm info) (enc2 wm info) (fq2_square info) (fun x => x * x) :=
  Computes.of_J enc2_at enc2_at fun _ _ _ => J_fq2_square E (by sub)

theorem C38_fq2_reduce : Computes (enc2 wm info) (enc2 wm info) (fq2_reduce info) (fun x => x) :=
  Computes.of_J enc2_at enc2_at fun _ _ _ => J_fq2_reduce E (by sub)

theorem C38_fq2_conjugate : Computes (enc2 wm info) (enc2 wm info) (fq2_conjugate info) (fun x => ⟨x.re, -x.im⟩) :=
  Computes.of_J enc2_at enc2_at fun _ _ _ => J_fq2_conjugate E (by sub)

theorem C38_fq2_mul_by_nonresidue : Computes (enc2 wm info) (enc2 wm info) (fq2_mul_by_nonresidue info crv) (fun x => xi wm crv * x) :=
  Computes.of_J enc2_at enc2_at fun _ _ _ => J_fq2_mul_by_nonresidue E (by sub)

theorem C38_fq2_assign_zero : Computes encU (enc2 wm info) (fun _ => fq2_assign_zero info) (fun _ => 0) :=
  Computes.of_J (encU_at (wm := wm)) enc2_at fun _ _ _ => J_fq2_assign_zero E

theorem C38_fq2_assign_one : Computes encU (enc2 wm info) (fun _ => fq2_assign_one info) (fun _ => 1) :=
  Computes.of_J (encU_at (wm := wm)) enc2_at fun _ _ _ => J_fq2_assign_one E

theorem C38_fq2_assign_constant {c : ℕ × ℕ} (h1 : c.1 < wm) (h2 : c.2 < wm) :
    Computes encU (enc2 wm info) (fun _ => fq2_assign_constant info c) (fun _ => ⟨c.1, c.2⟩) :=
  Computes.of_J (encU_at (wm := wm)) enc2_at fun _ _ _ => J_fq2_assign_constant E h1 h2

/-- Inversion: every satisfying assignment has an invertible input and its inverse as result; the recorded witness
is accepted for every invertible input. -/
theorem C38_fq2_unsafe_invert : Realises (enc2 wm info) (enc2 wm info) (fq2_unsafe_invert info)
    (fun x y => x * y = 1) :=
  haveI := Fact.mk E.prime_w
  Realises.of_J enc2_at enc2_at (fun x => norm2 x ≠ 0) inv2 (fun _ h => mul_inv2 h) (fun _ _ h => norm2_ne_zero h)
    fun _ _ _ hx => J_fq2_unsafe_invert E (by sub) hx

theorem C38_fq2_assert_equal : Realises ((enc2 wm info).prod (enc2 wm info)) encU
    (fun p => fq2_assert_equal info p.1 p.2) (fun p _ => p.1 = p.2) :=
  Realises.of_J_assert (enc2_at.prod enc2_at) fun _ _ _ hx => J_fq2_assert_equal E (by sub) (by sub) hx

/-! ## Fq6 -/

theorem C38_fq6_add : Computes ((enc6 wm info crv).prod (enc6 wm info crv)) (enc6 wm info crv)
    (fun p => fq6_add info p.1 p.2) (fun p => p.1 + p.2) :=
  Computes.of_J (enc6_at.prod enc6_at) enc6_at fun _ _ _ => J_fq6_add E (by sub) (by sub)

theorem C38_fq6_sub : Computes ((enc6 wm info crv).prod (enc6 wm info crv)) (enc6 wm info crv)
    (fun p => fq6_sub info p.1 p.2) (fun p => p.1 - p.2) :=
  Computes.of_J (enc6_at.prod enc6_at) enc6_at fun _ _ _ => J_fq6_sub E (by sub) (by sub)

theorem C38_fq6_mul : Computes ((enc6 wm info crv).prod (enc6 wm info crv)) (enc6 wm info crv)
    (fun p => fq6_mul info crv p.1 p.2) (fun p => p.1 * p.2) :=
  Computes.of_J (enc6_at.prod enc6_at) enc6_at fun _ _ _ => J_fq6_mul E (by sub) (by sub)

theorem C38_fq6_neg : Computes (enc6 wm info crv) (enc6 wm info crv) (fq6_neg info) (fun x => -x) :=
  Computes.of_J enc6_at enc6_at fun _ _ _ => J_fq6_neg E (by sub)

theorem C38_fq6_double : Computes (enc6 wm info crv) (enc6 wm info crv) (fq6_double info) (fun x => x + x) :=
  Computes.of_J enc6_at enc6_at fun _ _ _ => J_fq6_double E (by sub)

theorem C38_fq6_square : Computes (enc6 wm info crv) (enc6 wm info crv) (fq6_square info crv) (fun x => x * x) :=
  Computes.of_J enc6_at enc6_at fun _ _ _ => J_fq6_square E (by sub)

theorem C38_fq6_reduce : Computes (enc6 wm info crv) (enc6 wm info crv) (fq6_reduce info) (fun x => x) :=
  Computes.of_J enc6_at enc6_at fun _ _ _ => J_fq6_reduce E (by sub)

theorem C38_fq6_mul_by_nonresidue : Computes (enc6 wm info crv) (enc6 wm info crv) (fq6_mul_by_nonresidue info crv) (fun x => Cubic.v * x) :=
  Computes.of_J enc6_at enc6_at fun _ _ _ => J_fq6_mul_by_nonresidue E (by sub)

theorem C38_fq6_assign_zero : Computes encU (enc6 wm info crv) (fun _ => fq6_assign_zero info) (fun _ => 0) :=
  Computes.of_J (encU_at (wm := wm)) enc6_at fun _ _ _ => J_fq6_assign_zero (crv := crv) E

theorem C38_fq6_assign_one : Computes encU (enc6 wm info crv) (fun _ => fq6_assign_one info) (fun _ => 1) :=
  Computes.of_J (encU_at (wm := wm)) enc6_at fun _ _ _ => J_fq6_assign_one (crv := crv) E

theorem C38_fq6_assign_constant {c : (ℕ × ℕ) × (ℕ × ℕ) × (ℕ × ℕ)} (h0 : c.1.1 < wm ∧ c.1.2 < wm)
    (h1 : c.2.1.1 < wm ∧ c.2.1.2 < wm) (h2 : c.2.2.1 < wm ∧ c.2.2.2 < wm) :
    Computes encU (enc6 wm info crv) (fun _ => fq6_assign_constant info c)
      (fun _ => ⟨⟨c.1.1, c.1.2⟩, ⟨c.2.1.1, c.2.1.2⟩, ⟨c.2.2.1, c.2.2.2⟩⟩) :=
  Computes.of_J (encU_at (wm := wm)) enc6_at fun _ _ _ => J_fq6_assign_constant E h0 h1 h2

/-- Inversion: every satisfying assignment has an invertible input and its inverse as result; the recorded witness
is accepted for every invertible input. -/
theorem C38_fq6_unsafe_invert : Realises (enc6 wm info crv) (enc6 wm info crv) (fq6_unsafe_invert info crv)
    (fun x y => x * y = 1) :=
  haveI := Fact.mk E.prime_w
  Realises.of_J enc6_at enc6_at (fun x => norm2 (norm6 x) ≠ 0) inv6 (fun _ h => mul_inv6 h) (fun _ _ h => norm6_ne_zero h)
    fun _ _ _ hx => J_fq6_unsafe_invert E (by sub) hx

theorem C38_fq6_assert_equal : Realises ((enc6 wm info crv).prod (enc6 wm info crv)) encU
    (fun p => fq6_assert_equal info p.1 p.2) (fun p _ => p.1 = p.2) :=
  Realises.of_J_assert (enc6_at.prod enc6_at) fun _ _ _ hx => J_fq6_assert_equal E (by sub) (by sub) hx

/-- Multiplication by `y v`. -/
theorem C38_fq6_mul_by_1 : Computes ((enc6 wm info crv).prod (enc2 wm info)) (enc6 wm info crv)
    (fun p => fq6_mul_by_1 info crv p.1 p.2) (fun p => p.1 * (Cubic.of p.2 * Cubic.v)) :=
  Computes.of_J (enc6_at.prod enc2_at) enc6_at fun _ _ _ => (J_fq6_mul_by_1 E (by sub) (by sub)).mono fun _ =>
    at6_congr (List.Subset.refl _) (by congr 1; ext1 <;> simp [Cubic.of, Cubic.v])

/-- Multiplication by `y + z v`. -/
theorem C38_fq6_mul_by_01 : Computes ((enc6 wm info crv).prod ((enc2 wm info).prod (enc2 wm info))) (enc6 wm info crv)
    (fun p => fq6_mul_by_01 info crv p.1 p.2.1 p.2.2) (fun p => p.1 * (Cubic.of p.2.1 + Cubic.of p.2.2 * Cubic.v)) :=
  Computes.of_J (enc6_at.prod (enc2_at.prod enc2_at)) enc6_at fun _ _ _ =>
    (J_fq6_mul_by_01 E (by sub) (by sub) (by sub)).mono fun _ =>
    at6_congr (List.Subset.refl _) (by congr 1; ext1 <;> simp [Cubic.of, Cubic.v])

/-! ## Fq12 -/

theorem C38_fq12_add : Computes ((enc12 wm info crv).prod (enc12 wm info crv)) (enc12 wm info crv)
    (fun p => fq12_add info p.1 p.2) (fun p => p.1 + p.2) :=
  Computes.of_J (enc12_at.prod enc12_at) enc12_at fun _ _ _ => J_fq12_add E (by sub) (by sub)

theorem C38_fq12_sub : Computes ((enc12 wm info crv).prod (enc12 wm info crv)) (enc12 wm info crv)
    (fun p => fq12_sub info p.1 p.2) (fun p => p.1 - p.2) :=
  Computes.of_J (enc12_at.prod enc12_at) enc12_at fun _ _ _ => J_fq12_sub E (by sub) (by sub)

theorem C38_fq12_mul : Computes ((enc12 wm info crv).prod (enc12 wm info crv)) (enc12 wm info crv)
    (fun p => fq12_mul info crv p.1 p.2) (fun p => p.1 * p.2) :=
  Computes.of_J (enc12_at.prod enc12_at) enc12_at fun _ _ _ => J_fq12_mul E (by sub) (by sub)

theorem C38_fq12_neg : Computes (enc12 wm info crv) (enc12 wm info crv) (fq12_neg info) (fun x => -x) :=
  Computes.of_J enc12_at enc12_at fun _ _ _ => J_fq12_neg E (by sub)

theorem C38_fq12_double : Computes (enc12 wm info crv) (enc12 wm info crv) (fq12_double info) (fun x => x + x) :=
  Computes.of_J enc12_at enc12_at fun _ _ _ => J_fq12_double E (by sub)

theorem C38_fq12_square : Computes (enc12 wm info crv) (enc12 wm info crv) (fq12_square info crv) (fun x => x * x) :=
  Computes.of_J enc12_at enc12_at fun _ _ _ => J_fq12_square E (by sub)

theorem C38_fq12_reduce : Computes (enc12 wm info crv) (enc12 wm info crv) (fq12_reduce info) (fun x => x) :=
  Computes.of_J enc12_at enc12_at fun _ _ _ => J_fq12_reduce E (by sub)

theorem C38_fq12_conjugate : Computes (enc12 wm info crv) (enc12 wm info crv) (fq12_conjugate info) (fun x => ⟨x.re, -x.im⟩) :=
  Computes.of_J enc12_at enc12_at fun _ _ _ => J_fq12_conjugate E (by sub)

theorem C38_fq12_assign_zero : Computes encU (enc12 wm info crv) (fun _ => fq12_assign_zero info) (fun _ => 0) :=
  Computes.of_J (encU_at (wm := wm)) enc12_at fun _ _ _ => J_fq12_assign_zero (crv := crv) E

theorem C38_fq12_assign_one : Computes encU (enc12 wm info crv) (fun _ => fq12_assign_one info) (fun _ => 1) :=
  Computes.of_J (encU_at (wm := wm)) enc12_at fun _ _ _ => J_fq12_assign_one (crv := crv) E

theorem C38_fq12_assign_constant {c : ((ℕ × ℕ) × (ℕ × ℕ) × (ℕ × ℕ)) × ((ℕ × ℕ) × (ℕ × ℕ) × (ℕ × ℕ))}
    (h : (c.1.1.1 < wm ∧ c.1.1.2 < wm) ∧ (c.1.2.1.1 < wm ∧ c.1.2.1.2 < wm) ∧ c.1.2.2.1 < wm ∧ c.1.2.2.2 < wm)
    (h' : (c.2.1.1 < wm ∧ c.2.1.2 < wm) ∧ (c.2.2.1.1 < wm ∧ c.2.2.1.2 < wm) ∧ c.2.2.2.1 < wm ∧ c.2.2.2.2 < wm) :
    Computes encU (enc12 wm info crv) (fun _ => fq12_assign_constant info c)
      (fun _ => ⟨⟨⟨c.1.1.1, c.1.1.2⟩, ⟨c.1.2.1.1, c.1.2.1.2⟩, ⟨c.1.2.2.1, c.1.2.2.2⟩⟩,
        ⟨⟨c.2.1.1, c.2.1.2⟩, ⟨c.2.2.1.1, c.2.2.1.2⟩, ⟨c.2.2.2.1, c.2.2.2.2⟩⟩⟩) :=
  Computes.of_J (encU_at (wm := wm)) enc12_at fun _ _ _ => J_fq12_assign_constant E h h'

/-- Inversion: every satisfying assignment has an invertible input and its inverse as result; the recorded witness
is accepted for every invertible input. -/
theorem C38_fq12_unsafe_invert : Realises (enc12 wm info crv) (enc12 wm info crv) (fq12_unsafe_invert info crv)
    (fun x y => x * y = 1) :=
  haveI := Fact.mk E.prime_w
  Realises.of_J enc12_at enc12_at (fun x => norm2 (norm6 (norm12 x)) ≠ 0) inv12 (fun _ h => mul_inv12 h) (fun _ _ h => norm12_ne_zero h)
    fun _ _ _ hx => J_fq12_unsafe_invert E (by sub) hx

theorem C38_fq12_assert_eq : Realises ((enc12 wm info crv).prod (enc12 wm info crv)) encU
    (fun p => fq12_assert_eq info p.1 p.2) (fun p _ => p.1 = p.2) :=
  Realises.of_J_assert (enc12_at.prod enc12_at) fun _ _ _ hx => J_fq12_assert_eq E (by sub) (by sub) hx

theorem C38_fq12_assert_one : Realises (enc12 wm info crv) encU (fq12_assert_one info) (fun x _ => x = 1) :=
  Realises.of_J_assert enc12_at fun _ _ _ hx => J_fq12_assert_one E (by sub) hx

/-- Multiplication by `y + z v + t v w`. -/
theorem C38_fq12_mul_by_014 :
    Computes ((enc12 wm info crv).prod ((enc2 wm info).prod ((enc2 wm info).prod (enc2 wm info)))) (enc12 wm info crv)
      (fun p => fq12_mul_by_014 info crv p.1 p.2.1 p.2.2.1 p.2.2.2)
      (fun p => p.1 * ⟨Cubic.of p.2.1 + Cubic.of p.2.2.1 * Cubic.v, Cubic.of p.2.2.2 * Cubic.v⟩) :=
  Computes.of_J (enc12_at.prod (enc2_at.prod (enc2_at.prod enc2_at))) enc12_at fun _ _ _ =>
    (J_fq12_mul_by_014 E (by sub) (by sub) (by sub) (by sub)).mono fun _ =>
    at12_congr (List.Subset.refl _) (by congr 1; ext1 <;> ext1 <;> simp [Cubic.of, Cubic.v])

/-- Multiplication by `y + z w + t v w`. -/
theorem C38_fq12_mul_by_034 :
    Computes ((enc12 wm info crv).prod ((enc2 wm info).prod ((enc2 wm info).prod (enc2 wm info)))) (enc12 wm info crv)
      (fun p => fq12_mul_by_034 info crv p.1 p.2.1 p.2.2.1 p.2.2.2)
      (fun p => p.1 * ⟨Cubic.of p.2.1, Cubic.of p.2.2.1 + Cubic.of p.2.2.2 * Cubic.v⟩) :=
  Computes.of_J (enc12_at.prod (enc2_at.prod (enc2_at.prod enc2_at))) enc12_at fun _ _ _ =>
    (J_fq12_mul_by_034 E (by sub) (by sub) (by sub) (by sub)).mono fun _ =>
    at12_congr (List.Subset.refl _) (by congr 1; ext1 <;> ext1 <;> simp [Cubic.of, Cubic.v])

omit E crv in
/-- The assumptions on the parameters hold for both supported pairing curves. -/
theorem env_bn256 : ∃ info : RangeInfo bnR, Env bnQ info :=
  let ⟨i, h⟩ := Setup.of_summary summary_bnQ
  ⟨i, h.new, Fact.out, Fact.out, by have := congrArg (fun l => l.getD 2 0) h.summary; simp at this; omega⟩

omit E crv in
theorem env_bls12_381 : ∃ info : RangeInfo bnR, Env blsQ info :=
  let ⟨i, h⟩ := Setup.of_summary summary_blsQ
  ⟨i, h.new, Fact.out, Fact.out, by have := congrArg (fun l => l.getD 2 0) h.summary; simp at this; omega⟩

omit E crv in
/-- A program using multiplication and inversion on non-trivial values is accepted: `((1 + u)(9 + u))⁻¹`. -/
example : ∃ info : RangeInfo bnR, Env bnQ info ∧
    Accepted (do
      let a ← fq2_assign_constant info (1, 1)
      let b ← fq2_assign_constant info (9, 1)
      let c ← fq2_mul info a b
      fq2_unsafe_invert info c) (fun r => ∃ y : Fq2 bnQ, (⟨8, 10⟩ : Fq2 bnQ) * y = 1 ∧ HRep2 bnQ info r y) := by
  obtain ⟨info, E⟩ := env_bn256
  have hn : norm2 (⟨8, 10⟩ : Fq2 bnQ) ≠ 0 := by
    show (8 : ZMod bnQ) ^ 2 + 10 ^ 2 ≠ 0
    decide +kernel
  refine ⟨info, E, Accepted.of_C (Q := OkI2) fun c h => ?_⟩
  have key : J (wm := bnQ) info (.honest c h) [] (do
      let a ← fq2_assign_constant info (1, 1)
      let b ← fq2_assign_constant info (9, 1)
      let c ← fq2_mul info a b
      fq2_unsafe_invert info c) (fun r => at2 r (inv2 (⟨8, 10⟩ : Fq2 bnQ))) := by
    refine J.bind (J_fq2_assign_constant E (by decide +kernel) (by decide +kernel)) fun a => ?_
    refine J.bind (J_fq2_assign_constant E (by decide +kernel) (by decide +kernel)) fun b => ?_
    refine J.bind (J_fq2_mul E (by sub) (by sub)) fun r => ?_
    refine (J_fq2_unsafe_invert E (x := ⟨8, 10⟩) (at2_congr (by sub) ?_) fun _ => hn).mono fun _ => by sub
    ext
    · show ((1 : ℕ) : ZMod bnQ) * ((9 : ℕ) : ZMod bnQ) + -1 * ((1 : ℕ) : ZMod bnQ) * ((1 : ℕ) : ZMod bnQ) = 8
      decide +kernel
    · show ((1 : ℕ) : ZMod bnQ) * ((1 : ℕ) : ZMod bnQ) + ((1 : ℕ) : ZMod bnQ) * ((9 : ℕ) : ZMod bnQ)
        + 0 * ((1 : ℕ) : ZMod bnQ) * ((1 : ℕ) : ZMod bnQ) = 10
      decide +kernel
  refine C.mono ((key (by simp)).weaken (by simp)) (fun r hr => ?_) fun r _ _ hr => ?_
  · exact ⟨_, mul_inv2 hn, (enc2_at.hrep r _).2 hr⟩
  · exact ((enc2_at (info := info)).ok h r _).2 hr

end Verif
