import Verif.Proof.Frobenius

/-!
# Final exponentiation
-/

namespace Verif

/-- Conjugation over `Fq6`. -/
def conj12 {q : ℕ} {crv : PairingCurve} (x : Fq12 q crv) : Fq12 q crv := ⟨x.re, -x.im⟩

/-- What `exp_by_x` computes. -/
noncomputable def bnExp {q : ℕ} {crv : PairingCurve} (bits : List Bool) (f : Fq12 q crv) : Fq12 q crv :=
  bits.foldl (fun res b => if b then cycSq res * f else cycSq res) 1

/-- What the second part of `final_exponentiation` of bn256 computes. -/
noncomputable def bnHard {q : ℕ} {crv : PairingCurve} (bits : List Bool) (r : Fq12 q crv) : Fq12 q crv :=
  let fp := r ^ q ^ 1
  let fp2 := r ^ q ^ 2
  let fp3 := fp2 ^ q ^ 1
  let fu := bnExp bits r
  let fu2 := bnExp bits fu
  let fu3 := bnExp bits fu2
  let y3 := fu ^ q ^ 1
  let fu2p := fu2 ^ q ^ 1
  let fu3p := fu3 ^ q ^ 1
  let y2 := fu2 ^ q ^ 2
  let y0 := fp * fp2 * fp3
  let y1 := conj12 r
  let y5 := conj12 fu2
  let y3 := conj12 y3
  let y4 := conj12 (fu * fu2p)
  let y6 := conj12 (fu3 * fu3p)
  let y6 := cycSq y6 * y4 * y5
  let t1 := y3 * y5 * y6
  let y6 := y6 * y2
  let t1 := cycSq t1 * y6
  let t1 := cycSq t1
  let t0 := t1 * y1
  let t1 := t1 * y0
  let t0 := cycSq t0
  t0 * t1

/-- The exponent of `bnHard`. -/
def bnHardExp (q X : ℕ) : ℕ :=
  let r := 1
  let fp := r * q ^ 1
  let fp2 := r * q ^ 2
  let fp3 := fp2 * q ^ 1
  let fu := r * X
  let fu2 := fu * X
  let fu3 := fu2 * X
  let y3 := fu * q ^ 1
  let fu2p := fu2 * q ^ 1
  let fu3p := fu3 * q ^ 1
  let y2 := fu2 * q ^ 2
  let y0 := fp + fp2 + fp3
  let y1 := r * q ^ 6
  let y5 := fu2 * q ^ 6
  let y3 := y3 * q ^ 6
  let y4 := (fu + fu2p) * q ^ 6
  let y6 := (fu3 + fu3p) * q ^ 6
  let y6 := y6 * 2 + y4 + y5
  let t1 := y3 + y5 + y6
  let y6 := y6 + y2
  let t1 := t1 * 2 + y6
  let t1 := t1 * 2
  let t0 := t1 + y1
  let t1 := t1 + y0
  let t0 := t0 * 2
  t0 + t1

/-- What one iteration of `cycolotomic_exp` of bls12_381 computes. -/
def blsExpStep {q : ℕ} {crv : PairingCurve} (f : Fq12 q crv) (st : Bool × Fq12 q crv) (i : Bool) : Bool × Fq12 q crv :=
  let st' := if st.1 then (true, cycSq st.2) else (i, st.2)
  if i then (st'.1, st'.2 * f) else st'

/-- What `cycolotomic_exp` of bls12_381 computes. -/
def blsExp {q : ℕ} {crv : PairingCurve} (bits : List Bool) (f : Fq12 q crv) : Fq12 q crv :=
  conj12 (bits.foldl (blsExpStep f) (false, 1)).2

/-- What the second part of `final_exponentiation` of bls12_381 computes. -/
noncomputable def blsHard {q : ℕ} {crv : PairingCurve} (bits : List Bool) (t2 : Fq12 q crv) : Fq12 q crv :=
  let t1 := conj12 (cycSq t2)
  let t3 := blsExp bits t2
  let t4 := cycSq t3
  let t5 := t1 * t3
  let t1 := blsExp bits t5
  let t0 := blsExp bits t1
  let t6 := blsExp bits t0
  let t6 := t6 * t4
  let t4 := blsExp bits t6
  let t5 := conj12 t5
  let t4 := t4 * (t5 * t2)
  let t5 := conj12 t2
  let t1 := t1 * t2
  let t1 := ((t1 ^ q) ^ q) ^ q
  let t6 := t6 * t5
  let t6 := t6 ^ q
  let t3 := t3 * t0
  let t3 := (t3 ^ q) ^ q
  let t3 := t3 * t1
  let t3 := t3 * t6
  t3 * t4

/-- The exponent of `blsHard`. -/
def blsHardExp (q X : ℕ) : ℕ :=
  let t2 := 1
  let t1 := t2 * 2 * q ^ 6
  let t3 := t2 * X * q ^ 6
  let t4 := t3 * 2
  let t5 := t1 + t3
  let t1 := t5 * X * q ^ 6
  let t0 := t1 * X * q ^ 6
  let t6 := t0 * X * q ^ 6
  let t6 := t6 + t4
  let t4 := t6 * X * q ^ 6
  let t5 := t5 * q ^ 6
  let t4 := t4 + (t5 + t2)
  let t5 := t2 * q ^ 6
  let t1 := t1 + t2
  let t1 := t1 * q * q * q
  let t6 := t6 + t5
  let t6 := t6 * q
  let t3 := t3 + t0
  let t3 := t3 * q * q
  let t3 := t3 + t1
  let t3 := t3 + t6
  t3 + t4

section math
variable {q : ℕ} [hq : Fact q.Prime] {crv : PairingCurve} (h : TowerOk q crv) {y : Fq12 q crv}
  (hy : y ^ (q ^ 4 - q ^ 2 + 1) = 1)

include h in
theorem conj12_pow (k : ℕ) : conj12 (y ^ k) = y ^ (k * q ^ 6) := by
  rw [pow_mul, frob_six h]; rfl

include h hy in
theorem cycSq_pow (k : ℕ) : cycSq (y ^ k) = y ^ (k * 2) := by
  rw [cycSq_eq h _ (cyclotomic_of (by rw [← pow_mul, mul_comm, pow_mul, hy, one_pow])), ← sq, ← pow_mul]

/-- The number with the given binary digits, most significant first. -/
def ofBits (bits : List Bool) : ℕ := bits.foldl (fun k b => if b then k * 2 + 1 else k * 2) 0

include h hy in
theorem bnExp_fold (k : ℕ) (bits : List Bool) : ∀ m, bits.foldl (fun res b => if b then cycSq res * y ^ k else cycSq res)
    (y ^ (k * m)) = y ^ (k * bits.foldl (fun k b => if b then k * 2 + 1 else k * 2) m) := by
  induction bits with
  | nil => intro m; rfl
  | cons b bs ih =>
    intro m
    rw [List.foldl_cons, List.foldl_cons, ← ih]
    congr 1
    cases b
    · simp only [Bool.false_eq_true, if_false]
      rw [cycSq_pow h hy, _root_.mul_assoc]
    · simp only [if_true]
      rw [cycSq_pow h hy, ← pow_add, _root_.mul_assoc, _root_.mul_add, _root_.mul_one]

include h hy in
theorem bnExp_pow (bits : List Bool) (k : ℕ) : bnExp bits (y ^ k) = y ^ (k * ofBits bits) := by
  have := bnExp_fold h hy k bits 0
  rw [mul_zero, pow_zero] at this
  exact this

include h hy in
theorem bnHard_eq (bits : List Bool) : bnHard bits y = y ^ bnHardExp q (ofBits bits) := by
  have e : bnHard bits y = bnHard bits (y ^ 1) := by rw [pow_one]
  rw [e]
  simp only [bnHard, bnExp_pow h hy, conj12_pow h, cycSq_pow h hy, ← pow_mul, ← pow_add]
  rfl

include h hy in
theorem blsExp_fold (k : ℕ) (bits : List Bool) : ∀ m,
    (bits.foldl (blsExpStep (y ^ k)) (true, y ^ (k * m))).2 =
      y ^ (k * bits.foldl (fun k b => if b then k * 2 + 1 else k * 2) m) := by
  induction bits with
  | nil => intro m; rfl
  | cons b bs ih =>
    intro m
    rw [List.foldl_cons, List.foldl_cons, ← ih]
    congr 2
    cases b
    · simp only [blsExpStep, Bool.false_eq_true, if_false, if_true]
      rw [cycSq_pow h hy, _root_.mul_assoc]
    · simp only [blsExpStep, if_true]
      rw [cycSq_pow h hy, ← pow_add, _root_.mul_assoc, _root_.mul_add, _root_.mul_one]

include h hy in
theorem blsExp_fold_false (k : ℕ) (bits : List Bool) :
    (bits.foldl (blsExpStep (y ^ k)) (false, 1)).2 = y ^ (k * ofBits bits) := by
  induction bits with
  | nil => simp [ofBits]
  | cons b bs ih =>
    unfold ofBits at ih ⊢
    rw [List.foldl_cons, List.foldl_cons]
    cases b
    · simp only [blsExpStep, Bool.false_eq_true, if_false]
      exact ih
    · have := blsExp_fold h hy k bs 1
      simp only [blsExpStep, if_true, Bool.false_eq_true, if_false, _root_.one_mul, _root_.mul_one] at this ⊢
      exact this

include h hy in
theorem blsExp_pow (bits : List Bool) (k : ℕ) : blsExp bits (y ^ k) = y ^ (k * ofBits bits * q ^ 6) := by
  unfold blsExp
  rw [blsExp_fold_false h hy, conj12_pow h]

include h hy in
theorem blsHard_eq (bits : List Bool) : blsHard bits y = y ^ blsHardExp q (ofBits bits) := by
  have e : blsHard bits y = blsHard bits (y ^ 1) := by rw [pow_one]
  rw [e]
  simp only [blsHard, blsExp_pow h hy, conj12_pow h, cycSq_pow h hy, ← pow_mul, ← pow_add]
  rfl

omit hq in
theorem pow_mod_eq {a b m : ℕ} (hy : y ^ m = 1) (hab : a % m = b % m) : y ^ a = y ^ b := by
  rw [← Nat.div_add_mod a m, ← Nat.div_add_mod b m, pow_add, pow_add, pow_mul, pow_mul, hy, one_pow, one_pow, hab]

include h in
/-- The first part: `x ^ ((q⁶ - 1)(q² + 1))`. -/
theorem easy_eq {x : Fq12 q crv} (hx : IsUnit x) {z : Fq12 q crv} (hz : x * z = 1) :
    (x ^ q ^ 6 * z) ^ q ^ 2 * (x ^ q ^ 6 * z) = x ^ ((q ^ 6 - 1) * (q ^ 2 + 1)) := by
  have h6 : 1 ≤ q ^ 6 := Nat.one_le_pow _ _ hq.out.pos
  have e : x ^ q ^ 6 * z = x ^ (q ^ 6 - 1) := by
    apply hx.mul_right_cancel
    rw [← pow_succ, Nat.sub_add_cancel h6, _root_.mul_assoc, _root_.mul_comm z, hz, _root_.mul_one]
  rw [e, ← pow_succ, ← pow_mul]

end math

/-! ## The circuits -/

theorem J.last {n wm : ℕ} {info : RangeInfo n} {md : Mode n} {L : List (Atom n wm)} {α : Type} {m : M n α}
    {f g : α → List (Atom n wm)} (hm : J info md L m f) (h : ∀ r, g r ⊆ f r ++ L) : J info md L m g := by
  rw [← bind_pure m]
  exact J.bind hm fun r => J.pure (h r)

section bn
variable {n : ℕ} {info : RangeInfo n} {md : Mode n} {L : List (Atom n bnQ)} (E : Env bnQ info)
include E

theorem J_bn_exp_step {f res : AssignedFq12 n} {x y : Fq12 bnQ .bn256} {b : Bool} (hf : at12 f x ⊆ L)
    (hr : at12 res y ⊆ L) :
    J info md L (bn_exp_step info f res b) (fun r => at12 r (if b then cycSq y * x else cycSq y)) := by
  unfold bn_exp_step
  step
  cases b
  · exact J.pure (sub_left (List.Subset.refl _))
  · exact J_fq12_mul E (by sub) (by sub)

theorem J_bn_exp_fold {f : AssignedFq12 n} {x : Fq12 bnQ .bn256} (bits : List Bool) : ∀ {L : List (Atom n bnQ)}
    {res : AssignedFq12 n} {y : Fq12 bnQ .bn256}, at12 f x ⊆ L → at12 res y ⊆ L →
    J info md L (bits.foldlM (bn_exp_step info f) res)
      (fun r => at12 r (bits.foldl (fun res b => if b then cycSq res * x else cycSq res) y)) := by
  induction bits with
  | nil => exact fun _ hr => J.pure hr
  | cons b bs ih =>
    intro L res y hf hr
    rw [List.foldlM_cons]
    exact J.bind (J_bn_exp_step E hf hr) fun r => ih (by sub) (by sub)

theorem J_bn_exp_by_x {f : AssignedFq12 n} {x : Fq12 bnQ .bn256} (hf : at12 f x ⊆ L) :
    J info md L (bn_exp_by_x info f) (fun r => at12 r (bnExp (bits64 BN_X) x)) := by
  unfold bn_exp_by_x
  refine J.bind (J_fq12_assign_one (crv := .bn256) E) fun r => ?_
  exact J_bn_exp_fold E _ (by sub) (by sub)

/-- One Frobenius map. -/
local macro "frob" : tactic => `(tactic| (refine J.bind (by apply J_fq12_frobenius_map_bn E; sub) fun _ => ?_))

theorem J_bn_final_exponentiation {a : AssignedFq12 n} {x : Fq12 bnQ .bn256} (ha : at12 a x ⊆ L)
    (hx : md.Honest → norm2 (norm6 (norm12 x)) ≠ 0) :
    J info md L (bn_final_exponentiation info a) (fun r => fct (norm2 (norm6 (norm12 x)) ≠ 0) ++
      at12 r (bnHard (bits64 BN_X) ((conj12 x * inv12 x) ^ bnQ ^ 2 * (conj12 x * inv12 x)))) := by
  unfold bn_final_exponentiation
  step
  refine J.bind (J_fq12_unsafe_invert E (x := x) (by sub) hx) fun _ => ?_
  step
  frob
  step
  frob
  frob
  frob
  refine J.bind (by apply J_bn_exp_by_x E; sub) fun _ => ?_
  refine J.bind (by apply J_bn_exp_by_x E; sub) fun _ => ?_
  refine J.bind (by apply J_bn_exp_by_x E; sub) fun _ => ?_
  frob
  frob
  frob
  frob
  iterate 21 step
  refine J.last (by head_lemma J <;> sub) fun _ => List.append_subset.2 ⟨by sub, at12_congr (by sub) ?_⟩
  simp only [bnHard, conj12]

end bn

section bls
variable {n : ℕ} {info : RangeInfo n} {md : Mode n} {L : List (Atom n blsQ)} (E : Env blsQ info)
include E

theorem J_bls_exp_fold {f : AssignedFq12 n} {x : Fq12 blsQ .bls12_381} (bits : List Bool) : ∀ {L : List (Atom n blsQ)}
    {found : Bool} {res : AssignedFq12 n} {y : Fq12 blsQ .bls12_381}, at12 f x ⊆ L → at12 res y ⊆ L →
    J info md L (bits.foldlM (bls_exp_step info f) (found, res))
      (fun r => at12 r.2 (bits.foldl (blsExpStep x) (found, y)).2) := by
  induction bits with
  | nil => exact fun _ hr => J.pure hr
  | cons b bs ih =>
    intro L found res y hf hr
    rw [List.foldlM_cons, List.foldl_cons]
    cases found <;> cases b
    · simp only [bls_exp_step, blsExpStep, Bool.false_eq_true, if_false, pure_bind]
      exact ih hf hr
    · simp only [bls_exp_step, blsExpStep, Bool.false_eq_true, if_false, if_true, pure_bind, bind_assoc]
      step
      exact ih (by sub) (by sub)
    · simp only [bls_exp_step, blsExpStep, Bool.false_eq_true, if_false, if_true, pure_bind, bind_assoc]
      step
      exact ih (by sub) (by sub)
    · simp only [bls_exp_step, blsExpStep, if_true, pure_bind, bind_assoc]
      step
      step
      exact ih (by sub) (by sub)

theorem J_bls_cyclotomic_exp {f : AssignedFq12 n} {x : Fq12 blsQ .bls12_381} (hf : at12 f x ⊆ L) :
    J info md L (bls_cyclotomic_exp info f) (fun r => at12 r (blsExp (bits64 BLS_X) x)) := by
  unfold bls_cyclotomic_exp
  refine J.bind (J_fq12_assign_one (crv := .bls12_381) E) fun r => ?_
  refine J.bind (J_bls_exp_fold E _ (x := x) (y := 1) (by sub) (by sub)) fun r => ?_
  exact J_fq12_conjugate E (by sub)

local macro "frob" : tactic => `(tactic| (refine J.bind (by apply J_fq12_frobenius_map_bls E; sub) fun _ => ?_))
local macro "expx" : tactic => `(tactic| (refine J.bind (by apply J_bls_cyclotomic_exp E; sub) fun _ => ?_))

theorem J_bls_final_exponentiation {a : AssignedFq12 n} {x : Fq12 blsQ .bls12_381} (ha : at12 a x ⊆ L)
    (hx : md.Honest → norm2 (norm6 (norm12 x)) ≠ 0) :
    J info md L (bls_final_exponentiation info a) (fun r => fct (norm2 (norm6 (norm12 x)) ≠ 0) ++
      at12 r (blsHard (bits64 BLS_X) ((((((((((x ^ blsQ) ^ blsQ) ^ blsQ) ^ blsQ) ^ blsQ) ^ blsQ) * inv12 x) ^ blsQ) ^ blsQ) *
        (((((((x ^ blsQ) ^ blsQ) ^ blsQ) ^ blsQ) ^ blsQ) ^ blsQ) * inv12 x)))) := by
  unfold bls_final_exponentiation
  iterate 6 frob
  refine J.bind (J_fq12_unsafe_invert E (x := x) (by sub) hx) fun _ => ?_
  step
  frob
  frob
  iterate 3 step
  expx
  iterate 2 step
  iterate 3 expx
  step
  expx
  iterate 5 step
  iterate 3 frob
  step
  frob
  step
  iterate 2 frob
  iterate 2 step
  refine J.last (by head_lemma J <;> sub) fun _ => List.append_subset.2 ⟨by sub, at12_congr (by sub) ?_⟩
  simp only [blsHard, conj12]

end bls

/-! ## The exponents -/

theorem ofBits_bn : ofBits (bits64 BN_X) = BN_X := by decide +kernel
theorem ofBits_bls : ofBits (bits64 BLS_X) = BLS_X := by decide +kernel

theorem bn_exponent : bnHardExp bnQ BN_X % (bnQ ^ 4 - bnQ ^ 2 + 1) =
    ((bnQ ^ 4 - bnQ ^ 2 + 1) / bnR) % (bnQ ^ 4 - bnQ ^ 2 + 1) := by decide +kernel

theorem bls_exponent : blsHardExp blsQ BLS_X % (blsQ ^ 4 - blsQ ^ 2 + 1) =
    (3 * ((blsQ ^ 4 - blsQ ^ 2 + 1) / blsR)) % (blsQ ^ 4 - blsQ ^ 2 + 1) := by decide +kernel

theorem bn_r_dvd : bnR ∣ bnQ ^ 4 - bnQ ^ 2 + 1 := by decide +kernel
theorem bls_r_dvd : blsR ∣ blsQ ^ 4 - blsQ ^ 2 + 1 := by decide +kernel

theorem easy_hard {q r : ℕ} [Fact q.Prime] (hr : r ∣ q ^ 4 - q ^ 2 + 1) (k : ℕ) :
    (q ^ 6 - 1) * (q ^ 2 + 1) * (k * ((q ^ 4 - q ^ 2 + 1) / r)) = k * ((q ^ 12 - 1) / r) := by
  obtain ⟨m, hm⟩ := hr
  rcases Nat.eq_zero_or_pos r with rfl | h0
  · simp at hm
  · rw [← cyc_mul q, hm, Nat.mul_div_cancel_left _ h0]
    have : (q ^ 6 - 1) * (q ^ 2 + 1) * (r * m) = r * ((q ^ 6 - 1) * (q ^ 2 + 1) * m) := by ring
    rw [this, Nat.mul_div_cancel_left _ h0]
    ring

theorem bn_final_value {x : Fq12 bnQ .bn256} (hx : norm2 (norm6 (norm12 x)) ≠ 0) :
    bnHard (bits64 BN_X) ((conj12 x * inv12 x) ^ bnQ ^ 2 * (conj12 x * inv12 x)) = x ^ ((bnQ ^ 12 - 1) / bnR) := by
  have h := towerOk_bn256
  have hu : IsUnit x := isUnit_iff12.2 hx
  have e : conj12 x = x ^ bnQ ^ 6 := (frob_six h x).symm
  rw [e, easy_eq h hu (mul_inv12 hx)]
  have hy : (x ^ ((bnQ ^ 6 - 1) * (bnQ ^ 2 + 1))) ^ (bnQ ^ 4 - bnQ ^ 2 + 1) = 1 := by
    rw [← pow_mul, cyc_mul, pow_card h hu]
  rw [bnHard_eq h hy, ofBits_bn, pow_mod_eq hy bn_exponent, ← pow_mul]
  have := easy_hard (q := bnQ) bn_r_dvd 1
  rw [_root_.one_mul, _root_.one_mul] at this
  rw [this]

theorem bls_final_value {x : Fq12 blsQ .bls12_381} (hx : norm2 (norm6 (norm12 x)) ≠ 0) :
    blsHard (bits64 BLS_X) ((((((((((x ^ blsQ) ^ blsQ) ^ blsQ) ^ blsQ) ^ blsQ) ^ blsQ) * inv12 x) ^ blsQ) ^ blsQ) *
        (((((((x ^ blsQ) ^ blsQ) ^ blsQ) ^ blsQ) ^ blsQ) ^ blsQ) * inv12 x)) = x ^ (3 * ((blsQ ^ 12 - 1) / blsR)) := by
  have h := towerOk_bls12_381
  have hu : IsUnit x := isUnit_iff12.2 hx
  have e : ∀ y : Fq12 blsQ .bls12_381, (y ^ blsQ) ^ blsQ = y ^ blsQ ^ 2 := fun y => by rw [← pow_mul, ← sq]
  have e6 : ((((((x ^ blsQ) ^ blsQ) ^ blsQ) ^ blsQ) ^ blsQ) ^ blsQ) = x ^ blsQ ^ 6 := by
    rw [e, e, e, ← pow_mul, ← pow_add, ← pow_mul, ← pow_add]
  rw [e6, e, easy_eq h hu (mul_inv12 hx)]
  have hy : (x ^ ((blsQ ^ 6 - 1) * (blsQ ^ 2 + 1))) ^ (blsQ ^ 4 - blsQ ^ 2 + 1) = 1 := by
    rw [← pow_mul, cyc_mul, pow_card h hu]
  rw [blsHard_eq h hy, ofBits_bls, pow_mod_eq hy bls_exponent, ← pow_mul, easy_hard bls_r_dvd]

end Verif
