import Verif.Proof.Quartic

/-!
# The pairing of a point and its opposite with an arbitrary pair of elements of `Fq2`

The lines at `P` and `-P` are conjugate up to sign, whatever second point they come from, so that the value of the Miller
loops lies in `Fq6` and the final exponentiation maps it to 1, unless it is 0.
-/

namespace Verif
variable {crv : PairingCurve}

/-- A nonzero element of `Fq6`. -/
def Real6 (x : Fq12 (pairQ crv) crv) : Prop := conj12 x = x ∧ x ≠ 0

theorem Real6.one : Real6 (1 : Fq12 (pairQ crv) crv) := ⟨conj12_one, one_ne_zero⟩

theorem Real6.mul {x y : Fq12 (pairQ crv) crv} (hx : Real6 x) (hy : Real6 y) : Real6 (x * y) :=
  ⟨by rw [conj12_mul, hx.1, hy.1], mul_ne_zero hx.2 hy.2⟩

theorem Real6.final {x : Fq12 (pairQ crv) crv} (hx : Real6 x) : x ^ finalExponent crv = 1 := by
  obtain ⟨k, hk⟩ : pairQ crv ^ 6 - 1 ∣ finalExponent crv := by cases crv <;> decide +kernel
  have hp : 1 ≤ pairQ crv ^ 6 := by cases crv <;> decide +kernel
  obtain ⟨m, hm⟩ := Nat.exists_eq_add_of_le' hp
  have e : x ^ pairQ crv ^ 6 = x := (frob_six (towerOk crv) x).trans hx.1
  have h1 : x ^ (pairQ crv ^ 6 - 1) = 1 := by
    rw [hm, pow_succ] at e
    rw [hm, Nat.add_sub_cancel]
    exact mul_right_cancel₀ hx.2 (e.trans (one_mul _).symm)
  rw [hk, pow_mul, h1, one_pow]

theorem scale_ne_zero {c : Fq2 (pairQ crv)} (hc : c ≠ 0) {y : ZMod (pairQ crv)} (hy : y ≠ 0) :
    (⟨c.re * y, c.im * y⟩ : Fq2 (pairQ crv)) ≠ 0 := by
  intro e
  have h1 : c.re * y = 0 := congrArg QuadraticAlgebra.re e
  have h2 : c.im * y = 0 := congrArg QuadraticAlgebra.im e
  exact hc (QuadraticAlgebra.ext ((mul_eq_zero.1 h1).resolve_right hy) ((mul_eq_zero.1 h2).resolve_right hy))

theorem evLine_ne_zero {l : Line (Fq2 (pairQ crv))} (hl : l.c0 ≠ 0) {x y : ZMod (pairQ crv)} (hy : y ≠ 0) :
    evLine crv l (x, y) ≠ 0 := by
  have h := scale_ne_zero hl hy
  cases crv
  · intro e
    exact h (congrArg (fun z : Fq12 (pairQ .bn256) .bn256 => z.re.c0) e)
  · intro e
    exact h (congrArg (fun z : Fq12 (pairQ .bls12_381) .bls12_381 => z.im.c1) e)

theorem evLine_neg (l : Line (Fq2 (pairQ crv))) (x y : ZMod (pairQ crv)) :
    evLine crv l (x, -y) = conj12 (evLine crv l (x, y)) ∨ evLine crv l (x, -y) = -conj12 (evLine crv l (x, y)) := by
  cases crv
  · right
    ext <;> simp [evLine, conj12]
  · left
    ext <;> simp [evLine, conj12]

theorem conj12_conj12 (x : Fq12 (pairQ crv) crv) : conj12 (conj12 x) = x := by
  ext <;> simp [conj12]

theorem real_line {l : Line (Fq2 (pairQ crv))} (hl : l.c0 ≠ 0) {x y : ZMod (pairQ crv)} (hy : y ≠ 0) :
    Real6 (evLine crv l (x, y) * evLine crv l (x, -y)) := by
  refine ⟨?_, mul_ne_zero (evLine_ne_zero hl hy) (evLine_ne_zero hl (neg_ne_zero.2 hy))⟩
  have hneg : ∀ z : Fq12 (pairQ crv) crv, conj12 (-z) = -conj12 z := fun z => map_neg (conjHom (pairQ crv) crv) z
  rw [conj12_mul]
  rcases evLine_neg l x y with e | e
  · rw [e, conj12_conj12, mul_comm]
  · rw [e, hneg, conj12_conj12]; ring

/-- The terms of `P` and `-P` with the same lines. -/
def bothV (P : ZMod (pairQ crv) × ZMod (pairQ crv)) (ls : List (Line (Fq2 (pairQ crv)))) : List (TermV (pairQ crv)) :=
  [(P, ls), ((P.1, -P.2), ls)]

section
variable {P : ZMod (pairQ crv) × ZMod (pairQ crv)} (hP : P.2 ≠ 0)

theorem dropV_both (k : ℕ) (ls : List (Line (Fq2 (pairQ crv)))) : dropV k (bothV P ls) = bothV P (ls.drop k) := rfl

include hP in
theorem real_ell {x : Fq12 (pairQ crv) crv} (hx : Real6 x) {ls : List (Line (Fq2 (pairQ crv)))} (h : 1 ≤ ls.length)
    (hl : ∀ l ∈ ls, l.c0 ≠ 0) : Real6 (ellV x (bothV P ls)) := by
  cases ls with
  | nil => cases h
  | cons l ls =>
    have e : ellV x (bothV P (l :: ls)) = x * (evLine crv l (P.1, P.2) * evLine crv l (P.1, -P.2)) := by
      simp only [ellV, bothV, List.map_cons, List.map_nil, List.prod_cons, List.prod_nil, _root_.mul_one, headV, List.headD_cons]
    rw [e]
    exact hx.mul (real_line (hl l List.mem_cons_self) hP)

theorem good_drop {ls : List (Line (Fq2 (pairQ crv)))} (hl : ∀ l ∈ ls, l.c0 ≠ 0) (k : ℕ) : ∀ l ∈ ls.drop k, l.c0 ≠ 0 :=
  fun l h => hl l (List.mem_of_mem_drop h)

end

theorem real_bn {P : ZMod (pairQ .bn256) × ZMod (pairQ .bn256)} (hP : P.2 ≠ 0) (ds : List ℤ) :
    ∀ (b : Bool) {x : Fq12 (pairQ .bn256) .bn256} {ls : List (Line (Fq2 (pairQ .bn256)))}, Real6 x → bnNeed ds ≤ ls.length →
      (∀ l ∈ ls, l.c0 ≠ 0) → Real6 (bnLoopV b x (bothV P ls) ds) := by
  induction ds with
  | nil => intro b x ls hx _ _; cases b <;> exact hx
  | cons d ds ih =>
    intro b x ls hx hn hl
    unfold bnNeed at hn
    have hx' : Real6 (if b = true then x else x * x) := by
      split
      · exact hx
      · exact hx.mul hx
    have h1 := real_ell hP hx' (ls := ls) (by split at hn <;> omega) hl
    by_cases hd : d = 1 ∨ d = -1
    · rw [if_pos hd] at hn
      have e : bnLoopV b x (bothV P ls) (d :: ds) = bnLoopV false (ellV (ellV (if b = true then x else x * x) (bothV P ls))
          (bothV P (ls.drop 1))) (bothV P (ls.drop 2)) ds := by
        conv_lhs => unfold bnLoopV
        simp only [hd, if_true, dropV_both]
      rw [e]
      have h2 := real_ell hP h1 (ls := ls.drop 1) (by rw [List.length_drop]; omega) (good_drop hl 1)
      exact ih false h2 (by rw [List.length_drop]; omega) (good_drop hl 2)
    · rw [if_neg hd] at hn
      have e : bnLoopV b x (bothV P ls) (d :: ds) = bnLoopV false (ellV (if b = true then x else x * x) (bothV P ls))
          (bothV P (ls.drop 1)) ds := by
        conv_lhs => unfold bnLoopV
        simp only [hd, if_false, dropV_both]
      rw [e]
      exact ih false h1 (by rw [List.length_drop]; omega) (good_drop hl 1)

theorem real_bls {P : ZMod (pairQ .bls12_381) × ZMod (pairQ .bls12_381)} (hP : P.2 ≠ 0) (is : List Bool) :
    ∀ (b : Bool) {x : Fq12 (pairQ .bls12_381) .bls12_381} {ls : List (Line (Fq2 (pairQ .bls12_381)))}, Real6 x →
      blsNeed b is ≤ ls.length → (∀ l ∈ ls, l.c0 ≠ 0) → Real6 (blsLoopV b x (bothV P ls) is) := by
  induction is with
  | nil => intro b x ls hx _ _; cases b <;> exact hx
  | cons i is ih =>
    intro b x ls hx hn hl
    cases b
    · exact ih i hx hn hl
    unfold blsNeed at hn
    have h1 := real_ell hP hx (ls := ls) (by split at hn <;> omega) hl
    cases i
    · simp only [Bool.false_eq_true, if_false] at hn
      have e : blsLoopV true x (bothV P ls) (false :: is) = blsLoopV true (ellV x (bothV P ls) * ellV x (bothV P ls))
          (bothV P (ls.drop 1)) is := by
        simp only [blsLoopV, Bool.false_eq_true, if_false, dropV_both]
      rw [e]
      have h2 := h1.mul h1
      exact ih true h2 (by rw [List.length_drop]; omega) (good_drop hl 1)
    · simp only [if_true] at hn
      have e : blsLoopV true x (bothV P ls) (true :: is) = blsLoopV true (ellV (ellV x (bothV P ls)) (bothV P (ls.drop 1)) *
          ellV (ellV x (bothV P ls)) (bothV P (ls.drop 1))) (bothV P (ls.drop 2)) is := by
        simp only [blsLoopV, if_true, dropV_both]
      rw [e]
      have h2 := real_ell hP h1 (ls := ls.drop 1) (by rw [List.length_drop]; omega) (good_drop hl 1)
      have h3 := h2.mul h2
      exact ih true h3 (by rw [List.length_drop]; omega) (good_drop hl 2)

theorem real_miller {P : ZMod (pairQ crv) × ZMod (pairQ crv)} (hP : P.2 ≠ 0) {q : Fq2 (pairQ crv) × Fq2 (pairQ crv)}
    (hl : ∀ l ∈ prepV crv q, l.c0 ≠ 0) : Real6 (millerV crv (bothV P (prepV crv q))) := by
  have hn := prepV_length crv q
  generalize prepV crv q = ls at hl hn
  cases crv
  · have h1 := real_bn hP naf_digits true .one (ls := ls) (by simp only [needOf] at hn; omega) hl
    have h2 := real_ell hP h1 (ls := ls.drop (bnNeed naf_digits)) (by rw [List.length_drop, hn, needOf]; omega) (good_drop hl _)
    exact real_ell hP h2 (ls := ls.drop (bnNeed naf_digits + 1)) (by rw [List.length_drop, hn, needOf]; omega) (good_drop hl _)
  · have h1 := real_bls hP (bits64 (BLS_X >>> 1)) false .one (ls := ls) (by simp only [needOf] at hn; omega) hl
    have h2 := real_ell hP h1 (ls := ls.drop (blsNeed false (bits64 (BLS_X >>> 1)))) (by rw [List.length_drop, hn, needOf]; omega)
      (good_drop hl _)
    have e : ∀ x : Fq12 (pairQ .bls12_381) .bls12_381, Real6 x → Real6 (conj12 x) := fun x hx => by rw [hx.1]; exact hx
    exact e _ h2

/-! ## The lines of a second point -/

section generic
variable {K : Type} [CommRing K]

/-- One step: a doubling, or an addition. -/
def stepV (o : Option (K × K)) (p : Jac K) : Line K × Jac K :=
  match o with
  | none => dblV p
  | some g => addV p g

def linesV : List (Option (K × K)) → Jac K → List (Line K)
  | [], _ => []
  | o :: os, p => (stepV o p).1 :: linesV os (stepV o p).2

def endV (os : List (Option (K × K))) (p : Jac K) : Jac K := os.foldl (fun p o => (stepV o p).2) p

theorem linesV_append (os os' : List (Option (K × K))) : ∀ p, linesV (os ++ os') p = linesV os p ++ linesV os' (endV os p) := by
  induction os with
  | nil => intro p; rfl
  | cons o os ih => intro p; simp only [List.cons_append, linesV, ih]; rfl

def bnSteps {X : Type} (q nq : X) (ds : List ℤ) : List (Option X) :=
  ds.flatMap fun d => if d = 1 then [none, some q] else if d = -1 then [none, some nq] else [none]

def blsSteps {X : Type} (q : X) (is : List Bool) : List (Option X) := is.flatMap fun i => if i then [none, some q] else [none]

theorem bnFold_steps (q nq : K × K) (ds : List ℤ) : ∀ (ls : List (Line K)) (p : Jac K),
    ds.foldl (bnPrepStepV q nq) (ls, p) = (ls ++ linesV (bnSteps q nq ds) p, endV (bnSteps q nq ds) p) := by
  induction ds with
  | nil => intro ls p; simp [bnSteps, linesV, endV]
  | cons d ds ih =>
    intro ls p
    have e : ∀ os, endV (none :: os) p = endV os (dblV p).2 := fun os => rfl
    have e' : ∀ (os : List (Option (K × K))) g p, endV (some g :: os) p = endV os (addV p g).2 := fun os g p => rfl
    have l : ∀ os, linesV (none :: os) p = (dblV p).1 :: linesV os (dblV p).2 := fun os => rfl
    have l' : ∀ (os : List (Option (K × K))) g p, linesV (some g :: os) p = (addV p g).1 :: linesV os (addV p g).2 := fun os g p => rfl
    have b : bnSteps q nq (d :: ds) = (if d = 1 then [none, some q] else if d = -1 then [none, some nq] else [none]) ++
      bnSteps q nq ds := rfl
    have s : bnPrepStepV q nq (ls, p) d = if d = 1 then (ls ++ [(dblV p).1] ++ [(addV (dblV p).2 q).1], (addV (dblV p).2 q).2)
      else if d = -1 then (ls ++ [(dblV p).1] ++ [(addV (dblV p).2 nq).1], (addV (dblV p).2 nq).2)
      else (ls ++ [(dblV p).1], (dblV p).2) := rfl
    rw [List.foldl_cons, s, b]
    split
    · rw [ih]; simp only [List.cons_append, List.nil_append, e, e', l, l', List.append_assoc]
    · split
      · rw [ih]; simp only [List.cons_append, List.nil_append, e, e', l, l', List.append_assoc]
      · rw [ih]; simp only [List.cons_append, List.nil_append, e, l, List.append_assoc]

theorem blsFold_steps (q : K × K) (is : List Bool) : ∀ (ls : List (Line K)) (p : Jac K),
    is.foldl (blsPrepStepV q) (true, ls, p) = (true, ls ++ linesV (blsSteps q is) p, endV (blsSteps q is) p) := by
  induction is with
  | nil => intro ls p; simp [blsSteps, linesV, endV]
  | cons i is ih =>
    intro ls p
    have e : ∀ os, endV (none :: os) p = endV os (dblV p).2 := fun os => rfl
    have e' : ∀ (os : List (Option (K × K))) g p, endV (some g :: os) p = endV os (addV p g).2 := fun os g p => rfl
    have l : ∀ os, linesV (none :: os) p = (dblV p).1 :: linesV os (dblV p).2 := fun os => rfl
    have l' : ∀ (os : List (Option (K × K))) g p, linesV (some g :: os) p = (addV p g).1 :: linesV os (addV p g).2 := fun os g p => rfl
    have b : blsSteps q (i :: is) = (if i then [none, some q] else [none]) ++ blsSteps q is := rfl
    rw [List.foldl_cons, b]
    cases i
    · show List.foldl (blsPrepStepV q) (true, ls ++ [(dblV p).1], (dblV p).2) is = _
      rw [ih]; simp only [Bool.false_eq_true, if_false, List.cons_append, List.nil_append, e, l, List.append_assoc]
    · show List.foldl (blsPrepStepV q) (true, ls ++ [(dblV p).1] ++ [(addV (dblV p).2 q).1], (addV (dblV p).2 q).2) is = _
      rw [ih]; simp only [if_true, List.cons_append, List.nil_append, e, e', l, l', List.append_assoc]

end generic

/-- The lines of the steps from `p` are proper. -/
def okN (q : ℕ) : List (Option ((ℕ × ℕ) × (ℕ × ℕ))) → JacN → Bool
  | [], _ => true
  | none :: os, p =>
    if p.1.1 < q ∧ p.1.2 < q ∧ nz2 q p.2.1 = true ∧ nz2 q p.2.2 = true then okN q os (dblN q p) else false
  | some g :: os, p => if nz2 q (hN q p g) = true ∧ nz2 q p.2.2 = true then okN q os (addN q p g) else false

def toPt (q : ℕ) (g : (ℕ × ℕ) × (ℕ × ℕ)) : Fq2 q × Fq2 q := (toFq2 q g.1, toFq2 q g.2)

theorem mul_ne_zero_2 {x y : Fq2 (pairQ crv)} (hx : x ≠ 0) (hy : y ≠ 0) : x * y ≠ 0 := fun e => by
  have h1 : emb12 (crv := crv) x * emb12 y = 0 := by
    rw [← embHom_apply, ← embHom_apply, ← map_mul, e, map_zero]
  rcases mul_eq_zero.1 h1 with h | h
  · exact hx (emb_inj (crv := crv) (h.trans (map_zero _).symm))
  · exact hy (emb_inj (crv := crv) (h.trans (map_zero _).symm))

theorem two_ne_zero_2' : (2 : Fq2 (pairQ crv)) ≠ 0 := fun e => two_ne_zero_12 (crv := crv) (by
  have := congrArg (embHom (pairQ crv) crv) e
  rwa [map_ofNat, map_zero] at this)

theorem okN_sound (os : List (Option ((ℕ × ℕ) × (ℕ × ℕ)))) : ∀ (p : JacN), okN (pairQ crv) os p = true →
    ∀ l ∈ linesV (os.map (Option.map (toPt (pairQ crv)))) (toJac (pairQ crv) p), l.c0 ≠ 0 := by
  have hq : 0 < pairQ crv := (Fact.out : (pairQ crv).Prime).pos
  induction os with
  | nil => intro p _ l hl; cases hl
  | cons o os ih =>
    intro p h l hl
    cases o with
    | none =>
      unfold okN at h
      split at h
      · next hc =>
        simp only [List.map_cons, Option.map_none, linesV, stepV, List.mem_cons] at hl
        rcases hl with rfl | hl
        · have hy : (toJac (pairQ crv) p).y ≠ 0 := toFq2_nz hc.2.2.1
          have hz : (toJac (pairQ crv) p).z ≠ 0 := toFq2_nz hc.2.2.2
          have e : (dblV (toJac (pairQ crv) p)).1.c0 = 2 * (2 * ((toJac (pairQ crv) p).y * ((toJac (pairQ crv) p).z *
              ((toJac (pairQ crv) p).z * (toJac (pairQ crv) p).z)))) := by simp only [dblV]; ring
          rw [e]
          exact mul_ne_zero_2 two_ne_zero_2' (mul_ne_zero_2 two_ne_zero_2' (mul_ne_zero_2 hy (mul_ne_zero_2 hz (mul_ne_zero_2 hz hz))))
        · rw [← toJac_dbl hq] at hl
          exact ih _ h l hl
      · cases h
    | some g =>
      unfold okN at h
      split at h
      · next hc =>
        simp only [List.map_cons, Option.map_some, linesV, stepV, List.mem_cons] at hl
        rcases hl with rfl | hl
        · have hh := toFq2_nz hc.1
          rw [toFq2_h hq] at hh
          have hz : (toJac (pairQ crv) p).z ≠ 0 := toFq2_nz hc.2
          exact mul_ne_zero_2 two_ne_zero_2' (mul_ne_zero_2 two_ne_zero_2' (mul_ne_zero_2 hz hh))
        · rw [toPt, ← toJac_add hq] at hl
          exact ih _ h l hl
      · cases h

/-! ## The pair (1, 1) -/

/-- The pair `(1, 1)` of elements of `Fq2`. -/
def onePt (q : ℕ) : Fq2 q × Fq2 q := (1, 1)

def oneN : (ℕ × ℕ) × (ℕ × ℕ) := ((1, 0), (1, 0))

def bnXi : ℕ × ℕ := (from_bytes_le ((XI_TO_Q_MINUS_1_OVER_2[0]?).getD []), from_bytes_le ((XI_TO_Q_MINUS_1_OVER_2[1]?).getD []))

/-- The steps of the preparation of `(1, 1)`. -/
def oneSteps : PairingCurve → List (Option ((ℕ × ℕ) × (ℕ × ℕ)))
  | .bn256 => bnSteps oneN ((1, 0), (bnQ - 1, 0)) naf_digits ++
      [some (tab FROBENIUS_COEFF_FQ6_C1 1, bnXi), some (tab FROBENIUS_COEFF_FQ6_C1 2, (1, 0))]
  | .bls12_381 => blsSteps oneN blsBits ++ [none]

theorem ok_bn : okN bnQ (oneSteps .bn256) ((1, 0), (1, 0), (1, 0)) = true := by decide +kernel
theorem ok_bls : okN blsQ (oneSteps .bls12_381) ((1, 0), (1, 0), (1, 0)) = true := by decide +kernel

theorem re_one2 {q : ℕ} : (1 : Fq2 q).re = 1 := rfl
theorem im_one2 {q : ℕ} : (1 : Fq2 q).im = 0 := rfl

theorem oneN_eq (q : ℕ) : toPt q oneN = onePt q := by
  refine Prod.ext ?_ ?_ <;> ext <;> simp [toPt, oneN, onePt, toFq2, re_one2, im_one2]

theorem oneJ_eq (q : ℕ) : toJac q ((1, 0), (1, 0), (1, 0)) = ⟨1, 1, 1⟩ := by
  ext <;> simp [toJac, toFq2, re_one2, im_one2]

theorem map_bnSteps {X Y : Type} (f : X → Y) (q nq : X) (ds : List ℤ) :
    (bnSteps q nq ds).map (Option.map f) = bnSteps (f q) (f nq) ds := by
  unfold bnSteps
  rw [List.map_flatMap]
  congr 1
  funext d
  split
  · rfl
  · split <;> rfl

theorem map_blsSteps {X Y : Type} (f : X → Y) (q : X) (is : List Bool) :
    (blsSteps q is).map (Option.map f) = blsSteps (f q) is := by
  unfold blsSteps
  rw [List.map_flatMap]
  congr 1
  funext d
  split <;> rfl

theorem prep_one (crv : PairingCurve) :
    prepV crv (onePt (pairQ crv)) = linesV ((oneSteps crv).map (Option.map (toPt (pairQ crv)))) ⟨1, 1, 1⟩ := by
  cases crv
  · have hneg : toPt (pairQ .bn256) ((1, 0), (bnQ - 1, 0)) = ((onePt (pairQ .bn256)).1, -(onePt (pairQ .bn256)).2) := by
      have hb : ((bnQ - 1 : ℕ) : ZMod (pairQ .bn256)) = -1 := by
        rw [Nat.cast_sub (by decide +kernel), Nat.cast_one, show ((bnQ : ℕ) : ZMod (pairQ .bn256)) = 0 from ZMod.natCast_self _, zero_sub]
      refine Prod.ext ?_ ?_ <;> ext
      · simp [toPt, onePt, toFq2, re_one2]
      · simp [toPt, onePt, toFq2, im_one2]
      · simpa [toPt, onePt, toFq2, re_one2, im_one2] using hb
      · simp [toPt, onePt, toFq2, im_one2]
    have hc : (⟨(1 : Fq2 (pairQ .bn256)).re, -(1 : Fq2 (pairQ .bn256)).im⟩ : Fq2 (pairQ .bn256)) = 1 := by ext <;> simp [re_one2, im_one2]
    have h1 : bnQ1 (onePt (pairQ .bn256)) = toPt _ (tab FROBENIUS_COEFF_FQ6_C1 1, bnXi) := by
      simp only [bnQ1, onePt, hc, _root_.one_mul]; rfl
    have h2 : bnQ2 (onePt (pairQ .bn256)) = toPt _ (tab FROBENIUS_COEFF_FQ6_C1 2, (1, 0)) := by
      simp only [bnQ2, onePt, _root_.one_mul]
      exact Prod.ext rfl (congrArg Prod.snd (oneN_eq (pairQ .bn256))).symm
    have e : oneSteps .bn256 = bnSteps oneN ((1, 0), (bnQ - 1, 0)) naf_digits ++
      [some (tab FROBENIUS_COEFF_FQ6_C1 1, bnXi), some (tab FROBENIUS_COEFF_FQ6_C1 2, (1, 0))] := rfl
    rw [e, List.map_append, map_bnSteps, hneg, oneN_eq, linesV_append]
    show bnPrepV _ = _
    simp only [bnPrepV, bnFold, bnFold_steps, h1, h2, List.nil_append, List.append_assoc]
    rfl
  · have e : oneSteps .bls12_381 = blsSteps oneN blsBits ++ [none] := rfl
    rw [e, List.map_append, map_blsSteps, oneN_eq, linesV_append]
    have f : blsFold (onePt (pairQ .bls12_381)) (bits64 (BLS_X >>> 1)) =
        blsBits.foldl (blsPrepStepV (onePt (pairQ .bls12_381))) (true, [], ⟨1, 1, 1⟩) := by
      rw [blsFold, blsBits_eq]; rfl
    show blsPrepV _ = _
    simp only [blsPrepV, f, blsFold_steps, List.nil_append]
    rfl

/-- The lines of `(1, 1)` are proper. -/
theorem lines_one (crv : PairingCurve) : ∀ l ∈ prepV crv (onePt (pairQ crv)), l.c0 ≠ 0 := by
  rw [prep_one, ← oneJ_eq]
  refine okN_sound _ _ ?_
  cases crv
  · exact ok_bn
  · exact ok_bls

end Verif
