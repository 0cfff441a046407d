import Verif.Proof.Pairing
import Verif.Proof.PairingRuns
import Verif.Proof.AteNeg

/-!
# C41, C42, C48: line steps, Miller loops and the pairing check

`ate` (`Verif.Spec.AtePairing`) is the optimal ate pairing, defined with the group law and the chords and tangents of the
curve `y² = x³ + b` over `Fq12`, Miller's algorithm and the final exponent. The circuits work on the twist over `Fq2`, in
Jacobian coordinates, with sparse multiplications.
-/

namespace Verif
open WeierstrassCurve.Affine
variable {n : ℕ} {crv : PairingCurve} {info : RangeInfo n}

/-! ## C41 -/

theorem encJac_at {wm : ℕ} {info : RangeInfo n} : (encJac wm info).At info atJ where
  rep w a p := by simp only [atJ, List.forall_mem_append, ← enc2_at.rep]; rfl
  hrep a p := by simp only [atJ, List.forall_mem_append, ← enc2_at.hrep]; rfl
  ok h a p := by simp only [atJ, List.forall_mem_append, ← (enc2_at (info := info)).ok]; rfl

theorem encLine_at {wm : ℕ} {info : RangeInfo n} : (encLine wm info).At info atLn where
  rep w a p := by simp only [atLn, List.forall_mem_append, ← enc2_at.rep]; rfl
  hrep a p := by simp only [atLn, List.forall_mem_append, ← enc2_at.hrep]; rfl
  ok h a p := by simp only [atLn, List.forall_mem_append, ← (enc2_at (info := info)).ok]; rfl

theorem encAff_at {wm : ℕ} {info : RangeInfo n} :
    (encAff wm info).At info fun a (q : Fq2 wm × Fq2 wm) => at2 a.x q.1 ++ at2 a.y q.2 where
  rep w a p := by simp only [List.forall_mem_append, ← enc2_at.rep]; rfl
  hrep a p := by simp only [List.forall_mem_append, ← enc2_at.hrep]; rfl
  ok h a p := by simp only [List.forall_mem_append, ← (enc2_at (info := info)).ok]; rfl

/-- `Fq2` is a field (C38). -/
noncomputable abbrev fieldFq2 (crv : PairingCurve) : Field (Fq2 (pairQ crv)) := fieldOf (C38_tower_is_field crv).1

section
attribute [local instance] fieldFq2
theorem two_ne_zero_2 : (2 : Fq2 (pairQ crv)) ≠ 0 := fun e => two_ne_zero_12 (crv := crv) (by
  have := congrArg (embHom (pairQ crv) crv) e
  rwa [map_ofNat, map_zero] at this)

theorem three_ne_zero_2 : (3 : Fq2 (pairQ crv)) ≠ 0 := fun e => by
  have := congrArg QuadraticAlgebra.re e
  have h : (3 : ZMod (pairQ crv)) ≠ 0 := by cases crv <;> decide +kernel
  exact h this

open Classical in
theorem dblV_isDouble (p : Jac (Fq2 (pairQ crv))) : IsDouble p (dblV p) :=
  fun b x y h hp hy => dblV_is (b := b) two_ne_zero_2 hp hy h

open Classical in
theorem addV_isSum (p : Jac (Fq2 (pairQ crv))) (q : Fq2 (pairQ crv) × Fq2 (pairQ crv)) : IsSum p q (addV p q) :=
  fun b x y h h' hp hx => addV_is (b := b) two_ne_zero_2 hp hx h h'

theorem Computes.realises {A B X Y : Type} {dom : Enc n A X} {cod : Enc n B Y} {m : A → M n B} {f : X → Y} {G : X → Y → Prop}
    (h : Computes dom cod m f) (hG : ∀ x, G x (f x)) : Realises dom cod m G where
  sound a c w hw := S.mono (h.sound a c w hw) fun r hr x hx => by
    obtain ⟨y, rfl, hy⟩ := hr x hx
    exact ⟨_, hG x, hy⟩
  complete a x hx _ c k := C.mono (h.complete a x hx ⟨_, rfl⟩ c k) (fun r hr => by
    obtain ⟨y, rfl, hy⟩ := hr
    exact ⟨_, hG x, hy⟩) fun r _ _ hr => hr

open Classical in
/-- C41, doubling: every satisfying assignment gives the double and the tangent, and the recorded witness is accepted. -/
theorem C41_doubling_step (E : Env (pairQ crv) info) :
    Realises (encJac (pairQ crv) info) ((encLine _ info).prod (encJac _ info)) (doubling_step info) IsDouble := by
  have : Nonempty (Jac (Fq2 (pairQ crv))) := ⟨⟨0, 0, 0⟩⟩
  exact Computes.realises (f := dblV) (Computes.of_J encJac_at (encLine_at.prod encJac_at)
    fun md a p => J_doubling_step E (List.Subset.refl _)) dblV_isDouble

open Classical in
/-- C41, addition: every satisfying assignment gives the sum and the chord, and the recorded witness is accepted. -/
theorem C41_addition_step (E : Env (pairQ crv) info) :
    Realises ((encJac (pairQ crv) info).prod (encAff _ info)) ((encLine _ info).prod (encJac _ info))
      (fun a => addition_step info a.1 a.2) (fun x r => IsSum x.1 x.2 r) := by
  have : Nonempty (Jac (Fq2 (pairQ crv)) × Fq2 (pairQ crv) × Fq2 (pairQ crv)) := ⟨⟨⟨0, 0, 0⟩, 0, 0⟩⟩
  exact Computes.realises (f := fun x => addV x.1 x.2) (Computes.of_J (encJac_at.prod encAff_at) (encLine_at.prod encJac_at)
    fun md a p => J_addition_step E (by sub) (by sub) (by sub)) fun x => addV_isSum x.1 x.2

/-- The hypotheses of C41 are met: both environments exist; `(1, 1, 1)` describes a point of `y² = x³` with `y ≠ 0`, and
`(4, 8)` is another one. -/
example : (∃ info : RangeInfo bnR, Env (pairQ .bn256) info) ∧ (∃ info : RangeInfo bnR, Env (pairQ .bls12_381) info) :=
  ⟨env_bn256, env_bls12_381⟩

example : (curveOver (0 : Fq2 (pairQ crv))).Nonsingular 1 1 ∧ (Jac.mk 1 1 1 : Jac (Fq2 (pairQ crv))).Is 1 1 ∧
    (1 : Fq2 (pairQ crv)) ≠ 0 ∧ (curveOver (0 : Fq2 (pairQ crv))).Nonsingular 4 8 ∧ (1 : Fq2 (pairQ crv)) ≠ 4 := by
  have h2 := two_ne_zero_2 (crv := crv)
  have h3 := three_ne_zero_2 (crv := crv)
  have h8 : (8 : Fq2 (pairQ crv)) = 2 * 2 * 2 := by norm_num
  have h4 : (4 : Fq2 (pairQ crv)) - 1 = 3 := by norm_num
  refine ⟨?_, ⟨one_ne_zero, by ring, by ring⟩, one_ne_zero, ?_, fun e => h3 ?_⟩
  · rw [nonsingular_iff, equation_iff]
    simp only [curveOver]
    refine ⟨by ring, .inr fun e => h2 ?_⟩
    linear_combination e
  · rw [nonsingular_iff, equation_iff]
    simp only [curveOver]
    refine ⟨by ring, .inr fun e => ?_⟩
    have : (2 * 2 * 2 * 2 : Fq2 (pairQ crv)) = 0 := by linear_combination e
    simp [h2] at this
  · rw [← h4, ← e, sub_self]

end

/-! ## C42 -/

/-- The number of lines: one for every digit, one more for every non-zero digit, and two more for bn256. -/
def lineCount (crv : PairingCurve) : ℕ :=
  (loopDigits crv).length + (loopDigits crv).countP (· ≠ 0) + match crv with | .bn256 => 2 | .bls12_381 => 0

theorem needOf_eq (crv : PairingCurve) : needOf crv = lineCount crv := by cases crv <;> decide +kernel

/-- C42: every run of `prepare_g2` that does not panic produces exactly `lineCount` lines. -/
theorem C42_prepare_g2_count (q : AssignedG2Affine n) (s : Context n) (r : List (LineCoeffs n)) (t : Context n)
    (h : prepare_g2 info crv q s = .ok (r, t)) : r.length = lineCount crv := by
  rw [← needOf_eq]
  cases crv
  · exact bn_prepare_count q s r t h
  · exact bls_prepare_count q s r t h

/-- C42: a run of `multi_miller_loop` that does not panic has found `lineCount` lines for every pair; for bn256, where the
code checks that none is left, exactly so many. -/
theorem C42_miller_loop_count (ps : List (AssignedPoint n × List (LineCoeffs n))) (s : Context n) (r : AssignedFq12 n)
    (t : Context n) (h : multi_miller_loop info crv ps s = .ok (r, t)) :
    ∀ p ∈ ps, lineCount crv ≤ p.2.length ∧ (crv = .bn256 → p.2.length = lineCount crv) := by
  intro p hp
  rw [← needOf_eq]
  cases crv
  · have := bn_miller_runs ps s r t h p hp
    exact ⟨this.ge, fun _ => this⟩
  · exact ⟨bls_miller_runs ps s r t h p hp, fun e => by cases e⟩

/-- C42: the tables encode the loop counters `6 u + 2` and `|x|`, and the numbers of lines are 91 and 68. -/
theorem C42_tables : digitValue (loopDigits .bn256) = 6 * BN_X + 2 ∧ digitValue (loopDigits .bls12_381) = BLS_X ∧
    lineCount .bn256 = 91 ∧ lineCount .bls12_381 = 68 :=
  ⟨digitValue_bn, digitValue_bls, by decide +kernel, by decide +kernel⟩

/-! ## C48 -/

/-- The facts about inputs; there are none for lists of different lengths. -/
def atIns {wm : ℕ} (ts : List (AssignedPoint n × AssignedG2Affine n)) (vs : List (PairV n wm)) : List (Atom n wm) :=
  if ts.length = vs.length then atF atIn ts vs else fct False

theorem forall₂_atF {A X : Type} {wm : ℕ} {g : A → X → List (Atom n wm)} {R : A → X → Prop} {Q : Atom n wm → Prop}
    (h : ∀ a x, R a x ↔ ∀ F ∈ g a x, Q F) : ∀ (as : List A) (xs : List X),
    List.Forall₂ R as xs ↔ as.length = xs.length ∧ ∀ F ∈ atF g as xs, Q F
  | [], [] => by simp [atF]
  | [], _ :: _ => by simp
  | _ :: _, [] => by simp
  | a :: as, x :: xs => by
    rw [List.forall₂_cons, forall₂_atF h as xs, atF_cons, List.forall_mem_append, h]
    simp only [List.length_cons, Nat.add_right_cancel_iff]
    tauto

theorem encPair_at {wm : ℕ} {info : RangeInfo n} : (encPair wm info).At info atIn where
  rep w a v := by
    simp only [atIn, List.forall_mem_append, ← enc2_at.rep, ← enc1_at.rep, atc, List.forall_mem_singleton]; rfl
  hrep a v := by
    simp only [atIn, List.forall_mem_append, ← enc2_at.hrep, ← enc1_at.hrep, atc, List.forall_mem_singleton]; rfl
  ok h a v := by
    simp only [atIn, List.forall_mem_append, ← (enc2_at (info := info)).ok, ← (enc1_at (info := info)).ok, atc,
      List.forall_mem_singleton]; rfl

/-- The second components lie in the second pairing group. -/
def InputsOk (vs : List (PairV n (pairQ crv))) : Prop := ∀ v ∈ vs, InG2 crv (untwist crv (v.qx, v.qy))

/-- The product of the pairings. -/
noncomputable def pairProd (vs : List (PairV n (pairQ crv))) : Fq12 (pairQ crv) crv :=
  (vs.map fun v => ate crv (untwist crv (v.qx, v.qy)) (embQ v.px, embQ v.py)).prod

/-- No flag is set: the points are not the identity. -/
def NoFlags (vs : List (PairV n (pairQ crv))) : Prop := ∀ v ∈ vs, v.pz = 0 ∧ v.qz = 0

theorem realises_inputs {B Y : Type} {cod : Enc n B Y} {m : List (AssignedPoint n × AssignedG2Affine n) → M n B}
    {k : B → Y → List (Atom n (pairQ crv))} (hc : cod.At info k) (D : List (PairV n (pairQ crv)) → Prop)
    (f : List (PairV n (pairQ crv)) → Y)
    (h : ∀ (md : Mode n) ts (vs : List (PairV n (pairQ crv))), ts.length = vs.length → (md.Honest → D vs) →
      J info md (atF atIn ts vs) (m ts) (fun r => fct (D vs) ++ k r (f vs))) :
    Realises (encPair (pairQ crv) info).list cod m (fun vs y => D vs ∧ y = f vs) where
  sound ts c w hw := by
    refine S.forall fun vs => ?_
    by_cases hl : ts.length = vs.length
    · refine S.mono (h (.sound c w hw) ts vs hl (fun h => h.elim)) fun r hr hx => ?_
      have := hr ((forall₂_atF (encPair_at.rep w) ts vs).1 hx).2
      rw [List.forall_mem_append] at this
      exact ⟨f vs, ⟨this.1 _ (List.mem_singleton.2 rfl), rfl⟩, (hc.rep w r _).2 this.2⟩
    · have hd := h (.sound c w hw) ts (ts.map fun _ => ⟨0, 0, 0, 0, 0, 0⟩) (by simp) (fun h => h.elim)
      exact S.mono hd fun r _ hx => absurd (List.Forall₂.length_eq hx) hl
  complete ts vs hx hy c k' := by
    obtain ⟨y, hD, rfl⟩ := hy
    obtain ⟨hl, hr⟩ := (forall₂_atF encPair_at.hrep ts vs).1 hx
    have hok : (∀ a ∈ ts, (encPair (pairQ crv) info).ok k' a) → ∀ F ∈ atF atIn ts vs, F.Okay k' := by
      intro ho
      have : List.Forall₂ (fun a (_ : PairV n (pairQ crv)) => (encPair (pairQ crv) info).ok k' a) ts vs := by
        refine List.forall₂_iff_zip.2 ⟨hl, fun {a b} hab => ho a (List.of_mem_zip hab).1⟩
      exact ((forall₂_atF (fun a x => encPair_at.ok k' a x) ts vs).1 this).2
    refine C.mono ((h (.honest c k') ts vs hl (fun _ => hD) hr).weaken hok) (fun r hr => ?_) fun r _ _ hr => ?_
    · rw [List.forall_mem_append] at hr
      exact ⟨_, ⟨hD, rfl⟩, (hc.hrep r _).2 hr.2⟩
    · rw [List.forall_mem_append] at hr
      exact (hc.ok k' r _).2 hr.2

/-- Operands encoded in another way. -/
theorem Realises.comap {A B X Y A' X' : Type} {dom : Enc n A X} {cod : Enc n B Y} {m : A → M n B} {G : X → Y → Prop}
    (h : Realises dom cod m G) {dom' : Enc n A' X'} (fa : A' → A) (fx : X' → X)
    (h1 : ∀ w a x, dom'.rep w a x → dom.rep w (fa a) (fx x)) (h2 : ∀ a x, dom'.hrep a x → dom.hrep (fa a) (fx x))
    (h3 : ∀ k a, dom'.ok k a → dom.ok k (fa a)) :
    Realises dom' cod (fun a => m (fa a)) (fun x y => G (fx x) y) where
  sound a c w hw := S.mono (h.sound (fa a) c w hw) fun r hr x hx => hr (fx x) (h1 w a x hx)
  complete a x hx hy c k := C.mono ((h.complete (fa a) (fx x) (h2 a x hx) hy c k).weaken (h3 k a)) (fun r hr => hr)
    fun r _ _ hr => hr

/-- Restriction to the elements with `D`. -/
theorem Realises.sub {A B X Y : Type} {dom : Enc n A X} {cod : Enc n B Y} {m : A → M n B} {G : X → Y → Prop}
    (h : Realises dom cod m G) (D : X → Prop) : Realises (dom.sub D) cod m (fun x y => G x.1 y) :=
  h.comap id Subtype.val (fun _ _ _ h => h) (fun _ _ h => h) fun _ _ h => h

theorem Realises.congr {A B X Y : Type} {dom : Enc n A X} {cod : Enc n B Y} {m : A → M n B} {G G' : X → Y → Prop}
    (h : Realises dom cod m G) (e : ∀ x y, G x y ↔ G' x y) : Realises dom cod m G' := by
  have : G = G' := funext fun x => funext fun y => propext (e x y)
  exact this ▸ h

/-- Without any assumption on the second points, in terms of the values of the Miller loops. -/
theorem pairing_realises (E : Env (pairQ crv) info) :
    Realises (encPair (pairQ crv) info).list (enc12 (pairQ crv) info crv) (pairing info crv)
      (fun vs y => (NoFlags vs ∧ millerOf crv vs ≠ 0) ∧ y = millerOf crv vs ^ finalExponent crv) :=
  realises_inputs (crv := crv) (info := info) enc12_at (fun vs => NoFlags vs ∧ millerOf crv vs ≠ 0)
    (fun vs => millerOf crv vs ^ finalExponent crv)
    fun md ts vs hl hh => J_pairing E hl (List.Subset.refl _) hh

theorem check_pairing_realises (E : Env (pairQ crv) info) :
    Realises (encPair (pairQ crv) info).list encU (check_pairing info crv)
      (fun vs y => (NoFlags vs ∧ millerOf crv vs ^ finalExponent crv = 1) ∧ y = ()) :=
  realises_inputs (crv := crv) (info := info) encU_at
    (fun vs => NoFlags vs ∧ millerOf crv vs ^ finalExponent crv = 1) (fun _ => ())
    fun md ts vs hl hh => by
      simp only [List.append_nil]
      exact J_check_pairing E hl (List.Subset.refl _) hh

theorem millerOf_prod {vs : List (PairV n (pairQ crv))} (h : InputsOk vs) :
    millerOf crv vs ^ finalExponent crv = pairProd vs := millerOf_pow h

theorem millerOf_ne_zero {vs : List (PairV n (pairQ crv))} (h : InputsOk vs) : millerOf crv vs ≠ 0 ↔ pairProd vs ≠ 0 := by
  have hN : finalExponent crv ≠ 0 := by cases crv <;> decide +kernel
  rw [← millerOf_prod h]
  exact (pow_ne_zero_iff hN).symm

/-- C48: `pairing` computes the product of the optimal ate pairings of its inputs. In every satisfying assignment no flag is
set, the product is not zero and the result represents it; the recorded witness of such inputs is accepted. The second
points are assumed to lie in their pairing group, which the circuit does not check; nothing is assumed of the first. -/
theorem C48_pairing (E : Env (pairQ crv) info) :
    Realises ((encPair (pairQ crv) info).list.sub InputsOk) (enc12 (pairQ crv) info crv) (pairing info crv)
      (fun vs y => (NoFlags vs.1 ∧ pairProd vs.1 ≠ 0) ∧ y = pairProd vs.1) :=
  ((pairing_realises E).sub InputsOk).congr fun vs y => by rw [millerOf_ne_zero vs.2, millerOf_prod vs.2]

/-- C48: `check_pairing` accepts exactly the inputs without flags whose product of pairings is one. -/
theorem C48_check_pairing (E : Env (pairQ crv) info) :
    Realises ((encPair (pairQ crv) info).list.sub InputsOk) encU (check_pairing info crv)
      (fun vs _ => NoFlags vs.1 ∧ pairProd vs.1 = 1) :=
  ((check_pairing_realises E).sub InputsOk).congr fun vs y => by
    rw [millerOf_prod vs.2]
    exact ⟨fun h => h.1, fun h => ⟨h, rfl⟩⟩

/-! ### Points of the curve -/

/-- The curves have no points with ordinate 0 over `Fq`. -/
theorem no_two_torsion (crv : PairingCurve) (x : ZMod (pairQ crv)) : x ^ 3 + (pairB crv : ZMod (pairQ crv)) ≠ 0 := by
  intro h
  have h0 : x ≠ 0 := by
    rintro rfl
    rw [zero_pow (by norm_num), zero_add] at h
    revert h
    cases crv <;> decide +kernel
  have h1 := ZMod.pow_card_sub_one_eq_one h0
  have h3 : 3 * ((pairQ crv - 1) / 3) = pairQ crv - 1 := by cases crv <;> decide +kernel
  have hb : -(pairB crv : ZMod (pairQ crv)) = ((pairQ crv - pairB crv : ℕ) : ZMod (pairQ crv)) := by
    rw [Nat.cast_sub (by cases crv <;> decide +kernel), ZMod.natCast_self, zero_sub]
  have hp := pw_eq (pairQ crv) 400 (pairQ crv - pairB crv) ((pairQ crv - 1) / 3) 1 (by cases crv <;> decide +kernel)
  rw [← h3, pow_mul, eq_neg_of_add_eq_zero_left h, hb] at h1
  rw [h1, _root_.mul_one, ZMod.natCast_eq_natCast_iff'] at hp
  revert hp
  cases crv <;> decide +kernel

/-- C48: at points of the curve and of the second pairing group the pairing is not zero. -/
theorem C48_nonzero {vs : List (PairV n (pairQ crv))} (h : InputsOk vs)
    (hc : ∀ v ∈ vs, v.py ^ 2 = v.px ^ 3 + (pairB crv : ZMod (pairQ crv))) : pairProd vs ≠ 0 := by
  unfold pairProd
  rw [Ne, List.prod_eq_zero_iff, List.mem_map]
  rintro ⟨v, hv, e⟩
  have hy : v.py ≠ 0 := fun h0 => no_two_torsion crv v.px (by rw [← hc v hv, h0]; ring)
  have := ate_neg (aat_untwist (h v hv).ne_zero) (h v hv) v.px v.py hy
  rw [e, zero_mul] at this
  exact zero_ne_one this

/-- C48, for points of the curve: then nothing but the absence of flags is asked for. -/
theorem C48_pairing_on_curve (E : Env (pairQ crv) info) :
    Realises ((encPair (pairQ crv) info).list.sub fun vs => InputsOk vs ∧
        ∀ v ∈ vs, v.py ^ 2 = v.px ^ 3 + (pairB crv : ZMod (pairQ crv)))
      (enc12 (pairQ crv) info crv) (pairing info crv) (fun vs y => NoFlags vs.1 ∧ y = pairProd vs.1) :=
  ((pairing_realises E).sub _).congr fun vs y => by
    rw [millerOf_ne_zero vs.2.1, millerOf_prod vs.2.1]
    exact ⟨fun h => ⟨h.1.1, h.2⟩, fun h => ⟨⟨h.1, C48_nonzero vs.2.1 vs.2.2⟩, h.2⟩⟩

/-! ### A case meeting the hypotheses -/

/-- `[(P, G), (-P, G)]` for the generator `G` of the second group and `P = (x, y)`. -/
def oppositeInputs (n : ℕ) (crv : PairingCurve) (x y : ZMod (pairQ crv)) : List (PairV n (pairQ crv)) :=
  [⟨0, x, y, 0, (genQ crv).1, (genQ crv).2⟩, ⟨0, x, -y, 0, (genQ crv).1, (genQ crv).2⟩]

/-- The hypotheses of `C48_check_pairing` are met, and the pairing check holds, for the usual generators (kernel computation
of the order and of the Frobenius eigenvalue of `G`) and `[(P, G), (-P, G)]`, with any `P`. -/
theorem C48_opposite_inputs (x y : ZMod (pairQ crv)) (hy : y ≠ 0) : InputsOk (oppositeInputs n crv x y) ∧
    NoFlags (oppositeInputs n crv x y) ∧ pairProd (oppositeInputs n crv x y) = 1 := by
  refine ⟨?_, ?_, ?_⟩
  · intro v hv
    have : untwist crv (v.qx, v.qy) = untwist crv (genQ crv) := by
      rcases List.mem_cons.1 hv with rfl | hv
      · rfl
      · rw [List.mem_singleton.1 hv]
    rw [this]
    exact gen_inG2 crv
  · intro v hv
    rcases List.mem_cons.1 hv with rfl | hv
    · exact ⟨rfl, rfl⟩
    · rw [List.mem_singleton.1 hv]; exact ⟨rfl, rfl⟩
  · have := ate_neg (gen_at crv) (gen_inG2 crv) x y hy
    simp only [pairProd, oppositeInputs, List.map_cons, List.map_nil, List.prod_cons, List.prod_nil, _root_.mul_one]
    exact this

/-- The hypotheses of `C48_pairing_on_curve` are met by `[(P, G), (-P, G)]` for the usual generators of bn256. -/
theorem C48_on_curve_case : InputsOk (oppositeInputs bnR .bn256 1 2) ∧
    ∀ v ∈ oppositeInputs bnR .bn256 1 2, v.py ^ 2 = v.px ^ 3 + (pairB .bn256 : ZMod (pairQ .bn256)) := by
  have h1 : (2 : ZMod (pairQ .bn256)) ^ 2 = 1 ^ 3 + (pairB .bn256 : ZMod (pairQ .bn256)) := by decide +kernel
  refine ⟨(C48_opposite_inputs (crv := .bn256) 1 2 (by decide +kernel)).1, fun v hv => ?_⟩
  rcases List.mem_cons.1 hv with rfl | hv
  · exact h1
  · rw [List.mem_singleton.1 hv]
    show (-2 : ZMod (pairQ .bn256)) ^ 2 = _
    rw [neg_sq]
    exact h1

end Verif
