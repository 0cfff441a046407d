import Verif.Proof.PairingCalc
import Verif.Proof.FinalExp

/-!
# The Miller loops, the preparation of G2 points and the pairing in the combined judgement
-/

namespace Verif
variable {n wm : ℕ} {info : RangeInfo n} {crv : PairingCurve}

abbrev Terms (n : ℕ) := List (AssignedPoint n × List (LineCoeffs n))

/-- The pairs after `k` lines of each have been consumed. -/
def dropP (k : ℕ) (ps : Terms n) : Terms n := ps.map fun p => (p.1, p.2.drop k)
def dropV (k : ℕ) (vs : List (TermV wm)) : List (TermV wm) := vs.map fun v => (v.1, v.2.drop k)

theorem dropP_dropP (j k : ℕ) (ps : Terms n) : dropP j (dropP k ps) = dropP (k + j) ps := by simp [dropP]
theorem dropV_dropV (j k : ℕ) (vs : List (TermV wm)) : dropV j (dropV k vs) = dropV (k + j) vs := by simp [dropV]
theorem dropP_zero (ps : Terms n) : dropP 0 ps = ps := by simp [dropP]
theorem dropV_zero (vs : List (TermV wm)) : dropV 0 vs = vs := by simp [dropV]

theorem ell_pairs_eq' (crv : PairingCurve) (ps : Terms n) (f : AssignedFq12 n) :
    ell_pairs info crv f ps = ells info crv f ps >>= fun f => pure (f, dropP 1 ps) := by
  rw [ell_pairs_eq]
  simp [dropP]

/-- A true fact. -/
theorem J.trivial {md : Mode n} {L : List (Atom n wm)} {A : Type} {r : A} {p : Prop} (hp : p) :
    J info md L (Pure.pure r : M n A) (fun _ => fct p) := by
  cases md with
  | sound c w hw => exact S.pure fun _ A hA => by cases List.mem_singleton.1 hA; exact hp
  | honest c k =>
    refine fun _ => C.pure (fun A hA => ?_) fun _ A hA => ?_
    · cases List.mem_singleton.1 hA; exact hp
    · cases List.mem_singleton.1 hA; exact True.intro

/-! ## Values -/

def ellV (x : Fq12 wm crv) (vs : List (TermV wm)) : Fq12 wm crv := x * (vs.map (headV crv)).prod

def bnLoopV : Bool → Fq12 wm .bn256 → List (TermV wm) → List ℤ → Fq12 wm .bn256
  | _, x, _, [] => x
  | first, x, vs, d :: ds =>
    let x := ellV (if first then x else x * x) vs
    if d = 1 ∨ d = -1 then bnLoopV false (ellV x (dropV 1 vs)) (dropV 2 vs) ds
    else bnLoopV false x (dropV 1 vs) ds

def blsLoopV : Bool → Fq12 wm .bls12_381 → List (TermV wm) → List Bool → Fq12 wm .bls12_381
  | _, x, _, [] => x
  | false, x, vs, i :: is => blsLoopV i x vs is
  | true, x, vs, i :: is =>
    let x := ellV x vs
    if i then
      let y := ellV x (dropV 1 vs)
      blsLoopV true (y * y) (dropV 2 vs) is
    else blsLoopV true (x * x) (dropV 1 vs) is

/-- The number of lines a loop consumes. -/
def bnNeed : List ℤ → ℕ
  | [] => 0
  | d :: ds => (if d = 1 ∨ d = -1 then 2 else 1) + bnNeed ds

/-- The number of lines a loop consumes. -/
def blsNeed : Bool → List Bool → ℕ
  | _, [] => 0
  | false, i :: is => blsNeed i is
  | true, i :: is => (if i then 2 else 1) + blsNeed true is

/-! ## The loops, with the consumed pairs computed separately -/

def bnLoopF (info : RangeInfo n) : Bool → AssignedFq12 n → Terms n → List ℤ → M n (AssignedFq12 n)
  | _, f, _, [] => pure f
  | first, f, ps, d :: ds =>
    (if first then pure f else fq12_square info .bn256 f) >>= fun f =>
    ells info .bn256 f ps >>= fun f =>
    if d = 1 ∨ d = -1 then ells info .bn256 f (dropP 1 ps) >>= fun f => bnLoopF info false f (dropP 2 ps) ds
    else bnLoopF info false f (dropP 1 ps) ds

theorem bn_miller_loop_eq (ds : List ℤ) : ∀ (first : Bool) (f : AssignedFq12 n) (ps : Terms n),
    bn_miller_loop info first f ps ds = bnLoopF info first f ps ds >>= fun f => pure (f, dropP (bnNeed ds) ps) := by
  induction ds with
  | nil => intro first f ps; simp [bn_miller_loop, bnLoopF, bnNeed, dropP_zero]
  | cons d ds ih =>
    intro first f ps
    have e : 2 + bnNeed ds = 1 + (1 + bnNeed ds) := by omega
    by_cases hd : d = 1
    · cases first <;> simp [bn_miller_loop, bnLoopF, bnNeed, ell_pairs_eq', e, ih, hd, dropP_dropP]
    · by_cases hd' : d = -1
      · cases first <;> simp [bn_miller_loop, bnLoopF, bnNeed, ell_pairs_eq', e, ih, hd', dropP_dropP]
      · cases first <;> simp [bn_miller_loop, bnLoopF, bnNeed, ell_pairs_eq', e, ih, hd, hd', dropP_dropP]

def blsLoopF (info : RangeInfo n) : Bool → AssignedFq12 n → Terms n → List Bool → M n (AssignedFq12 n)
  | _, f, _, [] => pure f
  | false, f, ps, i :: is => blsLoopF info i f ps is
  | true, f, ps, i :: is => do
    let f ← ells info .bls12_381 f ps
    if i then do
      let f ← ells info .bls12_381 f (dropP 1 ps)
      let f ← fq12_square info .bls12_381 f
      blsLoopF info true f (dropP 2 ps) is
    else do
      let f ← fq12_square info .bls12_381 f
      blsLoopF info true f (dropP 1 ps) is

theorem bls_miller_loop_eq (is : List Bool) : ∀ (found : Bool) (f : AssignedFq12 n) (ps : Terms n),
    bls_miller_loop info found f ps is = blsLoopF info found f ps is >>= fun f => pure (f, dropP (blsNeed found is) ps) := by
  induction is with
  | nil => intro found f ps; simp [bls_miller_loop, blsLoopF, blsNeed, dropP_zero]
  | cons i is ih =>
    intro found f ps
    cases found
    · simp [bls_miller_loop, blsLoopF, blsNeed, ih]
    · have e : 2 + blsNeed true is = 1 + (1 + blsNeed true is) := by omega
      cases i <;> simp [bls_miller_loop, blsLoopF, blsNeed, ell_pairs_eq', ih, dropP_dropP, e]

theorem dropV_mem {j k : ℕ} {vs : List (TermV wm)} (h : ∀ v ∈ vs, j + k ≤ v.2.length) :
    ∀ v ∈ dropV j vs, k ≤ v.2.length := by
  intro v hv
  obtain ⟨u, hu, rfl⟩ := List.mem_map.1 hv
  have := h u hu
  simp only [List.length_drop]
  omega

theorem dropV_ne {j : ℕ} {vs : List (TermV wm)} (h : ∀ v ∈ vs, j + 1 ≤ v.2.length) : ∀ v ∈ dropV j vs, v.2 ≠ [] :=
  fun v hv e => by have := dropV_mem h v hv; rw [e] at this; simp at this

theorem dropV_ne_zero {vs : List (TermV wm)} (h : ∀ v ∈ vs, 1 ≤ v.2.length) : ∀ v ∈ vs, v.2 ≠ [] :=
  fun v hv e => by have := h v hv; rw [e] at this; simp at this

theorem drop_length {ps : Terms n} {vs : List (TermV wm)} (h : ps.length = vs.length) (k : ℕ) :
    (dropP k ps).length = (dropV k vs).length := by simpa [dropP, dropV] using h

theorem atF_drop {L : List (Atom n wm)} (k : ℕ) : ∀ {ps : Terms n} {vs : List (TermV wm)}, (∀ v ∈ vs, k ≤ v.2.length) →
    atF atT ps vs ⊆ L → atF atT (dropP k ps) (dropV k vs) ⊆ L := by
  induction k with
  | zero => intro ps vs _ h; rwa [dropP_zero, dropV_zero]
  | succ k ih =>
    intro ps vs hv h
    rw [← dropP_dropP, ← dropV_dropV]
    have := atF_tail (dropP k ps) (dropV_ne hv) (ih (fun v h => (Nat.le_succ k).trans (hv v h)) h)
    simp only [dropP, dropV, List.map_map] at this ⊢
    simpa [Function.comp_def, tailV] using this

section
variable {md : Mode n} (E : Env wm info)
include E

theorem J_ellV {L : List (Atom n wm)} {ps : Terms n} {vs : List (TermV wm)} {f : AssignedFq12 n} {x : Fq12 wm crv}
    (hl : ps.length = vs.length) (hv : ∀ v ∈ vs, v.2 ≠ []) (hf : at12 f x ⊆ L) (hp : atF atT ps vs ⊆ L) :
    J info md L (ells info crv f ps) (fun r => at12 r (ellV x vs)) := J_ells E ps hl hv hf hp

theorem J_bnLoopF (ds : List ℤ) : ∀ {first : Bool} {L : List (Atom n wm)} {ps : Terms n} {vs : List (TermV wm)}
    {f : AssignedFq12 n} {x : Fq12 wm .bn256}, ps.length = vs.length → (∀ v ∈ vs, bnNeed ds ≤ v.2.length) →
    at12 f x ⊆ L → atF atT ps vs ⊆ L →
    J info md L (bnLoopF info first f ps ds) (fun r => at12 r (bnLoopV first x vs ds)) := by
  induction ds with
  | nil => exact fun _ _ hf _ => J.pure hf
  | cons d ds ih =>
    intro first L ps vs f x hl hv hf hp
    unfold bnLoopF bnLoopV
    unfold bnNeed at hv
    refine J.bind (f := fun r => at12 r (if first then x else x * x)) ?_ fun f => ?_
    · cases first
      · exact J_fq12_square E hf
      · exact J.pure hf
    have hv1 : ∀ v ∈ vs, 1 ≤ v.2.length := fun v h => by have := hv v h; split at this <;> omega
    refine J.bind (J_ellV E (x := if first then x else x * x) hl (dropV_ne_zero hv1) (by sub) (sub_right hp)) fun f => ?_
    by_cases hd : d = 1 ∨ d = -1
    · simp only [if_pos hd] at hv ⊢
      have hv2 : ∀ v ∈ vs, 2 ≤ v.2.length := fun v h => by have := hv v h; omega
      refine J.bind (J_ellV E (ps := dropP 1 ps) (vs := dropV 1 vs) (x := ellV (if first then x else x * x) vs) (drop_length hl 1)
        (dropV_ne hv2) (by sub) (sub_right (sub_right (atF_drop 1 hv1 hp)))) fun f => ?_
      exact ih (drop_length hl 2) (dropV_mem hv) (by sub) (sub_right (sub_right (sub_right (atF_drop 2 hv2 hp))))
    · simp only [if_neg hd] at hv ⊢
      exact ih (drop_length hl 1) (dropV_mem hv) (by sub) (sub_right (sub_right (atF_drop 1 hv1 hp)))

theorem J_blsLoopF (is : List Bool) : ∀ {found : Bool} {L : List (Atom n wm)} {ps : Terms n} {vs : List (TermV wm)}
    {f : AssignedFq12 n} {x : Fq12 wm .bls12_381}, ps.length = vs.length → (∀ v ∈ vs, blsNeed found is ≤ v.2.length) →
    at12 f x ⊆ L → atF atT ps vs ⊆ L →
    J info md L (blsLoopF info found f ps is) (fun r => at12 r (blsLoopV found x vs is)) := by
  induction is with
  | nil => exact fun _ _ hf _ => J.pure (by cases ‹Bool› <;> exact hf)
  | cons i is ih =>
    intro found L ps vs f x hl hv hf hp
    cases found
    · exact ih hl hv hf hp
    unfold blsLoopF blsLoopV
    unfold blsNeed at hv
    have hv1 : ∀ v ∈ vs, 1 ≤ v.2.length := fun v h => by have := hv v h; split at this <;> omega
    refine J.bind (J_ellV E (x := x) hl (dropV_ne_zero hv1) (by sub) hp) fun f => ?_
    cases i
    · simp only [Bool.false_eq_true, if_false] at hv ⊢
      refine J.bind (J_fq12_square E (x := ellV x vs) (by sub)) fun f => ?_
      exact ih (drop_length hl 1) (dropV_mem hv) (by sub) (sub_right (sub_right (atF_drop 1 hv1 hp)))
    · simp only [if_true] at hv ⊢
      have hv2 : ∀ v ∈ vs, 2 ≤ v.2.length := fun v h => by have := hv v h; omega
      refine J.bind (J_ellV E (ps := dropP 1 ps) (vs := dropV 1 vs) (x := ellV x vs) (drop_length hl 1)
        (dropV_ne hv2) (by sub) (sub_right (atF_drop 1 hv1 hp))) fun f => ?_
      refine J.bind (J_fq12_square E (x := ellV (ellV x vs) (dropV 1 vs)) (by sub)) fun f => ?_
      exact ih (drop_length hl 2) (dropV_mem hv) (by sub) (sub_right (sub_right (sub_right (atF_drop 2 hv2 hp))))

end

/-! ## Preparation of the lines -/

section values
variable {K : Type} [CommRing K]

def bnPrepStepV (q nq : K × K) (st : List (Line K) × Jac K) (d : ℤ) : List (Line K) × Jac K :=
  let a := dblV st.2
  if d = 1 then (st.1 ++ [a.1] ++ [(addV a.2 q).1], (addV a.2 q).2)
  else if d = -1 then (st.1 ++ [a.1] ++ [(addV a.2 nq).1], (addV a.2 nq).2)
  else (st.1 ++ [a.1], a.2)

def blsPrepStepV (q : K × K) (st : Bool × List (Line K) × Jac K) (i : Bool) : Bool × List (Line K) × Jac K :=
  match st, i with
  | (false, ls, r), i => (i, ls, r)
  | (true, ls, r), false => (true, ls ++ [(dblV r).1], (dblV r).2)
  | (true, ls, r), true => (true, ls ++ [(dblV r).1] ++ [(addV (dblV r).2 q).1], (addV (dblV r).2 q).2)

end values

/-- The constants of `prepare_g2` of bn256. -/
abbrev bnC (wm : ℕ) : Fq2 wm × Fq2 wm × Fq2 wm :=
  (toFq2 wm (tab FROBENIUS_COEFF_FQ6_C1 1), toFq2 wm (tab FROBENIUS_COEFF_FQ6_C1 2),
   toFq2 wm (from_bytes_le ((XI_TO_Q_MINUS_1_OVER_2[0]?).getD []), from_bytes_le ((XI_TO_Q_MINUS_1_OVER_2[1]?).getD [])))

abbrev bnFold (q : Fq2 wm × Fq2 wm) (ds : List ℤ) : List (Line (Fq2 wm)) × Jac (Fq2 wm) :=
  ds.foldl (bnPrepStepV q (q.1, -q.2)) ([], ⟨q.1, q.2, 1⟩)

abbrev bnQ1 (q : Fq2 wm × Fq2 wm) : Fq2 wm × Fq2 wm :=
  (⟨q.1.re, -q.1.im⟩ * (bnC wm).1, ⟨q.2.re, -q.2.im⟩ * (bnC wm).2.2)
abbrev bnQ2 (q : Fq2 wm × Fq2 wm) : Fq2 wm × Fq2 wm := (q.1 * (bnC wm).2.1, q.2)

def bnPrepV (q : Fq2 wm × Fq2 wm) : List (Line (Fq2 wm)) :=
  let st := bnFold q naf_digits
  let a := addV st.2 (bnQ1 q)
  st.1 ++ [a.1] ++ [(addV a.2 (bnQ2 q)).1]

abbrev blsFold (q : Fq2 wm × Fq2 wm) (is : List Bool) : Bool × List (Line (Fq2 wm)) × Jac (Fq2 wm) :=
  is.foldl (blsPrepStepV q) (false, [], ⟨q.1, q.2, 1⟩)

def blsPrepV (q : Fq2 wm × Fq2 wm) : List (Line (Fq2 wm)) :=
  let st := blsFold q (bits64 (BLS_X >>> 1))
  st.2.1 ++ [(dblV st.2.2).1]

def prepV (crv : PairingCurve) (q : Fq2 wm × Fq2 wm) : List (Line (Fq2 wm)) :=
  match crv with
  | .bn256 => bnPrepV q
  | .bls12_381 => blsPrepV q

section
variable {md : Mode n} (E : Env wm info)
include E

theorem J_bn_prepare_step {L : List (Atom n wm)} {g ng : AssignedG2Affine n} {q nq : Fq2 wm × Fq2 wm}
    {cs : List (LineCoeffs n)} {r : AssignedG2 n} {ls : List (Line (Fq2 wm))} {p : Jac (Fq2 wm)} {d : ℤ}
    (hx : at2 g.x q.1 ⊆ L) (hy : at2 g.y q.2 ⊆ L) (hnx : at2 ng.x nq.1 ⊆ L) (hny : at2 ng.y nq.2 ⊆ L)
    (hc : atLs cs ls ⊆ L) (hr : atJ r p ⊆ L) :
    J info md L (bn_prepare_step info g ng (cs, r) d)
      (fun st => atLs st.1 (bnPrepStepV q nq (ls, p) d).1 ++ atJ st.2 (bnPrepStepV q nq (ls, p) d).2) := by
  unfold bn_prepare_step bnPrepStepV
  dsimp only
  refine J.bind (J_doubling_step E hr) fun a => ?_
  obtain ⟨c, r⟩ := a
  dsimp only
  have h1 : ∀ L', atLs (cs ++ [c]) (ls ++ [(dblV p).1]) ⊆ L' ++ ((atLn c (dblV p).1 ++ atJ r (dblV p).2) ++ L) :=
    fun L' => sub_right (atLs_snoc (sub_right hc) (by sub))
  split
  · refine J.bind (J_addition_step E (p := (dblV p).2) (q := q) (by sub) (by sub) (by sub)) fun a => ?_
    obtain ⟨c, r⟩ := a
    exact J.pure (List.append_subset.2 ⟨atLs_snoc (h1 _) (by sub), by sub⟩)
  · split
    · refine J.bind (J_addition_step E (p := (dblV p).2) (q := nq) (by sub) (by sub) (by sub)) fun a => ?_
      obtain ⟨c, r⟩ := a
      exact J.pure (List.append_subset.2 ⟨atLs_snoc (h1 _) (by sub), by sub⟩)
    · exact J.pure (List.append_subset.2 ⟨by simpa using h1 [], by sub⟩)

theorem J_bn_fold (ds : List ℤ) {g ng : AssignedG2Affine n} {q nq : Fq2 wm × Fq2 wm} : ∀ {L : List (Atom n wm)}
    {st : List (LineCoeffs n) × AssignedG2 n} {v : List (Line (Fq2 wm)) × Jac (Fq2 wm)},
    at2 g.x q.1 ⊆ L → at2 g.y q.2 ⊆ L → at2 ng.x nq.1 ⊆ L → at2 ng.y nq.2 ⊆ L → atLs st.1 v.1 ⊆ L → atJ st.2 v.2 ⊆ L →
    J info md L (ds.foldlM (bn_prepare_step info g ng) st)
      (fun st => atLs st.1 (ds.foldl (bnPrepStepV q nq) v).1 ++ atJ st.2 (ds.foldl (bnPrepStepV q nq) v).2) := by
  induction ds with
  | nil => exact fun _ _ _ _ h1 h2 => J.pure (List.append_subset.2 ⟨h1, h2⟩)
  | cons d ds ih =>
    intro L st v hx hy hnx hny h1 h2
    rw [List.foldlM_cons, List.foldl_cons]
    refine J.bind (J_bn_prepare_step E hx hy hnx hny h1 h2) fun st => ?_
    exact ih (sub_right hx) (sub_right hy) (sub_right hnx) (sub_right hny) (by sub) (by sub)

theorem J_g2affine_to_g2 {L : List (Atom n wm)} {g : AssignedG2Affine n} {q : Fq2 wm × Fq2 wm} {b : ZMod n}
    (hx : at2 g.x q.1 ⊆ L) (hy : at2 g.y q.2 ⊆ L) (hz : atc g.z b ⊆ L) (hb : md.Honest → b = 0) :
    J info md L (g2affine_to_g2 info g) (fun r => fct (b = 0) ++ atJ r ⟨q.1, q.2, 1⟩) := by
  unfold g2affine_to_g2
  refine J.bind (J_assert_false hz hb) fun _ => ?_
  step
  exact J.pure (List.append_subset.2 ⟨by sub, List.append_subset.2 ⟨by sub, List.append_subset.2 ⟨by sub, by sub⟩⟩⟩)

theorem J_bn_prepare_g2 {L : List (Atom n wm)} {g : AssignedG2Affine n} {q : Fq2 wm × Fq2 wm} {b : ZMod n}
    (hx : at2 g.x q.1 ⊆ L) (hy : at2 g.y q.2 ⊆ L) (hz : atc g.z b ⊆ L) (hb : md.Honest → b = 0) :
    J info md L (bn_prepare_g2 info g) (fun r => fct (b = 0) ++ atLs r (bnPrepV q)) := by
  unfold bn_prepare_g2 g2_neg
  simp only [bind_assoc, pure_bind]
  step
  refine J.bind (J_g2affine_to_g2 E (sub_right hx) (sub_right hy) (sub_right hz) hb) fun r => ?_
  refine J.bind (J_bn_fold E naf_digits (q := q) (nq := (q.1, -q.2)) (v := ([], ⟨q.1, q.2, 1⟩)) (by sub) (by sub) (by sub) (by sub)
    atLs_nil (by sub)) fun st => ?_
  obtain ⟨cs, r⟩ := st
  dsimp only
  have e := toFq2_field_const2 E
  have c1 : ∀ {L : List (Atom n wm)} (k), J info md L (fq2_assign_constant info (field_const2 info FROBENIUS_COEFF_FQ6_C1 k))
      (fun r => at2 r (toFq2 wm (tab FROBENIUS_COEFF_FQ6_C1 k))) := fun k => by
    rw [← e]
    exact J_fq2_assign_constant E (field_const_lt E _) (field_const_lt E _)
  refine J.bind (c1 1) fun _ => ?_
  refine J.bind (c1 2) fun _ => ?_
  refine J.bind (f := fun r => at2 r (bnC wm).2.2) (J.mono (J_fq2_assign_constant E (field_const_lt E _) (field_const_lt E _))
    fun r => at2_congr (List.Subset.refl _) (by rw [field_const_cast E, field_const_cast E]; rfl)) fun _ => ?_
  iterate 4 step
  refine J.bind (J_addition_step E (p := (bnFold q naf_digits).2) (q := bnQ1 q) (by sub) (by sub) (by sub)) fun a => ?_
  obtain ⟨c, r⟩ := a
  dsimp only
  step
  refine J.bind (J_addition_step E (p := (addV (bnFold q naf_digits).2 (bnQ1 q)).2) (q := bnQ2 q) (by sub) (by sub) (by sub)) fun a => ?_
  obtain ⟨c, r⟩ := a
  exact J.pure (List.append_subset.2 ⟨by sub, atLs_snoc (atLs_snoc (by sub) (by sub)) (by sub)⟩)

theorem J_bls_fold (is : List Bool) {g : AssignedG2Affine n} {q : Fq2 wm × Fq2 wm} : ∀ {L : List (Atom n wm)} {found : Bool}
    {cs : List (LineCoeffs n)} {r : AssignedG2 n} {ls : List (Line (Fq2 wm))} {p : Jac (Fq2 wm)},
    at2 g.x q.1 ⊆ L → at2 g.y q.2 ⊆ L → atLs cs ls ⊆ L → atJ r p ⊆ L →
    J info md L (is.foldlM (bls_prepare_step info g) (found, cs, r))
      (fun st => atLs st.2.1 (is.foldl (blsPrepStepV q) (found, ls, p)).2.1 ++
        atJ st.2.2 (is.foldl (blsPrepStepV q) (found, ls, p)).2.2) := by
  induction is with
  | nil => exact fun _ _ h1 h2 => J.pure (List.append_subset.2 ⟨h1, h2⟩)
  | cons i is ih =>
    intro L found cs r ls p hx hy hc hr
    rw [List.foldlM_cons, List.foldl_cons]
    cases found
    · simp only [bls_prepare_step, blsPrepStepV, Bool.not_false, if_true, pure_bind]
      exact ih hx hy hc hr
    · cases i
      · simp only [bls_prepare_step, blsPrepStepV, Bool.not_true, Bool.false_eq_true, if_false, bind_assoc, pure_bind]
        refine J.bind (J_doubling_step E hr) fun a => ?_
        exact ih (by sub) (by sub) (atLs_snoc (sub_right hc) (by sub)) (by sub)
      · simp only [bls_prepare_step, blsPrepStepV, Bool.not_true, Bool.false_eq_true, if_false, if_true, bind_assoc, pure_bind]
        refine J.bind (J_doubling_step E hr) fun a => ?_
        refine J.bind (J_addition_step E (p := (dblV p).2) (q := q) (by sub) (by sub) (by sub)) fun b => ?_
        exact ih (by sub) (by sub) (atLs_snoc (atLs_snoc (sub_right (sub_right hc)) (by sub)) (by sub)) (by sub)

theorem J_bls_prepare_g2 {L : List (Atom n wm)} {g : AssignedG2Affine n} {q : Fq2 wm × Fq2 wm} {b : ZMod n}
    (hx : at2 g.x q.1 ⊆ L) (hy : at2 g.y q.2 ⊆ L) (hz : atc g.z b ⊆ L) (hb : md.Honest → b = 0) :
    J info md L (bls_prepare_g2 info g) (fun r => fct (b = 0) ++ atLs r (blsPrepV q)) := by
  unfold bls_prepare_g2
  refine J.bind (J_g2affine_to_g2 E hx hy hz hb) fun r => ?_
  refine J.bind (J_bls_fold E (bits64 (BLS_X >>> 1)) (q := q) (ls := []) (p := ⟨q.1, q.2, 1⟩) (by sub) (by sub)
    atLs_nil (by sub)) fun st => ?_
  obtain ⟨_, cs, r⟩ := st
  dsimp only
  refine J.bind (J_doubling_step E (p := (blsFold q (bits64 (BLS_X >>> 1))).2.2) (by sub)) fun a => ?_
  exact J.pure (List.append_subset.2 ⟨by sub, atLs_snoc (by sub) (by sub)⟩)

theorem J_prepare_g2 {L : List (Atom n wm)} {g : AssignedG2Affine n} {q : Fq2 wm × Fq2 wm} {b : ZMod n}
    (hx : at2 g.x q.1 ⊆ L) (hy : at2 g.y q.2 ⊆ L) (hz : atc g.z b ⊆ L) (hb : md.Honest → b = 0) :
    J info md L (prepare_g2 info crv g) (fun r => fct (b = 0) ++ atLs r (prepV crv q)) := by
  cases crv
  · exact J_bn_prepare_g2 E hx hy hz hb
  · exact J_bls_prepare_g2 E hx hy hz hb

end

/-! ## The number of lines -/

theorem bnFold_length (ds : List ℤ) {K : Type} [CommRing K] (q nq : K × K) : ∀ (st : List (Line K) × Jac K),
    (ds.foldl (bnPrepStepV q nq) st).1.length = st.1.length + bnNeed ds := by
  induction ds with
  | nil => intro st; rfl
  | cons d ds ih =>
    intro st
    rw [List.foldl_cons, ih]
    by_cases h1 : d = 1
    · simp [bnPrepStepV, bnNeed, h1]; omega
    · by_cases h2 : d = -1
      · simp [bnPrepStepV, bnNeed, h2]; omega
      · simp [bnPrepStepV, bnNeed, h1, h2]; omega

theorem blsFold_length (is : List Bool) {K : Type} [CommRing K] (q : K × K) : ∀ (found : Bool) (ls : List (Line K)) (r : Jac K),
    (is.foldl (blsPrepStepV q) (found, ls, r)).2.1.length = ls.length + blsNeed found is := by
  induction is with
  | nil => intro found ls r; simp [blsNeed]
  | cons i is ih =>
    intro found ls r
    rw [List.foldl_cons]
    cases found <;> cases i <;> simp [blsPrepStepV, ih, blsNeed] <;> omega

/-- The lines consumed by `multi_miller_loop`. -/
def needOf : PairingCurve → ℕ
  | .bn256 => bnNeed naf_digits + 2
  | .bls12_381 => blsNeed false (bits64 (BLS_X >>> 1)) + 1

theorem prepV_length (crv : PairingCurve) (q : Fq2 wm × Fq2 wm) : (prepV crv q).length = needOf crv := by
  cases crv
  · simp only [prepV, bnPrepV, List.length_append, List.length_singleton, bnFold, bnFold_length, needOf, List.length_nil]
    omega
  · simp only [prepV, blsPrepV, List.length_append, List.length_singleton, blsFold, blsFold_length, needOf, List.length_nil]
    omega

/-! ## The Miller loop and the pairing -/

/-- What `multi_miller_loop` computes. -/
def millerV (crv : PairingCurve) (vs : List (TermV wm)) : Fq12 wm crv :=
  match crv with
  | .bn256 => ellV (ellV (bnLoopV true 1 vs naf_digits) (dropV (bnNeed naf_digits) vs)) (dropV (bnNeed naf_digits + 1) vs)
  | .bls12_381 => 
    conj12 (ellV (blsLoopV false 1 vs (bits64 (BLS_X >>> 1))) (dropV (blsNeed false (bits64 (BLS_X >>> 1))) vs))

/-- The flags of the points. -/
def atZ (t : AssignedPoint n × List (LineCoeffs n)) (b : ZMod n) : List (Atom n wm) := atc t.1.z b

theorem atF_nil {A X : Type} {L : List (Atom n wm)} (g : A → X → List (Atom n wm)) (xs : List X) : atF g [] xs ⊆ L := by
  intro x hx
  exact absurd hx (by simp [atF])

theorem J_assert_not_identity {md : Mode n} (ps : Terms n) : ∀ {L : List (Atom n wm)} {bs : List (ZMod n)},
    ps.length = bs.length → atF atZ ps bs ⊆ L → (md.Honest → ∀ b ∈ bs, b = 0) →
    J info md L (assert_not_identity ps) (fun _ => fct (∀ b ∈ bs, b = 0)) := by
  induction ps with
  | nil =>
    intro L bs hl _ _
    obtain rfl := List.length_eq_zero_iff.1 hl.symm
    refine J.trivial ?_
    simp
  | cons p ps ih =>
    intro L bs hl hp hb
    obtain ⟨b, bs, rfl⟩ := List.exists_cons_of_length_eq_add_one hl.symm
    rw [atF_cons] at hp
    obtain ⟨h1, h2⟩ := List.append_subset.1 hp
    unfold assert_not_identity
    refine J.bind (J_assert_false h1 fun h => hb h b List.mem_cons_self) fun _ => ?_
    refine J.post₂ (p := b = 0) (ih (bs := bs) (by simpa using hl) (sub_right h2) fun h c hc => hb h c (List.mem_cons_of_mem _ hc)) (by sub) ?_
    intro e h c hc
    rcases List.mem_cons.1 hc with rfl | hc
    exacts [e, h c hc]

/-- The facts about the terms say how many lines there are. -/
theorem length_of_atF {L : List (Atom n wm)} (hL : ∀ A ∈ L, A.Rec info) (ps : Terms n) : ∀ {vs : List (TermV wm)} {k : ℕ},
    ps.length = vs.length → atF atT ps vs ⊆ L → (∀ v ∈ vs, v.2.length = k) → ∀ p ∈ ps, p.2.length = k := by
  induction ps with
  | nil => intro vs k _ _ _ p hp; exact absurd hp (by simp)
  | cons p ps ih =>
    intro vs k hl h hv
    obtain ⟨v, vs, rfl⟩ := List.exists_cons_of_length_eq_add_one hl.symm
    rw [atF_cons] at h
    obtain ⟨h1, h2⟩ := List.append_subset.1 h
    obtain ⟨-, h1⟩ := List.append_subset.1 h1
    obtain ⟨-, h1⟩ := List.append_subset.1 h1
    intro p' hp'
    rcases List.mem_cons.1 hp' with rfl | hp'
    · rw [← hv v List.mem_cons_self]
      by_contra e
      rw [atLs_neg e] at h1
      exact hL _ (h1 (List.mem_singleton.2 rfl))
    · exact ih (by simpa using hl) h2 (fun v hv' => hv v (List.mem_cons_of_mem _ hv')) p' hp'

theorem J_rassert_empty {md : Mode n} {L : List (Atom n wm)} {ps : Terms n} {vs : List (TermV wm)} {k : ℕ}
    (hl : ps.length = vs.length) (h : atF atT ps vs ⊆ L) (hv : ∀ v ∈ vs, v.2.length = k) :
    J info md L (rassert ((dropP k ps).all fun p => p.2.isEmpty)) (fun _ => []) := by
  cases md with
  | sound c w hw =>
    unfold rassert
    split
    · exact S.pure fun _ A hA => absurd hA (by simp)
    · intro s a t _ hr
      exact absurd hr (by simp [panic])
  | honest c k' =>
    intro hL
    have := length_of_atF hL ps hl h hv
    have e : ((dropP k ps).all fun p => p.2.isEmpty) = true := by
      simp only [dropP, List.all_map, List.all_eq_true, Function.comp_apply, List.isEmpty_iff, List.drop_eq_nil_iff]
      exact fun p hp => (this p hp).le
    rw [e]
    exact C.pure (fun A hA => absurd hA (by simp)) fun _ A hA => absurd hA (by simp)

section
variable {md : Mode n} (E : Env wm info)
include E

theorem J_multi_miller_loop {L : List (Atom n wm)} {ps : Terms n} {vs : List (TermV wm)} {bs : List (ZMod n)}
    (hl : ps.length = vs.length) (hlb : ps.length = bs.length) (hv : ∀ v ∈ vs, v.2.length = needOf crv)
    (hp : atF atT ps vs ⊆ L) (hz : atF atZ ps bs ⊆ L) (hb : md.Honest → ∀ b ∈ bs, b = 0) :
    J info md L (multi_miller_loop info crv ps) (fun r => fct (∀ b ∈ bs, b = 0) ++ at12 r (millerV crv vs)) := by
  cases crv
  · show J info md L (bn_multi_miller_loop info ps) _
    unfold bn_multi_miller_loop
    have h1 : ∀ v ∈ vs, bnNeed naf_digits ≤ v.2.length := fun v h => by rw [hv v h]; exact Nat.le_add_right _ 2
    have h2 : ∀ v ∈ vs, bnNeed naf_digits + 1 ≤ v.2.length := fun v h => by rw [hv v h]; exact Nat.le_succ _
    have h3 : ∀ v ∈ vs, bnNeed naf_digits + 1 + 1 ≤ v.2.length := fun v h => by rw [hv v h]; exact Nat.le_refl _
    refine J.bind (J_assert_not_identity ps hlb hz hb) fun _ => ?_
    refine J.bind (J_fq12_assign_one (crv := .bn256) E) fun f => ?_
    rw [bn_miller_loop_eq, bind_assoc]
    refine J.bind (J_bnLoopF E naf_digits (x := 1) hl h1 (by sub) (sub_right (sub_right hp))) fun f => ?_
    rw [pure_bind]
    dsimp only
    rw [ell_pairs_eq', bind_assoc]
    refine J.bind (J_ellV E (drop_length hl _) (dropV_ne h2) (x := bnLoopV true 1 vs naf_digits) (by sub)
      (sub_right (sub_right (sub_right (atF_drop _ h1 hp))))) fun f => ?_
    rw [pure_bind]
    dsimp only
    rw [ell_pairs_eq', bind_assoc, dropP_dropP]
    refine J.bind (J_ellV E (drop_length hl _) (dropV_ne h3)
      (x := ellV (bnLoopV true 1 vs naf_digits) (dropV (bnNeed naf_digits) vs)) (by sub)
      (sub_right (sub_right (sub_right (sub_right (atF_drop _ h2 hp)))))) fun f => ?_
    rw [pure_bind]
    dsimp only
    rw [dropP_dropP]
    refine J.bind (J_rassert_empty hl (sub_right (sub_right (sub_right (sub_right (sub_right hp))))) hv) fun _ => ?_
    exact J.pure (List.append_subset.2 ⟨by sub, sub_right (List.subset_append_left _ _)⟩)
  · show J info md L (bls_multi_miller_loop info ps) _
    unfold bls_multi_miller_loop
    have h1 : ∀ v ∈ vs, blsNeed false (bits64 (BLS_X >>> 1)) ≤ v.2.length := fun v h => by
      rw [hv v h]; exact Nat.le_succ _
    have h2 : ∀ v ∈ vs, blsNeed false (bits64 (BLS_X >>> 1)) + 1 ≤ v.2.length := fun v h => by
      rw [hv v h]; exact Nat.le_refl _
    refine J.bind (J_assert_not_identity ps hlb hz hb) fun _ => ?_
    refine J.bind (J_fq12_assign_one (crv := .bls12_381) E) fun f => ?_
    rw [bls_miller_loop_eq, bind_assoc]
    refine J.bind (J_blsLoopF E (bits64 (BLS_X >>> 1)) (x := 1) hl h1 (by sub) (sub_right (sub_right hp))) fun f => ?_
    rw [pure_bind]
    dsimp only
    rw [ell_pairs_eq', bind_assoc]
    refine J.bind (J_ellV E (drop_length hl _) (dropV_ne h2) (x := blsLoopV false 1 vs (bits64 (BLS_X >>> 1))) (by sub)
      (sub_right (sub_right (sub_right (atF_drop _ h1 hp))))) fun f => ?_
    rw [pure_bind]
    dsimp only
    refine J.last (J_fq12_conjugate E (x := ellV (blsLoopV false 1 vs (bits64 (BLS_X >>> 1)))
      (dropV (blsNeed false (bits64 (BLS_X >>> 1))) vs)) (by sub)) fun r => List.append_subset.2 ⟨by sub, List.subset_append_left _ _⟩

end
/-- A fact established on the way may be used to rewrite the others. -/
theorem J.post {md : Mode n} {L : List (Atom n wm)} {A : Type} {m : M n A} {p : Prop} {f g : A → List (Atom n wm)}
    (hm : J info md L m (fun r => fct p ++ f r)) (h : p → ∀ r, g r ⊆ f r) : J info md L m (fun r => fct p ++ g r) := by
  by_cases hp : p
  · exact hm.mono fun r => List.append_subset.2 ⟨List.subset_append_left _ _, fun x hx => List.mem_append_right _ (h hp r hx)⟩
  · cases md with
    | sound c w hw => exact S.mono hm fun r hr hL => (hp (hr hL _ (List.mem_append_left _ (List.mem_singleton.2 rfl)))).elim
    | honest c k =>
      exact fun hL => (hm hL).mono (fun r hr => (hp (hr _ (List.mem_append_left _ (List.mem_singleton.2 rfl)))).elim)
        fun r _ hr => (hp (hr _ (List.mem_append_left _ (List.mem_singleton.2 rfl)))).elim

/-- A true fact may be added. -/
theorem J.fact_true {md : Mode n} {L : List (Atom n wm)} {A : Type} {m : M n A} {f : A → List (Atom n wm)} {q : Prop} (hq : q)
    (hm : J info md (fct q ++ L) m f) : J info md L m f := by
  cases md with
  | sound c w hw =>
    refine S.mono hm fun r hr hL => hr fun A hA => ?_
    rcases List.mem_cons.1 hA with rfl | hA
    · exact hq
    · exact hL A hA
  | honest c k =>
    intro hL
    refine C.weaken (hm fun A hA => ?_) fun hH A hA => ?_
    · rcases List.mem_cons.1 hA with rfl | hA
      · exact hq
      · exact hL A hA
    · rcases List.mem_cons.1 hA with rfl | hA
      · trivial
      · exact hH A hA

/-- Two facts give a third. -/
theorem J.facts₂ {md : Mode n} {L : List (Atom n wm)} {A : Type} {m : M n A} {f : A → List (Atom n wm)} {p q r : Prop}
    (hp : fct p ⊆ L) (hq : fct q ⊆ L) (h : p → q → r) (hm : J info md (fct r ++ L) m f) : J info md L m f := by
  cases md with
  | sound c w hw =>
    refine S.mono hm fun x hr hL => hr fun A hA => ?_
    rcases List.mem_cons.1 hA with rfl | hA
    · exact h (hL _ (hp (List.mem_singleton.2 rfl))) (hL _ (hq (List.mem_singleton.2 rfl)))
    · exact hL A hA
  | honest c k =>
    intro hL
    refine C.weaken (hm fun A hA => ?_) fun hH A hA => ?_
    · rcases List.mem_cons.1 hA with rfl | hA
      · exact h (hL _ (hp (List.mem_singleton.2 rfl))) (hL _ (hq (List.mem_singleton.2 rfl)))
      · exact hL A hA
    · rcases List.mem_cons.1 hA with rfl | hA
      · trivial
      · exact hH A hA

/-- A fact may be used statically; in the case of soundness the program must be known to run well in any case. -/
theorem J.assumeS {md : Mode n} {L : List (Atom n wm)} {A : Type} {m : M n A} {f : A → List (Atom n wm)} {p : Prop}
    (hp : fct p ⊆ L) (hm : p → J info md L m f) {L' : List (Atom n wm)} {f' : A → List (Atom n wm)}
    (hn : ¬ md.Honest → J info md L' m f') : J info md L m f := by
  cases md with
  | sound c w hw => exact J.assume' hp hm (hn fun h => h)
  | honest c k => exact fun hL => hm (hL _ (hp (List.mem_singleton.2 rfl))) hL

/-- The facts about one input of `pairing`. -/
def atIn (t : AssignedPoint n × AssignedG2Affine n) (v : PairV n wm) : List (Atom n wm) :=
  (atc t.1.z v.pz ++ (at1 t.1.x v.px ++ at1 t.1.y v.py)) ++ (atc t.2.z v.qz ++ (at2 t.2.x v.qx ++ at2 t.2.y v.qy))

def PairV.term (crv : PairingCurve) (v : PairV n wm) : TermV wm := ((v.px, v.py), prepV crv (v.qx, v.qy))

section
variable {md : Mode n} (E : Env wm info)
include E

theorem J_prepare_terms (ts : List (AssignedPoint n × AssignedG2Affine n)) : ∀ {L : List (Atom n wm)} {vs : List (PairV n wm)},
    ts.length = vs.length → atF atIn ts vs ⊆ L → (md.Honest → ∀ v ∈ vs, v.qz = 0) →
    J info md L (prepare_terms info crv ts) (fun r => fct (∀ v ∈ vs, v.qz = 0) ++ (fct (r.length = vs.length) ++
      (atF atT r (vs.map (PairV.term crv)) ++ atF atZ r (vs.map PairV.pz)))) := by
  induction ts with
  | nil =>
    intro L vs hl _ _
    obtain rfl := List.length_eq_zero_iff.1 hl.symm
    unfold prepare_terms
    refine J.fact_true (q := ∀ v ∈ ([] : List (PairV n wm)), v.qz = 0) (by simp) ?_
    refine J.fact_true (q := ([] : Terms n).length = ([] : List (PairV n wm)).length) rfl ?_
    exact J.pure (List.append_subset.2 ⟨by sub, List.append_subset.2 ⟨by sub, List.append_subset.2 ⟨atF_nil _ _, atF_nil _ _⟩⟩⟩)
  | cons t ts ih =>
    intro L vs hl hp hz
    obtain ⟨v, vs, rfl⟩ := List.exists_cons_of_length_eq_add_one hl.symm
    rw [atF_cons] at hp
    obtain ⟨h1, h2⟩ := List.append_subset.1 hp
    obtain ⟨h3, h4⟩ := List.append_subset.1 h1
    obtain ⟨hpz, h3⟩ := List.append_subset.1 h3
    obtain ⟨hpx, hpy⟩ := List.append_subset.1 h3
    obtain ⟨hqz, h4⟩ := List.append_subset.1 h4
    obtain ⟨hqx, hqy⟩ := List.append_subset.1 h4
    unfold prepare_terms
    refine J.bind (J_prepare_g2 E (q := (v.qx, v.qy)) hqx hqy hqz fun h => hz h v List.mem_cons_self) fun c => ?_
    refine J.bind (ih (vs := vs) (by simpa using hl) (sub_right h2) fun h u hu => hz h u (List.mem_cons_of_mem _ hu)) fun r => ?_
    refine J.facts₂ (p := r.length = vs.length) (q := r.length = vs.length) (r := ((t.1, c) :: r).length = (v :: vs).length) (by sub) (by sub) (by simp) ?_
    refine J.facts₂ (p := v.qz = 0) (q := ∀ v ∈ vs, v.qz = 0) (r := ∀ u ∈ v :: vs, u.qz = 0) (by sub) (by sub)
      (fun a b => List.forall_mem_cons.2 ⟨a, b⟩) ?_
    refine J.pure (List.append_subset.2 ⟨by sub, List.append_subset.2 ⟨by sub, List.append_subset.2 ⟨?_, ?_⟩⟩⟩)
    · rw [List.map_cons, atF_cons]
      show at1 t.1.x v.px ++ (at1 t.1.y v.py ++ atLs c (prepV crv (v.qx, v.qy))) ++ _ ⊆ _
      exact List.append_subset.2 ⟨List.append_subset.2 ⟨by sub, List.append_subset.2 ⟨by sub, by sub⟩⟩, by sub⟩
    · rw [List.map_cons, atF_cons]
      show atc t.1.z v.pz ++ _ ⊆ _
      exact List.append_subset.2 ⟨by sub, by sub⟩

end
end Verif
