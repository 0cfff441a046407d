import Verif.Proof.PairingLoop

/-!
# What completed runs of the Miller loops have consumed
-/

namespace Verif
variable {n : ℕ} {info : RangeInfo n} {A B : Type} {crv : PairingCurve}

/-- Every run that does not panic returns a value with `P`. -/
def Runs (m : M n A) (P : A → Prop) : Prop := ∀ s a t, m s = .ok (a, t) → P a

theorem Runs.triv (m : M n A) : Runs m fun _ => True := fun _ _ _ _ => _root_.trivial

theorem Runs.pure {a : A} {P : A → Prop} (h : P a) : Runs (Pure.pure a : M n A) P := by
  intro s b t e
  cases e
  exact h

theorem Runs.bind {m : M n A} {f : A → M n B} {P : A → Prop} {Q : B → Prop} (hm : Runs m P) (hf : ∀ a, P a → Runs (f a) Q) :
    Runs (m >>= f) Q := by
  intro s b t e
  cases hs : m s with
  | error p =>
    have : (m >>= f) s = .error p := by show Except.bind (m s) _ = _; rw [hs]; rfl
    rw [this] at e
    cases e
  | ok p =>
    have : (m >>= f) s = f p.1 p.2 := by show Except.bind (m s) _ = _; rw [hs]; rfl
    rw [this] at e
    exact hf p.1 (hm s p.1 p.2 hs) p.2 b t e

theorem Runs.mono {m : M n A} {P Q : A → Prop} (h : Runs m P) (hQ : ∀ a, P a → Q a) : Runs m Q := fun s a t e => hQ a (h s a t e)

theorem Runs.and {m : M n A} {P Q : A → Prop} (h : Runs m P) (h' : Runs m Q) : Runs m fun a => P a ∧ Q a :=
  fun s a t e => ⟨h s a t e, h' s a t e⟩

theorem Runs.skip {m : M n A} {f : A → M n B} {Q : B → Prop} (hf : ∀ a, Runs (f a) Q) : Runs (m >>= f) Q :=
  (Runs.triv m).bind fun a _ => hf a

theorem Runs.rassert {b : Bool} : Runs (rassert b : M n Unit) fun _ => b = true := by
  intro s a t e
  cases b
  · cases e
  · rfl

theorem Runs.unwrap {o : Option A} : Runs (unwrap o : M n A) fun _ => o ≠ none := by
  intro s a t e
  cases o
  · cases e
  · exact Option.some_ne_none _

theorem Runs.foldlM {S D : Type} {f : S → D → M n S} {I : List D → S → Prop} (l : List D) {s₀ : S}
    (h0 : I [] s₀) (hs : ∀ ds d s, I ds s → Runs (f s d) (I (ds ++ [d]))) : Runs (l.foldlM f s₀) (I l) := by
  have : ∀ (l ds : List D) (s : S), I ds s → Runs (l.foldlM f s) (I (ds ++ l)) := by
    intro l
    induction l with
    | nil => intro ds s h; rw [List.append_nil]; exact Runs.pure h
    | cons d l ih =>
      intro ds s h
      rw [List.foldlM_cons]
      refine (hs ds d s h).bind fun s' h' => ?_
      have := ih (ds ++ [d]) s' h'
      rwa [List.append_assoc] at this
  exact this l [] s₀ h0

theorem bnNeed_append (a b : List ℤ) : bnNeed (a ++ b) = bnNeed a + bnNeed b := by
  induction a with
  | nil => simp [bnNeed]
  | cons d ds ih => simp only [List.cons_append, bnNeed, ih]; omega

theorem bn_prepare_count (g2 : AssignedG2Affine n) : Runs (bn_prepare_g2 info g2) fun r => r.length = bnNeed naf_digits + 2 := by
  unfold bn_prepare_g2
  refine Runs.skip fun ng => Runs.skip fun r => ?_
  refine Runs.bind (P := fun st : List (LineCoeffs n) × AssignedG2 n => st.1.length = bnNeed naf_digits) ?_ fun st h => ?_
  · refine Runs.foldlM (I := fun ds (st : List (LineCoeffs n) × AssignedG2 n) => st.1.length = bnNeed ds) naf_digits rfl fun ds d st h => ?_
    unfold bn_prepare_step
    refine Runs.skip fun c => ?_
    by_cases h1 : d = 1
    · simp only [h1, if_true]
      refine Runs.skip fun c' => Runs.pure ?_
      simp [bnNeed_append, bnNeed, h]
    · by_cases h2 : d = -1
      · simp only [h2, if_true, show ¬ (-1 : ℤ) = 1 by decide, if_false]
        refine Runs.skip fun c' => Runs.pure ?_
        simp [bnNeed_append, bnNeed, h]
      · simp only [h1, h2, if_false]
        refine Runs.pure ?_
        simp [bnNeed_append, bnNeed, h, h1, h2]
  · iterate 8 refine Runs.skip fun _ => ?_
    refine Runs.skip fun _ => ?_
    refine Runs.skip fun _ => Runs.pure ?_
    simp [h]

theorem bls_prepare_fold (g2 : AssignedG2Affine n) (is : List Bool) : ∀ st : Bool × List (LineCoeffs n) × AssignedG2 n,
    Runs (is.foldlM (bls_prepare_step info g2) st) fun r => r.2.1.length = st.2.1.length + blsNeed st.1 is := by
  induction is with
  | nil => intro st; exact Runs.pure (by simp [blsNeed])
  | cons i is ih =>
    rintro ⟨found, cs, f⟩
    rw [List.foldlM_cons]
    cases found
    · simp only [bls_prepare_step, Bool.not_false, if_true, pure_bind]
      exact (ih _).mono fun r h => by rw [h]; rfl
    · simp only [bls_prepare_step, Bool.not_true, Bool.false_eq_true, if_false, bind_assoc]
      refine Runs.skip fun c => ?_
      cases i
      · simp only [Bool.false_eq_true, if_false, pure_bind]
        exact (ih _).mono fun r h => by rw [h]; simp [blsNeed]; omega
      · simp only [if_true, bind_assoc, pure_bind]
        refine Runs.skip fun c' => ?_
        exact (ih _).mono fun r h => by rw [h]; simp [blsNeed]; omega

theorem bls_prepare_count (g2 : AssignedG2Affine n) :
    Runs (bls_prepare_g2 info g2) fun r => r.length = blsNeed false (bits64 (BLS_X >>> 1)) + 1 := by
  unfold bls_prepare_g2
  refine Runs.skip fun f => (bls_prepare_fold g2 _ _).bind fun st h => ?_
  refine Runs.skip fun _ => Runs.pure ?_
  simp [h]

/-! ## Consumption -/

theorem ells_runs (ps : Terms n) : ∀ f : AssignedFq12 n, Runs (ells info crv f ps) fun _ => ∀ p ∈ ps, 1 ≤ p.2.length := by
  induction ps with
  | nil => intro f; exact Runs.pure (by simp)
  | cons p ps ih =>
    intro f
    unfold ells
    refine Runs.unwrap.bind fun c hc => Runs.skip fun f => (ih f).mono fun _ h => List.forall_mem_cons.2 ⟨?_, h⟩
    match e : p.2 with
    | [] => rw [e] at hc; exact absurd rfl hc
    | _ :: _ => simp

theorem dropP_len {k j : ℕ} {ps : Terms n} (h1 : ∀ p ∈ ps, k ≤ p.2.length) (h : ∀ p ∈ dropP k ps, j ≤ p.2.length) :
    ∀ p ∈ ps, k + j ≤ p.2.length := by
  intro p hp
  have := h (p.1, p.2.drop k) (List.mem_map_of_mem (f := fun p : AssignedPoint n × List (LineCoeffs n) => (p.1, p.2.drop k)) hp)
  have h2 := h1 p hp
  simp only [List.length_drop] at this
  omega

theorem bnLoopF_runs (ds : List ℤ) : ∀ (first : Bool) (f : AssignedFq12 n) (ps : Terms n),
    Runs (bnLoopF info first f ps ds) fun _ => ∀ p ∈ ps, bnNeed ds ≤ p.2.length := by
  induction ds with
  | nil => intro _ f ps; exact Runs.pure (by simp [bnNeed])
  | cons d ds ih =>
    intro first f ps
    unfold bnLoopF
    refine Runs.skip fun f => (ells_runs ps f).bind fun f h => ?_
    split
    · next hd =>
      refine (ells_runs _ f).bind fun f h' => (ih false f _).mono fun _ h'' => ?_
      have h2 : ∀ p ∈ ps, 2 ≤ p.2.length := dropP_len h h'
      simpa only [bnNeed, if_pos hd] using dropP_len h2 h''
    · next hd =>
      refine (ih false f _).mono fun _ h'' => ?_
      simpa only [bnNeed, if_neg hd] using dropP_len h h''

theorem blsLoopF_runs (is : List Bool) : ∀ (found : Bool) (f : AssignedFq12 n) (ps : Terms n),
    Runs (blsLoopF info found f ps is) fun _ => ∀ p ∈ ps, blsNeed found is ≤ p.2.length := by
  induction is with
  | nil => intro _ f ps; cases ‹Bool› <;> exact Runs.pure (by simp [blsNeed])
  | cons i is ih =>
    intro found f ps
    cases found
    · unfold blsLoopF
      exact ih _ _ _
    · unfold blsLoopF
      refine (ells_runs ps f).bind fun f h => ?_
      cases i
      · simp only [Bool.false_eq_true, if_false]
        refine Runs.skip fun f => (ih true f _).mono fun _ h'' => ?_
        exact dropP_len h h''
      · simp only [if_true]
        refine (ells_runs _ f).bind fun f h' => Runs.skip fun f => (ih true f _).mono fun _ h'' => ?_
        have h2 : ∀ p ∈ ps, 2 ≤ p.2.length := dropP_len h h'
        exact dropP_len h2 h''

theorem bn_miller_runs (ps : Terms n) : Runs (bn_multi_miller_loop info ps) fun _ => ∀ p ∈ ps, p.2.length = needOf .bn256 := by
  unfold bn_multi_miller_loop
  refine Runs.skip fun _ => Runs.skip fun f => ?_
  rw [bn_miller_loop_eq, bind_assoc]
  refine (bnLoopF_runs naf_digits true f ps).bind fun f h => ?_
  rw [pure_bind]
  dsimp only
  rw [ell_pairs_eq', bind_assoc]
  refine (ells_runs _ f).bind fun f h1 => ?_
  rw [pure_bind]
  dsimp only
  rw [ell_pairs_eq', bind_assoc]
  refine (ells_runs _ f).bind fun f h2 => ?_
  rw [pure_bind]
  dsimp only
  refine Runs.rassert.bind fun _ h3 => Runs.pure ?_
  intro p hp
  have h4 := dropP_len h (dropP_len h1 h2) p hp
  rw [List.all_eq_true] at h3
  have h5 := h3 (p.1, ((p.2.drop (bnNeed naf_digits)).drop 1).drop 1) (by
    unfold dropP
    rw [List.map_map, List.map_map]
    exact List.mem_map.2 ⟨p, hp, rfl⟩)
  rw [List.isEmpty_iff, ← List.length_eq_zero_iff] at h5
  simp only [List.length_drop] at h5
  simp only [needOf]
  omega

theorem bls_miller_runs (ps : Terms n) :
    Runs (bls_multi_miller_loop info ps) fun _ => ∀ p ∈ ps, needOf .bls12_381 ≤ p.2.length := by
  unfold bls_multi_miller_loop
  refine Runs.skip fun _ => Runs.skip fun f => ?_
  rw [bls_miller_loop_eq, bind_assoc]
  refine (blsLoopF_runs _ false f ps).bind fun f h => ?_
  rw [pure_bind]
  dsimp only
  rw [ell_pairs_eq', bind_assoc]
  refine (ells_runs _ f).bind fun f h1 => ?_
  rw [pure_bind]
  dsimp only
  exact (Runs.triv _).mono fun _ _ => dropP_len h h1

end Verif
