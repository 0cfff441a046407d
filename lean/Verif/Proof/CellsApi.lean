import Verif.Proof.CellsMsm
import Verif.Proof.CellsTower
import Verif.Proof.CellsKeccak
import Verif.Spec.Api

/-!
# Every sequence of API calls hands out cells with values
-/

namespace Verif
variable {n : ℕ} {r : RecordsInner n}

/-- All objects have cells with values. -/
structure StoreIn (r : RecordsInner n) (σ : Store n) : Prop where
  v : In r σ.v
  i : In r σ.i
  p : In r σ.p
  c : In r σ.c
  z : In r σ.z
  f2 : In r σ.f2
  f6 : In r σ.f6
  f12 : In r σ.f12
  g2 : In r σ.g2
  lines : In r σ.lines

instance : HasCells n (Store n) := ⟨fun σ => cells σ.v ++ (cells σ.i ++ (cells σ.p ++ (cells σ.c ++ (cells σ.z ++ (cells σ.f2 ++ (cells σ.f6 ++ (cells σ.f12 ++ (cells σ.g2 ++ (cells σ.lines)))))))))⟩

theorem storeIn_iff {σ : Store n} : In r σ ↔ StoreIn r σ := by
  unfold In
  show (∀ c ∈ cells σ.v ++ _, CellIn r c) ↔ _
  simp only [in_append_cells]
  constructor
  · rintro ⟨h0, h1, h2, h3, h4, h5, h6, h7, h8, h9⟩
    exact ⟨h0, h1, h2, h3, h4, h5, h6, h7, h8, h9⟩
  · rintro ⟨h0, h1, h2, h3, h4, h5, h6, h7, h8, h9⟩
    exact ⟨h0, h1, h2, h3, h4, h5, h6, h7, h8, h9⟩

theorem in_s_v {σ : Store n} (h : In r σ) : In r σ.v := (storeIn_iff.1 h).v
theorem in_s_i {σ : Store n} (h : In r σ) : In r σ.i := (storeIn_iff.1 h).i
theorem in_s_p {σ : Store n} (h : In r σ) : In r σ.p := (storeIn_iff.1 h).p
theorem in_s_c {σ : Store n} (h : In r σ) : In r σ.c := (storeIn_iff.1 h).c
theorem in_s_z {σ : Store n} (h : In r σ) : In r σ.z := (storeIn_iff.1 h).z
theorem in_s_f2 {σ : Store n} (h : In r σ) : In r σ.f2 := (storeIn_iff.1 h).f2
theorem in_s_f6 {σ : Store n} (h : In r σ) : In r σ.f6 := (storeIn_iff.1 h).f6
theorem in_s_f12 {σ : Store n} (h : In r σ) : In r σ.f12 := (storeIn_iff.1 h).f12
theorem in_s_g2 {σ : Store n} (h : In r σ) : In r σ.g2 := (storeIn_iff.1 h).g2
theorem in_s_lines {σ : Store n} (h : In r σ) : In r σ.lines := (storeIn_iff.1 h).lines
theorem in_pushV {σ : Store n} (h : In r σ) {x : AssignedValue n} (hx : In r x) : In r (σ.pushV x) :=
  have h := storeIn_iff.1 h
  storeIn_iff.2 ⟨in_append h.v (in_cons hx in_nil), h.i, h.p, h.c, h.z, h.f2, h.f6, h.f12, h.g2, h.lines⟩
theorem in_pushI {σ : Store n} (h : In r σ) {x : AssignedInteger n} (hx : In r x) : In r (σ.pushI x) :=
  have h := storeIn_iff.1 h
  storeIn_iff.2 ⟨h.v, in_append h.i (in_cons hx in_nil), h.p, h.c, h.z, h.f2, h.f6, h.f12, h.g2, h.lines⟩
theorem in_pushP {σ : Store n} (h : In r σ) {x : AssignedPoint n} (hx : In r x) : In r (σ.pushP x) :=
  have h := storeIn_iff.1 h
  storeIn_iff.2 ⟨h.v, h.i, in_append h.p (in_cons hx in_nil), h.c, h.z, h.f2, h.f6, h.f12, h.g2, h.lines⟩
theorem in_pushC {σ : Store n} (h : In r σ) {x : AssignedPointWithCurvature n} (hx : In r x) : In r (σ.pushC x) :=
  have h := storeIn_iff.1 h
  storeIn_iff.2 ⟨h.v, h.i, h.p, in_append h.c (in_cons hx in_nil), h.z, h.f2, h.f6, h.f12, h.g2, h.lines⟩
theorem in_pushN {σ : Store n} (h : In r σ) {x : AssignedNonZeroPoint n} (hx : In r x) : In r (σ.pushN x) :=
  have h := storeIn_iff.1 h
  storeIn_iff.2 ⟨h.v, h.i, h.p, h.c, in_append h.z (in_cons hx in_nil), h.f2, h.f6, h.f12, h.g2, h.lines⟩
theorem in_pushQ {σ : Store n} (h : In r σ) {x : AssignedFq2 n} (hx : In r x) : In r (σ.pushQ x) :=
  have h := storeIn_iff.1 h
  storeIn_iff.2 ⟨h.v, h.i, h.p, h.c, h.z, in_append h.f2 (in_cons hx in_nil), h.f6, h.f12, h.g2, h.lines⟩
theorem in_pushS {σ : Store n} (h : In r σ) {x : AssignedFq6 n} (hx : In r x) : In r (σ.pushS x) :=
  have h := storeIn_iff.1 h
  storeIn_iff.2 ⟨h.v, h.i, h.p, h.c, h.z, h.f2, in_append h.f6 (in_cons hx in_nil), h.f12, h.g2, h.lines⟩
theorem in_pushT {σ : Store n} (h : In r σ) {x : AssignedFq12 n} (hx : In r x) : In r (σ.pushT x) :=
  have h := storeIn_iff.1 h
  storeIn_iff.2 ⟨h.v, h.i, h.p, h.c, h.z, h.f2, h.f6, in_append h.f12 (in_cons hx in_nil), h.g2, h.lines⟩
theorem in_pushG {σ : Store n} (h : In r σ) {x : AssignedG2Affine n} (hx : In r x) : In r (σ.pushG x) :=
  have h := storeIn_iff.1 h
  storeIn_iff.2 ⟨h.v, h.i, h.p, h.c, h.z, h.f2, h.f6, h.f12, in_append h.g2 (in_cons hx in_nil), h.lines⟩
theorem in_pushL {σ : Store n} (h : In r σ) {x : List (LineCoeffs n)} (hx : In r x) : In r (σ.pushL x) :=
  have h := storeIn_iff.1 h
  storeIn_iff.2 ⟨h.v, h.i, h.p, h.c, h.z, h.f2, h.f6, h.f12, h.g2, in_append h.lines (in_cons hx in_nil)⟩
theorem in_pushVs {σ : Store n} (h : In r σ) {x : List (AssignedValue n)} (hx : In r x) : In r (σ.pushVs x) :=
  have h := storeIn_iff.1 h
  storeIn_iff.2 ⟨in_append h.v hx, h.i, h.p, h.c, h.z, h.f2, h.f6, h.f12, h.g2, h.lines⟩
theorem in_prefix {σ : Store n} (h : In r σ) (pre : Option ℕ) : In r { σ with msm_prefix := pre } := h

theorem cel_elem {σ : Store n} (h : In r σ) (e : ℕ × ZMod n) : W r (σ.elem e) In :=
  (cel_index (in_s_v h) _).bind fun _ _ _ ha => .ret (in_pair ha (in_field _))
theorem cel_term {σ : Store n} (h : In r σ) (e : ℕ × ℕ × ℕ × ZMod n) : W r (σ.term e) In :=
  (cel_index (in_s_v h) _).bind fun _ _ l1 ha => (cel_index (in_s_v (h.mono l1)) _).bind fun _ _ l2 hb =>
    (cel_index (in_s_v (h.mono (l1.trans l2))) _).bind fun _ _ l3 hc =>
      .ret (in_term (ha.mono (l2.trans l3)) (hb.mono l3) hc)
theorem cel_pairTerm {σ : Store n} (h : In r σ) (e : ℕ × ℕ) : W r (σ.pairTerm e) In :=
  (cel_index (in_s_p h) _).bind fun _ _ l1 ha => (cel_index (in_s_g2 (h.mono l1)) _).bind fun _ _ l2 hb =>
    .ret (in_pair (ha.mono l2) hb)
theorem cel_lineTerm {σ : Store n} (h : In r σ) (e : ℕ × ℕ) : W r (σ.lineTerm e) In :=
  (cel_index (in_s_p h) _).bind fun _ _ l1 ha => (cel_index (in_s_lines (h.mono l1)) _).bind fun _ _ l2 hb =>
    .ret (in_pair (ha.mono l2) hb)

theorem cel_unwrap_ok {α β : Type} [HasCells n α] {m : M n (Except UnsafeError α)} {g : Except UnsafeError α → M n β} {Q : RecordsInner n → β → Prop} (h : W r m In)
    (hg : ∀ a r', RLe r r' → In r' a → W r' (g (.ok a)) Q) (he : ∀ e r', W r' (g (.error e)) Q) : W r (m >>= g) Q :=
  h.bind fun x r' hr hx => by
    cases x with
    | ok a => exact hg a r' hr hx
    | error e => exact he e r'

/-- `cellt` for calls. -/
macro "acells" : tactic => `(tactic|
  repeat' first
    | with_reducible assumption
    | with_reducible exact trivial
    | with_reducible exact in_unit _
    | with_reducible exact in_nil
    | with_reducible apply in_pushV
    | with_reducible apply in_pushI
    | with_reducible apply in_pushP
    | with_reducible apply in_pushC
    | with_reducible apply in_pushN
    | with_reducible apply in_pushQ
    | with_reducible apply in_pushS
    | with_reducible apply in_pushT
    | with_reducible apply in_pushG
    | with_reducible apply in_pushL
    | with_reducible apply in_pushVs
    | with_reducible apply in_s_v
    | with_reducible apply in_s_i
    | with_reducible apply in_s_p
    | with_reducible apply in_s_c
    | with_reducible apply in_s_z
    | with_reducible apply in_s_f2
    | with_reducible apply in_s_f6
    | with_reducible apply in_s_f12
    | with_reducible apply in_s_g2
    | with_reducible apply in_s_lines
    | with_reducible apply in_prefix
    | with_reducible apply in_join
    | with_reducible apply in_cons
    | with_reducible apply in_append
    | with_reducible apply in_limbs
    | with_reducible apply in_native
    | with_reducible apply in_cv
    | with_reducible apply in_cz
    | with_reducible apply in_px
    | with_reducible apply in_py
    | with_reducible apply in_pz
    | with_reducible apply in_nx
    | with_reducible apply in_ny
    | with_reducible apply in_pcx
    | with_reducible apply in_pcy
    | with_reducible apply in_pcz
    | with_reducible apply in_pcc
    | with_reducible apply in_to_point
    | with_reducible apply in_f60
    | with_reducible apply in_f61
    | with_reducible apply in_f62
    | with_reducible apply in_f120
    | with_reducible apply in_f121
    | with_reducible apply in_gax
    | with_reducible apply in_gay
    | with_reducible apply in_gaz
    | with_reducible apply in_l0
    | with_reducible apply in_l1
    | with_reducible apply in_l2
    | with_reducible apply in_pair
    | with_reducible apply in_int
    | with_reducible apply in_curv
    | with_reducible apply in_point
    | with_reducible apply in_pc
    | with_reducible apply in_nz
    | with_reducible apply in_f6
    | with_reducible apply in_f12
    | with_reducible apply in_ga
    | with_reducible apply in_line
    | (with_reducible apply in_left; with_reducible assumption)
    | (with_reducible apply in_right; with_reducible assumption)
    | with_reducible apply in_fst
    | with_reducible apply in_snd)

macro "acellt" : tactic => `(tactic|
  repeat' first
    | cintro
    | with_reducible assumption
    | with_reducible apply W.ret
    | with_reducible exact W.panic
    | with_reducible apply W.bindS
    | with_reducible apply W.bind
    | head_lemma cel
    | with_reducible apply cel_elem
    | with_reducible apply cel_term
    | with_reducible apply cel_pairTerm
    | with_reducible apply cel_lineTerm
    | with_reducible apply cel_mapM_same
    | (acells; done)
    | dsimp only)

theorem cel_runTowerCall (A : Api n) {σ : Store n} (hσ : In r σ) (c : TowerCall) : W r (runTowerCall A σ c) In := by
  cases c <;> (unfold runTowerCall; acellt)

theorem cel_groupSelect (A : Api n) {ς : Type} [HasCells n ς] {ops : ScalarOps n ς} (ho : CelOps ops) (r1 r2 : Option (ℕ × ℕ))
    (pre : Option ℕ) {points : List (AssignedNonZeroPoint n)} (h_points : In r points) {scalars : List ς}
    (h_scalars : In r scalars) : W r (groupSelect A ops r1 r2 pre points scalars) fun r x => In r x.1 := by
  cases pre with
  | none => exact W.panic
  | some p =>
    exact cel_unwrap_ok (cel_msm_batch_with_select _ _ ho p h_points h_scalars _ _) (fun _ _ _ h => .pure fun _ h' => h.mono h')
      fun _ _ => W.panic

theorem cel_groupBisec (A : Api n) {ς : Type} [HasCells n ς] {ops : ScalarOps n ς} (ho : CelOps ops) (r1 r2 : Option (ℕ × ℕ))
    {points : List (AssignedNonZeroPoint n)} (h_points : In r points) {scalars : List ς}
    (h_scalars : In r scalars) : W r (groupBisec A ops r1 r2 points scalars) In :=
  cel_unwrap_ok (cel_msm_batch_without_select _ _ ho h_points h_scalars _ _) (fun _ _ _ h => .ret h) fun _ _ => W.panic

theorem cel_runCall (A : Api n) (w : Witness n) {σ : Store n} (hσ : In r σ) (c : Call n) :
    W r (runCall A w σ c) In := by
  cases c with
  | ecc_add_unsafe a b =>
    unfold runCall
    refine (cel_index (in_s_z hσ) _).bind fun x r1 l1 hx => ?_
    refine (cel_index (in_s_z (hσ.mono l1)) _).bind fun y r2 l2 hy => ?_
    refine cel_unwrap_ok (cel_ecc_add_unsafe _ (hx.mono l2) hy) (fun z r3 l3 hz => ?_) fun _ _ => W.panic
    exact .ret (in_pushN (hσ.mono ((l1.trans l2).trans l3)) hz)
  | ecc_double_unsafe a =>
    unfold runCall
    refine (cel_index (in_s_z hσ) _).bind fun x r1 l1 hx => ?_
    refine cel_unwrap_ok (cel_ecc_double_unsafe _ hx) (fun z r3 l3 hz => ?_) fun _ _ => W.panic
    exact .ret (in_pushN (hσ.mono (l1.trans l3)) hz)
  | msm_native ps ss s1 s2 =>
    unfold runCall
    refine (cel_mapM_same _ fun _ _ h => cel_index (in_s_p (hσ.mono h)) _).bind fun x r1 l1 hx => ?_
    refine (cel_mapM_same _ fun _ _ h => cel_index (in_s_v (hσ.mono (l1.trans h))) _).bind fun y r2 l2 hy => ?_
    refine (cel_msm _ _ (celOps_native _) _ _ _ _ (hx.mono l2) hy).bind fun z r3 l3 hz => ?_
    exact .ret (in_prefix (in_pushP (hσ.mono ((l1.trans l2).trans l3)) hz) _)
  | msm_general ps ss s1 s2 =>
    unfold runCall
    refine (cel_mapM_same _ fun _ _ h => cel_index (in_s_p (hσ.mono h)) _).bind fun x r1 l1 hx => ?_
    refine (cel_mapM_same _ fun _ _ h => cel_index (in_s_i (hσ.mono (l1.trans h))) _).bind fun y r2 l2 hy => ?_
    refine (cel_msm _ _ (celOps_general _) _ _ _ _ (hx.mono l2) hy).bind fun z r3 l3 hz => ?_
    exact .ret (in_prefix (in_pushP (hσ.mono ((l1.trans l2).trans l3)) hz) _)
  | msm_with_select_native ps ss s1 s2 =>
    unfold runCall
    refine (cel_mapM_same _ fun _ _ h => cel_index (in_s_z (hσ.mono h)) _).bind fun x r1 l1 hx => ?_
    refine (cel_mapM_same _ fun _ _ h => cel_index (in_s_v (hσ.mono (l1.trans h))) _).bind fun y r2 l2 hy => ?_
    refine (cel_groupSelect A (celOps_native _) _ _ _ (hx.mono l2) hy).bind fun z r3 l3 hz => ?_
    exact .ret (in_prefix (in_pushP (hσ.mono ((l1.trans l2).trans l3)) hz) _)
  | msm_without_select_native ps ss s1 s2 =>
    unfold runCall
    refine (cel_mapM_same _ fun _ _ h => cel_index (in_s_z (hσ.mono h)) _).bind fun x r1 l1 hx => ?_
    refine (cel_mapM_same _ fun _ _ h => cel_index (in_s_v (hσ.mono (l1.trans h))) _).bind fun y r2 l2 hy => ?_
    refine (cel_groupBisec A (celOps_native _) _ _ (hx.mono l2) hy).bind fun z r3 l3 hz => ?_
    exact .ret (in_pushP (hσ.mono ((l1.trans l2).trans l3)) hz)
  | msm_with_select_general ps ss s1 s2 =>
    unfold runCall
    refine (cel_mapM_same _ fun _ _ h => cel_index (in_s_z (hσ.mono h)) _).bind fun x r1 l1 hx => ?_
    refine (cel_mapM_same _ fun _ _ h => cel_index (in_s_i (hσ.mono (l1.trans h))) _).bind fun y r2 l2 hy => ?_
    refine (cel_groupSelect A (celOps_general _) _ _ _ (hx.mono l2) hy).bind fun z r3 l3 hz => ?_
    exact .ret (in_prefix (in_pushP (hσ.mono ((l1.trans l2).trans l3)) hz) _)
  | msm_without_select_general ps ss s1 s2 =>
    unfold runCall
    refine (cel_mapM_same _ fun _ _ h => cel_index (in_s_z (hσ.mono h)) _).bind fun x r1 l1 hx => ?_
    refine (cel_mapM_same _ fun _ _ h => cel_index (in_s_i (hσ.mono (l1.trans h))) _).bind fun y r2 l2 hy => ?_
    refine (cel_groupBisec A (celOps_general _) _ _ (hx.mono l2) hy).bind fun z r3 l3 hz => ?_
    exact .ret (in_pushP (hσ.mono ((l1.trans l2).trans l3)) hz)
  | _ => unfold runCall; acellt

theorem cel_runCalls (A : Api n) (w : Witness n) (calls : List (Call n)) {σ : Store n} (hσ : In r σ) :
    W r (runCalls A w calls σ) In := by
  induction calls generalizing r σ with
  | nil => exact .ret hσ
  | cons c cs ih => exact (cel_runCall A w hσ c).bind fun _ _ _ h => ih h

end Verif
