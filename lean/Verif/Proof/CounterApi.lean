import Verif.Proof.CounterMsm
import Verif.Proof.CounterTower
import Verif.Proof.CounterKeccak
import Verif.Spec.Api

/-!
# Every sequence of API calls keeps counters small
-/

set_option linter.unusedVariables false

namespace Verif
variable {n : ℕ} {r : Tag n}

/-- All objects have small counters. -/
structure StoreSmall (r : Tag n) (σ : Store n) : Prop where
  v : Small r σ.v
  i : Small r σ.i
  p : Small r σ.p
  c : Small r σ.c
  z : Small r σ.z
  f2 : Small r σ.f2
  f6 : Small r σ.f6
  f12 : Small r σ.f12
  g2 : Small r σ.g2
  lines : Small r σ.lines

instance : HasCounters n (Store n) := ⟨fun σ => counters σ.v ++ (counters σ.i ++ (counters σ.p ++ (counters σ.c ++ (counters σ.z ++ (counters σ.f2 ++ (counters σ.f6 ++ (counters σ.f12 ++ (counters σ.g2 ++ (counters σ.lines)))))))))⟩

theorem storeSmall_iff {σ : Store n} : Small r σ ↔ StoreSmall r σ := by
  unfold Small
  show (∀ c ∈ counters σ.v ++ _, c.val ≤ 16) ↔ _
  simp only [small_append_counters]
  constructor
  · rintro ⟨h0, h1, h2, h3, h4, h5, h6, h7, h8, h9⟩
    exact ⟨h0, h1, h2, h3, h4, h5, h6, h7, h8, h9⟩
  · rintro ⟨h0, h1, h2, h3, h4, h5, h6, h7, h8, h9⟩
    exact ⟨h0, h1, h2, h3, h4, h5, h6, h7, h8, h9⟩

theorem small_s_v {σ : Store n} (h : Small r σ) : Small r σ.v := (storeSmall_iff.1 h).v
theorem small_s_i {σ : Store n} (h : Small r σ) : Small r σ.i := (storeSmall_iff.1 h).i
theorem small_s_p {σ : Store n} (h : Small r σ) : Small r σ.p := (storeSmall_iff.1 h).p
theorem small_s_c {σ : Store n} (h : Small r σ) : Small r σ.c := (storeSmall_iff.1 h).c
theorem small_s_z {σ : Store n} (h : Small r σ) : Small r σ.z := (storeSmall_iff.1 h).z
theorem small_s_f2 {σ : Store n} (h : Small r σ) : Small r σ.f2 := (storeSmall_iff.1 h).f2
theorem small_s_f6 {σ : Store n} (h : Small r σ) : Small r σ.f6 := (storeSmall_iff.1 h).f6
theorem small_s_f12 {σ : Store n} (h : Small r σ) : Small r σ.f12 := (storeSmall_iff.1 h).f12
theorem small_s_g2 {σ : Store n} (h : Small r σ) : Small r σ.g2 := (storeSmall_iff.1 h).g2
theorem small_s_lines {σ : Store n} (h : Small r σ) : Small r σ.lines := (storeSmall_iff.1 h).lines
theorem small_pushV {σ : Store n} (h : Small r σ) {x : AssignedValue n} (hx : Small r x) : Small r (σ.pushV x) :=
  have h := storeSmall_iff.1 h
  storeSmall_iff.2 ⟨small_append h.v (small_cons hx small_nil), h.i, h.p, h.c, h.z, h.f2, h.f6, h.f12, h.g2, h.lines⟩
theorem small_pushI {σ : Store n} (h : Small r σ) {x : AssignedInteger n} (hx : Small r x) : Small r (σ.pushI x) :=
  have h := storeSmall_iff.1 h
  storeSmall_iff.2 ⟨h.v, small_append h.i (small_cons hx small_nil), h.p, h.c, h.z, h.f2, h.f6, h.f12, h.g2, h.lines⟩
theorem small_pushP {σ : Store n} (h : Small r σ) {x : AssignedPoint n} (hx : Small r x) : Small r (σ.pushP x) :=
  have h := storeSmall_iff.1 h
  storeSmall_iff.2 ⟨h.v, h.i, small_append h.p (small_cons hx small_nil), h.c, h.z, h.f2, h.f6, h.f12, h.g2, h.lines⟩
theorem small_pushC {σ : Store n} (h : Small r σ) {x : AssignedPointWithCurvature n} (hx : Small r x) : Small r (σ.pushC x) :=
  have h := storeSmall_iff.1 h
  storeSmall_iff.2 ⟨h.v, h.i, h.p, small_append h.c (small_cons hx small_nil), h.z, h.f2, h.f6, h.f12, h.g2, h.lines⟩
theorem small_pushN {σ : Store n} (h : Small r σ) {x : AssignedNonZeroPoint n} (hx : Small r x) : Small r (σ.pushN x) :=
  have h := storeSmall_iff.1 h
  storeSmall_iff.2 ⟨h.v, h.i, h.p, h.c, small_append h.z (small_cons hx small_nil), h.f2, h.f6, h.f12, h.g2, h.lines⟩
theorem small_pushQ {σ : Store n} (h : Small r σ) {x : AssignedFq2 n} (hx : Small r x) : Small r (σ.pushQ x) :=
  have h := storeSmall_iff.1 h
  storeSmall_iff.2 ⟨h.v, h.i, h.p, h.c, h.z, small_append h.f2 (small_cons hx small_nil), h.f6, h.f12, h.g2, h.lines⟩
theorem small_pushS {σ : Store n} (h : Small r σ) {x : AssignedFq6 n} (hx : Small r x) : Small r (σ.pushS x) :=
  have h := storeSmall_iff.1 h
  storeSmall_iff.2 ⟨h.v, h.i, h.p, h.c, h.z, h.f2, small_append h.f6 (small_cons hx small_nil), h.f12, h.g2, h.lines⟩
theorem small_pushT {σ : Store n} (h : Small r σ) {x : AssignedFq12 n} (hx : Small r x) : Small r (σ.pushT x) :=
  have h := storeSmall_iff.1 h
  storeSmall_iff.2 ⟨h.v, h.i, h.p, h.c, h.z, h.f2, h.f6, small_append h.f12 (small_cons hx small_nil), h.g2, h.lines⟩
theorem small_pushG {σ : Store n} (h : Small r σ) {x : AssignedG2Affine n} (hx : Small r x) : Small r (σ.pushG x) :=
  have h := storeSmall_iff.1 h
  storeSmall_iff.2 ⟨h.v, h.i, h.p, h.c, h.z, h.f2, h.f6, h.f12, small_append h.g2 (small_cons hx small_nil), h.lines⟩
theorem small_pushL {σ : Store n} (h : Small r σ) {x : List (LineCoeffs n)} (hx : Small r x) : Small r (σ.pushL x) :=
  have h := storeSmall_iff.1 h
  storeSmall_iff.2 ⟨h.v, h.i, h.p, h.c, h.z, h.f2, h.f6, h.f12, h.g2, small_append h.lines (small_cons hx small_nil)⟩
theorem small_pushVs {σ : Store n} (h : Small r σ) {x : List (AssignedValue n)} (hx : Small r x) : Small r (σ.pushVs x) :=
  have h := storeSmall_iff.1 h
  storeSmall_iff.2 ⟨small_append h.v hx, h.i, h.p, h.c, h.z, h.f2, h.f6, h.f12, h.g2, h.lines⟩
theorem small_prefix {σ : Store n} (h : Small r σ) (pre : Option ℕ) : Small r { σ with msm_prefix := pre } := h

theorem cnt_elem {σ : Store n} (h : Small r σ) (e : ℕ × ZMod n) : Safe r (σ.elem e) Small :=
  (cnt_index (small_s_v h) _).bind fun _ _ _ ha => .ret (small_pair ha (small_field _))
theorem cnt_term {σ : Store n} (h : Small r σ) (e : ℕ × ℕ × ℕ × ZMod n) : Safe r (σ.term e) Small :=
  (cnt_index (small_s_v h) _).bind fun _ _ l1 ha => (cnt_index (small_s_v (h.mono l1)) _).bind fun _ _ l2 hb =>
    (cnt_index (small_s_v (h.mono (l1.trans l2))) _).bind fun _ _ l3 hc =>
      .ret (small_term (ha.mono (l2.trans l3)) (hb.mono l3) hc)
theorem cnt_pairTerm {σ : Store n} (h : Small r σ) (e : ℕ × ℕ) : Safe r (σ.pairTerm e) Small :=
  (cnt_index (small_s_p h) _).bind fun _ _ l1 ha => (cnt_index (small_s_g2 (h.mono l1)) _).bind fun _ _ l2 hb =>
    .ret (small_pair (ha.mono l2) hb)
theorem cnt_lineTerm {σ : Store n} (h : Small r σ) (e : ℕ × ℕ) : Safe r (σ.lineTerm e) Small :=
  (cnt_index (small_s_p h) _).bind fun _ _ l1 ha => (cnt_index (small_s_lines (h.mono l1)) _).bind fun _ _ l2 hb =>
    .ret (small_pair (ha.mono l2) hb)

theorem cnt_unwrap_ok {α β : Type} [HasCounters n α] {m : M n (Except UnsafeError α)} {g : Except UnsafeError α → M n β} {Q : Tag n → β → Prop} (h : Safe r m Small)
    (hg : ∀ a r', Later r r' → Small r' a → Safe r' (g (.ok a)) Q) (he : ∀ e r', Safe r' (g (.error e)) Q) : Safe r (m >>= g) Q :=
  h.bind fun x r' hr hx => by
    cases x with
    | ok a => exact hg a r' hr hx
    | error e => exact he e r'

/-- `countert` for calls. -/
macro "acounters" : tactic => `(tactic|
  repeat' first
    | with_reducible assumption
    | with_reducible exact trivial
    | with_reducible exact small_unit _
    | with_reducible exact small_nil
    | with_reducible apply small_pushV
    | with_reducible apply small_pushI
    | with_reducible apply small_pushP
    | with_reducible apply small_pushC
    | with_reducible apply small_pushN
    | with_reducible apply small_pushQ
    | with_reducible apply small_pushS
    | with_reducible apply small_pushT
    | with_reducible apply small_pushG
    | with_reducible apply small_pushL
    | with_reducible apply small_pushVs
    | with_reducible apply small_s_v
    | with_reducible apply small_s_i
    | with_reducible apply small_s_p
    | with_reducible apply small_s_c
    | with_reducible apply small_s_z
    | with_reducible apply small_s_f2
    | with_reducible apply small_s_f6
    | with_reducible apply small_s_f12
    | with_reducible apply small_s_g2
    | with_reducible apply small_s_lines
    | with_reducible apply small_prefix
    | with_reducible apply small_join
    | with_reducible apply small_cons
    | with_reducible apply small_append
    | with_reducible apply small_limbs
    | with_reducible apply small_native
    | with_reducible apply small_cv
    | with_reducible apply small_cz
    | with_reducible apply small_px
    | with_reducible apply small_py
    | with_reducible apply small_pz
    | with_reducible apply small_nx
    | with_reducible apply small_ny
    | with_reducible apply small_pcx
    | with_reducible apply small_pcy
    | with_reducible apply small_pcz
    | with_reducible apply small_pcc
    | with_reducible apply small_to_point
    | with_reducible apply small_f60
    | with_reducible apply small_f61
    | with_reducible apply small_f62
    | with_reducible apply small_f120
    | with_reducible apply small_f121
    | with_reducible apply small_gax
    | with_reducible apply small_gay
    | with_reducible apply small_gaz
    | with_reducible apply small_l0
    | with_reducible apply small_l1
    | with_reducible apply small_l2
    | with_reducible apply small_pair
    | with_reducible apply small_int
    | with_reducible apply small_curv
    | with_reducible apply small_point
    | with_reducible apply small_pc
    | with_reducible apply small_nz
    | with_reducible apply small_f6
    | with_reducible apply small_f12
    | with_reducible apply small_ga
    | with_reducible apply small_line
    | (with_reducible apply small_left; with_reducible assumption)
    | (with_reducible apply small_right; with_reducible assumption)
    | with_reducible apply small_fst
    | with_reducible apply small_snd)

macro "acountert" : tactic => `(tactic|
  repeat' first
    | kintro
    | with_reducible assumption
    | with_reducible apply Safe.ret
    | with_reducible exact Safe.panic (by decide)
    | with_reducible apply Safe.bindS
    | with_reducible apply Safe.bind
    | head_lemma cnt
    | with_reducible apply cnt_elem
    | with_reducible apply cnt_term
    | with_reducible apply cnt_pairTerm
    | with_reducible apply cnt_lineTerm
    | with_reducible apply cnt_mapM_same
    | (acounters; done)
    | dsimp only)

instance six_infoOf (A : Api n) [h : Six A.info] [h' : Six A.sinfo] (b : Bool) : Six (A.infoOf b) := by
  cases b
  · exact h
  · exact h'

theorem cnt_runTowerCall (A : Api n) [Six A.info] [Six A.sinfo] {σ : Store n} (hσ : Small r σ) (c : TowerCall) : Safe r (runTowerCall A σ c) Small := by
  cases c <;> (unfold runTowerCall; acountert)

theorem cnt_groupSelect (A : Api n) [Six A.info] {ς : Type} [HasCounters n ς] {ops : ScalarOps n ς} (ho : CntOps ops) (r1 r2 : Option (ℕ × ℕ))
    (pre : Option ℕ) {points : List (AssignedNonZeroPoint n)} (h_points : Small r points) {scalars : List ς}
    (h_scalars : Small r scalars) : Safe r (groupSelect A ops r1 r2 pre points scalars) fun r x => Small r x.1 := by
  cases pre with
  | none => exact Safe.panic (by decide)
  | some p =>
    exact cnt_unwrap_ok (cnt_msm_batch_with_select _ _ ho p h_points h_scalars _ _) (fun _ _ _ h => .pure fun _ h' => h.mono h')
      fun _ _ => Safe.panic (by decide)

theorem cnt_groupBisec (A : Api n) [Six A.info] {ς : Type} [HasCounters n ς] {ops : ScalarOps n ς} (ho : CntOps ops) (r1 r2 : Option (ℕ × ℕ))
    {points : List (AssignedNonZeroPoint n)} (h_points : Small r points) {scalars : List ς}
    (h_scalars : Small r scalars) : Safe r (groupBisec A ops r1 r2 points scalars) Small :=
  cnt_unwrap_ok (cnt_msm_batch_without_select _ _ ho h_points h_scalars _ _) (fun _ _ _ h => .ret h) fun _ _ => Safe.panic (by decide)

theorem cnt_runCall (A : Api n) [Six A.info] [Six A.sinfo] (w : Witness n) {σ : Store n} (hσ : Small r σ) (c : Call n) :
    Safe r (runCall A w σ c) Small := by
  cases c with
  | ecc_add_unsafe a b =>
    unfold runCall
    refine (cnt_index (small_s_z hσ) _).bind fun x r1 l1 hx => ?_
    refine (cnt_index (small_s_z (hσ.mono l1)) _).bind fun y r2 l2 hy => ?_
    refine cnt_unwrap_ok (cnt_ecc_add_unsafe _ (hx.mono l2) hy) (fun z r3 l3 hz => ?_) fun _ _ => Safe.panic (by decide)
    exact .ret (small_pushN (hσ.mono ((l1.trans l2).trans l3)) hz)
  | ecc_double_unsafe a =>
    unfold runCall
    refine (cnt_index (small_s_z hσ) _).bind fun x r1 l1 hx => ?_
    refine cnt_unwrap_ok (cnt_ecc_double_unsafe _ hx) (fun z r3 l3 hz => ?_) fun _ _ => Safe.panic (by decide)
    exact .ret (small_pushN (hσ.mono (l1.trans l3)) hz)
  | msm_native ps ss s1 s2 =>
    unfold runCall
    refine (cnt_mapM_same _ fun _ _ h => cnt_index (small_s_p (hσ.mono h)) _).bind fun x r1 l1 hx => ?_
    refine (cnt_mapM_same _ fun _ _ h => cnt_index (small_s_v (hσ.mono (l1.trans h))) _).bind fun y r2 l2 hy => ?_
    refine (cnt_msm _ _ (cntOps_native _) _ _ _ _ (hx.mono l2) hy).bind fun z r3 l3 hz => ?_
    exact .ret (small_prefix (small_pushP (hσ.mono ((l1.trans l2).trans l3)) hz) _)
  | msm_general ps ss s1 s2 =>
    unfold runCall
    refine (cnt_mapM_same _ fun _ _ h => cnt_index (small_s_p (hσ.mono h)) _).bind fun x r1 l1 hx => ?_
    refine (cnt_mapM_same _ fun _ _ h => cnt_index (small_s_i (hσ.mono (l1.trans h))) _).bind fun y r2 l2 hy => ?_
    refine (cnt_msm _ _ (cntOps_general _) _ _ _ _ (hx.mono l2) hy).bind fun z r3 l3 hz => ?_
    exact .ret (small_prefix (small_pushP (hσ.mono ((l1.trans l2).trans l3)) hz) _)
  | msm_with_select_native ps ss s1 s2 =>
    unfold runCall
    refine (cnt_mapM_same _ fun _ _ h => cnt_index (small_s_z (hσ.mono h)) _).bind fun x r1 l1 hx => ?_
    refine (cnt_mapM_same _ fun _ _ h => cnt_index (small_s_v (hσ.mono (l1.trans h))) _).bind fun y r2 l2 hy => ?_
    refine (cnt_groupSelect A (cntOps_native _) _ _ _ (hx.mono l2) hy).bind fun z r3 l3 hz => ?_
    exact .ret (small_prefix (small_pushP (hσ.mono ((l1.trans l2).trans l3)) hz) _)
  | msm_without_select_native ps ss s1 s2 =>
    unfold runCall
    refine (cnt_mapM_same _ fun _ _ h => cnt_index (small_s_z (hσ.mono h)) _).bind fun x r1 l1 hx => ?_
    refine (cnt_mapM_same _ fun _ _ h => cnt_index (small_s_v (hσ.mono (l1.trans h))) _).bind fun y r2 l2 hy => ?_
    refine (cnt_groupBisec A (cntOps_native _) _ _ (hx.mono l2) hy).bind fun z r3 l3 hz => ?_
    exact .ret (small_pushP (hσ.mono ((l1.trans l2).trans l3)) hz)
  | msm_with_select_general ps ss s1 s2 =>
    unfold runCall
    refine (cnt_mapM_same _ fun _ _ h => cnt_index (small_s_z (hσ.mono h)) _).bind fun x r1 l1 hx => ?_
    refine (cnt_mapM_same _ fun _ _ h => cnt_index (small_s_i (hσ.mono (l1.trans h))) _).bind fun y r2 l2 hy => ?_
    refine (cnt_groupSelect A (cntOps_general _) _ _ _ (hx.mono l2) hy).bind fun z r3 l3 hz => ?_
    exact .ret (small_prefix (small_pushP (hσ.mono ((l1.trans l2).trans l3)) hz) _)
  | msm_without_select_general ps ss s1 s2 =>
    unfold runCall
    refine (cnt_mapM_same _ fun _ _ h => cnt_index (small_s_z (hσ.mono h)) _).bind fun x r1 l1 hx => ?_
    refine (cnt_mapM_same _ fun _ _ h => cnt_index (small_s_i (hσ.mono (l1.trans h))) _).bind fun y r2 l2 hy => ?_
    refine (cnt_groupBisec A (cntOps_general _) _ _ (hx.mono l2) hy).bind fun z r3 l3 hz => ?_
    exact .ret (small_pushP (hσ.mono ((l1.trans l2).trans l3)) hz)
  | _ => unfold runCall; acountert

theorem cnt_runCalls (A : Api n) [Six A.info] [Six A.sinfo] (w : Witness n) (calls : List (Call n)) {σ : Store n} (hσ : Small r σ) :
    Safe r (runCalls A w calls σ) Small := by
  induction calls generalizing r σ with
  | nil => exact .ret hσ
  | cons c cs ih => exact (cnt_runCall A w hσ c).bind fun _ _ _ h => ih h

end Verif
