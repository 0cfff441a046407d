import Verif.Proof.Msm
import Verif.Spec.Msm

/-!
# The batch multi-scalar multiplication, soundness
-/

namespace Verif
variable {cc : Prop}
variable {n wm : ℕ} {info : RangeInfo n} {b : ZMod wm} {σ : Type}

/-- Facts about chunks of a list. -/
theorem chunks_mem {α : Type} {k : ℕ} (hk : k ≠ 0) (l : List α) {x : List α} (hx : x ∈ chunks k l) :
    x.length ≤ k ∧ ∀ y ∈ x, y ∈ l := by
  have key : ∀ m (l : List α), l.length = m → ∀ x ∈ chunks k l, x.length ≤ k ∧ ∀ y ∈ x, y ∈ l := by
    intro m
    induction m using Nat.strong_induction_on with
    | _ m ih =>
      intro l hl x hx
      by_cases hn : l = []
      · subst hn
        rw [chunks_nil] at hx
        simp at hx
      · rw [chunks_cons hk hn] at hx
        have := List.length_pos_iff.2 hn
        rcases List.mem_cons.1 hx with rfl | hx
        · exact ⟨by simp, fun y hy => List.mem_of_mem_take hy⟩
        · obtain ⟨h1, h2⟩ := ih (l.drop k).length (by simp; omega) _ rfl x hx
          exact ⟨h1, fun y hy => List.mem_of_mem_drop (h2 y hy)⟩
  exact key _ l rfl x hx

theorem chunks_length_le {α : Type} {k : ℕ} (hk : k ≠ 0) (l : List α) : (chunks k l).length ≤ l.length := by
  have key : ∀ m (l : List α), l.length = m → (chunks k l).length ≤ l.length := by
    intro m
    induction m using Nat.strong_induction_on with
    | _ m ih =>
      intro l hl
      by_cases h0 : l = []
      · subst h0; rw [chunks_nil]; exact le_rfl
      · have hp := List.length_pos_iff.2 h0
        rw [chunks_cons hk h0, List.length_cons]
        have := ih (l.drop k).length (by rw [List.length_drop]; omega) (l.drop k) rfl
        rw [List.length_drop] at this
        omega
  exact key _ l rfl

theorem chunks_forall₂ {α β : Type} {R : α → β → Prop} {k : ℕ} (hk : k ≠ 0) {l : List α} {l' : List β}
    (h : List.Forall₂ R l l') : List.Forall₂ (List.Forall₂ R) (chunks k l) (chunks k l') := by
  have key : ∀ m (l : List α) (l' : List β), l.length = m → List.Forall₂ R l l' →
      List.Forall₂ (List.Forall₂ R) (chunks k l) (chunks k l') := by
    intro m
    induction m using Nat.strong_induction_on with
    | _ m ih =>
      intro l l' hl h
      cases h with
      | nil => rw [chunks_nil, chunks_nil]; exact .nil
      | @cons x y l l' hx h =>
        rw [chunks_cons (l := x :: l) hk (by simp), chunks_cons (l := y :: l') hk (by simp)]
        have h' := List.Forall₂.cons hx h
        refine .cons (List.forall₂_take k h') (ih ((x :: l).drop k).length ?_ _ _ rfl (List.forall₂_drop k h'))
        simp only [List.length_cons, List.length_drop] at hl ⊢
        omega
  exact key _ l l' rfl h

theorem chunks_ne_nil {α : Type} {k : ℕ} (hk : k ≠ 0) {l : List α} (hl : l ≠ []) : chunks k l ≠ [] := by
  rw [chunks_cons hk hl]; simp

theorem Growing.bind_div_rem {α : Type} {x y : ℕ} {k : ℕ × ℕ → M n α} (hk : y ≠ 0 → Growing (k (x / y, x % y))) :
    Growing (div_rem x y >>= k) := by
  unfold div_rem
  split
  · intro s r t hs e; cases e
  · rw [pure_bind]; exact hk ‹_›

theorem S.bind_div_rem {α : Type} {c : Circuit n} {x y : ℕ} {k : ℕ × ℕ → M n α} {Q : α → Prop}
    (hk : y ≠ 0 → S c (k (x / y, x % y)) Q) : S c (div_rem x y >>= k) Q := by
  unfold div_rem
  split
  · exact S.bind_panic
  · rw [pure_bind]; exact hk ‹_›

/-- The group size lies between 1 and the best group size. -/
theorem group_size_bounds {N best : ℕ} (hb : 1 ≤ best) (h : (N + best - 1) / best ≠ 0) :
    1 ≤ (N + (N + best - 1) / best - 1) / ((N + best - 1) / best) ∧
    (N + (N + best - 1) / best - 1) / ((N + best - 1) / best) ≤ best := by
  obtain ⟨g, hg⟩ : ∃ g, g = (N + best - 1) / best := ⟨_, rfl⟩
  rw [← hg] at h ⊢
  have hN : 1 ≤ N := by
    by_contra hN
    have : N = 0 := by omega
    subst this
    apply h
    rw [hg]
    exact Nat.div_eq_of_lt (by omega)
  have hg1 : 1 ≤ g := Nat.one_le_iff_ne_zero.2 h
  have h1 : N ≤ best * g := by
    have e1 := Nat.div_add_mod (N + best - 1) best
    have e2 := Nat.mod_lt (N + best - 1) (show best > 0 by omega)
    rw [← hg] at e1
    omega
  constructor
  · rw [Nat.le_div_iff_mul_le (by omega)]
    omega
  · rw [Nat.div_le_iff_le_mul_add_pred (by omega)]
    have : g * best = best * g := Nat.mul_comm _ _
    omega

/-- No window can be run when the first scalar has no bits. -/
theorem windows_zero_panics {pick : ℕ → List (AssignedCondition n) → M n (AssignedNonZeroPoint n)} {k : ℕ}
    (hk : k ≠ 0) {bits : List (List (List (AssignedCondition n)))} (h0 : bits[0]? = some [])
    (acc : AssignedNonZeroPoint n) (s : Context n) :
    ∃ e, window_acc info pick 0 0 (chunks k bits) acc s = .error e := by
  cases bits with
  | nil => simp at h0
  | cons x bits =>
    simp at h0
    subst h0
    obtain ⟨k, rfl⟩ := Nat.exists_eq_succ_of_ne_zero hk
    rw [chunks_cons hk (by simp)]
    unfold window_acc group_bits
    rw [List.take_succ_cons, List.mapM_cons]
    exact ⟨_, rfl⟩

theorem growing_windows {pick : ℕ → List (AssignedCondition n) → M n (AssignedNonZeroPoint n)}
    (hp : ∀ g l, Prog (pick g l)) {k : ℕ} (hk : k ≠ 0) {bits : List (List (List (AssignedCondition n)))}
    {bits0 : List (List (AssignedCondition n))} (h0 : bits[0]? = some bits0) (acc : AssignedNonZeroPoint n) :
    Growing (windows_parallel bits0.length fun wi => window_acc info pick wi 0 (chunks k bits) acc) := by
  intro s r t hs e
  by_cases hb : bits0 = []
  · subst hb
    obtain ⟨p, hp⟩ := windows_zero_panics (info := info) (pick := pick) hk h0 acc (s.clone_with_offset ⟨0, 0, 0⟩)
    unfold windows_parallel at e
    obtain ⟨r1, s1, h1, -⟩ := run_bind_ok.1 e
    unfold predict at h1
    dsimp only at h1
    rw [hp] at h1
    cases h1
  · obtain ⟨l, -, -, h1, h2, -⟩ := windows_parallel_ok (List.length_pos_iff.2 hb)
      (fun i => (prog_window_acc hp i _ _ _).growing) (fun i => neverErr_window_acc i _ _ _) hs e
    exact ⟨h1, h2⟩

variable {ops : ScalarOps n σ} {best : ℕ} {before : M n Unit} {cache : ℕ → AssignedNonZeroPoint n → ℕ → M n Unit}
  {pick : List (List (AssignedNonZeroPoint n)) → ℕ → List (AssignedCondition n) → M n (AssignedNonZeroPoint n)}

/-- The end of the batch: accumulate the windows and remove the blinding point. -/
def msm_finish (info : RangeInfo n) (odd : Bool) (line_neg acc acc_neg : AssignedNonZeroPoint n)
    (line_acc : List (AssignedNonZeroPoint n)) : M n (Except UnsafeError (AssignedPoint n)) :=
  tryB (windows_acc info odd line_neg line_acc acc) fun acc => do
    let acc ← ecc_non_zero_point_downgrade acc
    let acc ← to_point_with_curvature info acc
    let carry ← ecc_non_zero_point_downgrade acc_neg
    let res ← ecc_add info acc carry
    pure (.ok res)

theorem prog_msm_finish (odd : Bool) (line_neg acc acc_neg : AssignedNonZeroPoint n)
    (line_acc : List (AssignedNonZeroPoint n)) : Built cc (msm_finish info odd line_neg acc acc_neg line_acc) := by
  unfold msm_finish
  exact prog_tryB (prog_windows_acc _ _ _ _) fun _ => by prog

/-- The batch after the candidates have been built. -/
def msm_after (info : RangeInfo n) (ops : ScalarOps n σ)
    (pick : List (List (AssignedNonZeroPoint n)) → ℕ → List (AssignedCondition n) → M n (AssignedNonZeroPoint n))
    (scalars : List σ) (group_size : ℕ) (line_neg acc acc_neg : AssignedNonZeroPoint n)
    (candidates : List (List (AssignedNonZeroPoint n))) : M n (Except UnsafeError (AssignedPoint n)) := do
  let bits ← scalars.mapM ops.decompose
  let bits0 ← index bits 0
  tryB (windows_parallel bits0.length fun wi => window_acc info (pick candidates) wi 0 (chunks group_size bits) acc_neg)
    fun line_acc => msm_finish info ((chunks group_size bits).length % 2 = 1) line_neg acc acc_neg line_acc

theorem growing_msm_after (hd : ∀ s, Prog (ops.decompose s)) (hp : ∀ cs g l, Prog (pick cs g l)) (scalars : List σ)
    {group_size : ℕ} (hk : group_size ≠ 0) (line_neg acc acc_neg : AssignedNonZeroPoint n)
    (candidates : List (List (AssignedNonZeroPoint n))) :
    Growing (msm_after info ops pick scalars group_size line_neg acc acc_neg candidates) :=
  .bind (prog_mapM hd _).growing fun _ => .bind_index fun _ h0 => .tryB (growing_windows (hp _) hk h0 _) fun _ =>
    (prog_msm_finish _ _ _ _ _).growing

theorem msm_batch_eq (bb : ℕ) (points : List (AssignedNonZeroPoint n)) (scalars : List σ)
    (acc_c line_c : Option (ℕ × ℕ)) :
    msm_batch info bb ops best before cache pick points scalars acc_c line_c = (do
      let points ← points.mapM (ecc_reduce_non_zero info)
      let acc ← assign_non_zero_point info bb acc_c
      let line ← assign_non_zero_point info bb line_c
      let acc_neg ← ecc_neg_non_zero info acc
      let acc_neg ← ecc_reduce_non_zero info acc_neg
      let line_neg ← ecc_neg_non_zero info line
      let line_neg ← ecc_reduce_non_zero info line_neg
      let gs ← div_rem (points.length + (points.length + best - 1) / best - 1) ((points.length + best - 1) / best)
      before
      tryB (group_candidates info cache line line_neg 0 (chunks gs.1 points)) fun candidates =>
        msm_after info ops pick scalars gs.1 line_neg acc acc_neg candidates) := rfl

theorem growing_msm_batch (hbest : 1 ≤ best) (hd : ∀ s, Prog (ops.decompose s)) (hbef : Prog before)
    (hc : ∀ g p i, Prog (cache g p i)) (hp : ∀ cs g l, Prog (pick cs g l)) (bb : ℕ)
    (points : List (AssignedNonZeroPoint n)) (scalars : List σ) (acc_c line_c : Option (ℕ × ℕ)) :
    Growing (msm_batch info bb ops best before cache pick points scalars acc_c line_c) := by
  rw [msm_batch_eq]
  refine .bind (prog_mapM (fun _ => prog_ecc_reduce_non_zero _ _) _).growing fun points =>
    .bind (prog_assign_non_zero_point ..).growing fun _ => .bind (prog_assign_non_zero_point ..).growing fun _ =>
    .bind (prog_ecc_neg_non_zero ..).growing fun _ => .bind (prog_ecc_reduce_non_zero ..).growing fun _ =>
    .bind (prog_ecc_neg_non_zero ..).growing fun _ => .bind (prog_ecc_reduce_non_zero ..).growing fun _ =>
    .bind_div_rem fun h => .bind hbef.growing fun _ => .tryB (prog_group_candidates hc ..).growing fun _ =>
    growing_msm_after hd hp _ ?_ _ _ _ _
  have := (group_size_bounds hbest h).1
  exact Nat.one_le_iff_ne_zero.1 this

/-! ## Soundness -/

/-- What the decomposition of the scalars has to satisfy: if `F s`, the bits are those of a number `k` of `W`
bits with `D s k`. -/
def DecomposeSound (c : Circuit n) (w : Advice n) (F : σ → Prop) (D : σ → ℕ → Prop) (W : ℕ)
    (decompose : σ → M n (List (List (AssignedCondition n)))) : Prop :=
  ∀ s, S c (decompose s) (fun res => F s → ∃ k, Windows (cv w) 1 res k ∧ res.length = W ∧ D s k)

theorem vsum_final {w : Advice n} {W : ℕ} {G : Type} [AddCommGroup G] :
    ∀ {bits : List (List (List (AssignedCondition n)))} {ks : List ℕ} {Ps : List G},
    List.Forall₂ (fun bs k => Windows (cv w) 1 bs k ∧ bs.length = W) bits ks → vsum (cv w) W bits Ps = natSum ks Ps
  | [], [], Ps, .nil => by simp [vsum, natSum]
  | bs :: bits, x :: xs, [], .cons _ _ => by simp [vsum, natSum]
  | bs :: bits, k :: xs, P :: Ps, .cons h hs => by
    obtain ⟨h1, h2⟩ := h
    simp only [vsum, natSum, List.zipWith_cons_cons, List.sum_cons]
    rw [vsum_final hs, List.take_of_length_le (by omega), h1.horner]
    rfl

section
variable [Fact n.Prime] [Fact wm.Prime] (h : RangeInfo.new wm n 18 6 = .ok info) {c : Circuit n} {w : Advice n}
  (hw : c.Sat w)
include h hw

theorem S_msm_finish (hb : GoodCurve b) {line_neg acc acc_neg : AssignedNonZeroPoint n} {L A : Pt b}
    (hL : NRep info w line_neg (-L)) (hA : NRep info w acc A) (hA' : NRep info w acc_neg (-A))
    {bits : List (List (List (AssignedCondition n)))} {Ps : List (Pt b)}
    {W : ℕ} (hW : ∀ bs ∈ bits, bs.length = W) (odd : Bool) {l : List (AssignedNonZeroPoint n)} (hl : l.length = W)
    (hl' : ∀ j p, l[j]? = some p → NRep info w p (-A + (if odd then L else 0) + wsum (cv w) j bits Ps)) :
    S c (msm_finish info odd line_neg acc acc_neg l) (fun r => ∃ p, r = .ok p ∧
      PRep info w p (vsum (cv w) W bits Ps)) := by
  unfold msm_finish
  refine S.tryB (S_windows_acc h hw hb hL hW odd l 0 acc (by omega) (by simpa using hl') ?_) (fun _ => by prog)
    fun acc hacc => ?_
  · rw [vsum_zero, add_zero]; exact hA
  · rw [hl, zero_add] at hacc
    refine S.bindP ((S_downgrade (info := info) (b := b) hw acc).mono fun r hr => hr _ hacc) (fun _ => by prog)
      fun a ha => ?_
    refine S.bindP ((S_to_point_with_curvature h hw hb a).mono fun r hr => hr.2 _ ha) (fun _ => by prog) fun a ha => ?_
    refine S.bindP ((S_downgrade (info := info) (b := b) hw acc_neg).mono fun r hr => hr _ hA') (fun _ => by prog)
      fun q hq => ?_
    refine S.bindP ((S_ecc_add h hw hb a q).mono fun r hr => hr _ _ ha hq) (fun _ => by prog) fun r hr =>
      S.pure ⟨r, rfl, ?_⟩
    have e : vsum (cv w) W bits Ps = A + vsum (cv w) W bits Ps + -A := by abel
    rwa [e]

theorem S_msm_after (hb : GoodCurve b) {G B W : ℕ} (hW : 1 ≤ W) {F : σ → Prop} {D : σ → ℕ → Prop}
    (hd : ∀ s, Prog (ops.decompose s)) (hdec : DecomposeSound c w F D W ops.decompose)
    {K : ℕ → ℕ → AssignedNonZeroPoint n → Prop} (hp : ∀ cs g l, Prog (pick cs g l))
    (hpick : PickSound c info w b G B K pick) {scalars : List σ} (hF : ∀ s ∈ scalars, F s)
    {group_size : ℕ} (hk : group_size ≠ 0) (hkB : group_size ≤ B) {line_neg acc acc_neg : AssignedNonZeroPoint n} {L A : Pt b}
    (hL : NRep info w line_neg (-L)) (hA : NRep info w acc A) (hA' : NRep info w acc_neg (-A))
    {candidates : List (List (AssignedNonZeroPoint n))} {Ps : List (Pt b)} (hlen : scalars.length = Ps.length)
    (hG : Ps.length ≤ G) (hcs : GroupCands info w K L 0 candidates (chunks group_size Ps)) :
    S c (msm_after info ops pick scalars group_size line_neg acc acc_neg candidates) (fun res => ∃ p ks, res = .ok p ∧
      List.Forall₂ D scalars ks ∧ PRep info w p (natSum ks Ps)) := by
  unfold msm_after
  refine S.bindG (S.mapM fun s _ => hdec s) (fun _ => .bind_index fun _ h0 => .tryB (growing_windows (hp _) hk h0 _)
    fun _ => (prog_msm_finish _ _ _ _ _).growing) fun bits hbits => S.bind_index fun bits0 h0 => ?_
  obtain ⟨ks, hks, hbits⟩ : ∃ ks, List.Forall₂ D scalars ks ∧
      List.Forall₂ (fun bs k => Windows (cv w) 1 bs k ∧ bs.length = W) bits ks := by
    clear hcs h0 hlen hG
    induction hbits with
    | nil => exact ⟨[], .nil, .nil⟩
    | cons hy _ ih =>
      obtain ⟨k, h1, h2, h3⟩ := hy (hF _ List.mem_cons_self)
      obtain ⟨ks, h4, h5⟩ := ih fun s hs => hF s (List.mem_cons_of_mem _ hs)
      exact ⟨k :: ks, .cons h3 h4, .cons ⟨h1, h2⟩ h5⟩
  have hWb : ∀ bs ∈ bits, bs.length = W ∧ ∀ win ∈ bs, ∀ x ∈ win, cv w x = 0 ∨ cv w x = 1 := by
    intro bs hbs
    obtain ⟨i, hi, rfl⟩ := List.getElem_of_mem hbs
    obtain ⟨h1, h2⟩ := hbits.get hi (by rw [← hbits.length_eq]; exact hi)
    exact ⟨h2, h1.bit⟩
  have hW0 : bits0.length = W := (hWb bits0 (List.mem_of_getElem? h0)).1
  have hlb : bits.length = Ps.length := by rw [hbits.length_eq, ← hks.length_eq, hlen]
  have hgl : List.Forall₂ (fun (grp : List (List (List (AssignedCondition n)))) (Ps : List (Pt b)) =>
      grp.length = Ps.length) (chunks group_size bits) (chunks group_size Ps) := by
    have : List.Forall₂ (fun (_ : List (List (AssignedCondition n))) (_ : Pt b) => True) bits Ps := by
      rw [List.forall₂_iff_get]
      exact ⟨hlb, fun _ _ _ => trivial⟩
    exact (chunks_forall₂ hk this).imp fun _ _ h => h.length_eq
  refine S.tryG (S_windows_parallel (P := fun wi p => NRep info w p (-A + gsum (cv w) wi L 0 (chunks group_size bits)
    (chunks group_size Ps))) (by omega) (fun i => neverErr_window_acc i _ _ _) fun wi => ?_)
    (fun _ => (prog_msm_finish _ _ _ _ _).growing) fun l hl => ?_
  · refine S_window_acc h hw hp hpick wi hgl ?_ (fun grp hg => (chunks_mem hk bits hg).1.trans hkB) 0 acc_neg (-A)
      (by have := chunks_length_le hk bits; omega) ?_ hA'
    · intro grp hg bs hbs
      exact (hWb bs ((chunks_mem hk bits hg).2 bs hbs)).2
    · intro j cl Ps' e1 e2
      rw [zero_add] at e1
      exact hcs j cl Ps' e1 e2
  · obtain ⟨hl1, hl2⟩ := hl
    rw [hW0] at hl1
    refine (S_msm_finish (Ps := Ps) h hw hb hL hA hA' (fun bs hbs => (hWb bs hbs).1) _ hl1 fun j p hp => ?_).mono
      fun res ⟨p, e, hp⟩ => ⟨p, ks, e, hks, by rw [← vsum_final hbits]; exact hp⟩
    have := hl2 j p hp
    rw [gsum_chunks (cv w) j L hk _ bits Ps 0 rfl hlb, altSum_eq] at this
    rw [add_assoc]
    simpa [signed] using this

theorem S_msm_batch (hb : GoodCurve b) {W : ℕ} (hW : 1 ≤ W) {F : σ → Prop} {D : σ → ℕ → Prop}
    (hbest : 1 ≤ best) (hbest' : best ≤ 31)
    (hd : ∀ s, Prog (ops.decompose s)) (hdec : DecomposeSound c w F D W ops.decompose) (hbef : Prog before)
    {K : ℕ → ℕ → AssignedNonZeroPoint n → Prop} (hc : ∀ g p i, Prog (cache g p i))
    (hK : ∀ g p i, S c (cache g p i) (fun _ => K g i p)) (hp : ∀ cs g l, Prog (pick cs g l))
    {G : ℕ} (hpick : PickSound c info w b G best K pick) {bb : ℕ} (hbb : bb < wm) (hbe : (bb : ZMod wm) = b)
    {points : List (AssignedNonZeroPoint n)} {scalars : List σ} {Ps : List (Pt b)}
    (hP : List.Forall₂ (NRep info w) points Ps) (hF : ∀ s ∈ scalars, F s) (hlen : points.length = scalars.length)
    (hG : points.length ≤ G) (acc_c line_c : Option (ℕ × ℕ)) :
    S c (msm_batch info bb ops best before cache pick points scalars acc_c line_c) (fun res => ∃ p ks, res = .ok p ∧
      List.Forall₂ D scalars ks ∧ PRep info w p (natSum ks Ps)) := by
  have gb : ∀ {N : ℕ}, (N + best - 1) / best ≠ 0 →
      (N + (N + best - 1) / best - 1) / ((N + best - 1) / best) ≠ 0 := fun h =>
    Nat.one_le_iff_ne_zero.1 (group_size_bounds hbest h).1
  have g0 : ∀ scalars gs, gs ≠ 0 → ∀ (points : List (List (AssignedNonZeroPoint n))) line line_neg acc acc_neg,
      Growing (before >>= fun _ => tryB (group_candidates info cache line line_neg 0 points) fun candidates =>
        msm_after info ops pick scalars gs line_neg acc acc_neg candidates) := fun scalars gs hgs _ _ _ _ _ =>
    .bind hbef.growing fun _ => .tryB (prog_group_candidates hc ..).growing fun _ =>
      growing_msm_after hd hp _ hgs _ _ _ _
  rw [msm_batch_eq]
  refine S.bindG (S.mapM fun p _ => S_reduce_nz (b := b) h hw p) (fun _ =>
    .bind (prog_assign_non_zero_point ..).growing fun _ => .bind (prog_assign_non_zero_point ..).growing fun _ =>
    .bind (prog_ecc_neg_non_zero ..).growing fun _ => .bind (prog_ecc_reduce_non_zero ..).growing fun _ =>
    .bind (prog_ecc_neg_non_zero ..).growing fun _ => .bind (prog_ecc_reduce_non_zero ..).growing fun _ =>
    .bind_div_rem fun h => g0 _ _ (gb h) _ _ _ _ _) fun points' hp' => ?_
  refine S.bindG (S_assign_non_zero_point h hw hb bb hbb hbe acc_c) (fun _ =>
    .bind (prog_assign_non_zero_point ..).growing fun _ =>
    .bind (prog_ecc_neg_non_zero ..).growing fun _ => .bind (prog_ecc_reduce_non_zero ..).growing fun _ =>
    .bind (prog_ecc_neg_non_zero ..).growing fun _ => .bind (prog_ecc_reduce_non_zero ..).growing fun _ =>
    .bind_div_rem fun h => g0 _ _ (gb h) _ _ _ _ _) fun acc ⟨⟨A, hA⟩, _⟩ => ?_
  refine S.bindG (S_assign_non_zero_point h hw hb bb hbb hbe line_c) (fun _ =>
    .bind (prog_ecc_neg_non_zero ..).growing fun _ => .bind (prog_ecc_reduce_non_zero ..).growing fun _ =>
    .bind (prog_ecc_neg_non_zero ..).growing fun _ => .bind (prog_ecc_reduce_non_zero ..).growing fun _ =>
    .bind_div_rem fun h => g0 _ _ (gb h) _ _ _ _ _) fun line ⟨⟨L, hL⟩, _⟩ => ?_
  refine S.bindG ((S_neg_nz h hw acc).mono fun r hr => hr A hA) (fun _ =>
    .bind (prog_ecc_reduce_non_zero ..).growing fun _ =>
    .bind (prog_ecc_neg_non_zero ..).growing fun _ => .bind (prog_ecc_reduce_non_zero ..).growing fun _ =>
    .bind_div_rem fun h => g0 _ _ (gb h) _ _ _ _ _) fun acc_neg hAn => ?_
  refine S.bindG ((S_reduce_nz h hw acc_neg).mono fun r hr => (hr _ hAn).1) (fun _ =>
    .bind (prog_ecc_neg_non_zero ..).growing fun _ => .bind (prog_ecc_reduce_non_zero ..).growing fun _ =>
    .bind_div_rem fun h => g0 _ _ (gb h) _ _ _ _ _) fun acc_neg hAn => ?_
  refine S.bindG ((S_neg_nz h hw line).mono fun r hr => hr L hL) (fun _ =>
    .bind (prog_ecc_reduce_non_zero ..).growing fun _ =>
    .bind_div_rem fun h => g0 _ _ (gb h) _ _ _ _ _) fun line_neg hLn => ?_
  refine S.bindG ((S_reduce_nz h hw line_neg).mono fun r hr => (hr _ hLn).1) (fun _ =>
    .bind_div_rem fun h => g0 _ _ (gb h) _ _ _ _ _) fun line_neg hLn => ?_
  refine S.bind_div_rem fun hng => ?_
  obtain ⟨gs1, gs2⟩ := group_size_bounds hbest hng
  have hgs := gb hng
  generalize (points'.length + (points'.length + best - 1) / best - 1) / ((points'.length + best - 1) / best) = gs at *
  have hP' : List.Forall₂ (NRep info w) points' Ps := by
    clear hlen hng hG
    induction hP generalizing points' with
    | nil => cases hp'; exact .nil
    | cons hx _ ih =>
      cases hp' with
      | cons hy hys => exact .cons (hy _ hx).1 (ih _ hys)
  refine S.bindG (hbef.growing.trivial c) (fun _ => .tryB (prog_group_candidates hc ..).growing fun _ =>
      growing_msm_after hd hp _ hgs _ _ _ _) fun _ _ => ?_
  refine S.tryG (S_group_candidates h hw hc hK hL hLn (chunks_forall₂ hgs hP') (fun x hx =>
    ((chunks_mem hgs _ hx).1.trans gs2).trans hbest') 0) (fun _ => growing_msm_after hd hp _ hgs _ _ _ _) fun cs hcs => ?_
  exact S_msm_after h hw hb hW hd hdec hp hpick hF hgs gs2 hLn hA hAn (by rw [← hlen, hP.length_eq])
    (by rw [← hP.length_eq]; exact hG) hcs

end
end Verif
