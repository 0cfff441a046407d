import Verif.Proof.Keys

/-!
# The keys of a sequence of API calls
-/

namespace Verif
variable {n : ℕ} {α β σ : Type} {A : ZMod n → Prop}

theorem mapM_run_length {f : α → M n β} : ∀ {l : List α} {l' : List β} {s t : Context n}, l.mapM f s = .ok (l', t) →
    l'.length = l.length := by
  intro l
  induction l with
  | nil => intro l' s t h; rw [List.mapM_nil] at h; cases h; rfl
  | cons x l ih =>
    intro l' s t h
    rw [List.mapM_cons] at h
    obtain ⟨y, u, -, h2⟩ := run_bind_ok.1 h
    obtain ⟨ys, v, h3, h4⟩ := run_bind_ok.1 h2
    cases h4
    simp [ih h3]

theorem rassert_true {b : Bool} {u : Unit} (h : ∃ s t : Context n, rassert b s = .ok (u, t)) : b = true := by
  obtain ⟨s, t, h⟩ := h
  unfold rassert at h
  split at h
  · assumption
  · cases h

theorem normalize_run_length {info : RangeInfo n} {ops : ScalarOps n σ} {z : σ} {q : AssignedNonZeroPoint n} :
    ∀ {l : List (AssignedPoint n × σ)} {l' : List (AssignedNonZeroPoint n × σ)} {s t : Context n},
    normalize info ops z q l s = .ok (l', t) → l'.length = l.length := by
  intro l
  induction l with
  | nil => intro l' s t h; cases h; rfl
  | cons x l ih =>
    intro l' s t h
    obtain ⟨p, y⟩ := x
    unfold normalize at h
    obtain ⟨y, u, -, h2⟩ := run_bind_ok.1 h
    obtain ⟨y, u, -, h2⟩ := run_bind_ok.1 h2
    obtain ⟨ys, v, h3, h4⟩ := run_bind_ok.1 h2
    cases h4
    simp [ih h3]

variable [Nontrivial (ZMod n)]

theorem emits_msm_batch (hn : 2 ^ 253 ≤ n) {info : RangeInfo n} (hl : info.limbs ≤ 2 ^ 32) {ops : ScalarOps n σ}
    (hp : ScalarProg ops) (bb pre : ℕ) (points : List (AssignedNonZeroPoint n)) (scalars : List σ)
    (acc_c line_c : Option (ℕ × ℕ)) :
    Emits (fun k => KeysGroup pre (pre + MSM_PREFIX_OFFSET) k ∧ pre < MSM_LIMIT)
      (msm_batch_with_select info bb ops pre points scalars acc_c line_c) := by
  unfold msm_batch_with_select
  refine Emits.after (prog_rassert _).quiet fun _ h0 => ?_
  have h0 := rassert_true h0
  rw [decide_eq_true_eq] at h0
  rw [msm_batch_eq]
  refine Emits.after (prog_mapM (fun _ => prog_ecc_reduce_non_zero _ _) _).quiet fun points' hpts =>
    Emits.after (prog_assign_non_zero_point _ _ _).quiet fun _ _ =>
    Emits.after (prog_assign_non_zero_point _ _ _).quiet fun _ _ => Emits.after (prog_ecc_neg_non_zero _ _).quiet fun _ _ =>
    Emits.after (prog_ecc_reduce_non_zero _ _).quiet fun _ _ => Emits.after (prog_ecc_neg_non_zero _ _).quiet fun _ _ =>
    Emits.after (prog_ecc_reduce_non_zero _ _).quiet fun _ _ => Emits.after (prog_div_rem _ _).quiet fun gs hgs =>
    Emits.after (prog_rassert _).quiet fun _ hlim => ?_
  have hlim := rassert_true hlim
  rw [decide_eq_true_eq] at hlim
  obtain ⟨s, t, hpts⟩ := hpts
  have hlen := mapM_run_length hpts
  obtain ⟨s, t, hgs⟩ := hgs
  unfold div_rem at hgs
  split at hgs
  · cases hgs
  · rename_i h
    cases hgs
    obtain ⟨b1, b2⟩ := group_size_bounds (N := points'.length) (best := 5) (by norm_num) h
    have hk := Nat.one_le_iff_ne_zero.1 b1
    have hcl := chunks_length_le hk points'
    have hpre : pre < 2 ^ 28 := hlim
    have h20 : points.length ≤ 2 ^ 20 := h0
    unfold tryB
    refine Emits.then ((emits_group_candidates hn info hl pre _ _ _ 0 (fun c hc => (chunks_mem hk _ hc).1.trans b2)
      (by omega)).mono ?_) fun r _ => ?_
    · rintro k ⟨g, h1, h2, h3⟩
      exact ⟨⟨g, by omega, by unfold MSM_PREFIX_OFFSET; omega, h3⟩, hlim⟩
    · cases r with
      | error e => exact .pure _
      | ok cs => exact (prog2_msm_after hp.decompose (fun _ _ _ => prog_pick_select _ _ _ _) _ hk _ _ _ _).quiet

/-- The keys a call may use when the prefix state is `pre`. -/
def CallKeys (pre : Option ℕ) (k : ZMod n) : Prop :=
  ∃ p, pre = some p ∧ p < MSM_LIMIT ∧ KeysGroup p (p + MSM_PREFIX_OFFSET) k

theorem emits_msm (hn : 2 ^ 253 ≤ n) {info : RangeInfo n} (hl : info.limbs ≤ 2 ^ 32) {ops : ScalarOps n σ}
    (hp : ScalarProg ops) (bb : ℕ) (generator : ℕ × ℕ) (r1 r2 : Option (ℕ × ℕ)) (pre : Option ℕ)
    (points : List (AssignedPoint n)) (scalars : List σ) :
    Emits (CallKeys pre) (msm info bb ops generator r1 r2 pre points scalars) := by
  unfold msm msm_unsafe
  refine Emits.then (Emits.after (prog_assign_non_zero_point _ _ _).quiet fun _ _ => Emits.after hp.zero.quiet fun _ _ =>
    Emits.after (prog_normalize hp _ _ _).quiet fun l _ => ?_) fun r _ => ?_
  · cases pre with
    | some p =>
      refine Emits.then ((emits_msm_batch hn hl hp bb p _ _ r1 r2).mono ?_) fun _ _ => .pure _
      rintro k ⟨h1, h2⟩
      exact ⟨p, rfl, h2, h1⟩
    | none =>
      unfold msm_batch_without_select
      exact Emits.after (prog2_msm_batch (by norm_num) hp.decompose (.pure _) (fun _ _ _ => .pure _)
        (fun _ _ _ => prog_pick_bisec _ _ _) _ _ _ _ _).quiet fun _ _ => (Quiet.pure _).emits
  · obtain ⟨r, pre⟩ := r
    cases r with
    | ok p => exact .pure _
    | error e => intro s a t e; cases e

theorem emits_groupSelect (hn : 2 ^ 253 ≤ n) (A : Api n) (hl : A.info.limbs ≤ 2 ^ 32) {ops : ScalarOps n σ}
    (hp : ScalarProg ops) (r1 r2 : Option (ℕ × ℕ)) (pre : Option ℕ) (points : List (AssignedNonZeroPoint n))
    (scalars : List σ) : Emits (CallKeys pre) (groupSelect A ops r1 r2 pre points scalars) := by
  cases pre with
  | none => intro s a t e; cases e
  | some p =>
    refine Emits.then ((emits_msm_batch hn hl hp A.b p _ _ r1 r2).mono ?_) fun r _ => ?_
    · rintro k ⟨h1, h2⟩
      exact ⟨p, rfl, h2, h1⟩
    · cases r with
      | ok p => exact .pure _
      | error e => intro s a t e; cases e

theorem emits_runCall (hn : 2 ^ 253 ≤ n) (A : Api n) (hl : A.info.limbs ≤ 2 ^ 32) (w : Witness n) (S : Store n)
    (c : Call n) (hc : c.ChoosesKey = false) :
    Emits (fun k => c.IsMsm = true ∧ CallKeys S.msm_prefix k) (runCall A w S c) := by
  cases c
  case msm_native ps ss r1 r2 =>
    exact Emits.after (prog_mapM (prog_index _) _).quiet fun _ _ => Emits.after (prog_mapM (prog_index _) _).quiet fun _ _ =>
      Emits.then ((emits_msm hn hl (nativeScalar_prog _) _ _ _ _ _ _ _).mono fun k hk => ⟨rfl, hk⟩) fun _ _ => .pure _
  case msm_general ps ss r1 r2 =>
    exact Emits.after (prog_mapM (prog_index _) _).quiet fun _ _ => Emits.after (prog_mapM (prog_index _) _).quiet fun _ _ =>
      Emits.then ((emits_msm hn hl (generalScalar_prog _) _ _ _ _ _ _ _).mono fun k hk => ⟨rfl, hk⟩) fun _ _ => .pure _
  case msm_with_select_native ps ss r1 r2 =>
    exact Emits.after (prog_mapM (prog_index _) _).quiet fun _ _ => Emits.after (prog_mapM (prog_index _) _).quiet fun _ _ =>
      Emits.then ((emits_groupSelect hn A hl (nativeScalar_prog _) _ _ _ _ _).mono fun k hk => ⟨rfl, hk⟩) fun _ _ => .pure _
  case msm_without_select_native ps ss r1 r2 =>
    exact Emits.after (prog_mapM (prog_index _) _).quiet fun _ _ => Emits.after (prog_mapM (prog_index _) _).quiet fun _ _ =>
      Emits.after (prog2_groupBisec A (nativeScalar_prog _) _ _ _ _).quiet fun _ _ => (Quiet.pure _).emits
  case msm_with_select_general ps ss r1 r2 =>
    exact Emits.after (prog_mapM (prog_index _) _).quiet fun _ _ => Emits.after (prog_mapM (prog_index _) _).quiet fun _ _ =>
      Emits.then ((emits_groupSelect hn A hl (generalScalar_prog _) _ _ _ _ _).mono fun k hk => ⟨rfl, hk⟩) fun _ _ => .pure _
  case msm_without_select_general ps ss r1 r2 =>
    exact Emits.after (prog_mapM (prog_index _) _).quiet fun _ _ => Emits.after (prog_mapM (prog_index _) _).quiet fun _ _ =>
      Emits.after (prog2_groupBisec A (generalScalar_prog _) _ _ _ _).quiet fun _ _ => (Quiet.pure _).emits
  case sum_with_constant_in_one_line =>
    exact (Built.quiet (.bind (prog_mapM (prog_elem S) _) fun _ => by prog)).emits
  case sum_with_constant => exact (Built.quiet (.bind (prog_mapM (prog_elem S) _) fun _ => by prog)).emits
  case mul_add_with_next_line => exact (Built.quiet (.bind (prog_mapM (prog_term S) _) fun _ => by prog)).emits
  case assign_cache_value => cases hc
  case assign_cache_integer => cases hc
  case assign_cache_point => cases hc
  case assign_cache_point_non_zero => cases hc
  case tower c => exact (prog_runTowerCall A S c).quiet.emits
  all_goals
    apply Quiet.emits
    apply Built.quiet
    unfold runCall
    prog

/-! ## The prefix state -/

/-- What `m` returns satisfies `P`. -/
def Returns (m : M n α) (P : α → Prop) : Prop := ∀ s a t, m s = .ok (a, t) → P a

omit [Nontrivial (ZMod n)] in
theorem Returns.pure {P : α → Prop} {a : α} (h : P a) : Returns (Pure.pure a : M n α) P := by
  rintro s b t e; cases e; exact h

omit [Nontrivial (ZMod n)] in
theorem Returns.bind {m : M n α} {f : α → M n β} {P : α → Prop} {Q : β → Prop} (hm : Returns m P)
    (hf : ∀ a, P a → Returns (f a) Q) : Returns (m >>= f) Q := by
  intro s b t e
  obtain ⟨a, u, h1, h2⟩ := run_bind_ok.1 e
  exact hf a (hm _ _ _ h1) _ _ _ h2

omit [Nontrivial (ZMod n)] in
theorem Returns.any (m : M n α) : Returns m fun _ => True := fun _ _ _ _ => trivial

omit [Nontrivial (ZMod n)] in
theorem Returns.next {m : M n α} {f : α → M n β} {Q : β → Prop} (hf : ∀ a, Returns (f a) Q) : Returns (m >>= f) Q :=
  .bind (.any m) fun a _ => hf a

omit [Nontrivial (ZMod n)] in
theorem returns_msm (info : RangeInfo n) (bb : ℕ) (ops : ScalarOps n σ) (generator : ℕ × ℕ) (r1 r2 : Option (ℕ × ℕ))
    (pre : Option ℕ) (points : List (AssignedPoint n)) (scalars : List σ) :
    Returns (msm info bb ops generator r1 r2 pre points scalars) fun r => r.2 = pre.map (· + MSM_PREFIX_OFFSET) := by
  unfold msm msm_unsafe
  refine Returns.bind (P := fun r => r.2 = pre.map (· + MSM_PREFIX_OFFSET)) (.next fun _ => .next fun _ => .next fun l => ?_)
    fun r hr => ?_
  · cases pre with
    | some p => exact .next fun _ => .pure rfl
    | none => exact .next fun _ => .pure rfl
  · obtain ⟨r, pre'⟩ := r
    cases r with
    | ok p => exact .pure hr
    | error e => intro s a t e; cases e

omit [Nontrivial (ZMod n)] in
theorem returns_groupSelect (A : Api n) (ops : ScalarOps n σ) (r1 r2 : Option (ℕ × ℕ)) (pre : Option ℕ)
    (points : List (AssignedNonZeroPoint n)) (scalars : List σ) :
    Returns (groupSelect A ops r1 r2 pre points scalars) fun r => r.2 = pre.map (· + MSM_PREFIX_OFFSET) := by
  cases pre with
  | none => intro s a t e; cases e
  | some p =>
    refine Returns.next fun r => ?_
    cases r with
    | ok p => exact .pure rfl
    | error e => intro s a t e; cases e

omit [Nontrivial (ZMod n)] in
theorem returns_runTowerCall (A : Api n) (S : Store n) (c : TowerCall) :
    Returns (runTowerCall A S c) fun S' => S'.msm_prefix = S.msm_prefix := by
  cases c
  all_goals
    unfold runTowerCall
    repeat' first
      | exact Returns.pure rfl
      | refine Returns.next fun _ => ?_

omit [Nontrivial (ZMod n)] in
theorem returns_runCall (A : Api n) (w : Witness n) (S : Store n) (c : Call n) :
    Returns (runCall A w S c) fun S' => S'.msm_prefix =
      if c.IsMsm then S.msm_prefix.map (· + MSM_PREFIX_OFFSET) else S.msm_prefix := by
  cases c
  case msm_native => exact .next fun _ => .next fun _ => .bind (returns_msm _ _ _ _ _ _ _ _ _) fun r hr => .pure hr
  case msm_general => exact .next fun _ => .next fun _ => .bind (returns_msm _ _ _ _ _ _ _ _ _) fun r hr => .pure hr
  case msm_with_select_native =>
    exact .next fun _ => .next fun _ => .bind (returns_groupSelect _ _ _ _ _ _ _) fun r hr => .pure hr
  case msm_with_select_general =>
    exact .next fun _ => .next fun _ => .bind (returns_groupSelect _ _ _ _ _ _ _) fun r hr => .pure hr
  case tower c => exact returns_runTowerCall A S c
  all_goals
    unfold runCall
    repeat' first
      | exact Returns.pure rfl
      | refine Returns.next fun _ => ?_
      | (intro s a t e; cases e)
      | split

/-- The keys in use while the prefix state is `pre`. -/
def UsedKeys (pre : Option ℕ) (k : ZMod n) : Prop := ∃ p, pre = some p ∧ KeysGroup 0 (min p (2 ^ 29)) k

theorem runCalls_keys (hn : 2 ^ 253 ≤ n) (A : Api n) (hl : A.info.limbs ≤ 2 ^ 32) (w : Witness n) :
    ∀ (cs : List (Call n)) (S S' : Store n) (s t : Context n), (∀ c ∈ cs, c.ChoosesKey = false) →
    runCalls A w cs S s = .ok (S', t) → (∀ r k, s.records.inner.KeyRow r k → UsedKeys S.msm_prefix k) →
    s.records.inner.KeysDistinct → (∀ r k, t.records.inner.KeyRow r k → UsedKeys S'.msm_prefix k) ∧
      t.records.inner.KeysDistinct := by
  intro cs
  induction cs with
  | nil => intro S S' s t _ h h1 h2; cases h; exact ⟨h1, h2⟩
  | cons c cs ih =>
    intro S S' s t hc h h1 h2
    unfold runCalls at h
    obtain ⟨S1, u, e1, e2⟩ := run_bind_ok.1 h
    obtain ⟨p1, p2⟩ := emits_runCall hn A hl w S c (hc c List.mem_cons_self) _ _ _ e1
    have hp := returns_runCall A w S c _ _ _ e1
    refine ih _ _ _ _ (fun c h => hc c (List.mem_cons_of_mem _ h)) e2 (fun r k hk => ?_) (p2 (fun r k hk hcall => ?_) h2)
    · rcases p1 r k hk with h | ⟨hm, p, e, h3, g, h4, h5, h6⟩
      · obtain ⟨p, e, g, h3, h4, h5⟩ := h1 r k h
        rw [e] at hp
        by_cases hm : c.IsMsm = true
        · rw [if_pos hm] at hp
          exact ⟨p + MSM_PREFIX_OFFSET, hp, g, h3, by omega, h5⟩
        · rw [if_neg hm] at hp
          exact ⟨_, hp, g, h3, h4, h5⟩
      · rw [e, if_pos hm] at hp
        refine ⟨_, hp, g, Nat.zero_le _, ?_, h6⟩
        have : p < 2 ^ 28 := h3
        have : g < p + 2 ^ 20 := h5
        have : g < p + MSM_PREFIX_OFFSET := h5
        dsimp only
        omega
    · obtain ⟨hm, p, e, h3, h4⟩ := hcall
      obtain ⟨p', e', h5⟩ := h1 r k hk
      rw [e] at e'
      cases e'
      have : p < 2 ^ 28 := h3
      exact KeysGroup.disjoint hn (by omega) (by unfold MSM_PREFIX_OFFSET; omega) (min_le_left _ _) h5 h4

end Verif
