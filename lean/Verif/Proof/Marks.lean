import Verif.Proof.KeysApi
import Verif.Spec.TwoCurves

/-!
# A key that an operation certainly stores a value under
-/

namespace Verif
variable {n : ℕ} {α β σ : Type}

/-- `m` caches a value under `k`, in a row of its own. -/
def Marks (k : ZMod n) (m : M n α) : Prop := ∀ s a t, s.Fresh → m s = .ok (a, t) →
  ∃ r, s.select_offset ≤ r ∧ r < t.select_offset ∧ t.records.inner.KeyRow r k

theorem Grows.keyRow {s t : Context n} (g : Grows s t) {r : ℕ} (hr : r < s.select_offset) {k : ZMod n}
    (h : s.records.inner.KeyRow r k) : t.records.inner.KeyRow r k := by
  unfold RecordsInner.KeyRow at h ⊢
  rw [g.selFix r _ hr, g.selFix r _ hr]
  exact h

theorem Marks.then {k : ZMod n} {m : M n α} {f : α → M n β} (hm : Marks k m) (hg : Growing m)
    (hf : ∀ a, (∃ s t, m s = .ok (a, t)) → Growing (f a)) : Marks k (m >>= f) := by
  intro s b t hs e
  obtain ⟨a, u, h1, h2⟩ := run_bind_ok.1 e
  obtain ⟨r, r1, r2, r3⟩ := hm _ _ _ hs h1
  obtain ⟨-, g⟩ := hf a ⟨_, _, h1⟩ _ _ _ (hg _ _ _ hs h1).1 h2
  exact ⟨r, r1, lt_of_lt_of_le r2 g.selOff, g.keyRow r2 r3⟩

theorem Marks.after {k : ZMod n} {m : M n α} {f : α → M n β} (hg : Growing m)
    (hf : ∀ a, (∃ s t, m s = .ok (a, t)) → Marks k (f a)) : Marks k (m >>= f) := by
  intro s b t hs e
  obtain ⟨a, u, h1, h2⟩ := run_bind_ok.1 e
  obtain ⟨fu, g⟩ := hg _ _ _ hs h1
  obtain ⟨r, r1, r2, r3⟩ := hf a ⟨_, _, h1⟩ _ _ _ fu h2
  exact ⟨r, g.selOff.trans r1, r2, r3⟩

theorem marks_cache_value (v : AssignedValue n) (offset g sel : ℕ) :
    Marks (encode_offset n g sel offset) (assign_cache_value v offset g sel) := by
  intro s a t _ e
  cases e
  refine ⟨s.select_offset, le_rfl, Nat.lt_succ_self _, ?_⟩
  unfold Records.assign_cache_value Records.assign_fix_cell_in_select_chip Records.assign_adv_cell_in_select_chip
    Records.enable_permute RecordsInner.KeyRow
  rw [raise_select]
  simp [setCell, Records.EncodeCol, Records.IsLookupCol]

theorem marks_cache_integer (info : RangeInfo n) (p : AssignedInteger n) (sc g offset : ℕ) :
    Marks (encode_offset n g sc offset) (assign_cache_integer info p sc g offset) := by
  unfold assign_cache_integer
  refine .after (prog_rassert _).growing fun _ _ => ?_
  cases h : info.limbs with
  | zero => exact .after (Growing.pure _) fun _ _ => marks_cache_value _ _ _ _
  | succ k =>
    rw [List.range_succ_eq_map]
    refine .then (m := cache_limbs p.limbs_le sc g offset (0 :: (List.range k).map Nat.succ)) ?_
      (prog_cache_limbs (cc := True) trivial _ _ _ _ _).growing fun _ _ => (Built.assign_cache_value (cc := True) trivial _ _ _ _).growing
    unfold cache_limbs
    exact .after (prog_index _ _).growing fun v _ => .then (marks_cache_value v (offset + 0) g sc)
      (Built.assign_cache_value (cc := True) trivial _ _ _ _).growing fun _ _ => (prog_cache_limbs (cc := True) trivial _ _ _ _ _).growing

theorem marks_cache_point_non_zero (info : RangeInfo n) (p : AssignedNonZeroPoint n) (g sc : ℕ) :
    Marks (encode_offset n g sc 0) (assign_cache_point_non_zero info p g sc) :=
  .then (marks_cache_integer info p.x sc g 0) (prog_assign_cache_integer (cc := True) trivial _ _ _ _ _).growing fun _ _ =>
    (prog_assign_cache_integer (cc := True) trivial _ _ _ _ _).growing

theorem marks_group_candidates (info : RangeInfo n) (pre : ℕ) (line line_neg : AssignedNonZeroPoint n)
    (l : List (List (AssignedNonZeroPoint n))) (hl : l ≠ []) :
    Marks (encode_offset n pre 0 0)
      (group_candidates info (fun g p i => assign_cache_point_non_zero info p (pre + g) i) line line_neg 0 l) := by
  cases l with
  | nil => exact absurd rfl hl
  | cons chunk rest =>
    unfold group_candidates
    dsimp only
    refine .then (marks_cache_point_non_zero info _ (pre + 0) 0) (prog_assign_cache_point_non_zero (cc := True) trivial ..).growing
      fun _ _ => Growing.tryB (prog_fill_candidates (cc := True) (fun _ _ => prog_assign_cache_point_non_zero trivial ..) ..).growing fun _ =>
        Growing.tryB (prog_group_candidates (cc := True) (fun _ _ _ => prog_assign_cache_point_non_zero trivial ..) ..).growing fun _ =>
          Growing.pure _

theorem growing_msm_batch_with_select {info : RangeInfo n} {ops : ScalarOps n σ} (hp : ScalarProg ops) (bb : ℕ)
    (r1 r2 : Option (ℕ × ℕ)) (pre : ℕ) (points : List (AssignedNonZeroPoint n)) (scalars : List σ) :
    Growing (msm_batch_with_select info bb ops pre points scalars r1 r2) := by
  unfold msm_batch_with_select
  exact .bind (prog_rassert _).growing fun _ => (prog2_msm_batch (cc := True) (by norm_num) hp.decompose
    (prog_rassert _) (fun _ _ _ => prog_assign_cache_point_non_zero trivial ..) (prog_pick_select _) _ _ _ _ _).tidy.1

theorem marks_msm_batch_with_select {info : RangeInfo n} {ops : ScalarOps n σ} (hp : ScalarProg ops) (bb : ℕ)
    (r1 r2 : Option (ℕ × ℕ)) (pre : ℕ) (points : List (AssignedNonZeroPoint n)) (scalars : List σ) :
    Marks (encode_offset n pre 0 0) (msm_batch_with_select info bb ops pre points scalars r1 r2) := by
  unfold msm_batch_with_select
  refine .after (prog_rassert _).growing fun _ _ => ?_
  rw [msm_batch_eq]
  refine .after (prog_mapM (fun _ => prog_ecc_reduce_non_zero _ _) _).growing fun points' _ =>
    .after (prog_assign_non_zero_point _ _ _).growing fun _ _ => .after (prog_assign_non_zero_point _ _ _).growing fun _ _ =>
    .after (prog_ecc_neg_non_zero _ _).growing fun _ _ => .after (prog_ecc_reduce_non_zero _ _).growing fun _ _ =>
    .after (prog_ecc_neg_non_zero _ _).growing fun _ _ => .after (prog_ecc_reduce_non_zero _ _).growing fun _ _ =>
    .after (prog_div_rem _ _).growing fun gs hgs => .after (prog_rassert _).growing fun _ _ => ?_
  obtain ⟨s, t, hgs⟩ := hgs
  unfold div_rem at hgs
  split at hgs
  · cases hgs
  · rename_i h
    cases hgs
    have hk := Nat.one_le_iff_ne_zero.1 (group_size_bounds (N := points'.length) (best := 5) (by norm_num) h).1
    have hpts : points' ≠ [] := by
      rintro rfl
      exact h (by norm_num)
    refine .then (marks_group_candidates info pre _ _ _ ?_)
      (prog_group_candidates (cc := True) (fun _ _ _ => prog_assign_cache_point_non_zero trivial ..) ..).growing fun r _ => ?_
    · unfold chunks
      rw [dif_neg (not_or.2 ⟨hpts, hk⟩)]
      exact List.cons_ne_nil _ _
    · cases r with
      | error e => exact Growing.pure _
      | ok cs => exact (prog2_msm_after (cc := True) hp.decompose (fun _ _ _ => prog_pick_select _ _ _ _) _ hk _ _ _ _).tidy.1

theorem marks_msm {info : RangeInfo n} {ops : ScalarOps n σ} (hp : ScalarProg ops) (bb : ℕ) (generator : ℕ × ℕ)
    (r1 r2 : Option (ℕ × ℕ)) (pre : ℕ) (points : List (AssignedPoint n)) (scalars : List σ) :
    Marks (encode_offset n pre 0 0) (msm info bb ops generator r1 r2 (some pre) points scalars) := by
  unfold msm msm_unsafe
  refine .then (.after (prog_assign_non_zero_point _ _ _).growing fun _ _ => .after (hp.zero (cc := True)).growing fun _ _ =>
    .after (prog_normalize hp _ _ _).growing fun l _ => .then (marks_msm_batch_with_select hp bb r1 r2 pre _ _)
      (growing_msm_batch_with_select hp bb r1 r2 pre _ _) fun _ _ => Growing.pure _) ?_ ?_
  · exact .bind (prog_assign_non_zero_point _ _ _).growing fun _ => .bind (hp.zero (cc := True)).growing fun _ =>
      .bind (prog_normalize hp _ _ _).growing fun l => .bind (growing_msm_batch_with_select hp bb r1 r2 pre _ _) fun _ => Growing.pure _
  · rintro ⟨r, pre⟩ _
    cases r with
    | ok p => exact Growing.pure _
    | error e => exact (Built.panic (cc := True) _).growing

theorem marks_groupSelect (A : Api n) {ops : ScalarOps n σ} (hp : ScalarProg ops) (r1 r2 : Option (ℕ × ℕ)) (pre : ℕ)
    (points : List (AssignedNonZeroPoint n)) (scalars : List σ) :
    Marks (encode_offset n pre 0 0) (groupSelect A ops r1 r2 (some pre) points scalars) := by
  refine .then (marks_msm_batch_with_select hp A.b r1 r2 pre _ _)
    (growing_msm_batch_with_select hp A.b r1 r2 pre _ _) fun r _ => ?_
  cases r with
  | ok p => exact Growing.pure _
  | error e => exact (Built.panic (cc := True) _).growing

theorem marks_runCall (A : Api n) (w : Witness n) (S : Store n) (c : Call n) (hc : c.IsMsm = true) {p : ℕ}
    (hp : S.msm_prefix = some p) : Marks (encode_offset n p 0 0) (runCall A w S c) := by
  cases c
  case msm_native ps ss r1 r2 =>
    refine .after (prog_mapM (prog_index _) _).growing fun _ _ => .after (prog_mapM (prog_index _) _).growing fun _ _ =>
      .then ?_ (prog2_msm (nativeScalar_prog _) _ _ _ _ _ _ _).tidy.1 fun _ _ => Growing.pure _
    rw [hp]
    exact marks_msm (nativeScalar_prog _) _ _ _ _ _ _ _
  case msm_general ps ss r1 r2 =>
    refine .after (prog_mapM (prog_index _) _).growing fun _ _ => .after (prog_mapM (prog_index _) _).growing fun _ _ =>
      .then ?_ (prog2_msm (generalScalar_prog _) _ _ _ _ _ _ _).tidy.1 fun _ _ => Growing.pure _
    rw [hp]
    exact marks_msm (generalScalar_prog _) _ _ _ _ _ _ _
  case msm_with_select_native ps ss r1 r2 =>
    refine .after (prog_mapM (prog_index _) _).growing fun _ _ => .after (prog_mapM (prog_index _) _).growing fun _ _ =>
      .then ?_ (prog2_groupSelect A (nativeScalar_prog _) _ _ _ _ _).tidy.1 fun _ _ => Growing.pure _
    rw [hp]
    exact marks_groupSelect A (nativeScalar_prog _) _ _ _ _ _
  case msm_with_select_general ps ss r1 r2 =>
    refine .after (prog_mapM (prog_index _) _).growing fun _ _ => .after (prog_mapM (prog_index _) _).growing fun _ _ =>
      .then ?_ (prog2_groupSelect A (generalScalar_prog _) _ _ _ _ _).tidy.1 fun _ _ => Growing.pure _
    rw [hp]
    exact marks_groupSelect A (generalScalar_prog _) _ _ _ _ _
  all_goals cases hc

theorem growing_runBoth (A B : Api n) (w : Witness n) : ∀ (cs : List (Bool × Call n)) (ST : Store n × Store n),
    Growing (runBoth A B w cs ST) := by
  intro cs
  induction cs with
  | nil => intro ST; exact Growing.pure _
  | cons x cs ih =>
    rintro ⟨S, T⟩
    obtain ⟨b, c⟩ := x
    cases b
    · exact .bind (prog2_runCall A w S c).tidy.1 fun _ => ih _
    · exact .bind (prog2_runCall B w T c).tidy.1 fun _ => ih _

/-- The first multi-scalar multiplication on a context caches a value under the first key of the prefix of the context. -/
theorem marks_runBoth (A B : Api n) (w : Witness n) (b : Bool) (p : ℕ) : ∀ (cs : List (Bool × Call n))
    (S T : Store n), (bif b then T else S).msm_prefix = some p → 0 < msmCount b cs →
    Marks (encode_offset n p 0 0) (runBoth A B w cs (S, T)) := by
  intro cs
  induction cs with
  | nil => intro S T _ h; cases h
  | cons x cs ih =>
    intro S T hp h
    obtain ⟨b', c⟩ := x
    by_cases hc : b' = b ∧ c.IsMsm = true
    · obtain ⟨rfl, hc⟩ := hc
      cases b'
      · exact .then (marks_runCall A w S c hc hp) (prog2_runCall A w S c).tidy.1 fun _ _ => growing_runBoth A B w _ _
      · exact .then (marks_runCall B w T c hc hp) (prog2_runCall B w T c).tidy.1 fun _ _ => growing_runBoth A B w _ _
    · have h' : 0 < msmCount b cs := by
        unfold msmCount at h ⊢
        rwa [List.countP_cons_of_neg (by simpa using hc)] at h
      cases b'
      · refine .after (prog2_runCall A w S c).tidy.1 fun S' hS => ih S' T ?_ h'
        cases b
        · obtain ⟨s, t, e⟩ := hS
          have := returns_runCall A w S c _ _ _ e
          rw [if_neg (fun h => hc ⟨rfl, h⟩)] at this
          exact this.trans hp
        · exact hp
      · refine .after (prog2_runCall B w T c).tidy.1 fun T' hT => ih S T' ?_ h'
        cases b
        · exact hp
        · obtain ⟨s, t, e⟩ := hT
          have := returns_runCall B w T c _ _ _ e
          rw [if_neg (fun h => hc ⟨rfl, h⟩)] at this
          exact this.trans hp

/-- If each context computes a multi-scalar multiplication and they have the same prefix, two rows have one key. -/
theorem twice_runBoth (A B : Api n) (w : Witness n) (p : ℕ) : ∀ (cs : List (Bool × Call n)) (S T S' T' : Store n)
    (s t : Context n), S.msm_prefix = some p → T.msm_prefix = some p → 0 < msmCount false cs → 0 < msmCount true cs →
    s.Fresh → runBoth A B w cs (S, T) s = .ok ((S', T'), t) →
    ∃ r r', r < r' ∧ t.records.inner.KeyRow r (encode_offset n p 0 0) ∧
      t.records.inner.KeyRow r' (encode_offset n p 0 0) := by
  intro cs
  induction cs with
  | nil => intro S T S' T' s t _ _ h; cases h
  | cons x cs ih =>
    intro S T S' T' s t hS hT h1 h2 hs e
    obtain ⟨b, c⟩ := x
    have skip : ∀ b', ¬ (b = b' ∧ c.IsMsm = true) → msmCount b' ((b, c) :: cs) = msmCount b' cs := fun b' hb => by
      unfold msmCount
      exact List.countP_cons_of_neg (by simpa using hb)
    cases b
    · obtain ⟨S1, u, e1, e2⟩ := run_bind_ok.1 e
      obtain ⟨fu, gu⟩ := (prog2_runCall A w S c).tidy.1 _ _ _ hs e1
      have hp := returns_runCall A w S c _ _ _ e1
      rw [skip true (by simp)] at h2
      by_cases hc : c.IsMsm = true
      · obtain ⟨r, -, r2, r3⟩ := marks_runCall A w S c hc hS _ _ _ hs e1
        obtain ⟨-, gt⟩ := growing_runBoth A B w cs (S1, T) _ _ _ fu e2
        obtain ⟨r', r2', -, r3'⟩ := marks_runBoth A B w true p cs S1 T hT h2 _ _ _ fu e2
        exact ⟨r, r', by omega, gt.keyRow r2 r3, r3'⟩
      · rw [if_neg hc] at hp
        rw [skip false (fun h => hc h.2)] at h1
        exact ih _ _ _ _ _ _ (hp.trans hS) hT h1 h2 fu e2
    · obtain ⟨T1, u, e1, e2⟩ := run_bind_ok.1 e
      obtain ⟨fu, gu⟩ := (prog2_runCall B w T c).tidy.1 _ _ _ hs e1
      have hp := returns_runCall B w T c _ _ _ e1
      rw [skip false (by simp)] at h1
      by_cases hc : c.IsMsm = true
      · obtain ⟨r, -, r2, r3⟩ := marks_runCall B w T c hc hT _ _ _ hs e1
        obtain ⟨-, gt⟩ := growing_runBoth A B w cs (S, T1) _ _ _ fu e2
        obtain ⟨r', r2', -, r3'⟩ := marks_runBoth A B w false p cs S T1 hS h1 _ _ _ fu e2
        exact ⟨r, r', by omega, gt.keyRow r2 r3, r3'⟩
      · rw [if_neg hc] at hp
        rw [skip true (fun h => hc h.2)] at h2
        exact ih _ _ _ _ _ _ hS (hp.trans hT) h1 h2 fu e2

/-! ## Contexts whose prefixes are apart -/

/-- The keys used so far by a context that started at `lo` and whose prefix is `pre` now. -/
def UsedFrom (lo : ℕ) (pre : Option ℕ) (k : ZMod n) : Prop := ∃ p, pre = some p ∧ KeysGroup lo (min p (2 ^ 29)) k

variable [Nontrivial (ZMod n)]

/-- One call, when the keys `O` are used by others. -/
theorem keys_step (hn : 2 ^ 253 ≤ n) (A : Api n) (hl : A.info.limbs ≤ 2 ^ 32) (w : Witness n) (O : ZMod n → Prop)
    (lo : ℕ) (S S' : Store n) (c : Call n) (hc : c.ChoosesKey = false) (s t : Context n)
    (e : runCall A w S c s = .ok (S', t)) (hlo : ∀ p, S.msm_prefix = some p → lo ≤ p)
    (hk : ∀ r k, s.records.inner.KeyRow r k → UsedFrom lo S.msm_prefix k ∨ O k)
    (hO : ∀ k, O k → c.IsMsm = true → ∀ p, S.msm_prefix = some p → p < 2 ^ 28 → ¬ KeysGroup p (p + 2 ^ 20) k)
    (hd : s.records.inner.KeysDistinct) :
    (∀ r k, t.records.inner.KeyRow r k → UsedFrom lo S'.msm_prefix k ∨ O k) ∧ t.records.inner.KeysDistinct := by
  obtain ⟨p1, p2⟩ := emits_runCall hn A hl w S c hc _ _ _ e
  have hp := returns_runCall A w S c _ _ _ e
  refine ⟨fun r k h => ?_, p2 (fun r k h hcall => ?_) hd⟩
  · rcases p1 r k h with h | ⟨hm, p, e, h3, g, h4, h5, h6⟩
    · rcases hk r k h with ⟨p, e, g, h3, h4, h5⟩ | h
      · rw [e] at hp
        by_cases hm : c.IsMsm = true
        · rw [if_pos hm] at hp
          exact .inl ⟨p + MSM_PREFIX_OFFSET, hp, g, h3, by omega, h5⟩
        · rw [if_neg hm] at hp
          exact .inl ⟨_, hp, g, h3, h4, h5⟩
      · exact .inr h
    · rw [e, if_pos hm] at hp
      have : p < 2 ^ 28 := h3
      have : g < p + 2 ^ 20 := h5
      have : g < p + MSM_PREFIX_OFFSET := h5
      refine .inl ⟨_, hp, g, (hlo p e).trans h4, ?_, h6⟩
      dsimp only
      omega
  · obtain ⟨hm, p, e, h3, h4⟩ := hcall
    have : p < 2 ^ 28 := h3
    rcases hk r k h with ⟨p', e', h5⟩ | h
    · rw [e] at e'
      cases e'
      exact KeysGroup.disjoint hn (by omega) (by unfold MSM_PREFIX_OFFSET; omega) (min_le_left _ _) h5 h4
    · exact hO k h hm p e h3 h4

/-- The prefixes stay in ranges that are apart. -/
structure Apart (lo hi lo' hi' : ℕ) (cs : List (Bool × Call n)) (S T : Store n) : Prop where
  first : ∀ p, S.msm_prefix = some p → lo ≤ p ∧ p + msmCount false cs * 2 ^ 20 ≤ hi
  second : ∀ q, T.msm_prefix = some q → lo' ≤ q ∧ q + msmCount true cs * 2 ^ 20 ≤ hi'

theorem runBoth_keys (hn : 2 ^ 253 ≤ n) (A B : Api n) (hA : A.info.limbs ≤ 2 ^ 32) (hB : B.info.limbs ≤ 2 ^ 32)
    (w : Witness n) {lo hi lo' hi' : ℕ} (hr : hi ≤ lo' ∨ hi' ≤ lo) : ∀ (cs : List (Bool × Call n)) (S T S' T' : Store n)
    (s t : Context n), (∀ x ∈ cs, x.2.ChoosesKey = false) → runBoth A B w cs (S, T) s = .ok ((S', T'), t) →
    Apart lo hi lo' hi' cs S T →
    (∀ r k, s.records.inner.KeyRow r k → UsedFrom lo S.msm_prefix k ∨ UsedFrom lo' T.msm_prefix k) →
    s.records.inner.KeysDistinct → t.records.inner.KeysDistinct := by
  intro cs
  induction cs with
  | nil => intro S T S' T' s t _ h _ _ h2; cases h; exact h2
  | cons x cs ih =>
    intro S T S' T' s t hc e ha hk hd
    obtain ⟨b, c⟩ := x
    have hcc := hc _ List.mem_cons_self
    have hcs := fun x h => hc x (List.mem_cons_of_mem _ h)
    have cnt : ∀ b', msmCount b' ((b, c) :: cs) = msmCount b' cs + if b = b' ∧ c.IsMsm = true then 1 else 0 := fun b' => by
      unfold msmCount
      rw [List.countP_cons]
      simp
    cases b
    · obtain ⟨S1, u, e1, e2⟩ := run_bind_ok.1 e
      have hp := returns_runCall A w S c _ _ _ e1
      obtain ⟨k1, k2⟩ := keys_step hn A hA w (UsedFrom lo' T.msm_prefix) lo S S1 c hcc _ _ e1
        (fun p hp => (ha.first p hp).1) hk (fun k hO hm p hS hlt hg => by
          obtain ⟨q, hT, hO⟩ := hO
          have h1 := ha.first p hS
          have h2 := ha.second q hT
          rw [cnt, if_pos ⟨rfl, hm⟩] at h1
          rcases hr with hr | hr
          · exact KeysGroup.disjoint hn (by omega) (by omega) (by omega) hg hO
          · exact KeysGroup.disjoint hn (by omega) (by omega) (by omega) hO hg) hd
      refine ih _ _ _ _ _ _ hcs e2 ⟨fun p' h' => ?_, fun q hq => ?_⟩ k1 k2
      · by_cases hm : c.IsMsm = true
        · rw [if_pos hm] at hp
          rw [hp] at h'
          obtain ⟨p, hS, rfl⟩ := Option.map_eq_some_iff.1 h'
          have h1 := ha.first p hS
          rw [cnt, if_pos ⟨rfl, hm⟩] at h1
          unfold MSM_PREFIX_OFFSET
          omega
        · rw [if_neg hm] at hp
          have h1 := ha.first p' (hp ▸ h')
          rw [cnt, if_neg (fun h => hm h.2)] at h1
          omega
      · have h2 := ha.second q hq
        rw [cnt, if_neg (by simp)] at h2
        omega
    · obtain ⟨T1, u, e1, e2⟩ := run_bind_ok.1 e
      have hp := returns_runCall B w T c _ _ _ e1
      obtain ⟨k1, k2⟩ := keys_step hn B hB w (UsedFrom lo S.msm_prefix) lo' T T1 c hcc _ _ e1
        (fun p hp => (ha.second p hp).1) (fun r k h => (hk r k h).symm) (fun k hO hm p hT hlt hg => by
          obtain ⟨q, hS, hO⟩ := hO
          have h1 := ha.second p hT
          have h2 := ha.first q hS
          rw [cnt, if_pos ⟨rfl, hm⟩] at h1
          rcases hr with hr | hr
          · exact KeysGroup.disjoint hn (by omega) (by omega) (by omega) hO hg
          · exact KeysGroup.disjoint hn (by omega) (by omega) (by omega) hg hO) hd
      refine ih _ _ _ _ _ _ hcs e2 ⟨fun q hq => ?_, fun p' h' => ?_⟩ (fun r k h => (k1 r k h).symm) k2
      · have h2 := ha.first q hq
        rw [cnt, if_neg (by simp)] at h2
        omega
      · by_cases hm : c.IsMsm = true
        · rw [if_pos hm] at hp
          rw [hp] at h'
          obtain ⟨p, hT, rfl⟩ := Option.map_eq_some_iff.1 h'
          have h1 := ha.second p hT
          rw [cnt, if_pos ⟨rfl, hm⟩] at h1
          unfold MSM_PREFIX_OFFSET
          omega
        · rw [if_neg hm] at hp
          have h1 := ha.second p' (hp ▸ h')
          rw [cnt, if_neg (fun h => hm h.2)] at h1
          omega

end Verif
