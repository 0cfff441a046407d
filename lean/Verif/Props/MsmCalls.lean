import Verif.Props.Msm
import Verif.Props.Keys

/-!
# C29 for a whole run

The condition of the theorems of C29 on the keys of cached values is met by the circuit of every run on a new context in
which the client does not choose keys itself. So nothing about keys is left to assume: a multi-scalar multiplication that
is not the first of the run returns the sum of the multiples.
-/

namespace Verif
variable {n wm : ℕ} {b : ZMod wm}

/-- Keys that are distinct in the records are distinct in the circuit. -/
theorem keysUnique_of_distinct {t : Context n} (h : t.records.inner.KeysDistinct) (usable : ℕ) :
    (t.circuit usable).KeysUnique := by
  intro r r' h1 h2 e h0
  have key : ∀ r, (t.circuit usable).CacheRow r → (t.circuit usable).selFix r 0 ≠ 0 →
      t.records.inner.KeyRow r ((t.circuit usable).selFix r 0) := by
    intro r hr h0
    refine ⟨hr.2.1, ?_⟩
    have e : (t.circuit usable).selFix r 0 = (t.records.inner.select_fix_record r 0).getD 0 := rfl
    rw [e] at h0 ⊢
    cases e' : t.records.inner.select_fix_record r 0 with
    | none => rw [e'] at h0; exact absurd rfl h0
    | some k => rfl
  exact h r r' _ (key r h1 h0) (by rw [e]; exact key r' h2 (by rwa [← e]))

theorem runCalls_append (A : Api n) (w : Witness n) (cs cs' : List (Call n)) (S : Store n) :
    runCalls A w (cs ++ cs') S = runCalls A w cs S >>= fun S => runCalls A w cs' S := by
  induction cs generalizing S with
  | nil => rfl
  | cons c cs ih =>
    funext s
    show (runCall A w S c >>= fun S => runCalls A w (cs ++ cs') S) s = _
    simp only [ih]
    show _ = ((runCall A w S c >>= fun S => runCalls A w cs S) >>= fun S => runCalls A w cs' S) s
    simp only [run_bind]
    rcases runCall A w S c s with e | ⟨a, t⟩ <;> rfl

theorem mapM_index_ok {α β : Type} {l : List α} {R : α → β → Prop} {f : ℕ → β} : ∀ {is : List ℕ} {s t : Context n}
    {as : List α}, (∀ i ∈ is, ∀ a, l[i]? = some a → R a (f i)) → is.mapM (index l) s = .ok (as, t) →
    List.Forall₂ R as (is.map f) ∧ s = t := by
  intro is
  induction is with
  | nil => intro s t as _ h; cases h; exact ⟨.nil, rfl⟩
  | cons i is ih =>
    intro s t as hR h
    rw [List.mapM_cons] at h
    obtain ⟨a, u, h1, h2⟩ := run_bind_ok.1 h
    obtain ⟨as', u', h3, h4⟩ := run_bind_ok.1 h2
    cases h4
    have : l[i]? = some a ∧ s = u := by
      unfold index at h1
      cases e : l[i]? with
      | none => rw [e] at h1; cases h1
      | some a' => rw [e] at h1; cases h1; exact ⟨rfl, rfl⟩
    obtain ⟨h5, rfl⟩ := this
    obtain ⟨h6, rfl⟩ := ih (fun j hj => hR j (List.mem_cons_of_mem _ hj)) h3
    exact ⟨.cons (hR i List.mem_cons_self a h5) h6, rfl⟩

/-- What the two theorems below have in common: in the circuit of the whole run the lookups of the call find what was
cached. -/
theorem calls_select (hn : 2 ^ 253 ≤ n) (A : Api n) (hl : A.info.limbs ≤ 2 ^ 32) (w : Witness n)
    {before after : List (Call n)} {c : Call n} (hc : ∀ c' ∈ before ++ c :: after, c'.ChoosesKey = false)
    (hm : ∃ c ∈ before, c.IsMsm = true) {S1 S2 S3 : Store n} {s1 s2 t : Context n}
    (h1 : runCalls A w before (Store.empty n (some 0)) (Context.new n) = .ok (S1, s1))
    (h2 : runCall A w S1 c s1 = .ok (S2, s2)) (h3 : runCalls A w after S2 s2 = .ok (S3, t)) {usable : ℕ}
    (hu : t.Fits usable) (a : Advice n) : s1.Fresh ∧ s2.Embeds (t.circuit usable) ∧ ∃ p, S1.msm_prefix = some p ∧
      SelectOk (t.circuit usable) a A.info p := by
  have hrun : runCalls A w (before ++ c :: after) (Store.empty n (some 0)) (Context.new n) = .ok (S3, t) := by
    rw [runCalls_append]
    refine run_bind_ok.2 ⟨_, _, h1, ?_⟩
    unfold runCalls
    exact run_bind_ok.2 ⟨_, _, h2, h3⟩
  have hp := C31_prefix A w before _ _ 0 rfl _ _ h1
  obtain ⟨f1, -⟩ := (prog2_runCalls A w before _).tidy.1 _ _ _ Context.new_fresh h1
  obtain ⟨f2, -⟩ := (prog2_runCall A w S1 c).tidy.1 _ _ _ f1 h2
  obtain ⟨f3, g3⟩ := (prog2_runCalls A w after S2).tidy.1 _ _ _ f2 h3
  have he : t.Embeds (t.circuit usable) := Context.embeds_circuit hu
  refine ⟨f1, g3.embeds he, _, hp, keysUnique_of_distinct (C31_keys_distinct hn A hl w _ hc _ _ _ hrun) _,
    .inl ⟨?_, lt_of_lt_of_le (by norm_num) hn, lt_of_le_of_lt hl (by norm_num)⟩⟩
  obtain ⟨c, hc, hm⟩ := hm
  have := List.countP_pos_iff.2 ⟨c, hc, hm⟩
  positivity

/-- C29, partial, for a whole run: `before`, then a multi-scalar multiplication with scalars in the native field, then
`after`, on a new context with the select chip. Whatever the rest of the run is, in every assignment satisfying the
circuit of the whole run the result represents the sum of the multiples. Missing: the first multi-scalar multiplication of
the run (`hm`, see C30), and the copy constraint in `assign_bit` (`hbits`); on curves that have points of another order,
also a check of the order of the point substituted for identity inputs (`hG`). -/
theorem C29_calls_native_partial [Fact n.Prime] [Fact wm.Prime] (hn : 2 ^ 253 ≤ n) (A : Api n)
    (h : RangeInfo.new wm n 18 6 = .ok A.info) (hl : A.info.limbs ≤ 2 ^ 32) (hb : GoodCurve b)
    (hbb : A.b < wm) (hbe : (A.b : ZMod wm) = b) (hnb : 1 ≤ A.num_bits) (w : Witness n)
    (before after : List (Call n)) (ps ss : List ℕ) (r1 r2 : ℕ)
    (hc : ∀ c ∈ before ++ .msm_native ps ss r1 r2 :: after, c.ChoosesKey = false)
    (hm : ∃ c ∈ before, c.IsMsm = true) (S1 S2 S3 : Store n) (s1 s2 t : Context n)
    (h1 : runCalls A w before (Store.empty n (some 0)) (Context.new n) = .ok (S1, s1))
    (h2 : runCall A w S1 (.msm_native ps ss r1 r2) s1 = .ok (S2, s2))
    (h3 : runCalls A w after S2 s2 = .ok (S3, t))
    (usable : ℕ) (hu : t.Fits usable) (a : Advice n) (ha : (t.circuit usable).Sat a)
    (hbits : (t.circuit usable).BitRowsConsistent a) (P : ℕ → Pt b) (x : ℕ → ZMod n)
    (hP : ∀ i ∈ ps, ∀ p, S1.p[i]? = some p → PRep A.info a p (P i))
    (hx : ∀ j ∈ ss, ∀ v, S1.v[j]? = some v → a v.cell = x j)
    (hr : ∀ i ∈ ps, n • P i = 0) (hG : (∃ i ∈ ps, P i = 0) → ∀ G : Pt b, n • G = 0) :
    ∃ r, S2.p = S1.p ++ [r] ∧ PRep A.info a r (msmSum (ss.map x) (ps.map P)) := by
  obtain ⟨f1, he, p, hp, hs⟩ := calls_select hn A hl w hc hm h1 h2 h3 hu a
  unfold runCall at h2
  obtain ⟨qs, u, e1, h2⟩ := run_bind_ok.1 h2
  obtain ⟨hps, rfl⟩ := mapM_index_ok hP e1
  obtain ⟨vs, u, e2, h2⟩ := run_bind_ok.1 h2
  obtain ⟨hvs, rfl⟩ := mapM_index_ok (R := fun v (y : ZMod n) => a v.cell = y) hx e2
  obtain ⟨⟨r, pre⟩, u, e3, h2⟩ := run_bind_ok.1 h2
  cases h2
  haveI : NeZero n := ⟨(Fact.out : n.Prime).ne_zero⟩
  refine ⟨r, rfl, ?_⟩
  refine (S_msm h ha (nativeScalar_sound ha hbits hnb) (nativeScalar_prog _) hb hbb hbe hps hvs ?_ (nativeScalar_zero ?_) _ _ _ ?_
    _ _ _ f1
    e3).2.2 he
  · rintro _ hQ
    obtain ⟨i, hi, rfl⟩ := List.mem_map.1 hQ
    exact hr i hi
  · intro h0
    obtain ⟨i, hi, e⟩ := List.mem_map.1 h0
    exact hG ⟨i, hi, e⟩
  · intro p' e
    rw [hp] at e
    cases e
    exact hs

/-- C29, partial, for a whole run, with scalars in another field. Missing: as above. -/
theorem C29_calls_general_partial [Fact n.Prime] [Fact wm.Prime] (hn : 2 ^ 253 ≤ n) (A : Api n)
    (h : RangeInfo.new wm n 18 6 = .ok A.info) (hl : A.info.limbs ≤ 2 ^ 32) (hb : GoodCurve b)
    (hbb : A.b < wm) (hbe : (A.b : ZMod wm) = b) {sm : ℕ} [NeZero sm] (hsm : RangeInfo.new sm n 18 6 = .ok A.sinfo)
    (w : Witness n) (before after : List (Call n)) (ps ss : List ℕ) (r1 r2 : ℕ)
    (hc : ∀ c ∈ before ++ .msm_general ps ss r1 r2 :: after, c.ChoosesKey = false)
    (hm : ∃ c ∈ before, c.IsMsm = true) (S1 S2 S3 : Store n) (s1 s2 t : Context n)
    (h1 : runCalls A w before (Store.empty n (some 0)) (Context.new n) = .ok (S1, s1))
    (h2 : runCall A w S1 (.msm_general ps ss r1 r2) s1 = .ok (S2, s2))
    (h3 : runCalls A w after S2 s2 = .ok (S3, t))
    (usable : ℕ) (hu : t.Fits usable) (a : Advice n) (ha : (t.circuit usable).Sat a)
    (hbits : (t.circuit usable).BitRowsConsistent a) (P : ℕ → Pt b) (x : ℕ → ZMod sm)
    (hP : ∀ i ∈ ps, ∀ p, S1.p[i]? = some p → PRep A.info a p (P i))
    (hx : ∀ j ∈ ss, ∀ v, S1.i[j]? = some v → Rep sm A.sinfo a v (x j))
    (hr : ∀ i ∈ ps, sm • P i = 0) :
    ∃ r, S2.p = S1.p ++ [r] ∧ PRep A.info a r (msmSum (ss.map x) (ps.map P)) := by
  obtain ⟨f1, he, p, hp, hs⟩ := calls_select hn A hl w hc hm h1 h2 h3 hu a
  unfold runCall at h2
  obtain ⟨qs, u, e1, h2⟩ := run_bind_ok.1 h2
  obtain ⟨hps, rfl⟩ := mapM_index_ok hP e1
  obtain ⟨vs, u, e2, h2⟩ := run_bind_ok.1 h2
  obtain ⟨hvs, rfl⟩ := mapM_index_ok hx e2
  obtain ⟨⟨r, pre⟩, u, e3, h2⟩ := run_bind_ok.1 h2
  cases h2
  refine ⟨r, rfl, ?_⟩
  refine (S_msm h ha (generalScalar_sound hsm ha hbits) (generalScalar_prog _) hb hbb hbe hps hvs ?_ (generalScalar_zero _) _ _ _ ?_
    _ _ _ f1 e3).2.2 he
  · rintro _ hQ
    obtain ⟨i, hi, rfl⟩ := List.mem_map.1 hQ
    exact hr i hi
  · intro p' e
    rw [hp] at e
    cases e
    exact hs

/-! ## The operations `msm` is made of, called by the client -/

section
variable {σ : Type} {ops : ScalarOps n σ} {r W : ℕ} {R : σ → ZMod r → Prop} {Z : σ → Prop} {D : σ → ℕ → Prop}
  {c : Circuit n} {w : Advice n}

theorem forall₂_ex {scalars : List σ} {xs : List (ZMod r)} (h : List.Forall₂ R scalars xs) : ∀ s ∈ scalars, ∃ x, R s x := by
  induction h with
  | nil => intro s hs; exact absurd hs List.not_mem_nil
  | cons h0 _ ih =>
    intro s hs
    rcases List.mem_cons.1 hs with rfl | hs
    · exact ⟨_, h0⟩
    · exact ih s hs

theorem forall₂_residue (hs : ScalarSound c w R Z D W ops) {scalars : List σ} {xs : List (ZMod r)}
    (h : List.Forall₂ R scalars xs) : ∀ {ks : List ℕ}, List.Forall₂ D scalars ks →
      List.Forall₂ (fun (k : ℕ) (x : ZMod r) => (k : ZMod r) = x) ks xs := by
  induction h with
  | nil => intro ks hk; cases hk; exact .nil
  | cons h0 _ ih =>
    intro ks hk
    cases hk with
    | cons k0 k1 => exact .cons (hs.residue _ _ _ h0 k0) (ih k1)

variable [Fact n.Prime] [Fact wm.Prime] [NeZero r] {A : Api n} (h : RangeInfo.new wm n 18 6 = .ok A.info) (hw : c.Sat w)
  (hs : ScalarSound c w R Z D W ops) (hp : ScalarProg ops) (hb : GoodCurve b) (hbb : A.b < wm) (hbe : (A.b : ZMod wm) = b)
include h hw hs hp hb hbb hbe

theorem S_groupBisec {points : List (AssignedNonZeroPoint n)} {scalars : List σ} {Ps : List (Pt b)} {xs : List (ZMod r)}
    (hP : List.Forall₂ (NRep A.info w) points Ps) (hx : List.Forall₂ R scalars xs) (hlen : points.length = scalars.length)
    (hr : ∀ P ∈ Ps, r • P = 0) (r1 r2 : Option (ℕ × ℕ)) :
    S c (groupBisec A ops r1 r2 points scalars) (fun res => PRep A.info w res (msmSum xs Ps)) := by
  unfold groupBisec
  refine S.bind (S_msm_batch_without_select h hw hs hp hb hbb hbe hP (forall₂_ex hx) hlen r1 r2) fun res => ?_
  cases res with
  | ok p =>
    refine S.pure ?_
    rintro ⟨_, ks, e, h1, h2⟩
    cases e
    exact natSum_residue (forall₂_residue hs hx h1) hr ▸ h2
  | error e => exact S.panic

theorem S_groupSelect {points : List (AssignedNonZeroPoint n)} {scalars : List σ} {Ps : List (Pt b)} {xs : List (ZMod r)}
    (hP : List.Forall₂ (NRep A.info w) points Ps) (hx : List.Forall₂ R scalars xs) (hlen : points.length = scalars.length)
    (hr : ∀ P ∈ Ps, r • P = 0) (r1 r2 : Option (ℕ × ℕ)) {pre : ℕ} (hpre : SelectOk c w A.info pre) :
    S c (groupSelect A ops r1 r2 (some pre) points scalars) (fun res => PRep A.info w res.1 (msmSum xs Ps)) := by
  unfold groupSelect
  refine S.bind (S_msm_batch_with_select h hw hs hp hb hbb hbe hpre.1 hpre.2 hP (forall₂_ex hx) hlen r1 r2) fun res => ?_
  cases res with
  | ok p =>
    refine S.pure ?_
    rintro ⟨_, ks, e, h1, h2⟩
    cases e
    exact natSum_residue (forall₂_residue hs hx h1) hr ▸ h2
  | error e => exact S.panic

end

/-- A call in the middle of a run: what it starts from and where its rows end up. -/
theorem calls_embed (A : Api n) (w : Witness n) {before after : List (Call n)} {c : Call n} {pre : Option ℕ}
    {S1 S2 S3 : Store n} {s1 s2 t : Context n}
    (h1 : runCalls A w before (Store.empty n pre) (Context.new n) = .ok (S1, s1))
    (h2 : runCall A w S1 c s1 = .ok (S2, s2)) (h3 : runCalls A w after S2 s2 = .ok (S3, t)) {usable : ℕ}
    (hu : t.Fits usable) [Nontrivial (ZMod n)] : s1.Fresh ∧ s2.Embeds (t.circuit usable) := by
  obtain ⟨f1, -⟩ := (prog2_runCalls A w before _).tidy.1 _ _ _ Context.new_fresh h1
  obtain ⟨f2, -⟩ := (prog2_runCall A w S1 c).tidy.1 _ _ _ f1 h2
  obtain ⟨f3, g3⟩ := (prog2_runCalls A w after S2).tidy.1 _ _ _ f2 h3
  exact ⟨f1, g3.embeds (Context.embeds_circuit hu)⟩

/-- C29, partial: `msm_batch_on_group_non_zero_with_select_chip` called by the client in the middle of a run, on points that
are not the identity and native scalars. Nothing is substituted for a point here, so the condition on the order of other
points is not needed. Missing: the first multi-scalar multiplication of the run (`hm`, see C30), and the copy constraint in
`assign_bit` (`hbits`). -/
theorem C29_calls_group_native_partial [Fact n.Prime] [Fact wm.Prime] (hn : 2 ^ 253 ≤ n) (A : Api n)
    (h : RangeInfo.new wm n 18 6 = .ok A.info) (hl : A.info.limbs ≤ 2 ^ 32) (hb : GoodCurve b)
    (hbb : A.b < wm) (hbe : (A.b : ZMod wm) = b) (hnb : 1 ≤ A.num_bits) (w : Witness n)
    (before after : List (Call n)) (ps ss : List ℕ) (hlen : ps.length = ss.length) (r1 r2 : ℕ)
    (hc : ∀ c ∈ before ++ .msm_with_select_native ps ss r1 r2 :: after, c.ChoosesKey = false)
    (hm : ∃ c ∈ before, c.IsMsm = true) (S1 S2 S3 : Store n) (s1 s2 t : Context n)
    (h1 : runCalls A w before (Store.empty n (some 0)) (Context.new n) = .ok (S1, s1))
    (h2 : runCall A w S1 (.msm_with_select_native ps ss r1 r2) s1 = .ok (S2, s2))
    (h3 : runCalls A w after S2 s2 = .ok (S3, t))
    (usable : ℕ) (hu : t.Fits usable) (a : Advice n) (ha : (t.circuit usable).Sat a)
    (hbits : (t.circuit usable).BitRowsConsistent a) (P : ℕ → Pt b) (x : ℕ → ZMod n)
    (hP : ∀ i ∈ ps, ∀ p, S1.z[i]? = some p → NRep A.info a p (P i))
    (hx : ∀ j ∈ ss, ∀ v, S1.v[j]? = some v → a v.cell = x j)
    (hr : ∀ i ∈ ps, n • P i = 0) :
    ∃ r, S2.p = S1.p ++ [r] ∧ PRep A.info a r (msmSum (ss.map x) (ps.map P)) := by
  obtain ⟨f1, he, p, hp, hs⟩ := calls_select hn A hl w hc hm h1 h2 h3 hu a
  unfold runCall at h2
  obtain ⟨qs, u, e1, h2⟩ := run_bind_ok.1 h2
  obtain ⟨hps, rfl⟩ := mapM_index_ok hP e1
  obtain ⟨vs, u, e2, h2⟩ := run_bind_ok.1 h2
  obtain ⟨hvs, rfl⟩ := mapM_index_ok (R := fun v (y : ZMod n) => a v.cell = y) hx e2
  obtain ⟨⟨r, pre⟩, u, e3, h2⟩ := run_bind_ok.1 h2
  cases h2
  haveI : NeZero n := ⟨(Fact.out : n.Prime).ne_zero⟩
  rw [hp] at e3
  refine ⟨r, rfl, (S_groupSelect h ha (nativeScalar_sound ha hbits hnb) (nativeScalar_prog _) hb hbb hbe hps hvs ?_ ?_ _ _ hs
    _ _ _ f1 e3).2.2 he⟩
  · rw [hps.length_eq, hvs.length_eq, List.length_map, List.length_map, hlen]
  · rintro _ hQ
    obtain ⟨i, hi, rfl⟩ := List.mem_map.1 hQ
    exact hr i hi

/-- C29, partial: the same with scalars in another field. Missing: as above. -/
theorem C29_calls_group_general_partial [Fact n.Prime] [Fact wm.Prime] (hn : 2 ^ 253 ≤ n) (A : Api n)
    (h : RangeInfo.new wm n 18 6 = .ok A.info) (hl : A.info.limbs ≤ 2 ^ 32) (hb : GoodCurve b)
    (hbb : A.b < wm) (hbe : (A.b : ZMod wm) = b) {sm : ℕ} [NeZero sm] (hsm : RangeInfo.new sm n 18 6 = .ok A.sinfo)
    (w : Witness n) (before after : List (Call n)) (ps ss : List ℕ) (hlen : ps.length = ss.length) (r1 r2 : ℕ)
    (hc : ∀ c ∈ before ++ .msm_with_select_general ps ss r1 r2 :: after, c.ChoosesKey = false)
    (hm : ∃ c ∈ before, c.IsMsm = true) (S1 S2 S3 : Store n) (s1 s2 t : Context n)
    (h1 : runCalls A w before (Store.empty n (some 0)) (Context.new n) = .ok (S1, s1))
    (h2 : runCall A w S1 (.msm_with_select_general ps ss r1 r2) s1 = .ok (S2, s2))
    (h3 : runCalls A w after S2 s2 = .ok (S3, t))
    (usable : ℕ) (hu : t.Fits usable) (a : Advice n) (ha : (t.circuit usable).Sat a)
    (hbits : (t.circuit usable).BitRowsConsistent a) (P : ℕ → Pt b) (x : ℕ → ZMod sm)
    (hP : ∀ i ∈ ps, ∀ p, S1.z[i]? = some p → NRep A.info a p (P i))
    (hx : ∀ j ∈ ss, ∀ v, S1.i[j]? = some v → Rep sm A.sinfo a v (x j))
    (hr : ∀ i ∈ ps, sm • P i = 0) :
    ∃ r, S2.p = S1.p ++ [r] ∧ PRep A.info a r (msmSum (ss.map x) (ps.map P)) := by
  obtain ⟨f1, he, p, hp, hs⟩ := calls_select hn A hl w hc hm h1 h2 h3 hu a
  unfold runCall at h2
  obtain ⟨qs, u, e1, h2⟩ := run_bind_ok.1 h2
  obtain ⟨hps, rfl⟩ := mapM_index_ok hP e1
  obtain ⟨vs, u, e2, h2⟩ := run_bind_ok.1 h2
  obtain ⟨hvs, rfl⟩ := mapM_index_ok hx e2
  obtain ⟨⟨r, pre⟩, u, e3, h2⟩ := run_bind_ok.1 h2
  cases h2
  rw [hp] at e3
  refine ⟨r, rfl, (S_groupSelect h ha (generalScalar_sound hsm ha hbits) (generalScalar_prog _) hb hbb hbe hps hvs ?_ ?_ _ _ hs
    _ _ _ f1 e3).2.2 he⟩
  · rw [hps.length_eq, hvs.length_eq, List.length_map, List.length_map, hlen]
  · rintro _ hQ
    obtain ⟨i, hi, rfl⟩ := List.mem_map.1 hQ
    exact hr i hi

/-- C28, partial: `msm_batch_on_group_non_zero_without_select_chip` called by the client anywhere in a run, on a context with
or without a select chip, with native scalars. Missing: the copy constraint in `assign_bit` (`hbits`). -/
theorem C28_calls_group_native_partial [Fact n.Prime] [Fact wm.Prime] (A : Api n)
    (h : RangeInfo.new wm n 18 6 = .ok A.info) (hb : GoodCurve b)
    (hbb : A.b < wm) (hbe : (A.b : ZMod wm) = b) (hnb : 1 ≤ A.num_bits) (w : Witness n) (pre : Option ℕ)
    (before after : List (Call n)) (ps ss : List ℕ) (hlen : ps.length = ss.length) (r1 r2 : ℕ)
    (S1 S2 S3 : Store n) (s1 s2 t : Context n)
    (h1 : runCalls A w before (Store.empty n pre) (Context.new n) = .ok (S1, s1))
    (h2 : runCall A w S1 (.msm_without_select_native ps ss r1 r2) s1 = .ok (S2, s2))
    (h3 : runCalls A w after S2 s2 = .ok (S3, t))
    (usable : ℕ) (hu : t.Fits usable) (a : Advice n) (ha : (t.circuit usable).Sat a)
    (hbits : (t.circuit usable).BitRowsConsistent a) (P : ℕ → Pt b) (x : ℕ → ZMod n)
    (hP : ∀ i ∈ ps, ∀ p, S1.z[i]? = some p → NRep A.info a p (P i))
    (hx : ∀ j ∈ ss, ∀ v, S1.v[j]? = some v → a v.cell = x j)
    (hr : ∀ i ∈ ps, n • P i = 0) :
    ∃ r, S2.p = S1.p ++ [r] ∧ PRep A.info a r (msmSum (ss.map x) (ps.map P)) := by
  obtain ⟨f1, he⟩ := calls_embed A w h1 h2 h3 hu
  unfold runCall at h2
  obtain ⟨qs, u, e1, h2⟩ := run_bind_ok.1 h2
  obtain ⟨hps, rfl⟩ := mapM_index_ok hP e1
  obtain ⟨vs, u, e2, h2⟩ := run_bind_ok.1 h2
  obtain ⟨hvs, rfl⟩ := mapM_index_ok (R := fun v (y : ZMod n) => a v.cell = y) hx e2
  obtain ⟨r, u, e3, h2⟩ := run_bind_ok.1 h2
  cases h2
  haveI : NeZero n := ⟨(Fact.out : n.Prime).ne_zero⟩
  refine ⟨r, rfl, (S_groupBisec h ha (nativeScalar_sound ha hbits hnb) (nativeScalar_prog _) hb hbb hbe hps hvs ?_ ?_ _ _
    _ _ _ f1 e3).2.2 he⟩
  · rw [hps.length_eq, hvs.length_eq, List.length_map, List.length_map, hlen]
  · rintro _ hQ
    obtain ⟨i, hi, rfl⟩ := List.mem_map.1 hQ
    exact hr i hi

/-- C28, partial: the same with scalars in another field. Missing: as above. -/
theorem C28_calls_group_general_partial [Fact n.Prime] [Fact wm.Prime] (A : Api n)
    (h : RangeInfo.new wm n 18 6 = .ok A.info) (hb : GoodCurve b)
    (hbb : A.b < wm) (hbe : (A.b : ZMod wm) = b) {sm : ℕ} [NeZero sm] (hsm : RangeInfo.new sm n 18 6 = .ok A.sinfo)
    (w : Witness n) (pre : Option ℕ) (before after : List (Call n)) (ps ss : List ℕ) (hlen : ps.length = ss.length)
    (r1 r2 : ℕ) (S1 S2 S3 : Store n) (s1 s2 t : Context n)
    (h1 : runCalls A w before (Store.empty n pre) (Context.new n) = .ok (S1, s1))
    (h2 : runCall A w S1 (.msm_without_select_general ps ss r1 r2) s1 = .ok (S2, s2))
    (h3 : runCalls A w after S2 s2 = .ok (S3, t))
    (usable : ℕ) (hu : t.Fits usable) (a : Advice n) (ha : (t.circuit usable).Sat a)
    (hbits : (t.circuit usable).BitRowsConsistent a) (P : ℕ → Pt b) (x : ℕ → ZMod sm)
    (hP : ∀ i ∈ ps, ∀ p, S1.z[i]? = some p → NRep A.info a p (P i))
    (hx : ∀ j ∈ ss, ∀ v, S1.i[j]? = some v → Rep sm A.sinfo a v (x j))
    (hr : ∀ i ∈ ps, sm • P i = 0) :
    ∃ r, S2.p = S1.p ++ [r] ∧ PRep A.info a r (msmSum (ss.map x) (ps.map P)) := by
  obtain ⟨f1, he⟩ := calls_embed A w h1 h2 h3 hu
  unfold runCall at h2
  obtain ⟨qs, u, e1, h2⟩ := run_bind_ok.1 h2
  obtain ⟨hps, rfl⟩ := mapM_index_ok hP e1
  obtain ⟨vs, u, e2, h2⟩ := run_bind_ok.1 h2
  obtain ⟨hvs, rfl⟩ := mapM_index_ok hx e2
  obtain ⟨r, u, e3, h2⟩ := run_bind_ok.1 h2
  cases h2
  refine ⟨r, rfl, (S_groupBisec h ha (generalScalar_sound hsm ha hbits) (generalScalar_prog _) hb hbb hbe hps hvs ?_ ?_ _ _
    _ _ _ f1 e3).2.2 he⟩
  · rw [hps.length_eq, hvs.length_eq, List.length_map, List.length_map, hlen]
  · rintro _ hQ
    obtain ⟨i, hi, rfl⟩ := List.mem_map.1 hQ
    exact hr i hi

end Verif
