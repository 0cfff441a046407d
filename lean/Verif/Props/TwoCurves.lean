import Verif.Proof.Marks
import Verif.Props.Keys
import Verif.Props.MsmComplete

/-!
# C70: curve contexts that share a native context

C31 says that the keys of cached values are distinct in a run with one curve context. Every new curve context counts its
multi-scalar multiplications from 0, also when it shares the native context with another.
-/

namespace Verif
variable {n : ℕ}

/-- C70 fails: if two new curve contexts with the select chip record into one native context, for whatever curves, then in
every run in which each of them computes a multi-scalar multiplication two values are cached under one key. -/
theorem C70_violated (A B : Api n) (w : Witness n) (cs : List (Bool × Call n)) (h1 : 0 < msmCount false cs)
    (h2 : 0 < msmCount true cs) (S T : Store n) (t : Context n)
    (h : runBoth A B w cs (Store.empty n (some 0), Store.empty n (some 0)) (Context.new n) = .ok ((S, T), t)) :
    ¬ t.records.inner.KeysDistinct := by
  obtain ⟨r, r', hlt, k, k'⟩ := twice_runBoth A B w 0 cs _ _ _ _ _ _ rfl rfl h1 h2 Context.new_fresh h
  exact fun hd => absurd (hd _ _ _ k k') (by omega)

/-- Two contexts, each of which assigns a point and a scalar and multiplies them. -/
def twoSums : List (Bool × Call n) :=
  [(false, .assign_point 0), (false, .assign 0), (false, .msm_native [0] [0] 1 2),
   (true, .assign_point 0), (true, .assign 0), (true, .msm_native [0] [0] 1 2)]

/-- The calls of one of them. -/
def oneSum : List (Call n) := [.assign_point 0, .assign 0, .msm_native [0] [0] 1 2]

theorem runBoth_twoSums (A B : Api n) (w : Witness n) (S T : Store n) : runBoth A B w twoSums (S, T) = (do
    let S ← runCalls A w oneSum S
    let T ← runCalls B w oneSum T
    pure (S, T)) := by
  funext s
  simp only [twoSums, oneSum, runBoth, runCalls, bind_assoc, pure_bind]

/-- From every context, one of them runs, with suitable random points. -/
theorem runs_oneSum : ∃ (info : RangeInfo bnR) (A : Api bnR) (w : Witness bnR),
    RangeInfo.new bnQ bnR 18 6 = .ok info ∧ A.info = info ∧ w.point 0 = some (1, 2) ∧ w.field 0 = 5 ∧
    ∀ s : Context bnR, s.Fresh → ∃ S t, runCalls A w oneSum (Store.empty bnR (some 0)) s = .ok (S, t) ∧ t.Fresh := by
  obtain ⟨info, hs⟩ := Setup.of_summary summary_bnQ
  have h := hs.new
  have hd : info.d_bits % 108 ≠ 0 := by
    have := hs.summary
    simp only [List.cons.injEq] at this
    omega
  obtain ⟨G, hG⟩ := bn_generator
  have hG : ConstCoords (some (1, 2)) G := .inr ⟨1, 2, rfl, by decide +kernel, by decide +kernel, hG⟩
  have : Finite (Pt (3 : ZMod bnQ)) := Nat.finite_of_card_ne_zero (by rw [bn_card]; decide +kernel)
  have hcard : 2 ^ 253 < Nat.card (Pt (3 : ZMod bnQ)) := by rw [bn_card]; decide +kernel
  have h0 : AtMost 1 fun P : Pt (3 : ZMod bnQ) => P = 0 := AtMost.one fun A B hA hB => hA.trans hB.symm
  have hg1 : groupSize 5 1 = 1 := rfl
  have hg2 : groupCount 1 1 = 1 := rfl
  have hr := C49_random_points (⊤ : AddSubgroup (Pt (3 : ZMod bnQ))) (fun P _ => (bn_no_small P).1)
    (fun P _ => (bn_no_small P).2) 254 1 le_rfl (cleanScalars [G] [5]) (cleanPoints G [G])
  have hcl : (cleanPoints G [G]).length = 1 := by simp [cleanPoints]
  rw [hcl, hg2] at hr
  obtain ⟨L, hL⟩ := (hr.or h0).exists_not (by omega)
  rw [not_or, not_not] at hL
  obtain ⟨P, hP⟩ := (hL.1.or h0).exists_not (by omega)
  rw [not_or] at hP
  obtain ⟨r1, hr1⟩ := constCoords_of_ne P hP.2
  obtain ⟨r2, hr2⟩ := constCoords_of_ne L hL.2
  have hpos : GeneralPosition 254 1 (cleanScalars [G] [5]) (cleanPoints G [G]) P L := by
    by_contra hc
    exact hP.1 ⟨trivial, hc⟩
  refine ⟨info, ⟨info, info, 3, bnR, 254, (1, 2)⟩, ⟨fun _ => 5, fun _ => 0, fun i => if i = 0 then some (1, 2) else
    if i = 1 then some r1 else some r2⟩, h, rfl, rfl, rfl, fun s hf => ?_⟩
  obtain ⟨p, s1, e1, f1, -, ⟨hp, -⟩, -⟩ := C_assign_point (c := ⟨0, fun _ _ => 0, fun _ _ => 0, fun _ _ => 0, []⟩)
    (h := fun _ => 0) (H := True) h hd (bb := 3) (by decide +kernel) (by norm_num) hG s hf
  obtain ⟨v, s2, e2, f2, -, hv, -⟩ := C_assign (c := ⟨0, fun _ _ => 0, fun _ _ => 0, fun _ _ => 0, []⟩)
    (h := fun _ => 0) (H := True) (v := (5 : ZMod bnR)) s1 f1
  have hv5 : v.val.val = 5 := by rw [hv]; decide +kernel
  obtain ⟨r, s3, e3, f3, -⟩ := C49_native_complete h hd good_bn 3 (by decide +kernel) (by norm_num) 254 (by decide +kernel)
    [p] [v] [G] (.cons hp .nil) rfl (by simp) (1, 2) r1 r2 G P L hG hr1 hr2 (some 0)
    (fun pre e => ⟨by decide +kernel, by cases e; decide, by show 1 ≤ 2 ^ 20; norm_num⟩) (by
      have e : groupSize (if (some 0 : Option ℕ).isSome = true then 5 else 2) [G].length = 1 := by simpa using hg1
      rw [e, List.map_cons, List.map_nil, hv5]
      exact hpos)
    ⟨0, fun _ _ => 0, fun _ _ => 0, fun _ _ => 0, []⟩ (fun _ => 0) s2 f2
  refine ⟨{ (((Store.empty bnR (some 0)).pushP p).pushV v).pushP r.1 with msm_prefix := r.2 }, s3, ?_, f3⟩
  exact run_bind_ok.2 ⟨_, _, run_bind_ok.2 ⟨_, _, e1, rfl⟩, run_bind_ok.2 ⟨_, _, run_bind_ok.2 ⟨_, _, e2, rfl⟩,
    run_bind_ok.2 ⟨_, _, run_bind_ok.2 ⟨[p], s2, rfl, run_bind_ok.2 ⟨[v], s2, rfl, run_bind_ok.2 ⟨r, s3, e3, rfl⟩⟩⟩, rfl⟩⟩⟩

/-- The hypotheses of `C70_violated` are met: on two contexts for bn256, with the generator and the scalar 5 and suitable
random points, both multiplications run. -/
theorem C70_case : ∃ (A : Api bnR) (w : Witness bnR) (S T : Store bnR) (t : Context bnR),
    RangeInfo.new bnQ bnR 18 6 = .ok A.info ∧ w.point 0 = some (1, 2) ∧ w.field 0 = 5 ∧
    runBoth A A w twoSums (Store.empty bnR (some 0), Store.empty bnR (some 0)) (Context.new bnR) = .ok ((S, T), t) ∧
    ¬ t.records.inner.KeysDistinct := by
  obtain ⟨info, A, w, h1, h2, h3, h4, h5⟩ := runs_oneSum
  obtain ⟨S, u, e1, fu⟩ := h5 _ Context.new_fresh
  obtain ⟨T, t, e2, -⟩ := h5 _ fu
  have e : runBoth A A w twoSums (Store.empty bnR (some 0), Store.empty bnR (some 0)) (Context.new bnR) = .ok ((S, T), t) := by
    rw [runBoth_twoSums]
    exact run_bind_ok.2 ⟨_, _, e1, run_bind_ok.2 ⟨_, _, e2, rfl⟩⟩
  exact ⟨A, w, S, T, t, h2 ▸ h1, h3, h4, e, C70_violated A A w twoSums (by decide) (by decide) S T t e⟩

/-- What remains of C70. Full statement: in every run on curve contexts that share a native context, without keys chosen by
the client, no two values are cached under one key. Missing: prefixes that start so far apart that the multi-scalar
multiplications on one context do not reach those of the other. The constructors do not choose them so
(`C70_violated`); the fields are public, so a client can. -/
theorem C70_partial (hn : 2 ^ 253 ≤ n) (A B : Api n) (hA : A.info.limbs ≤ 2 ^ 32) (hB : B.info.limbs ≤ 2 ^ 32)
    (w : Witness n) (cs : List (Bool × Call n)) (hc : ∀ x ∈ cs, x.2.ChoosesKey = false) (pre pre' : Option ℕ)
    (hpre : ∀ p q, pre = some p → pre' = some q →
      p + msmCount false cs * 2 ^ 20 ≤ q ∨ q + msmCount true cs * 2 ^ 20 ≤ p) (S T : Store n) (t : Context n)
    (h : runBoth A B w cs (Store.empty n pre, Store.empty n pre') (Context.new n) = .ok ((S, T), t)) :
    t.records.inner.KeysDistinct := by
  have := nontrivial_of_large hn
  have key : ∀ {lo hi lo' hi' : ℕ}, (hi ≤ lo' ∨ hi' ≤ lo) →
      (∀ p, pre = some p → lo ≤ p ∧ p + msmCount false cs * 2 ^ 20 ≤ hi) →
      (∀ q, pre' = some q → lo' ≤ q ∧ q + msmCount true cs * 2 ^ 20 ≤ hi') → t.records.inner.KeysDistinct :=
    fun hr h1 h2 => runBoth_keys hn A B hA hB w hr cs _ _ _ _ _ _ hc h ⟨h1, h2⟩ (fun r k hk => by cases hk.2)
      fun r r' k hk => by cases hk.2
  cases pre with
  | none =>
    exact key (lo := 0) (hi := 0) (lo' := 0) (.inl le_rfl) (hi' := pre'.getD 0 + msmCount true cs * 2 ^ 20)
      (fun p e => by cases e) fun q e => ⟨Nat.zero_le _, by rw [e]; exact le_rfl⟩
  | some p =>
    cases pre' with
    | none =>
      exact key (hi' := 0) (lo := 0) (lo' := 0) (.inr le_rfl) (hi := p + msmCount false cs * 2 ^ 20)
        (fun p e => ⟨Nat.zero_le _, by cases e; exact le_rfl⟩) fun q e => by cases e
    | some q =>
      refine key (lo := p) (lo' := q) (hpre p q rfl rfl) (fun p' e => ?_) fun q' e => ?_ <;> cases e <;> exact ⟨le_rfl, le_rfl⟩

/-- A selection after values were cached under one key, other than 0, by two contexts. -/
def selectBoth : List (Bool × Call n) :=
  [(false, .assign_constant 0), (false, .assign 0), (false, .assign_cache_value 1 0 1 0),
   (true, .assign 1), (true, .assign_cache_value 0 0 1 0), (false, .assign_selected_value 1 0 1 0)]

/-- What `selectBoth` does. -/
def selectTwice (x y : ZMod n) : M n (AssignedValue n × AssignedValue n × AssignedValue n × AssignedValue n) := do
  let z ← assign_constant 0
  let a ← assign x
  assign_cache_value a 0 1 0
  let b ← assign y
  assign_cache_value b 0 1 0
  let r ← assign_selected_value a 0 1 z
  pure (z, a, b, r)

theorem runBoth_selectBoth (A B : Api n) (w : Witness n) (S T : Store n) (hS : S.v = []) (hT : T.v = []) :
    runBoth A B w selectBoth (S, T) = selectTwice (w.field 0) (w.field 1) >>= fun x =>
      pure (((S.pushV x.1).pushV x.2.1).pushV x.2.2.2, T.pushV x.2.2.1) := by
  obtain ⟨v, _⟩ := S
  obtain ⟨v', _⟩ := T
  cases hS
  cases hT
  unfold selectTwice
  simp only [bind_assoc, pure_bind]
  show (do
    let S ← (do let r ← assign_constant 0; pure (Store.pushV _ r))
    let S ← (do let r ← assign (w.field 0); pure (S.pushV r))
    let S ← (do let a ← index S.v 1; assign_cache_value a 0 1 0; pure S)
    let T ← (do let r ← assign (w.field 1); pure (Store.pushV _ r))
    let T ← (do let a ← index T.v 0; assign_cache_value a 0 1 0; pure T)
    let S ← (do let a ← index S.v 1; let d ← index S.v 0; let r ← assign_selected_value a 0 1 d; pure (S.pushV r))
    pure (S, T)) = _
  simp only [bind_assoc, pure_bind]
  rfl

/-- Advice for `selectBoth`: the selected value is the one cached by the second context. -/
def forgeBoth (x y : ZMod n) : Advice n
  | ⟨.base, 0, 1⟩ => x
  | ⟨.base, 0, 2⟩ => y
  | ⟨.select, 0, 0⟩ => x
  | ⟨.select, 0, 1⟩ => y
  | ⟨.select, 0, 2⟩ => y
  | _ => 0

/-- What a collision means: where the first context cached and selected `x`, the circuit also accepts the value that the
second context cached under the same key. The key is not 0, so this is not C30. -/
theorem C70_ambiguous (A B : Api n) (w : Witness n) : ∃ S T t a b r,
    runBoth A B w selectBoth (Store.empty n (some 0), Store.empty n (some 0)) (Context.new n) = .ok ((S, T), t) ∧
    S.v[1]? = some a ∧ S.v[2]? = some r ∧ T.v[0]? = some b ∧ r.val = w.field 0 ∧
    ∀ usable, t.Fits usable → ∃ adv, (t.circuit usable).Sat adv ∧ adv a.cell = w.field 0 ∧ adv b.cell = w.field 1 ∧
      adv r.cell = w.field 1 := by
  obtain ⟨t, e, hperm, hbase, hrange, hsel⟩ : ∃ t, selectTwice (w.field 0) (w.field 1) (Context.new n) =
      .ok ((⟨⟨.base, 0, 0⟩, 0⟩, ⟨⟨.base, 0, 1⟩, w.field 0⟩, ⟨⟨.base, 0, 2⟩, w.field 1⟩, ⟨⟨.select, 0, 2⟩, w.field 0⟩), t) ∧
      t.records.permutations = [(⟨.select, 0, 0⟩, ⟨.base, 0, 1⟩), (⟨.select, 0, 1⟩, ⟨.base, 0, 2⟩),
        (⟨.select, 1, 2⟩, ⟨.base, 0, 0⟩)] ∧
      (∀ r c, t.records.inner.base_fix_record r c = if r = 0 ∧ c = 0 then some (-1) else
        if r = 0 ∧ c = 8 then some 0 else if (r = 1 ∨ r = 2) ∧ c = 0 then some 0 else none) ∧
      (∀ r c, t.records.inner.range_fix_record r c = none) ∧
      (∀ r c, t.records.inner.select_fix_record r c = if (r = 0 ∨ r = 1 ∨ r = 2) ∧ c = 0 then some (encode_offset n 1 0 0) else
        if (r = 0 ∨ r = 1) ∧ c = 1 then some 0 else if r = 2 ∧ c = 1 then some 1 else none) := by
    refine ⟨_, rfl, rfl, ?_, fun _ _ => rfl, ?_⟩
    · intro r c
      rcases r with _ | _ | _ | r <;> rcases c with _ | _ | _ | _ | _ | _ | _ | _ | _ | c <;> rfl
    · intro r c
      rcases r with _ | _ | _ | r <;> rcases c with _ | _ | c <;> rfl
  refine ⟨_, _, t, _, _, _, by rw [runBoth_selectBoth _ _ _ _ _ rfl rfl]; exact run_bind_ok.2 ⟨_, _, e, rfl⟩, rfl, rfl, rfl, rfl, fun usable hf => ⟨forgeBoth (w.field 0) (w.field 1), ⟨?_, ?_, ?_, ?_⟩, rfl, rfl, rfl⟩⟩
  · intro r _
    have hfix : ∀ k, (t.circuit usable).baseFix r k = (t.records.inner.base_fix_record r k).getD 0 := fun _ => rfl
    unfold Circuit.baseGate
    simp only [hfix, hbase]
    rcases r with _ | _ | _ | r <;> simp [forgeBoth]
  · intro r _
    have hfix : ∀ k, (t.circuit usable).rangeFix r k = 0 := by
      intro k
      show (t.records.inner.range_fix_record r k).getD 0 = _
      rw [hrange]; rfl
    refine ⟨⟨0, 0, Nat.zero_le _, by norm_num, by simp [hfix], by simp [forgeBoth]⟩,
      ⟨18, 0, le_rfl, by norm_num, rfl, by simp [forgeBoth]⟩, ?_, ?_, ?_⟩ <;>
      simp [Circuit.rangeGate1, Circuit.rangeGate2, Circuit.rangeGate3, hfix]
  · intro r hr
    have hfix : ∀ r k, (t.circuit usable).selFix r k = (t.records.inner.select_fix_record r k).getD 0 := fun _ _ => rfl
    unfold Circuit.SelectRow
    simp only [hfix, hsel]
    rcases r with _ | _ | _ | r
    · exact ⟨0, hr, rfl, by simp [forgeBoth], by simp⟩
    · exact ⟨1, hr, rfl, by simp [forgeBoth], by simp⟩
    · exact ⟨1, lt_trans (by norm_num) hr, rfl, by simp [forgeBoth], by simp⟩
    · exact ⟨r + 3, hr, rfl, by simp [forgeBoth], by simp⟩
  · intro p hp
    have : p ∈ t.records.permutations := hp
    rw [hperm] at this
    simp only [List.mem_cons, List.not_mem_nil, or_false] at this
    rcases this with rfl | rfl | rfl <;> rfl

end Verif
