import Verif.Props.MsmCalls
import Verif.Props.TwoCurves

/-!
# C49 for the operations `msm` is made of

The two operations on groups of points are public. An honest prover can prove them, for the same choices of random points
as `msm`; and a run that calls both of them meets the hypotheses of `C28_calls_group_native_partial` and
`C29_calls_group_native_partial`.
-/

namespace Verif
variable {n wm : ℕ} {info : RangeInfo n} {b : ZMod wm}

theorem prefixSum_full [Fact wm.Prime] {W : ℕ} (ks : List ℕ) (Ps : List (Pt b)) :
    prefixSum W W ks Ps = (List.zipWith (fun k (P : Pt b) => k • P) ks Ps).sum := by
  unfold prefixSum
  simp only [Nat.sub_self, pow_zero, Nat.div_one]

/-- C49, `msm_batch_on_group_non_zero_without_select_chip`, scalars in the native field. -/
theorem C49_group_bisec_complete [Fact n.Prime] [Fact wm.Prime] (h : RangeInfo.new wm n 18 6 = .ok info)
    (hd : info.d_bits % 108 ≠ 0) (hb : GoodCurve b) (bb : ℕ) (hbb : bb < wm) (hbe : (bb : ZMod wm) = b) (num_bits : ℕ)
    (hn : n ≤ 2 ^ num_bits) (points : List (AssignedNonZeroPoint n)) (scalars : List (AssignedValue n)) (Ps : List (Pt b))
    (hP : List.Forall₂ (HNRep info) points Ps) (hlen : points.length = scalars.length) (hne : points ≠ [])
    (r1 r2 : ℕ × ℕ) (A L : Pt b) (hA : ConstCoords (some r1) A) (hL : ConstCoords (some r2) L)
    (hpos : GeneralPosition num_bits (groupSize 2 Ps.length) (scalars.map fun s => s.val.val) Ps A L) :
    Complete (msm_batch_without_select info bb (nativeScalar num_bits) points scalars (some r1) (some r2))
      (fun w => (∀ p ∈ points, OkN w p) ∧ ∀ s ∈ scalars, Ok w s)
      (fun r => ∃ p, r = .ok p ∧ HPRep info p (msmSum (scalars.map AssignedValue.val) Ps))
      (fun w r => ∀ p, r = .ok p → OkP w p) := by
  intro c w
  rcases hA with ⟨e, -⟩ | ⟨ax, ay, e, hax, hay, hA⟩ <;> cases e
  rcases hL with ⟨e, -⟩ | ⟨lx, ly, e, hlx, hly, hL⟩ <;> cases e
  have := C_msm_batch_without_select (c := c) (h := w) (H := (∀ p ∈ points, OkN w p) ∧ ∀ s ∈ scalars, Ok w s) h hd hb
    (nativeScalar_complete hn) hbb hbe hP (ks := scalars.map fun s => s.val.val) (A := A) (L := L)
    (by rw [List.forall₂_map_right_iff]; exact List.forall₂_same.2 fun _ _ => rfl) hlen hne hax hay hlx hly hA hL
    hpos id
  rw [← zipWith_val, List.map_map]
  rw [prefixSum_full] at this
  exact this

/-- C49, `msm_batch_on_group_non_zero_with_select_chip`, scalars in the native field. -/
theorem C49_group_select_complete [Fact n.Prime] [Fact wm.Prime] (h : RangeInfo.new wm n 18 6 = .ok info)
    (hd : info.d_bits % 108 ≠ 0) (hb : GoodCurve b) (bb : ℕ) (hbb : bb < wm) (hbe : (bb : ZMod wm) = b) (num_bits : ℕ)
    (hn : n ≤ 2 ^ num_bits) (hn' : 256 ≤ n) (pre : ℕ) (hpre : pre < MSM_LIMIT)
    (points : List (AssignedNonZeroPoint n)) (scalars : List (AssignedValue n)) (Ps : List (Pt b))
    (hlim : points.length ≤ MSM_PREFIX_OFFSET)
    (hP : List.Forall₂ (HNRep info) points Ps) (hlen : points.length = scalars.length) (hne : points ≠ [])
    (r1 r2 : ℕ × ℕ) (A L : Pt b) (hA : ConstCoords (some r1) A) (hL : ConstCoords (some r2) L)
    (hpos : GeneralPosition num_bits (groupSize 5 Ps.length) (scalars.map fun s => s.val.val) Ps A L) :
    Complete (msm_batch_with_select info bb (nativeScalar num_bits) pre points scalars (some r1) (some r2))
      (fun w => (∀ p ∈ points, OkN w p) ∧ ∀ s ∈ scalars, Ok w s)
      (fun r => ∃ p, r = .ok p ∧ HPRep info p (msmSum (scalars.map AssignedValue.val) Ps))
      (fun w r => ∀ p, r = .ok p → OkP w p) := by
  intro c w
  rcases hA with ⟨e, -⟩ | ⟨ax, ay, e, hax, hay, hA⟩ <;> cases e
  rcases hL with ⟨e, -⟩ | ⟨lx, ly, e, hlx, hly, hL⟩ <;> cases e
  have := C_msm_batch_with_select (c := c) (h := w) (H := (∀ p ∈ points, OkN w p) ∧ ∀ s ∈ scalars, Ok w s) h hd hb
    (nativeScalar_complete hn) hn' hpre hbb hbe hlim hP (ks := scalars.map fun s => s.val.val) (A := A) (L := L)
    (by rw [List.forall₂_map_right_iff]; exact List.forall₂_same.2 fun _ _ => rfl) hlen hne hax hay hlx hly hA hL
    hpos id
  rw [← zipWith_val, List.map_map]
  rw [prefixSum_full] at this
  exact this

/-- C49, `msm_batch_on_group_non_zero_without_select_chip`, scalars that are integers. -/
theorem C49_group_bisec_general_complete [Fact n.Prime] [Fact wm.Prime] (h : RangeInfo.new wm n 18 6 = .ok info)
    (hd : info.d_bits % 108 ≠ 0) (hb : GoodCurve b) (bb : ℕ) (hbb : bb < wm) (hbe : (bb : ZMod wm) = b) {sm : ℕ} [NeZero sm]
    {sinfo : RangeInfo n} (hs : RangeInfo.new sm n 18 6 = .ok sinfo)
    (points : List (AssignedNonZeroPoint n)) (scalars : List (AssignedInteger n)) (Ps : List (Pt b)) (xs : List (ZMod sm))
    (hP : List.Forall₂ (HNRep info) points Ps) (hx : List.Forall₂ (HRep sm sinfo) scalars xs)
    (hlen : points.length = scalars.length) (hne : points ≠ [])
    (r1 r2 : ℕ × ℕ) (A L : Pt b) (hA : ConstCoords (some r1) A) (hL : ConstCoords (some r2) L)
    (hpos : GeneralPosition (108 * sinfo.limbs) (groupSize 2 Ps.length) (xs.map ZMod.val) Ps A L) :
    Complete (msm_batch_without_select info bb (generalScalar sinfo) points scalars (some r1) (some r2))
      (fun w => (∀ p ∈ points, OkN w p) ∧ ∀ s ∈ scalars, OkI w s)
      (fun r => ∃ p, r = .ok p ∧ HPRep info p (msmSum xs Ps))
      (fun w r => ∀ p, r = .ok p → OkP w p) := by
  intro c w
  rcases hA with ⟨e, -⟩ | ⟨ax, ay, e, hax, hay, hA⟩ <;> cases e
  rcases hL with ⟨e, -⟩ | ⟨lx, ly, e, hlx, hly, hL⟩ <;> cases e
  have := C_msm_batch_without_select (c := c) (h := w) (H := (∀ p ∈ points, OkN w p) ∧ ∀ s ∈ scalars, OkI w s) h hd hb
    (generalScalar_complete (NeZero.one_le) hs) hbb hbe hP (ks := xs.map ZMod.val) (A := A) (L := L)
    (by
      rw [List.forall₂_map_right_iff]
      refine hx.imp fun s x hsx => ?_
      rw [ZMod.natCast_zmod_val]
      exact ⟨hsx, ZMod.val_lt x⟩) hlen hne hax hay hlx hly hA hL hpos id
  rw [← zipWith_val]
  rw [prefixSum_full] at this
  exact this

/-- C49, `msm_batch_on_group_non_zero_with_select_chip`, scalars that are integers. -/
theorem C49_group_select_general_complete [Fact n.Prime] [Fact wm.Prime] (h : RangeInfo.new wm n 18 6 = .ok info)
    (hd : info.d_bits % 108 ≠ 0) (hb : GoodCurve b) (bb : ℕ) (hbb : bb < wm) (hbe : (bb : ZMod wm) = b) {sm : ℕ} [NeZero sm]
    {sinfo : RangeInfo n} (hs : RangeInfo.new sm n 18 6 = .ok sinfo) (hn' : 256 ≤ n) (pre : ℕ) (hpre : pre < MSM_LIMIT)
    (points : List (AssignedNonZeroPoint n)) (scalars : List (AssignedInteger n)) (Ps : List (Pt b)) (xs : List (ZMod sm))
    (hlim : points.length ≤ MSM_PREFIX_OFFSET)
    (hP : List.Forall₂ (HNRep info) points Ps) (hx : List.Forall₂ (HRep sm sinfo) scalars xs)
    (hlen : points.length = scalars.length) (hne : points ≠ [])
    (r1 r2 : ℕ × ℕ) (A L : Pt b) (hA : ConstCoords (some r1) A) (hL : ConstCoords (some r2) L)
    (hpos : GeneralPosition (108 * sinfo.limbs) (groupSize 5 Ps.length) (xs.map ZMod.val) Ps A L) :
    Complete (msm_batch_with_select info bb (generalScalar sinfo) pre points scalars (some r1) (some r2))
      (fun w => (∀ p ∈ points, OkN w p) ∧ ∀ s ∈ scalars, OkI w s)
      (fun r => ∃ p, r = .ok p ∧ HPRep info p (msmSum xs Ps))
      (fun w r => ∀ p, r = .ok p → OkP w p) := by
  intro c w
  rcases hA with ⟨e, -⟩ | ⟨ax, ay, e, hax, hay, hA⟩ <;> cases e
  rcases hL with ⟨e, -⟩ | ⟨lx, ly, e, hlx, hly, hL⟩ <;> cases e
  have := C_msm_batch_with_select (c := c) (h := w) (H := (∀ p ∈ points, OkN w p) ∧ ∀ s ∈ scalars, OkI w s) h hd hb
    (generalScalar_complete (NeZero.one_le) hs) hn' hpre hbb hbe hlim hP (ks := xs.map ZMod.val) (A := A) (L := L)
    (by
      rw [List.forall₂_map_right_iff]
      refine hx.imp fun s x hsx => ?_
      rw [ZMod.natCast_zmod_val]
      exact ⟨hsx, ZMod.val_lt x⟩) hlen hne hax hay hlx hly hA hL hpos id
  rw [← zipWith_val]
  rw [prefixSum_full] at this
  exact this

/-- A run that assigns a point and a scalar and multiplies them with the select chip, again with the select chip, and
without it. -/
def groupCalls : List (Call n) :=
  [.assign_non_zero_point 0, .assign 0, .msm_with_select_native [0] [0] 1 2, .msm_with_select_native [0] [0] 1 2,
    .msm_without_select_native [0] [0] 1 2]

/-- The run exists for bn256, with the generator, the scalar 5 and suitable random points. Its second multiplication meets
the hypotheses of `C29_calls_group_native_partial`, its third those of `C28_calls_group_native_partial`. -/
theorem C29_case_group : ∃ (A : Api bnR) (w : Witness bnR) (S : Store bnR) (t : Context bnR),
    RangeInfo.new bnQ bnR 18 6 = .ok A.info ∧ w.point 0 = some (1, 2) ∧ w.field 0 = 5 ∧ A.num_bits = 254 ∧
    runCalls A w groupCalls (Store.empty bnR (some 0)) (Context.new bnR) = .ok (S, t) ∧
    ∀ c ∈ (groupCalls : List (Call bnR)), c.ChoosesKey = false := by
  obtain ⟨info, hs⟩ := Setup.of_summary summary_bnQ
  have h := hs.new
  have hd : info.d_bits % 108 ≠ 0 := by
    have := hs.summary
    simp only [List.cons.injEq] at this
    omega
  obtain ⟨G, hG⟩ := bn_generator
  have : Finite (Pt (3 : ZMod bnQ)) := Nat.finite_of_card_ne_zero (by rw [bn_card]; decide +kernel)
  have hcard : 2 ^ 253 < Nat.card (Pt (3 : ZMod bnQ)) := by rw [bn_card]; decide +kernel
  have h0 : AtMost 1 fun P : Pt (3 : ZMod bnQ) => P = 0 := AtMost.one fun A B hA hB => hA.trans hB.symm
  have hg2 : groupCount 1 1 = 1 := rfl
  have hlen : [G].length = 1 := rfl
  have hr := C49_random_points (⊤ : AddSubgroup (Pt (3 : ZMod bnQ))) (fun P _ => (bn_no_small P).1)
    (fun P _ => (bn_no_small P).2) 254 1 le_rfl [5] [G]
  rw [hlen, hg2] at hr
  obtain ⟨L, hL⟩ := (hr.or h0).exists_not (by omega)
  rw [not_or, not_not] at hL
  obtain ⟨P, hP⟩ := (hL.1.or h0).exists_not (by omega)
  rw [not_or] at hP
  obtain ⟨r1, hr1⟩ := constCoords_of_ne P hP.2
  obtain ⟨r2, hr2⟩ := constCoords_of_ne L hL.2
  have hpos : GeneralPosition 254 1 [5] [G] P L := by
    by_contra hc
    exact hP.1 ⟨trivial, hc⟩
  refine ⟨⟨info, info, 3, bnR, 254, (1, 2)⟩, ⟨fun _ => 5, fun _ => 0, fun i => if i = 0 then some (1, 2) else
    if i = 1 then some r1 else some r2⟩, ?_⟩
  obtain ⟨p, s1, e1, f1, -, ⟨hp, -⟩, -⟩ := C_assign_non_zero_point (c := ⟨0, fun _ _ => 0, fun _ _ => 0, fun _ _ => 0, []⟩)
    (h := fun _ => 0) (H := True) h hd (bb := 3) (by decide +kernel) (by norm_num) (cx := 1) (cy := 2) (by decide +kernel)
    (by decide +kernel) hG _ Context.new_fresh
  obtain ⟨v, s2, e2, f2, -, hv, -⟩ := C_assign (c := ⟨0, fun _ _ => 0, fun _ _ => 0, fun _ _ => 0, []⟩)
    (h := fun _ => 0) (H := True) (v := (5 : ZMod bnR)) s1 f1
  have hv5 : v.val.val = 5 := by rw [hv]; decide +kernel
  have hpos' : GeneralPosition 254 1 ([v].map fun s => s.val.val) [G] P L := by
    rw [List.map_cons, List.map_nil, hv5]; exact hpos
  have hg5 : groupSize 5 1 = 1 := rfl
  have hg3 : groupSize 2 1 = 1 := rfl
  have sel := fun pre hpre => C49_group_select_complete h hd good_bn 3 (by decide +kernel) (by norm_num) 254 (by decide +kernel)
    (by decide +kernel) pre hpre [p] [v] [G] (by show 1 ≤ 2 ^ 20; norm_num) (.cons hp .nil) rfl (by simp) r1 r2 P L hr1 hr2
    (by rw [hlen, hg5]; exact hpos') ⟨0, fun _ _ => 0, fun _ _ => 0, fun _ _ => 0, []⟩ (fun _ => 0)
  obtain ⟨_, s3, e3, f3, -, ⟨q3, rfl, -⟩, -⟩ := sel 0 (by decide) s2 f2
  obtain ⟨_, s4, e4, f4, -, ⟨q4, rfl, -⟩, -⟩ := sel (0 + MSM_PREFIX_OFFSET) (by decide) s3 f3
  obtain ⟨_, s5, e5, f5, -, ⟨q5, rfl, -⟩, -⟩ := C49_group_bisec_complete h hd good_bn 3 (by decide +kernel) (by norm_num) 254
    (by decide +kernel) [p] [v] [G] (.cons hp .nil) rfl (by simp) r1 r2 P L hr1 hr2
    (by rw [hlen, hg3]; exact hpos') ⟨0, fun _ _ => 0, fun _ _ => 0, fun _ _ => 0, []⟩ (fun _ => 0) s4 f4
  let S2 := ((Store.empty bnR (some 0)).pushN p).pushV v
  let S3 : Store bnR := { S2.pushP q3 with msm_prefix := some (0 + MSM_PREFIX_OFFSET) }
  let S4 : Store bnR := { S3.pushP q4 with msm_prefix := some (0 + MSM_PREFIX_OFFSET + MSM_PREFIX_OFFSET) }
  refine ⟨S4.pushP q5, s5, h, rfl, rfl, rfl, ?_, by decide⟩
  refine run_bind_ok.2 ⟨(Store.empty bnR (some 0)).pushN p, s1, run_bind_ok.2 ⟨_, _, e1, rfl⟩, run_bind_ok.2 ⟨S2, s2,
    run_bind_ok.2 ⟨_, _, e2, rfl⟩, run_bind_ok.2 ⟨S3, s3, ?_, run_bind_ok.2 ⟨S4, s4, ?_, run_bind_ok.2 ⟨S4.pushP q5, s5, ?_, rfl⟩⟩⟩⟩⟩
  · exact run_bind_ok.2 ⟨[p], s2, rfl, run_bind_ok.2 ⟨[v], s2, rfl, run_bind_ok.2 ⟨(q3, some (0 + MSM_PREFIX_OFFSET)), s3,
      run_bind_ok.2 ⟨.ok q3, s3, e3, rfl⟩, rfl⟩⟩⟩
  · exact run_bind_ok.2 ⟨[p], s3, rfl, run_bind_ok.2 ⟨[v], s3, rfl, run_bind_ok.2
      ⟨(q4, some (0 + MSM_PREFIX_OFFSET + MSM_PREFIX_OFFSET)), s4, run_bind_ok.2 ⟨.ok q4, s4, e4, rfl⟩, rfl⟩⟩⟩
  · exact run_bind_ok.2 ⟨[p], s4, rfl, run_bind_ok.2 ⟨[v], s4, rfl, run_bind_ok.2
      ⟨q5, s5, run_bind_ok.2 ⟨.ok q5, s5, e5, rfl⟩, rfl⟩⟩⟩

end Verif
