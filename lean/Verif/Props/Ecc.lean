import Verif.Proof.EccComplete

/-!
# C21 - C25: points on `y² = x³ + b`

`wm` is the base field of the curve, `n` the native field, both prime; `info` any accepted parameter set.
Soundness is about every advice assignment satisfying a circuit that contains the recorded rows; the operands
are any cells that stand for curve points in that assignment.
-/

namespace Verif
variable {n wm : ℕ} [Fact n.Prime] [Fact wm.Prime] {info : RangeInfo n} {b : ZMod wm}

/-! ## C21 -/

/-- C21: `ecc_add` computes the group law in every case (distinct, equal, opposite, identity operands). -/
theorem C21_add_sound (h : RangeInfo.new wm n 18 6 = .ok info) (hb : GoodCurve b)
    (a : AssignedPointWithCurvature n) (q : AssignedPoint n) :
    Sound (ecc_add info a q) (fun w r => ∀ P Q : Pt b, KRep info w a P → PRep info w q Q →
      PRep info w r (P + Q)) := fun _ _ hw => S_ecc_add h hw hb a q

theorem C21_add_complete (h : RangeInfo.new wm n 18 6 = .ok info) (hd : info.d_bits % 108 ≠ 0) (hb : GoodCurve b)
    (a : AssignedPointWithCurvature n) (q : AssignedPoint n) (P Q : Pt b) (hP : HKRep info a P)
    (hQ : HPRep info q Q) :
    Complete (ecc_add info a q) (fun h => OkK h a ∧ OkP h q) (fun r => HPRep info r (P + Q)) OkP :=
  fun _ _ => C_ecc_add h hd hb hP hQ fun h => h

/-! ## C22 -/

/-- C22: `ecc_double` doubles. -/
theorem C22_double_sound (h : RangeInfo.new wm n 18 6 = .ok info) (hb : GoodCurve b) (order : ℕ)
    (a : AssignedPointWithCurvature n) :
    Sound (ecc_double info order a) (fun w r => ∀ P : Pt b, KRep info w a P → PRep info w r (P + P)) :=
  fun _ _ hw => S_ecc_double h hw hb order a

theorem C22_double_complete (h : RangeInfo.new wm n 18 6 = .ok info) (hd : info.d_bits % 108 ≠ 0) (hb : GoodCurve b)
    (order : ℕ) (ho : order % 2 = 1) (a : AssignedPointWithCurvature n) (P : Pt b) (hP : HKRep info a P) :
    Complete (ecc_double info order a) (fun h => OkK h a) (fun r => HPRep info r (P + P)) OkP :=
  fun _ _ => C_ecc_double h hd hb ho hP fun h => h

theorem C22_neg_sound (h : RangeInfo.new wm n 18 6 = .ok info) (a : AssignedPoint n) :
    Sound (ecc_neg info a) (fun w r => ∀ P : Pt b, PRep info w a P → PRep info w r (-P)) :=
  fun _ _ hw => S_ecc_neg h hw a

theorem C22_neg_complete (h : RangeInfo.new wm n 18 6 = .ok info) (a : AssignedPoint n) (P : Pt b)
    (hP : HPRep info a P) :
    Complete (ecc_neg info a) (fun h => OkP h a) (fun r => HPRep info r (-P)) OkP :=
  fun _ _ => C_ecc_neg h hP fun h => h

/-- C22: the selection between two points, for a condition that is 1 or 0. -/
theorem C22_bisec_sound (h : RangeInfo.new wm n 18 6 = .ok info) (cond : AssignedCondition n)
    (p q : AssignedPoint n) :
    Sound (bisec_point info cond p q) (fun w r => ∀ P Q : Pt b, PRep info w p P → PRep info w q Q →
      (w cond.cell = 1 → PRep info w r P) ∧ (w cond.cell = 0 → PRep info w r Q)) :=
  fun _ w hw => (S_bisec_point h hw cond p q).mono fun r ⟨bx, by', bz⟩ P Q hP hQ => by
    obtain ⟨x, y, hx, hy, -⟩ := id hP
    obtain ⟨x', y', hx', hy', -⟩ := id hQ
    have key := fun W : Pt b => PG.bisec (R := Rep wm info w) (f := cv w) hx hy hx' hy' bx by' bz W
    exact ⟨fun hc => (key P).1 hc hP, fun hc => (key Q).2 hc hQ⟩

theorem C22_bisec_complete (h : RangeInfo.new wm n 18 6 = .ok info) (cond : AssignedCondition n)
    (p q : AssignedPoint n) (P Q : Pt b) (hP : HPRep info p P) (hQ : HPRep info q Q)
    (hc : cond.val = 1 ∨ cond.val = 0) :
    Complete (bisec_point info cond p q) (fun h => Ok h cond ∧ OkP h p ∧ OkP h q)
      (fun r => HPRep info r (if cond.val = 1 then P else Q)) OkP := fun _ _ => by
  obtain ⟨⟨x, y, hx, hy, hP'⟩, tx, ty⟩ := id hP
  obtain ⟨⟨x', y', hx', hy', hQ'⟩, tx', ty'⟩ := id hQ
  refine (C_bisec_point h hx hy hx' hy' hc fun h => h).mono ?_ fun _ _ _ q => q
  rintro r ⟨bx, by', bz, t, t'⟩
  have key := fun W : Pt b => PG.bisec (R := HRep wm info) (f := AssignedValue.val) hx hy hx' hy' bx by' bz W
  refine ⟨?_, by omega, by omega⟩
  rcases hc with hc | hc
  · rw [if_pos hc]
    exact (key P).1 hc hP.1
  · rw [if_neg (by rw [hc]; exact zero_ne_one)]
    exact (key Q).2 hc hQ.1

theorem C22_reduce_sound (h : RangeInfo.new wm n 18 6 = .ok info) (a : AssignedPoint n) :
    Sound (ecc_reduce info a) (fun w r => ∀ P : Pt b, PRep info w a P → PRep info w r P) :=
  fun _ _ hw => S_ecc_reduce h hw a

theorem C22_reduce_complete (h : RangeInfo.new wm n 18 6 = .ok info) (a : AssignedPoint n) (P : Pt b)
    (hP : HPRep info a P) :
    Complete (ecc_reduce info a) (fun h => OkP h a) (fun r => HPRep info r P ∧ r.x.times = 1 ∧ r.y.times = 1) OkP :=
  fun _ _ => C_ecc_reduce h hP fun h => h

/-- C22: `ecc_assert_equal` can only be satisfied by two representations of one point. -/
theorem C22_assert_equal_sound (h : RangeInfo.new wm n 18 6 = .ok info) (p q : AssignedPoint n) :
    Sound (ecc_assert_equal info p q) (fun w _ => ∀ P Q : Pt b, PRep info w p P → PRep info w q Q → P = Q) :=
  fun _ _ hw => S_ecc_assert_equal h hw p q

theorem C22_assert_equal_complete (h : RangeInfo.new wm n 18 6 = .ok info) (p q : AssignedPoint n) (P : Pt b)
    (hP : HPRep info p P) (hQ : HPRep info q P) :
    Complete (ecc_assert_equal info p q) (fun h => OkP h p ∧ OkP h q) (fun _ => True) (fun _ _ => True) :=
  fun _ _ => C_ecc_assert_equal h hP hQ fun h => h

/-- The curvature attached to a point is that of the point. -/
theorem C22_curvature_sound (h : RangeInfo.new wm n 18 6 = .ok info) (hb : GoodCurve b) (a : AssignedPoint n) :
    Sound (to_point_with_curvature info a) (fun w r => r.to_point = a ∧ ∀ P : Pt b,
      PRep info w a P → KRep info w r P) ∧
    Sound (ecc_reduce_with_curvature info a) (fun w r => ∀ P : Pt b, PRep info w a P → KRep info w r P) :=
  ⟨fun _ _ hw => S_to_point_with_curvature h hw hb a, fun _ _ hw => S_ecc_reduce_with_curvature h hw hb a⟩

theorem C22_curvature_complete (h : RangeInfo.new wm n 18 6 = .ok info) (hd : info.d_bits % 108 ≠ 0)
    (hb : GoodCurve b) (a : AssignedPoint n) (P : Pt b) (hP : HPRep info a P) :
    Complete (to_point_with_curvature info a) (fun h => OkP h a) (fun r => HKRep info r P ∧ r.to_point = a) OkK ∧
    Complete (ecc_reduce_with_curvature info a) (fun h => OkP h a) (fun r => HKRep info r P ∧ r.x.times = 1 ∧
      r.y.times = 1 ∧ r.curvature.v.times = 1) OkK :=
  ⟨fun _ _ => C_to_point_with_curvature h hd hb hP fun h => h,
    fun _ _ => C_ecc_reduce_with_curvature h hd hb hP fun h => h⟩

/-! ## C23 -/

/-- C23: whatever the prover puts there, the result of `assign_point` has identity flag 1 or coordinates on the
curve. -/
theorem C23_assign_point_sound (h : RangeInfo.new wm n 18 6 = .ok info) (bb : ℕ) (hbb : bb < wm)
    (p : Option (ℕ × ℕ)) :
    Sound (assign_point info bb p) (fun w r => ∃ x y : ZMod wm, Rep wm info w r.x x ∧ Rep wm info w r.y y ∧
      (w r.z.cell = 1 ∨ y ^ 2 = x ^ 3 + bb)) :=
  fun _ _ hw => (S_assign_point' h hw bb hbb p).mono fun _ ⟨x, y, hx, hy, hc, _⟩ => ⟨x, y, hx, hy, hc⟩

/-- The result stands for a point as soon as the flag is a bit, which `assign_bit` does not enforce by itself
(`C06_violated`): it does where the two cells of its row agree. -/
theorem C23_assign_point_of_bits (h : RangeInfo.new wm n 18 6 = .ok info) (hb : GoodCurve b) (bb : ℕ)
    (hbb : bb < wm) (hbe : (bb : ZMod wm) = b) (p : Option (ℕ × ℕ)) (c : Circuit n) (w : Advice n) (hw : c.Sat w)
    (hbits : c.BitRowsConsistent w) :
    S c (assign_point info bb p) (fun r => ∃ P : Pt b, PRep info w r P) :=
  S_assign_point h hw hb hbits bb hbb hbe p

/-- C23: `assign_non_zero_point` returns a point of the curve, whatever the prover puts there. -/
theorem C23_assign_non_zero_point_sound (h : RangeInfo.new wm n 18 6 = .ok info) (hb : GoodCurve b) (bb : ℕ)
    (hbb : bb < wm) (hbe : (bb : ZMod wm) = b) (p : Option (ℕ × ℕ)) :
    Sound (assign_non_zero_point info bb p) (fun w r => (∃ P : Pt b, NRep info w r P) ∧ r.x.times = 1 ∧
      r.y.times = 1) := fun _ _ hw => S_assign_non_zero_point h hw hb bb hbb hbe p

theorem C23_assign_point_complete (h : RangeInfo.new wm n 18 6 = .ok info) (hd : info.d_bits % 108 ≠ 0) (bb : ℕ)
    (hbb : bb < wm) (hbe : (bb : ZMod wm) = b) (p : Option (ℕ × ℕ)) (P : Pt b) (hP : ConstCoords p P) :
    Complete (assign_point info bb p) (fun _ => True)
      (fun r => HPRep info r P ∧ r.x.times = 1 ∧ r.y.times = 1) OkP :=
  fun _ _ => C_assign_point h hd hbb hbe hP

theorem C23_assign_non_zero_point_complete (h : RangeInfo.new wm n 18 6 = .ok info) (hd : info.d_bits % 108 ≠ 0)
    (bb : ℕ) (hbb : bb < wm) (hbe : (bb : ZMod wm) = b) (x y : ℕ) (hx : x < wm) (hy : y < wm) (P : Pt b)
    (hP : HasCoords P (x : ZMod wm) (y : ZMod wm)) :
    Complete (assign_non_zero_point info bb (some (x, y))) (fun _ => True)
      (fun r => HNRep info r P ∧ r.x.times = 1 ∧ r.y.times = 1) OkN :=
  fun _ _ => C_assign_non_zero_point h hd hbb hbe hx hy hP

/-- Constant points are fixed by the circuit. -/
theorem C23_constant_sound (h : RangeInfo.new wm n 18 6 = .ok info) (p : Option (ℕ × ℕ)) (P : Pt b)
    (hP : ConstCoords p P) : Sound (assign_constant_point info p) (fun w r => PRep info w r P) :=
  fun _ _ hw => S_assign_constant_point h hw p P hP

theorem C23_constant_complete (h : RangeInfo.new wm n 18 6 = .ok info) (p : Option (ℕ × ℕ)) (P : Pt b)
    (hP : ConstCoords p P) :
    Complete (assign_constant_point info p) (fun _ => True) (fun r => HPRep info r P) OkP :=
  fun _ _ => C_assign_constant_point h hP

theorem C23_identity_sound (h : RangeInfo.new wm n 18 6 = .ok info) :
    Sound (assign_identity info) (fun w r => KRep info w r (0 : Pt b) ∧ r.x.times = 1 ∧ r.y.times = 1) :=
  fun _ _ hw => S_assign_identity h hw

/-! ## C24 -/

/-- C24: a satisfied `ecc_add_unsafe` had operands with different abscissae, and its result is their sum. -/
theorem C24_add_sound (h : RangeInfo.new wm n 18 6 = .ok info) (a q : AssignedNonZeroPoint n) :
    Sound (ecc_add_unsafe info a q) (fun w r => ∀ P Q : Pt b, NRep info w a P → NRep info w q Q →
      P ≠ Q ∧ P ≠ -Q ∧ ∃ p, r = .ok p ∧ NRep info w p (P + Q)) := fun _ _ hw => S_ecc_add_unsafe h hw a q

theorem C24_add_complete (h : RangeInfo.new wm n 18 6 = .ok info) (hd : info.d_bits % 108 ≠ 0)
    (a q : AssignedNonZeroPoint n) (P Q : Pt b) (hP : HNRep info a P) (hQ : HNRep info q Q)
    (hne : P ≠ Q) (hne' : P ≠ -Q) :
    Complete (ecc_add_unsafe info a q) (fun h => OkN h a ∧ OkN h q) (fun r => ∃ p, r = .ok p ∧ HNRep info p (P + Q))
      (fun h r => ∀ p, r = .ok p → OkN h p) := fun _ _ => C_ecc_add_unsafe h hd hP hQ hne hne' fun h => h

/-- C24: a satisfied `ecc_double_unsafe` had an operand that is not its own opposite, and its result is the
double. -/
theorem C24_double_sound (h : RangeInfo.new wm n 18 6 = .ok info) (hb : GoodCurve b) (a : AssignedNonZeroPoint n) :
    Sound (ecc_double_unsafe info a) (fun w r => ∀ P : Pt b, NRep info w a P →
      P + P ≠ 0 ∧ ∃ p, r = .ok p ∧ NRep info w p (P + P)) := fun _ _ hw => S_ecc_double_unsafe h hw hb a

theorem C24_double_complete (h : RangeInfo.new wm n 18 6 = .ok info) (hd : info.d_bits % 108 ≠ 0) (hb : GoodCurve b)
    (a : AssignedNonZeroPoint n) (P : Pt b) (hP : HNRep info a P) (hne : P + P ≠ 0) :
    Complete (ecc_double_unsafe info a) (fun h => OkN h a) (fun r => ∃ p, r = .ok p ∧ HNRep info p (P + P))
      (fun h r => ∀ p, r = .ok p → OkN h p) := fun _ _ => C_ecc_double_unsafe h hd hb hP hne fun h => h

/-! ## C25: violated -/

omit [Fact n.Prime] in
theorem try_assert_false_eq (a : AssignedCondition n) (s : Context n) (r : Bool) (t : Context n)
    (h : try_assert_false a s = .ok (r, t)) : r = true := by
  unfold try_assert_false assert_constant at h
  by_cases ha : a.val = 0
  · obtain ⟨_, _, _, h2⟩ := run_bind_ok.1 h
    cases h2
    simpa using ha
  · rw [bind_assoc] at h
    obtain ⟨_, _, h1, -⟩ := run_bind_ok.1 h
    rw [show decide (a.val = 0) = false by simpa using ha] at h1
    cases h1

omit [Fact n.Prime] [Fact wm.Prime] in
/-- Negation of C25: whatever the operands and the context, `ecc_add_unsafe` never returns an `Err`. -/
theorem C25_violated_never_err (info : RangeInfo n) (a q : AssignedNonZeroPoint n) (s t : Context n)
    (r : Except UnsafeError (AssignedNonZeroPoint n)) (h : ecc_add_unsafe info a q s = .ok (r, t)) :
    ∃ p, r = .ok p := by
  unfold ecc_add_unsafe at h
  obtain ⟨dx, _, -, h⟩ := run_bind_ok.1 h
  obtain ⟨dy, _, -, h⟩ := run_bind_ok.1 h
  obtain ⟨⟨xeq, tan⟩, _, -, h⟩ := run_bind_ok.1 h
  obtain ⟨su, _, h1, h⟩ := run_bind_ok.1 h
  obtain ⟨p, _, -, h⟩ := run_bind_ok.1 h
  obtain rfl := try_assert_false_eq _ _ _ _ h1
  cases h
  exact ⟨p, rfl⟩

omit [Fact n.Prime] [Fact wm.Prime] in
/-- Negation of C25 for doubling. -/
theorem C25_violated_double_never_err (info : RangeInfo n) (a : AssignedNonZeroPoint n) (s t : Context n)
    (r : Except UnsafeError (AssignedNonZeroPoint n)) (h : ecc_double_unsafe info a s = .ok (r, t)) :
    ∃ p, r = .ok p := by
  unfold ecc_double_unsafe at h
  obtain ⟨⟨z, v⟩, _, -, h⟩ := run_bind_ok.1 h
  obtain ⟨su, _, h1, h⟩ := run_bind_ok.1 h
  obtain ⟨p, _, -, h⟩ := run_bind_ok.1 h
  obtain rfl := try_assert_false_eq _ _ _ _ h1
  cases h
  exact ⟨p, rfl⟩

/-- Negation of C25: honest operands standing for equal or opposite points make `ecc_add_unsafe` panic, in
every context, although no `Err` value would be wrong. -/
theorem C25_violated (h : RangeInfo.new wm n 18 6 = .ok info) (hd : info.d_bits % 108 ≠ 0)
    (a q : AssignedNonZeroPoint n) (P Q : Pt b) (hP : HNRep info a P) (hQ : HNRep info q Q)
    (hPQ : P = Q ∨ P = -Q) (s : Context n) (hs : s.Fresh) :
    ecc_add_unsafe info a q s = .error .assertion := by
  obtain ⟨⟨x₁, y₁, hx₁, hy₁, hP⟩, tx₁, ty₁⟩ := hP
  obtain ⟨⟨x₂, y₂, hx₂, hy₂, hQ⟩, tx₂, ty₂⟩ := hQ
  have hx : x₁ = x₂ := by
    rcases hPQ with rfl | rfl
    exacts [(hP.unique hQ).1, (hP.unique hQ.neg).1]
  have c0 : Circuit n := ⟨0, fun _ _ => 0, fun _ _ => 0, fun _ _ => 0, []⟩
  have h0 : Advice n := fun _ => 0
  unfold ecc_add_unsafe
  obtain ⟨dx, s1, e1, f1, -, hdx, -⟩ := C12_sub_complete h a.x q.x _ _ hx₁ hx₂ (by omega) c0 h0 s hs
  obtain ⟨dy, s2, e2, f2, -, hdy, -⟩ := C12_sub_complete h a.y q.y _ _ hy₁ hy₂ (by omega) c0 h0 s1 f1
  obtain ⟨⟨xeq, tan⟩, s3, e3, f3, -, hdiv, -⟩ := C15_div_complete h hd dy dx _ _ hdy.1 hdx.1 c0 h0 s2 f2
  rw [run_bind, e1]
  show (_ >>= _ : M n _) s1 = _
  rw [run_bind, e2]
  show (_ >>= _ : M n _) s2 = _
  rw [run_bind, e3]
  show (_ >>= _ : M n _) s3 = _
  have hz : xeq.val = 1 := by
    have := hdiv.1
    rwa [if_pos (sub_eq_zero.2 hx)] at this
  rw [run_bind, show try_assert_false xeq s3 = .error .assertion from ?_]
  unfold try_assert_false assert_constant
  rw [bind_assoc, run_bind, show decide (xeq.val = 0) = false by rw [hz]; simp]
  rfl

/-- What remains of C25. Full statement: on degenerate operands the result is `Err`. Missing: the `Err` itself
(the library panics first, `C25_violated`). What holds: a degenerate operation never yields an `Ok` point that
passes: in a satisfied circuit the operands were not degenerate. -/
theorem C25_partial (h : RangeInfo.new wm n 18 6 = .ok info) (hb : GoodCurve b) (a q : AssignedNonZeroPoint n) :
    Sound (ecc_add_unsafe info a q) (fun w _ => ∀ P Q : Pt b, NRep info w a P → NRep info w q Q →
      ¬ (P = Q ∨ P = -Q)) ∧
    Sound (ecc_double_unsafe info a) (fun w _ => ∀ P : Pt b, NRep info w a P → P + P ≠ 0) :=
  ⟨fun _ _ hw => (S_ecc_add_unsafe h hw a q).mono fun _ hr P Q hP hQ e =>
    e.elim (hr P Q hP hQ).1 (hr P Q hP hQ).2.1,
   fun _ _ hw => (S_ecc_double_unsafe h hw hb a).mono fun _ hr P hP => (hr P hP).1⟩

/-! ## Concrete instances -/

/-- The curve of bn256: `y² = x³ + 3`. -/
theorem good_bn : GoodCurve (3 : ZMod bnQ) := ⟨by decide +kernel, by decide +kernel, by decide +kernel⟩

/-- The curve of BLS12-381: `y² = x³ + 4`. -/
theorem good_bls : GoodCurve (4 : ZMod blsQ) := ⟨by decide +kernel, by decide +kernel, by decide +kernel⟩

/-- The generator `(1, 2)` of bn256. -/
theorem bn_generator : ∃ G : Pt (3 : ZMod bnQ), HasCoords G ((1 : ℕ) : ZMod bnQ) ((2 : ℕ) : ZMod bnQ) :=
  HasCoords.of_eqn good_bn (by push_cast; norm_num)

/-- A circuit with the generator: `2G = G + G`, `G + (-G) = 0`. -/
def eccDemo (info : RangeInfo n) (bb order : ℕ) (p : Option (ℕ × ℕ)) : M n (AssignedPoint n) := do
  let g ← assign_point info bb p
  let gk ← to_point_with_curvature info g
  let d ← ecc_double info order gk
  let s ← ecc_add info gk g
  ecc_assert_equal info s d
  let ng ← ecc_neg info g
  let z ← ecc_add info gk ng
  let i ← assign_identity info
  ecc_assert_equal info z i.to_point
  pure s

theorem eccDemo_complete (hi : RangeInfo.new wm n 18 6 = .ok info) (hd : info.d_bits % 108 ≠ 0) (hb : GoodCurve b)
    (bb : ℕ) (hbb : bb < wm) (hbe : (bb : ZMod wm) = b) (order : ℕ) (ho : order % 2 = 1) (p : Option (ℕ × ℕ))
    (P : Pt b) (hP : ConstCoords p P) :
    Complete (eccDemo info bb order p) (fun _ => True) (fun r => HPRep info r (P + P)) OkP := by
  intro c h
  unfold eccDemo
  have okp : ∀ {a : AssignedPointWithCurvature n}, OkK h a → OkP h a.to_point := fun k => ⟨k.x, k.y, k.z⟩
  refine C.bind (C_assign_point hi hd hbb hbe hP) fun g hg =>
    C.bind (C_to_point_with_curvature hi hd hb hg.1 fun hH => hH.2) fun gk hgk =>
    C.bind (C_ecc_double hi hd hb ho hgk.1 fun hH => hH.2) fun d hdd =>
    C.bind (C_ecc_add hi hd hb hgk.1 hg.1 fun hH => ⟨hH.1.2, hH.1.1.2⟩) fun s hs =>
    C.bind (C_ecc_assert_equal hi hs hdd fun hH => ⟨hH.2, hH.1.2⟩) fun _ _ =>
    C.bind (C_ecc_neg hi hg.1 fun hH => hH.1.1.1.1.2) fun ng hng =>
    C.bind (C_ecc_add hi hd hb hgk.1 hng fun hH => ⟨hH.1.1.1.1.2, hH.2⟩) fun z hz =>
    C.bind (C_assign_identity (b := b) hi) fun i hi' => ?_
  rw [add_neg_cancel] at hz
  exact C.bind (C_ecc_assert_equal hi hz hi'.1.1 fun hH => ⟨hH.1.2, okp hH.2⟩) fun _ _ =>
    C.pure hs fun hH => hH.1.1.1.1.1.2

/-- Non-vacuity of C21-C23: the demonstration circuit for bn256 points over the bn256 scalar field is accepted,
and its result stands for `2G`. -/
theorem eccDemo_accepted : ∃ info : RangeInfo bnR, RangeInfo.new bnQ bnR 18 6 = .ok info ∧
    ∃ G : Pt (3 : ZMod bnQ), HasCoords G 1 2 ∧
    Accepted (eccDemo info 3 bnR (some (1, 2))) (fun r => HPRep info r (G + G)) := by
  obtain ⟨info, hs⟩ := Setup.of_summary summary_bnQ
  have hd : info.d_bits % 108 ≠ 0 := by
    have := hs.summary
    simp only [List.cons.injEq] at this
    omega
  obtain ⟨G, hG⟩ := bn_generator
  exact ⟨info, hs.new, G, by simpa using hG, Accepted.of_C (eccDemo_complete hs.new hd good_bn 3 (by decide +kernel)
    (by norm_num) bnR (by decide +kernel) _ G (.inr ⟨1, 2, rfl, by decide +kernel, by decide +kernel, hG⟩))⟩

/-- Non-vacuity of C24 and C25: `G + 2G` by incomplete operations is accepted; and the concrete witness against
C25: adding `G` to itself panics on the empty context. -/
theorem C25_violated_witness : ∃ info : RangeInfo bnR, RangeInfo.new bnQ bnR 18 6 = .ok info ∧
    (do let g ← assign_non_zero_point info 3 (some (1, 2))
        ecc_add_unsafe info g g : M bnR _) (Context.new bnR) = .error .assertion ∧
    ∃ G : Pt (3 : ZMod bnQ), HasCoords G 1 2 ∧
    Accepted (do
        let g ← assign_non_zero_point info 3 (some (1, 2))
        tryB (ecc_double_unsafe info g) fun d => ecc_add_unsafe info g d)
      (fun r => ∃ p, r = .ok p ∧ HNRep info p (G + (G + G))) := by
  obtain ⟨info, hs⟩ := Setup.of_summary summary_bnQ
  have hd : info.d_bits % 108 ≠ 0 := by
    have := hs.summary
    simp only [List.cons.injEq] at this
    omega
  obtain ⟨G, hG⟩ := bn_generator
  have b3 : ((3 : ℕ) : ZMod bnQ) = 3 := by norm_num
  refine ⟨info, hs.new, ?_, G, by simpa using hG, ?_⟩
  · obtain ⟨g, t, e, f, -, hg, -⟩ := C_assign_non_zero_point (c := ⟨0, fun _ _ => 0, fun _ _ => 0, fun _ _ => 0, []⟩)
      (h := fun _ => 0) (H := True) hs.new hd (by decide +kernel) b3 (by decide +kernel) (by decide +kernel) hG
      (Context.new bnR) Context.new_fresh
    rw [run_bind, e]
    exact C25_violated hs.new hd g g G G hg.1 hg.1 (.inl rfl) t f
  · have hd2 := hG.double good_bn (l := 3 * 1 ^ 2 / (2 * 2)) (by decide +kernel) (by norm_num)
    have ne0 : G + G ≠ 0 := hd2.ne_zero
    refine Accepted.of_C (Q := fun h r => ∀ p, r = .ok p → OkN h p) fun c h =>
      C.bind (C_assign_non_zero_point hs.new hd (by decide +kernel) b3 (by decide +kernel) (by decide +kernel) hG)
      fun g hg => C.bind (C_ecc_double_unsafe hs.new hd good_bn hg.1 ne0 fun hH => hH.2) fun r hr => ?_
    obtain ⟨p, rfl, hp⟩ := hr
    refine C_ecc_add_unsafe hs.new hd hg.1 hp ?_ ?_ fun hH => ⟨hH.1.2, hH.2 p rfl⟩
    · intro e
      exact hG.ne_zero (by simpa using e.symm)
    · intro e
      have e' : G + G = -G := by rw [eq_comm, neg_eq_iff_eq_neg]; exact e
      have := hd2.unique (e' ▸ hG.neg)
      revert this
      decide +kernel

end Verif
