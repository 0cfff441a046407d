import Verif.Props.Integer
import Verif.Props.Params
import Verif.Props.ScalarForge

/-!
# Limits of the integer chip

* C50: set-up accepts moduli for which honest multiplications are rejected.
* C51: the result of a multiplication by the small constant 0 cannot be negated or subtracted.
* C52: the quotient of a division by zero is not determined.
-/

namespace Verif
variable {n wm : ℕ} {info : RangeInfo n}

/-! ## C50 -/

/-- In every satisfying assignment the operands of a multiplication are limited by the bits of the quotient `d` that are
range checked. When `d_bits` is a multiple of 108, its leading limb has 0 bits. -/
theorem C50_mul_operands [Fact n.Prime] (h : RangeInfo.new wm n 18 6 = .ok info) (a b : AssignedInteger n) :
    Sound (int_mul info a b) (fun w _ => ∀ x y, Rep wm info w a x → Rep wm info w b y →
      V (cv w) a * V (cv w) b < 2 ^ (108 * (info.limbs - 1) + info.d_bits % 108) * wm + 2 ^ info.w_ceil_bits) := by
  intro c w hw
  have hv := RangeInfo.new_valid h
  unfold int_mul
  refine S.bind (S_get_w_bn hv _) fun abn => S.bind (S_get_w_bn hv _) fun bbn =>
    S.bind (S_div_rem _ _) fun dr => S.bind (S_assign_w hv hw _) fun rem => S.bind (S_assign_d_exact hv hw _) fun d => ?_
  refine S.bind (S_mul_limbs hv hw a b rem d.1) fun _ => S.bind (S_mul_native hv hw a b rem d.2) fun _ => S.pure ?_
  rintro h2 h1 ⟨d1, d2, d3, d4⟩ ⟨hr, ht⟩ - - - x y ha hb
  have d3' := d3.trans_le (Nat.pow_le_pow_right (by norm_num) hv.d_bits_le.1)
  rw [mul_eq_of hv ha.wf hb.wf hr ht d3' d4 (h1 ha.wf hb.wf hr d1 d2).2 h2]
  have := hr.val
  rw [ht, Nat.one_mul] at this
  exact Nat.add_lt_add_of_le_of_lt (Nat.mul_le_mul_right _ d3.le) this

/-- A prime of 311 bits. -/
def w311 : ℕ := 1023 * 2 ^ 301 + 1

theorem w311_prime : w311.Prime :=
  prime_of_cert 7 ([3, 11, 31] ++ List.replicate 301 2) (by
    intro q hq
    rcases List.mem_append.1 hq with hq | hq
    · simp only [List.mem_cons, List.not_mem_nil, or_false] at hq
      rcases hq with rfl | rfl | rfl <;> norm_num
    · rw [List.eq_of_mem_replicate hq]; norm_num) (by decide +kernel)

theorem summary_w311 : setupSummary (RangeInfo.new w311 bnR 18 6) = some [3, 311, 324, 253, 1, 1, 4] := by decide +kernel

/-- **C50 fails.** For the prime `w311` set-up succeeds, but the circuit of a program that squares the constant `-1` is not
satisfiable; in particular the witness of the honest prover is rejected. -/
theorem C50_violated : w311.Prime ∧ ∃ info : RangeInfo bnR, RangeInfo.new w311 bnR 18 6 = .ok info ∧
    ∀ r t, (assign_int_constant info (w311 - 1) >>= fun a => int_mul info a a) (.new bnR) = .ok (r, t) →
      ∀ usable, t.Fits usable → ∀ w, ¬ (t.circuit usable).Sat w := by
  obtain ⟨info, hs⟩ := Setup.of_summary summary_w311
  refine ⟨w311_prime, info, hs.new, fun r t hrun usable hf w hw => ?_⟩
  have h := hs.new
  have hsum := hs.summary
  simp only [List.cons.injEq] at hsum
  have : Sound (assign_int_constant info (w311 - 1) >>= fun a => int_mul info a a) (fun _ _ => False) := by
    intro c w hw
    refine S.bind (C17_constant_sound h (w311 - 1) (by decide +kernel) c w hw) fun a =>
      (C50_mul_operands h a a c w hw).mono fun r hr ⟨ha, _, hv⟩ => ?_
    have := hr _ _ ha ha
    rw [hv, ← hsum.1, ← hsum.2.1, ← hsum.2.2.1] at this
    exact absurd this (by decide +kernel)
  exact S.run this Context.new_fresh hrun hf hw

/-- C50 for the moduli whose quotient has a leading limb of at least one bit, as for the supported ones. -/
theorem C50_partial (h : RangeInfo.new wm n 18 6 = .ok info) (hd : info.d_bits % 108 ≠ 0) (a b : AssignedInteger n)
    (x y : ZMod wm) (ha : HRep wm info a x) (hb : HRep wm info b y) :
    Complete (int_mul info a b) (fun h => OkI h a ∧ OkI h b) (fun r => HRep wm info r (x * y)) OkI :=
  fun c w => ((C14_mul_complete h hd a b x y ha hb) c w).mono (fun _ hr => hr.1) fun _ _ _ q => q

/-- The hypothesis of `C50_partial` holds of the supported pairs. -/
theorem C50_supported : ∀ w ∈ [bnQ, blsR, blsQ], ∃ info : RangeInfo bnR, RangeInfo.new w bnR 18 6 = .ok info ∧
    info.d_bits % 108 ≠ 0 := by
  have key : ∀ {w l}, setupSummary (RangeInfo.new w bnR 18 6) = some l → (l[2]?.getD 0) % 108 ≠ 0 →
      ∃ info : RangeInfo bnR, RangeInfo.new w bnR 18 6 = .ok info ∧ info.d_bits % 108 ≠ 0 := by
    intro w l hl h2
    obtain ⟨info, hs⟩ := Setup.of_summary hl
    refine ⟨info, hs.new, ?_⟩
    rw [hs.summary] at h2
    exact h2
  intro w hw
  simp only [List.mem_cons, List.not_mem_nil, or_false] at hw
  rcases hw with rfl | rfl | rfl
  · exact key summary_bnQ (by decide)
  · exact key summary_blsR (by decide)
  · exact key summary_blsQ (by decide)

/-! ## C51 -/

/-- The counter of the result is 0. -/
theorem C_small_zero (h : RangeInfo.new wm n 18 6 = .ok info) {a : AssignedInteger n} {x : ZMod wm} (ha : HRep wm info a x)
    {c : Circuit n} {w : Advice n} {H : Prop} (hok : H → OkI w a) :
    C c w H (int_mul_small_constant info a 0) (fun r => r.times = 0) (fun _ => True) := by
  have hv := RangeInfo.new_valid h
  unfold int_mul_small_constant
  rw [hv.overflow_bits, hv.overflow_limit, Nat.mul_zero, if_neg (by norm_num)]
  refine C.bind_rassert (by decide) ?_
  refine C.bind_fits_u64 (by norm_num) ?_
  rw [pure_bind]
  refine C.bind (C.mapM_range (P := fun _ _ => True) (Q := fun _ x => Ok w x) fun i hi => ?_) fun limbs hl => ?_
  · refine C_index_limb ha.honest.wf.len hi fun ai hai => ?_
    refine (C_sum _ _ (by simp) fun hH e he => ?_).mono (fun r hr => trivial) fun _ _ _ q => q
    simp only [List.mem_cons, List.not_mem_nil, or_false] at he
    rcases he with rfl
    exact (hok hH).limb _ (List.mem_of_getElem? hai)
  · refine C.bind_fits_u64 (by norm_num) ?_
    refine C.bind (C_native_of hv hl.1 fun hH => ?_) fun nat _ => ?_
    · intro y hy
      obtain ⟨i, hi⟩ := List.mem_iff_getElem?.1 hy
      exact hH.2 i y hi
    · unfold conditionally_reduce
      rw [if_neg (by simp)]
      exact C.pure rfl fun _ => trivial

theorem table_zero (h : RangeInfo.new wm n 18 6 = .ok info) {a : AssignedInteger n} (ha : a.times = 0) (s : Context n) :
    int_neg info a s = .error .unwrapNone ∧ ∀ b, int_sub info b a s = .error .unwrapNone := by
  have h0 := (RangeInfo.new_valid h).table_zero
  unfold int_neg int_sub
  rw [ha]
  unfold index
  rw [h0]
  exact ⟨rfl, fun _ => rfl⟩

/-- **C51 fails.** Whatever the set-up and the assigned value, negating its product with the constant 0 panics, and so
does subtracting that product from anything. -/
theorem C51_violated (h : RangeInfo.new wm n 18 6 = .ok info) (x : ℕ) (hx : x < wm) :
    (assign_w info x >>= fun a => int_mul_small_constant info a 0 >>= fun r => int_neg info r) (.new n) = .error .unwrapNone ∧
    (assign_w info x >>= fun a => int_mul_small_constant info a 0 >>= fun r => int_sub info a r) (.new n) =
      .error .unwrapNone := by
  have key : ∀ k : AssignedInteger n → AssignedInteger n → M n (AssignedInteger n),
      (∀ a r s, r.times = 0 → k a r s = .error .unwrapNone) →
      (assign_w info x >>= fun a => int_mul_small_constant info a 0 >>= fun r => k a r) (.new n) = .error .unwrapNone := by
    intro k hk
    obtain ⟨ar, t, e, -, hr, -⟩ := C.run_new (m := (assign_w info x >>= fun a => int_mul_small_constant info a 0 >>= fun r =>
      pure (a, r) : M n (AssignedInteger n × AssignedInteger n))) (P := fun ar => ar.2.times = 0) (Q := fun _ _ => True) fun c w =>
      C.bind (C11_assign_w_complete h x hx c w) fun a ha => C.bind (C_small_zero h ha.1 fun hH => hH.2) fun r hr =>
        C.pure hr fun _ => trivial
    obtain ⟨a, u, e1, e⟩ := run_bind_ok.1 e
    obtain ⟨r, v, e2, e⟩ := run_bind_ok.1 e
    cases e
    rw [run_bind, e1]
    dsimp only
    rw [run_bind, e2]
    exact hk a r _ hr
  exact ⟨key _ fun a r s hr => (table_zero h hr s).1, key _ fun a r s hr => (table_zero h hr s).2 a⟩

/-- C51 for constants from 1 to 15. -/
theorem C51_partial (h : RangeInfo.new wm n 18 6 = .ok info) (a : AssignedInteger n) (k : ℕ)
    (hk : 1 ≤ k) (hk' : k < 16) (x : ZMod wm) (ha : HRep wm info a x) :
    Complete (int_mul_small_constant info a k >>= fun r => int_neg info r) (fun h => OkI h a)
      (fun r => HRep wm info r (-(x * k))) OkI :=
  fun c w => C.bind (C12_small_mul_complete h a k hk hk' x ha c w) fun r hr =>
    ((C12_neg_complete h r (x * k) hr.1 (by omega) c w).weaken fun hH => hH.2).mono (fun _ hr => hr.1) fun _ _ _ q => q

/-! ## C52 -/

/-- `int_div` with `v` instead of 0 for the quotient by zero. -/
def forge_div (info : RangeInfo n) (v : ℕ) (a b : AssignedInteger n) : M n (AssignedCondition n × AssignedInteger n) := do
  let b ← reduce info b
  let is_b_zero ← is_int_zero info b
  let a_coeff ← not is_b_zero
  let a ← reduce info a
  let limbs_le ← (List.range info.limbs).mapM fun i => do
    let ai ← index a.limbs_le i
    mul ai a_coeff
  let native ← mul a.native a_coeff
  let a : AssignedInteger n := ⟨limbs_le, native, a.times⟩
  let a_bn ← get_w_bn info a
  let b_bn ← get_w_bn info b
  let (d_bn, _) ← div_rem (← usub (b_bn * v) a_bn) info.w_modulus
  let c ← assign_w info v
  let d ← assign_d info d_bn
  add_constraints_for_mul_equation_on_limbs info b c d.1 a
  add_constraints_for_mul_equation_on_native info b c d.2 a
  pure (is_b_zero, c)

theorem rel_forge_div {st : Prop} (info : RangeInfo n) (v : ℕ) {a a' : AssignedInteger n} (h_a : sh st a a')
    {b b' : AssignedInteger n} (h_b : sh st b b') : Runs2 st (int_div info a b) (forge_div info v a' b') (sh st) := by
  unfold int_div forge_div; rel

theorem C_forge_div [Fact n.Prime] [Fact wm.Prime] (hv : info.Valid wm) (hdb : info.d_bits % 108 ≠ 0) {v : ℕ} (hq : v < wm)
    {c : Circuit n} {h : Advice n} {H : Prop}
    {a b : AssignedInteger n} (ha : Honest wm info a) (hb : HRep wm info b 0) (hok : H → OkI h a ∧ OkI h b) :
    C c h H (forge_div info v a b) (fun r => r.1.val = 1 ∧ HRep wm info r.2 v)
      (fun r => Ok h r.1 ∧ OkI h r.2) := by
  have hwm := hv.w_modulus
  subst hwm
  have hw0 := hv.w_pos
  have hne : NeZero info.w_modulus := ⟨by omega⟩
  have h01 : (0 : ZMod n) ≠ 1 := zero_ne_one
  unfold forge_div
  refine C.bind (C_reduce hv hb.honest fun hH => (hok hH).2) fun b' hb' => ?_
  obtain ⟨hb1, hb2, hb3⟩ := hb'
  have hb0 : V AssignedValue.val b' = 0 := by
    rw [hb3]
    exact Nat.mod_eq_zero_of_dvd ((ZMod.natCast_eq_zero_iff _ _).1 hb.eq)
  refine C.bind (C_is_int_zero hv hb1 fun hH => hH.2) fun z hz => C.bind (C_not fun hH => hH.2) fun co hco => ?_
  rw [hb0, Nat.cast_zero, if_pos rfl] at hz
  refine C.bind (C_reduce hv ha fun hH => (hok hH.1.1.1).1) fun a' ha' => ?_
  obtain ⟨ha1, ha2, ha3⟩ := ha'
  refine C.bind (C.mapM_range (P := fun i y => ∀ x, a'.limbs_le[i]? = some x → y.val = x.val * co.val)
    (Q := fun _ x => Ok h x) fun i hi => ?_) fun limbs hlimbs => ?_
  · refine C_index_limb ha1.wf.len hi fun ai hai => (C_mul fun hH =>
      ⟨hH.2.limb _ (List.mem_of_getElem? hai), hH.1.2⟩).mono (fun y hy x hx => ?_) fun _ _ _ q => q
    rw [hai] at hx
    cases hx
    exact hy
  refine C.bind (C_mul fun hH => ⟨hH.1.2.native, hH.1.1.2⟩) fun nat hnat => ?_
  have hbit : co.val = 0 := by rw [hco, hz]; simp
  obtain ⟨hm, hmv⟩ := masked hv (f := AssignedValue.val) (x := co.val) ha1.wf (by rw [hbit]; simp)
    hlimbs.1 (fun i hi => hlimbs.2 i hi) hnat
  rw [hbit, if_neg h01] at hmv
  refine C.bind (C_get_w_bn hv hm.len) ?_
  rintro _ rfl
  refine C.bind (C_get_w_bn hv hb1.wf.len) ?_
  rintro _ rfl
  set am : AssignedInteger n := ⟨limbs, nat, a'.times⟩ with ham
  refine C_bind_usub (by rw [hb0, hmv]; omega) (C_bind_div_rem (by omega) ?_)
  rw [hb0, hmv, Nat.zero_mul, Nat.zero_sub, Nat.zero_div]
  refine C.bind (C_assign_w hv hq) fun qa hqa => ?_
  obtain ⟨hq1, hq2, hq3, -⟩ := hqa
  refine C.bind (C_assign_d hv hdb (x := 0) (by positivity)) fun d hd => ?_
  obtain ⟨hd1, hd2, hd3, hd4⟩ := hd
  have okm : ((((((((((H ∧ OkI h b') ∧ Ok h z) ∧ Ok h co) ∧ OkI h a') ∧ ∀ (i : ℕ) x, limbs[i]? = some x → Ok h x)
      ∧ Ok h nat) ∧ True) ∧ True) ∧ OkI h qa) ∧ ((∀ y ∈ d.1, Ok h y) ∧ Ok h d.2)) → OkI h am := by
    intro hH
    refine ⟨fun x hx => ?_, hH.1.1.1.1.2⟩
    obtain ⟨i, hi⟩ := List.mem_iff_getElem?.1 hx
    exact hH.1.1.1.1.1.2 i x hi
  have heq : V AssignedValue.val b' * V AssignedValue.val qa
      = VL AssignedValue.val d.1 * info.w_modulus + V AssignedValue.val am := by rw [hd2, hb0, hmv]; simp
  refine C.bind (C_mul_limbs hv hb1.wf hq1.wf hm ha2 hd1 (limbs_d_lt hd1 hd4) heq fun hH =>
    ⟨hH.1.1.1.1.1.1.1.1.1.2, hH.1.2, okm hH, hH.2.1⟩) fun _ _ => ?_
  refine C.bind (C_mul_native hv ?_ fun hH => ⟨hH.1.1.1.1.1.1.1.1.1.1.2.native, hH.1.1.2.native,
    hH.1.2.2, (okm hH.1).native⟩) fun _ _ => C.pure ⟨hz, hq1, by rw [hq3]⟩ fun hH =>
      ⟨hH.1.1.1.1.1.1.1.1.1.1.2, hH.1.1.1.2⟩
  rw [hb1.wf.native, hq1.wf.native, hm.native, hd3, ← hd2]
  exact_mod_cast congrArg (Nat.cast : ℕ → ZMod n) heq

/-- A circuit that assigns two integers and divides. -/
def divDemo (info : RangeInfo n) (x y : ℕ) : M n (AssignedInteger n × AssignedInteger n × AssignedCondition n × AssignedInteger n) := do
  let a ← assign_w info x
  let b ← assign_w info y
  let r ← int_div info a b
  pure (a, b, r)

/-- **C52 fails.** In the circuit that divides an assigned `x` by an assigned 0, every `v` is accepted as the quotient.
The honest prover uses 0. -/
theorem C52_violated [Fact n.Prime] [Fact wm.Prime] (h : RangeInfo.new wm n 18 6 = .ok info) (hd : info.d_bits % 108 ≠ 0)
    (x : ℕ) (hx : x < wm) : ∃ a b z q t, divDemo info x 0 (.new n) = .ok ((a, b, z, q), t) ∧ ∀ v : ZMod wm, ∃ w, ∀ usable, t.Fits usable →
      (t.circuit usable).Sat w ∧ Rep wm info w a x ∧ Rep wm info w b 0 ∧ Rep wm info w q v := by
  have hv := RangeInfo.new_valid h
  have h0 : 0 < wm := by omega
  have ha : ∀ {c : Circuit n} {w : Advice n} {H : Prop} {y : ℕ}, y < wm →
      C c w H (assign_w info y) (fun r => HRep wm info r y) (fun r => OkI w r) := fun hy =>
    ((C11_assign_w_complete h _ hy _ _).weaken fun _ => trivial).mono (fun _ hr => hr.1) fun _ _ _ q => q
  obtain ⟨⟨a, b, z, q⟩, t, hrun, -⟩ := C.run_new (m := divDemo info x 0) (P := fun _ => True) (Q := fun _ _ => True) fun c w =>
    C.bind (ha hx) fun a ha' => C.bind (ha h0) fun b hb' =>
      C.bind (C15_div_complete h hd a b _ _ ha' hb' c w |>.weaken fun hH => ⟨hH.1.2, hH.2⟩) fun r _ =>
        C.pure trivial fun _ => trivial
  refine ⟨a, b, z, q, t, hrun, fun v => ?_⟩
  obtain ⟨⟨a', b', z', q'⟩, w, hsh, ⟨k1, k2, k3⟩, hw⟩ := forge (m' := do
      let a ← assign_w info x
      let b ← assign_w info 0
      let r ← forge_div info v.val a b
      pure (a, b, r))
    (by
      unfold divDemo
      exact (rel_assign_w info _ _).bind fun _ _ h1 => (rel_assign_w info _ _).bind fun _ _ h2 =>
        (rel_forge_div info _ h1 h2).bind fun _ _ h3 => Runs2.pure (sh_pair h1 (sh_pair h2 h3))) hrun
    (P := fun r => HRep wm info r.1 x ∧ HRep wm info r.2.1 0 ∧ HRep wm info r.2.2.2 v)
    (Q := fun w r => OkI w r.1 ∧ OkI w r.2.1 ∧ OkI w r.2.2.2) (fun c w => by
      refine C.bind (ha hx) fun a ha' => C.bind (ha h0) fun b hb' => ?_
      rw [Nat.cast_zero] at hb'
      refine C.bind (C_forge_div hv hd (ZMod.val_lt v) ha'.honest hb' fun hH => ⟨hH.1.2, hH.2⟩) fun r hr => ?_
      refine C.pure ⟨ha', hb', ?_⟩ fun hH => ⟨hH.1.1.2, hH.1.2, hH.2.2⟩
      have := hr.2
      rwa [ZMod.natCast_zmod_val] at this)
  refine ⟨w, fun usable hu => ?_⟩
  obtain ⟨s1, s2, s3, s4⟩ := hw usable hu
  exact ⟨s1, k1.rep_of_shape hsh.1 s2, k2.rep_of_shape hsh.2.1 s3, k3.rep_of_shape hsh.2.2.2 s4⟩

/-- C52 for divisors other than 0. -/
theorem C52_partial [Fact n.Prime] [Fact wm.Prime] (h : RangeInfo.new wm n 18 6 = .ok info)
    (a b : AssignedInteger n) : Sound (int_div info a b) (fun w r => ∀ x y, Rep wm info w a x → Rep wm info w b y → y ≠ 0 →
      ∀ q, Rep wm info w r.2 q ↔ q = x / y) :=
  fun c w hw => (C15_div_sound h a b c w hw).mono fun r hr x y ha hb hy q => by
    have := ((hr x y ha hb).2.1 hy).2
    exact ⟨fun hq => hq.eq.symm.trans this.eq, fun e => e ▸ this⟩

/-- The hypotheses are met: bn256 in its scalar field, `1 / 0 = 5`. -/
example : ∃ info : RangeInfo bnR, ∃ a b z q t, divDemo info 1 0 (.new bnR) = .ok ((a, b, z, q), t) ∧
    ∃ w, ∀ usable, t.Fits usable → (t.circuit usable).Sat w ∧ Rep bnQ info w a (1 : ℕ) ∧ Rep bnQ info w b 0 ∧ Rep bnQ info w q 5 := by
  obtain ⟨info, h, hd⟩ := C50_supported bnQ (by simp)
  obtain ⟨a, b, z, q, t, h1, h2⟩ := C52_violated h hd 1 (by decide +kernel)
  exact ⟨info, a, b, z, q, t, h1, h2 5⟩

end Verif
