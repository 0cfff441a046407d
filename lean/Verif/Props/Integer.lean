import Verif.Props.Params
import Verif.Proof.IntDiv

/-!
# C08, C09, C11 - C17: the range chip and the integer chip

`wm` is the foreign modulus, `n` the (prime) native modulus; `info` is any parameter set accepted by
`RangeInfo.new`. In the soundness theorems the operands are any integers that are well formed under the advice
assignment under consideration (`Rep`); the quotients, remainders and carries are whatever the prover put
there.
-/

namespace Verif
variable {n wm : ℕ} {info : RangeInfo n}

/-! ## C08, C09 -/

/-- C08: a cell returned by a range assignment of `bits` bits holds a number below `2 ^ bits`, whatever
decomposition `v` was passed. (`assign_range` panics for the widths that are not supported.) -/
theorem C08_range_sound [Fact n.Prime] (hn : 2 ^ 108 < n) (v : ZMod n × List (ZMod n)) (bits : ℕ) :
    Sound (assign_range v bits) (fun w r => (w r.cell).val < 2 ^ bits) := by
  intro c w hw
  by_cases hb : bits ≤ 108
  · refine (S_assign_range (by omega) hw v bits).mono ?_
    rintro r ⟨x, hx, e⟩
    show (w r.cell).val < 2 ^ bits
    rw [e, ZMod.val_natCast, Nat.mod_eq_of_lt]
    · exact hx
    · exact hx.trans_le ((Nat.pow_le_pow_right (by norm_num) hb).trans hn.le)
  · intro s a t hs hm
    exfalso
    rcases assign_range_run hs v bits with ⟨-, p, hp⟩ | ⟨t', -, hc⟩
    · rw [hp] at hm; cases hm
    · rcases hc with ⟨hb, -⟩ | ⟨-, hb, -⟩ | ⟨-, hb, -⟩ <;> omega

/-- The supported widths. -/
theorem C08_supported (bits : ℕ) (v : ZMod n × List (ZMod n)) (s a t) (hs : s.Fresh)
    (h : assign_range v bits s = .ok (a, t)) : bits ≤ 18 ∨ 36 ≤ bits ∧ bits ≤ 108 := by
  rcases assign_range_run hs v bits with ⟨-, p, hp⟩ | ⟨t', -, hc⟩
  · rw [hp] at h; cases h
  · rcases hc with ⟨hb, -⟩ | ⟨hb, hb', -⟩ | ⟨hb, hb', -⟩ <;> omega

theorem C08_common_sound [Fact n.Prime] (hn : 2 ^ 108 < n) (x : ℕ) :
    Sound (assign_common (n := n) x) (fun w r => (w r.cell).val < 2 ^ 18) := by
  intro c w hw
  refine (S_assign_common (by omega) hw x).mono ?_
  rintro r ⟨x, hx, e⟩
  show (w r.cell).val < 2 ^ 18
  rw [e, ZMod.val_natCast, Nat.mod_eq_of_lt (hx.trans ((by norm_num : 2 ^ 18 < 2 ^ 108).trans hn))]
  exact hx

/-- C09: every value below the bound of its limb kind is accepted. -/
theorem C09_complete (h : RangeInfo.new wm n 18 6 = .ok info) (x : ℕ) :
    (x < 2 ^ 18 → Complete (assign_common (n := n) x) (fun _ => True) (fun r => r.val = x) Ok) ∧
    (x < 2 ^ 108 → Complete (assign_nonleading_limb info x) (fun _ => True) (fun r => r.val = x) Ok) ∧
    (x < 2 ^ (info.w_ceil_bits % 108) →
      Complete (assign_w_ceil_leading_limb info x) (fun _ => True) (fun r => r.val = x) Ok) ∧
    (info.d_bits % 108 ≠ 0 → x < 2 ^ (info.d_bits % 108) →
      Complete (assign_d_leading_limb info x) (fun _ => True) (fun r => r.val = x) Ok) :=
  have hv := RangeInfo.new_valid h
  ⟨fun hx _ _ => C_assign_common hx, fun hx _ _ => C_nonleading hv hx, fun hx _ _ => C_lead hv hx,
    fun hd hx _ _ => C_d_lead hv hd hx⟩

/-- C09 for every supported width, not only those of the limb kinds. -/
theorem C09_range_complete (x d bits : ℕ) (hb : bits ≤ 18 ∨ 36 ≤ bits ∧ bits ≤ 108) (hd : bits ≤ d * 18)
    (hd1 : 1 ≤ d) (hx : x < 2 ^ bits) :
    Complete (assign_range (decompose_bn n x d (2 ^ 18 - 1)) bits) (fun _ => True) (fun r => r.val = (x : ZMod n))
      Ok := fun _ _ => C_assign_range hb hd hd1 hx

/-- Non-vacuity: the largest 108-bit limb is accepted. -/
example : Accepted (n := bnR) (assign_range (decompose_bn bnR (2 ^ 108 - 1) 6 (2 ^ 18 - 1)) 108)
    (fun r => r.val = ((2 ^ 108 - 1 : ℕ) : ZMod bnR)) :=
  Accepted.of_C (Q := Ok) fun _ _ => C_assign_range (.inr ⟨by norm_num, by norm_num⟩) (by norm_num) (by norm_num)
    (by norm_num)

/-! ## C11 -/

theorem C11_assign_w_sound [Fact n.Prime] (h : RangeInfo.new wm n 18 6 = .ok info) (x : ℕ) :
    Sound (assign_w info x) (fun w a => WF info (cv w) a ∧ a.times = 1 ∧
      (∀ i, limbAt (cv w) a.limbs_le i < 2 ^ 108) ∧ V (cv w) a < 2 ^ info.w_ceil_bits ∧
      w a.native.cell = (V (cv w) a : ZMod n)) :=
  fun _ _ hw => (S_assign_w (RangeInfo.new_valid h) hw x).mono fun a ⟨ha, ht⟩ =>
    ⟨ha, ht, fun i => by have := ha.limb i; rwa [ht, one_mul] at this,
      by have := ha.val; rwa [ht, one_mul] at this, ha.native⟩

theorem C11_assign_w_complete (h : RangeInfo.new wm n 18 6 = .ok info) (x : ℕ) (hx : x < wm) :
    Complete (assign_w info x) (fun _ => True)
      (fun a => HRep wm info a x ∧ a.times = 1 ∧ V AssignedValue.val a = x) OkI :=
  fun _ _ => (C_assign_w (RangeInfo.new_valid h) hx).mono
    (fun a ha => ⟨⟨ha.1, by rw [ha.2.2.1]⟩, ha.2.1, ha.2.2.1⟩) fun _ _ _ q => q

/-! ## C12 -/

theorem C12_add_sound [Fact n.Prime] (h : RangeInfo.new wm n 18 6 = .ok info) (a b : AssignedInteger n) :
    Sound (int_add info a b) (fun w r => ∀ x y, Rep wm info w a x → Rep wm info w b y →
      Rep wm info w r (x + y) ∧ r.times ≤ 16) :=
  fun _ _ hw => (S_int_add (RangeInfo.new_valid h) hw a b).mono fun r hr x y ha hb =>
    let ⟨h1, h2, h3⟩ := hr ha.wf hb.wf
    ⟨⟨h1, by rw [h3, ha.eq, hb.eq]⟩, h2⟩

theorem C12_add_complete (h : RangeInfo.new wm n 18 6 = .ok info) (a b : AssignedInteger n) (x y : ZMod wm)
    (ha : HRep wm info a x) (hb : HRep wm info b y) (ht : a.times + b.times < 64) :
    Complete (int_add info a b) (fun h => OkI h a ∧ OkI h b)
      (fun r => HRep wm info r (x + y) ∧ r.times ≤ 16) OkI :=
  fun _ _ => (C_int_add (RangeInfo.new_valid h) ha.honest hb.honest ht fun h => h).mono
    (fun r hr => ⟨⟨hr.1, by rw [hr.2.2, ha.eq, hb.eq]⟩, hr.2.1⟩) fun _ _ _ q => q

theorem C12_sub_sound [Fact n.Prime] (h : RangeInfo.new wm n 18 6 = .ok info) (a b : AssignedInteger n) :
    Sound (int_sub info a b) (fun w r => ∀ x y, Rep wm info w a x → Rep wm info w b y →
      Rep wm info w r (x - y) ∧ r.times ≤ 16) :=
  fun _ _ hw => (S_int_sub (RangeInfo.new_valid h) hw a b).mono fun r hr x y ha hb =>
    let ⟨h1, h2, h3⟩ := hr ha.wf hb.wf
    ⟨⟨h1, by rw [h3, ha.eq, hb.eq]⟩, h2⟩

theorem C12_sub_complete (h : RangeInfo.new wm n 18 6 = .ok info) (a b : AssignedInteger n) (x y : ZMod wm)
    (ha : HRep wm info a x) (hb : HRep wm info b y) (ht : a.times + b.times + 1 < 64) :
    Complete (int_sub info a b) (fun h => OkI h a ∧ OkI h b)
      (fun r => HRep wm info r (x - y) ∧ r.times ≤ 16) OkI :=
  fun _ _ => (C_int_sub (RangeInfo.new_valid h) ha.honest hb.honest ht fun h => h).mono
    (fun r hr => ⟨⟨hr.1, by rw [hr.2.2, ha.eq, hb.eq]⟩, hr.2.1⟩) fun _ _ _ q => q

theorem C12_neg_sound [Fact n.Prime] (h : RangeInfo.new wm n 18 6 = .ok info) (a : AssignedInteger n) :
    Sound (int_neg info a) (fun w r => ∀ x, Rep wm info w a x → Rep wm info w r (-x) ∧ r.times ≤ 16) :=
  fun _ _ hw => (S_int_neg (RangeInfo.new_valid h) hw a).mono fun r hr x ha =>
    let ⟨h1, h2, h3⟩ := hr ha.wf
    ⟨⟨h1, by rw [h3, ha.eq]⟩, h2⟩

theorem C12_neg_complete (h : RangeInfo.new wm n 18 6 = .ok info) (a : AssignedInteger n) (x : ZMod wm)
    (ha : HRep wm info a x) (ht : a.times + 1 < 64) :
    Complete (int_neg info a) (fun h => OkI h a) (fun r => HRep wm info r (-x) ∧ r.times ≤ 16) OkI :=
  fun _ _ => (C_int_neg (RangeInfo.new_valid h) ha.honest ht fun h => h).mono
    (fun r hr => ⟨⟨hr.1, by rw [hr.2.2, ha.eq]⟩, hr.2.1⟩) fun _ _ _ q => q

theorem C12_small_mul_sound [Fact n.Prime] (h : RangeInfo.new wm n 18 6 = .ok info) (a : AssignedInteger n)
    (k : ℕ) (hk : 1 ≤ k) :
    Sound (int_mul_small_constant info a k) (fun w r => ∀ x, Rep wm info w a x →
      Rep wm info w r (x * k) ∧ r.times ≤ 16) :=
  fun _ _ hw => (S_int_mul_small_constant (RangeInfo.new_valid h) hw a k).mono fun r hr x ha =>
    let ⟨h1, h2, h3⟩ := hr ha.wf hk
    ⟨⟨h1, by rw [h3, ha.eq]⟩, h2⟩

theorem C12_small_mul_complete (h : RangeInfo.new wm n 18 6 = .ok info) (a : AssignedInteger n) (k : ℕ)
    (hk : 1 ≤ k) (hk' : k < 16) (x : ZMod wm) (ha : HRep wm info a x) :
    Complete (int_mul_small_constant info a k) (fun h => OkI h a)
      (fun r => HRep wm info r (x * k) ∧ r.times ≤ 16) OkI :=
  fun _ _ => (C_int_mul_small_constant (RangeInfo.new_valid h) ha.honest hk hk' fun h => h).mono
    (fun r hr => ⟨⟨hr.1, by rw [hr.2.2, ha.eq]⟩, hr.2.1⟩) fun _ _ _ q => q

/-! ## C13 -/

theorem C13_reduce_sound [Fact n.Prime] (h : RangeInfo.new wm n 18 6 = .ok info) (a : AssignedInteger n) :
    Sound (reduce info a) (fun w r => ∀ x, Rep wm info w a x → Rep wm info w r x ∧ r.times = 1) :=
  fun _ _ hw => (S_reduce (RangeInfo.new_valid h) hw a).mono fun r hr x ha =>
    let ⟨h1, h2, h3⟩ := hr ha.wf
    ⟨⟨h1, by rw [h3, ha.eq]⟩, h2⟩

theorem C13_reduce_complete (h : RangeInfo.new wm n 18 6 = .ok info) (a : AssignedInteger n) (x : ZMod wm)
    (ha : HRep wm info a x) :
    Complete (reduce info a) (fun h => OkI h a) (fun r => HRep wm info r x ∧ r.times = 1 ∧
      V AssignedValue.val r < wm) OkI :=
  fun _ _ => (C_reduce (RangeInfo.new_valid h) ha.honest fun h => h).mono
    (fun r hr => ⟨⟨hr.1, by rw [hr.2.2, ZMod.natCast_mod, ha.eq]⟩, hr.2.1, hr.1.canon hr.2.1⟩) fun _ _ _ q => q

theorem C13_conditionally_reduce_sound [Fact n.Prime] (h : RangeInfo.new wm n 18 6 = .ok info)
    (a : AssignedInteger n) :
    Sound (conditionally_reduce info a) (fun w r => ∀ x, Rep wm info w a x →
      Rep wm info w r x ∧ r.times ≤ 16) :=
  fun _ _ hw => (S_conditionally_reduce (RangeInfo.new_valid h) hw a).mono fun r hr x ha =>
    let ⟨h1, h2, h3⟩ := hr fun _ => ha.wf
    ⟨⟨h1, by rw [h3, ha.eq]⟩, h2⟩

/-! ## C14 -/

theorem C14_mul_sound [Fact n.Prime] (h : RangeInfo.new wm n 18 6 = .ok info) (a b : AssignedInteger n) :
    Sound (int_mul info a b) (fun w r => ∀ x y, Rep wm info w a x → Rep wm info w b y →
      Rep wm info w r (x * y) ∧ r.times = 1) :=
  fun _ _ hw => (S_int_mul (RangeInfo.new_valid h) hw a b).mono fun r hr x y ha hb =>
    let ⟨h1, h2, h3⟩ := hr ha.wf hb.wf
    ⟨⟨h1, by rw [h3, ha.eq, hb.eq]⟩, h2⟩

theorem C14_mul_complete (h : RangeInfo.new wm n 18 6 = .ok info) (hd : info.d_bits % 108 ≠ 0)
    (a b : AssignedInteger n) (x y : ZMod wm) (ha : HRep wm info a x) (hb : HRep wm info b y) :
    Complete (int_mul info a b) (fun h => OkI h a ∧ OkI h b)
      (fun r => HRep wm info r (x * y) ∧ r.times = 1) OkI :=
  fun _ _ => (C_int_mul (RangeInfo.new_valid h) hd ha.honest hb.honest fun h => h).mono
    (fun r hr => ⟨⟨hr.1, by rw [hr.2.2, ZMod.natCast_mod, Nat.cast_mul, ha.eq, hb.eq]⟩, hr.2.1⟩)
    fun _ _ _ q => q

theorem C14_square_sound [Fact n.Prime] (h : RangeInfo.new wm n 18 6 = .ok info) (a : AssignedInteger n) :
    Sound (int_square info a) (fun w r => ∀ x, Rep wm info w a x → Rep wm info w r (x ^ 2) ∧ r.times = 1) :=
  fun c w hw => (C14_mul_sound h a a c w hw).mono fun r hr x ha => by
    rw [sq]; exact hr x x ha ha

theorem C14_square_complete (h : RangeInfo.new wm n 18 6 = .ok info) (hd : info.d_bits % 108 ≠ 0)
    (a : AssignedInteger n) (x : ZMod wm) (ha : HRep wm info a x) :
    Complete (int_square info a) (fun h => OkI h a) (fun r => HRep wm info r (x ^ 2) ∧ r.times = 1) OkI :=
  fun c k => ((C14_mul_complete h hd a a x x ha ha c k).mono (fun r hr => by rw [sq]; exact hr)
    fun _ _ _ q => q).weaken fun h => ⟨h, h⟩

/-! ## C15 -/

theorem C15_div_sound [Fact n.Prime] [Fact wm.Prime] (h : RangeInfo.new wm n 18 6 = .ok info)
    (a b : AssignedInteger n) :
    Sound (int_div info a b) (fun w r => ∀ x y, Rep wm info w a x → Rep wm info w b y →
      (y = 0 → w r.1.cell = 1) ∧ (y ≠ 0 → w r.1.cell = 0 ∧ Rep wm info w r.2 (x / y)) ∧
      WF info (cv w) r.2 ∧ r.2.times = 1) :=
  fun _ _ hw => (S_int_div (RangeInfo.new_valid h) hw a b).mono fun r hr x y ha hb => by
    obtain ⟨h1, h2, h3, h4⟩ := hr ha.wf hb.wf
    rw [hb.eq, ha.eq] at h4
    rw [hb.eq] at h1
    refine ⟨fun hy => by rw [h1, if_pos hy], fun hy => ⟨by rw [h1, if_neg hy], h2, ?_⟩, h2, h3⟩
    rw [if_neg hy] at h4
    rw [eq_div_iff hy, ← h4, mul_comm]

theorem C15_div_complete [Fact n.Prime] [Fact wm.Prime] (h : RangeInfo.new wm n 18 6 = .ok info)
    (hd : info.d_bits % 108 ≠ 0) (a b : AssignedInteger n) (x y : ZMod wm) (ha : HRep wm info a x)
    (hb : HRep wm info b y) :
    Complete (int_div info a b) (fun h => OkI h a ∧ OkI h b) (fun r => r.1.val = (if y = 0 then 1 else 0) ∧
      HRep wm info r.2 (x / y) ∧ r.2.times = 1) (fun h r => Ok h r.1 ∧ OkI h r.2) :=
  fun _ _ => (C_int_div (RangeInfo.new_valid h) hd ha.honest hb.honest fun h => h).mono
    (fun r hr => by
      obtain ⟨h1, h2, h3, h4⟩ := hr
      rw [hb.eq] at h1
      rw [ha.eq, hb.eq] at h4
      exact ⟨h1, ⟨h2, h4⟩, h3⟩)
    fun _ _ _ q => q

theorem C15_unsafe_invert_sound [Fact n.Prime] [Fact wm.Prime] (h : RangeInfo.new wm n 18 6 = .ok info)
    (a : AssignedInteger n) :
    Sound (int_unsafe_invert info a) (fun w r => ∀ x, Rep wm info w a x →
      x ≠ 0 ∧ Rep wm info w r x⁻¹ ∧ r.times = 1) :=
  fun _ _ hw => (S_int_unsafe_invert (RangeInfo.new_valid h) hw a).mono fun r hr x ha => by
    obtain ⟨h1, h2, h3⟩ := hr ha.wf
    rw [ha.eq] at h3
    exact ⟨left_ne_zero_of_mul_eq_one h3, ⟨h1, eq_inv_of_mul_eq_one_right h3⟩, h2⟩

theorem C15_unsafe_invert_complete [Fact n.Prime] [Fact wm.Prime] (h : RangeInfo.new wm n 18 6 = .ok info)
    (hd : info.d_bits % 108 ≠ 0) (a : AssignedInteger n) (x : ZMod wm) (ha : HRep wm info a x) (hx : x ≠ 0) :
    Complete (int_unsafe_invert info a) (fun h => OkI h a)
      (fun r => HRep wm info r x⁻¹ ∧ r.times = 1) OkI :=
  fun _ _ => (C_int_unsafe_invert (RangeInfo.new_valid h) hd ha.honest (by rw [ha.eq]; exact hx) fun h => h).mono
    (fun r hr => ⟨⟨hr.1, by rw [hr.2.2, ha.eq]⟩, hr.2.1⟩) fun _ _ _ q => q

/-! ## C16 -/

theorem C16_is_int_zero_sound [Fact n.Prime] (h : RangeInfo.new wm n 18 6 = .ok info) (a : AssignedInteger n) :
    Sound (is_int_zero info a) (fun w r => ∀ x, Rep wm info w a x →
      (x = 0 → w r.cell = 1) ∧ (x ≠ 0 → w r.cell = 0)) :=
  fun _ _ hw => (S_is_int_zero (RangeInfo.new_valid h) hw a).mono fun r hr x ha => by
    have := hr ha.wf
    rw [ha.eq] at this
    exact ⟨fun hx => by rw [this, if_pos hx], fun hx => by rw [this, if_neg hx]⟩

theorem C16_is_int_zero_complete [Fact n.Prime] (h : RangeInfo.new wm n 18 6 = .ok info)
    (a : AssignedInteger n) (x : ZMod wm) (ha : HRep wm info a x) :
    Complete (is_int_zero info a) (fun h => OkI h a) (fun r => r.val = if x = 0 then 1 else 0) Ok :=
  fun _ _ => (C_is_int_zero (RangeInfo.new_valid h) ha.honest fun h => h).mono
    (fun r hr => by rw [hr, ha.eq]) fun _ _ _ q => q

theorem C16_is_int_equal_sound [Fact n.Prime] (h : RangeInfo.new wm n 18 6 = .ok info)
    (a b : AssignedInteger n) :
    Sound (is_int_equal info a b) (fun w r => ∀ x y, Rep wm info w a x → Rep wm info w b y →
      (x = y → w r.cell = 1) ∧ (x ≠ y → w r.cell = 0)) :=
  fun _ _ hw => (S_is_int_equal (RangeInfo.new_valid h) hw a b).mono fun r hr x y ha hb => by
    have := hr ha.wf hb.wf
    rw [ha.eq, hb.eq] at this
    exact ⟨fun hx => by rw [this, if_pos hx], fun hx => by rw [this, if_neg hx]⟩

theorem C16_is_int_equal_complete [Fact n.Prime] (h : RangeInfo.new wm n 18 6 = .ok info)
    (a b : AssignedInteger n) (x y : ZMod wm) (ha : HRep wm info a x) (hb : HRep wm info b y)
    (ht : a.times + b.times + 1 < 64) :
    Complete (is_int_equal info a b) (fun h => OkI h a ∧ OkI h b) (fun r => r.val = if x = y then 1 else 0) Ok :=
  fun _ _ => (C_is_int_equal (RangeInfo.new_valid h) ha.honest hb.honest ht fun h => h).mono
    (fun r hr => by rw [hr, ha.eq, hb.eq]) fun _ _ _ q => q

theorem C16_assert_int_equal_sound [Fact n.Prime] (h : RangeInfo.new wm n 18 6 = .ok info)
    (a b : AssignedInteger n) :
    Sound (assert_int_equal info a b) (fun w _ => ∀ x y, Rep wm info w a x → Rep wm info w b y → x = y) :=
  fun _ _ hw => (S_assert_int_equal (RangeInfo.new_valid h) hw a b).mono fun r hr x y ha hb => by
    have := hr ha.wf hb.wf
    rwa [ha.eq, hb.eq] at this

theorem C16_assert_int_equal_complete [Fact n.Prime] (h : RangeInfo.new wm n 18 6 = .ok info)
    (a b : AssignedInteger n) (x : ZMod wm) (ha : HRep wm info a x) (hb : HRep wm info b x)
    (ht : a.times + b.times + 1 < 64) :
    Complete (assert_int_equal info a b) (fun h => OkI h a ∧ OkI h b) (fun _ => True) (fun _ _ => True) :=
  fun _ _ => C_assert_int_equal (RangeInfo.new_valid h) ha.honest hb.honest ht (by rw [ha.eq, hb.eq]) fun h => h

/-! ## C17 -/

theorem C17_bisec_int_sound [Fact n.Prime] (h : RangeInfo.new wm n 18 6 = .ok info) (cond : AssignedCondition n)
    (a b : AssignedInteger n) :
    Sound (bisec_int info cond a b) (fun w r => ∀ x y, Rep wm info w a x → Rep wm info w b y →
      (w cond.cell = 1 → Rep wm info w r x) ∧ (w cond.cell = 0 → Rep wm info w r y) ∧
      r.times = max a.times b.times) :=
  fun _ _ hw => (S_bisec_int (RangeInfo.new_valid h) hw cond a b).mono fun r hr x y ha hb => by
    obtain ⟨h1, h2, h3⟩ := hr ha.wf hb.wf
    exact ⟨fun hc => let ⟨k1, k2⟩ := h2 hc; ⟨k1, by rw [k2, ha.eq]⟩,
      fun hc => let ⟨k1, k2⟩ := h3 hc; ⟨k1, by rw [k2, hb.eq]⟩, h1⟩

theorem C17_bisec_int_complete (h : RangeInfo.new wm n 18 6 = .ok info) (cond : AssignedCondition n)
    (a b : AssignedInteger n) (x y : ZMod wm) (ha : HRep wm info a x) (hb : HRep wm info b y)
    (hc : cond.val = 1 ∨ cond.val = 0) :
    Complete (bisec_int info cond a b) (fun h => Ok h cond ∧ OkI h a ∧ OkI h b)
      (fun r => HRep wm info r (if cond.val = 1 then x else y) ∧ r.times = max a.times b.times) OkI :=
  fun _ _ => (C_bisec_int (RangeInfo.new_valid h) ha.honest hb.honest hc fun h => h).mono
    (fun r hr => ⟨⟨hr.1, by rw [hr.2.2]; split; exacts [ha.eq, hb.eq]⟩, hr.2.1⟩) fun _ _ _ q => q

theorem C17_constant_sound [Fact n.Prime] (h : RangeInfo.new wm n 18 6 = .ok info) (x : ℕ) (hx : x < wm) :
    Sound (assign_int_constant info x) (fun w r => Rep wm info w r x ∧ r.times = 1 ∧ V (cv w) r = x) :=
  fun _ _ hw => (S_assign_int_constant (RangeInfo.new_valid h) hw x).mono fun r hr =>
    let ⟨h1, h2, h3⟩ := hr hx
    ⟨⟨h1, by rw [h3]⟩, h2, h3⟩

theorem C17_constant_complete (h : RangeInfo.new wm n 18 6 = .ok info) (x : ℕ) (hx : x < wm) :
    Complete (assign_int_constant info x) (fun _ => True) (fun r => HRep wm info r x ∧ r.times = 1) OkI :=
  fun _ _ => (C_assign_int_constant (RangeInfo.new_valid h) hx).mono
    (fun r hr => ⟨⟨hr.1, by rw [hr.2.2]⟩, hr.2.1⟩) fun _ _ _ q => q

/-- `get_w` reads off the canonical representative of the recorded value. -/
theorem C17_get_w (h : RangeInfo.new wm n 18 6 = .ok info) (a : AssignedInteger n) (x : ZMod wm)
    (ha : HRep wm info a x) :
    Complete (get_w info a) (fun _ => True) (fun r => r = x.val) (fun _ _ => True) :=
  fun _ _ => (C_get_w (RangeInfo.new_valid h) ha.honest.wf.len).mono
    (fun r hr => by rw [hr, ← ha.eq, ZMod.val_natCast]) fun _ _ _ q => q

end Verif
