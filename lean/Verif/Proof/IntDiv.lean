import Verif.Proof.IntMul

/-!
# Integer chip: zero test, equality, division
-/

namespace Verif
variable {n : ℕ} {c : Circuit n} {w h : Advice n} {H : Prop} {info : RangeInfo n} {wm : ℕ}

/-! ## Arithmetic of the zero test -/

theorem sum_ones (f : AssignedValue n → ZMod n) [NeZero n] (l : List (AssignedValue n)) :
    ((l.map fun v => (v, (1 : ZMod n))).map fun e => f e.1 * e.2).sum
      = ((∑ i ∈ Finset.range l.length, limbAt f l i : ℕ) : ZMod n) := by
  induction l with
  | nil => simp
  | cons x l ih =>
    rw [List.map_cons, List.map_cons, List.sum_cons, ih, List.length_cons, Finset.sum_range_succ']
    have e : ∀ i, limbAt f (x :: l) (i + 1) = limbAt f l i := fun i => by simp [limbAt]
    have e0 : limbAt f (x :: l) 0 = (f x).val := by simp [limbAt]
    simp only [e, e0]
    push_cast
    rw [ZMod.natCast_zmod_val]
    ring

theorem RangeInfo.Valid.limbs_lt (hv : info.Valid wm) : info.limbs * 2 ^ 108 < n := by
  have h1 := hv.mul_v
  have h2 := hv.n_big
  have h3 : info.limbs * 2 ^ 108 ≤ (2 ^ 108 * 63) * (2 ^ 108 * 63) * info.limbs := by
    norm_num; omega
  exact (h3.trans ((Nat.le_add_right _ _).trans h1)).trans_lt h2

theorem limb_sum_lt (hv : info.Valid wm) {f : AssignedValue n → ZMod n} {a : AssignedInteger n}
    (ha : WF info f a) (ht : a.times = 1) : ∑ i ∈ Finset.range a.limbs_le.length, limbAt f a.limbs_le i < n := by
  refine lt_of_le_of_lt ?_ hv.limbs_lt
  rw [ha.len]
  refine (Finset.sum_le_card_nsmul _ _ (2 ^ 108) fun i _ => ?_).trans (by simp)
  have := ha.limb i
  rw [ht, one_mul] at this
  exact this.le

theorem V_eq_zero_iff {f : AssignedValue n → ZMod n} {a : AssignedInteger n} :
    V f a = 0 ↔ ∑ i ∈ Finset.range a.limbs_le.length, limbAt f a.limbs_le i = 0 := by
  rw [V, VL, Finset.sum_eq_zero_iff, Finset.sum_eq_zero_iff]
  refine forall₂_congr fun i _ => ?_
  simp

theorem sum_zero_iff (hv : info.Valid wm) {f : AssignedValue n → ZMod n} {a : AssignedInteger n}
    (ha : WF info f a) (ht : a.times = 1) :
    ((∑ i ∈ Finset.range a.limbs_le.length, limbAt f a.limbs_le i : ℕ) : ZMod n) = 0 ↔ V f a = 0 := by
  rw [V_eq_zero_iff, ZMod.natCast_eq_zero_iff]
  exact ⟨fun h => Nat.eq_zero_of_dvd_of_lt h (limb_sum_lt hv ha ht), fun h => h ▸ dvd_zero _⟩

/-- What `is_pure_w_modulus` compares. -/
def PureW (wm : ℕ) (info : RangeInfo n) (f : AssignedValue n → ZMod n) (a : AssignedInteger n) : Prop :=
  f a.native = (wm : ZMod n) ∧ ∀ i ∈ List.range info.pure_w_check_limbs,
    limbAt f a.limbs_le i = RangeInfo.limbOf 108 i wm

theorem RangeInfo.Valid.pure_le (hv : info.Valid wm) : info.pure_w_check_limbs ≤ info.limbs := by
  have h1 := hv.pure_w_limbs
  have h2 := hv.limbs_eq
  omega

theorem sum_mod {x : ℕ → ℕ} {k l : ℕ} (hl : k ≤ l) :
    ∃ z : ℕ, ∑ i ∈ Finset.range l, x i * 2 ^ (108 * i)
      = ∑ i ∈ Finset.range k, x i * 2 ^ (108 * i) + 2 ^ (108 * k) * z := by
  induction l, hl using Nat.le_induction with
  | base => exact ⟨0, by simp⟩
  | succ l hl ih =>
    obtain ⟨z, hz⟩ := ih
    obtain ⟨m, rfl⟩ := Nat.exists_eq_add_of_le hl
    refine ⟨z + x (k + m) * 2 ^ (108 * m), ?_⟩
    rw [Finset.sum_range_succ, hz, Nat.mul_add 108 k m, pow_add]
    ring

/-- A value below `2^w_ceil_bits` is zero in `W` iff it is 0 or passes `is_pure_w_modulus`. -/
theorem zero_iff (hv : info.Valid wm) {f : AssignedValue n → ZMod n} {a : AssignedInteger n}
    (ha : WF info f a) (ht : a.times = 1) :
    (V f a : ZMod wm) = 0 ↔ V f a = 0 ∨ PureW wm info f a := by
  have hva := ha.val
  rw [ht, one_mul] at hva
  have hw0 := hv.w_pos
  have hpl := hv.pure_le
  rw [ZMod.natCast_eq_zero_iff]
  constructor
  · rintro ⟨k, hk⟩
    have h1 := hv.w_lo
    have h2 : 2 ^ info.w_ceil_bits = 2 * 2 ^ (info.w_ceil_bits - 1) := by
      rw [← pow_succ']; congr 1
      have := hv.lead_ge; have := Nat.mod_le info.w_ceil_bits 108; omega
    have hk2 : k < 2 := by
      by_contra hc
      have : wm * 2 ≤ wm * k := Nat.mul_le_mul_left _ (by omega)
      omega
    rcases (by omega : k = 0 ∨ k = 1) with rfl | rfl
    · left; simpa using hk
    · right
      rw [Nat.mul_one] at hk
      refine ⟨by rw [ha.native, hk], fun i hi => ?_⟩
      have hlim : ∀ i, limbAt f a.limbs_le i < 2 ^ 108 := fun i => by
        have := ha.limb i; rwa [ht, one_mul] at this
      have key : ∀ m, ∀ (x : ℕ → ℕ), (∀ i, x i < 2 ^ 108) → ∀ i < m,
          RangeInfo.limbOf 108 i (∑ i ∈ Finset.range m, x i * 2 ^ (108 * i)) = x i := by
        intro m x hx i hi
        obtain ⟨z, hz⟩ := sum_mod (x := x) (show i + 1 ≤ m by omega)
        have hlt : ∑ j ∈ Finset.range i, x j * 2 ^ (108 * j) < 2 ^ (108 * i) := by
          clear hz hi
          induction i with
          | zero => simp
          | succ i ih =>
            rw [Finset.sum_range_succ, Nat.mul_succ, pow_add]
            have h1 : x i * 2 ^ (108 * i) ≤ (2 ^ 108 - 1) * 2 ^ (108 * i) :=
              Nat.mul_le_mul_right _ (by have := hx i; omega)
            have h2 : (2 ^ 108 - 1) * 2 ^ (108 * i) + 2 ^ (108 * i) = 2 ^ (108 * i) * 2 ^ 108 := by
              rw [Nat.sub_mul]
              have : 1 * 2 ^ (108 * i) ≤ 2 ^ 108 * 2 ^ (108 * i) := Nat.mul_le_mul_right _ (by norm_num)
              rw [one_mul] at this
              rw [Nat.mul_comm (2 ^ (108 * i))]
              omega
            omega
        unfold RangeInfo.limbOf
        rw [hz, Finset.sum_range_succ, Nat.mul_succ, pow_add, mul_comm i 108]
        have e : ∑ j ∈ Finset.range i, x j * 2 ^ (108 * j) + x i * 2 ^ (108 * i) + 2 ^ (108 * i) * 2 ^ 108 * z
            = ∑ j ∈ Finset.range i, x j * 2 ^ (108 * j) + 2 ^ (108 * i) * (x i + 2 ^ 108 * z) := by ring
        rw [e, Nat.add_mul_div_left _ _ (by positivity), Nat.div_eq_of_lt hlt, zero_add,
          Nat.add_mul_mod_self_left, Nat.mod_eq_of_lt (hx i)]
      have := key info.limbs (limbAt f a.limbs_le) hlim i (by have := List.mem_range.1 hi; omega)
      rw [← V_eq_sum ha.len, hk] at this
      exact this.symm
  · rintro (h0 | ⟨h1, h2⟩)
    · rw [h0]; exact dvd_zero _
    · obtain ⟨z1, hz1⟩ := sum_mod (x := limbAt f a.limbs_le) hpl
      obtain ⟨z2, hz2⟩ := sum_mod (x := fun i => RangeInfo.limbOf 108 i wm) hpl
      rw [← V_eq_sum ha.len] at hz1
      have e : ∑ i ∈ Finset.range info.pure_w_check_limbs, limbAt f a.limbs_le i * 2 ^ (108 * i)
          = ∑ i ∈ Finset.range info.pure_w_check_limbs, RangeInfo.limbOf 108 i wm * 2 ^ (108 * i) :=
        Finset.sum_congr rfl fun i hi => by rw [h2 i (by simpa using hi)]
      rw [← hv.w_sum] at hz2
      have hle := hv.lcm_pure
      have hwl := hv.w_hi
      rw [ha.native] at h1
      rcases hwl.trans hle |>.lt_or_eq with hlt | heq
      · rw [eq_of_lcm (n := n) (k := 108 * info.pure_w_check_limbs) h1 ⟨(z1 : ℤ) - z2, by
          rw [hz1, hz2, e]; push_cast; ring⟩ (hva.trans_le hle) hlt]
      · have hl0 : 0 < Nat.lcm n (2 ^ (108 * info.pure_w_check_limbs)) := heq ▸ hw0
        have d1 : n ∣ wm := heq ▸ Nat.dvd_lcm_left _ _
        have d2 : 2 ^ (108 * info.pure_w_check_limbs) ∣ wm := heq ▸ Nat.dvd_lcm_right _ _
        have hz : V f a = 0 := by
          refine eq_of_lcm (n := n) (k := 108 * info.pure_w_check_limbs) ?_ ?_ (hva.trans_le hle) hl0
          · rw [h1, (ZMod.natCast_eq_zero_iff _ _).2 d1]; simp
          · obtain ⟨q, hq⟩ := d2
            refine ⟨(z1 : ℤ) - z2 + q, ?_⟩
            have e1 : (V f a : ℤ) - wm = 2 ^ (108 * info.pure_w_check_limbs) * ((z1 : ℤ) - z2) := by
              rw [hz1, hz2, e]; push_cast; ring
            have e2 : (wm : ℤ) = 2 ^ (108 * info.pure_w_check_limbs) * q := by exact_mod_cast hq
            push_cast
            rw [_root_.mul_add, ← e1, ← e2]; ring
        rw [hz]; exact dvd_zero _

/-! ## The zero test -/

theorem S_is_pure_zero [Fact n.Prime] (hv : info.Valid wm) (hw : c.Sat w) (a : AssignedInteger n) :
    S c (is_pure_zero a) (fun r => WF info (cv w) a → a.times = 1 →
      w r.cell = if V (cv w) a = 0 then 1 else 0) := by
  have := hv.neZero
  unfold is_pure_zero
  refine S.bind (S_sum hw _ _) fun s => (S_is_zero hw s).mono fun r hr hs ha ht => ?_
  have e := sum_ones (cv w) a.limbs_le
  rw [hr, hs]
  simp only [sumW, Option.getD_none, zero_add]
  simp only [cv] at e
  rw [e]
  simp only [sum_zero_iff hv ha ht]

theorem C_is_pure_zero [Fact n.Prime] (hv : info.Valid wm) {a : AssignedInteger n}
    (ha : WF info AssignedValue.val a) (ht : a.times = 1) (hok : H → OkI h a) :
    C c h H (is_pure_zero a) (fun r => r.val = if V AssignedValue.val a = 0 then 1 else 0) (fun r => Ok h r) := by
  have := hv.neZero
  have hk := hv.limbs_ge
  unfold is_pure_zero
  refine C.bind (C_sum _ _ ?_ ?_) fun s hs => (C_is_zero fun hH => hH.2).mono (fun r hr => ?_) fun _ _ _ q => q
  · intro e
    have := congrArg List.length e
    simp [ha.len] at this
    omega
  · intro hH e he
    simp only [List.mem_map] at he
    obtain ⟨v, hv', rfl⟩ := he
    exact (hok hH).limb v hv'
  · have e := sum_ones AssignedValue.val a.limbs_le
    rw [hr, hs]
    simp only [sumVal, Option.getD_none, zero_add]
    rw [e]
    simp only [sum_zero_iff hv ha ht]

theorem limb_diff_iff (hv : info.Valid wm) {f : AssignedValue n → ZMod n} {a : AssignedInteger n}
    (ha : WF info f a) (ht : a.times = 1) {i : ℕ} {x : AssignedValue n} (hx : a.limbs_le[i]? = some x) :
    f x + -((RangeInfo.limbOf 108 i wm : ℕ) : ZMod n) = 0 ↔
      limbAt f a.limbs_le i = RangeInfo.limbOf 108 i wm := by
  have hne := hv.neZero
  have hl := ha.limb i
  rw [ht, one_mul] at hl
  rw [← limbAt_cast (f := f) hx, ← sub_eq_add_neg, sub_eq_zero]
  constructor
  · intro h
    have := congrArg ZMod.val h
    rwa [ZMod.val_natCast_of_lt (bound_n hv (hl.trans (by norm_num))),
      ZMod.val_natCast_of_lt (bound_n hv ((limbOf_lt _ _).trans (by norm_num)))] at this
  · intro h; rw [h]

theorem ite_mul_ite {p q : Prop} [Decidable p] [Decidable q] :
    ((if p then 1 else 0 : ZMod n) * if q then 1 else 0) = if p ∧ q then 1 else 0 := by
  by_cases hp : p <;> by_cases hq : q <;> simp [hp, hq]

theorem S_is_pure_w_limbs [Fact n.Prime] (hv : info.Valid wm) (hw : c.Sat w) (a : AssignedInteger n) :
    ∀ (is : List ℕ) (e : AssignedValue n), S c (is_pure_w_limbs info a e is) (fun r => WF info (cv w) a →
      a.times = 1 → w r.cell = w e.cell *
        if (∀ i ∈ is, limbAt (cv w) a.limbs_le i = RangeInfo.limbOf 108 i wm) then 1 else 0)
  | [], e => by
    rw [is_pure_w_limbs]
    exact S.pure fun _ _ => by simp
  | i :: is, e => by
    unfold is_pure_w_limbs
    refine S.bind_index fun ai hai => S.bind_index fun wi hwi => ?_
    refine S.bind (S_add_constant hw ai _) fun df => S.bind (S_is_zero hw df) fun z =>
      S.bind (S_and hw e z) fun e' => (S_is_pure_w_limbs hv hw a is e').mono fun r hr he hz hdf ha ht => ?_
    have hil : i < info.limbs := by
      have := (List.getElem?_eq_some_iff.1 hai).1
      rwa [ha.len] at this
    rw [w_limb_get hv hil] at hwi
    cases hwi
    have key := limb_diff_iff hv (f := cv w) ha ht hai
    simp only [cv] at key
    rw [hr ha ht, he, hz, hdf, mul_assoc, ite_mul_ite]
    simp only [key, List.forall_mem_cons]

theorem C_is_pure_w_limbs [Fact n.Prime] (hv : info.Valid wm) {a : AssignedInteger n}
    (ha : WF info AssignedValue.val a) (ht : a.times = 1) :
    ∀ (is : List ℕ) (e : AssignedValue n) (H : Prop), (∀ i ∈ is, i < info.limbs) → (H → OkI h a ∧ Ok h e) →
      C c h H (is_pure_w_limbs info a e is) (fun r => r.val = e.val *
        if (∀ i ∈ is, limbAt AssignedValue.val a.limbs_le i = RangeInfo.limbOf 108 i wm) then 1 else 0)
        (fun r => Ok h r)
  | [], e, H, _, hok => by
    rw [is_pure_w_limbs]
    exact C.pure (by simp) fun hH => (hok hH).2
  | i :: is, e, H, his, hok => by
    unfold is_pure_w_limbs
    have hil : i < info.limbs := his i (by simp)
    refine C_index_limb ha.len hil fun ai hai => C.bind_index (w_limb_get hv hil) ?_
    refine C.bind (C_add_constant fun hH => (hok hH).1.limb _ (List.mem_of_getElem? hai)) fun df hdf =>
      C.bind (C_is_zero fun hH => hH.2) fun z hz => C.bind (C_and fun hH => ⟨(hok hH.1.1).2, hH.2⟩) fun e' he => ?_
    refine (C_is_pure_w_limbs hv ha ht is e' _ (fun i hi => his i (by simp [hi])) fun hH =>
      ⟨(hok hH.1.1.1).1, hH.2⟩).mono (fun r hr => ?_) fun _ _ _ q => q
    have key := limb_diff_iff hv (f := AssignedValue.val) ha ht hai
    rw [hr, he, hz, hdf, mul_assoc, ite_mul_ite]
    simp only [key, List.forall_mem_cons]

open Classical in
theorem S_is_pure_w_modulus [Fact n.Prime] (hv : info.Valid wm) (hw : c.Sat w) (a : AssignedInteger n) :
    S c (is_pure_w_modulus info a) (fun r => WF info (cv w) a →
      w r.cell = if PureW wm info (cv w) a then 1 else 0) := by
  unfold is_pure_w_modulus
  refine S.bind_rassert fun ht => ?_
  have ht : a.times = 1 := by simpa using ht
  refine S.bind (S_add_constant hw _ _) fun df => S.bind (S_is_zero hw df) fun z =>
    (S_is_pure_w_limbs hv hw a _ z).mono fun r hr hz hdf ha => ?_
  rw [hr ha ht, hz, hdf, ite_mul_ite]
  simp only [← sub_eq_add_neg, sub_eq_zero, hv.w_native]
  exact if_congr Iff.rfl rfl rfl

open Classical in
theorem C_is_pure_w_modulus [Fact n.Prime] (hv : info.Valid wm) {a : AssignedInteger n}
    (ha : WF info AssignedValue.val a) (ht : a.times = 1) (hok : H → OkI h a) :
    C c h H (is_pure_w_modulus info a) (fun r => r.val = if PureW wm info AssignedValue.val a then 1 else 0)
      (fun r => Ok h r) := by
  unfold is_pure_w_modulus
  refine C.bind_rassert (by simpa using ht) ?_
  refine C.bind (C_add_constant fun hH => (hok hH).native) fun df hdf => C.bind (C_is_zero fun hH => hH.2)
    fun z hz => (C_is_pure_w_limbs hv ha ht _ z _ (fun i hi => ?_) fun hH => ⟨hok hH.1.1, hH.2⟩).mono
      (fun r hr => ?_) fun _ _ _ q => q
  · have := List.mem_range.1 hi
    have := hv.pure_le
    omega
  · rw [hr, hz, hdf, ite_mul_ite]
    simp only [← sub_eq_add_neg, sub_eq_zero, hv.w_native]
    exact if_congr Iff.rfl rfl rfl

theorem or_ite {p q : Prop} [Decidable p] [Decidable q] :
    ((if p then 1 else 0 : ZMod n) + (if q then 1 else 0) - (if p then 1 else 0) * if q then 1 else 0)
      = if p ∨ q then 1 else 0 := by
  by_cases hp : p <;> by_cases hq : q <;> simp [hp, hq]

theorem S_is_int_zero [Fact n.Prime] (hv : info.Valid wm) (hw : c.Sat w) (a : AssignedInteger n) :
    S c (is_int_zero info a) (fun r => WF info (cv w) a →
      w r.cell = if (V (cv w) a : ZMod wm) = 0 then 1 else 0) := by
  classical
  unfold is_int_zero
  refine S.bind (S_reduce hv hw a) fun a' => S.bind (S_is_pure_zero hv hw a') fun z =>
    S.bind (S_is_pure_w_modulus hv hw a') fun p => (S_or hw z p).mono fun r hr hp hz ha' ha => ?_
  obtain ⟨h1, h2, h3⟩ := ha' ha
  rw [hr, hp h1, hz h1 h2, or_ite, ← h3]
  simp only [zero_iff hv h1 h2]

theorem C_is_int_zero [Fact n.Prime] (hv : info.Valid wm) {a : AssignedInteger n} (ha : Honest wm info a)
    (hok : H → OkI h a) :
    C c h H (is_int_zero info a) (fun r => r.val = if (V AssignedValue.val a : ZMod wm) = 0 then 1 else 0)
      (fun r => Ok h r) := by
  classical
  unfold is_int_zero
  refine C.bind (C_reduce hv ha hok) fun a' ha' => ?_
  obtain ⟨h1, h2, h3⟩ := ha'
  refine C.bind (C_is_pure_zero hv h1.wf h2 fun hH => hH.2) fun z hz =>
    C.bind (C_is_pure_w_modulus hv h1.wf h2 fun hH => hH.1.2) fun p hp =>
    (C_or fun hH => ⟨hH.1.2, hH.2⟩).mono (fun r hr => ?_) fun _ _ _ q => q
  have e : (V AssignedValue.val a : ZMod wm) = V AssignedValue.val a' := by rw [h3, ZMod.natCast_mod]
  rw [hr, hp, hz, or_ite, e]
  simp only [zero_iff hv h1.wf h2]

theorem S_is_int_equal [Fact n.Prime] (hv : info.Valid wm) (hw : c.Sat w) (a b : AssignedInteger n) :
    S c (is_int_equal info a b) (fun r => WF info (cv w) a → WF info (cv w) b →
      w r.cell = if (V (cv w) a : ZMod wm) = V (cv w) b then 1 else 0) := by
  unfold is_int_equal
  refine S.bind (S_int_sub hv hw a b) fun d => (S_is_int_zero hv hw d).mono fun r hr hd ha hb => ?_
  obtain ⟨h1, -, h2⟩ := hd ha hb
  rw [hr h1, h2]
  simp only [sub_eq_zero]

theorem C_is_int_equal [Fact n.Prime] (hv : info.Valid wm) {a b : AssignedInteger n} (ha : Honest wm info a)
    (hb : Honest wm info b) (ht : a.times + b.times + 1 < 64) (hok : H → OkI h a ∧ OkI h b) :
    C c h H (is_int_equal info a b) (fun r => r.val =
      if (V AssignedValue.val a : ZMod wm) = V AssignedValue.val b then 1 else 0) (fun r => Ok h r) := by
  unfold is_int_equal
  refine C.bind (C_int_sub hv ha hb ht hok) fun d hd => (C_is_int_zero hv hd.1 fun hH => hH.2).mono
    (fun r hr => ?_) fun _ _ _ q => q
  rw [hr, hd.2.2]
  simp only [sub_eq_zero]

theorem S_assert_int_equal [Fact n.Prime] (hv : info.Valid wm) (hw : c.Sat w) (a b : AssignedInteger n) :
    S c (assert_int_equal info a b) (fun _ => WF info (cv w) a → WF info (cv w) b →
      (V (cv w) a : ZMod wm) = V (cv w) b) := by
  have := hv.neZero
  unfold assert_int_equal
  refine S.bind (S_int_sub hv hw a b) fun d => S.bind (S_reduce hv hw d) fun d' =>
    S.bind (S_sum hw _ _) fun s => (S_assert_constant hw s 0).mono fun r hr hs hd' hd ha hb => ?_
  obtain ⟨h1, -, h2⟩ := hd ha hb
  obtain ⟨h3, h4, h5⟩ := hd' h1
  have e := sum_ones (cv w) d'.limbs_le
  rw [hr] at hs
  simp only [sumW, Option.getD_none, zero_add] at hs
  simp only [cv] at e
  rw [e] at hs
  have := (sum_zero_iff hv (f := cv w) h3 h4).1 hs.symm
  rw [this] at h5
  rw [← h5] at h2
  rw [← sub_eq_zero, ← h2]; simp

theorem C_assert_int_equal [Fact n.Prime] (hv : info.Valid wm) {a b : AssignedInteger n} (ha : Honest wm info a)
    (hb : Honest wm info b) (ht : a.times + b.times + 1 < 64)
    (hab : (V AssignedValue.val a : ZMod wm) = V AssignedValue.val b) (hok : H → OkI h a ∧ OkI h b) :
    C c h H (assert_int_equal info a b) (fun _ => True) (fun _ => True) := by
  have := hv.neZero
  have hk := hv.limbs_ge
  unfold assert_int_equal
  refine C.bind (C_int_sub hv ha hb ht hok) fun d hd => C.bind (C_reduce hv hd.1 fun hH => hH.2) fun d' hd' => ?_
  have hz : V AssignedValue.val d' = 0 := by
    rw [hd'.2.2]
    have := hd.2.2
    rw [hab, sub_self, ZMod.natCast_eq_zero_iff] at this
    exact Nat.mod_eq_zero_of_dvd this
  refine C.bind (C_sum _ _ ?_ ?_) fun s hs => C_assert_constant ?_ fun hH => hH.2
  · intro e
    have := congrArg List.length e
    simp [hd'.1.wf.len] at this
    omega
  · intro hH e he
    simp only [List.mem_map] at he
    obtain ⟨v, hv', rfl⟩ := he
    exact hH.2.limb v hv'
  · rw [hs]
    simp only [sumVal, Option.getD_none, zero_add]
    rw [sum_ones AssignedValue.val d'.limbs_le]
    exact (sum_zero_iff hv hd'.1.wf hd'.2.1).2 hz

/-! ## Division -/

/-- An integer multiplied limb-wise by a bit. -/
theorem masked (hv : info.Valid wm) {f : AssignedValue n → ZMod n} {a : AssignedInteger n}
    {l : List (AssignedValue n)} {nat : AssignedValue n} {x : ZMod n} (ha : WF info f a) (hx : x = 0 ∨ x = 1)
    (hl : l.length = info.limbs)
    (hall : ∀ i < info.limbs, ∃ y, l[i]? = some y ∧ ∀ z, a.limbs_le[i]? = some z → f y = f z * x)
    (hnat : f nat = f a.native * x) :
    WF info f ⟨l, nat, a.times⟩ ∧ V f ⟨l, nat, a.times⟩ = if x = 1 then V f a else 0 := by
  have hn := hv.n_gt
  have hne := hv.neZero
  have h01 : (0 : ZMod n) ≠ 1 := by
    have : Fact (1 < n) := ⟨by omega⟩
    exact zero_ne_one
  have hlim : ∀ i < info.limbs, limbAt f l i = if x = 1 then limbAt f a.limbs_le i else 0 := by
    intro i hi
    obtain ⟨y, hy, hy'⟩ := hall i hi
    obtain ⟨z, hz, hz'⟩ := ha.limb_get hi
    rw [limbAt_some hy, hy' z hz, hz']
    rcases hx with rfl | rfl
    · simp [h01]
    · simp
  rcases hx with rfl | rfl
  · rw [if_neg h01]
    have hV : V f ⟨l, nat, a.times⟩ = 0 := by
      rw [V_eq_sum hl]
      exact Finset.sum_eq_zero fun i hi => by
        show limbAt f l i * _ = 0
        rw [hlim i (Finset.mem_range.1 hi), if_neg h01, zero_mul]
    refine ⟨⟨hl, ha.times_pos, ha.times_lt, fun i => ?_, ?_, ?_⟩, hV⟩
    · show limbAt f l i < _
      have hp := ha.times_pos
      by_cases hi : i < info.limbs
      · rw [hlim i hi, if_neg h01]; positivity
      · rw [limbAt_none (by omega)]; positivity
    · rw [hV]
      have hp := ha.times_pos
      show 0 < a.times * _
      positivity
    · rw [hV]; show f nat = _; rw [hnat]; simp
  · rw [if_pos rfl]
    exact ha.of_eq (r := ⟨l, nat, a.times⟩) hl (fun i hi => by rw [hlim i hi, if_pos rfl])
      (by rw [hnat, mul_one]) le_rfl ha.times_lt

theorem S_int_div [Fact n.Prime] (hv : info.Valid wm) (hw : c.Sat w) (a b : AssignedInteger n) :
    S c (int_div info a b) (fun r => WF info (cv w) a → WF info (cv w) b →
      w r.1.cell = (if (V (cv w) b : ZMod wm) = 0 then 1 else 0) ∧ WF info (cv w) r.2 ∧ r.2.times = 1 ∧
      (V (cv w) b : ZMod wm) * V (cv w) r.2 = if (V (cv w) b : ZMod wm) = 0 then 0 else (V (cv w) a : ZMod wm)) := by
  unfold int_div
  refine S.bind (S_reduce hv hw b) fun b' => S.bind (S_is_int_zero hv hw b') fun z =>
    S.bind (S_not hw z) fun co => S.bind (S_reduce hv hw a) fun a' => ?_
  refine S.bind (S.mapM_range (P := fun i y => ∀ x, a'.limbs_le[i]? = some x → cv w y = cv w x * cv w co)
    fun i _ => ?_) fun limbs => ?_
  · refine S.bind_index fun ai hai => (S_mul hw ai co).mono fun y hy x hx => ?_
    rw [hai] at hx
    cases hx
    exact hy
  refine S.bind (S_mul hw _ _) fun nat => ?_
  refine S.bind (S_get_w_bn hv _) fun abn => S.bind (S_get_w_bn hv _) fun bbn => S.bind (S_usub _ _) fun e =>
    S.bind (S_div_rem _ _) fun dr => S.bind (S_assign_w hv hw _) fun q => S.bind (S_assign_d hv hw _) fun d => ?_
  refine S.bind (S_mul_limbs hv hw b' q _ d.1) fun _ => S.bind (S_mul_native hv hw b' q _ d.2) fun _ => S.pure ?_
  rintro h2 h1 ⟨d1, d2, d3, d4⟩ ⟨hq, hqt⟩ - - - - hnat ⟨hl, hall⟩ ha' hco hz hb' ha hb
  obtain ⟨hb1, hb2, hb3⟩ := hb' hb
  obtain ⟨ha1, ha2, ha3⟩ := ha' ha
  have hz := hz hb1
  rw [hb3] at hz
  have hbit : w co.cell = if (V (cv w) b : ZMod wm) = 0 then 0 else 1 := by
    rw [hco, hz]; split <;> simp
  obtain ⟨hm, hmv⟩ := masked hv (f := cv w) (x := w co.cell) ha1 (by rw [hbit]; split <;> simp) hl
    (fun i hi => hall i hi) hnat
  refine ⟨hz, hq, hqt, ?_⟩
  have := mul_eq_of hv hb1 hq hm ha2 d3 d4 (h1 hb1 hq hm d1 d2).2 h2
  have := congrArg (Nat.cast : ℕ → ZMod wm) this
  push_cast at this
  rw [hmv, hb3] at this
  rw [this, hbit]
  have h01 : (0 : ZMod n) ≠ 1 := zero_ne_one
  by_cases h0 : (V (cv w) b : ZMod wm) = 0
  · simp [h0, h01]
  · simp [h0, ha3]

theorem C_int_div [Fact n.Prime] [Fact wm.Prime] (hv : info.Valid wm) (hdb : info.d_bits % 108 ≠ 0)
    {a b : AssignedInteger n} (ha : Honest wm info a) (hb : Honest wm info b) (hok : H → OkI h a ∧ OkI h b) :
    C c h H (int_div info a b) (fun r =>
      r.1.val = (if (V AssignedValue.val b : ZMod wm) = 0 then 1 else 0) ∧ Honest wm info r.2 ∧ r.2.times = 1 ∧
      (V AssignedValue.val r.2 : ZMod wm) = (V AssignedValue.val a : ZMod wm) / V AssignedValue.val b)
      (fun r => Ok h r.1 ∧ OkI h r.2) := by
  have hwm := hv.w_modulus
  subst hwm
  have hw0 := hv.w_pos
  have hne : NeZero info.w_modulus := ⟨by omega⟩
  have h01 : (0 : ZMod n) ≠ 1 := zero_ne_one
  unfold int_div
  refine C.bind (C_reduce hv hb fun hH => (hok hH).2) fun b' hb' => ?_
  obtain ⟨hb1, hb2, hb3⟩ := hb'
  have hbb : (V AssignedValue.val b' : ZMod info.w_modulus) = V AssignedValue.val b := by
    rw [hb3, ZMod.natCast_mod]
  refine C.bind (C_is_int_zero hv hb1 fun hH => hH.2) fun z hz => C.bind (C_not fun hH => hH.2) fun co hco => ?_
  refine C.bind (C_reduce hv ha fun hH => (hok hH.1.1.1).1) fun a' ha' => ?_
  obtain ⟨ha1, ha2, ha3⟩ := ha'
  refine C.bind (C.mapM_range (P := fun i y => ∀ x, a'.limbs_le[i]? = some x → y.val = x.val * co.val)
    (Q := fun _ x => Ok h x) fun i hi => ?_) fun limbs hlimbs => ?_
  · refine C_index_limb ha1.wf.len hi fun ai hai => (C_mul fun hH =>
      ⟨hH.2.limb _ (List.mem_of_getElem? hai), hH.1.2⟩).mono (fun y hy x hx => ?_) fun _ _ _ q => q
    rw [hai] at hx
    cases hx
    exact hy
  refine C.bind (C_mul fun hH => ⟨hH.1.2.native, hH.1.1.2⟩) fun nat hnat => ?_
  rw [hbb] at hz
  have hbit : co.val = if (V AssignedValue.val b : ZMod info.w_modulus) = 0 then 0 else 1 := by
    rw [hco, hz]; split <;> simp
  obtain ⟨hm, hmv⟩ := masked hv (f := AssignedValue.val) (x := co.val) ha1.wf (by rw [hbit]; split <;> simp)
    hlimbs.1 (fun i hi => hlimbs.2 i hi) hnat
  refine C.bind (C_get_w_bn hv hm.len) ?_
  rintro _ rfl
  refine C.bind (C_get_w_bn hv hb1.wf.len) ?_
  rintro _ rfl
  set am : AssignedInteger n := ⟨limbs, nat, a'.times⟩ with ham
  have ham_lt : V AssignedValue.val am < info.w_modulus := by
    rw [hmv]; split
    · exact ha1.canon ha2
    · exact hw0
  simp only []
  set q := (if (V AssignedValue.val b' : ZMod info.w_modulus) = 0 then 0
    else w_div info.w_modulus (V AssignedValue.val am) (V AssignedValue.val b')) with hqdef
  have hq_lt : q < info.w_modulus := by
    rw [hqdef]; split
    · exact hw0
    · exact ZMod.val_lt _
  have hqv : (V AssignedValue.val b' : ZMod info.w_modulus) * q = V AssignedValue.val am := by
    rw [hqdef]; split
    · rename_i h0
      rw [hmv, hbit, ← hbb, if_pos h0, if_neg h01, h0]; simp
    · rename_i h0
      rw [w_div, ZMod.natCast_zmod_val, mul_left_comm, mul_inv_cancel₀ h0, mul_one]
  have hmod : V AssignedValue.val b' * q % info.w_modulus = V AssignedValue.val am := by
    have : ((V AssignedValue.val b' * q : ℕ) : ZMod info.w_modulus) = (V AssignedValue.val am : ℕ) := by
      rw [← hqv]; push_cast; rfl
    have := (ZMod.natCast_eq_natCast_iff _ _ _).1 this
    rw [Nat.ModEq, Nat.mod_eq_of_lt ham_lt] at this
    exact this
  have hge : V AssignedValue.val am ≤ V AssignedValue.val b' * q := hmod ▸ Nat.mod_le _ _
  refine C_bind_usub hge (C_bind_div_rem (by omega) ?_)
  have hdm : V AssignedValue.val b' * q = (V AssignedValue.val b' * q - V AssignedValue.val am) / info.w_modulus
      * info.w_modulus + V AssignedValue.val am := by
    have := Nat.div_add_mod (V AssignedValue.val b' * q) info.w_modulus
    rw [hmod] at this
    have e : V AssignedValue.val b' * q - V AssignedValue.val am
        = info.w_modulus * (V AssignedValue.val b' * q / info.w_modulus) := by omega
    rw [e, Nat.mul_div_cancel_left _ hw0, Nat.mul_comm (V AssignedValue.val b' * q / info.w_modulus)]
    omega
  refine C.bind (C_assign_w hv hq_lt) fun qa hqa => ?_
  obtain ⟨hq1, hq2, hq3, -⟩ := hqa
  have hdm' : V AssignedValue.val b' * V AssignedValue.val qa = (V AssignedValue.val b' * q - V AssignedValue.val am)
      / info.w_modulus * info.w_modulus + V AssignedValue.val am := by rw [hq3]; exact hdm
  refine C.bind (C_assign_d hv hdb (quot_lt hv hb1.wf hq1.wf hdm')) fun d hd => ?_
  obtain ⟨hd1, hd2, hd3, hd4⟩ := hd
  have okm : ((((((((((H ∧ OkI h b') ∧ Ok h z) ∧ Ok h co) ∧ OkI h a') ∧ ∀ (i : ℕ) x, limbs[i]? = some x → Ok h x)
      ∧ Ok h nat) ∧ True) ∧ True) ∧ OkI h qa) ∧ ((∀ y ∈ d.1, Ok h y) ∧ Ok h d.2)) → OkI h am := by
    intro hH
    refine ⟨fun x hx => ?_, hH.1.1.1.1.2⟩
    obtain ⟨i, hi⟩ := List.mem_iff_getElem?.1 hx
    exact hH.1.1.1.1.1.2 i x hi
  have heq : V AssignedValue.val b' * V AssignedValue.val qa
      = VL AssignedValue.val d.1 * info.w_modulus + V AssignedValue.val am := by rw [hd2]; exact hdm'
  refine C.bind (C_mul_limbs hv hb1.wf hq1.wf hm ha2 hd1 (limbs_d_lt hd1 hd4) heq fun hH =>
    ⟨hH.1.1.1.1.1.1.1.1.1.2, hH.1.2, okm hH, hH.2.1⟩) fun _ _ => ?_
  refine C.bind (C_mul_native hv ?_ fun hH => ⟨hH.1.1.1.1.1.1.1.1.1.1.2.native, hH.1.1.2.native,
    hH.1.2.2, (okm hH.1).native⟩) fun _ _ => C.pure ⟨hz, hq1, hq2, ?_⟩ fun hH =>
      ⟨hH.1.1.1.1.1.1.1.1.1.1.2, hH.1.1.1.2⟩
  · rw [hb1.wf.native, hq1.wf.native, hm.native, hd3, ← hd2]
    exact_mod_cast congrArg (Nat.cast : ℕ → ZMod n) heq
  · by_cases h0 : (V AssignedValue.val b : ZMod info.w_modulus) = 0
    · rw [hq3, hqdef, hbb, if_pos h0, h0]; simp
    · rw [eq_div_iff h0, mul_comm, ← hbb, hq3, hqv, hmv, hbit, if_neg h0, if_pos rfl, ha3, ZMod.natCast_mod]

theorem S_int_unsafe_invert [Fact n.Prime] (hv : info.Valid wm) (hw : c.Sat w) (x : AssignedInteger n) :
    S c (int_unsafe_invert info x) (fun r => WF info (cv w) x → WF info (cv w) r ∧ r.times = 1 ∧
      (V (cv w) x : ZMod wm) * V (cv w) r = 1) := by
  unfold int_unsafe_invert
  refine S.bind (S_assign_int_constant hv hw 1) fun one => S.bind (S_int_div hv hw one x) fun r =>
    S.bind (S_assert_false hw r.1) fun _ => S.pure ?_
  intro hf hd ho hx
  have h1 : 1 < wm := by
    have h1 := hv.w_lo
    have h2 := Nat.one_le_two_pow (n := info.w_ceil_bits - 1)
    omega
  obtain ⟨o1, o2, o3⟩ := ho h1
  obtain ⟨d1, d2, d3, d4⟩ := hd o1 hx
  have hnz : (V (cv w) x : ZMod wm) ≠ 0 := by
    intro h0
    rw [if_pos h0, hf] at d1
    exact zero_ne_one d1
  rw [if_neg hnz, o3] at d4
  exact ⟨d2, d3, by rw [d4]; simp⟩

theorem C_int_unsafe_invert [Fact n.Prime] [Fact wm.Prime] (hv : info.Valid wm) (hdb : info.d_bits % 108 ≠ 0)
    {x : AssignedInteger n} (hx : Honest wm info x) (hnz : (V AssignedValue.val x : ZMod wm) ≠ 0)
    (hok : H → OkI h x) :
    C c h H (int_unsafe_invert info x) (fun r => Honest wm info r ∧ r.times = 1 ∧
      (V AssignedValue.val r : ZMod wm) = (V AssignedValue.val x : ZMod wm)⁻¹) (fun r => OkI h r) := by
  unfold int_unsafe_invert
  refine C.bind (C_assign_int_constant hv (Fact.out : wm.Prime).one_lt) fun one ho => ?_
  refine C.bind (C_int_div hv hdb ho.1 hx fun hH => ⟨hH.2, hok hH.1⟩) fun r hr => ?_
  refine C.bind (C_assert_false (by rw [hr.1, if_neg hnz]) fun hH => hH.2.1) fun _ _ =>
    C.pure ⟨hr.2.1, hr.2.2.1, ?_⟩ fun hH => hH.1.2.2
  rw [hr.2.2.2, ho.2.2]; simp

end Verif
