import Mathlib.Data.Nat.Size
import Mathlib.Tactic.Linarith
import Mathlib.Tactic.Ring
import Verif.Model.RangeInfo

/-!
# What a successful `RangeInfo::new` guarantees
-/

namespace Verif
namespace RangeInfo

theorem bind_ok {α β : Type} {x : Except Panic α} {f : α → Except Panic β} {b : β} :
    (x >>= f) = .ok b ↔ ∃ a, x = .ok a ∧ f a = .ok b := by
  rcases x with e | a
  · simp [bind, Except.bind]
  · simp [bind, Except.bind]

theorem pure_ok {α : Type} {a b : α} : (pure a : Except Panic α) = .ok b ↔ a = b := by
  simp [pure, Except.pure]

theorem check_ok {b : Bool} {u : Unit} : check b = .ok u ↔ b = true := by
  unfold check; split <;> simp_all

theorem usub_ok {a b k : ℕ} : usub a b = .ok k ↔ b ≤ a ∧ k = a - b := by
  unfold usub; split <;> simp_all [eq_comm]

theorem exists_unit {P : Unit → Prop} : (∃ u, P u) ↔ P () := ⟨fun ⟨_, h⟩ => h, fun h => ⟨_, h⟩⟩

/-- Value of a little-endian list of limbs in base `2^108`. -/
def value : List ℕ → ℕ
  | [] => 0
  | x :: l => x + 2 ^ 108 * value l

theorem leading_ok {bits : ℕ} {r : ℕ × ℕ} (h : bits_to_leading_bits_and_decompose bits 18 = .ok r) :
    36 ≤ (if bits % 108 = 0 then 108 else bits % 108) ∧
    (if bits % 108 = 0 then 108 else bits % 108) ≤ r.2 * 18 ∧ 1 ≤ r.2 ∧ r.2 ≤ 6 := by
  unfold bits_to_leading_bits_and_decompose at h
  simp only [bind_ok, check_ok, exists_unit] at h
  simp only [show RANGE_VALUE_DECOMPOSE * 18 = 108 from rfl, decide_eq_true_eq] at h
  generalize hL : (if bits % 108 = 0 then 108 else bits % 108) = L at h ⊢
  obtain ⟨h1, h2, h3⟩ := h
  split at h3
  · rw [pure_ok] at h3; subst h3; simp only; omega
  · rw [pure_ok] at h3; subst h3; simp only; omega

theorem split_upper_ok (t : ℕ) : ∀ (k upper : ℕ) {ls : List ℕ} {top : ℕ},
    split_upper 108 t k upper = .ok (ls, top) →
      ls.length = k ∧ (∀ x ∈ ls, 2 ^ 108 * t ≤ x ∧ x < 2 ^ 108 * (t + 1)) ∧
      upper = value ls + top * 2 ^ (108 * k)
  | 0, upper, ls, top, h => by
    rw [split_upper, pure_ok] at h
    cases h
    simp [value]
  | k + 1, upper, ls, top, h => by
    rw [split_upper] at h
    simp only [bind_ok, check_ok, exists_unit, usub_ok, pure_ok, decide_eq_true_eq, Prod.exists] at h
    obtain ⟨_, ⟨h1, rfl⟩, h2, h3, ls', top', h4, h5⟩ := h
    cases h5
    obtain ⟨i1, i2, i3⟩ := split_upper_ok t k _ h4
    set r := upper % 2 ^ 108 + 2 ^ 108 * t with hr
    refine ⟨by simp [i1], ?_, ?_⟩
    · intro x hx
      rcases List.mem_cons.1 hx with rfl | hx
      · refine ⟨by omega, h3⟩
      · exact i2 x hx
    · have hd : upper - r = 2 ^ 108 * ((upper - r) / 2 ^ 108) := by
        rw [Nat.mul_div_cancel']
        have : upper - r = 2 ^ 108 * (upper / 2 ^ 108 - t) := by
          have h := Nat.div_add_mod upper (2 ^ 108)
          rw [Nat.mul_sub]; omega
        rw [this]; exact dvd_mul_right _ _
      have : upper = r + 2 ^ 108 * ((upper - r) / 2 ^ 108) := by omega
      rw [this, i3, value, Nat.mul_succ, pow_add]
      ring

/-- Everything the proofs use about the parameters. -/
structure Valid {n : ℕ} (w : ℕ) (info : RangeInfo n) : Prop where
  limb_bits : info.limb_bits = 108
  limbs_eq : info.limbs = (info.w_ceil_bits + 107) / 108
  limbs_ge : 3 ≤ info.limbs
  lead_ge : 36 ≤ info.w_ceil_bits % 108
  lead_dec : info.w_ceil_bits % 108 ≤ info.w_ceil_leading_decompose * 18
  w_ceil : info.w_ceil = 2 ^ info.w_ceil_bits
  w_lo : 2 ^ (info.w_ceil_bits - 1) ≤ w - 1
  w_hi : w ≤ 2 ^ info.w_ceil_bits
  w_modulus : info.w_modulus = w
  n_modulus : info.n_modulus = n
  mask : info.common_range_mask = 2 ^ 18 - 1
  limb_modulus : info.limb_modulus = 2 ^ 108
  w_limbs_bn : info.w_modulus_limbs_le_bn = (List.range info.limbs).map fun i => limbOf 108 i w
  w_limbs : info.w_modulus_limbs_le = info.w_modulus_limbs_le_bn.map (Nat.cast : ℕ → ZMod n)
  coeffs : info.limb_coeffs = (List.range info.limbs).map fun i => ((2 ^ (i * 108) : ℕ) : ZMod n)
  limb_modulus_n : info.limb_modulus_n = ((2 ^ 108 : ℕ) : ZMod n)
  overflow_bits : info.overflow_bits = 6
  overflow_limit : info.overflow_limit = 64
  w_native : info.w_native = (w : ZMod n)
  d_bits : info.d_bits = info.w_ceil_bits + 13
  d_lead : 36 ≤ (if info.d_bits % 108 = 0 then 108 else info.d_bits % 108)
  d_dec : (if info.d_bits % 108 = 0 then 108 else info.d_bits % 108) ≤ info.d_leading_decompose * 18
  dec_ge : 1 ≤ info.w_ceil_leading_decompose ∧ 1 ≤ info.d_leading_decompose
  n_floor : 2 ^ info.n_floor_bits < n - 1 ∧ n - 1 ≤ 2 ^ (info.n_floor_bits + 1)
  nf_le : info.n_floor_bits ≤ info.w_ceil_bits
  pure_w_limbs : info.pure_w_check_limbs = (info.w_ceil_bits - info.n_floor_bits + 107) / 108
  reduce_limbs : info.reduce_check_limbs = (info.w_ceil_bits + 18 - info.n_floor_bits + 107) / 108
  mul_limbs : info.mul_check_limbs = (info.w_ceil_bits * 2 + 13 - info.n_floor_bits + 107) / 108
  lcm_pure : 2 ^ info.w_ceil_bits ≤ Nat.lcm n (2 ^ (108 * info.pure_w_check_limbs))
  red_a : 2 ^ info.w_ceil_bits * 63 - 1 ≤ (2 ^ 18 - 1) * w
  lcm_red : (2 ^ 18 - 1) * w + 2 ^ info.w_ceil_bits ≤ Nat.lcm n (2 ^ (108 * info.reduce_check_limbs))
  red_v : (2 ^ 18 - 1) * info.max_wi + (2 ^ 108 - 1) + (2 ^ 108 - 1) + 64 * 2 ^ 108
    ≤ (2 ^ 108 - 1) * 2 ^ 108
  red_n : (2 ^ 18 - 1) * info.max_wi + (2 ^ 108 - 1) + (2 ^ 108 - 1) + 64 * 2 ^ 108 < n
  mul_a : (2 ^ info.w_ceil_bits * 63 - 1) * (2 ^ info.w_ceil_bits * 63 - 1) ≤ (2 ^ info.d_bits - 1) * w
  lcm_mul1 : (2 ^ info.w_ceil_bits * 63 - 1) * (2 ^ info.w_ceil_bits * 63 - 1)
    < Nat.lcm n (2 ^ (108 * info.mul_check_limbs))
  lcm_mul2 : (2 ^ info.d_bits - 1) * w + (2 ^ info.w_ceil_bits - 1)
    < Nat.lcm n (2 ^ (108 * info.mul_check_limbs))
  mul_borrow : info.limbs * (2 ^ 108 - 1) * info.max_wi + (2 ^ 108 - 1)
    ≤ (info.limbs * 2 ^ 108 + 2) * 2 ^ 108 - (info.limbs * 2 ^ 108 + 2)
  mul_v : (2 ^ 108 * 63) * (2 ^ 108 * 63) * info.limbs + 2 ^ 108 * (info.limbs * 2 ^ 108 + 2)
    ≤ (2 ^ 108 * 2 ^ 18 - 1) * 2 ^ 108
  n_big : (2 ^ 108 * 2 ^ 18 - 1) * 2 ^ 108 < n
  table_length : info.w_modulus_of_ceil_times.length = 64
  table_zero : info.w_modulus_of_ceil_times[0]? = some none
  table : ∀ t, 1 ≤ t → t < 64 → ∃ us : List ℕ,
    info.w_modulus_of_ceil_times[t]? = some (some (us.map (Nat.cast : ℕ → ZMod n))) ∧
    us.length = info.limbs ∧
    (∀ i x, us[i]? = some x → i < info.limbs - 1 → 2 ^ 108 * t ≤ x ∧ x < 2 ^ 108 * (t + 1)) ∧
    (∀ x, us[info.limbs - 1]? = some x →
      2 ^ (info.w_ceil_bits % 108) * t ≤ x ∧ x < 2 ^ (info.w_ceil_bits % 108) * (t + 1)) ∧
    w ∣ value us ∧ 2 ^ info.w_ceil_bits * t ≤ value us ∧ value us < 2 ^ info.w_ceil_bits * (t + 1)

theorem value_append (l : List ℕ) (x : ℕ) : value (l ++ [x]) = value l + x * 2 ^ (108 * l.length) := by
  induction l with
  | nil => simp [value]
  | cons a l ih => rw [List.cons_append, value, value, ih, List.length_cons, Nat.mul_succ, pow_add]; ring

theorem find_ok {limbs wcb w t : ℕ} {us : List ℕ} (hw : w ≤ 2 ^ wcb) (hl : 1 ≤ limbs)
    (h : find_w_modulus_of_ceil_times_bn limbs 108 wcb w t = .ok us) :
    us.length = limbs ∧
    (∀ i x, us[i]? = some x → i < limbs - 1 → 2 ^ 108 * t ≤ x ∧ x < 2 ^ 108 * (t + 1)) ∧
    (∀ x, us[limbs - 1]? = some x → 2 ^ (wcb % 108) * t ≤ x ∧ x < 2 ^ (wcb % 108) * (t + 1)) ∧
    w ∣ value us ∧ 2 ^ wcb * t ≤ value us ∧ value us < 2 ^ wcb * (t + 1) := by
  unfold find_w_modulus_of_ceil_times_bn at h
  by_cases hw0 : w = 0
  · subst hw0
    simp at h
    cases h
  simp only [hw0, if_false, bind_ok, check_ok, exists_unit, pure_ok, decide_eq_true_eq,
    Prod.exists] at h
  obtain ⟨ls, top, h1, h2, h3, rfl⟩ := h
  obtain ⟨i1, i2, i3⟩ := split_upper_ok t _ _ h1
  have hv : value (ls ++ [top]) = w * (if 2 ^ wcb * t % w > 0 then 2 ^ wcb * t / w + 1 else 2 ^ wcb * t / w) := by
    rw [value_append, i3, i1]
  have hdm := Nat.div_add_mod (2 ^ wcb * t) w
  have hlt := Nat.mod_lt (2 ^ wcb * t) (Nat.pos_of_ne_zero hw0)
  refine ⟨by simp [i1]; omega, ?_, ?_, ?_, ?_, ?_⟩
  · intro i x hx hi
    rw [List.getElem?_append_left (by omega)] at hx
    exact i2 x (List.mem_of_getElem? hx)
  · intro x hx
    rw [List.getElem?_append_right (by omega), i1] at hx
    simp at hx
    subst hx
    exact ⟨h2, h3⟩
  · rw [hv]; exact dvd_mul_right _ _
  · rw [hv]
    split
    · rw [Nat.mul_succ]; omega
    · omega
  · rw [hv, Nat.mul_succ]
    have : 0 < 2 ^ wcb := by positivity
    split
    · rw [Nat.mul_succ]; omega
    · omega


theorem mapM_range_ok {α : Type} {f : ℕ → Except Panic α} : ∀ {l : List ℕ} {r : List α},
    l.mapM f = .ok r → List.Forall₂ (fun i x => f i = .ok x) l r
  | [], r, h => by rw [List.mapM_nil, pure_ok] at h; subst h; exact .nil
  | i :: l, r, h => by
    rw [List.mapM_cons] at h
    simp only [bind_ok, pure_ok] at h
    obtain ⟨x, hx, xs, hxs, rfl⟩ := h
    exact .cons hx (mapM_range_ok hxs)

theorem bits_spec {x k : ℕ} (h : 1 ≤ k) (hk : bits x = k) : 2 ^ (k - 1) ≤ x ∧ x < 2 ^ k := by
  subst hk
  exact ⟨Nat.lt_size.1 (Nat.sub_lt h one_pos), Nat.lt_size_self x⟩

theorem fill_ok {n : ℕ} {info : RangeInfo n} {table} (hlb : info.limb_bits = 108)
    (hov : info.overflow_limit = 64)
    (h : info.fill_ceil_times = .ok table) :
    table.length = 64 ∧ table[0]? = some none ∧ ∀ t, 1 ≤ t → t < 64 → ∃ us : List ℕ,
      table[t]? = some (some (us.map (Nat.cast : ℕ → ZMod n))) ∧
      find_w_modulus_of_ceil_times_bn info.limbs 108 info.w_ceil_bits info.w_modulus t = .ok us := by
  unfold fill_ceil_times at h
  simp only [bind_ok, pure_ok] at h
  obtain ⟨l, h1, rfl⟩ := h
  have h2 := mapM_range_ok h1
  have hlen := h2.length_eq
  rw [hov] at hlen h2
  simp only [List.length_range] at hlen
  refine ⟨by simp [← hlen], rfl, fun t ht1 ht2 => ?_⟩
  obtain ⟨t, rfl⟩ : ∃ k, t = k + 1 := ⟨t - 1, by omega⟩
  have hi : t < l.length := by omega
  have h3 := (List.forall₂_iff_get.1 h2).2 t (by simpa using (by omega : t < 63)) hi
  simp only [List.get_eq_getElem, List.getElem_range] at h3
  unfold find_w_modulus_of_ceil_times at h3
  simp only [bind_ok, pure_ok, hlb] at h3
  obtain ⟨us, h4, h5⟩ := h3
  exact ⟨us, by simp [hi, h5], h4⟩

theorem value_lt : ∀ (l : List ℕ), (∀ x ∈ l, x < 2 ^ 108 * 2) → value l + 4 ≤ 4 * 2 ^ (108 * l.length)
  | [], _ => by simp [value]
  | x :: l, h => by
    have h1 := value_lt l fun y hy => h y (by simp [hy])
    have h2 := h x (by simp)
    rw [value, List.length_cons, Nat.mul_succ, pow_add]
    generalize 2 ^ (108 * l.length) = q at *
    omega

/-- `RangeInfo::new` rejects a `w` whose bit length is a multiple of the limb size. -/
theorem lead_ne_zero {wcb w : ℕ} {us : List ℕ} (hw : w ≤ 2 ^ wcb) (h3 : 3 ≤ (wcb + 107) / 108)
    (h : find_w_modulus_of_ceil_times_bn ((wcb + 107) / 108) 108 wcb w 1 = .ok us) : wcb % 108 ≠ 0 := by
  intro h0
  obtain ⟨i1, i2, i3, -, i5, -⟩ := find_ok hw (by omega) h
  obtain ⟨k, hk⟩ : ∃ k, wcb = 108 * (k + 1) := ⟨wcb / 108 - 1, by omega⟩
  have hk' : (wcb + 107) / 108 = k + 1 := by omega
  rw [hk', Nat.add_sub_cancel] at i2 i3
  rw [hk'] at i1
  have hlen : k < us.length := by omega
  have htop := (i3 us[k] (List.getElem?_eq_getElem hlen)).2
  rw [h0] at htop
  have hsplit : us = us.take k ++ [us[k]] := by
    rw [List.take_append_getElem, List.take_of_length_le (by omega)]
  have hv : value us = value (us.take k) + us[k] * 2 ^ (108 * k) := by
    conv_lhs => rw [hsplit]
    rw [value_append, List.length_take, min_eq_left hlen.le]
  have hb := value_lt (us.take k) fun x hx => by
    obtain ⟨i, hi, rfl⟩ := List.mem_iff_getElem.1 hx
    rw [List.length_take] at hi
    have := (i2 i us[i] (List.getElem?_eq_getElem _) (by omega)).2
    simpa using this
  rw [List.length_take, min_eq_left hlen.le] at hb
  have h5 : 2 ^ 108 * 2 ^ (108 * k) ≤ value us := by
    rw [hk, Nat.mul_succ 108, pow_add] at i5; linarith
  have : us[k] ≤ 1 := by omega
  have : us[k] * 2 ^ (108 * k) ≤ 1 * 2 ^ (108 * k) := Nat.mul_le_mul_right _ this
  generalize 2 ^ (108 * k) = q at *
  omega

theorem new_valid {w n : ℕ} {info : RangeInfo n} (h : new w n 18 6 = .ok info) : info.Valid w := by
  unfold new at h
  simp only [bind_ok, check_ok, exists_unit, usub_ok, pure_ok, decide_eq_true_eq, Prod.exists] at h
  obtain ⟨-, -, hw1, wk, ⟨hwk, rfl⟩, hw2, _, wdec, hwd, nf, ⟨hnf, rfl⟩, hn1, hn2, _, _, -, db, hdb,
    _, ddec, hdd, pw, ⟨hpw, rfl⟩, mc, ⟨hmc, rfl⟩, rc, ⟨hrc, rfl⟩, table, htab, hpre, hinfo⟩ := h
  simp only [show 18 * RANGE_VALUE_DECOMPOSE = 108 from rfl, show (2 : ℕ) ^ 6 = 64 from rfl] at hinfo htab hpre
  have hdb' : db = bits (w - 1) + 13 := by
    unfold d_bits_of at hdb
    simp only [bind_ok, check_ok, exists_unit, pure_ok] at hdb
    omega
  subst hdb'
  generalize hwcb : bits (w - 1) = wcb at *
  generalize hnfb : bits (n - 1) - 1 = nfb at *
  have hwp : 0 < 2 ^ (wcb - 1) := by positivity
  have hnp : 0 < 2 ^ nfb := by positivity
  have hww : w - 1 + 1 = w := by omega
  have hnn : n - 1 + 1 = n := by omega
  have hw : w ≤ 2 ^ wcb := by omega
  rw [hww, hnn] at hinfo htab hpre
  obtain ⟨t1, t2, t3⟩ := fill_ok rfl rfl htab
  unfold pre_check pre_check_pure_w pre_check_reduce pre_check_mul at hpre
  simp only [bind_ok, check_ok, exists_unit, decide_eq_true_eq, COMMON_RANGE_BITS, Nat.reduceSub,
    Nat.succ_sub_one] at hpre
  obtain ⟨p1, ⟨r1, r2, r3, r4, r5, r6⟩, ⟨m1, m2, m3, m4, m5, m6⟩, p2⟩ := hpre
  have hlimbs : 3 ≤ (wcb + 107) / 108 := p2
  have hlead0 : wcb % 108 ≠ 0 := by
    obtain ⟨us, -, hus⟩ := t3 1 le_rfl (by norm_num)
    exact lead_ne_zero hw hlimbs hus
  have hl := leading_ok hwd
  have hd := leading_ok hdd
  rw [if_neg hlead0] at hl
  have hmax1 : (wcb * 2 + 6 * 2).max (wcb + 13 + wcb) = wcb * 2 + 13 := by
    show max _ _ = _; omega
  have hmax2 : (wcb + 6).max (18 + wcb) = wcb + 18 := by
    show max _ _ = _; omega
  subst hinfo
  refine
    { limb_bits := rfl, limbs_eq := rfl, limbs_ge := p2, lead_ge := hl.1, lead_dec := hl.2.1,
      w_ceil := rfl, w_lo := hw2, w_hi := hw, w_modulus := rfl, n_modulus := rfl, mask := rfl,
      limb_modulus := rfl, w_limbs_bn := rfl, w_limbs := rfl, coeffs := rfl, limb_modulus_n := rfl,
      overflow_bits := rfl, overflow_limit := rfl, w_native := ?_, d_bits := rfl, d_lead := hd.1,
      d_dec := hd.2.1, dec_ge := ⟨hl.2.2.1, hd.2.2.1⟩, n_floor := ⟨hn1, hn2⟩, nf_le := hpw,
      pure_w_limbs := rfl, reduce_limbs := ?_, mul_limbs := ?_, lcm_pure := p1, red_a := r1,
      lcm_red := r2, red_v := r3, red_n := r5, mul_a := m1, lcm_mul1 := m2, lcm_mul2 := m3,
      mul_borrow := m4, mul_v := m5, n_big := m6,
      table_length := t1, table_zero := t2, table := ?_ }
  · show ((w % n : ℕ) : ZMod n) = w
    simp
  · show ((wcb + 6).max (18 + wcb) - nfb + 108 - 1) / 108 = _
    rw [hmax2]; rfl
  · show ((wcb * 2 + 6 * 2).max (wcb + 13 + wcb) - nfb + 108 - 1) / 108 = _
    rw [hmax1]; rfl
  · intro t ht1 ht2
    obtain ⟨us, u1, u2⟩ := t3 t ht1 ht2
    obtain ⟨f1, f2, f3, f4, f5, f6⟩ := find_ok hw (show 1 ≤ (wcb + 107) / 108 by omega) u2
    exact ⟨us, u1, f1, f2, f3, f4, f5, f6⟩

end RangeInfo
end Verif
