import Verif.Proof.CounterAttr

/-!
# Every operation of the chips keeps counters small
-/

set_option linter.unusedVariables false

namespace Verif
variable {n : ℕ} {α β γ : Type} {r : Tag n}

theorem cnt_one_line_add {l : List (ValueSchema n × ZMod n)} (hl : Small r l) (constant : Option (ZMod n)) :
    Safe r (one_line_add l constant) Small := by
  unfold one_line_add; countert

theorem cnt_sum_with_constant_in_one_line {elems : List (AssignedValue n × ZMod n)} (h_elems : Small r elems) (constant : Option (ZMod n)) :
    Safe r (sum_with_constant_in_one_line elems constant) Small := by
  unfold sum_with_constant_in_one_line
  have h : Small r (elems.map fun e => pairA e.1 e.2) := small_map h_elems fun _ he => small_A (small_fst he) _
  countert

theorem cnt_sum_chunks {l : List (AssignedValue n × ZMod n)} (h : Small r l) {acc : AssignedValue n} (h_acc : Small r acc) :
    Safe r (sum_chunks acc l) Small := by
  induction hl : l.length using Nat.strong_induction_on generalizing l acc r with
  | _ k ih =>
    rcases l with _ | ⟨a, _ | ⟨b, _ | ⟨c, l⟩⟩⟩
    · unfold sum_chunks; exact .ret h_acc
    · unfold sum_chunks
      exact cnt_sum_with_constant_in_one_line (small_append (l' := [(acc, 1)]) h (by counters)) _
    · unfold sum_chunks
      exact cnt_sum_with_constant_in_one_line (small_append (l' := [(acc, 1)]) h (by counters)) _
    · unfold sum_chunks
      have h3 : Small r [a, b, c] := small_take (k := 3) h
      have h4 : Small r l := small_drop (k := 3) h
      refine (cnt_sum_with_constant_in_one_line (small_append (l' := [(acc, 1)]) h3 (by counters)) _).bind
        fun acc r' hr ha => ih _ ?_ (h4.mono hr) ha rfl
      subst hl
      simp only [List.length_cons]
      omega

theorem cnt_sum_with_constant {elems : List (AssignedValue n × ZMod n)} (h : Small r elems) (constant : Option (ZMod n)) :
    Safe r (sum_with_constant elems constant) Small := by
  unfold sum_with_constant; countert

theorem cnt_add {a : AssignedValue n} (h_a : Small r a) {b : AssignedValue n} (h_b : Small r b) :
    Safe r (add a b) Small := by
  unfold add; countert

theorem cnt_add_constant {a : AssignedValue n} (h_a : Small r a) (c : ZMod n) :
    Safe r (add_constant a c) Small := by
  unfold add_constant; countert

theorem cnt_sub {a : AssignedValue n} (h_a : Small r a) {b : AssignedValue n} (h_b : Small r b) :
    Safe r (sub a b) Small := by
  unfold sub; countert

theorem cnt_mul {a : AssignedValue n} (h_a : Small r a) {b : AssignedValue n} (h_b : Small r b) :
    Safe r (mul a b) Small := by
  unfold mul; countert

theorem cnt_mul_add_constant {a : AssignedValue n} (h_a : Small r a) {b : AssignedValue n} (h_b : Small r b) (c : ZMod n) :
    Safe r (mul_add_constant a b c) Small := by
  unfold mul_add_constant; countert

theorem cnt_mul_add {a : AssignedValue n} (h_a : Small r a) {b : AssignedValue n} (h_b : Small r b) (ab_coeff : ZMod n) {c : AssignedValue n} (h_c : Small r c) (c_coeff : ZMod n) :
    Safe r (mul_add a b ab_coeff c c_coeff) Small := by
  unfold mul_add; countert

theorem cnt_mul_add_lines {l : List (MulTerm n)} (h : Small r l) (first : Bool) (t : ZMod n) :
    Safe r (mul_add_lines first t l) (fun _ _ => True) := by
  induction l generalizing first t r with
  | nil => unfold mul_add_lines; exact .any
  | cons a l ih =>
    have h1 := (small_cons_iff.1 h).1
    have h2 := (small_cons_iff.1 h).2
    unfold mul_add_lines
    refine Safe.bind (cnt_one_line_with_last ?_ ?_ _ _ _) fun _ r' hr _ => ih (h2.mono hr) _ _
    · counters
    · cases first <;> exact small_U _ _

theorem cnt_mul_add_with_next_line {ls : List (MulTerm n)} (h : Small r ls) :
    Safe r (mul_add_with_next_line ls) Small := by
  unfold mul_add_with_next_line
  refine (cnt_rassert _).bind fun _ r' hr _ => ?_
  have h := h.mono hr
  rcases ls with _ | ⟨a, _ | ⟨b, l⟩⟩
  · refine (cnt_mul_add_lines h _ _).bind ?_
    countert
  · have h1 := (small_cons_iff.1 h).1
    exact cnt_mul_add (small_ta h1) (small_tb h1) _ (small_tc h1) _
  · refine (cnt_mul_add_lines h _ _).bind ?_
    countert

theorem cnt_invert_unsafe {a : AssignedValue n} (h_a : Small r a) :
    Safe r (invert_unsafe a) Small := by
  unfold invert_unsafe; countert

theorem cnt_invert {a : AssignedValue n} (h_a : Small r a) :
    Safe r (invert a) Small := by
  unfold invert; countert

theorem cnt_is_zero {a : AssignedValue n} (h_a : Small r a) :
    Safe r (is_zero a) Small := by
  unfold is_zero; countert

theorem cnt_div_unsafe {a : AssignedValue n} (h_a : Small r a) {b : AssignedValue n} (h_b : Small r b) :
    Safe r (div_unsafe a b) Small := by
  unfold div_unsafe; countert

theorem cnt_assign_constant (v : ZMod n) :
    Safe r (assign_constant v) Small := by
  unfold assign_constant; countert

theorem cnt_assign (v : ZMod n) :
    Safe r (assign v) Small := by
  unfold assign; countert

theorem cnt_assign_bit (a : ZMod n) :
    Safe r (assign_bit a) Small := by
  unfold assign_bit; countert

theorem cnt_assert_equal {a : AssignedValue n} (h_a : Small r a) {b : AssignedValue n} (h_b : Small r b) :
    Safe r (assert_equal a b) Small := by
  unfold assert_equal; countert

theorem cnt_assert_constant {a : AssignedValue n} (h_a : Small r a) (b : ZMod n) :
    Safe r (assert_constant a b) Small := by
  unfold assert_constant; countert

theorem cnt_assert_bit {a : AssignedValue n} (h_a : Small r a) :
    Safe r (assert_bit a) Small := by
  unfold assert_bit; countert

theorem cnt_and {a : AssignedCondition n} (h_a : Small r a) {b : AssignedCondition n} (h_b : Small r b) :
    Safe r (and a b) Small := by
  unfold and; countert

theorem cnt_not {a : AssignedCondition n} (h_a : Small r a) :
    Safe r (not a) Small := by
  unfold not; countert

theorem cnt_not_and {a : AssignedCondition n} (h_a : Small r a) {b : AssignedCondition n} (h_b : Small r b) :
    Safe r (not_and a b) Small := by
  unfold not_and; countert

theorem cnt_or {a : AssignedCondition n} (h_a : Small r a) {b : AssignedCondition n} (h_b : Small r b) :
    Safe r (or a b) Small := by
  unfold or; countert

theorem cnt_xor {a : AssignedCondition n} (h_a : Small r a) {b : AssignedCondition n} (h_b : Small r b) :
    Safe r (xor a b) Small := by
  unfold xor; countert

theorem cnt_xnor {a : AssignedCondition n} (h_a : Small r a) {b : AssignedCondition n} (h_b : Small r b) :
    Safe r (xnor a b) Small := by
  unfold xnor; countert

theorem cnt_bisec {cond : AssignedCondition n} (h_cond : Small r cond) {a : AssignedValue n} (h_a : Small r a) {b : AssignedValue n} (h_b : Small r b) :
    Safe r (bisec cond a b) Small := by
  unfold bisec; countert

theorem cnt_bisec_cond {cond : AssignedCondition n} (h_cond : Small r cond) {a : AssignedCondition n} (h_a : Small r a) {b : AssignedCondition n} (h_b : Small r b) :
    Safe r (bisec_cond cond a b) Small := by
  unfold bisec_cond; countert

theorem cnt_assert_true {a : AssignedCondition n} (h_a : Small r a) :
    Safe r (assert_true a) Small := by
  unfold assert_true; countert

theorem cnt_assert_false {a : AssignedCondition n} (h_a : Small r a) :
    Safe r (assert_false a) Small := by
  unfold assert_false; countert

theorem cnt_try_assert_false {a : AssignedCondition n} (h_a : Small r a) :
    Safe r (try_assert_false a) (fun _ _ => True) := by
  unfold try_assert_false; countert

theorem cnt_assign_nonleading_limb (info : RangeInfo n) [Six info] (bn : ℕ) :
    Safe r (assign_nonleading_limb info bn) Small := by
  unfold assign_nonleading_limb; countert

theorem cnt_assign_w_ceil_leading_limb (info : RangeInfo n) [Six info] (bn : ℕ) :
    Safe r (assign_w_ceil_leading_limb info bn) Small := by
  unfold assign_w_ceil_leading_limb; countert

theorem cnt_assign_d_leading_limb (info : RangeInfo n) [Six info] (bn : ℕ) :
    Safe r (assign_d_leading_limb info bn) Small := by
  unfold assign_d_leading_limb; countert

theorem cnt_div_rem (a b : ℕ) :
    Safe r (div_rem a b) Small := by
  unfold div_rem; split <;> countert

theorem cnt_usub (a b : ℕ) :
    Safe r (usub a b) Small := by
  unfold usub; split <;> countert

theorem cnt_get_w_bn (info : RangeInfo n) [Six info] (a : AssignedInteger n) :
    Safe r (get_w_bn info a) (fun _ _ => True) := by
  unfold get_w_bn; countert

theorem cnt_get_w (info : RangeInfo n) [Six info] (a : AssignedInteger n) :
    Safe r (get_w info a) (fun _ _ => True) := by
  unfold get_w; countert

theorem cnt_native_of (info : RangeInfo n) [Six info] {limbs : List (AssignedValue n)} (h_limbs : Small r limbs) :
    Safe r (native_of info limbs) Small := by
  unfold native_of; countert

theorem cnt_assign_w (info : RangeInfo n) [Six info] (w : ℕ) :
    Safe r (assign_w info w) Small := by
  unfold assign_w; countert

theorem cnt_assign_d (info : RangeInfo n) [Six info] (d : ℕ) :
    Safe r (assign_d info d) Small := by
  unfold assign_d; countert

theorem cnt_mul_column (info : RangeInfo n) [Six info] {a : AssignedInteger n} (h_a : Small r a) {b : AssignedInteger n} (h_b : Small r b) {d : List (AssignedValue n)} (h_d : Small r d) (pos : ℕ) :
    Safe r (mul_column info a b d pos) Small := by
  unfold mul_column; countert

theorem cnt_mul_carry (info : RangeInfo n) [Six info] {u : AssignedValue n} (h_u : Small r u) :
    Safe r (mul_carry info u) Small := by
  unfold mul_carry; countert

theorem cnt_mul_carries (info : RangeInfo n) [Six info] (borrow : ZMod n) {columns : List (AssignedValue n)} (h_columns : Small r columns) {rem : AssignedInteger n} (h_rem : Small r rem) {v : AssignedValue n × AssignedValue n} (h_v : Small r v) (x0 : List ℕ) :
    Safe r (mul_carries info borrow columns rem v x0) Small := by
  induction x0 generalizing v r with
  | nil => unfold mul_carries; exact .ret h_v
  | cons i is ih =>
    unfold mul_carries
    countert
    apply ih <;> counters

theorem cnt_add_constraints_for_mul_equation_on_limbs (info : RangeInfo n) [Six info] {a : AssignedInteger n} (h_a : Small r a) {b : AssignedInteger n} (h_b : Small r b) {d : List (AssignedValue n)} (h_d : Small r d) {rem : AssignedInteger n} (h_rem : Small r rem) :
    Safe r (add_constraints_for_mul_equation_on_limbs info a b d rem) Small := by
  unfold add_constraints_for_mul_equation_on_limbs; countert

theorem cnt_add_constraints_for_mul_equation_on_native (info : RangeInfo n) [Six info] {a : AssignedInteger n} (h_a : Small r a) {b : AssignedInteger n} (h_b : Small r b) {d_native : AssignedValue n} (h_d_native : Small r d_native) {rem : AssignedInteger n} (h_rem : Small r rem) :
    Safe r (add_constraints_for_mul_equation_on_native info a b d_native rem) Small := by
  unfold add_constraints_for_mul_equation_on_native; countert

theorem cnt_reduce_limbs (info : RangeInfo n) [Six info] (a assigned_rem : AssignedInteger n) {assigned_d : AssignedValue n} (h_assigned_d : Small r assigned_d) (d : ℕ) (rem : ℕ) {last_v : Option (AssignedValue n)} (h_last_v : Small r last_v) (x0 : List ℕ) :
    Safe r (reduce_limbs info a assigned_rem assigned_d d rem last_v x0) Small := by
  induction x0 generalizing last_v r with
  | nil => unfold reduce_limbs; exact .ret (small_unit _)
  | cons i is ih =>
    unfold reduce_limbs
    cases last_v with
    | none =>
      countert
      apply ih <;> assumption
    | some v =>
      have h := small_of_some h_last_v
      clear h_last_v
      countert
      apply ih <;> assumption

theorem cnt_reduce_one (info : RangeInfo n) [Six info] (a : AssignedInteger n) :
    Safe r (reduce info a) fun _ x => x.times = 1 := by
  have hs : ∀ d, Safe r (assign_w info d) fun _ x => x.times = 1 := fun d s => ⟨(cnt_assign_w (r := r) info d s).1, fun x t e => by
    unfold assign_w at e
    obtain ⟨_, _, _, e⟩ := run_bind_ok.1 e
    obtain ⟨_, _, _, e⟩ := run_bind_ok.1 e
    obtain ⟨_, _, _, e⟩ := run_bind_ok.1 e
    cases e
    rfl⟩
  unfold reduce
  by_cases h : a.times = 1
  · rw [if_pos h]
    exact .pure fun _ _ => h
  rw [if_neg h]
  refine (cnt_rassert _).bind fun _ _ _ _ => ?_
  refine (cnt_get_w_bn info a).bind fun _ _ _ _ => (cnt_div_rem _ _).bind fun x _ _ _ => ?_
  obtain ⟨d, rem⟩ := x
  refine (hs rem).bind fun y _ _ hy => (cnt_assign_common _).bind fun z _ _ _ => ?_
  refine (cnt_one_line_with_last (small_list_iff.2 fun _ _ => small_none rfl) (small_none rfl) _ _ _).bind fun _ _ _ _ => ?_
  exact (cnt_reduce_limbs info a y (small_val z) d rem small_none' _).bind fun _ _ _ _ => .pure fun _ _ => hy

theorem cnt_reduce (info : RangeInfo n) [Six info] (a : AssignedInteger n) : Safe r (reduce info a) Small :=
  (cnt_reduce_one info a).mono fun _ _ h => small_of_times (by omega)

theorem cnt_conditionally_reduce (info : RangeInfo n) [Six info] (a : AssignedInteger n) :
    Safe r (conditionally_reduce info a) Small := by
  unfold conditionally_reduce
  rw [Six.bits (info := info)]
  by_cases h : a.times > 2 ^ (6 - 2)
  · rw [if_pos h]; exact cnt_reduce info a
  · rw [if_neg h]; exact .ret (small_of_times (by omega))

theorem cnt_int_add (info : RangeInfo n) [Six info] {a : AssignedInteger n} (h_a : Small r a) {b : AssignedInteger n} (h_b : Small r b) :
    Safe r (int_add info a b) Small := by
  unfold int_add; countert
  exact lt_u64 (by have := small_times h_a; have := small_times h_b; omega)

theorem cnt_int_sub (info : RangeInfo n) [Six info] {a : AssignedInteger n} (h_a : Small r a) {b : AssignedInteger n} (h_b : Small r b) :
    Safe r (int_sub info a b) Small := by
  unfold int_sub; countert
  all_goals exact lt_u64 (by have := small_times h_a; have := small_times h_b; omega)

theorem cnt_int_neg (info : RangeInfo n) [Six info] {a : AssignedInteger n} (h_a : Small r a) :
    Safe r (int_neg info a) Small := by
  unfold int_neg; countert
  exact lt_u64 (by have := small_times h_a; omega)

theorem cnt_int_mul (info : RangeInfo n) [Six info] {a : AssignedInteger n} (h_a : Small r a) {b : AssignedInteger n} (h_b : Small r b) :
    Safe r (int_mul info a b) Small := by
  unfold int_mul; countert

theorem cnt_is_pure_zero {a : AssignedInteger n} (h_a : Small r a) :
    Safe r (is_pure_zero a) Small := by
  unfold is_pure_zero; countert

theorem cnt_is_pure_w_limbs (info : RangeInfo n) [Six info] {a : AssignedInteger n} (h_a : Small r a) {is_eq : AssignedCondition n} (h_is_eq : Small r is_eq) (x0 : List ℕ) :
    Safe r (is_pure_w_limbs info a is_eq x0) Small := by
  induction x0 generalizing is_eq r with
  | nil => unfold is_pure_w_limbs; exact .ret h_is_eq
  | cons i is ih =>
    unfold is_pure_w_limbs
    countert
    apply ih <;> counters

theorem cnt_is_pure_w_modulus (info : RangeInfo n) [Six info] {a : AssignedInteger n} (h_a : Small r a) :
    Safe r (is_pure_w_modulus info a) Small := by
  unfold is_pure_w_modulus; countert

theorem cnt_is_int_zero (info : RangeInfo n) [Six info] {a : AssignedInteger n} (h_a : Small r a) :
    Safe r (is_int_zero info a) Small := by
  unfold is_int_zero; countert

theorem cnt_is_int_equal (info : RangeInfo n) [Six info] {a : AssignedInteger n} (h_a : Small r a) {b : AssignedInteger n} (h_b : Small r b) :
    Safe r (is_int_equal info a b) Small := by
  unfold is_int_equal; countert

set_option maxHeartbeats 2000000 in
theorem cnt_int_div (info : RangeInfo n) [Six info] {a : AssignedInteger n} (h_a : Small r a) {b : AssignedInteger n} (h_b : Small r b) :
    Safe r (int_div info a b) Small := by
  unfold int_div; countert

theorem cnt_assign_int_constant (info : RangeInfo n) [Six info] (w : ℕ) :
    Safe r (assign_int_constant info w) Small := by
  unfold assign_int_constant; countert

theorem cnt_int_unsafe_invert (info : RangeInfo n) [Six info] {x : AssignedInteger n} (h_x : Small r x) :
    Safe r (int_unsafe_invert info x) Small := by
  unfold int_unsafe_invert; countert

theorem cnt_assert_int_equal (info : RangeInfo n) [Six info] {a : AssignedInteger n} (h_a : Small r a) {b : AssignedInteger n} (h_b : Small r b) :
    Safe r (assert_int_equal info a b) Small := by
  unfold assert_int_equal; countert

theorem cnt_int_square (info : RangeInfo n) [Six info] {a : AssignedInteger n} (h_a : Small r a) :
    Safe r (int_square info a) Small := by
  unfold int_square; countert

theorem cnt_int_mul_small_constant (info : RangeInfo n) [Six info] {a : AssignedInteger n} (h_a : Small r a) (b : ℕ) :
    Safe r (int_mul_small_constant info a b) Small := by
  unfold int_mul_small_constant
  rw [Six.bits (info := info)]
  refine Safe.bindR (cnt_rassert _) fun _ _ hb _ _ => ?_
  obtain ⟨s, t, hb⟩ := hb
  have hb : b < 16 := by
    by_contra h
    unfold rassert at hb
    rw [decide_eq_false (by omega)] at hb
    cases hb
  have key : ∀ x ≤ 16, x * b < 2 ^ 64 := fun x hx =>
    lt_u64 (Nat.lt_of_le_of_lt (Nat.mul_le_mul hx hb.le) (by decide))
  refine (cnt_fits_u64 (key _ (small_times h_a))).bind fun _ _ _ _ => ?_
  refine Safe.bind (P := Small) ?_ fun a' _ _ ha' => ?_
  · exact .ite (cnt_reduce info a) (.ret h_a)
  refine (cnt_mapM_same _ fun i _ _ => ?_).bind fun limbs _ _ _ => ?_
  · countert
  · refine (cnt_fits_u64 (key _ (small_times ha'))).bind fun _ _ _ _ => ?_
    countert

theorem cnt_bisec_int (info : RangeInfo n) [Six info] {cond : AssignedCondition n} (h_cond : Small r cond) {a : AssignedInteger n} (h_a : Small r a) {b : AssignedInteger n} (h_b : Small r b) :
    Safe r (bisec_int info cond a b) Small := by
  unfold bisec_int
  countert
  exact small_int (max_le (small_times h_a) (small_times h_b))

end Verif
