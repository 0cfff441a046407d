import Verif.Proof.CellsAttr

/-!
# Every operation of the chips hands out cells with values
-/

namespace Verif
variable {n : ℕ} {α β γ : Type} {r : RecordsInner n}

theorem cel_one_line_add {l : List (ValueSchema n × ZMod n)} (hl : In r l) (constant : Option (ZMod n)) :
    W r (one_line_add l constant) In := by
  unfold one_line_add; cellt

theorem cel_sum_with_constant_in_one_line {elems : List (AssignedValue n × ZMod n)} (h_elems : In r elems) (constant : Option (ZMod n)) :
    W r (sum_with_constant_in_one_line elems constant) In := by
  unfold sum_with_constant_in_one_line
  have h : In r (elems.map fun e => pairA e.1 e.2) := in_map h_elems fun _ he => in_A (in_fst he) _
  cellt

theorem cel_sum_chunks {l : List (AssignedValue n × ZMod n)} (h : In r l) {acc : AssignedValue n} (h_acc : In r acc) :
    W r (sum_chunks acc l) In := by
  induction hl : l.length using Nat.strong_induction_on generalizing l acc r with
  | _ k ih =>
    rcases l with _ | ⟨a, _ | ⟨b, _ | ⟨c, l⟩⟩⟩
    · unfold sum_chunks; exact .ret h_acc
    · unfold sum_chunks
      exact cel_sum_with_constant_in_one_line (in_append (l' := [(acc, 1)]) h (by cells)) _
    · unfold sum_chunks
      exact cel_sum_with_constant_in_one_line (in_append (l' := [(acc, 1)]) h (by cells)) _
    · unfold sum_chunks
      have h3 : In r [a, b, c] := in_take (k := 3) h
      have h4 : In r l := in_drop (k := 3) h
      refine (cel_sum_with_constant_in_one_line (in_append (l' := [(acc, 1)]) h3 (by cells)) _).bind
        fun acc r' hr ha => ih _ ?_ (h4.mono hr) ha rfl
      subst hl
      simp only [List.length_cons]
      omega

theorem cel_sum_with_constant {elems : List (AssignedValue n × ZMod n)} (h : In r elems) (constant : Option (ZMod n)) :
    W r (sum_with_constant elems constant) In := by
  unfold sum_with_constant; cellt

theorem cel_add {a : AssignedValue n} (h_a : In r a) {b : AssignedValue n} (h_b : In r b) :
    W r (add a b) In := by
  unfold add; cellt

theorem cel_add_constant {a : AssignedValue n} (h_a : In r a) (c : ZMod n) :
    W r (add_constant a c) In := by
  unfold add_constant; cellt

theorem cel_sub {a : AssignedValue n} (h_a : In r a) {b : AssignedValue n} (h_b : In r b) :
    W r (sub a b) In := by
  unfold sub; cellt

theorem cel_mul {a : AssignedValue n} (h_a : In r a) {b : AssignedValue n} (h_b : In r b) :
    W r (mul a b) In := by
  unfold mul; cellt

theorem cel_mul_add_constant {a : AssignedValue n} (h_a : In r a) {b : AssignedValue n} (h_b : In r b) (c : ZMod n) :
    W r (mul_add_constant a b c) In := by
  unfold mul_add_constant; cellt

theorem cel_mul_add {a : AssignedValue n} (h_a : In r a) {b : AssignedValue n} (h_b : In r b) (ab_coeff : ZMod n) {c : AssignedValue n} (h_c : In r c) (c_coeff : ZMod n) :
    W r (mul_add a b ab_coeff c c_coeff) In := by
  unfold mul_add; cellt

theorem cel_mul_add_lines {l : List (MulTerm n)} (h : In r l) (first : Bool) (t : ZMod n) :
    W r (mul_add_lines first t l) (fun _ _ => True) := by
  induction l generalizing first t r with
  | nil => unfold mul_add_lines; exact .any
  | cons a l ih =>
    have h1 := (in_cons_iff.1 h).1
    have h2 := (in_cons_iff.1 h).2
    unfold mul_add_lines
    refine W.bind (cel_one_line_with_last ?_ ?_ _ _ _) fun _ r' hr _ => ih (h2.mono hr) _ _
    · cells
    · cases first <;> exact in_U _ _

theorem cel_mul_add_with_next_line {ls : List (MulTerm n)} (h : In r ls) :
    W r (mul_add_with_next_line ls) In := by
  unfold mul_add_with_next_line
  refine (cel_rassert _).bind fun _ r' hr _ => ?_
  have h := h.mono hr
  rcases ls with _ | ⟨a, _ | ⟨b, l⟩⟩
  · refine (cel_mul_add_lines h _ _).bind ?_
    cellt
  · have h1 := (in_cons_iff.1 h).1
    exact cel_mul_add (in_ta h1) (in_tb h1) _ (in_tc h1) _
  · refine (cel_mul_add_lines h _ _).bind ?_
    cellt

theorem cel_invert_unsafe {a : AssignedValue n} (h_a : In r a) :
    W r (invert_unsafe a) In := by
  unfold invert_unsafe; cellt

theorem cel_invert {a : AssignedValue n} (h_a : In r a) :
    W r (invert a) In := by
  unfold invert; cellt

theorem cel_is_zero {a : AssignedValue n} (h_a : In r a) :
    W r (is_zero a) In := by
  unfold is_zero; cellt

theorem cel_div_unsafe {a : AssignedValue n} (h_a : In r a) {b : AssignedValue n} (h_b : In r b) :
    W r (div_unsafe a b) In := by
  unfold div_unsafe; cellt

theorem cel_assign_constant (v : ZMod n) :
    W r (assign_constant v) In := by
  unfold assign_constant; cellt

theorem cel_assign (v : ZMod n) :
    W r (assign v) In := by
  unfold assign; cellt

theorem cel_assign_bit (a : ZMod n) :
    W r (assign_bit a) In := by
  unfold assign_bit; cellt

theorem cel_assert_equal {a : AssignedValue n} (h_a : In r a) {b : AssignedValue n} (h_b : In r b) :
    W r (assert_equal a b) In := by
  unfold assert_equal; cellt

theorem cel_assert_constant {a : AssignedValue n} (h_a : In r a) (b : ZMod n) :
    W r (assert_constant a b) In := by
  unfold assert_constant; cellt

theorem cel_assert_bit {a : AssignedValue n} (h_a : In r a) :
    W r (assert_bit a) In := by
  unfold assert_bit; cellt

theorem cel_and {a : AssignedCondition n} (h_a : In r a) {b : AssignedCondition n} (h_b : In r b) :
    W r (and a b) In := by
  unfold and; cellt

theorem cel_not {a : AssignedCondition n} (h_a : In r a) :
    W r (not a) In := by
  unfold not; cellt

theorem cel_not_and {a : AssignedCondition n} (h_a : In r a) {b : AssignedCondition n} (h_b : In r b) :
    W r (not_and a b) In := by
  unfold not_and; cellt

theorem cel_or {a : AssignedCondition n} (h_a : In r a) {b : AssignedCondition n} (h_b : In r b) :
    W r (or a b) In := by
  unfold or; cellt

theorem cel_xor {a : AssignedCondition n} (h_a : In r a) {b : AssignedCondition n} (h_b : In r b) :
    W r (xor a b) In := by
  unfold xor; cellt

theorem cel_xnor {a : AssignedCondition n} (h_a : In r a) {b : AssignedCondition n} (h_b : In r b) :
    W r (xnor a b) In := by
  unfold xnor; cellt

theorem cel_bisec {cond : AssignedCondition n} (h_cond : In r cond) {a : AssignedValue n} (h_a : In r a) {b : AssignedValue n} (h_b : In r b) :
    W r (bisec cond a b) In := by
  unfold bisec; cellt

theorem cel_bisec_cond {cond : AssignedCondition n} (h_cond : In r cond) {a : AssignedCondition n} (h_a : In r a) {b : AssignedCondition n} (h_b : In r b) :
    W r (bisec_cond cond a b) In := by
  unfold bisec_cond; cellt

theorem cel_assert_true {a : AssignedCondition n} (h_a : In r a) :
    W r (assert_true a) In := by
  unfold assert_true; cellt

theorem cel_assert_false {a : AssignedCondition n} (h_a : In r a) :
    W r (assert_false a) In := by
  unfold assert_false; cellt

theorem cel_try_assert_false {a : AssignedCondition n} (h_a : In r a) :
    W r (try_assert_false a) (fun _ _ => True) := by
  unfold try_assert_false; cellt

theorem cel_assign_nonleading_limb (info : RangeInfo n) (bn : ℕ) :
    W r (assign_nonleading_limb info bn) In := by
  unfold assign_nonleading_limb; cellt

theorem cel_assign_w_ceil_leading_limb (info : RangeInfo n) (bn : ℕ) :
    W r (assign_w_ceil_leading_limb info bn) In := by
  unfold assign_w_ceil_leading_limb; cellt

theorem cel_assign_d_leading_limb (info : RangeInfo n) (bn : ℕ) :
    W r (assign_d_leading_limb info bn) In := by
  unfold assign_d_leading_limb; cellt

theorem cel_div_rem (a b : ℕ) :
    W r (div_rem a b) In := by
  unfold div_rem; split <;> cellt

theorem cel_usub (a b : ℕ) :
    W r (usub a b) In := by
  unfold usub; split <;> cellt

theorem cel_get_w_bn (info : RangeInfo n) {a : AssignedInteger n} (h_a : In r a) :
    W r (get_w_bn info a) (fun _ _ => True) := by
  unfold get_w_bn; cellt

theorem cel_get_w (info : RangeInfo n) {a : AssignedInteger n} (h_a : In r a) :
    W r (get_w info a) (fun _ _ => True) := by
  unfold get_w; cellt

theorem cel_native_of (info : RangeInfo n) {limbs : List (AssignedValue n)} (h_limbs : In r limbs) :
    W r (native_of info limbs) In := by
  unfold native_of; cellt

theorem cel_assign_w (info : RangeInfo n) (w : ℕ) :
    W r (assign_w info w) In := by
  unfold assign_w; cellt

theorem cel_assign_d (info : RangeInfo n) (d : ℕ) :
    W r (assign_d info d) In := by
  unfold assign_d; cellt

theorem cel_mul_column (info : RangeInfo n) {a : AssignedInteger n} (h_a : In r a) {b : AssignedInteger n} (h_b : In r b) {d : List (AssignedValue n)} (h_d : In r d) (pos : ℕ) :
    W r (mul_column info a b d pos) In := by
  unfold mul_column; cellt

theorem cel_mul_carry (info : RangeInfo n) {u : AssignedValue n} (h_u : In r u) :
    W r (mul_carry info u) In := by
  unfold mul_carry; cellt

theorem cel_mul_carries (info : RangeInfo n) (borrow : ZMod n) {columns : List (AssignedValue n)} (h_columns : In r columns) {rem : AssignedInteger n} (h_rem : In r rem) {v : AssignedValue n × AssignedValue n} (h_v : In r v) (x0 : List ℕ) :
    W r (mul_carries info borrow columns rem v x0) In := by
  induction x0 generalizing v r with
  | nil => unfold mul_carries; exact .ret h_v
  | cons i is ih =>
    unfold mul_carries
    cellt
    apply ih <;> cells

theorem cel_add_constraints_for_mul_equation_on_limbs (info : RangeInfo n) {a : AssignedInteger n} (h_a : In r a) {b : AssignedInteger n} (h_b : In r b) {d : List (AssignedValue n)} (h_d : In r d) {rem : AssignedInteger n} (h_rem : In r rem) :
    W r (add_constraints_for_mul_equation_on_limbs info a b d rem) In := by
  unfold add_constraints_for_mul_equation_on_limbs; cellt

theorem cel_add_constraints_for_mul_equation_on_native (info : RangeInfo n) {a : AssignedInteger n} (h_a : In r a) {b : AssignedInteger n} (h_b : In r b) {d_native : AssignedValue n} (h_d_native : In r d_native) {rem : AssignedInteger n} (h_rem : In r rem) :
    W r (add_constraints_for_mul_equation_on_native info a b d_native rem) In := by
  unfold add_constraints_for_mul_equation_on_native; cellt

theorem cel_reduce_limbs (info : RangeInfo n) {a : AssignedInteger n} (h_a : In r a) {assigned_rem : AssignedInteger n} (h_assigned_rem : In r assigned_rem) {assigned_d : AssignedValue n} (h_assigned_d : In r assigned_d) (d : ℕ) (rem : ℕ) {last_v : Option (AssignedValue n)} (h_last_v : In r last_v) (x0 : List ℕ) :
    W r (reduce_limbs info a assigned_rem assigned_d d rem last_v x0) In := by
  induction x0 generalizing last_v r with
  | nil => unfold reduce_limbs; exact .ret (in_unit _)
  | cons i is ih =>
    unfold reduce_limbs
    cases last_v with
    | none =>
      cellt
      apply ih <;> assumption
    | some v =>
      have h := in_of_some h_last_v
      clear h_last_v
      cellt
      apply ih <;> assumption

theorem cel_reduce (info : RangeInfo n) {a : AssignedInteger n} (h_a : In r a) :
    W r (reduce info a) In := by
  unfold reduce; cellt

theorem cel_conditionally_reduce (info : RangeInfo n) {a : AssignedInteger n} (h_a : In r a) :
    W r (conditionally_reduce info a) In := by
  unfold conditionally_reduce; cellt

theorem cel_int_add (info : RangeInfo n) {a : AssignedInteger n} (h_a : In r a) {b : AssignedInteger n} (h_b : In r b) :
    W r (int_add info a b) In := by
  unfold int_add; cellt

theorem cel_int_sub (info : RangeInfo n) {a : AssignedInteger n} (h_a : In r a) {b : AssignedInteger n} (h_b : In r b) :
    W r (int_sub info a b) In := by
  unfold int_sub; cellt

theorem cel_int_neg (info : RangeInfo n) {a : AssignedInteger n} (h_a : In r a) :
    W r (int_neg info a) In := by
  unfold int_neg; cellt

theorem cel_int_mul (info : RangeInfo n) {a : AssignedInteger n} (h_a : In r a) {b : AssignedInteger n} (h_b : In r b) :
    W r (int_mul info a b) In := by
  unfold int_mul; cellt

theorem cel_is_pure_zero {a : AssignedInteger n} (h_a : In r a) :
    W r (is_pure_zero a) In := by
  unfold is_pure_zero; cellt

theorem cel_is_pure_w_limbs (info : RangeInfo n) {a : AssignedInteger n} (h_a : In r a) {is_eq : AssignedCondition n} (h_is_eq : In r is_eq) (x0 : List ℕ) :
    W r (is_pure_w_limbs info a is_eq x0) In := by
  induction x0 generalizing is_eq r with
  | nil => unfold is_pure_w_limbs; exact .ret h_is_eq
  | cons i is ih =>
    unfold is_pure_w_limbs
    cellt
    apply ih <;> cells

theorem cel_is_pure_w_modulus (info : RangeInfo n) {a : AssignedInteger n} (h_a : In r a) :
    W r (is_pure_w_modulus info a) In := by
  unfold is_pure_w_modulus; cellt

theorem cel_is_int_zero (info : RangeInfo n) {a : AssignedInteger n} (h_a : In r a) :
    W r (is_int_zero info a) In := by
  unfold is_int_zero; cellt

theorem cel_is_int_equal (info : RangeInfo n) {a : AssignedInteger n} (h_a : In r a) {b : AssignedInteger n} (h_b : In r b) :
    W r (is_int_equal info a b) In := by
  unfold is_int_equal; cellt

set_option maxHeartbeats 2000000 in
theorem cel_int_div (info : RangeInfo n) {a : AssignedInteger n} (h_a : In r a) {b : AssignedInteger n} (h_b : In r b) :
    W r (int_div info a b) In := by
  unfold int_div; cellt

theorem cel_assign_int_constant (info : RangeInfo n) (w : ℕ) :
    W r (assign_int_constant info w) In := by
  unfold assign_int_constant; cellt

theorem cel_int_unsafe_invert (info : RangeInfo n) {x : AssignedInteger n} (h_x : In r x) :
    W r (int_unsafe_invert info x) In := by
  unfold int_unsafe_invert; cellt

theorem cel_assert_int_equal (info : RangeInfo n) {a : AssignedInteger n} (h_a : In r a) {b : AssignedInteger n} (h_b : In r b) :
    W r (assert_int_equal info a b) In := by
  unfold assert_int_equal; cellt

theorem cel_int_square (info : RangeInfo n) {a : AssignedInteger n} (h_a : In r a) :
    W r (int_square info a) In := by
  unfold int_square; cellt

theorem cel_int_mul_small_constant (info : RangeInfo n) {a : AssignedInteger n} (h_a : In r a) (b : ℕ) :
    W r (int_mul_small_constant info a b) In := by
  unfold int_mul_small_constant; cellt

theorem cel_bisec_int (info : RangeInfo n) {cond : AssignedCondition n} (h_cond : In r cond) {a : AssignedInteger n} (h_a : In r a) {b : AssignedInteger n} (h_b : In r b) :
    W r (bisec_int info cond a b) In := by
  unfold bisec_int; cellt

end Verif
