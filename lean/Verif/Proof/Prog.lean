import Verif.Proof.ProgAttr
import Verif.Model.EccChip
import Verif.Model.Scalar

/-!
# Programs built from the primitives

Every modelled operation is a sequence of calls of the six primitive writers, with panics in between. Facts about the
records that only depend on this (rows are written once, nothing is overwritten, ...) are proved by induction on
`Prog`.
-/

namespace Verif
variable {n : ℕ}

/-- Operations composed of the primitive writers; cached values only if `cc`. -/
inductive Built {n : ℕ} (cc : Prop) : {α : Type} → M n α → Prop where
  | pure {α : Type} (a : α) : Built cc (pure a : M n α)
  | bind {α β : Type} {m : M n α} {k : α → M n β} (hm : Built cc m) (hk : ∀ a, Built cc (k a)) : Built cc (m >>= k)
  | panic {α : Type} (p : Panic) : Built cc (panic p : M n α)
  | one_line (pairs : List (ValueSchema n × ZMod n)) (constant : Option (ZMod n)) (mul : List (ZMod n))
      (next : Option (ZMod n)) (hne : pairs ≠ []) : Built cc (one_line pairs constant mul next)
  | one_line_with_last (pairs : List (ValueSchema n × ZMod n)) (last : ValueSchema n × ZMod n)
      (constant : Option (ZMod n)) (mul : List (ZMod n)) (next : Option (ZMod n)) :
      Built cc (one_line_with_last pairs last constant mul next)
  | assign_range (v : ZMod n × List (ZMod n)) (bits : ℕ) : Built cc (assign_range v bits)
  | assign_common (bn : ℕ) : Built cc (assign_common bn)
  | assign_cache_value (h : cc) (v : AssignedValue n) (offset group_index selector : ℕ) :
      Built cc (assign_cache_value v offset group_index selector)
  | assign_selected_value (v : AssignedValue n) (offset group_index : ℕ) (selector : AssignedValue n) :
      Built cc (assign_selected_value v offset group_index selector)

/-- Operations composed of the primitive writers. -/
abbrev Prog {α : Type} (m : M n α) : Prop := Built True m

variable {cc : Prop}

theorem Built.weaken {α : Type} {m : M n α} (h : Built cc m) : Prog m := by
  induction h with
  | pure a => exact .pure a
  | bind _ _ hm hk => exact .bind hm hk
  | panic p => exact .panic p
  | one_line _ _ _ _ hne => exact .one_line _ _ _ _ hne
  | one_line_with_last => exact .one_line_with_last ..
  | assign_range => exact .assign_range ..
  | assign_common => exact .assign_common ..
  | assign_cache_value => exact .assign_cache_value trivial ..
  | assign_selected_value => exact .assign_selected_value ..

theorem prog_mapM {α β : Type} {f : α → M n β} (hf : ∀ a, Built cc (f a)) (l : List α) : Built cc (l.mapM f) := by
  induction l with
  | nil => rw [List.mapM_nil]; exact .pure _
  | cons x l ih => rw [List.mapM_cons]; exact .bind (hf x) fun _ => .bind ih fun _ => .pure _

/-- Decompose a `Prog` or `Built` goal along binds, case distinctions and known lemmas. -/
macro "prog" : tactic => `(tactic|
  repeat' first
    | with_reducible exact List.cons_ne_nil _ _
    | intro _
    | with_reducible exact Built.pure _
    | with_reducible assumption
    | with_reducible exact trivial
    | with_reducible apply Built.bind
    | with_reducible apply prog_mapM
    | head_lemma prog
    | with_reducible apply_assumption
    | split)

theorem prog_panic {α : Type} (p : Panic) : Built cc (panic p : M n α) := .panic p
theorem prog_one_line (pairs : List (ValueSchema n × ZMod n)) (constant : Option (ZMod n)) (mul : List (ZMod n))
    (next : Option (ZMod n)) (hne : pairs ≠ []) : Built cc (one_line pairs constant mul next) := .one_line _ _ _ _ hne
theorem prog_one_line_with_last (pairs : List (ValueSchema n × ZMod n)) (last : ValueSchema n × ZMod n)
    (constant : Option (ZMod n)) (mul : List (ZMod n)) (next : Option (ZMod n)) :
    Built cc (one_line_with_last pairs last constant mul next) := .one_line_with_last ..
theorem prog_assign_range (v : ZMod n × List (ZMod n)) (bits : ℕ) : Built cc (assign_range v bits) := .assign_range ..
theorem prog_assign_common (bn : ℕ) : Built cc (assign_common bn : M n _) := .assign_common ..
theorem prog_assign_cache_value (hcc : cc) (v : AssignedValue n) (offset group_index selector : ℕ) :
    Built cc (assign_cache_value v offset group_index selector) := .assign_cache_value hcc ..
theorem prog_assign_selected_value (v : AssignedValue n) (offset group_index : ℕ) (selector : AssignedValue n) :
    Built cc (assign_selected_value v offset group_index selector) := .assign_selected_value ..

theorem prog_rassert (b : Bool) : Built cc (rassert b : M n Unit) := by unfold rassert; prog
theorem prog_fits_u64 (x : ℕ) : Built cc (fits_u64 x : M n Unit) := by unfold fits_u64; prog
theorem prog_unwrap {α : Type} (o : Option α) : Built cc (unwrap o : M n α) := by unfold unwrap; prog
theorem prog_index {α : Type} (l : List α) (i : ℕ) : Built cc (index l i : M n α) := by unfold index; prog

theorem prog_tryB {α β : Type} {m : M n (Except UnsafeError α)} {k : α → M n (Except UnsafeError β)} (hm : Built cc m)
    (hk : ∀ a, Built cc (k a)) : Built cc (tryB m k) := by unfold tryB; prog

theorem prog_one_line_add (pairs : List (ValueSchema n × ZMod n)) (constant : Option (ZMod n)) (hne : pairs ≠ []) :
    Built cc (one_line_add pairs constant) := .one_line _ _ _ _ hne

theorem prog_sum_with_constant_in_one_line (elems : List (AssignedValue n × ZMod n)) (constant : Option (ZMod n)) :
    Built cc (sum_with_constant_in_one_line elems constant) := by unfold sum_with_constant_in_one_line; prog

theorem prog_sum_chunks (acc : AssignedValue n) (l : List (AssignedValue n × ZMod n)) :
    Built cc (sum_chunks acc l) := by
  fun_induction sum_chunks acc l <;> prog

theorem prog_sum_with_constant (elems : List (AssignedValue n × ZMod n)) (constant : Option (ZMod n)) :
    Built cc (sum_with_constant elems constant) := by
  unfold sum_with_constant; prog

theorem prog_add (a b : AssignedValue n) :
    Built cc (add a b) := by
  unfold add; prog

theorem prog_add_constant (a : AssignedValue n) (c : ZMod n) :
    Built cc (add_constant a c) := by
  unfold add_constant; prog

theorem prog_sub (a b : AssignedValue n) :
    Built cc (sub a b) := by
  unfold sub; prog

theorem prog_mul (a b : AssignedValue n) :
    Built cc (mul a b) := by
  unfold mul; prog

theorem prog_mul_add_constant (a b : AssignedValue n) (c : ZMod n) :
    Built cc (mul_add_constant a b c) := by
  unfold mul_add_constant; prog

theorem prog_mul_add (a b : AssignedValue n) (ab_coeff : ZMod n) (c : AssignedValue n) (c_coeff : ZMod n) :
    Built cc (mul_add a b ab_coeff c c_coeff) := by
  unfold mul_add; prog

theorem prog_mul_add_lines (first : Bool) (t : ZMod n) (l : List (MulTerm n)) :
    Built cc (mul_add_lines first t l) := by
  induction l generalizing first t <;> unfold mul_add_lines <;> prog

theorem prog_mul_add_with_next_line (ls : List (MulTerm n)) :
    Built cc (mul_add_with_next_line ls) := by
  unfold mul_add_with_next_line; prog

theorem prog_invert_unsafe (a : AssignedValue n) :
    Built cc (invert_unsafe a) := by
  unfold invert_unsafe; prog

theorem prog_invert (a : AssignedValue n) :
    Built cc (invert a) := by
  unfold invert; prog

theorem prog_is_zero (a : AssignedValue n) :
    Built cc (is_zero a) := by
  unfold is_zero; prog

theorem prog_div_unsafe (a b : AssignedValue n) :
    Built cc (div_unsafe a b) := by
  unfold div_unsafe; prog

theorem prog_assign_constant (v : ZMod n) :
    Built cc (assign_constant v) := by
  unfold assign_constant; prog

theorem prog_assign (v : ZMod n) :
    Built cc (assign v) := by
  unfold assign; prog

theorem prog_assign_bit (a : ZMod n) :
    Built cc (assign_bit a) := by
  unfold assign_bit; prog

theorem prog_assert_equal (a b : AssignedValue n) :
    Built cc (assert_equal a b) := by
  unfold assert_equal; prog

theorem prog_assert_constant (a : AssignedValue n) (b : ZMod n) :
    Built cc (assert_constant a b) := by
  unfold assert_constant; prog

theorem prog_assert_bit (a : AssignedValue n) :
    Built cc (assert_bit a) := by
  unfold assert_bit; prog

theorem prog_and (a b : AssignedCondition n) :
    Built cc (and a b) := by
  unfold and; prog

theorem prog_not (a : AssignedCondition n) :
    Built cc (not a) := by
  unfold not; prog

theorem prog_not_and (a b : AssignedCondition n) :
    Built cc (not_and a b) := by
  unfold not_and; prog

theorem prog_or (a b : AssignedCondition n) :
    Built cc (or a b) := by
  unfold or; prog

theorem prog_xor (a b : AssignedCondition n) :
    Built cc (xor a b) := by
  unfold xor; prog

theorem prog_xnor (a b : AssignedCondition n) :
    Built cc (xnor a b) := by
  unfold xnor; prog

theorem prog_bisec (cond : AssignedCondition n) (a b : AssignedValue n) :
    Built cc (bisec cond a b) := by
  unfold bisec; prog

theorem prog_bisec_cond (cond a b : AssignedCondition n) :
    Built cc (bisec_cond cond a b) := by
  unfold bisec_cond; prog

theorem prog_assert_true (a : AssignedCondition n) :
    Built cc (assert_true a) := by
  unfold assert_true; prog

theorem prog_assert_false (a : AssignedCondition n) :
    Built cc (assert_false a) := by
  unfold assert_false; prog

theorem prog_try_assert_false (a : AssignedCondition n) :
    Built cc (try_assert_false a) := by
  unfold try_assert_false; prog

theorem prog_assign_nonleading_limb (info : RangeInfo n) (bn : ℕ) :
    Built cc (assign_nonleading_limb info bn) := by
  unfold assign_nonleading_limb; prog

theorem prog_assign_w_ceil_leading_limb (info : RangeInfo n) (bn : ℕ) :
    Built cc (assign_w_ceil_leading_limb info bn) := by
  unfold assign_w_ceil_leading_limb; prog

theorem prog_assign_d_leading_limb (info : RangeInfo n) (bn : ℕ) :
    Built cc (assign_d_leading_limb info bn) := by
  unfold assign_d_leading_limb; prog

theorem prog_div_rem (a b : ℕ) :
    Built cc (div_rem a b : M n _) := by
  unfold div_rem; prog

theorem prog_usub (a b : ℕ) :
    Built cc (usub a b : M n _) := by
  unfold usub; prog

theorem prog_get_w_bn (info : RangeInfo n) (a : AssignedInteger n) :
    Built cc (get_w_bn info a) := by
  unfold get_w_bn; prog

theorem prog_get_w (info : RangeInfo n) (a : AssignedInteger n) :
    Built cc (get_w info a) := by
  unfold get_w; prog

theorem prog_native_of (info : RangeInfo n) (limbs : List (AssignedValue n)) :
    Built cc (native_of info limbs) := by
  unfold native_of; prog

theorem prog_assign_w (info : RangeInfo n) (w : ℕ) :
    Built cc (assign_w info w) := by
  unfold assign_w; prog

theorem prog_assign_d (info : RangeInfo n) (d : ℕ) :
    Built cc (assign_d info d) := by
  unfold assign_d; prog

theorem prog_mul_column (info : RangeInfo n) (a b : AssignedInteger n) (d : List (AssignedValue n)) (pos : ℕ) :
    Built cc (mul_column info a b d pos) := by
  unfold mul_column; prog

theorem prog_mul_carry (info : RangeInfo n) (u : AssignedValue n) :
    Built cc (mul_carry info u) := by
  unfold mul_carry; prog

theorem prog_mul_carries (info : RangeInfo n) (borrow : ZMod n) (columns : List (AssignedValue n))
    (rem : AssignedInteger n) (v : AssignedValue n × AssignedValue n) (l : List ℕ) :
    Built cc (mul_carries info borrow columns rem v l) := by
  induction l generalizing v <;> unfold mul_carries <;> prog

theorem prog_add_constraints_for_mul_equation_on_limbs (info : RangeInfo n) (a b : AssignedInteger n) (d : List (AssignedValue n)) (rem : AssignedInteger n) :
    Built cc (add_constraints_for_mul_equation_on_limbs info a b d rem) := by
  unfold add_constraints_for_mul_equation_on_limbs; prog

theorem prog_add_constraints_for_mul_equation_on_native (info : RangeInfo n) (a b : AssignedInteger n) (d_native : AssignedValue n) (rem : AssignedInteger n) :
    Built cc (add_constraints_for_mul_equation_on_native info a b d_native rem) := by
  unfold add_constraints_for_mul_equation_on_native; prog

theorem prog_reduce_limbs (info : RangeInfo n) (a assigned_rem : AssignedInteger n) (assigned_d : AssignedValue n) (d rem : ℕ) (last_v : Option (AssignedValue n)) (x0 : List ℕ) :
    Built cc (reduce_limbs info a assigned_rem assigned_d d rem last_v x0) := by
  fun_induction reduce_limbs info a assigned_rem assigned_d d rem last_v x0 <;> prog

theorem prog_reduce (info : RangeInfo n) (a : AssignedInteger n) :
    Built cc (reduce info a) := by
  unfold reduce; prog

theorem prog_conditionally_reduce (info : RangeInfo n) (a : AssignedInteger n) :
    Built cc (conditionally_reduce info a) := by
  unfold conditionally_reduce; prog

theorem prog_int_add (info : RangeInfo n) (a b : AssignedInteger n) :
    Built cc (int_add info a b) := by
  unfold int_add; prog

theorem prog_int_sub (info : RangeInfo n) (a b : AssignedInteger n) :
    Built cc (int_sub info a b) := by
  unfold int_sub; prog

theorem prog_int_neg (info : RangeInfo n) (a : AssignedInteger n) :
    Built cc (int_neg info a) := by
  unfold int_neg; prog

theorem prog_int_mul (info : RangeInfo n) (a b : AssignedInteger n) :
    Built cc (int_mul info a b) := by
  unfold int_mul; prog

theorem prog_is_pure_zero (a : AssignedInteger n) :
    Built cc (is_pure_zero a) := by
  unfold is_pure_zero; prog

theorem prog_is_pure_w_limbs (info : RangeInfo n) (a : AssignedInteger n) (is_eq : AssignedCondition n) (x0 : List ℕ) :
    Built cc (is_pure_w_limbs info a is_eq x0) := by
  fun_induction is_pure_w_limbs info a is_eq x0 <;> prog

theorem prog_is_pure_w_modulus (info : RangeInfo n) (a : AssignedInteger n) :
    Built cc (is_pure_w_modulus info a) := by
  unfold is_pure_w_modulus; prog

theorem prog_is_int_zero (info : RangeInfo n) (a : AssignedInteger n) :
    Built cc (is_int_zero info a) := by
  unfold is_int_zero; prog

theorem prog_is_int_equal (info : RangeInfo n) (a b : AssignedInteger n) :
    Built cc (is_int_equal info a b) := by
  unfold is_int_equal; prog

theorem prog_int_div (info : RangeInfo n) (a b : AssignedInteger n) :
    Built cc (int_div info a b) := by
  unfold int_div; prog

theorem prog_assign_int_constant (info : RangeInfo n) (w : ℕ) :
    Built cc (assign_int_constant info w) := by
  unfold assign_int_constant; prog

theorem prog_int_unsafe_invert (info : RangeInfo n) (x : AssignedInteger n) :
    Built cc (int_unsafe_invert info x) := by
  unfold int_unsafe_invert; prog

theorem prog_assert_int_equal (info : RangeInfo n) (a b : AssignedInteger n) :
    Built cc (assert_int_equal info a b) := by
  unfold assert_int_equal; prog

theorem prog_int_square (info : RangeInfo n) (a : AssignedInteger n) :
    Built cc (int_square info a) := by
  unfold int_square; prog

theorem prog_int_mul_small_constant (info : RangeInfo n) (a : AssignedInteger n) (b : ℕ) :
    Built cc (int_mul_small_constant info a b) := by
  unfold int_mul_small_constant; prog

theorem prog_bisec_int (info : RangeInfo n) (cond : AssignedCondition n) (a b : AssignedInteger n) :
    Built cc (bisec_int info cond a b) := by
  unfold bisec_int; prog

theorem prog_assign_constant_point (info : RangeInfo n) (c : Option (ℕ × ℕ)) :
    Built cc (assign_constant_point info c) := by
  unfold assign_constant_point; prog

theorem prog_assign_point (info : RangeInfo n) (b : ℕ) (c : Option (ℕ × ℕ)) :
    Built cc (assign_point info b c) := by
  unfold assign_point; prog

theorem prog_assign_non_zero_point (info : RangeInfo n) (b : ℕ) (c : Option (ℕ × ℕ)) :
    Built cc (assign_non_zero_point info b c) := by
  unfold assign_non_zero_point; prog

theorem prog_assign_identity (info : RangeInfo n) :
    Built cc (assign_identity info) := by
  unfold assign_identity; prog

theorem prog_bisec_point (info : RangeInfo n) (cond : AssignedCondition n) (a b : AssignedPoint n) :
    Built cc (bisec_point info cond a b) := by
  unfold bisec_point; prog

theorem prog_bisec_curvature (info : RangeInfo n) (cond : AssignedCondition n) (a b : AssignedCurvature n) :
    Built cc (bisec_curvature info cond a b) := by
  unfold bisec_curvature; prog

theorem prog_bisec_point_with_curvature (info : RangeInfo n) (cond : AssignedCondition n) (a b : AssignedPointWithCurvature n) :
    Built cc (bisec_point_with_curvature info cond a b) := by
  unfold bisec_point_with_curvature; prog

theorem prog_lambda_to_point_non_zero (info : RangeInfo n) (l : AssignedInteger n) (a b : AssignedNonZeroPoint n) :
    Built cc (lambda_to_point_non_zero info l a b) := by
  unfold lambda_to_point_non_zero; prog

theorem prog_lambda_to_point (info : RangeInfo n) (lambda : AssignedCurvature n) (a b : AssignedPoint n) :
    Built cc (lambda_to_point info lambda a b) := by
  unfold lambda_to_point; prog

theorem prog_ecc_add (info : RangeInfo n) (a : AssignedPointWithCurvature n) (b : AssignedPoint n) :
    Built cc (ecc_add info a b) := by
  unfold ecc_add; prog

theorem prog_ecc_double (info : RangeInfo n) (order : ℕ) (a : AssignedPointWithCurvature n) :
    Built cc (ecc_double info order a) := by
  unfold ecc_double; prog

theorem prog_ecc_assert_equal (info : RangeInfo n) (a b : AssignedPoint n) :
    Built cc (ecc_assert_equal info a b) := by
  unfold ecc_assert_equal; prog

theorem prog_ecc_neg (info : RangeInfo n) (a : AssignedPoint n) :
    Built cc (ecc_neg info a) := by
  unfold ecc_neg; prog

theorem prog_ecc_reduce (info : RangeInfo n) (a : AssignedPoint n) :
    Built cc (ecc_reduce info a) := by
  unfold ecc_reduce; prog

theorem prog_tangent_slope (info : RangeInfo n) (x y : AssignedInteger n) :
    Built cc (tangent_slope info x y) := by
  unfold tangent_slope; prog

theorem prog_to_point_with_curvature (info : RangeInfo n) (a : AssignedPoint n) :
    Built cc (to_point_with_curvature info a) := by
  unfold to_point_with_curvature; prog

theorem prog_ecc_reduce_with_curvature (info : RangeInfo n) (a : AssignedPoint n) :
    Built cc (ecc_reduce_with_curvature info a) := by
  unfold ecc_reduce_with_curvature; prog

theorem prog_ecc_encode (info : RangeInfo n) (p : AssignedPoint n) :
    Built cc (ecc_encode info p) := by
  unfold ecc_encode; prog

theorem prog_ecc_add_unsafe (info : RangeInfo n) (a b : AssignedNonZeroPoint n) :
    Built cc (ecc_add_unsafe info a b) := by
  unfold ecc_add_unsafe; prog

theorem prog_ecc_double_unsafe (info : RangeInfo n) (a : AssignedNonZeroPoint n) :
    Built cc (ecc_double_unsafe info a) := by
  unfold ecc_double_unsafe; prog

theorem prog_ecc_neg_non_zero (info : RangeInfo n) (a : AssignedNonZeroPoint n) :
    Built cc (ecc_neg_non_zero info a) := by
  unfold ecc_neg_non_zero; prog

theorem prog_ecc_reduce_non_zero (info : RangeInfo n) (a : AssignedNonZeroPoint n) :
    Built cc (ecc_reduce_non_zero info a) := by
  unfold ecc_reduce_non_zero; prog

theorem prog_ecc_bisec_non_zero_point (info : RangeInfo n) (cond : AssignedCondition n) (a b : AssignedNonZeroPoint n) :
    Built cc (ecc_bisec_non_zero_point info cond a b) := by
  unfold ecc_bisec_non_zero_point; prog

theorem prog_bisec_pairs (info : RangeInfo n) (bit : AssignedCondition n) (x0 : List (AssignedNonZeroPoint n)) :
    Built cc (bisec_pairs info bit x0) := by
  fun_induction bisec_pairs info bit x0 <;> prog

theorem prog_bisec_rounds (info : RangeInfo n) (candidates : List (AssignedNonZeroPoint n)) (x0 : List (AssignedCondition n)) :
    Built cc (bisec_rounds info candidates x0) := by
  fun_induction bisec_rounds info candidates x0 <;> prog

theorem prog_bisec_candidate_non_zero (info : RangeInfo n) (candidates : List (AssignedNonZeroPoint n)) (group_bits : List (AssignedCondition n)) :
    Built cc (bisec_candidate_non_zero info candidates group_bits) := by
  unfold bisec_candidate_non_zero; prog

theorem prog_pick_candidate_non_zero (candidates : List (AssignedNonZeroPoint n)) (group_bits : List (AssignedCondition n)) :
    Built cc (pick_candidate_non_zero candidates group_bits) := by
  unfold pick_candidate_non_zero; prog

theorem prog_cache_limbs (hcc : cc) (limbs : List (AssignedValue n)) (sc g offset : ℕ) (x0 : List ℕ) :
    Built cc (cache_limbs limbs sc g offset x0) := by
  fun_induction cache_limbs limbs sc g offset x0 <;> prog

theorem prog_assign_cache_integer (hcc : cc) (info : RangeInfo n) (p : AssignedInteger n) (sc g offset : ℕ) :
    Built cc (assign_cache_integer info p sc g offset) := by
  unfold assign_cache_integer; prog

theorem prog_assign_selected_integer (info : RangeInfo n) (p : AssignedInteger n) (sc : AssignedValue n) (g offset : ℕ) :
    Built cc (assign_selected_integer info p sc g offset) := by
  unfold assign_selected_integer; prog

theorem prog_assign_cache_point (hcc : cc) (info : RangeInfo n) (p : AssignedPointWithCurvature n) (g sc : ℕ) :
    Built cc (assign_cache_point info p g sc) := by
  unfold assign_cache_point; prog

theorem prog_assign_selected_point (info : RangeInfo n) (p : AssignedPointWithCurvature n) (sc : AssignedValue n) (g : ℕ) :
    Built cc (assign_selected_point info p sc g) := by
  unfold assign_selected_point; prog

theorem prog_assign_selected_point_non_zero (info : RangeInfo n) (p : AssignedNonZeroPoint n) (sc : AssignedValue n) (g : ℕ) :
    Built cc (assign_selected_point_non_zero info p sc g) := by
  unfold assign_selected_point_non_zero; prog

theorem prog_assign_cache_point_non_zero (hcc : cc) (info : RangeInfo n) (p : AssignedNonZeroPoint n) (g sc : ℕ) :
    Built cc (assign_cache_point_non_zero info p g sc) := by
  unfold assign_cache_point_non_zero; prog

theorem prog_ecc_assert_equal_non_zero (info : RangeInfo n) (a b : AssignedNonZeroPoint n) :
    Built cc (ecc_assert_equal_non_zero info a b) := by
  unfold ecc_assert_equal_non_zero; prog

theorem prog_ecc_non_zero_point_downgrade (a : AssignedNonZeroPoint n) :
    Built cc (ecc_non_zero_point_downgrade a) := by
  unfold ecc_non_zero_point_downgrade; prog

theorem prog_ecc_bisec_to_non_zero_point (info : RangeInfo n) (a : AssignedPoint n) (b : AssignedNonZeroPoint n) :
    Built cc (ecc_bisec_to_non_zero_point info a b) := by
  unfold ecc_bisec_to_non_zero_point; prog

theorem prog_native_bits (s_bn : ℕ) (x0 : List ℕ) (x1 : AssignedValue n) :
    Built cc (native_bits s_bn x0 x1) := by
  fun_induction native_bits s_bn x0 x1 <;> prog

theorem prog_pad_bits (ws rem : ℕ) (bits : List (AssignedCondition n)) :
    Built cc (pad_bits ws rem bits) := by
  unfold pad_bits; prog

theorem prog_decompose_scalar_native (num_bits ws : ℕ) (s : AssignedValue n) :
    Built cc (decompose_scalar_native num_bits ws s) := by
  unfold decompose_scalar_native; prog

theorem prog_limb_bits_loop (v : ℕ) (x0 : List ℕ) (x1 : AssignedValue n) :
    Built cc (limb_bits_loop v x0 x1) := by
  fun_induction limb_bits_loop v x0 x1 <;> prog

theorem prog_limbs_bits (info : RangeInfo n) (x0 : List (AssignedValue n)) :
    Built cc (limbs_bits info x0) := by
  fun_induction limbs_bits info x0 <;> prog

theorem prog_decompose_scalar_general (info : RangeInfo n) (ws : ℕ) (s : AssignedInteger n) :
    Built cc (decompose_scalar_general info ws s) := by
  unfold decompose_scalar_general; prog

end Verif
