import Verif.Proof.MsmBatch
import Verif.Proof.ProgTower

/-!
# Operations that leave the select chip alone

The lemmas follow those of `Proof/Prog.lean` and `Proof/ProgTower.lean`.
-/

namespace Verif
variable {n : ℕ}

/-- `m` uses no row of the select chip. -/
structure Ns {α : Type} (m : M n α) : Prop where
  out : ∀ s a t, m s = .ok (a, t) → t.select_offset = s.select_offset

theorem Ns.bind {α β : Type} {m : M n α} {k : α → M n β} (hm : Ns m) (hk : ∀ a, Ns (k a)) : Ns (m >>= k) :=
  ⟨fun s b t e => by
    obtain ⟨a, u, e1, e2⟩ := run_bind_ok.1 e
    exact ((hk a).out u b t e2).trans (hm.out s a u e1)⟩

theorem Ns.pure {α : Type} (a : α) : Ns (Pure.pure a : M n α) := ⟨fun s b t e => by
  cases e
  rfl⟩

theorem Ns.panic {α : Type} (p : Panic) : Ns (Verif.panic p : M n α) := ⟨fun s b t e => by cases e⟩

theorem Ns.ite {α : Type} {p : Prop} [Decidable p] {m k : M n α} (h : Ns m) (h' : Ns k) :
    Ns (if p then m else k) := by
  split
  · exact h
  · exact h'

/-! ## Primitives -/

theorem nsel_mapM {α β : Type} {f : α → M n β} (hf : ∀ a, Ns (f a)) (l : List α) : Ns (l.mapM f) := by
  induction l with
  | nil => rw [List.mapM_nil]; exact .pure _
  | cons x l ih => rw [List.mapM_cons]; exact .bind (hf x) fun _ => .bind ih fun _ => .pure _

theorem nsel_foldlM {α β : Type} {f : α → β → M n α} (hf : ∀ a b, Ns (f a b)) (l : List β) (a : α) :
    Ns (l.foldlM f a) := by
  induction l generalizing a with
  | nil => exact .pure _
  | cons b l ih => rw [List.foldlM_cons]; exact .bind (hf a b) ih

/-- Decompose a `Ns` goal along binds, case distinctions and known lemmas. -/
macro "nsel" : tactic => `(tactic|
  repeat' first
    | with_reducible intro _
    | with_reducible exact Ns.pure _
    | with_reducible assumption
    | with_reducible apply Ns.bind
    | with_reducible apply nsel_mapM
    | with_reducible apply nsel_foldlM
    | head_lemma nsel
    | with_reducible apply_assumption
    | split)

theorem nsel_panic {α : Type} (p : Panic) : Ns (panic p : M n α) := .panic p
theorem nsel_one_line (pairs : List (ValueSchema n × ZMod n)) (constant : Option (ZMod n)) (mul : List (ZMod n))
    (next : Option (ZMod n)) :
    Ns (one_line pairs constant mul next) := ⟨fun s a t e => by
  unfold one_line at e
  split at e
  · cases e
  · cases e
    rfl⟩
theorem nsel_one_line_with_last (pairs : List (ValueSchema n × ZMod n)) (last : ValueSchema n × ZMod n)
    (constant : Option (ZMod n)) (mul : List (ZMod n)) (next : Option (ZMod n)) :
    Ns (one_line_with_last pairs last constant mul next) := ⟨fun s a t e => by
  unfold one_line_with_last at e
  split at e
  · cases e
  · cases e
    rfl⟩
theorem nsel_assign_range (v : ZMod n × List (ZMod n)) (bits : ℕ) :
    Ns (assign_range v bits) := ⟨fun s a t e => by
  unfold assign_range at e
  split at e
  · cases e
  · cases e
    rfl⟩
theorem nsel_assign_common (bn : ℕ) :
    Ns (assign_common bn : M n _) := ⟨fun s a t e => by
  unfold assign_common at e
  split at e
  · cases e
  · cases e
    rfl⟩

theorem nsel_rassert (b : Bool) : Ns (rassert b : M n Unit) := by unfold rassert; nsel
theorem nsel_fits_u64 (x : ℕ) : Ns (fits_u64 x : M n Unit) := by unfold fits_u64; nsel
theorem nsel_unwrap {α : Type} (o : Option α) : Ns (unwrap o : M n α) := by unfold unwrap; nsel
theorem nsel_index {α : Type} (l : List α) (i : ℕ) : Ns (index l i : M n α) := by unfold index; nsel
theorem nsel_div_rem (a b : ℕ) : Ns (div_rem a b : M n _) := by unfold div_rem; nsel
theorem nsel_usub (a b : ℕ) : Ns (usub a b : M n _) := by unfold usub; nsel

theorem nsel_tryB {α β : Type} {m : M n (Except UnsafeError α)} {k : α → M n (Except UnsafeError β)} (hm : Ns m)
    (hk : ∀ a, Ns (k a)) : Ns (tryB m k) := by unfold tryB; nsel

theorem nsel_one_line_add (pairs : List (ValueSchema n × ZMod n)) (constant : Option (ZMod n)) :
    Ns (one_line_add pairs constant) := nsel_one_line _ _ _ _

theorem nsel_sum_with_constant_in_one_line (elems : List (AssignedValue n × ZMod n)) (constant : Option (ZMod n)) :
    Ns (sum_with_constant_in_one_line elems constant) := by
  unfold sum_with_constant_in_one_line; nsel

theorem nsel_sum_chunks (acc : AssignedValue n) (l : List (AssignedValue n × ZMod n)) : Ns (sum_chunks acc l) := by
  fun_induction sum_chunks acc l <;> nsel

theorem nsel_sum_with_constant (elems : List (AssignedValue n × ZMod n)) (constant : Option (ZMod n)) :
    Ns (sum_with_constant elems constant) := by
  unfold sum_with_constant; nsel

theorem nsel_native_of (info : RangeInfo n) (limbs : List (AssignedValue n)) : Ns (native_of info limbs) :=
  nsel_sum_with_constant _ _

theorem nsel_assign_nonleading_limb (info : RangeInfo n) (x : ℕ) : Ns (assign_nonleading_limb info x) := nsel_assign_range _ _
theorem nsel_assign_w_ceil_leading_limb (info : RangeInfo n) (x : ℕ) : Ns (assign_w_ceil_leading_limb info x) :=
  nsel_assign_range _ _
theorem nsel_assign_d_leading_limb (info : RangeInfo n) (x : ℕ) : Ns (assign_d_leading_limb info x) := nsel_assign_range _ _

theorem nsel_assign_w (info : RangeInfo n) (w : ℕ) : Ns (assign_w info w) := by
  unfold assign_w; nsel

theorem nsel_assign_d (info : RangeInfo n) (d : ℕ) : Ns (assign_d info d) := by
  unfold assign_d; nsel

theorem nsel_mul_carry (info : RangeInfo n) (u : AssignedValue n) : Ns (mul_carry info u) := by
  unfold mul_carry; nsel

theorem nsel_reduce_limbs (info : RangeInfo n) (a assigned_rem : AssignedInteger n) (assigned_d : AssignedValue n)
    (d rem : ℕ) (l : List ℕ) : ∀ last_v, Ns (reduce_limbs info a assigned_rem assigned_d d rem last_v l) := by
  induction l with
  | nil => intro _; exact .pure _
  | cons i is ih => intro last_v; unfold reduce_limbs; nsel

/-! ## Base chip, integers, points -/

theorem nsel_add (a b : AssignedValue n) :
    Ns (add a b) := by
  unfold add; nsel

theorem nsel_add_constant (a : AssignedValue n) (c : ZMod n) :
    Ns (add_constant a c) := by
  unfold add_constant; nsel

theorem nsel_sub (a b : AssignedValue n) :
    Ns (sub a b) := by
  unfold sub; nsel

theorem nsel_mul (a b : AssignedValue n) :
    Ns (mul a b) := by
  unfold mul; nsel

theorem nsel_mul_add_constant (a b : AssignedValue n) (c : ZMod n) :
    Ns (mul_add_constant a b c) := by
  unfold mul_add_constant; nsel

theorem nsel_mul_add (a b : AssignedValue n) (ab_coeff : ZMod n) (c : AssignedValue n) (c_coeff : ZMod n) :
    Ns (mul_add a b ab_coeff c c_coeff) := by
  unfold mul_add; nsel

theorem nsel_mul_add_lines (first : Bool) (t : ZMod n) (l : List (MulTerm n)) :
    Ns (mul_add_lines first t l) := by
  induction l generalizing first t <;> unfold mul_add_lines <;> nsel

theorem nsel_mul_add_with_next_line (ls : List (MulTerm n)) :
    Ns (mul_add_with_next_line ls) := by
  unfold mul_add_with_next_line; nsel

theorem nsel_invert_unsafe (a : AssignedValue n) :
    Ns (invert_unsafe a) := by
  unfold invert_unsafe; nsel

theorem nsel_invert (a : AssignedValue n) :
    Ns (invert a) := by
  unfold invert; nsel

theorem nsel_is_zero (a : AssignedValue n) :
    Ns (is_zero a) := by
  unfold is_zero; nsel

theorem nsel_div_unsafe (a b : AssignedValue n) :
    Ns (div_unsafe a b) := by
  unfold div_unsafe; nsel

theorem nsel_assign_constant (v : ZMod n) :
    Ns (assign_constant v) := by
  unfold assign_constant; nsel

theorem nsel_assign (v : ZMod n) :
    Ns (assign v) := by
  unfold assign; nsel

theorem nsel_assign_bit (a : ZMod n) :
    Ns (assign_bit a) := by
  unfold assign_bit; nsel

theorem nsel_assert_equal (a b : AssignedValue n) :
    Ns (assert_equal a b) := by
  unfold assert_equal; nsel

theorem nsel_assert_constant (a : AssignedValue n) (b : ZMod n) :
    Ns (assert_constant a b) := by
  unfold assert_constant; nsel

theorem nsel_assert_bit (a : AssignedValue n) :
    Ns (assert_bit a) := by
  unfold assert_bit; nsel

theorem nsel_and (a b : AssignedCondition n) :
    Ns (and a b) := by
  unfold and; nsel

theorem nsel_not (a : AssignedCondition n) :
    Ns (not a) := by
  unfold not; nsel

theorem nsel_not_and (a b : AssignedCondition n) :
    Ns (not_and a b) := by
  unfold not_and; nsel

theorem nsel_or (a b : AssignedCondition n) :
    Ns (or a b) := by
  unfold or; nsel

theorem nsel_xor (a b : AssignedCondition n) :
    Ns (xor a b) := by
  unfold xor; nsel

theorem nsel_xnor (a b : AssignedCondition n) :
    Ns (xnor a b) := by
  unfold xnor; nsel

theorem nsel_bisec (cond : AssignedCondition n) (a b : AssignedValue n) :
    Ns (bisec cond a b) := by
  unfold bisec; nsel

theorem nsel_bisec_cond (cond a b : AssignedCondition n) :
    Ns (bisec_cond cond a b) := by
  unfold bisec_cond; nsel

theorem nsel_assert_true (a : AssignedCondition n) :
    Ns (assert_true a) := by
  unfold assert_true; nsel

theorem nsel_assert_false (a : AssignedCondition n) :
    Ns (assert_false a) := by
  unfold assert_false; nsel

theorem nsel_try_assert_false (a : AssignedCondition n) :
    Ns (try_assert_false a) := by
  unfold try_assert_false; nsel

theorem nsel_get_w_bn (info : RangeInfo n) (a : AssignedInteger n) :
    Ns (get_w_bn info a) := by
  unfold get_w_bn; nsel

theorem nsel_get_w (info : RangeInfo n) (a : AssignedInteger n) :
    Ns (get_w info a) := by
  unfold get_w; nsel

theorem nsel_mul_column (info : RangeInfo n) (a b : AssignedInteger n) (d : List (AssignedValue n)) (pos : ℕ) :
    Ns (mul_column info a b d pos) := by
  unfold mul_column; nsel

theorem nsel_mul_carries (info : RangeInfo n) (borrow : ZMod n) (columns : List (AssignedValue n))
    (rem : AssignedInteger n) (v : AssignedValue n × AssignedValue n) (l : List ℕ) :
    Ns (mul_carries info borrow columns rem v l) := by
  induction l generalizing v <;> unfold mul_carries <;> nsel

theorem nsel_add_constraints_for_mul_equation_on_limbs (info : RangeInfo n) (a b : AssignedInteger n) (d : List (AssignedValue n)) (rem : AssignedInteger n) :
    Ns (add_constraints_for_mul_equation_on_limbs info a b d rem) := by
  unfold add_constraints_for_mul_equation_on_limbs; nsel

theorem nsel_add_constraints_for_mul_equation_on_native (info : RangeInfo n) (a b : AssignedInteger n) (d_native : AssignedValue n) (rem : AssignedInteger n) :
    Ns (add_constraints_for_mul_equation_on_native info a b d_native rem) := by
  unfold add_constraints_for_mul_equation_on_native; nsel

theorem nsel_reduce (info : RangeInfo n) (a : AssignedInteger n) : Ns (reduce info a) := by
  unfold reduce; nsel

theorem nsel_conditionally_reduce (info : RangeInfo n) (a : AssignedInteger n) :
    Ns (conditionally_reduce info a) := by
  unfold conditionally_reduce; nsel

theorem nsel_int_add (info : RangeInfo n) (a b : AssignedInteger n) :
    Ns (int_add info a b) := by
  unfold int_add; nsel

theorem nsel_int_sub (info : RangeInfo n) (a b : AssignedInteger n) :
    Ns (int_sub info a b) := by
  unfold int_sub; nsel

theorem nsel_int_neg (info : RangeInfo n) (a : AssignedInteger n) :
    Ns (int_neg info a) := by
  unfold int_neg; nsel

theorem nsel_int_mul (info : RangeInfo n) (a b : AssignedInteger n) :
    Ns (int_mul info a b) := by
  unfold int_mul; nsel

theorem nsel_is_pure_zero (a : AssignedInteger n) :
    Ns (is_pure_zero a) := by
  unfold is_pure_zero; nsel

theorem nsel_is_pure_w_limbs (info : RangeInfo n) (a : AssignedInteger n) (is_eq : AssignedCondition n) (x0 : List ℕ) :
    Ns (is_pure_w_limbs info a is_eq x0) := by
  fun_induction is_pure_w_limbs info a is_eq x0 <;> nsel

theorem nsel_is_pure_w_modulus (info : RangeInfo n) (a : AssignedInteger n) :
    Ns (is_pure_w_modulus info a) := by
  unfold is_pure_w_modulus; nsel

theorem nsel_is_int_zero (info : RangeInfo n) (a : AssignedInteger n) :
    Ns (is_int_zero info a) := by
  unfold is_int_zero; nsel

theorem nsel_is_int_equal (info : RangeInfo n) (a b : AssignedInteger n) :
    Ns (is_int_equal info a b) := by
  unfold is_int_equal; nsel

theorem nsel_int_div (info : RangeInfo n) (a b : AssignedInteger n) :
    Ns (int_div info a b) := by
  unfold int_div; nsel

theorem nsel_assign_int_constant (info : RangeInfo n) (w : ℕ) :
    Ns (assign_int_constant info w) := by
  unfold assign_int_constant; nsel

theorem nsel_int_unsafe_invert (info : RangeInfo n) (x : AssignedInteger n) :
    Ns (int_unsafe_invert info x) := by
  unfold int_unsafe_invert; nsel

theorem nsel_assert_int_equal (info : RangeInfo n) (a b : AssignedInteger n) :
    Ns (assert_int_equal info a b) := by
  unfold assert_int_equal; nsel

theorem nsel_int_square (info : RangeInfo n) (a : AssignedInteger n) :
    Ns (int_square info a) := by
  unfold int_square; nsel

theorem nsel_int_mul_small_constant (info : RangeInfo n) (a : AssignedInteger n) (b : ℕ) :
    Ns (int_mul_small_constant info a b) := by
  unfold int_mul_small_constant; nsel

theorem nsel_bisec_int (info : RangeInfo n) (cond : AssignedCondition n) (a b : AssignedInteger n) :
    Ns (bisec_int info cond a b) := by
  unfold bisec_int; nsel

theorem nsel_assign_constant_point (info : RangeInfo n) (c : Option (ℕ × ℕ)) :
    Ns (assign_constant_point info c) := by
  unfold assign_constant_point; nsel

theorem nsel_assign_point (info : RangeInfo n) (b : ℕ) (c : Option (ℕ × ℕ)) :
    Ns (assign_point info b c) := by
  unfold assign_point; nsel

theorem nsel_assign_non_zero_point (info : RangeInfo n) (b : ℕ) (c : Option (ℕ × ℕ)) :
    Ns (assign_non_zero_point info b c) := by
  unfold assign_non_zero_point; nsel

theorem nsel_assign_identity (info : RangeInfo n) :
    Ns (assign_identity info) := by
  unfold assign_identity; nsel

theorem nsel_bisec_point (info : RangeInfo n) (cond : AssignedCondition n) (a b : AssignedPoint n) :
    Ns (bisec_point info cond a b) := by
  unfold bisec_point; nsel

theorem nsel_bisec_curvature (info : RangeInfo n) (cond : AssignedCondition n) (a b : AssignedCurvature n) :
    Ns (bisec_curvature info cond a b) := by
  unfold bisec_curvature; nsel

theorem nsel_bisec_point_with_curvature (info : RangeInfo n) (cond : AssignedCondition n) (a b : AssignedPointWithCurvature n) :
    Ns (bisec_point_with_curvature info cond a b) := by
  unfold bisec_point_with_curvature; nsel

theorem nsel_lambda_to_point_non_zero (info : RangeInfo n) (l : AssignedInteger n) (a b : AssignedNonZeroPoint n) :
    Ns (lambda_to_point_non_zero info l a b) := by
  unfold lambda_to_point_non_zero; nsel

theorem nsel_lambda_to_point (info : RangeInfo n) (lambda : AssignedCurvature n) (a b : AssignedPoint n) :
    Ns (lambda_to_point info lambda a b) := by
  unfold lambda_to_point; nsel

theorem nsel_ecc_add (info : RangeInfo n) (a : AssignedPointWithCurvature n) (b : AssignedPoint n) :
    Ns (ecc_add info a b) := by
  unfold ecc_add; nsel

theorem nsel_ecc_double (info : RangeInfo n) (order : ℕ) (a : AssignedPointWithCurvature n) :
    Ns (ecc_double info order a) := by
  unfold ecc_double; nsel

theorem nsel_ecc_assert_equal (info : RangeInfo n) (a b : AssignedPoint n) :
    Ns (ecc_assert_equal info a b) := by
  unfold ecc_assert_equal; nsel

theorem nsel_ecc_neg (info : RangeInfo n) (a : AssignedPoint n) :
    Ns (ecc_neg info a) := by
  unfold ecc_neg; nsel

theorem nsel_ecc_reduce (info : RangeInfo n) (a : AssignedPoint n) :
    Ns (ecc_reduce info a) := by
  unfold ecc_reduce; nsel

theorem nsel_tangent_slope (info : RangeInfo n) (x y : AssignedInteger n) :
    Ns (tangent_slope info x y) := by
  unfold tangent_slope; nsel

theorem nsel_to_point_with_curvature (info : RangeInfo n) (a : AssignedPoint n) :
    Ns (to_point_with_curvature info a) := by
  unfold to_point_with_curvature; nsel

theorem nsel_ecc_reduce_with_curvature (info : RangeInfo n) (a : AssignedPoint n) :
    Ns (ecc_reduce_with_curvature info a) := by
  unfold ecc_reduce_with_curvature; nsel

theorem nsel_ecc_encode (info : RangeInfo n) (p : AssignedPoint n) :
    Ns (ecc_encode info p) := by
  unfold ecc_encode; nsel

theorem nsel_ecc_add_unsafe (info : RangeInfo n) (a b : AssignedNonZeroPoint n) :
    Ns (ecc_add_unsafe info a b) := by
  unfold ecc_add_unsafe; nsel

theorem nsel_ecc_double_unsafe (info : RangeInfo n) (a : AssignedNonZeroPoint n) :
    Ns (ecc_double_unsafe info a) := by
  unfold ecc_double_unsafe; nsel

theorem nsel_ecc_neg_non_zero (info : RangeInfo n) (a : AssignedNonZeroPoint n) :
    Ns (ecc_neg_non_zero info a) := by
  unfold ecc_neg_non_zero; nsel

theorem nsel_ecc_reduce_non_zero (info : RangeInfo n) (a : AssignedNonZeroPoint n) :
    Ns (ecc_reduce_non_zero info a) := by
  unfold ecc_reduce_non_zero; nsel

theorem nsel_ecc_bisec_non_zero_point (info : RangeInfo n) (cond : AssignedCondition n) (a b : AssignedNonZeroPoint n) :
    Ns (ecc_bisec_non_zero_point info cond a b) := by
  unfold ecc_bisec_non_zero_point; nsel

theorem nsel_bisec_pairs (info : RangeInfo n) (bit : AssignedCondition n) (x0 : List (AssignedNonZeroPoint n)) :
    Ns (bisec_pairs info bit x0) := by
  fun_induction bisec_pairs info bit x0 <;> nsel

theorem nsel_bisec_rounds (info : RangeInfo n) (candidates : List (AssignedNonZeroPoint n)) (x0 : List (AssignedCondition n)) :
    Ns (bisec_rounds info candidates x0) := by
  fun_induction bisec_rounds info candidates x0 <;> nsel

theorem nsel_bisec_candidate_non_zero (info : RangeInfo n) (candidates : List (AssignedNonZeroPoint n)) (group_bits : List (AssignedCondition n)) :
    Ns (bisec_candidate_non_zero info candidates group_bits) := by
  unfold bisec_candidate_non_zero; nsel

theorem nsel_pick_candidate_non_zero (candidates : List (AssignedNonZeroPoint n)) (group_bits : List (AssignedCondition n)) :
    Ns (pick_candidate_non_zero candidates group_bits) := by
  unfold pick_candidate_non_zero; nsel

theorem nsel_ecc_assert_equal_non_zero (info : RangeInfo n) (a b : AssignedNonZeroPoint n) :
    Ns (ecc_assert_equal_non_zero info a b) := by
  unfold ecc_assert_equal_non_zero; nsel

theorem nsel_ecc_non_zero_point_downgrade (a : AssignedNonZeroPoint n) :
    Ns (ecc_non_zero_point_downgrade a) := by
  unfold ecc_non_zero_point_downgrade; nsel

theorem nsel_ecc_bisec_to_non_zero_point (info : RangeInfo n) (a : AssignedPoint n) (b : AssignedNonZeroPoint n) :
    Ns (ecc_bisec_to_non_zero_point info a b) := by
  unfold ecc_bisec_to_non_zero_point; nsel

theorem nsel_native_bits (s_bn : ℕ) (x0 : List ℕ) (x1 : AssignedValue n) :
    Ns (native_bits s_bn x0 x1) := by
  fun_induction native_bits s_bn x0 x1 <;> nsel

theorem nsel_pad_bits (ws rem : ℕ) (bits : List (AssignedCondition n)) :
    Ns (pad_bits ws rem bits) := by
  unfold pad_bits; nsel

theorem nsel_decompose_scalar_native (num_bits ws : ℕ) (s : AssignedValue n) :
    Ns (decompose_scalar_native num_bits ws s) := by
  unfold decompose_scalar_native; nsel

theorem nsel_limb_bits_loop (v : ℕ) (x0 : List ℕ) (x1 : AssignedValue n) :
    Ns (limb_bits_loop v x0 x1) := by
  fun_induction limb_bits_loop v x0 x1 <;> nsel

theorem nsel_limbs_bits (info : RangeInfo n) (x0 : List (AssignedValue n)) :
    Ns (limbs_bits info x0) := by
  fun_induction limbs_bits info x0 <;> nsel

theorem nsel_decompose_scalar_general (info : RangeInfo n) (ws : ℕ) (s : AssignedInteger n) :
    Ns (decompose_scalar_general info ws s) := by
  unfold decompose_scalar_general; nsel


/-! ## Tower, pairings, Keccak -/

theorem nsel_fq2_reduce (info : RangeInfo n) (x : AssignedFq2 n) :
    Ns (fq2_reduce info x) := by
  unfold fq2_reduce; nsel

theorem nsel_fq2_assert_equal (info : RangeInfo n) (x y : AssignedFq2 n) :
    Ns (fq2_assert_equal info x y) := by
  unfold fq2_assert_equal; nsel

theorem nsel_fq2_assign_zero (info : RangeInfo n) :
    Ns (fq2_assign_zero info) := by
  unfold fq2_assign_zero; nsel

theorem nsel_fq2_assign_one (info : RangeInfo n) :
    Ns (fq2_assign_one info) := by
  unfold fq2_assign_one; nsel

theorem nsel_fq2_assign_constant (info : RangeInfo n) (c : ℕ × ℕ) :
    Ns (fq2_assign_constant info c) := by
  unfold fq2_assign_constant; nsel

theorem nsel_fq2_add (info : RangeInfo n) (a b : AssignedFq2 n) :
    Ns (fq2_add info a b) := by
  unfold fq2_add; nsel

theorem nsel_fq2_mul (info : RangeInfo n) (a b : AssignedFq2 n) :
    Ns (fq2_mul info a b) := by
  unfold fq2_mul; nsel

theorem nsel_fq2_sub (info : RangeInfo n) (a b : AssignedFq2 n) :
    Ns (fq2_sub info a b) := by
  unfold fq2_sub; nsel

theorem nsel_fq2_double (info : RangeInfo n) (a : AssignedFq2 n) :
    Ns (fq2_double info a) := by
  unfold fq2_double; nsel

theorem nsel_fq2_square (info : RangeInfo n) (a : AssignedFq2 n) :
    Ns (fq2_square info a) := by
  unfold fq2_square; nsel

theorem nsel_fq2_neg (info : RangeInfo n) (a : AssignedFq2 n) :
    Ns (fq2_neg info a) := by
  unfold fq2_neg; nsel

theorem nsel_fq2_conjugate (info : RangeInfo n) (a : AssignedFq2 n) :
    Ns (fq2_conjugate info a) := by
  unfold fq2_conjugate; nsel

theorem nsel_fq2_unsafe_invert (info : RangeInfo n) (x : AssignedFq2 n) :
    Ns (fq2_unsafe_invert info x) := by
  unfold fq2_unsafe_invert; nsel

theorem nsel_fq2_mul_by_nonresidue (info : RangeInfo n) (crv : PairingCurve) (a : AssignedFq2 n) :
    Ns (fq2_mul_by_nonresidue info crv a) := by
  unfold fq2_mul_by_nonresidue; nsel

theorem nsel_fq6_reduce (info : RangeInfo n) (x : AssignedFq6 n) :
    Ns (fq6_reduce info x) := by
  unfold fq6_reduce; nsel

theorem nsel_fq6_assert_equal (info : RangeInfo n) (x y : AssignedFq6 n) :
    Ns (fq6_assert_equal info x y) := by
  unfold fq6_assert_equal; nsel

theorem nsel_fq6_assign_zero (info : RangeInfo n) :
    Ns (fq6_assign_zero info) := by
  unfold fq6_assign_zero; nsel

theorem nsel_fq6_assign_one (info : RangeInfo n) :
    Ns (fq6_assign_one info) := by
  unfold fq6_assign_one; nsel

theorem nsel_fq6_add (info : RangeInfo n) (a b : AssignedFq6 n) :
    Ns (fq6_add info a b) := by
  unfold fq6_add; nsel

theorem nsel_fq6_mul (info : RangeInfo n) (crv : PairingCurve) (a b : AssignedFq6 n) :
    Ns (fq6_mul info crv a b) := by
  unfold fq6_mul; nsel

theorem nsel_fq6_sub (info : RangeInfo n) (a b : AssignedFq6 n) :
    Ns (fq6_sub info a b) := by
  unfold fq6_sub; nsel

theorem nsel_fq6_double (info : RangeInfo n) (a : AssignedFq6 n) :
    Ns (fq6_double info a) := by
  unfold fq6_double; nsel

theorem nsel_fq6_square (info : RangeInfo n) (crv : PairingCurve) (a : AssignedFq6 n) :
    Ns (fq6_square info crv a) := by
  unfold fq6_square; nsel

theorem nsel_fq6_neg (info : RangeInfo n) (a : AssignedFq6 n) :
    Ns (fq6_neg info a) := by
  unfold fq6_neg; nsel

theorem nsel_fq6_mul_by_1 (info : RangeInfo n) (crv : PairingCurve) (a : AssignedFq6 n) (b1 : AssignedFq2 n) :
    Ns (fq6_mul_by_1 info crv a b1) := by
  unfold fq6_mul_by_1; nsel

theorem nsel_fq6_mul_by_01 (info : RangeInfo n) (crv : PairingCurve) (a : AssignedFq6 n) (b0 b1 : AssignedFq2 n) :
    Ns (fq6_mul_by_01 info crv a b0 b1) := by
  unfold fq6_mul_by_01; nsel

theorem nsel_fq6_unsafe_invert (info : RangeInfo n) (crv : PairingCurve) (x : AssignedFq6 n) :
    Ns (fq6_unsafe_invert info crv x) := by
  unfold fq6_unsafe_invert; nsel

theorem nsel_fq6_assign_constant (info : RangeInfo n) (c : (ℕ × ℕ) × (ℕ × ℕ) × (ℕ × ℕ)) :
    Ns (fq6_assign_constant info c) := by
  unfold fq6_assign_constant; nsel

theorem nsel_fq6_mul_by_nonresidue (info : RangeInfo n) (crv : PairingCurve) (a : AssignedFq6 n) :
    Ns (fq6_mul_by_nonresidue info crv a) := by
  unfold fq6_mul_by_nonresidue; nsel

theorem nsel_fq12_reduce (info : RangeInfo n) (x : AssignedFq12 n) :
    Ns (fq12_reduce info x) := by
  unfold fq12_reduce; nsel

theorem nsel_fq12_assert_eq (info : RangeInfo n) (x y : AssignedFq12 n) :
    Ns (fq12_assert_eq info x y) := by
  unfold fq12_assert_eq; nsel

theorem nsel_fq12_assign_zero (info : RangeInfo n) :
    Ns (fq12_assign_zero info) := by
  unfold fq12_assign_zero; nsel

theorem nsel_fq12_assign_one (info : RangeInfo n) :
    Ns (fq12_assign_one info) := by
  unfold fq12_assign_one; nsel

theorem nsel_fq12_assert_one (info : RangeInfo n) (x : AssignedFq12 n) :
    Ns (fq12_assert_one info x) := by
  unfold fq12_assert_one; nsel

theorem nsel_fq12_add (info : RangeInfo n) (a b : AssignedFq12 n) :
    Ns (fq12_add info a b) := by
  unfold fq12_add; nsel

theorem nsel_fq12_mul (info : RangeInfo n) (crv : PairingCurve) (a b : AssignedFq12 n) :
    Ns (fq12_mul info crv a b) := by
  unfold fq12_mul; nsel

theorem nsel_fq12_sub (info : RangeInfo n) (a b : AssignedFq12 n) :
    Ns (fq12_sub info a b) := by
  unfold fq12_sub; nsel

theorem nsel_fq12_double (info : RangeInfo n) (a : AssignedFq12 n) :
    Ns (fq12_double info a) := by
  unfold fq12_double; nsel

theorem nsel_fq12_square (info : RangeInfo n) (crv : PairingCurve) (a : AssignedFq12 n) :
    Ns (fq12_square info crv a) := by
  unfold fq12_square; nsel

theorem nsel_fq12_neg (info : RangeInfo n) (a : AssignedFq12 n) :
    Ns (fq12_neg info a) := by
  unfold fq12_neg; nsel

theorem nsel_fq12_conjugate (info : RangeInfo n) (x : AssignedFq12 n) :
    Ns (fq12_conjugate info x) := by
  unfold fq12_conjugate; nsel

theorem nsel_fq12_mul_by_014 (info : RangeInfo n) (crv : PairingCurve) (x : AssignedFq12 n) (c0 c1 c4 : AssignedFq2 n) :
    Ns (fq12_mul_by_014 info crv x c0 c1 c4) := by
  unfold fq12_mul_by_014; nsel

theorem nsel_fq12_mul_by_034 (info : RangeInfo n) (crv : PairingCurve) (x : AssignedFq12 n) (c0 c3 c4 : AssignedFq2 n) :
    Ns (fq12_mul_by_034 info crv x c0 c3 c4) := by
  unfold fq12_mul_by_034; nsel

theorem nsel_fp4_square (info : RangeInfo n) (crv : PairingCurve) (a0 a1 : AssignedFq2 n) :
    Ns (fp4_square info crv a0 a1) := by
  unfold fp4_square; nsel

theorem nsel_fq12_cyclotomic_square (info : RangeInfo n) (crv : PairingCurve) (x : AssignedFq12 n) :
    Ns (fq12_cyclotomic_square info crv x) := by
  unfold fq12_cyclotomic_square; nsel

theorem nsel_fq12_unsafe_invert (info : RangeInfo n) (crv : PairingCurve) (x : AssignedFq12 n) :
    Ns (fq12_unsafe_invert info crv x) := by
  unfold fq12_unsafe_invert; nsel

theorem nsel_fq12_assign_constant (info : RangeInfo n) (c : ((ℕ × ℕ) × (ℕ × ℕ) × (ℕ × ℕ)) × ((ℕ × ℕ) × (ℕ × ℕ) × (ℕ × ℕ))) :
    Ns (fq12_assign_constant info c) := by
  unfold fq12_assign_constant; nsel

theorem nsel_fq2_frobenius_map (info : RangeInfo n) (crv : PairingCurve) (x : AssignedFq2 n) (power : ℕ) :
    Ns (fq2_frobenius_map info crv x power) := by
  unfold fq2_frobenius_map; nsel

theorem nsel_fq6_frobenius_map (info : RangeInfo n) (crv : PairingCurve) (x : AssignedFq6 n) (power : ℕ) :
    Ns (fq6_frobenius_map info crv x power) := by
  unfold fq6_frobenius_map; nsel

theorem nsel_fq12_frobenius_map (info : RangeInfo n) (crv : PairingCurve) (x : AssignedFq12 n) (power : ℕ) :
    Ns (fq12_frobenius_map info crv x power) := by
  unfold fq12_frobenius_map; nsel

theorem nsel_doubling_step (info : RangeInfo n) (pt : AssignedG2 n) :
    Ns (doubling_step info pt) := by
  unfold doubling_step; nsel

theorem nsel_addition_step (info : RangeInfo n) (pt : AssignedG2 n) (pq : AssignedG2Affine n) :
    Ns (addition_step info pt pq) := by
  unfold addition_step; nsel

theorem nsel_g2affine_to_g2 (info : RangeInfo n) (g2 : AssignedG2Affine n) :
    Ns (g2affine_to_g2 info g2) := by
  unfold g2affine_to_g2; nsel

theorem nsel_g2_neg (info : RangeInfo n) (g2 : AssignedG2Affine n) :
    Ns (g2_neg info g2) := by
  unfold g2_neg; nsel

theorem nsel_ell (info : RangeInfo n) (crv : PairingCurve) (f : AssignedFq12 n) (coeffs : LineCoeffs n) (p : AssignedPoint n) :
    Ns (ell info crv f coeffs p) := by
  unfold ell; nsel

theorem nsel_ell_pairs (info : RangeInfo n) (crv : PairingCurve) (f : AssignedFq12 n)
    (l : List (AssignedPoint n × List (LineCoeffs n))) : Ns (ell_pairs info crv f l) := by
  induction l generalizing f with
  | nil => exact .pure _
  | cons p l ih =>
    unfold ell_pairs
    exact .bind (nsel_unwrap _) fun _ => .bind (nsel_ell _ _ _ _ _) fun _ => .bind (ih _) fun _ => .pure _

theorem nsel_assert_not_identity (l : List (AssignedPoint n × List (LineCoeffs n))) :
    Ns (assert_not_identity l) := by
  induction l with
  | nil => exact .pure _
  | cons p l ih => exact .bind (nsel_assert_false _) fun _ => ih

theorem nsel_bn_prepare_step (info : RangeInfo n) (g2 neg_g2 : AssignedG2Affine n) (st : List (LineCoeffs n) × AssignedG2 n) (x : ℤ) :
    Ns (bn_prepare_step info g2 neg_g2 st x) := by
  unfold bn_prepare_step
  exact .bind (nsel_doubling_step ..) fun _ => .ite (.bind (nsel_addition_step ..) fun _ => .pure _)
    (.ite (.bind (nsel_addition_step ..) fun _ => .pure _) (.pure _))

theorem nsel_bn_prepare_g2 (info : RangeInfo n) (g2 : AssignedG2Affine n) :
    Ns (bn_prepare_g2 info g2) := by
  unfold bn_prepare_g2; nsel

theorem nsel_bn_miller_loop (info : RangeInfo n) (xs : List ℤ) (first : Bool) (f : AssignedFq12 n)
    (l : List (AssignedPoint n × List (LineCoeffs n))) : Ns (bn_miller_loop info first f l xs) := by
  induction xs generalizing first f l with
  | nil => unfold bn_miller_loop; exact .pure _
  | cons x xs ih =>
    unfold bn_miller_loop
    have step : ∀ g, Ns (do
        let (f, pairs) ← ell_pairs info .bn256 g l
        let (f, pairs) ←
          if x = 1 then ell_pairs info .bn256 f pairs
          else if x = -1 then ell_pairs info .bn256 f pairs
          else pure (f, pairs)
        bn_miller_loop info false f pairs xs) := fun g =>
      .bind (nsel_ell_pairs ..) fun _ => .ite (.bind (nsel_ell_pairs ..) fun _ => ih ..)
        (.ite (.bind (nsel_ell_pairs ..) fun _ => ih ..) (ih ..))
    exact .ite (.bind (.pure _) fun _ => step _) (.bind (nsel_fq12_square ..) fun _ => step _)

theorem nsel_bn_multi_miller_loop (info : RangeInfo n) (terms : List (AssignedPoint n × List (LineCoeffs n))) :
    Ns (bn_multi_miller_loop info terms) := by
  unfold bn_multi_miller_loop; nsel

theorem nsel_bn_exp_step (info : RangeInfo n) (f res : AssignedFq12 n) (bit : Bool) :
    Ns (bn_exp_step info f res bit) := by
  unfold bn_exp_step; nsel

theorem nsel_bn_exp_by_x (info : RangeInfo n) (f : AssignedFq12 n) :
    Ns (bn_exp_by_x info f) := by
  unfold bn_exp_by_x; nsel

theorem nsel_bn_final_exponentiation (info : RangeInfo n) (f : AssignedFq12 n) :
    Ns (bn_final_exponentiation info f) := by
  unfold bn_final_exponentiation; nsel

theorem nsel_bls_prepare_step (info : RangeInfo n) (g2 : AssignedG2Affine n) (st : Bool × List (LineCoeffs n) × AssignedG2 n) (i : Bool) :
    Ns (bls_prepare_step info g2 st i) := by
  unfold bls_prepare_step
  exact .ite (.pure _) (.bind (nsel_doubling_step ..) fun _ => .ite (.bind (nsel_addition_step ..) fun _ => .pure _) (.pure _))

theorem nsel_bls_prepare_g2 (info : RangeInfo n) (g2 : AssignedG2Affine n) :
    Ns (bls_prepare_g2 info g2) := by
  unfold bls_prepare_g2; nsel

theorem nsel_bls_miller_loop (info : RangeInfo n) (xs : List Bool) (found : Bool) (f : AssignedFq12 n)
    (l : List (AssignedPoint n × List (LineCoeffs n))) : Ns (bls_miller_loop info found f l xs) := by
  induction xs generalizing found f l with
  | nil => unfold bls_miller_loop; exact .pure _
  | cons x xs ih =>
    unfold bls_miller_loop
    exact .ite (ih ..) (.bind (nsel_ell_pairs ..) fun _ => .ite (.bind (nsel_ell_pairs ..) fun _ =>
      .bind (nsel_fq12_square ..) fun _ => ih ..) (.bind (.pure _) fun _ => .bind (nsel_fq12_square ..) fun _ => ih ..))

theorem nsel_bls_multi_miller_loop (info : RangeInfo n) (terms : List (AssignedPoint n × List (LineCoeffs n))) :
    Ns (bls_multi_miller_loop info terms) := by
  unfold bls_multi_miller_loop; nsel

theorem nsel_bls_exp_step (info : RangeInfo n) (f : AssignedFq12 n) (st : Bool × AssignedFq12 n) (i : Bool) :
    Ns (bls_exp_step info f st i) := by
  unfold bls_exp_step
  have step : ∀ (b : Bool) (t : AssignedFq12 n), Ns (if i then do
      let tmp ← fq12_mul info .bls12_381 t f
      pure (b, tmp)
    else pure (b, t)) := fun b t => .ite (.bind (nsel_fq12_mul ..) fun _ => .pure _) (.pure _)
  exact .ite (.bind (nsel_fq12_cyclotomic_square ..) fun _ => step _ _) (step _ _)

theorem nsel_bls_cyclotomic_exp (info : RangeInfo n) (f : AssignedFq12 n) :
    Ns (bls_cyclotomic_exp info f) := by
  unfold bls_cyclotomic_exp; nsel

theorem nsel_bls_final_exponentiation (info : RangeInfo n) (f : AssignedFq12 n) :
    Ns (bls_final_exponentiation info f) := by
  unfold bls_final_exponentiation; nsel

theorem nsel_prepare_g2 (info : RangeInfo n) (crv : PairingCurve) (g2 : AssignedG2Affine n) :
    Ns (prepare_g2 info crv g2) := by
  cases crv
  · exact nsel_bn_prepare_g2 info g2
  · exact nsel_bls_prepare_g2 info g2

theorem nsel_multi_miller_loop (info : RangeInfo n) (crv : PairingCurve) (l : List (AssignedPoint n × List (LineCoeffs n))) :
    Ns (multi_miller_loop info crv l) := by
  cases crv
  · exact nsel_bn_multi_miller_loop info l
  · exact nsel_bls_multi_miller_loop info l

theorem nsel_final_exponentiation (info : RangeInfo n) (crv : PairingCurve) (f : AssignedFq12 n) :
    Ns (final_exponentiation info crv f) := by
  cases crv
  · exact nsel_bn_final_exponentiation info f
  · exact nsel_bls_final_exponentiation info f

theorem nsel_prepare_terms (info : RangeInfo n) (crv : PairingCurve) (l : List (AssignedPoint n × AssignedG2Affine n)) :
    Ns (prepare_terms info crv l) := by
  induction l with
  | nil => exact .pure _
  | cons p l ih => exact .bind (nsel_prepare_g2 ..) fun _ => .bind ih fun _ => .pure _

theorem nsel_pairing (info : RangeInfo n) (crv : PairingCurve) (terms : List (AssignedPoint n × AssignedG2Affine n)) :
    Ns (pairing info crv terms) := by
  unfold pairing; nsel

theorem nsel_check_pairing (info : RangeInfo n) (crv : PairingCurve) (terms : List (AssignedPoint n × AssignedG2Affine n)) :
    Ns (check_pairing info crv terms) := by
  unfold check_pairing; nsel

theorem nsel_tabM {α : Type} : ∀ {k : ℕ} {f : Fin k → M n α}, (∀ i, Ns (f i)) → Ns (tabM f)
  | 0, _, _ => .pure _
  | _ + 1, _, h => .bind (h 0) fun _ => .bind (nsel_tabM fun i => h i.succ) fun _ => .pure _

theorem nsel_keccak_init  :
    Ns (keccak_init : M n _) := by
  unfold keccak_init; nsel

theorem nsel_theta_column (y : Fin 5 → Lane n) :
    Ns (theta_column y) := by
  unfold theta_column; nsel

theorem nsel_theta (state : KState n) :
    Ns (theta state) := by
  unfold theta; nsel

theorem nsel_keccak_xi (state : KState n) :
    Ns (keccak_xi state) := by
  unfold keccak_xi; nsel

theorem nsel_iota (state : KState n) (round : ℕ) :
    Ns (iota state round) := by
  unfold iota; nsel

theorem nsel_permute_rounds (is : List ℕ) (s : KState n) : Ns (permute_rounds is s) := by
  induction is generalizing s with
  | nil => exact .pure _
  | cons i is ih =>
    exact .bind (nsel_theta _) fun _ => .bind (nsel_keccak_xi _) fun _ => .bind (nsel_iota _ _) fun _ => ih _

theorem nsel_permute (state : KState n) :
    Ns (permute state) := by
  unfold permute; nsel

theorem nsel_absorb (state : KState n) (input : List (AssignedCondition n)) :
    Ns (absorb state input) := by
  unfold absorb; nsel

theorem nsel_decompose_u256_with (s_bn : ℕ) (s : AssignedValue n) :
    Ns (decompose_u256_with s_bn s) := by
  unfold decompose_u256_with; nsel

theorem nsel_decompose_scalar_as_u256_be (s : AssignedValue n) :
    Ns (decompose_scalar_as_u256_be s) := by
  unfold decompose_scalar_as_u256_be; nsel

theorem nsel_compose_loop (l : List (AssignedCondition n)) (acc : AssignedValue n) : Ns (compose_loop l acc) := by
  fun_induction compose_loop l acc with
  | case1 b1 b0 s acc ih => exact .bind (nsel_sum_with_constant _ _) fun _ => ih _
  | case2 => exact .pure _

theorem nsel_compose_to_scalar_be (s : List (AssignedCondition n)) :
    Ns (compose_to_scalar_be s) := by
  unfold compose_to_scalar_be; nsel

theorem nsel_hash_with {decompose : List (AssignedValue n) → M n (List (List (AssignedCondition n)))}
    (h : ∀ l, Ns (decompose l)) (input : List (AssignedValue n)) : Ns (hash_with decompose input) := by
  unfold hash_with
  exact .bind (nsel_assign_constant _) fun _ => .bind (nsel_assign_constant _) fun _ => .bind nsel_keccak_init fun _ =>
    .bind (h _) fun _ => .bind (nsel_foldlM nsel_absorb _ _) fun _ => nsel_compose_to_scalar_be _

theorem nsel_keccak_hash (input : List (AssignedValue n)) :
    Ns (keccak_hash input) := by
  unfold keccak_hash; nsel


end Verif
