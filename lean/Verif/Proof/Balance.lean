import Verif.Proof.MsmBatch
import Verif.Proof.ProgTower

/-!
# Rows of the range chip are paid for by rows of the base chip

Every operation but a bare `assign_common` uses at most twelve rows of the range chip per row of the base chip, if
integers have at most four limbs. The lemmas follow those of `Proof/Prog.lean` and `Proof/ProgTower.lean`.
-/

namespace Verif
variable {n : ℕ}

/-- At most four limbs. -/
class Limbs4 (info : RangeInfo n) : Prop where
  le : info.limbs ≤ 4

/-- `m` uses at most `c` rows of the range chip more than twelve per row of the base chip. -/
def Bal (c : ℤ) {α : Type} (m : M n α) : Prop := ∀ s a t, m s = .ok (a, t) →
  s.base_offset ≤ t.base_offset ∧ s.range_offset ≤ t.range_offset ∧
    (t.range_offset : ℤ) - s.range_offset ≤ 12 * ((t.base_offset : ℤ) - s.base_offset) + c

/-- `m` uses at most twelve rows of the range chip per row of the base chip. -/
structure Bl {α : Type} (m : M n α) : Prop where
  out : Bal 0 m

theorem Bal.mono {α : Type} {m : M n α} {c d : ℤ} (h : Bal c m) (hcd : c ≤ d) : Bal d m := fun s a t e => by
  obtain ⟨h1, h2, h3⟩ := h s a t e
  exact ⟨h1, h2, by omega⟩

theorem Bal.toBl {α : Type} {m : M n α} {c : ℤ} (h : Bal c m) (hc : c ≤ 0) : Bl m := ⟨h.mono hc⟩

theorem Bal.bind {α β : Type} {m : M n α} {k : α → M n β} {c d : ℤ} (hm : Bal c m) (hk : ∀ a, Bal d (k a)) :
    Bal (c + d) (m >>= k) := fun s b t e => by
  obtain ⟨a, u, e1, e2⟩ := run_bind_ok.1 e
  obtain ⟨h1, h2, h3⟩ := hm s a u e1
  obtain ⟨k1, k2, k3⟩ := hk a u b t e2
  exact ⟨h1.trans k1, h2.trans k2, by omega⟩

theorem Bl.bind {α β : Type} {m : M n α} {k : α → M n β} (hm : Bl m) (hk : ∀ a, Bl (k a)) : Bl (m >>= k) :=
  (Bal.bind hm.out fun a => (hk a).out).toBl le_rfl

/-- A bind whose first part is paid for. -/
theorem Bal.skip {α β : Type} {m : M n α} {k : α → M n β} {c : ℤ} (hm : Bl m) (hk : ∀ a, Bal c (k a)) :
    Bal c (m >>= k) := (Bal.bind hm.out hk).mono (by omega)

theorem Bl.pure {α : Type} (a : α) : Bl (Pure.pure a : M n α) := ⟨fun s b t e => by
  cases e
  exact ⟨le_rfl, le_rfl, by omega⟩⟩

theorem Bl.panic {α : Type} (p : Panic) : Bl (Verif.panic p : M n α) := ⟨fun s b t e => by cases e⟩

theorem Bl.ite {α : Type} {p : Prop} [Decidable p] {m k : M n α} (h : Bl m) (h' : Bl k) :
    Bl (if p then m else k) := by
  split
  · exact h
  · exact h'

/-! ## Primitives -/

theorem Bal.one_line (pairs : List (ValueSchema n × ZMod n)) (constant : Option (ZMod n)) (mul : List (ZMod n))
    (next : Option (ZMod n)) : Bal (-12) (one_line pairs constant mul next) := fun s a t e => by
  unfold Verif.one_line at e
  split at e
  · cases e
  · cases e
    exact ⟨Nat.le_succ _, le_rfl, by push_cast; omega⟩

theorem Bal.one_line_with_last (pairs : List (ValueSchema n × ZMod n)) (last : ValueSchema n × ZMod n)
    (constant : Option (ZMod n)) (mul : List (ZMod n)) (next : Option (ZMod n)) :
    Bal (-12) (one_line_with_last pairs last constant mul next) := fun s a t e => by
  unfold Verif.one_line_with_last at e
  split at e
  · cases e
  · cases e
    exact ⟨Nat.le_succ _, le_rfl, by push_cast; omega⟩

theorem Bal.assign_range (v : ZMod n × List (ZMod n)) (bits : ℕ) : Bal 3 (assign_range v bits) := fun s a t e => by
  unfold Verif.assign_range at e
  split at e
  · cases e
  · rename_i res inc r h
    cases e
    have : inc ≤ 3 := by
      unfold Records.assign_range_value at h
      split at h
      · cases h1 : s.records.assign_one_line_range_value s.range_offset v.2 v.1 bits with
        | error e => rw [h1] at h; cases h
        | ok x => rw [h1] at h; cases h; omega
      split at h
      · cases h
      split at h
      · cases h1 : s.records.assign_two_line_range_value s.range_offset (Records.resize v.2 4) v.1 bits with
        | error e => rw [h1] at h; cases h
        | ok x => rw [h1] at h; cases h; omega
      split at h
      · cases h1 : s.records.assign_three_line_range_value s.range_offset (Records.resize v.2 6) v.1 bits with
        | error e => rw [h1] at h; cases h
        | ok x => rw [h1] at h; cases h; omega
      · cases h
    exact ⟨le_rfl, Nat.le_add_right _ _, by push_cast; omega⟩

theorem Bal.assign_common (bn : ℕ) : Bal 1 (assign_common bn : M n _) := fun s a t e => by
  unfold Verif.assign_common at e
  split at e
  · cases e
  · cases e
    exact ⟨le_rfl, Nat.le_succ _, by push_cast; omega⟩

theorem bal_mapM' {α β : Type} {f : α → M n β} {c : ℤ} (hf : ∀ a, Bal c (f a)) (l : List α) :
    Bal (c * l.length) (l.mapM f) := by
  induction l with
  | nil => rw [List.mapM_nil]; exact (Bl.pure _).out.mono (by simp)
  | cons x l ih =>
    rw [List.mapM_cons]
    exact (Bal.bind (hf x) fun _ => Bal.bind ih fun _ => (Bl.pure _).out).mono (by push_cast [List.length_cons]; linarith)

theorem bal_mapM {α β : Type} {f : α → M n β} (hf : ∀ a, Bl (f a)) (l : List α) : Bl (l.mapM f) :=
  (bal_mapM' (fun a => (hf a).out) l).toBl (by simp)

theorem bal_foldlM {α β : Type} {f : α → β → M n α} (hf : ∀ a b, Bl (f a b)) (l : List β) (a : α) :
    Bl (l.foldlM f a) := by
  induction l generalizing a with
  | nil => exact .pure _
  | cons b l ih => rw [List.foldlM_cons]; exact .bind (hf a b) ih

/-- Decompose a `Bl` goal along binds, case distinctions and known lemmas. -/
macro "bal" : tactic => `(tactic|
  repeat' first
    | with_reducible intro _
    | with_reducible exact Bl.pure _
    | with_reducible assumption
    | with_reducible apply Bl.bind
    | with_reducible apply bal_mapM
    | with_reducible apply bal_foldlM
    | head_lemma bal
    | with_reducible apply_assumption
    | split)

theorem bal_panic {α : Type} (p : Panic) : Bl (panic p : M n α) := .panic p
theorem bal_one_line (pairs : List (ValueSchema n × ZMod n)) (constant : Option (ZMod n)) (mul : List (ZMod n))
    (next : Option (ZMod n)) : Bl (one_line pairs constant mul next) := (Bal.one_line _ _ _ _).toBl (by norm_num)
theorem bal_one_line_with_last (pairs : List (ValueSchema n × ZMod n)) (last : ValueSchema n × ZMod n)
    (constant : Option (ZMod n)) (mul : List (ZMod n)) (next : Option (ZMod n)) :
    Bl (one_line_with_last pairs last constant mul next) := (Bal.one_line_with_last _ _ _ _ _).toBl (by norm_num)
theorem bal_assign_cache_value (v : AssignedValue n) (offset group_index selector : ℕ) :
    Bl (assign_cache_value v offset group_index selector) := ⟨fun s a t e => by
  cases e
  exact ⟨le_rfl, le_rfl, by simp⟩⟩
theorem bal_assign_selected_value (v : AssignedValue n) (offset group_index : ℕ) (selector : AssignedValue n) :
    Bl (assign_selected_value v offset group_index selector) := ⟨fun s a t e => by
  cases e
  exact ⟨le_rfl, le_rfl, by simp⟩⟩

theorem bal_rassert (b : Bool) : Bl (rassert b : M n Unit) := by unfold rassert; bal
theorem bal_fits_u64 (x : ℕ) : Bl (fits_u64 x : M n Unit) := by unfold fits_u64; bal
theorem bal_unwrap {α : Type} (o : Option α) : Bl (unwrap o : M n α) := by unfold unwrap; bal
theorem bal_index {α : Type} (l : List α) (i : ℕ) : Bl (index l i : M n α) := by unfold index; bal
theorem bal_div_rem (a b : ℕ) : Bl (div_rem a b : M n _) := by unfold div_rem; bal
theorem bal_usub (a b : ℕ) : Bl (usub a b : M n _) := by unfold usub; bal

theorem bal_tryB {α β : Type} {m : M n (Except UnsafeError α)} {k : α → M n (Except UnsafeError β)} (hm : Bl m)
    (hk : ∀ a, Bl (k a)) : Bl (tryB m k) := by unfold tryB; bal

theorem bal_one_line_add (pairs : List (ValueSchema n × ZMod n)) (constant : Option (ZMod n)) :
    Bl (one_line_add pairs constant) := bal_one_line _ _ _ _

/-! ## Where the rows are paid for -/

theorem Bal.sum_with_constant_in_one_line (elems : List (AssignedValue n × ZMod n)) (constant : Option (ZMod n)) :
    Bal (-12) (sum_with_constant_in_one_line elems constant) := by
  unfold Verif.sum_with_constant_in_one_line
  refine .skip (bal_rassert _) fun _ => ?_
  split
  · exact .skip (Bl.panic _) fun _ => (Bal.bind (Bal.one_line_with_last _ _ _ _ _) fun _ => (Bl.pure _).out).mono (d := -12) (by norm_num)
  · exact (Bal.bind (Bal.one_line_with_last _ _ _ _ _) fun _ => (Bl.pure _).out).mono (d := -12) (by norm_num)

theorem bal_sum_with_constant_in_one_line (elems : List (AssignedValue n × ZMod n)) (constant : Option (ZMod n)) :
    Bl (sum_with_constant_in_one_line elems constant) := (Bal.sum_with_constant_in_one_line _ _).toBl (by norm_num)

theorem bal_sum_chunks (acc : AssignedValue n) (l : List (AssignedValue n × ZMod n)) : Bl (sum_chunks acc l) := by
  fun_induction sum_chunks acc l <;> bal

theorem Bal.sum_with_constant (elems : List (AssignedValue n × ZMod n)) (constant : Option (ZMod n)) :
    Bal (-12) (sum_with_constant elems constant) := by
  unfold Verif.sum_with_constant
  split
  · exact .sum_with_constant_in_one_line _ _
  · exact ((Bal.sum_with_constant_in_one_line _ _).bind fun _ => (bal_sum_chunks _ _).out).mono (by norm_num)

theorem bal_sum_with_constant (elems : List (AssignedValue n × ZMod n)) (constant : Option (ZMod n)) :
    Bl (sum_with_constant elems constant) := (Bal.sum_with_constant _ _).toBl (by norm_num)

theorem Bal.native_of (info : RangeInfo n) (limbs : List (AssignedValue n)) : Bal (-12) (native_of info limbs) :=
  .sum_with_constant _ _

theorem bal_native_of (info : RangeInfo n) (limbs : List (AssignedValue n)) : Bl (native_of info limbs) :=
  (Bal.native_of _ _).toBl (by norm_num)

theorem limbs_paid (info : RangeInfo n) [h : Limbs4 info] :
    (3 : ℤ) * (List.range (info.limbs - 1)).length + (3 + (-12 + 0)) ≤ 0 := by
  have := h.le
  rw [List.length_range]
  omega

theorem bal_assign_w (info : RangeInfo n) [Limbs4 info] (w : ℕ) : Bl (assign_w info w) := by
  unfold assign_w
  exact (Bal.bind (bal_mapM' (fun _ => Bal.assign_range _ _) _) fun _ => Bal.bind (Bal.assign_range _ _) fun _ =>
    Bal.bind (Bal.native_of _ _) fun _ => (Bl.pure _).out).toBl (limbs_paid info)

theorem bal_assign_d (info : RangeInfo n) [Limbs4 info] (d : ℕ) : Bl (assign_d info d) := by
  unfold assign_d
  exact (Bal.bind (bal_mapM' (fun _ => Bal.assign_range _ _) _) fun _ => Bal.bind (Bal.assign_range _ _) fun _ =>
    Bal.bind (Bal.native_of _ _) fun _ => (Bl.pure _).out).toBl (limbs_paid info)

theorem bal_mul_carry (info : RangeInfo n) (u : AssignedValue n) : Bl (mul_carry info u) := by
  unfold mul_carry
  exact .bind (bal_div_rem _ _) fun _ => .bind (bal_rassert _) fun _ => .bind (bal_div_rem _ _) fun _ =>
    (Bal.bind (Bal.assign_common _) fun _ => Bal.bind (Bal.assign_range _ _) fun _ => .skip (bal_index _ _) fun _ =>
      .skip (bal_index _ _) fun _ => Bal.bind (Bal.one_line_with_last _ _ _ _ _) fun _ => (Bl.pure _).out).toBl (by norm_num)

theorem bal_reduce_limbs (info : RangeInfo n) (a assigned_rem : AssignedInteger n) (assigned_d : AssignedValue n)
    (d rem : ℕ) (l : List ℕ) : ∀ last_v, Bl (reduce_limbs info a assigned_rem assigned_d d rem last_v l) := by
  induction l with
  | nil => intro _; exact .pure _
  | cons i is ih =>
    intro last_v
    unfold reduce_limbs
    exact .bind (bal_index _ _) fun _ => .bind (bal_index _ _) fun _ => .bind (bal_index _ _) fun _ =>
      .bind (bal_usub _ _) fun _ => .bind (bal_usub _ _) fun _ => .bind (bal_div_rem _ _) fun _ =>
      .bind (bal_rassert _) fun _ => (Bal.bind (Bal.assign_range _ _) fun _ => .skip (bal_index _ _) fun _ =>
        .skip (bal_index _ _) fun _ => Bal.bind (Bal.one_line_with_last _ _ _ _ _) fun _ => (ih _).out).toBl (by norm_num)

/-! ## Base chip, integers, points -/

theorem bal_add (a b : AssignedValue n) :
    Bl (add a b) := by
  unfold add; bal

theorem bal_add_constant (a : AssignedValue n) (c : ZMod n) :
    Bl (add_constant a c) := by
  unfold add_constant; bal

theorem bal_sub (a b : AssignedValue n) :
    Bl (sub a b) := by
  unfold sub; bal

theorem bal_mul (a b : AssignedValue n) :
    Bl (mul a b) := by
  unfold mul; bal

theorem bal_mul_add_constant (a b : AssignedValue n) (c : ZMod n) :
    Bl (mul_add_constant a b c) := by
  unfold mul_add_constant; bal

theorem bal_mul_add (a b : AssignedValue n) (ab_coeff : ZMod n) (c : AssignedValue n) (c_coeff : ZMod n) :
    Bl (mul_add a b ab_coeff c c_coeff) := by
  unfold mul_add; bal

theorem bal_mul_add_lines (first : Bool) (t : ZMod n) (l : List (MulTerm n)) :
    Bl (mul_add_lines first t l) := by
  induction l generalizing first t <;> unfold mul_add_lines <;> bal

theorem bal_mul_add_with_next_line (ls : List (MulTerm n)) :
    Bl (mul_add_with_next_line ls) := by
  unfold mul_add_with_next_line; bal

theorem bal_invert_unsafe (a : AssignedValue n) :
    Bl (invert_unsafe a) := by
  unfold invert_unsafe; bal

theorem bal_invert (a : AssignedValue n) :
    Bl (invert a) := by
  unfold invert; bal

theorem bal_is_zero (a : AssignedValue n) :
    Bl (is_zero a) := by
  unfold is_zero; bal

theorem bal_div_unsafe (a b : AssignedValue n) :
    Bl (div_unsafe a b) := by
  unfold div_unsafe; bal

theorem bal_assign_constant (v : ZMod n) :
    Bl (assign_constant v) := by
  unfold assign_constant; bal

theorem bal_assign (v : ZMod n) :
    Bl (assign v) := by
  unfold assign; bal

theorem bal_assign_bit (a : ZMod n) :
    Bl (assign_bit a) := by
  unfold assign_bit; bal

theorem bal_assert_equal (a b : AssignedValue n) :
    Bl (assert_equal a b) := by
  unfold assert_equal; bal

theorem bal_assert_constant (a : AssignedValue n) (b : ZMod n) :
    Bl (assert_constant a b) := by
  unfold assert_constant; bal

theorem bal_assert_bit (a : AssignedValue n) :
    Bl (assert_bit a) := by
  unfold assert_bit; bal

theorem bal_and (a b : AssignedCondition n) :
    Bl (and a b) := by
  unfold and; bal

theorem bal_not (a : AssignedCondition n) :
    Bl (not a) := by
  unfold not; bal

theorem bal_not_and (a b : AssignedCondition n) :
    Bl (not_and a b) := by
  unfold not_and; bal

theorem bal_or (a b : AssignedCondition n) :
    Bl (or a b) := by
  unfold or; bal

theorem bal_xor (a b : AssignedCondition n) :
    Bl (xor a b) := by
  unfold xor; bal

theorem bal_xnor (a b : AssignedCondition n) :
    Bl (xnor a b) := by
  unfold xnor; bal

theorem bal_bisec (cond : AssignedCondition n) (a b : AssignedValue n) :
    Bl (bisec cond a b) := by
  unfold bisec; bal

theorem bal_bisec_cond (cond a b : AssignedCondition n) :
    Bl (bisec_cond cond a b) := by
  unfold bisec_cond; bal

theorem bal_assert_true (a : AssignedCondition n) :
    Bl (assert_true a) := by
  unfold assert_true; bal

theorem bal_assert_false (a : AssignedCondition n) :
    Bl (assert_false a) := by
  unfold assert_false; bal

theorem bal_try_assert_false (a : AssignedCondition n) :
    Bl (try_assert_false a) := by
  unfold try_assert_false; bal

theorem bal_get_w_bn (info : RangeInfo n) [Limbs4 info] (a : AssignedInteger n) :
    Bl (get_w_bn info a) := by
  unfold get_w_bn; bal

theorem bal_get_w (info : RangeInfo n) [Limbs4 info] (a : AssignedInteger n) :
    Bl (get_w info a) := by
  unfold get_w; bal

theorem bal_mul_column (info : RangeInfo n) [Limbs4 info] (a b : AssignedInteger n) (d : List (AssignedValue n)) (pos : ℕ) :
    Bl (mul_column info a b d pos) := by
  unfold mul_column; bal

theorem bal_mul_carries (info : RangeInfo n) [Limbs4 info] (borrow : ZMod n) (columns : List (AssignedValue n))
    (rem : AssignedInteger n) (v : AssignedValue n × AssignedValue n) (l : List ℕ) :
    Bl (mul_carries info borrow columns rem v l) := by
  induction l generalizing v <;> unfold mul_carries <;> bal

theorem bal_add_constraints_for_mul_equation_on_limbs (info : RangeInfo n) [Limbs4 info] (a b : AssignedInteger n) (d : List (AssignedValue n)) (rem : AssignedInteger n) :
    Bl (add_constraints_for_mul_equation_on_limbs info a b d rem) := by
  unfold add_constraints_for_mul_equation_on_limbs; bal

theorem bal_add_constraints_for_mul_equation_on_native (info : RangeInfo n) [Limbs4 info] (a b : AssignedInteger n) (d_native : AssignedValue n) (rem : AssignedInteger n) :
    Bl (add_constraints_for_mul_equation_on_native info a b d_native rem) := by
  unfold add_constraints_for_mul_equation_on_native; bal

theorem bal_reduce (info : RangeInfo n) [Limbs4 info] (a : AssignedInteger n) : Bl (reduce info a) := by
  unfold reduce
  split
  · exact .pure _
  · exact .bind (bal_rassert _) fun _ => .bind (bal_get_w_bn _ _) fun _ => .bind (bal_div_rem _ _) fun _ =>
      .bind (bal_assign_w _ _) fun _ => (Bal.bind (Bal.assign_common _) fun _ =>
        Bal.bind (Bal.one_line_with_last _ _ _ _ _) fun _ => .skip (bal_reduce_limbs _ _ _ _ _ _ _ _) fun _ =>
          (Bl.pure _).out).toBl (by norm_num)

theorem bal_conditionally_reduce (info : RangeInfo n) [Limbs4 info] (a : AssignedInteger n) :
    Bl (conditionally_reduce info a) := by
  unfold conditionally_reduce; bal

theorem bal_int_add (info : RangeInfo n) [Limbs4 info] (a b : AssignedInteger n) :
    Bl (int_add info a b) := by
  unfold int_add; bal

theorem bal_int_sub (info : RangeInfo n) [Limbs4 info] (a b : AssignedInteger n) :
    Bl (int_sub info a b) := by
  unfold int_sub; bal

theorem bal_int_neg (info : RangeInfo n) [Limbs4 info] (a : AssignedInteger n) :
    Bl (int_neg info a) := by
  unfold int_neg; bal

theorem bal_int_mul (info : RangeInfo n) [Limbs4 info] (a b : AssignedInteger n) :
    Bl (int_mul info a b) := by
  unfold int_mul; bal

theorem bal_is_pure_zero (a : AssignedInteger n) :
    Bl (is_pure_zero a) := by
  unfold is_pure_zero; bal

theorem bal_is_pure_w_limbs (info : RangeInfo n) [Limbs4 info] (a : AssignedInteger n) (is_eq : AssignedCondition n) (x0 : List ℕ) :
    Bl (is_pure_w_limbs info a is_eq x0) := by
  fun_induction is_pure_w_limbs info a is_eq x0 <;> bal

theorem bal_is_pure_w_modulus (info : RangeInfo n) [Limbs4 info] (a : AssignedInteger n) :
    Bl (is_pure_w_modulus info a) := by
  unfold is_pure_w_modulus; bal

theorem bal_is_int_zero (info : RangeInfo n) [Limbs4 info] (a : AssignedInteger n) :
    Bl (is_int_zero info a) := by
  unfold is_int_zero; bal

theorem bal_is_int_equal (info : RangeInfo n) [Limbs4 info] (a b : AssignedInteger n) :
    Bl (is_int_equal info a b) := by
  unfold is_int_equal; bal

theorem bal_int_div (info : RangeInfo n) [Limbs4 info] (a b : AssignedInteger n) :
    Bl (int_div info a b) := by
  unfold int_div; bal

theorem bal_assign_int_constant (info : RangeInfo n) [Limbs4 info] (w : ℕ) :
    Bl (assign_int_constant info w) := by
  unfold assign_int_constant; bal

theorem bal_int_unsafe_invert (info : RangeInfo n) [Limbs4 info] (x : AssignedInteger n) :
    Bl (int_unsafe_invert info x) := by
  unfold int_unsafe_invert; bal

theorem bal_assert_int_equal (info : RangeInfo n) [Limbs4 info] (a b : AssignedInteger n) :
    Bl (assert_int_equal info a b) := by
  unfold assert_int_equal; bal

theorem bal_int_square (info : RangeInfo n) [Limbs4 info] (a : AssignedInteger n) :
    Bl (int_square info a) := by
  unfold int_square; bal

theorem bal_int_mul_small_constant (info : RangeInfo n) [Limbs4 info] (a : AssignedInteger n) (b : ℕ) :
    Bl (int_mul_small_constant info a b) := by
  unfold int_mul_small_constant; bal

theorem bal_bisec_int (info : RangeInfo n) [Limbs4 info] (cond : AssignedCondition n) (a b : AssignedInteger n) :
    Bl (bisec_int info cond a b) := by
  unfold bisec_int; bal

theorem bal_assign_constant_point (info : RangeInfo n) [Limbs4 info] (c : Option (ℕ × ℕ)) :
    Bl (assign_constant_point info c) := by
  unfold assign_constant_point; bal

theorem bal_assign_point (info : RangeInfo n) [Limbs4 info] (b : ℕ) (c : Option (ℕ × ℕ)) :
    Bl (assign_point info b c) := by
  unfold assign_point; bal

theorem bal_assign_non_zero_point (info : RangeInfo n) [Limbs4 info] (b : ℕ) (c : Option (ℕ × ℕ)) :
    Bl (assign_non_zero_point info b c) := by
  unfold assign_non_zero_point; bal

theorem bal_assign_identity (info : RangeInfo n) [Limbs4 info] :
    Bl (assign_identity info) := by
  unfold assign_identity; bal

theorem bal_bisec_point (info : RangeInfo n) [Limbs4 info] (cond : AssignedCondition n) (a b : AssignedPoint n) :
    Bl (bisec_point info cond a b) := by
  unfold bisec_point; bal

theorem bal_bisec_curvature (info : RangeInfo n) [Limbs4 info] (cond : AssignedCondition n) (a b : AssignedCurvature n) :
    Bl (bisec_curvature info cond a b) := by
  unfold bisec_curvature; bal

theorem bal_bisec_point_with_curvature (info : RangeInfo n) [Limbs4 info] (cond : AssignedCondition n) (a b : AssignedPointWithCurvature n) :
    Bl (bisec_point_with_curvature info cond a b) := by
  unfold bisec_point_with_curvature; bal

theorem bal_lambda_to_point_non_zero (info : RangeInfo n) [Limbs4 info] (l : AssignedInteger n) (a b : AssignedNonZeroPoint n) :
    Bl (lambda_to_point_non_zero info l a b) := by
  unfold lambda_to_point_non_zero; bal

theorem bal_lambda_to_point (info : RangeInfo n) [Limbs4 info] (lambda : AssignedCurvature n) (a b : AssignedPoint n) :
    Bl (lambda_to_point info lambda a b) := by
  unfold lambda_to_point; bal

theorem bal_ecc_add (info : RangeInfo n) [Limbs4 info] (a : AssignedPointWithCurvature n) (b : AssignedPoint n) :
    Bl (ecc_add info a b) := by
  unfold ecc_add; bal

theorem bal_ecc_double (info : RangeInfo n) [Limbs4 info] (order : ℕ) (a : AssignedPointWithCurvature n) :
    Bl (ecc_double info order a) := by
  unfold ecc_double; bal

theorem bal_ecc_assert_equal (info : RangeInfo n) [Limbs4 info] (a b : AssignedPoint n) :
    Bl (ecc_assert_equal info a b) := by
  unfold ecc_assert_equal; bal

theorem bal_ecc_neg (info : RangeInfo n) [Limbs4 info] (a : AssignedPoint n) :
    Bl (ecc_neg info a) := by
  unfold ecc_neg; bal

theorem bal_ecc_reduce (info : RangeInfo n) [Limbs4 info] (a : AssignedPoint n) :
    Bl (ecc_reduce info a) := by
  unfold ecc_reduce; bal

theorem bal_tangent_slope (info : RangeInfo n) [Limbs4 info] (x y : AssignedInteger n) :
    Bl (tangent_slope info x y) := by
  unfold tangent_slope; bal

theorem bal_to_point_with_curvature (info : RangeInfo n) [Limbs4 info] (a : AssignedPoint n) :
    Bl (to_point_with_curvature info a) := by
  unfold to_point_with_curvature; bal

theorem bal_ecc_reduce_with_curvature (info : RangeInfo n) [Limbs4 info] (a : AssignedPoint n) :
    Bl (ecc_reduce_with_curvature info a) := by
  unfold ecc_reduce_with_curvature; bal

theorem bal_ecc_encode (info : RangeInfo n) [Limbs4 info] (p : AssignedPoint n) :
    Bl (ecc_encode info p) := by
  unfold ecc_encode; bal

theorem bal_ecc_add_unsafe (info : RangeInfo n) [Limbs4 info] (a b : AssignedNonZeroPoint n) :
    Bl (ecc_add_unsafe info a b) := by
  unfold ecc_add_unsafe; bal

theorem bal_ecc_double_unsafe (info : RangeInfo n) [Limbs4 info] (a : AssignedNonZeroPoint n) :
    Bl (ecc_double_unsafe info a) := by
  unfold ecc_double_unsafe; bal

theorem bal_ecc_neg_non_zero (info : RangeInfo n) [Limbs4 info] (a : AssignedNonZeroPoint n) :
    Bl (ecc_neg_non_zero info a) := by
  unfold ecc_neg_non_zero; bal

theorem bal_ecc_reduce_non_zero (info : RangeInfo n) [Limbs4 info] (a : AssignedNonZeroPoint n) :
    Bl (ecc_reduce_non_zero info a) := by
  unfold ecc_reduce_non_zero; bal

theorem bal_ecc_bisec_non_zero_point (info : RangeInfo n) [Limbs4 info] (cond : AssignedCondition n) (a b : AssignedNonZeroPoint n) :
    Bl (ecc_bisec_non_zero_point info cond a b) := by
  unfold ecc_bisec_non_zero_point; bal

theorem bal_bisec_pairs (info : RangeInfo n) [Limbs4 info] (bit : AssignedCondition n) (x0 : List (AssignedNonZeroPoint n)) :
    Bl (bisec_pairs info bit x0) := by
  fun_induction bisec_pairs info bit x0 <;> bal

theorem bal_bisec_rounds (info : RangeInfo n) [Limbs4 info] (candidates : List (AssignedNonZeroPoint n)) (x0 : List (AssignedCondition n)) :
    Bl (bisec_rounds info candidates x0) := by
  fun_induction bisec_rounds info candidates x0 <;> bal

theorem bal_bisec_candidate_non_zero (info : RangeInfo n) [Limbs4 info] (candidates : List (AssignedNonZeroPoint n)) (group_bits : List (AssignedCondition n)) :
    Bl (bisec_candidate_non_zero info candidates group_bits) := by
  unfold bisec_candidate_non_zero; bal

theorem bal_pick_candidate_non_zero (candidates : List (AssignedNonZeroPoint n)) (group_bits : List (AssignedCondition n)) :
    Bl (pick_candidate_non_zero candidates group_bits) := by
  unfold pick_candidate_non_zero; bal

theorem bal_cache_limbs (limbs : List (AssignedValue n)) (sc g offset : ℕ) (x0 : List ℕ) :
    Bl (cache_limbs limbs sc g offset x0) := by
  fun_induction cache_limbs limbs sc g offset x0 <;> bal

theorem bal_assign_cache_integer (info : RangeInfo n) [Limbs4 info] (p : AssignedInteger n) (sc g offset : ℕ) :
    Bl (assign_cache_integer info p sc g offset) := by
  unfold assign_cache_integer; bal

theorem bal_assign_selected_integer (info : RangeInfo n) [Limbs4 info] (p : AssignedInteger n) (sc : AssignedValue n) (g offset : ℕ) :
    Bl (assign_selected_integer info p sc g offset) := by
  unfold assign_selected_integer; bal

theorem bal_assign_cache_point (info : RangeInfo n) [Limbs4 info] (p : AssignedPointWithCurvature n) (g sc : ℕ) :
    Bl (assign_cache_point info p g sc) := by
  unfold assign_cache_point; bal

theorem bal_assign_selected_point (info : RangeInfo n) [Limbs4 info] (p : AssignedPointWithCurvature n) (sc : AssignedValue n) (g : ℕ) :
    Bl (assign_selected_point info p sc g) := by
  unfold assign_selected_point; bal

theorem bal_assign_selected_point_non_zero (info : RangeInfo n) [Limbs4 info] (p : AssignedNonZeroPoint n) (sc : AssignedValue n) (g : ℕ) :
    Bl (assign_selected_point_non_zero info p sc g) := by
  unfold assign_selected_point_non_zero; bal

theorem bal_assign_cache_point_non_zero (info : RangeInfo n) [Limbs4 info] (p : AssignedNonZeroPoint n) (g sc : ℕ) :
    Bl (assign_cache_point_non_zero info p g sc) := by
  unfold assign_cache_point_non_zero; bal

theorem bal_ecc_assert_equal_non_zero (info : RangeInfo n) [Limbs4 info] (a b : AssignedNonZeroPoint n) :
    Bl (ecc_assert_equal_non_zero info a b) := by
  unfold ecc_assert_equal_non_zero; bal

theorem bal_ecc_non_zero_point_downgrade (a : AssignedNonZeroPoint n) :
    Bl (ecc_non_zero_point_downgrade a) := by
  unfold ecc_non_zero_point_downgrade; bal

theorem bal_ecc_bisec_to_non_zero_point (info : RangeInfo n) [Limbs4 info] (a : AssignedPoint n) (b : AssignedNonZeroPoint n) :
    Bl (ecc_bisec_to_non_zero_point info a b) := by
  unfold ecc_bisec_to_non_zero_point; bal

theorem bal_native_bits (s_bn : ℕ) (x0 : List ℕ) (x1 : AssignedValue n) :
    Bl (native_bits s_bn x0 x1) := by
  fun_induction native_bits s_bn x0 x1 <;> bal

theorem bal_pad_bits (ws rem : ℕ) (bits : List (AssignedCondition n)) :
    Bl (pad_bits ws rem bits) := by
  unfold pad_bits; bal

theorem bal_decompose_scalar_native (num_bits ws : ℕ) (s : AssignedValue n) :
    Bl (decompose_scalar_native num_bits ws s) := by
  unfold decompose_scalar_native; bal

theorem bal_limb_bits_loop (v : ℕ) (x0 : List ℕ) (x1 : AssignedValue n) :
    Bl (limb_bits_loop v x0 x1) := by
  fun_induction limb_bits_loop v x0 x1 <;> bal

theorem bal_limbs_bits (info : RangeInfo n) [Limbs4 info] (x0 : List (AssignedValue n)) :
    Bl (limbs_bits info x0) := by
  fun_induction limbs_bits info x0 <;> bal

theorem bal_decompose_scalar_general (info : RangeInfo n) [Limbs4 info] (ws : ℕ) (s : AssignedInteger n) :
    Bl (decompose_scalar_general info ws s) := by
  unfold decompose_scalar_general; bal


/-! ## Tower, pairings, Keccak -/

theorem bal_fq2_reduce (info : RangeInfo n) [Limbs4 info] (x : AssignedFq2 n) :
    Bl (fq2_reduce info x) := by
  unfold fq2_reduce; bal

theorem bal_fq2_assert_equal (info : RangeInfo n) [Limbs4 info] (x y : AssignedFq2 n) :
    Bl (fq2_assert_equal info x y) := by
  unfold fq2_assert_equal; bal

theorem bal_fq2_assign_zero (info : RangeInfo n) [Limbs4 info] :
    Bl (fq2_assign_zero info) := by
  unfold fq2_assign_zero; bal

theorem bal_fq2_assign_one (info : RangeInfo n) [Limbs4 info] :
    Bl (fq2_assign_one info) := by
  unfold fq2_assign_one; bal

theorem bal_fq2_assign_constant (info : RangeInfo n) [Limbs4 info] (c : ℕ × ℕ) :
    Bl (fq2_assign_constant info c) := by
  unfold fq2_assign_constant; bal

theorem bal_fq2_add (info : RangeInfo n) [Limbs4 info] (a b : AssignedFq2 n) :
    Bl (fq2_add info a b) := by
  unfold fq2_add; bal

theorem bal_fq2_mul (info : RangeInfo n) [Limbs4 info] (a b : AssignedFq2 n) :
    Bl (fq2_mul info a b) := by
  unfold fq2_mul; bal

theorem bal_fq2_sub (info : RangeInfo n) [Limbs4 info] (a b : AssignedFq2 n) :
    Bl (fq2_sub info a b) := by
  unfold fq2_sub; bal

theorem bal_fq2_double (info : RangeInfo n) [Limbs4 info] (a : AssignedFq2 n) :
    Bl (fq2_double info a) := by
  unfold fq2_double; bal

theorem bal_fq2_square (info : RangeInfo n) [Limbs4 info] (a : AssignedFq2 n) :
    Bl (fq2_square info a) := by
  unfold fq2_square; bal

theorem bal_fq2_neg (info : RangeInfo n) [Limbs4 info] (a : AssignedFq2 n) :
    Bl (fq2_neg info a) := by
  unfold fq2_neg; bal

theorem bal_fq2_conjugate (info : RangeInfo n) [Limbs4 info] (a : AssignedFq2 n) :
    Bl (fq2_conjugate info a) := by
  unfold fq2_conjugate; bal

theorem bal_fq2_unsafe_invert (info : RangeInfo n) [Limbs4 info] (x : AssignedFq2 n) :
    Bl (fq2_unsafe_invert info x) := by
  unfold fq2_unsafe_invert; bal

theorem bal_fq2_mul_by_nonresidue (info : RangeInfo n) [Limbs4 info] (crv : PairingCurve) (a : AssignedFq2 n) :
    Bl (fq2_mul_by_nonresidue info crv a) := by
  unfold fq2_mul_by_nonresidue; bal

theorem bal_fq6_reduce (info : RangeInfo n) [Limbs4 info] (x : AssignedFq6 n) :
    Bl (fq6_reduce info x) := by
  unfold fq6_reduce; bal

theorem bal_fq6_assert_equal (info : RangeInfo n) [Limbs4 info] (x y : AssignedFq6 n) :
    Bl (fq6_assert_equal info x y) := by
  unfold fq6_assert_equal; bal

theorem bal_fq6_assign_zero (info : RangeInfo n) [Limbs4 info] :
    Bl (fq6_assign_zero info) := by
  unfold fq6_assign_zero; bal

theorem bal_fq6_assign_one (info : RangeInfo n) [Limbs4 info] :
    Bl (fq6_assign_one info) := by
  unfold fq6_assign_one; bal

theorem bal_fq6_add (info : RangeInfo n) [Limbs4 info] (a b : AssignedFq6 n) :
    Bl (fq6_add info a b) := by
  unfold fq6_add; bal

theorem bal_fq6_mul (info : RangeInfo n) [Limbs4 info] (crv : PairingCurve) (a b : AssignedFq6 n) :
    Bl (fq6_mul info crv a b) := by
  unfold fq6_mul; bal

theorem bal_fq6_sub (info : RangeInfo n) [Limbs4 info] (a b : AssignedFq6 n) :
    Bl (fq6_sub info a b) := by
  unfold fq6_sub; bal

theorem bal_fq6_double (info : RangeInfo n) [Limbs4 info] (a : AssignedFq6 n) :
    Bl (fq6_double info a) := by
  unfold fq6_double; bal

theorem bal_fq6_square (info : RangeInfo n) [Limbs4 info] (crv : PairingCurve) (a : AssignedFq6 n) :
    Bl (fq6_square info crv a) := by
  unfold fq6_square; bal

theorem bal_fq6_neg (info : RangeInfo n) [Limbs4 info] (a : AssignedFq6 n) :
    Bl (fq6_neg info a) := by
  unfold fq6_neg; bal

theorem bal_fq6_mul_by_1 (info : RangeInfo n) [Limbs4 info] (crv : PairingCurve) (a : AssignedFq6 n) (b1 : AssignedFq2 n) :
    Bl (fq6_mul_by_1 info crv a b1) := by
  unfold fq6_mul_by_1; bal

theorem bal_fq6_mul_by_01 (info : RangeInfo n) [Limbs4 info] (crv : PairingCurve) (a : AssignedFq6 n) (b0 b1 : AssignedFq2 n) :
    Bl (fq6_mul_by_01 info crv a b0 b1) := by
  unfold fq6_mul_by_01; bal

theorem bal_fq6_unsafe_invert (info : RangeInfo n) [Limbs4 info] (crv : PairingCurve) (x : AssignedFq6 n) :
    Bl (fq6_unsafe_invert info crv x) := by
  unfold fq6_unsafe_invert; bal

theorem bal_fq6_assign_constant (info : RangeInfo n) [Limbs4 info] (c : (ℕ × ℕ) × (ℕ × ℕ) × (ℕ × ℕ)) :
    Bl (fq6_assign_constant info c) := by
  unfold fq6_assign_constant; bal

theorem bal_fq6_mul_by_nonresidue (info : RangeInfo n) [Limbs4 info] (crv : PairingCurve) (a : AssignedFq6 n) :
    Bl (fq6_mul_by_nonresidue info crv a) := by
  unfold fq6_mul_by_nonresidue; bal

theorem bal_fq12_reduce (info : RangeInfo n) [Limbs4 info] (x : AssignedFq12 n) :
    Bl (fq12_reduce info x) := by
  unfold fq12_reduce; bal

theorem bal_fq12_assert_eq (info : RangeInfo n) [Limbs4 info] (x y : AssignedFq12 n) :
    Bl (fq12_assert_eq info x y) := by
  unfold fq12_assert_eq; bal

theorem bal_fq12_assign_zero (info : RangeInfo n) [Limbs4 info] :
    Bl (fq12_assign_zero info) := by
  unfold fq12_assign_zero; bal

theorem bal_fq12_assign_one (info : RangeInfo n) [Limbs4 info] :
    Bl (fq12_assign_one info) := by
  unfold fq12_assign_one; bal

theorem bal_fq12_assert_one (info : RangeInfo n) [Limbs4 info] (x : AssignedFq12 n) :
    Bl (fq12_assert_one info x) := by
  unfold fq12_assert_one; bal

theorem bal_fq12_add (info : RangeInfo n) [Limbs4 info] (a b : AssignedFq12 n) :
    Bl (fq12_add info a b) := by
  unfold fq12_add; bal

theorem bal_fq12_mul (info : RangeInfo n) [Limbs4 info] (crv : PairingCurve) (a b : AssignedFq12 n) :
    Bl (fq12_mul info crv a b) := by
  unfold fq12_mul; bal

theorem bal_fq12_sub (info : RangeInfo n) [Limbs4 info] (a b : AssignedFq12 n) :
    Bl (fq12_sub info a b) := by
  unfold fq12_sub; bal

theorem bal_fq12_double (info : RangeInfo n) [Limbs4 info] (a : AssignedFq12 n) :
    Bl (fq12_double info a) := by
  unfold fq12_double; bal

theorem bal_fq12_square (info : RangeInfo n) [Limbs4 info] (crv : PairingCurve) (a : AssignedFq12 n) :
    Bl (fq12_square info crv a) := by
  unfold fq12_square; bal

theorem bal_fq12_neg (info : RangeInfo n) [Limbs4 info] (a : AssignedFq12 n) :
    Bl (fq12_neg info a) := by
  unfold fq12_neg; bal

theorem bal_fq12_conjugate (info : RangeInfo n) [Limbs4 info] (x : AssignedFq12 n) :
    Bl (fq12_conjugate info x) := by
  unfold fq12_conjugate; bal

theorem bal_fq12_mul_by_014 (info : RangeInfo n) [Limbs4 info] (crv : PairingCurve) (x : AssignedFq12 n) (c0 c1 c4 : AssignedFq2 n) :
    Bl (fq12_mul_by_014 info crv x c0 c1 c4) := by
  unfold fq12_mul_by_014; bal

theorem bal_fq12_mul_by_034 (info : RangeInfo n) [Limbs4 info] (crv : PairingCurve) (x : AssignedFq12 n) (c0 c3 c4 : AssignedFq2 n) :
    Bl (fq12_mul_by_034 info crv x c0 c3 c4) := by
  unfold fq12_mul_by_034; bal

theorem bal_fp4_square (info : RangeInfo n) [Limbs4 info] (crv : PairingCurve) (a0 a1 : AssignedFq2 n) :
    Bl (fp4_square info crv a0 a1) := by
  unfold fp4_square; bal

theorem bal_fq12_cyclotomic_square (info : RangeInfo n) [Limbs4 info] (crv : PairingCurve) (x : AssignedFq12 n) :
    Bl (fq12_cyclotomic_square info crv x) := by
  unfold fq12_cyclotomic_square; bal

theorem bal_fq12_unsafe_invert (info : RangeInfo n) [Limbs4 info] (crv : PairingCurve) (x : AssignedFq12 n) :
    Bl (fq12_unsafe_invert info crv x) := by
  unfold fq12_unsafe_invert; bal

theorem bal_fq12_assign_constant (info : RangeInfo n) [Limbs4 info] (c : ((ℕ × ℕ) × (ℕ × ℕ) × (ℕ × ℕ)) × ((ℕ × ℕ) × (ℕ × ℕ) × (ℕ × ℕ))) :
    Bl (fq12_assign_constant info c) := by
  unfold fq12_assign_constant; bal

theorem bal_fq2_frobenius_map (info : RangeInfo n) [Limbs4 info] (crv : PairingCurve) (x : AssignedFq2 n) (power : ℕ) :
    Bl (fq2_frobenius_map info crv x power) := by
  unfold fq2_frobenius_map; bal

theorem bal_fq6_frobenius_map (info : RangeInfo n) [Limbs4 info] (crv : PairingCurve) (x : AssignedFq6 n) (power : ℕ) :
    Bl (fq6_frobenius_map info crv x power) := by
  unfold fq6_frobenius_map; bal

theorem bal_fq12_frobenius_map (info : RangeInfo n) [Limbs4 info] (crv : PairingCurve) (x : AssignedFq12 n) (power : ℕ) :
    Bl (fq12_frobenius_map info crv x power) := by
  unfold fq12_frobenius_map; bal

theorem bal_doubling_step (info : RangeInfo n) [Limbs4 info] (pt : AssignedG2 n) :
    Bl (doubling_step info pt) := by
  unfold doubling_step; bal

theorem bal_addition_step (info : RangeInfo n) [Limbs4 info] (pt : AssignedG2 n) (pq : AssignedG2Affine n) :
    Bl (addition_step info pt pq) := by
  unfold addition_step; bal

theorem bal_g2affine_to_g2 (info : RangeInfo n) [Limbs4 info] (g2 : AssignedG2Affine n) :
    Bl (g2affine_to_g2 info g2) := by
  unfold g2affine_to_g2; bal

theorem bal_g2_neg (info : RangeInfo n) [Limbs4 info] (g2 : AssignedG2Affine n) :
    Bl (g2_neg info g2) := by
  unfold g2_neg; bal

theorem bal_ell (info : RangeInfo n) [Limbs4 info] (crv : PairingCurve) (f : AssignedFq12 n) (coeffs : LineCoeffs n) (p : AssignedPoint n) :
    Bl (ell info crv f coeffs p) := by
  unfold ell; bal

theorem bal_ell_pairs (info : RangeInfo n) [Limbs4 info] (crv : PairingCurve) (f : AssignedFq12 n)
    (l : List (AssignedPoint n × List (LineCoeffs n))) : Bl (ell_pairs info crv f l) := by
  induction l generalizing f with
  | nil => exact .pure _
  | cons p l ih =>
    unfold ell_pairs
    exact .bind (bal_unwrap _) fun _ => .bind (bal_ell _ _ _ _ _) fun _ => .bind (ih _) fun _ => .pure _

theorem bal_assert_not_identity (l : List (AssignedPoint n × List (LineCoeffs n))) :
    Bl (assert_not_identity l) := by
  induction l with
  | nil => exact .pure _
  | cons p l ih => exact .bind (bal_assert_false _) fun _ => ih

theorem bal_bn_prepare_step (info : RangeInfo n) [Limbs4 info] (g2 neg_g2 : AssignedG2Affine n) (st : List (LineCoeffs n) × AssignedG2 n) (x : ℤ) :
    Bl (bn_prepare_step info g2 neg_g2 st x) := by
  unfold bn_prepare_step
  exact .bind (bal_doubling_step ..) fun _ => .ite (.bind (bal_addition_step ..) fun _ => .pure _)
    (.ite (.bind (bal_addition_step ..) fun _ => .pure _) (.pure _))

theorem bal_bn_prepare_g2 (info : RangeInfo n) [Limbs4 info] (g2 : AssignedG2Affine n) :
    Bl (bn_prepare_g2 info g2) := by
  unfold bn_prepare_g2; bal

theorem bal_bn_miller_loop (info : RangeInfo n) [Limbs4 info] (xs : List ℤ) (first : Bool) (f : AssignedFq12 n)
    (l : List (AssignedPoint n × List (LineCoeffs n))) : Bl (bn_miller_loop info first f l xs) := by
  induction xs generalizing first f l with
  | nil => unfold bn_miller_loop; exact .pure _
  | cons x xs ih =>
    unfold bn_miller_loop
    have step : ∀ g, Bl (do
        let (f, pairs) ← ell_pairs info .bn256 g l
        let (f, pairs) ←
          if x = 1 then ell_pairs info .bn256 f pairs
          else if x = -1 then ell_pairs info .bn256 f pairs
          else pure (f, pairs)
        bn_miller_loop info false f pairs xs) := fun g =>
      .bind (bal_ell_pairs ..) fun _ => .ite (.bind (bal_ell_pairs ..) fun _ => ih ..)
        (.ite (.bind (bal_ell_pairs ..) fun _ => ih ..) (ih ..))
    exact .ite (.bind (.pure _) fun _ => step _) (.bind (bal_fq12_square ..) fun _ => step _)

theorem bal_bn_multi_miller_loop (info : RangeInfo n) [Limbs4 info] (terms : List (AssignedPoint n × List (LineCoeffs n))) :
    Bl (bn_multi_miller_loop info terms) := by
  unfold bn_multi_miller_loop; bal

theorem bal_bn_exp_step (info : RangeInfo n) [Limbs4 info] (f res : AssignedFq12 n) (bit : Bool) :
    Bl (bn_exp_step info f res bit) := by
  unfold bn_exp_step; bal

theorem bal_bn_exp_by_x (info : RangeInfo n) [Limbs4 info] (f : AssignedFq12 n) :
    Bl (bn_exp_by_x info f) := by
  unfold bn_exp_by_x; bal

theorem bal_bn_final_exponentiation (info : RangeInfo n) [Limbs4 info] (f : AssignedFq12 n) :
    Bl (bn_final_exponentiation info f) := by
  unfold bn_final_exponentiation; bal

theorem bal_bls_prepare_step (info : RangeInfo n) [Limbs4 info] (g2 : AssignedG2Affine n) (st : Bool × List (LineCoeffs n) × AssignedG2 n) (i : Bool) :
    Bl (bls_prepare_step info g2 st i) := by
  unfold bls_prepare_step
  exact .ite (.pure _) (.bind (bal_doubling_step ..) fun _ => .ite (.bind (bal_addition_step ..) fun _ => .pure _) (.pure _))

theorem bal_bls_prepare_g2 (info : RangeInfo n) [Limbs4 info] (g2 : AssignedG2Affine n) :
    Bl (bls_prepare_g2 info g2) := by
  unfold bls_prepare_g2; bal

theorem bal_bls_miller_loop (info : RangeInfo n) [Limbs4 info] (xs : List Bool) (found : Bool) (f : AssignedFq12 n)
    (l : List (AssignedPoint n × List (LineCoeffs n))) : Bl (bls_miller_loop info found f l xs) := by
  induction xs generalizing found f l with
  | nil => unfold bls_miller_loop; exact .pure _
  | cons x xs ih =>
    unfold bls_miller_loop
    exact .ite (ih ..) (.bind (bal_ell_pairs ..) fun _ => .ite (.bind (bal_ell_pairs ..) fun _ =>
      .bind (bal_fq12_square ..) fun _ => ih ..) (.bind (.pure _) fun _ => .bind (bal_fq12_square ..) fun _ => ih ..))

theorem bal_bls_multi_miller_loop (info : RangeInfo n) [Limbs4 info] (terms : List (AssignedPoint n × List (LineCoeffs n))) :
    Bl (bls_multi_miller_loop info terms) := by
  unfold bls_multi_miller_loop; bal

theorem bal_bls_exp_step (info : RangeInfo n) [Limbs4 info] (f : AssignedFq12 n) (st : Bool × AssignedFq12 n) (i : Bool) :
    Bl (bls_exp_step info f st i) := by
  unfold bls_exp_step
  have step : ∀ (b : Bool) (t : AssignedFq12 n), Bl (if i then do
      let tmp ← fq12_mul info .bls12_381 t f
      pure (b, tmp)
    else pure (b, t)) := fun b t => .ite (.bind (bal_fq12_mul ..) fun _ => .pure _) (.pure _)
  exact .ite (.bind (bal_fq12_cyclotomic_square ..) fun _ => step _ _) (step _ _)

theorem bal_bls_cyclotomic_exp (info : RangeInfo n) [Limbs4 info] (f : AssignedFq12 n) :
    Bl (bls_cyclotomic_exp info f) := by
  unfold bls_cyclotomic_exp; bal

theorem bal_bls_final_exponentiation (info : RangeInfo n) [Limbs4 info] (f : AssignedFq12 n) :
    Bl (bls_final_exponentiation info f) := by
  unfold bls_final_exponentiation; bal

theorem bal_prepare_g2 (info : RangeInfo n) [Limbs4 info] (crv : PairingCurve) (g2 : AssignedG2Affine n) :
    Bl (prepare_g2 info crv g2) := by
  cases crv
  · exact bal_bn_prepare_g2 info g2
  · exact bal_bls_prepare_g2 info g2

theorem bal_multi_miller_loop (info : RangeInfo n) [Limbs4 info] (crv : PairingCurve) (l : List (AssignedPoint n × List (LineCoeffs n))) :
    Bl (multi_miller_loop info crv l) := by
  cases crv
  · exact bal_bn_multi_miller_loop info l
  · exact bal_bls_multi_miller_loop info l

theorem bal_final_exponentiation (info : RangeInfo n) [Limbs4 info] (crv : PairingCurve) (f : AssignedFq12 n) :
    Bl (final_exponentiation info crv f) := by
  cases crv
  · exact bal_bn_final_exponentiation info f
  · exact bal_bls_final_exponentiation info f

theorem bal_prepare_terms (info : RangeInfo n) [Limbs4 info] (crv : PairingCurve) (l : List (AssignedPoint n × AssignedG2Affine n)) :
    Bl (prepare_terms info crv l) := by
  induction l with
  | nil => exact .pure _
  | cons p l ih => exact .bind (bal_prepare_g2 ..) fun _ => .bind ih fun _ => .pure _

theorem bal_pairing (info : RangeInfo n) [Limbs4 info] (crv : PairingCurve) (terms : List (AssignedPoint n × AssignedG2Affine n)) :
    Bl (pairing info crv terms) := by
  unfold pairing; bal

theorem bal_check_pairing (info : RangeInfo n) [Limbs4 info] (crv : PairingCurve) (terms : List (AssignedPoint n × AssignedG2Affine n)) :
    Bl (check_pairing info crv terms) := by
  unfold check_pairing; bal

theorem bal_tabM {α : Type} : ∀ {k : ℕ} {f : Fin k → M n α}, (∀ i, Bl (f i)) → Bl (tabM f)
  | 0, _, _ => .pure _
  | _ + 1, _, h => .bind (h 0) fun _ => .bind (bal_tabM fun i => h i.succ) fun _ => .pure _

theorem bal_keccak_init  :
    Bl (keccak_init : M n _) := by
  unfold keccak_init; bal

theorem bal_theta_column (y : Fin 5 → Lane n) :
    Bl (theta_column y) := by
  unfold theta_column; bal

theorem bal_theta (state : KState n) :
    Bl (theta state) := by
  unfold theta; bal

theorem bal_keccak_xi (state : KState n) :
    Bl (keccak_xi state) := by
  unfold keccak_xi; bal

theorem bal_iota (state : KState n) (round : ℕ) :
    Bl (iota state round) := by
  unfold iota; bal

theorem bal_permute_rounds (is : List ℕ) (s : KState n) : Bl (permute_rounds is s) := by
  induction is generalizing s with
  | nil => exact .pure _
  | cons i is ih =>
    exact .bind (bal_theta _) fun _ => .bind (bal_keccak_xi _) fun _ => .bind (bal_iota _ _) fun _ => ih _

theorem bal_permute (state : KState n) :
    Bl (permute state) := by
  unfold permute; bal

theorem bal_absorb (state : KState n) (input : List (AssignedCondition n)) :
    Bl (absorb state input) := by
  unfold absorb; bal

theorem bal_decompose_u256_with (s_bn : ℕ) (s : AssignedValue n) :
    Bl (decompose_u256_with s_bn s) := by
  unfold decompose_u256_with; bal

theorem bal_decompose_scalar_as_u256_be (s : AssignedValue n) :
    Bl (decompose_scalar_as_u256_be s) := by
  unfold decompose_scalar_as_u256_be; bal

theorem bal_compose_loop (l : List (AssignedCondition n)) (acc : AssignedValue n) : Bl (compose_loop l acc) := by
  fun_induction compose_loop l acc with
  | case1 b1 b0 s acc ih => exact .bind (bal_sum_with_constant _ _) fun _ => ih _
  | case2 => exact .pure _

theorem bal_compose_to_scalar_be (s : List (AssignedCondition n)) :
    Bl (compose_to_scalar_be s) := by
  unfold compose_to_scalar_be; bal

theorem bal_hash_with {decompose : List (AssignedValue n) → M n (List (List (AssignedCondition n)))}
    (h : ∀ l, Bl (decompose l)) (input : List (AssignedValue n)) : Bl (hash_with decompose input) := by
  unfold hash_with
  exact .bind (bal_assign_constant _) fun _ => .bind (bal_assign_constant _) fun _ => .bind bal_keccak_init fun _ =>
    .bind (h _) fun _ => .bind (bal_foldlM bal_absorb _ _) fun _ => bal_compose_to_scalar_be _

theorem bal_keccak_hash (input : List (AssignedValue n)) :
    Bl (keccak_hash input) := by
  unfold keccak_hash; bal


end Verif
