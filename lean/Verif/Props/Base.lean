import Verif.Proof.MulAdd
import Verif.Spec.IntProg
import Verif.Proof.Primes

/-!
# C01 - C07: the base chip

Every `_sound` theorem quantifies over every context the operation may be run in, every circuit that contains
what was recorded, and every advice assignment satisfying that circuit. Every `_complete` theorem says that
the operation does not panic and that what it records is satisfied by what it computes.
The `example`s exhibit runs (over the bn256 scalar field) that meet the hypotheses.
-/

namespace Verif
variable {n : ℕ}

/-! ## C01 -/

theorem C01_sum_sound (es : List (AssignedValue n × ZMod n)) (k : Option (ZMod n)) :
    Sound (sum_with_constant es k)
      (fun w r => w r.cell = k.getD 0 + (es.map fun e => w e.1.cell * e.2).sum) :=
  fun _ _ hw => S_sum hw es k

theorem C01_sum_complete (es : List (AssignedValue n × ZMod n)) (k : Option (ZMod n)) (hne : es ≠ []) :
    Complete (sum_with_constant es k) (fun h => ∀ e ∈ es, Ok h e.1)
      (fun r => r.val = k.getD 0 + (es.map fun e => e.1.val * e.2).sum) Ok :=
  fun _ _ => C_sum es k hne fun h => h

theorem C01_add_sound (a b : AssignedValue n) :
    Sound (add a b) (fun w r => w r.cell = w a.cell + w b.cell) := fun _ _ hw => S_add hw a b

theorem C01_add_complete (a b : AssignedValue n) :
    Complete (add a b) (fun h => Ok h a ∧ Ok h b) (fun r => r.val = a.val + b.val) Ok :=
  fun _ _ => C_add fun h => h

theorem C01_sub_sound (a b : AssignedValue n) :
    Sound (sub a b) (fun w r => w r.cell = w a.cell - w b.cell) := fun _ _ hw => S_sub hw a b

theorem C01_sub_complete (a b : AssignedValue n) :
    Complete (sub a b) (fun h => Ok h a ∧ Ok h b) (fun r => r.val = a.val - b.val) Ok :=
  fun _ _ => C_sub fun h => h

theorem C01_add_constant_sound (a : AssignedValue n) (k : ZMod n) :
    Sound (add_constant a k) (fun w r => w r.cell = w a.cell + k) := fun _ _ hw => S_add_constant hw a k

theorem C01_add_constant_complete (a : AssignedValue n) (k : ZMod n) :
    Complete (add_constant a k) (fun h => Ok h a) (fun r => r.val = a.val + k) Ok :=
  fun _ _ => C_add_constant fun h => h

/-- The empty sum is the one list for which `sum_with_constant` panics. -/
theorem C01_sum_empty_panics (k : Option (ZMod n)) (s : Context n) :
    ∃ p, sum_with_constant [] k s = .error p := ⟨_, rfl⟩

/-- Two assigned values, the inputs of the examples below. -/
def twoInputs (x y : ZMod n) (f : AssignedValue n → AssignedValue n → M n (AssignedValue n)) :
    M n (AssignedValue n) := do
  let a ← assign x
  let b ← assign y
  f a b

/-- A complete operation on two assigned values, run on the empty context: no panic, the expected value, and
the recorded circuit is satisfied by the recorded witness. -/
theorem twoInputs_accepted {f : AssignedValue n → AssignedValue n → M n (AssignedValue n)} {x y v : ZMod n}
    (hf : ∀ a b : AssignedValue n, a.val = x → b.val = y →
      Complete (f a b) (fun h => Ok h a ∧ Ok h b) (fun r => r.val = v) Ok) :
    Accepted (twoInputs x y f) (fun r => r.val = v) :=
  Accepted.of_C (Q := Ok) fun c h => C.bind C_assign fun a ha => C.bind C_assign fun b hb =>
    (hf a b ha hb c h).weaken fun hH => ⟨hH.1.2, hH.2⟩

/-- Non-vacuity of C01: a six-term combination, recorded in two rows. -/
example : Accepted (n := bnR) (twoInputs 3 5 fun a b =>
    sum_with_constant [(a, 1), (b, 2), (a, 3), (b, 4), (a, 5), (b, 6)] (some 10)) (fun r => r.val = 97) :=
  twoInputs_accepted fun a b ha hb c h => ((C01_sum_complete _ _ (by simp)) c h).mono
    (fun r hr => by rw [hr]; simp [ha, hb]; norm_num) (fun _ _ _ q => q) |>.weaken (by simp +contextual)

/-! ## C02 -/

theorem C02_mul_sound (a b : AssignedValue n) :
    Sound (mul a b) (fun w r => w r.cell = w a.cell * w b.cell) := fun _ _ hw => S_mul hw a b

theorem C02_mul_complete (a b : AssignedValue n) :
    Complete (mul a b) (fun h => Ok h a ∧ Ok h b) (fun r => r.val = a.val * b.val) Ok :=
  fun _ _ => C_mul fun h => h

theorem C02_mul_add_constant_sound (a b : AssignedValue n) (k : ZMod n) :
    Sound (mul_add_constant a b k) (fun w r => w r.cell = w a.cell * w b.cell + k) :=
  fun _ _ hw => S_mul_add_constant hw a b k

theorem C02_mul_add_constant_complete (a b : AssignedValue n) (k : ZMod n) :
    Complete (mul_add_constant a b k) (fun h => Ok h a ∧ Ok h b) (fun r => r.val = a.val * b.val + k) Ok :=
  fun _ _ => C_mul_add_constant fun h => h

theorem C02_mul_add_sound (a b : AssignedValue n) (k : ZMod n) (d : AssignedValue n) (l : ZMod n) :
    Sound (mul_add a b k d l) (fun w r => w r.cell = w a.cell * w b.cell * k + w d.cell * l) :=
  fun _ _ hw => S_mul_add hw a b k d l

theorem C02_mul_add_complete (a b : AssignedValue n) (k : ZMod n) (d : AssignedValue n) (l : ZMod n) :
    Complete (mul_add a b k d l) (fun h => Ok h a ∧ Ok h b ∧ Ok h d)
      (fun r => r.val = a.val * b.val * k + d.val * l) Ok :=
  fun _ _ => C_mul_add fun h => h

theorem C02_invert_unsafe_sound (a : AssignedValue n) :
    Sound (invert_unsafe a) (fun w r => w a.cell * w r.cell = 1) := fun _ _ hw => S_invert_unsafe hw a

theorem C02_invert_unsafe_complete [Fact n.Prime] (a : AssignedValue n) (ha : a.val ≠ 0) :
    Complete (invert_unsafe a) (fun h => Ok h a) (fun r => r.val = a.val⁻¹) Ok :=
  fun _ _ => C_invert_unsafe ha fun h => h

theorem C02_div_unsafe_sound (a b : AssignedValue n) :
    Sound (div_unsafe a b) (fun w r => w b.cell * w r.cell = w a.cell) := fun _ _ hw => S_div_unsafe hw a b

theorem C02_div_unsafe_complete [Fact n.Prime] (a b : AssignedValue n) (hb : b.val ≠ 0) :
    Complete (div_unsafe a b) (fun h => Ok h b ∧ Ok h a) (fun r => r.val = a.val / b.val) Ok :=
  fun _ _ => C_div_unsafe hb fun h => h

/-- Non-vacuity of C02. -/
example : Accepted (n := bnR) (twoInputs 3 5 fun a b => mul_add a b 2 a (-1)) (fun r => r.val = 27) :=
  twoInputs_accepted fun a b ha hb c h => ((C02_mul_add_complete a b 2 a (-1)) c h).mono
    (fun r hr => by rw [hr, ha, hb]; ring) (fun _ _ _ q => q) |>.weaken fun h => ⟨h.1, h.2, h.1⟩

example : Accepted (n := bnR) (twoInputs 15 5 fun a b => div_unsafe a b) (fun r => r.val = 15 / 5) :=
  twoInputs_accepted fun a b ha hb c h => ((C02_div_unsafe_complete a b (by rw [hb]; decide +kernel)) c h).mono
    (fun r hr => by rw [hr, ha, hb]) (fun _ _ _ q => q) |>.weaken fun h => ⟨h.2, h.1⟩

/-! ## C03 -/

theorem C03_is_zero_sound [Fact n.Prime] (a : AssignedValue n) :
    Sound (is_zero a) (fun w r => (w r.cell = 1 ↔ w a.cell = 0) ∧ (w r.cell = 0 ↔ w a.cell ≠ 0)) :=
  fun _ _ hw => (S_is_zero hw a).mono fun r hr => by
    simp only [hr]; split <;> simp [*]

theorem C03_is_zero_complete [Fact n.Prime] (a : AssignedValue n) :
    Complete (is_zero a) (fun h => Ok h a) (fun r => r.val = if a.val = 0 then 1 else 0) Ok :=
  fun _ _ => C_is_zero fun h => h

theorem C03_invert_sound [Fact n.Prime] (a : AssignedValue n) :
    Sound (invert a) (fun w r => (w a.cell = 0 → w r.1.cell = 1) ∧
      (w a.cell ≠ 0 → w r.1.cell = 0 ∧ w r.2.cell = (w a.cell)⁻¹)) :=
  fun _ w hw => (S_invert hw a).mono fun r hr => by
    obtain ⟨h1, h2⟩ := hr
    refine ⟨fun h => by simpa [h] using h2, fun h => ?_⟩
    have h0 : w r.1.cell = 0 := (mul_eq_zero.1 h1).resolve_left h
    refine ⟨h0, ?_⟩
    rw [h0, add_zero] at h2
    exact eq_inv_of_mul_eq_one_right h2

theorem C03_invert_complete [Fact n.Prime] (a : AssignedValue n) :
    Complete (invert a) (fun h => Ok h a)
      (fun r => r.1.val = (if a.val = 0 then 1 else 0) ∧ r.2.val = a.val⁻¹) (fun h r => Ok h r.1 ∧ Ok h r.2) :=
  fun _ _ => C_invert fun h => h

/-- Non-vacuity of C03: both branches occur. -/
example : Accepted (n := bnR) (twoInputs 0 5 fun a _ => is_zero a) (fun r => r.val = 1) :=
  twoInputs_accepted fun a b ha hb c h => ((C03_is_zero_complete a) c h).mono
    (fun r hr => by rw [hr, ha]; simp) (fun _ _ _ q => q) |>.weaken fun h => h.1

example : Accepted (n := bnR) (twoInputs 0 5 fun _ b => is_zero b) (fun r => r.val = 0) :=
  twoInputs_accepted fun a b ha hb c h => ((C03_is_zero_complete b) c h).mono
    (fun r hr => by rw [hr, hb, if_neg (by decide +kernel)]) (fun _ _ _ q => q) |>.weaken fun h => h.2

/-! ## C04: with `b2f`, every gate computes the Boolean function. -/


theorem C04_and_sound (a b : AssignedValue n) :
    Sound (and a b) (fun w r => ∀ x y, Holds w a x → Holds w b y → Holds w r (x && y)) :=
  fun _ _ hw => (S_and hw a b).mono fun r hr x y hx hy => by
    unfold Holds at *; rw [hr, hx, hy]; cases x <;> cases y <;> simp

theorem C04_or_sound (a b : AssignedValue n) :
    Sound (or a b) (fun w r => ∀ x y, Holds w a x → Holds w b y → Holds w r (x || y)) :=
  fun _ _ hw => (S_or hw a b).mono fun r hr x y hx hy => by
    unfold Holds at *; rw [hr, hx, hy]; cases x <;> cases y <;> simp

theorem C04_not_sound (a : AssignedValue n) :
    Sound (not a) (fun w r => ∀ x, Holds w a x → Holds w r (!x)) :=
  fun _ _ hw => (S_not hw a).mono fun r hr x hx => by
    unfold Holds at *; rw [hr, hx]; cases x <;> simp

theorem C04_not_and_sound (a b : AssignedValue n) :
    Sound (not_and a b) (fun w r => ∀ x y, Holds w a x → Holds w b y → Holds w r (!x && y)) :=
  fun _ _ hw => (S_not_and hw a b).mono fun r hr x y hx hy => by
    unfold Holds at *; rw [hr, hx, hy]; cases x <;> cases y <;> simp

theorem C04_xor_sound (a b : AssignedValue n) :
    Sound (xor a b) (fun w r => ∀ x y, Holds w a x → Holds w b y → Holds w r (x != y)) :=
  fun _ _ hw => (S_xor hw a b).mono fun r hr x y hx hy => by
    unfold Holds at *; rw [hr, hx, hy]; cases x <;> cases y <;> simp <;> ring

theorem C04_xnor_sound (a b : AssignedValue n) :
    Sound (xnor a b) (fun w r => ∀ x y, Holds w a x → Holds w b y → Holds w r (x == y)) :=
  fun _ _ hw => (S_xnor hw a b).mono fun r hr x y hx hy => by
    unfold Holds at *; rw [hr, hx, hy]; cases x <;> cases y <;> simp <;> ring

theorem C04_bisec_sound (d a b : AssignedValue n) :
    Sound (bisec d a b) (fun w r => ∀ x, Holds w d x → w r.cell = if x then w a.cell else w b.cell) :=
  fun _ _ hw => (S_bisec hw d a b).mono fun r hr x hx => by
    unfold Holds at *; rw [hr, hx]; cases x <;> simp

theorem C04_complete (d a b : AssignedValue n) :
    (Complete (and a b) (fun h => Ok h a ∧ Ok h b) (fun r => r.val = a.val * b.val) Ok) ∧
    (Complete (or a b) (fun h => Ok h a ∧ Ok h b) (fun r => r.val = a.val + b.val - a.val * b.val) Ok) ∧
    (Complete (not a) (fun h => Ok h a) (fun r => r.val = 1 - a.val) Ok) ∧
    (Complete (not_and a b) (fun h => Ok h a ∧ Ok h b) (fun r => r.val = (1 - a.val) * b.val) Ok) ∧
    (Complete (xor a b) (fun h => Ok h a ∧ Ok h b) (fun r => r.val = a.val + b.val - 2 * a.val * b.val) Ok) ∧
    (Complete (xnor a b) (fun h => Ok h a ∧ Ok h b)
      (fun r => r.val = 1 - a.val - b.val + 2 * a.val * b.val) Ok) ∧
    (Complete (bisec d a b) (fun h => Ok h d ∧ Ok h a ∧ Ok h b)
      (fun r => r.val = d.val * a.val + (1 - d.val) * b.val) Ok) :=
  ⟨fun _ _ => C_and fun h => h, fun _ _ => C_or fun h => h, fun _ _ => C_not fun h => h,
    fun _ _ => C_not_and fun h => h, fun _ _ => C_xor fun h => h, fun _ _ => C_xnor fun h => h,
    fun _ _ => C_bisec fun h => h⟩

/-- Non-vacuity of C04. -/
example : Accepted (n := bnR) (twoInputs 1 1 fun a b => xor a b) (fun r => r.val = 0) :=
  twoInputs_accepted fun a b ha hb c h => ((C04_complete a a b).2.2.2.2.1 c h).mono
    (fun r hr => by rw [hr, ha, hb]; ring) (fun _ _ _ q => q)

/-! ## C05 -/

theorem C05_assert_equal_sound (a b : AssignedValue n) :
    Sound (assert_equal a b) (fun w _ => w a.cell = w b.cell) := fun _ _ hw => S_assert_equal hw a b

theorem C05_assert_constant_sound (a : AssignedValue n) (k : ZMod n) :
    Sound (assert_constant a k) (fun w _ => w a.cell = k) := fun _ _ hw => S_assert_constant hw a k

theorem C05_assert_true_sound (a : AssignedValue n) :
    Sound (assert_true a) (fun w _ => w a.cell = 1) := fun _ _ hw => S_assert_true hw a

theorem C05_assert_false_sound (a : AssignedValue n) :
    Sound (assert_false a) (fun w _ => w a.cell = 0) := fun _ _ hw => S_assert_false hw a

theorem C05_assert_bit_sound [Fact n.Prime] (a : AssignedValue n) :
    Sound (assert_bit a) (fun w _ => w a.cell = 0 ∨ w a.cell = 1) := fun _ _ hw => S_assert_bit hw a

theorem C05_assign_constant_sound (v : ZMod n) :
    Sound (assign_constant v) (fun w r => w r.cell = v) := fun _ _ hw => S_assign_constant hw v

theorem C05_assign_constant_complete (v : ZMod n) :
    Complete (assign_constant v) (fun _ => True) (fun r => r.val = v) Ok := fun _ _ => C_assign_constant

theorem C05_assert_equal_complete (a b : AssignedValue n) (h : a.val = b.val) :
    Complete (assert_equal a b) (fun h => Ok h a ∧ Ok h b) (fun _ => True) (fun _ _ => True) :=
  fun _ _ => C_assert_equal h fun h => h

theorem C05_assert_constant_complete (a : AssignedValue n) (k : ZMod n) (h : a.val = k) :
    Complete (assert_constant a k) (fun h => Ok h a) (fun _ => True) (fun _ _ => True) :=
  fun _ _ => C_assert_constant h fun h => h

theorem C05_assert_bit_complete (a : AssignedValue n) (h : a.val = 0 ∨ a.val = 1) :
    Complete (assert_bit a) (fun h => Ok h a) (fun _ => True) (fun _ _ => True) :=
  fun _ _ => C_assert_bit h fun h => h

/-- Non-vacuity of C05. -/
example : Accepted (n := bnR) (twoInputs 1 1 fun a b => do assert_equal a b; assert_bit a; pure b)
    (fun r => r.val = 1) :=
  twoInputs_accepted fun a b ha hb c h => C.bind (C_assert_equal (ha.trans hb.symm) fun h => h) fun _ _ =>
    C.bind (C_assert_bit (Or.inr ha) fun h => h.1.1) fun _ _ => C.pure hb fun h => h.1.1.2

/-! ## C06: violated -/

/-- The advice that forges a bit: any value `x` in the first cell, 1 in the second. -/
def forgeBit (x : ZMod n) : Advice n := fun c =>
  if c = ⟨.base, 0, 0⟩ then x else if c = ⟨.base, 1, 0⟩ then 1 else 0

/-- C06 fails: on an empty context `assign_bit 0` records a circuit in which the returned cell can hold any
field element whatsoever. -/
theorem C06_violated (x : ZMod n) : ∃ r t, assign_bit (0 : ZMod n) (Context.new n) = .ok (r, t) ∧
    ∀ usable, t.Fits usable → ∃ w, (t.circuit usable).Sat w ∧ w r.cell = x := by
  obtain ⟨t, h1, ra⟩ := one_line_run (s := Context.new n) Context.new_fresh
    (pairs := [pairU 0 1, pairU 0 0]) (constant := none) (mul := [-1]) (next := none) (by simp) (by simp)
  refine ⟨⟨⟨.base, 0, 0⟩, 0⟩, t, ?_, fun usable hf => ⟨forgeBit x, ⟨?_, ?_, ?_, ?_⟩, ?_⟩⟩
  · unfold assign_bit
    rw [run_bind, h1]
    rfl
  · intro r _
    have hfix : ∀ k, (t.circuit usable).baseFix r k =
        ((if r = 0 then rowFix [pairU (0 : ZMod n) 1, pairU 0 0] none [-1] none k else none).getD 0) := by
      intro k
      show (t.records.inner.base_fix_record r k).getD 0 = _
      rw [ra.fix]; rfl
    unfold Circuit.baseGate
    simp only [hfix]
    by_cases hr : r = 0
    · subst hr; simp [rowFix, forgeBit]
    · simp [hr]
  · intro r _
    have hfix : ∀ k, (t.circuit usable).rangeFix r k = 0 := by
      intro k
      show (t.records.inner.range_fix_record r k).getD 0 = _
      rw [ra.rangeFix]; rfl
    refine ⟨⟨0, 0, Nat.zero_le _, by norm_num, by simp [hfix], by simp [forgeBit]⟩,
      ⟨18, 0, le_rfl, by norm_num, rfl, by simp [forgeBit]⟩, ?_, ?_, ?_⟩ <;>
      simp [Circuit.rangeGate1, Circuit.rangeGate2, Circuit.rangeGate3, hfix]
  · intro r hr
    have hfix : ∀ r k, (t.circuit usable).selFix r k = 0 := by
      intro r k
      show (t.records.inner.select_fix_record r k).getD 0 = _
      rw [ra.selFix]; rfl
    exact ⟨r, hr, rfl, by simp [hfix, forgeBit], by simp [hfix]⟩
  · intro p hp
    exfalso
    have : p ∈ t.records.permutations := hp
    rw [ra.perms] at this
    simp [Context.new, linePerms, ValueSchema.cell] at this
  · simp [forgeBit]

/-- In particular a "condition" can be 2, neither 0 nor 1. -/
example : ∃ r t, assign_bit (0 : ZMod bnR) (Context.new bnR) = .ok (r, t) ∧
    ∀ usable, t.Fits usable → ∃ w, (t.circuit usable).Sat w ∧ w r.cell = 2 := C06_violated 2

/-- What remains of C06. Full statement: `Sound (assign_bit v) (fun w r => w r.cell = 0 ∨ w r.cell = 1)`.
Missing: the copy constraint between the two cells of the row; with it (`BitRowsConsistent`) the cell is a
bit. -/
theorem C06_partial [Fact n.Prime] (v : ZMod n) (c : Circuit n) (w : Advice n) (hw : c.Sat w)
    (hb : c.BitRowsConsistent w) : S c (assign_bit v) (fun r => w r.cell = 0 ∨ w r.cell = 1) :=
  (S_assign_bit hw v).mono fun r ⟨row, hr, hu, hf, hg⟩ => by
    have := hb row hu ⟨by rw [hf]; simp [rowFix], by rw [hf]; simp [rowFix], fun k h0 h5 => by
      rw [hf]; rcases k with _ | _ | _ | _ | _ | _ | _ | _ | _ | k <;> simp [rowFix] at *⟩
    rw [← this] at hg
    rw [hr]
    rcases mul_eq_zero.1 hg with h | h
    · exact Or.inl h
    · exact Or.inr (sub_eq_zero.1 h).symm

theorem C06_complete (v : ZMod n) (hv : v = 0 ∨ v = 1) :
    Complete (assign_bit v) (fun _ => True) (fun r => r.val = v) Ok := fun _ _ => C_assign_bit hv

/-! ## C07 -/

theorem C07_sound (ls : List (MulTerm n)) : Sound (mul_add_with_next_line ls) (fun w r =>
    w r.cell = (ls.map fun l => w l.a.cell * w l.b.cell + w l.c.cell * l.c_coeff).sum) :=
  fun _ _ hw => S_mul_add_with_next_line hw ls

theorem C07_complete (ls : List (MulTerm n)) (hne : ls ≠ []) : Complete (mul_add_with_next_line ls)
    (fun h => ∀ l ∈ ls, Ok h l.a ∧ Ok h l.b ∧ Ok h l.c)
    (fun r => r.val = (ls.map fun l => l.a.val * l.b.val + l.c.val * l.c_coeff).sum) Ok :=
  fun _ _ => C_mul_add_with_next_line ls hne fun h => h

/-- Non-vacuity of C07: three products chained over four rows. -/
example : Accepted (n := bnR) (twoInputs 3 5 fun a b => mul_add_with_next_line
    [⟨a, b, a, 1⟩, ⟨b, b, b, 2⟩, ⟨a, a, a, -1⟩]) (fun r => r.val = 59) :=
  twoInputs_accepted fun a b ha hb c h => ((C07_complete _ (by simp)) c h).mono
    (fun r hr => by rw [hr]; simp [ha, hb]; norm_num) (fun _ _ _ q => q) |>.weaken (by simp +contextual)

end Verif
