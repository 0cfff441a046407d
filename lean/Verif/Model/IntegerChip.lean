import Verif.Model.BaseChip
import Verif.Model.RangeChip

/-!
# Integer chip

Model of `src/circuit/integer_chip.rs`.  An element of `W` is represented by its canonical representative
(`field_to_bn`), a natural number below `info.w_modulus`.
-/

namespace Verif
variable {n : ℕ}

/-- `div_rem` by a modulus: panics on a zero divisor. -/
def div_rem (a b : ℕ) : M n (ℕ × ℕ) := if b = 0 then panic .divByZero else pure (a / b, a % b)

/-- Unsigned subtraction. -/
def usub (a b : ℕ) : M n ℕ := if b ≤ a then pure (a - b) else panic .underflow

/-- `get_w_bn`, `src/circuit/integer_chip.rs:217-224`. -/
def get_w_bn (info : RangeInfo n) (a : AssignedInteger n) : M n ℕ := do
  let ls ← (List.range info.limbs).mapM fun i => index a.limbs_le i
  pure (ls.foldr (fun l res => res * 2 ^ info.limb_bits + l.val.val) 0)

/-- `get_w`, `src/circuit/integer_chip.rs:683-685` (as a canonical representative). -/
def get_w (info : RangeInfo n) (a : AssignedInteger n) : M n ℕ := do
  pure ((← get_w_bn info a) % info.w_modulus)

/-- `limbs.iter().zip(info.limb_coeffs.clone())` followed by `sum_with_constant(.., None)`, the native
residue of an integer (`src/circuit/integer_chip.rs:251-255` and similar). -/
def native_of (info : RangeInfo n) (limbs : List (AssignedValue n)) : M n (AssignedValue n) :=
  sum_with_constant (limbs.zip info.limb_coeffs) none

/-- `assign_w`, `src/circuit/integer_chip.rs:236-258`. -/
def assign_w (info : RangeInfo n) (w : ℕ) : M n (AssignedInteger n) := do
  let limbs ← (List.range (info.limbs - 1)).mapM fun i =>
    assign_nonleading_limb info (RangeInfo.limbOf info.limb_bits i w)
  let lead ← assign_w_ceil_leading_limb info (RangeInfo.limbOf info.limb_bits (info.limbs - 1) w)
  let limbs := limbs ++ [lead]
  let native ← native_of info limbs
  pure ⟨limbs, native, 1⟩

/-- `assign_d`, `src/circuit/integer_chip.rs:260-281`. -/
def assign_d (info : RangeInfo n) (d : ℕ) : M n (List (AssignedValue n) × AssignedValue n) := do
  let limbs ← (List.range (info.limbs - 1)).mapM fun i =>
    assign_nonleading_limb info (RangeInfo.limbOf info.limb_bits i d)
  let lead ← assign_d_leading_limb info (RangeInfo.limbOf info.limb_bits (info.limbs - 1) d)
  let limbs := limbs ++ [lead]
  let native ← native_of info limbs
  pure (limbs, native)

/-- The product columns of `add_constraints_for_mul_equation_on_limbs`,
`src/circuit/integer_chip.rs:88-110`, for one position. -/
def mul_column (info : RangeInfo n) (a b : AssignedInteger n) (d : List (AssignedValue n)) (pos : ℕ) :
    M n (AssignedValue n) := do
  let r_bound := min (pos + 1) info.limbs
  let l_bound := pos - (info.limbs - 1)
  let terms ← (List.range' l_bound (r_bound - l_bound)).mapM fun i => do
    let ai ← index a.limbs_le i
    let bi ← index b.limbs_le (pos - i)
    let di ← index d i
    let wi ← index info.w_modulus_limbs_le (pos - i)
    pure (⟨ai, bi, di, -wi⟩ : MulTerm n)
  mul_add_with_next_line terms

/-- One carry step of `add_constraints_for_mul_equation_on_limbs` after `u` has been computed
(`src/circuit/integer_chip.rs:119-133`, repeated at 147-161 and 177-191): split `u / limb_modulus` into
`v_h * limb_modulus + v_l` and constrain it. -/
def mul_carry (info : RangeInfo n) (u : AssignedValue n) : M n (AssignedValue n × AssignedValue n) := do
  let (v, r) ← div_rem u.val.val info.limb_modulus
  rassert (r = 0)
  let (v_h_bn, v_l_bn) ← div_rem v info.limb_modulus
  let v_h ← assign_common v_h_bn
  let v_l ← assign_nonleading_limb info v_l_bn
  let c2 ← index info.limb_coeffs 2
  let c1 ← index info.limb_coeffs 1
  let _ ← one_line_with_last [pairA v_h c2, pairA v_l c1] (pairA u (-1)) none [] none
  pure (v_h, v_l)

/-- The loop bodies of `src/circuit/integer_chip.rs:136-162` (`rem` present) and `167-192`
(`rem` absent): positions `i, i+1, ...`. -/
def mul_carries (info : RangeInfo n) (borrow : ZMod n) (columns : List (AssignedValue n))
    (rem : AssignedInteger n) (v : AssignedValue n × AssignedValue n) : List ℕ →
    M n (AssignedValue n × AssignedValue n)
  | [] => pure v
  | i :: is => do
    let li ← index columns i
    let c1 ← index info.limb_coeffs 1
    let c0 ← index info.limb_coeffs 0
    let const := some (info.limb_modulus_n * borrow - borrow)
    let u ← (if i < info.limbs then do
        let ri ← index rem.limbs_le i
        sum_with_constant [(li, 1), (ri, -1), (v.1, c1), (v.2, c0)] const
      else
        sum_with_constant [(li, 1), (v.1, c1), (v.2, c0)] const : M n (AssignedValue n))
    let v ← mul_carry info u
    mul_carries info borrow columns rem v is

/-- `add_constraints_for_mul_equation_on_limbs`, `src/circuit/integer_chip.rs:73-193`.
(The two loops over `1..limbs` and `limbs..mul_check_limbs` are one loop over `1..mul_check_limbs` whose
body tests `i < limbs`; the assertion `limbs <= mul_check_limbs` of l. 164 is checked first, which only
changes which panic is reported.) -/
def add_constraints_for_mul_equation_on_limbs (info : RangeInfo n) (a b : AssignedInteger n)
    (d : List (AssignedValue n)) (rem : AssignedInteger n) : M n Unit := do
  rassert (a.times < info.overflow_limit)
  rassert (b.times < info.overflow_limit)
  rassert (rem.times = 1)
  let columns ← (List.range info.mul_check_limbs).mapM fun pos => mul_column info a b d pos
  let borrow : ZMod n := (info.limbs : ZMod n) * info.limb_modulus_n + 2
  let l0 ← index columns 0
  let r0 ← index rem.limbs_le 0
  let u ← sum_with_constant [(l0, 1), (r0, -1)] (some (info.limb_modulus_n * borrow))
  let v ← mul_carry info u
  rassert (info.limbs ≤ info.mul_check_limbs)
  let _ ← mul_carries info borrow columns rem v (List.range' 1 (info.mul_check_limbs - 1))
  pure ()

/-- `add_constraints_for_mul_equation_on_native`, `src/circuit/integer_chip.rs:195-215`. -/
def add_constraints_for_mul_equation_on_native (info : RangeInfo n) (a b : AssignedInteger n)
    (d_native : AssignedValue n) (rem : AssignedInteger n) : M n Unit := do
  let _ ← one_line [pairA a.native 0, pairA b.native 0, pairA d_native info.w_native, pairA rem.native 1]
    none [-1] none

/-- The loop of `reduce` over the checked limbs, `src/circuit/integer_chip.rs:331-370`. -/
def reduce_limbs (info : RangeInfo n) (a assigned_rem : AssignedInteger n) (assigned_d : AssignedValue n)
    (d rem : ℕ) (last_v : Option (AssignedValue n)) : List ℕ → M n Unit
  | [] => pure ()
  | i :: is => do
    let last_borrow := if i ≠ 0 then info.overflow_limit else 0
    let carry := last_v.elim 0 fun v => v.val.val
    let wi_bn ← index info.w_modulus_limbs_le_bn i
    let remi ← index (info.bn_to_limb_le rem) i
    let ai ← index a.limbs_le i
    let u ← usub (d * wi_bn + remi + info.limb_modulus * info.overflow_limit) ai.val.val
    let u ← usub (u + carry) last_borrow
    let (v, v_rem) ← div_rem u info.limb_modulus
    rassert (v_rem = 0)
    let v ← assign_nonleading_limb info v
    let wi ← index info.w_modulus_limbs_le i
    let ri ← index assigned_rem.limbs_le i
    let _ ← one_line_with_last
      [pairA assigned_d wi, pairA ri 1, pairA ai (-1),
        match last_v with
        | some last_v => pairA last_v 1
        | none => pairU 0 0]
      (pairA v (-(info.limb_modulus : ZMod n)))
      (some ((info.limb_modulus * info.overflow_limit - (if i = 0 then 0 else info.overflow_limit) : ℕ) : ZMod n))
      [] none
    reduce_limbs info a assigned_rem assigned_d d rem (some v) is

/-- `reduce`, `src/circuit/integer_chip.rs:283-373`. -/
def reduce (info : RangeInfo n) (a : AssignedInteger n) : M n (AssignedInteger n) :=
  if a.times = 1 then pure a
  else do
    rassert (a.times < info.overflow_limit)
    let a_bn ← get_w_bn info a
    let (d, rem) ← div_rem a_bn info.w_modulus
    let assigned_rem ← assign_w info rem
    let assigned_d ← assign_common d
    let _ ← one_line_with_last [pairA assigned_d info.w_native, pairA assigned_rem.native 1]
      (pairA a.native (-1)) none [] none
    reduce_limbs info a assigned_rem assigned_d d rem none (List.range info.reduce_check_limbs)
    pure assigned_rem

/-- `conditionally_reduce`, `src/circuit/integer_chip.rs:375-382`. -/
def conditionally_reduce (info : RangeInfo n) (a : AssignedInteger n) : M n (AssignedInteger n) :=
  if a.times > 2 ^ (info.overflow_bits - 2) then reduce info a else pure a

/-- `int_add`, `src/circuit/integer_chip.rs:384-406`. (The counter is computed on l. 403; here and below the overflow check
comes just before the native value is computed, which only changes what is recorded before a panic.) -/
def int_add (info : RangeInfo n) (a b : AssignedInteger n) : M n (AssignedInteger n) := do
  let limbs ← (List.range info.limbs).mapM fun i => do
    let ai ← index a.limbs_le i
    let bi ← index b.limbs_le i
    add ai bi
  fits_u64 (a.times + b.times)
  let native ← native_of info limbs
  conditionally_reduce info ⟨limbs, native, a.times + b.times⟩

/-- `int_sub`, `src/circuit/integer_chip.rs:408-437`. -/
def int_sub (info : RangeInfo n) (a b : AssignedInteger n) : M n (AssignedInteger n) := do
  let upper_limbs ← unwrap (← index info.w_modulus_of_ceil_times b.times)
  let limbs ← (List.range info.limbs).mapM fun i => do
    let ai ← index a.limbs_le i
    let bi ← index b.limbs_le i
    let ui ← index upper_limbs i
    sum_with_constant [(ai, 1), (bi, -1)] (some ui)
  fits_u64 (a.times + b.times)
  fits_u64 (a.times + b.times + 1)
  let native ← native_of info limbs
  conditionally_reduce info ⟨limbs, native, a.times + b.times + 1⟩

/-- `int_neg`, `src/circuit/integer_chip.rs:439-464`. -/
def int_neg (info : RangeInfo n) (a : AssignedInteger n) : M n (AssignedInteger n) := do
  let upper_limbs ← unwrap (← index info.w_modulus_of_ceil_times a.times)
  let limbs ← (List.range info.limbs).mapM fun i => do
    let ai ← index a.limbs_le i
    let ui ← index upper_limbs i
    sum_with_constant [(ai, -1)] (some ui)
  fits_u64 (a.times + 1)
  let native ← native_of info limbs
  conditionally_reduce info ⟨limbs, native, a.times + 1⟩

/-- `int_mul`, `src/circuit/integer_chip.rs:466-483`. -/
def int_mul (info : RangeInfo n) (a b : AssignedInteger n) : M n (AssignedInteger n) := do
  let a_bn ← get_w_bn info a
  let b_bn ← get_w_bn info b
  let (d, rem) ← div_rem (a_bn * b_bn) info.w_modulus
  let rem ← assign_w info rem
  let d ← assign_d info d
  add_constraints_for_mul_equation_on_limbs info a b d.1 rem
  add_constraints_for_mul_equation_on_native info a b d.2 rem
  pure rem

/-- `is_pure_zero`, `src/circuit/integer_chip.rs:540-548`. -/
def is_pure_zero (a : AssignedInteger n) : M n (AssignedCondition n) := do
  let sum ← sum_with_constant (a.limbs_le.map fun v => (v, 1)) none
  is_zero sum

/-- The loop of `is_pure_w_modulus`, `src/circuit/integer_chip.rs:560-567`. -/
def is_pure_w_limbs (info : RangeInfo n) (a : AssignedInteger n) (is_eq : AssignedCondition n) :
    List ℕ → M n (AssignedCondition n)
  | [] => pure is_eq
  | i :: is => do
    let ai ← index a.limbs_le i
    let wi ← index info.w_modulus_limbs_le i
    let limb_diff ← add_constant ai (-wi)
    let is_limb_eq ← is_zero limb_diff
    let is_eq ← and is_eq is_limb_eq
    is_pure_w_limbs info a is_eq is

/-- `is_pure_w_modulus`, `src/circuit/integer_chip.rs:550-570`. -/
def is_pure_w_modulus (info : RangeInfo n) (a : AssignedInteger n) : M n (AssignedCondition n) := do
  rassert (a.times = 1)
  let native_diff ← add_constant a.native (-info.w_native)
  let is_eq ← is_zero native_diff
  is_pure_w_limbs info a is_eq (List.range info.pure_w_check_limbs)

/-- `is_int_zero`, `src/circuit/integer_chip.rs:572-578`. -/
def is_int_zero (info : RangeInfo n) (a : AssignedInteger n) : M n (AssignedCondition n) := do
  let a ← reduce info a
  let is_zero ← is_pure_zero a
  let is_w_modulus ← is_pure_w_modulus info a
  or is_zero is_w_modulus

/-- `is_int_equal`, `src/circuit/integer_chip.rs:47-54`. -/
def is_int_equal (info : RangeInfo n) (a b : AssignedInteger n) : M n (AssignedCondition n) := do
  let diff ← int_sub info a b
  is_int_zero info diff

/-- `c = a / b` in `W`, with `0` for a zero divisor: `src/circuit/integer_chip.rs:524-528`. -/
def w_div (w a b : ℕ) : ℕ := ((a : ZMod w) * (b : ZMod w)⁻¹).val

/-- `int_div`, `src/circuit/integer_chip.rs:493-538`. -/
def int_div (info : RangeInfo n) (a b : AssignedInteger n) :
    M n (AssignedCondition n × AssignedInteger n) := do
  let b ← reduce info b
  let is_b_zero ← is_int_zero info b
  let a_coeff ← not is_b_zero
  let a ← reduce info a
  let limbs_le ← (List.range info.limbs).mapM fun i => do
    let ai ← index a.limbs_le i
    mul ai a_coeff
  let native ← mul a.native a_coeff
  let a : AssignedInteger n := ⟨limbs_le, native, a.times⟩
  let a_bn ← get_w_bn info a
  let b_bn ← get_w_bn info b
  let c_bn := if (b_bn : ZMod info.w_modulus) = 0 then 0 else w_div info.w_modulus a_bn b_bn
  let (d_bn, _) ← div_rem (← usub (b_bn * c_bn) a_bn) info.w_modulus
  let c ← assign_w info c_bn
  let d ← assign_d info d_bn
  add_constraints_for_mul_equation_on_limbs info b c d.1 a
  add_constraints_for_mul_equation_on_native info b c d.2 a
  pure (is_b_zero, c)

/-- `assign_int_constant`, `src/circuit/integer_chip.rs:580-598`; `w` is the canonical representative of
the constant. -/
def assign_int_constant (info : RangeInfo n) (w : ℕ) : M n (AssignedInteger n) := do
  let limbs ← (info.bn_to_limb_le_n w).mapM fun limb => assign_constant limb
  let native ← assign_constant ((w % info.n_modulus : ℕ) : ZMod n)
  pure ⟨limbs, native, 1⟩

/-- `int_unsafe_invert`, `src/circuit/integer_chip.rs:485-491`. -/
def int_unsafe_invert (info : RangeInfo n) (x : AssignedInteger n) : M n (AssignedInteger n) := do
  let one ← assign_int_constant info 1
  let (c, v) ← int_div info one x
  assert_false c
  pure v

/-- `assert_int_equal`, `src/circuit/integer_chip.rs:600-612`. -/
def assert_int_equal (info : RangeInfo n) (a b : AssignedInteger n) : M n Unit := do
  let diff ← int_sub info a b
  let diff ← reduce info diff
  let sum ← sum_with_constant (diff.limbs_le.map fun v => (v, 1)) none
  assert_constant sum 0

/-- `int_square`, `src/circuit/integer_chip.rs:614-616`. -/
def int_square (info : RangeInfo n) (a : AssignedInteger n) : M n (AssignedInteger n) :=
  int_mul info a a

/-- `int_mul_small_constant`, `src/circuit/integer_chip.rs:618-658`. -/
def int_mul_small_constant (info : RangeInfo n) (a : AssignedInteger n) (b : ℕ) :
    M n (AssignedInteger n) := do
  rassert (b < 2 ^ (info.overflow_bits - 2))
  fits_u64 (a.times * b)
  let a ← (if a.times * b ≥ info.overflow_limit then reduce info a else pure a : M n (AssignedInteger n))
  let limbs ← (List.range info.limbs).mapM fun i => do
    let ai ← index a.limbs_le i
    sum_with_constant [(ai, (b : ZMod n))] none
  fits_u64 (a.times * b)
  let native ← native_of info limbs
  conditionally_reduce info ⟨limbs, native, a.times * b⟩

/-- `bisec_int`, `src/circuit/integer_chip.rs:660-681`. -/
def bisec_int (info : RangeInfo n) (cond : AssignedCondition n) (a b : AssignedInteger n) :
    M n (AssignedInteger n) := do
  let limbs ← (List.range info.limbs).mapM fun i => do
    let ai ← index a.limbs_le i
    let bi ← index b.limbs_le i
    bisec cond ai bi
  let native ← bisec cond a.native b.native
  pure ⟨limbs, native, max a.times b.times⟩

end Verif
