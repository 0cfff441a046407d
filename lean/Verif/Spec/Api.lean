import Verif.Spec.ApiTower

/-!
# Sequences of API calls

A client of the library calls its operations one after another. What it hands to an operation are constants, parts of
its witness, or objects it got from earlier calls. A client program is here a list of calls; objects are referred to by
their position in a store to which each call appends its results. The program is the same for all witnesses.
-/

namespace Verif
variable {n : ℕ}

/-- A call of the API. Natural numbers refer to objects, to parts of the witness, or are constants. The last ones take
objects apart and put them together: their fields are public. -/
inductive Call (n : ℕ) where
  | sum_with_constant_in_one_line (a : List (ℕ × ZMod n)) (b : Option (ZMod n))
  | sum_with_constant (a : List (ℕ × ZMod n)) (b : Option (ZMod n))
  | add (a : ℕ) (b : ℕ)
  | add_constant (a : ℕ) (b : ZMod n)
  | sub (a : ℕ) (b : ℕ)
  | mul (a : ℕ) (b : ℕ)
  | mul_add_constant (a : ℕ) (b : ℕ) (c : ZMod n)
  | mul_add (a : ℕ) (b : ℕ) (c : ZMod n) (d : ℕ) (e : ZMod n)
  | mul_add_with_next_line (a : List (ℕ × ℕ × ℕ × ZMod n))
  | invert_unsafe (a : ℕ)
  | invert (a : ℕ)
  | is_zero (a : ℕ)
  | div_unsafe (a : ℕ) (b : ℕ)
  | assign_constant (a : ZMod n)
  | assign (a : ℕ)
  | assign_bit (a : ℕ)
  | assert_equal (a : ℕ) (b : ℕ)
  | assert_constant (a : ℕ) (b : ZMod n)
  | assert_bit (a : ℕ)
  | and (a : ℕ) (b : ℕ)
  | not (a : ℕ)
  | not_and (a : ℕ) (b : ℕ)
  | or (a : ℕ) (b : ℕ)
  | xor (a : ℕ) (b : ℕ)
  | xnor (a : ℕ) (b : ℕ)
  | bisec (a : ℕ) (b : ℕ) (c : ℕ)
  | bisec_cond (a : ℕ) (b : ℕ) (c : ℕ)
  | assert_true (a : ℕ)
  | assert_false (a : ℕ)
  | try_assert_false (a : ℕ)
  | assign_common (a : ℕ)
  | assign_nonleading_limb (a : Bool) (b : ℕ)
  | assign_w_ceil_leading_limb (a : Bool) (b : ℕ)
  | assign_d_leading_limb (a : Bool) (b : ℕ)
  | assign_w (a : Bool) (b : ℕ)
  | assign_d (a : Bool) (b : ℕ)
  | reduce (a : Bool) (b : ℕ)
  | conditionally_reduce (a : Bool) (b : ℕ)
  | int_add (a : Bool) (b : ℕ) (c : ℕ)
  | int_sub (a : Bool) (b : ℕ) (c : ℕ)
  | int_neg (a : Bool) (b : ℕ)
  | int_mul (a : Bool) (b : ℕ) (c : ℕ)
  | is_pure_zero (a : ℕ)
  | is_pure_w_modulus (a : Bool) (b : ℕ)
  | is_int_zero (a : Bool) (b : ℕ)
  | is_int_equal (a : Bool) (b : ℕ) (c : ℕ)
  | int_div (a : Bool) (b : ℕ) (c : ℕ)
  | assign_int_constant (a : Bool) (b : ℕ)
  | int_unsafe_invert (a : Bool) (b : ℕ)
  | assert_int_equal (a : Bool) (b : ℕ) (c : ℕ)
  | int_square (a : Bool) (b : ℕ)
  | int_mul_small_constant (a : Bool) (b : ℕ) (c : ℕ)
  | bisec_int (a : Bool) (b : ℕ) (c : ℕ) (d : ℕ)
  | assign_cache_value (a : ℕ) (b : ℕ) (c : ℕ) (d : ℕ)
  | assign_selected_value (a : ℕ) (b : ℕ) (c : ℕ) (d : ℕ)
  | assign_constant_point (a : Option (ℕ × ℕ))
  | assign_point (a : ℕ)
  | assign_non_zero_point (a : ℕ)
  | assign_identity 
  | bisec_point (a : ℕ) (b : ℕ) (c : ℕ)
  | bisec_point_with_curvature (a : ℕ) (b : ℕ) (c : ℕ)
  | lambda_to_point_non_zero (a : ℕ) (b : ℕ) (c : ℕ)
  | ecc_add (a : ℕ) (b : ℕ)
  | ecc_double (a : ℕ)
  | ecc_assert_equal (a : ℕ) (b : ℕ)
  | ecc_neg (a : ℕ)
  | ecc_reduce (a : ℕ)
  | to_point_with_curvature (a : ℕ)
  | ecc_reduce_with_curvature (a : ℕ)
  | ecc_encode (a : ℕ)
  | ecc_add_unsafe (a : ℕ) (b : ℕ)
  | ecc_double_unsafe (a : ℕ)
  | ecc_neg_non_zero (a : ℕ)
  | ecc_reduce_non_zero (a : ℕ)
  | ecc_bisec_non_zero_point (a : ℕ) (b : ℕ) (c : ℕ)
  | bisec_candidate_non_zero (a : List ℕ) (b : List ℕ)
  | assign_cache_point (a : ℕ) (b : ℕ) (c : ℕ)
  | assign_selected_point (a : ℕ) (b : ℕ) (c : ℕ)
  | assign_cache_point_non_zero (a : ℕ) (b : ℕ) (c : ℕ)
  | assign_selected_point_non_zero (a : ℕ) (b : ℕ) (c : ℕ)
  | ecc_assert_equal_non_zero (a : ℕ) (b : ℕ)
  | ecc_non_zero_point_downgrade (a : ℕ)
  | ecc_bisec_to_non_zero_point (a : ℕ) (b : ℕ)
  | decompose_scalar_native (a : ℕ) (b : ℕ)
  | decompose_scalar_general (a : ℕ) (b : ℕ)
  | msm_native (points scalars : List ℕ) (r1 r2 : ℕ)
  | msm_general (points scalars : List ℕ) (r1 r2 : ℕ)
  | msm_with_select_native (points scalars : List ℕ) (r1 r2 : ℕ)
  | msm_with_select_general (points scalars : List ℕ) (r1 r2 : ℕ)
  | msm_without_select_native (points scalars : List ℕ) (r1 r2 : ℕ)
  | msm_without_select_general (points scalars : List ℕ) (r1 r2 : ℕ)
  | bisec_curvature (cond v z v' z' : ℕ)
  | lambda_to_point (v z a b : ℕ)
  | assign_cache_integer (a sc g offset : ℕ)
  | assign_selected_integer (a sc g offset : ℕ)
  | limbs (a : ℕ)
  | native (a : ℕ)
  | point_parts (a : ℕ)
  | non_zero_parts (a : ℕ)
  | curvature_parts (a : ℕ)
  | to_point (a : ℕ)
  | mk_point (x y z : ℕ)
  | mk_non_zero (x y : ℕ)
  | mk_curvature (x y z v c : ℕ)
  | tower (c : TowerCall)

/-- A call of `msm_batch_on_group_non_zero_with_select_chip` (`src/circuit/ecc_chip.rs:223-371`) whose result the client
unwraps, with the prefix state after it. Without a select chip the prefix is `usize::MAX`, and the call panics at
`assert!(ret < MSM_LIMIT)` (`src/circuit/native_scalar_ecc_chip.rs:173-178`); here it panics first. -/
def groupSelect {ς : Type} (A : Api n) (ops : ScalarOps n ς) (r1 r2 : Option (ℕ × ℕ)) (msm_prefix : Option ℕ)
    (points : List (AssignedNonZeroPoint n)) (scalars : List ς) : M n (AssignedPoint n × Option ℕ) :=
  match msm_prefix with
  | some pre => do
    let r ← msm_batch_with_select A.info A.b ops pre points scalars r1 r2
    match r with
    | .ok p => pure (p, some (pre + MSM_PREFIX_OFFSET))
    | .error _ => panic .unwrapNone
  | none => panic .assertion

/-- A call of `msm_batch_on_group_non_zero_without_select_chip` (`src/circuit/ecc_chip.rs:91-221`) whose result the client
unwraps. -/
def groupBisec {ς : Type} (A : Api n) (ops : ScalarOps n ς) (r1 r2 : Option (ℕ × ℕ))
    (points : List (AssignedNonZeroPoint n)) (scalars : List ς) : M n (AssignedPoint n) := do
  let r ← msm_batch_without_select A.info A.b ops points scalars r1 r2
  match r with
  | .ok p => pure p
  | .error _ => panic .unwrapNone

/-- The effect of a call. The curve contexts reach the select chip by way of `select_chip`, which panics in a context that
has been made without it (`src/circuit/native_scalar_ecc_chip.rs:35-42`; the prefix is `usize::MAX` then, here `none`; a
`GeneralScalarEccContext` always has one, `src/circuit/general_scalar_ecc_chip.rs:31-33`). The integer context has the
operations of the select chip in any case (`src/circuit/select_chip.rs:124`). -/
def runCall (A : Api n) (w : Witness n) (σ : Store n) : Call n → M n (Store n)
  | .sum_with_constant_in_one_line a b => do
    let a ← a.mapM (σ.elem)
    let r ← sum_with_constant_in_one_line a b
    pure (σ.pushV r)
  | .sum_with_constant a b => do
    let a ← a.mapM (σ.elem)
    let r ← sum_with_constant a b
    pure (σ.pushV r)
  | .add a b => do
    let a ← index σ.v a
    let b ← index σ.v b
    let r ← add a b
    pure (σ.pushV r)
  | .add_constant a b => do
    let a ← index σ.v a
    let r ← add_constant a b
    pure (σ.pushV r)
  | .sub a b => do
    let a ← index σ.v a
    let b ← index σ.v b
    let r ← sub a b
    pure (σ.pushV r)
  | .mul a b => do
    let a ← index σ.v a
    let b ← index σ.v b
    let r ← mul a b
    pure (σ.pushV r)
  | .mul_add_constant a b c => do
    let a ← index σ.v a
    let b ← index σ.v b
    let r ← mul_add_constant a b c
    pure (σ.pushV r)
  | .mul_add a b c d e => do
    let a ← index σ.v a
    let b ← index σ.v b
    let d ← index σ.v d
    let r ← mul_add a b c d e
    pure (σ.pushV r)
  | .mul_add_with_next_line a => do
    let a ← a.mapM (σ.term)
    let r ← mul_add_with_next_line a
    pure (σ.pushV r)
  | .invert_unsafe a => do
    let a ← index σ.v a
    let r ← invert_unsafe a
    pure (σ.pushV r)
  | .invert a => do
    let a ← index σ.v a
    let (x, y) ← invert a
    pure ((σ.pushV x).pushV y)
  | .is_zero a => do
    let a ← index σ.v a
    let r ← is_zero a
    pure (σ.pushV r)
  | .div_unsafe a b => do
    let a ← index σ.v a
    let b ← index σ.v b
    let r ← div_unsafe a b
    pure (σ.pushV r)
  | .assign_constant a => do
    let r ← assign_constant a
    pure (σ.pushV r)
  | .assign a => do
    let r ← assign (w.field a)
    pure (σ.pushV r)
  | .assign_bit a => do
    let r ← assign_bit (w.field a)
    pure (σ.pushV r)
  | .assert_equal a b => do
    let a ← index σ.v a
    let b ← index σ.v b
    assert_equal a b
    pure σ
  | .assert_constant a b => do
    let a ← index σ.v a
    assert_constant a b
    pure σ
  | .assert_bit a => do
    let a ← index σ.v a
    assert_bit a
    pure σ
  | .and a b => do
    let a ← index σ.v a
    let b ← index σ.v b
    let r ← and a b
    pure (σ.pushV r)
  | .not a => do
    let a ← index σ.v a
    let r ← not a
    pure (σ.pushV r)
  | .not_and a b => do
    let a ← index σ.v a
    let b ← index σ.v b
    let r ← not_and a b
    pure (σ.pushV r)
  | .or a b => do
    let a ← index σ.v a
    let b ← index σ.v b
    let r ← or a b
    pure (σ.pushV r)
  | .xor a b => do
    let a ← index σ.v a
    let b ← index σ.v b
    let r ← xor a b
    pure (σ.pushV r)
  | .xnor a b => do
    let a ← index σ.v a
    let b ← index σ.v b
    let r ← xnor a b
    pure (σ.pushV r)
  | .bisec a b c => do
    let a ← index σ.v a
    let b ← index σ.v b
    let c ← index σ.v c
    let r ← bisec a b c
    pure (σ.pushV r)
  | .bisec_cond a b c => do
    let a ← index σ.v a
    let b ← index σ.v b
    let c ← index σ.v c
    let r ← bisec_cond a b c
    pure (σ.pushV r)
  | .assert_true a => do
    let a ← index σ.v a
    assert_true a
    pure σ
  | .assert_false a => do
    let a ← index σ.v a
    assert_false a
    pure σ
  | .try_assert_false a => do
    let a ← index σ.v a
    let r ← try_assert_false a
    rassert r
    pure σ
  | .assign_common a => do
    let r ← assign_common (w.nat a)
    pure (σ.pushV r)
  | .assign_nonleading_limb a b => do
    let r ← assign_nonleading_limb (A.infoOf a) (w.nat b)
    pure (σ.pushV r)
  | .assign_w_ceil_leading_limb a b => do
    let r ← assign_w_ceil_leading_limb (A.infoOf a) (w.nat b)
    pure (σ.pushV r)
  | .assign_d_leading_limb a b => do
    let r ← assign_d_leading_limb (A.infoOf a) (w.nat b)
    pure (σ.pushV r)
  | .assign_w a b => do
    let r ← assign_w (A.infoOf a) (w.nat b)
    pure (σ.pushI r)
  | .assign_d a b => do
    let (x, y) ← assign_d (A.infoOf a) (w.nat b)
    pure ((σ.pushVs x).pushV y)
  | .reduce a b => do
    let b ← index σ.i b
    let r ← reduce (A.infoOf a) b
    pure (σ.pushI r)
  | .conditionally_reduce a b => do
    let b ← index σ.i b
    let r ← conditionally_reduce (A.infoOf a) b
    pure (σ.pushI r)
  | .int_add a b c => do
    let b ← index σ.i b
    let c ← index σ.i c
    let r ← int_add (A.infoOf a) b c
    pure (σ.pushI r)
  | .int_sub a b c => do
    let b ← index σ.i b
    let c ← index σ.i c
    let r ← int_sub (A.infoOf a) b c
    pure (σ.pushI r)
  | .int_neg a b => do
    let b ← index σ.i b
    let r ← int_neg (A.infoOf a) b
    pure (σ.pushI r)
  | .int_mul a b c => do
    let b ← index σ.i b
    let c ← index σ.i c
    let r ← int_mul (A.infoOf a) b c
    pure (σ.pushI r)
  | .is_pure_zero a => do
    let a ← index σ.i a
    let r ← is_pure_zero a
    pure (σ.pushV r)
  | .is_pure_w_modulus a b => do
    let b ← index σ.i b
    let r ← is_pure_w_modulus (A.infoOf a) b
    pure (σ.pushV r)
  | .is_int_zero a b => do
    let b ← index σ.i b
    let r ← is_int_zero (A.infoOf a) b
    pure (σ.pushV r)
  | .is_int_equal a b c => do
    let b ← index σ.i b
    let c ← index σ.i c
    let r ← is_int_equal (A.infoOf a) b c
    pure (σ.pushV r)
  | .int_div a b c => do
    let b ← index σ.i b
    let c ← index σ.i c
    let (x, y) ← int_div (A.infoOf a) b c
    pure ((σ.pushV x).pushI y)
  | .assign_int_constant a b => do
    let r ← assign_int_constant (A.infoOf a) b
    pure (σ.pushI r)
  | .int_unsafe_invert a b => do
    let b ← index σ.i b
    let r ← int_unsafe_invert (A.infoOf a) b
    pure (σ.pushI r)
  | .assert_int_equal a b c => do
    let b ← index σ.i b
    let c ← index σ.i c
    assert_int_equal (A.infoOf a) b c
    pure σ
  | .int_square a b => do
    let b ← index σ.i b
    let r ← int_square (A.infoOf a) b
    pure (σ.pushI r)
  | .int_mul_small_constant a b c => do
    let b ← index σ.i b
    let r ← int_mul_small_constant (A.infoOf a) b c
    pure (σ.pushI r)
  | .bisec_int a b c d => do
    let b ← index σ.v b
    let c ← index σ.i c
    let d ← index σ.i d
    let r ← bisec_int (A.infoOf a) b c d
    pure (σ.pushI r)
  | .assign_cache_value a b c d => do
    let a ← index σ.v a
    assign_cache_value a b c d
    pure σ
  | .assign_selected_value a b c d => do
    let a ← index σ.v a
    let d ← index σ.v d
    let r ← assign_selected_value a b c d
    pure (σ.pushV r)
  | .assign_constant_point a => do
    let r ← assign_constant_point A.info a
    pure (σ.pushP r)
  | .assign_point a => do
    let r ← assign_point A.info A.b (w.point a)
    pure (σ.pushP r)
  | .assign_non_zero_point a => do
    let r ← assign_non_zero_point A.info A.b (w.point a)
    pure (σ.pushN r)
  | .assign_identity  => do
    let r ← assign_identity A.info
    pure (σ.pushC r)
  | .bisec_point a b c => do
    let a ← index σ.v a
    let b ← index σ.p b
    let c ← index σ.p c
    let r ← bisec_point A.info a b c
    pure (σ.pushP r)
  | .bisec_point_with_curvature a b c => do
    let a ← index σ.v a
    let b ← index σ.c b
    let c ← index σ.c c
    let r ← bisec_point_with_curvature A.info a b c
    pure (σ.pushC r)
  | .lambda_to_point_non_zero a b c => do
    let a ← index σ.i a
    let b ← index σ.z b
    let c ← index σ.z c
    let r ← lambda_to_point_non_zero A.info a b c
    pure (σ.pushN r)
  | .ecc_add a b => do
    let a ← index σ.c a
    let b ← index σ.p b
    let r ← ecc_add A.info a b
    pure (σ.pushP r)
  | .ecc_double a => do
    let a ← index σ.c a
    let r ← ecc_double A.info A.order a
    pure (σ.pushP r)
  | .ecc_assert_equal a b => do
    let a ← index σ.p a
    let b ← index σ.p b
    ecc_assert_equal A.info a b
    pure σ
  | .ecc_neg a => do
    let a ← index σ.p a
    let r ← ecc_neg A.info a
    pure (σ.pushP r)
  | .ecc_reduce a => do
    let a ← index σ.p a
    let r ← ecc_reduce A.info a
    pure (σ.pushP r)
  | .to_point_with_curvature a => do
    let a ← index σ.p a
    let r ← to_point_with_curvature A.info a
    pure (σ.pushC r)
  | .ecc_reduce_with_curvature a => do
    let a ← index σ.p a
    let r ← ecc_reduce_with_curvature A.info a
    pure (σ.pushC r)
  | .ecc_encode a => do
    let a ← index σ.p a
    let r ← ecc_encode A.info a
    pure (σ.pushVs r)
  | .ecc_add_unsafe a b => do
    let a ← index σ.z a
    let b ← index σ.z b
    let r ← ecc_add_unsafe A.info a b
    match r with
    | .ok r => pure (σ.pushN r)
    | .error _ => panic .unwrapNone
  | .ecc_double_unsafe a => do
    let a ← index σ.z a
    let r ← ecc_double_unsafe A.info a
    match r with
    | .ok r => pure (σ.pushN r)
    | .error _ => panic .unwrapNone
  | .ecc_neg_non_zero a => do
    let a ← index σ.z a
    let r ← ecc_neg_non_zero A.info a
    pure (σ.pushN r)
  | .ecc_reduce_non_zero a => do
    let a ← index σ.z a
    let r ← ecc_reduce_non_zero A.info a
    pure (σ.pushN r)
  | .ecc_bisec_non_zero_point a b c => do
    let a ← index σ.v a
    let b ← index σ.z b
    let c ← index σ.z c
    let r ← ecc_bisec_non_zero_point A.info a b c
    pure (σ.pushN r)
  | .bisec_candidate_non_zero a b => do
    let a ← a.mapM (index σ.z)
    let b ← b.mapM (index σ.v)
    let r ← bisec_candidate_non_zero A.info a b
    pure (σ.pushN r)
  | .assign_cache_point a b c => do
    rassert σ.msm_prefix.isSome
    let a ← index σ.c a
    assign_cache_point A.info a b c
    pure σ
  | .assign_selected_point a b c => do
    rassert σ.msm_prefix.isSome
    let a ← index σ.c a
    let b ← index σ.v b
    let r ← assign_selected_point A.info a b c
    pure (σ.pushC r)
  | .assign_cache_point_non_zero a b c => do
    rassert σ.msm_prefix.isSome
    let a ← index σ.z a
    assign_cache_point_non_zero A.info a b c
    pure σ
  | .assign_selected_point_non_zero a b c => do
    rassert σ.msm_prefix.isSome
    let a ← index σ.z a
    let b ← index σ.v b
    let r ← assign_selected_point_non_zero A.info a b c
    pure (σ.pushN r)
  | .ecc_assert_equal_non_zero a b => do
    let a ← index σ.z a
    let b ← index σ.z b
    ecc_assert_equal_non_zero A.info a b
    pure σ
  | .ecc_non_zero_point_downgrade a => do
    let a ← index σ.z a
    let r ← ecc_non_zero_point_downgrade a
    pure (σ.pushP r)
  | .ecc_bisec_to_non_zero_point a b => do
    let a ← index σ.p a
    let b ← index σ.z b
    let r ← ecc_bisec_to_non_zero_point A.info a b
    pure (σ.pushN r)
  | .decompose_scalar_native a b => do
    let b ← index σ.v b
    let r ← decompose_scalar_native A.num_bits a b
    pure (σ.pushVs r.flatten)
  | .decompose_scalar_general a b => do
    let b ← index σ.i b
    let r ← decompose_scalar_general A.sinfo a b
    pure (σ.pushVs r.flatten)
  | .msm_native ps ss r1 r2 => do
    let ps ← ps.mapM (index σ.p)
    let ss ← ss.mapM (index σ.v)
    let (r, pre) ← msm A.info A.b (nativeScalar A.num_bits) A.generator (w.point r1) (w.point r2) σ.msm_prefix ps ss
    pure { σ.pushP r with msm_prefix := pre }
  | .msm_general ps ss r1 r2 => do
    let ps ← ps.mapM (index σ.p)
    let ss ← ss.mapM (index σ.i)
    let (r, pre) ← msm A.info A.b (generalScalar A.sinfo) A.generator (w.point r1) (w.point r2) σ.msm_prefix ps ss
    pure { σ.pushP r with msm_prefix := pre }
  | .msm_with_select_native ps ss r1 r2 => do
    let ps ← ps.mapM (index σ.z)
    let ss ← ss.mapM (index σ.v)
    let (r, pre) ← groupSelect A (nativeScalar A.num_bits) (w.point r1) (w.point r2) σ.msm_prefix ps ss
    pure { σ.pushP r with msm_prefix := pre }
  | .msm_with_select_general ps ss r1 r2 => do
    let ps ← ps.mapM (index σ.z)
    let ss ← ss.mapM (index σ.i)
    let (r, pre) ← groupSelect A (generalScalar A.sinfo) (w.point r1) (w.point r2) σ.msm_prefix ps ss
    pure { σ.pushP r with msm_prefix := pre }
  | .msm_without_select_native ps ss r1 r2 => do
    let ps ← ps.mapM (index σ.z)
    let ss ← ss.mapM (index σ.v)
    let r ← groupBisec A (nativeScalar A.num_bits) (w.point r1) (w.point r2) ps ss
    pure (σ.pushP r)
  | .msm_without_select_general ps ss r1 r2 => do
    let ps ← ps.mapM (index σ.z)
    let ss ← ss.mapM (index σ.i)
    let r ← groupBisec A (generalScalar A.sinfo) (w.point r1) (w.point r2) ps ss
    pure (σ.pushP r)
  | .bisec_curvature cond v z v' z' => do
    let cond ← index σ.v cond
    let v ← index σ.i v
    let z ← index σ.v z
    let v' ← index σ.i v'
    let z' ← index σ.v z'
    let r ← bisec_curvature A.info cond ⟨v, z⟩ ⟨v', z'⟩
    pure ((σ.pushI r.v).pushV r.z)
  | .lambda_to_point v z a b => do
    let v ← index σ.i v
    let z ← index σ.v z
    let a ← index σ.p a
    let b ← index σ.p b
    let r ← lambda_to_point A.info ⟨v, z⟩ a b
    pure (σ.pushP r)
  | .assign_cache_integer a sc g offset => do
    rassert σ.msm_prefix.isSome
    let a ← index σ.i a
    assign_cache_integer A.info a sc g offset
    pure σ
  | .assign_selected_integer a sc g offset => do
    rassert σ.msm_prefix.isSome
    let a ← index σ.i a
    let sc ← index σ.v sc
    let r ← assign_selected_integer A.info a sc g offset
    pure (σ.pushI r)
  | .limbs a => do
    let a ← index σ.i a
    pure (σ.pushVs a.limbs_le)
  | .native a => do
    let a ← index σ.i a
    pure (σ.pushV a.native)
  | .point_parts a => do
    let a ← index σ.p a
    pure (((σ.pushI a.x).pushI a.y).pushV a.z)
  | .non_zero_parts a => do
    let a ← index σ.z a
    pure ((σ.pushI a.x).pushI a.y)
  | .curvature_parts a => do
    let a ← index σ.c a
    pure ((σ.pushI a.curvature.v).pushV a.curvature.z)
  | .to_point a => do
    let a ← index σ.c a
    pure (σ.pushP a.to_point)
  | .mk_point x y z => do
    let x ← index σ.i x
    let y ← index σ.i y
    let z ← index σ.v z
    pure (σ.pushP ⟨x, y, z⟩)
  | .mk_non_zero x y => do
    let x ← index σ.i x
    let y ← index σ.i y
    pure (σ.pushN ⟨x, y⟩)
  | .mk_curvature x y z v c => do
    let x ← index σ.i x
    let y ← index σ.i y
    let z ← index σ.v z
    let v ← index σ.i v
    let c ← index σ.v c
    pure (σ.pushC ⟨x, y, z, ⟨v, c⟩⟩)
  | .tower c => runTowerCall A σ c

/-- The effect of a sequence of calls. -/
def runCalls (A : Api n) (w : Witness n) : List (Call n) → Store n → M n (Store n)
  | [], σ => pure σ
  | c :: cs, σ => do
    let σ ← runCall A w σ c
    runCalls A w cs σ

end Verif
