import Verif.Model.IntegerChip
import Verif.Model.SelectChip

/-!
# ECC chip

Model of `src/circuit/ecc_chip.rs:412-1012` (`EccChipBaseOps`) and of the point types of `src/assign.rs`.

A constant curve point (`C::CurveExt`) is `none` for the identity and `some (x, y)` with the canonical
representatives of its affine coordinates otherwise. `b` is the canonical representative of `C::b()`.
A `Result<_, UnsafeError>` is an `Except UnsafeError`, returned by the monadic action.
-/

namespace Verif
variable {n : ℕ}

/-- `AssignedCurvature`, `src/assign.rs:39-43`. -/
structure AssignedCurvature (n : ℕ) where
  v : AssignedInteger n
  z : AssignedCondition n

/-- `AssignedPoint`, `src/assign.rs:45-50`. -/
structure AssignedPoint (n : ℕ) where
  x : AssignedInteger n
  y : AssignedInteger n
  z : AssignedCondition n

/-- `AssignedNonZeroPoint`, `src/assign.rs:52-56`. -/
structure AssignedNonZeroPoint (n : ℕ) where
  x : AssignedInteger n
  y : AssignedInteger n

/-- `AssignedPointWithCurvature`, `src/assign.rs:58-65`. -/
structure AssignedPointWithCurvature (n : ℕ) where
  x : AssignedInteger n
  y : AssignedInteger n
  z : AssignedCondition n
  curvature : AssignedCurvature n

/-- `to_point`, `src/assign.rs:68-70`. -/
def AssignedPointWithCurvature.to_point (a : AssignedPointWithCurvature n) : AssignedPoint n := ⟨a.x, a.y, a.z⟩

/-- `UnsafeError`, `src/circuit/ecc_chip.rs:23-28`. -/
inductive UnsafeError where
  | AddSameOrNegPoint
  | AddIdentity
  | AssignIdentity
deriving DecidableEq, Repr

/-- The `?` operator. -/
def tryB {α β : Type} (m : M n (Except UnsafeError α)) (k : α → M n (Except UnsafeError β)) :
    M n (Except UnsafeError β) :=
  m >>= fun r => match r with
    | .ok a => k a
    | .error e => pure (.error e)

/-- `assign_constant_point`, `src/circuit/ecc_chip.rs:441-456`. -/
def assign_constant_point (info : RangeInfo n) (c : Option (ℕ × ℕ)) : M n (AssignedPoint n) := do
  let x ← assign_int_constant info (c.elim 0 Prod.fst)
  let y ← assign_int_constant info (c.elim 0 Prod.snd)
  let z ← assign_constant (if c.isNone then 1 else 0)
  pure ⟨x, y, z⟩

/-- `assign_point`, `src/circuit/ecc_chip.rs:458-487`. -/
def assign_point (info : RangeInfo n) (b : ℕ) (c : Option (ℕ × ℕ)) : M n (AssignedPoint n) := do
  let x ← assign_w info (c.elim 0 Prod.fst)
  let y ← assign_w info (c.elim 0 Prod.snd)
  let z ← assign_bit (if c.isNone then 1 else 0)
  let b ← assign_int_constant info b
  let y2 ← int_square info y
  let x2 ← int_square info x
  let x3 ← int_mul info x2 x
  let right ← int_add info x3 b
  let eq ← is_int_equal info y2 right
  let eq_or_identity ← or eq z
  assert_true eq_or_identity
  pure ⟨x, y, z⟩

/-- `assign_non_zero_point`, `src/circuit/ecc_chip.rs:489-512` (`t.unwrap()` and the assertion of l. 497 fail
for the identity). -/
def assign_non_zero_point (info : RangeInfo n) (b : ℕ) (c : Option (ℕ × ℕ)) : M n (AssignedNonZeroPoint n) := do
  let c ← unwrap c
  let x ← assign_w info c.1
  let y ← assign_w info c.2
  let b ← assign_int_constant info b
  let y2 ← int_square info y
  let x2 ← int_square info x
  let x3 ← int_mul info x2 x
  let right ← int_add info x3 b
  assert_int_equal info y2 right
  pure ⟨x, y⟩

/-- `assign_identity`, `src/circuit/ecc_chip.rs:514-529`. -/
def assign_identity (info : RangeInfo n) : M n (AssignedPointWithCurvature n) := do
  let zero ← assign_int_constant info 0
  let one ← assign_constant 1
  pure ⟨zero, zero, one, ⟨zero, one⟩⟩

/-- `bisec_point`, `src/circuit/ecc_chip.rs:531-545`. -/
def bisec_point (info : RangeInfo n) (cond : AssignedCondition n) (a b : AssignedPoint n) :
    M n (AssignedPoint n) := do
  let x ← bisec_int info cond a.x b.x
  let y ← bisec_int info cond a.y b.y
  let z ← bisec_cond cond a.z b.z
  pure ⟨x, y, z⟩

/-- `bisec_curvature`, `src/circuit/ecc_chip.rs:547-560`. -/
def bisec_curvature (info : RangeInfo n) (cond : AssignedCondition n) (a b : AssignedCurvature n) :
    M n (AssignedCurvature n) := do
  let v ← bisec_int info cond a.v b.v
  let z ← bisec_cond cond a.z b.z
  pure ⟨v, z⟩

/-- `bisec_point_with_curvature`, `src/circuit/ecc_chip.rs:562-578`. -/
def bisec_point_with_curvature (info : RangeInfo n) (cond : AssignedCondition n)
    (a b : AssignedPointWithCurvature n) : M n (AssignedPointWithCurvature n) := do
  let x ← bisec_int info cond a.x b.x
  let y ← bisec_int info cond a.y b.y
  let z ← bisec_cond cond a.z b.z
  let c ← bisec_curvature info cond a.curvature b.curvature
  pure ⟨x, y, z, c⟩

/-- `lambda_to_point_non_zero`, `src/circuit/ecc_chip.rs:814-838`; the coordinate computation of
`lambda_to_point`, `src/circuit/ecc_chip.rs:586-601`, is the same text. -/
def lambda_to_point_non_zero (info : RangeInfo n) (l : AssignedInteger n) (a b : AssignedNonZeroPoint n) :
    M n (AssignedNonZeroPoint n) := do
  let l_square ← int_square info l
  let t ← int_sub info l_square a.x
  let cx ← int_sub info t b.x
  let t ← int_sub info a.x cx
  let t ← int_mul info t l
  let cy ← int_sub info t a.y
  pure ⟨cx, cy⟩

/-- `lambda_to_point`, `src/circuit/ecc_chip.rs:580-604`. -/
def lambda_to_point (info : RangeInfo n) (lambda : AssignedCurvature n) (a b : AssignedPoint n) :
    M n (AssignedPoint n) := do
  let p ← lambda_to_point_non_zero info lambda.v ⟨a.x, a.y⟩ ⟨b.x, b.y⟩
  pure ⟨p.x, p.y, lambda.z⟩

/-- `ecc_add`, `src/circuit/ecc_chip.rs:606-628`. -/
def ecc_add (info : RangeInfo n) (a : AssignedPointWithCurvature n) (b : AssignedPoint n) :
    M n (AssignedPoint n) := do
  let diff_x ← int_sub info a.x b.x
  let diff_y ← int_sub info a.y b.y
  let (x_eq, tangent) ← int_div info diff_y diff_x
  let y_eq ← is_int_zero info diff_y
  let eq ← and x_eq y_eq
  let lambda ← bisec_curvature info eq a.curvature ⟨tangent, x_eq⟩
  let p ← lambda_to_point info lambda a.to_point b
  let p ← bisec_point info a.z b p
  bisec_point info b.z a.to_point p

/-- `ecc_double`, `src/circuit/ecc_chip.rs:630-642`; `order` is the modulus of `C::ScalarExt`. -/
def ecc_double (info : RangeInfo n) (order : ℕ) (a : AssignedPointWithCurvature n) : M n (AssignedPoint n) := do
  rassert (¬ (order - 1) % 2 = 1)
  let p ← lambda_to_point info a.curvature a.to_point a.to_point
  let z ← bisec_cond a.z a.z p.z
  pure ⟨p.x, p.y, z⟩

/-- `ecc_assert_equal`, `src/circuit/ecc_chip.rs:644-658`. -/
def ecc_assert_equal (info : RangeInfo n) (a b : AssignedPoint n) : M n Unit := do
  let eq_x ← is_int_equal info a.x b.x
  let eq_y ← is_int_equal info a.y b.y
  let eq_z ← xnor a.z b.z
  let eq_xy ← and eq_x eq_y
  let eq_xyz ← and eq_xy eq_z
  let is_both_identity ← and a.z b.z
  let eq ← or eq_xyz is_both_identity
  assert_true eq

/-- `ecc_neg`, `src/circuit/ecc_chip.rs:660-666`. -/
def ecc_neg (info : RangeInfo n) (a : AssignedPoint n) : M n (AssignedPoint n) := do
  let y ← int_neg info a.y
  pure ⟨a.x, y, a.z⟩

/-- `ecc_reduce`, `src/circuit/ecc_chip.rs:668-675`. -/
def ecc_reduce (info : RangeInfo n) (a : AssignedPoint n) : M n (AssignedPoint n) := do
  let x ← reduce info a.x
  let y ← reduce info a.y
  let identity ← assign_identity info
  bisec_point info a.z identity.to_point ⟨x, y, a.z⟩

/-- `3 * x ^ 2 / 2 * y`, the shared text of `src/circuit/ecc_chip.rs:683-690`, `700-706` and `865-871`. -/
def tangent_slope (info : RangeInfo n) (x y : AssignedInteger n) :
    M n (AssignedCondition n × AssignedInteger n) := do
  let x_square ← int_square info x
  let numerator ← int_mul_small_constant info x_square 3
  let denominator ← int_mul_small_constant info y 2
  int_div info numerator denominator

/-- `to_point_with_curvature`, `src/circuit/ecc_chip.rs:695-708`. -/
def to_point_with_curvature (info : RangeInfo n) (a : AssignedPoint n) :
    M n (AssignedPointWithCurvature n) := do
  let (z, v) ← tangent_slope info a.x a.y
  pure ⟨a.x, a.y, a.z, ⟨v, z⟩⟩

/-- `ecc_reduce_with_curvature`, `src/circuit/ecc_chip.rs:677-693`. -/
def ecc_reduce_with_curvature (info : RangeInfo n) (a : AssignedPoint n) :
    M n (AssignedPointWithCurvature n) := do
  let a ← ecc_reduce info a
  let (z, v) ← tangent_slope info a.x a.y
  let v ← reduce info v
  pure ⟨a.x, a.y, a.z, ⟨v, z⟩⟩

/-- `ecc_encode`, `src/circuit/ecc_chip.rs:710-732`. -/
def ecc_encode (info : RangeInfo n) (p : AssignedPoint n) : M n (List (AssignedValue n)) := do
  let p ← ecc_reduce info p
  let shift : ZMod n := ((2 ^ info.limb_bits : ℕ) : ZMod n)
  let x0 ← index p.x.limbs_le 0
  let x1 ← index p.x.limbs_le 1
  let s0 ← sum_with_constant [(x0, 1), (x1, shift)] none
  let x2 ← index p.x.limbs_le 2
  let y0 ← index p.y.limbs_le 0
  let s1 ← sum_with_constant [(x2, 1), (y0, shift)] none
  let y1 ← index p.y.limbs_le 1
  let y2 ← index p.y.limbs_le 2
  let s2 ← sum_with_constant [(y1, 1), (y2, shift)] none
  pure [s0, s1, s2]

/-- `ecc_add_unsafe`, `src/circuit/ecc_chip.rs:840-858`. -/
def ecc_add_unsafe (info : RangeInfo n) (a b : AssignedNonZeroPoint n) :
    M n (Except UnsafeError (AssignedNonZeroPoint n)) := do
  let diff_x ← int_sub info a.x b.x
  let diff_y ← int_sub info a.y b.y
  let (x_eq, tangent) ← int_div info diff_y diff_x
  let succeed ← try_assert_false x_eq
  let res ← lambda_to_point_non_zero info tangent a b
  pure (if succeed then .ok res else .error .AddSameOrNegPoint)

/-- `ecc_double_unsafe`, `src/circuit/ecc_chip.rs:860-883`. -/
def ecc_double_unsafe (info : RangeInfo n) (a : AssignedNonZeroPoint n) :
    M n (Except UnsafeError (AssignedNonZeroPoint n)) := do
  let (z, v) ← tangent_slope info a.x a.y
  let succeed ← try_assert_false z
  let res ← lambda_to_point_non_zero info v a a
  pure (if succeed then .ok res else .error .AddIdentity)

/-- `ecc_neg_non_zero`, `src/circuit/ecc_chip.rs:885-890`. -/
def ecc_neg_non_zero (info : RangeInfo n) (a : AssignedNonZeroPoint n) : M n (AssignedNonZeroPoint n) := do
  let y ← int_neg info a.y
  pure ⟨a.x, y⟩

/-- `ecc_reduce_non_zero`, `src/circuit/ecc_chip.rs:892-900`. -/
def ecc_reduce_non_zero (info : RangeInfo n) (a : AssignedNonZeroPoint n) : M n (AssignedNonZeroPoint n) := do
  let x ← reduce info a.x
  let y ← reduce info a.y
  pure ⟨x, y⟩

/-- `ecc_bisec_non_zero_point`, `src/circuit/ecc_chip.rs:902-912`. -/
def ecc_bisec_non_zero_point (info : RangeInfo n) (cond : AssignedCondition n) (a b : AssignedNonZeroPoint n) :
    M n (AssignedNonZeroPoint n) := do
  let x ← bisec_int info cond a.x b.x
  let y ← bisec_int info cond a.y b.y
  pure ⟨x, y⟩

/-- The inner loop of `bisec_candidate_non_zero`, `src/circuit/ecc_chip.rs:921-927`: halve the list of
candidates (an odd last chunk makes `it[1]` panic). -/
def bisec_pairs (info : RangeInfo n) (bit : AssignedCondition n) :
    List (AssignedNonZeroPoint n) → M n (List (AssignedNonZeroPoint n))
  | [] => pure []
  | [_] => panic .indexOutOfBounds
  | a0 :: a1 :: rest => do
    let cell ← ecc_bisec_non_zero_point info bit a1 a0
    let next ← bisec_pairs info bit rest
    pure (cell :: next)

/-- The outer loop of `bisec_candidate_non_zero`, `src/circuit/ecc_chip.rs:918-930`. -/
def bisec_rounds (info : RangeInfo n) (candidates : List (AssignedNonZeroPoint n)) :
    List (AssignedCondition n) → M n (List (AssignedNonZeroPoint n))
  | [] => pure candidates
  | bit :: bits => do
    let next ← bisec_pairs info bit candidates
    bisec_rounds info next bits

/-- `bisec_candidate_non_zero`, `src/circuit/ecc_chip.rs:913-933`. -/
def bisec_candidate_non_zero (info : RangeInfo n) (candidates : List (AssignedNonZeroPoint n))
    (group_bits : List (AssignedCondition n)) : M n (AssignedNonZeroPoint n) := do
  let curr ← bisec_rounds info candidates group_bits
  rassert (curr.length = 1)
  index curr 0

/-- `pick_candidate_non_zero`, `src/circuit/ecc_chip.rs:935-953`: the low byte of the recorded index picks the
candidate. -/
def pick_candidate_non_zero (candidates : List (AssignedNonZeroPoint n)) (group_bits : List (AssignedCondition n)) :
    M n (AssignedValue n × AssignedNonZeroPoint n) := do
  let idx ← sum_with_constant (group_bits.mapIdx fun i x => (x, ((2 ^ i : ℕ) : ZMod n))) none
  let ci ← index candidates (idx.val.val % 256)
  pure (idx, ci)

/-- The loop of `assign_cache_integer`, `src/circuit/ecc_chip.rs:743-747`, over the limbs `j, j+1, ..`. -/
def cache_limbs (limbs : List (AssignedValue n)) (sc g offset : ℕ) : List ℕ → M n Unit
  | [] => pure ()
  | j :: js => do
    let v ← index limbs j
    assign_cache_value v (offset + j) g sc
    cache_limbs limbs sc g offset js

/-- `assign_cache_integer`, `src/circuit/ecc_chip.rs:734-751`; the caller advances `offset` by `limbs + 1`. -/
def assign_cache_integer (info : RangeInfo n) (p : AssignedInteger n) (sc g offset : ℕ) : M n Unit := do
  rassert (p.times = 1)
  cache_limbs p.limbs_le sc g offset (List.range info.limbs)
  assign_cache_value p.native (offset + info.limbs) g sc

/-- `assign_selected_integer`, `src/circuit/ecc_chip.rs:753-778`. -/
def assign_selected_integer (info : RangeInfo n) (p : AssignedInteger n) (sc : AssignedValue n) (g offset : ℕ) :
    M n (AssignedInteger n) := do
  let limbs ← (List.range info.limbs).mapM fun j => do
    let v ← index p.limbs_le j
    assign_selected_value v (offset + j) g sc
  let native ← assign_selected_value p.native (offset + info.limbs) g sc
  pure ⟨limbs, native, 1⟩

/-- `assign_cache_point`, `src/circuit/ecc_chip.rs:780-789`. -/
def assign_cache_point (info : RangeInfo n) (p : AssignedPointWithCurvature n) (g sc : ℕ) : M n Unit := do
  assign_cache_integer info p.x sc g 0
  assign_cache_integer info p.y sc g (info.limbs + 1)
  assign_cache_value p.z (2 * (info.limbs + 1)) g sc
  assign_cache_integer info p.curvature.v sc g (2 * (info.limbs + 1) + 1)
  assign_cache_value p.curvature.z (3 * (info.limbs + 1) + 1) g sc

/-- `assign_selected_point`, `src/circuit/ecc_chip.rs:791-812`. -/
def assign_selected_point (info : RangeInfo n) (p : AssignedPointWithCurvature n) (sc : AssignedValue n) (g : ℕ) :
    M n (AssignedPointWithCurvature n) := do
  let x ← assign_selected_integer info p.x sc g 0
  let y ← assign_selected_integer info p.y sc g (info.limbs + 1)
  let z ← assign_selected_value p.z (2 * (info.limbs + 1)) g sc
  let c_v ← assign_selected_integer info p.curvature.v sc g (2 * (info.limbs + 1) + 1)
  let c_z ← assign_selected_value p.curvature.z (3 * (info.limbs + 1) + 1) g sc
  pure ⟨x, y, z, ⟨c_v, c_z⟩⟩

/-- `assign_selected_point_non_zero`, `src/circuit/ecc_chip.rs:955-967`. -/
def assign_selected_point_non_zero (info : RangeInfo n) (p : AssignedNonZeroPoint n) (sc : AssignedValue n)
    (g : ℕ) : M n (AssignedNonZeroPoint n) := do
  let x ← assign_selected_integer info p.x sc g 0
  let y ← assign_selected_integer info p.y sc g (info.limbs + 1)
  pure ⟨x, y⟩

/-- `assign_cache_point_non_zero`, `src/circuit/ecc_chip.rs:969-973`. -/
def assign_cache_point_non_zero (info : RangeInfo n) (p : AssignedNonZeroPoint n) (g sc : ℕ) : M n Unit := do
  assign_cache_integer info p.x sc g 0
  assign_cache_integer info p.y sc g (info.limbs + 1)

/-- `ecc_assert_equal_non_zero`, `src/circuit/ecc_chip.rs:975-982`. -/
def ecc_assert_equal_non_zero (info : RangeInfo n) (a b : AssignedNonZeroPoint n) : M n Unit := do
  assert_int_equal info a.x b.x
  assert_int_equal info a.y b.y

/-- `ecc_non_zero_point_downgrade`, `src/circuit/ecc_chip.rs:984-997`. -/
def ecc_non_zero_point_downgrade (a : AssignedNonZeroPoint n) : M n (AssignedPoint n) := do
  let zero ← assign_constant 0
  pure ⟨a.x, a.y, zero⟩

/-- `ecc_bisec_to_non_zero_point`, `src/circuit/ecc_chip.rs:999-1010`. -/
def ecc_bisec_to_non_zero_point (info : RangeInfo n) (a : AssignedPoint n) (b : AssignedNonZeroPoint n) :
    M n (AssignedNonZeroPoint n) := do
  let x ← bisec_int info a.z b.x a.x
  let y ← bisec_int info a.z b.y a.y
  pure ⟨x, y⟩

end Verif
