import Verif.Model.Core

/-!
# Parameters of the non-native arithmetic

Model of `src/range_info.rs`.  `BigUint` and `u64` are `ℕ`; an unsigned subtraction that would underflow
is a panic.  `W` and `N` enter through their moduli `w` and `n`.
-/

namespace Verif

/-- `OVERFLOW_BITS`, `src/context.rs:38`. -/
abbrev OVERFLOW_BITS : ℕ := 6
/-- `RANGE_VALUE_DECOMPOSE = MAX_CHUNKS * RANGE_CHIP_RANGE_COLUMNS`, `src/circuit/range_chip.rs:31`. -/
abbrev RANGE_VALUE_DECOMPOSE : ℕ := 6

/-- `RangeInfo`, `src/range_info.rs:13-54`.  (`n_floor_leading_*` and `*_leading_bits`, which no other code
reads, are computed in `new` for their assertions but not stored.) -/
structure RangeInfo (n : ℕ) where
  limbs : ℕ
  limb_bits : ℕ
  w_ceil_leading_decompose : ℕ
  d_leading_decompose : ℕ
  w_ceil_bits : ℕ
  d_bits : ℕ
  n_floor_bits : ℕ
  w_ceil : ℕ
  n_modulus : ℕ
  w_modulus : ℕ
  common_range_mask : ℕ
  limb_mask : ℕ
  limb_modulus : ℕ
  w_modulus_limbs_le_bn : List ℕ
  w_modulus_limbs_le : List (ZMod n)
  limb_coeffs : List (ZMod n)
  limb_modulus_n : ZMod n
  overflow_bits : ℕ
  overflow_limit : ℕ
  w_native : ZMod n
  pure_w_check_limbs : ℕ
  reduce_check_limbs : ℕ
  mul_check_limbs : ℕ
  w_modulus_of_ceil_times : List (Option (List (ZMod n)))

namespace RangeInfo

/-- `assert!` outside a context. -/
def check (b : Bool) : Except Panic Unit := if b then .ok () else .error .assertion

/-- Unsigned subtraction. -/
def usub (a b : ℕ) : Except Panic ℕ := if b ≤ a then .ok (a - b) else .error .underflow

/-- `BigUint::bits`: the length of the binary expansion. -/
def bits (x : ℕ) : ℕ := x.size

/-- `bits_to_leading_bits_and_decompose`, `src/range_info.rs:57-75`. -/
def bits_to_leading_bits_and_decompose (bits common_bits : ℕ) : Except Panic (ℕ × ℕ) := do
  let common_limb_bits := RANGE_VALUE_DECOMPOSE * common_bits
  let leading_bits := if bits % common_limb_bits = 0 then common_limb_bits else bits % common_limb_bits
  check (leading_bits ≥ 2 * common_bits)
  check (leading_bits ≤ RANGE_VALUE_DECOMPOSE * common_bits)
  let leading_chunk_bits := leading_bits % common_bits
  if leading_chunk_bits = 0 then pure (common_bits, leading_bits / common_bits)
  else pure (leading_chunk_bits, leading_bits / common_bits + 1)

/-- `d_bits`, `src/range_info.rs:299-314`. -/
def d_bits_of (w overflow_bits : ℕ) : Except Panic ℕ := do
  let w_max := w - 1
  let w_ceil_bits := bits w_max
  let d_bits := w_ceil_bits + overflow_bits * 2 + 1
  let max_a := 2 ^ (w_ceil_bits + overflow_bits)
  check (2 ^ d_bits * w ≥ max_a * max_a)
  pure d_bits

/-- Limb `i` of a natural number: `(w >> (i * limb_bits)) & limb_mask`
(`src/range_info.rs:111,319,328`). -/
def limbOf (limb_bits i x : ℕ) : ℕ := x / 2 ^ (i * limb_bits) % 2 ^ limb_bits

/-- `bn_to_limb_le`, `src/range_info.rs:325-332`. -/
def bn_to_limb_le {n : ℕ} (info : RangeInfo n) (x : ℕ) : List ℕ :=
  (List.range info.limbs).map fun i => limbOf info.limb_bits i x

/-- `bn_to_limb_le_n`, `src/range_info.rs:316-323`. -/
def bn_to_limb_le_n {n : ℕ} (info : RangeInfo n) (x : ℕ) : List (ZMod n) :=
  (info.bn_to_limb_le x).map (Nat.cast : ℕ → ZMod n)

/-- The loop of `find_w_modulus_of_ceil_times`, `src/range_info.rs:345-352`: `k` limbs are split off
`upper`, borrowing `times` from the next limb each time. -/
def split_upper (limb_bits times : ℕ) : ℕ → ℕ → Except Panic (List ℕ × ℕ)
  | 0, upper => pure ([], upper)
  | k + 1, upper => do
    let rem := upper % 2 ^ limb_bits + 2 ^ limb_bits * times
    let upper := (← usub upper rem) / 2 ^ limb_bits
    check (rem ≥ 2 ^ limb_bits * times - 1)
    check (rem < 2 ^ limb_bits * (times + 1))
    let (ls, top) ← split_upper limb_bits times k upper
    pure (rem :: ls, top)

/-- `find_w_modulus_of_ceil_times`, `src/range_info.rs:334-359`, before the conversion to field elements. -/
def find_w_modulus_of_ceil_times_bn (limbs limb_bits w_ceil_bits w_modulus times : ℕ) :
    Except Panic (List ℕ) := do
  let max := 2 ^ w_ceil_bits * times
  if w_modulus = 0 then throw .divByZero
  let q := if max % w_modulus > 0 then max / w_modulus + 1 else max / w_modulus
  let (ls, upper) ← split_upper limb_bits times (limbs - 1) (w_modulus * q)
  check (upper ≥ 2 ^ (w_ceil_bits % limb_bits) * times)
  check (upper < 2 ^ (w_ceil_bits % limb_bits) * (times + 1))
  pure (ls ++ [upper])

/-- `find_w_modulus_of_ceil_times`, `src/range_info.rs:334-359`. -/
def find_w_modulus_of_ceil_times {n : ℕ} (info : RangeInfo n) (times : ℕ) :
    Except Panic (List (ZMod n)) := do
  let ls ← find_w_modulus_of_ceil_times_bn info.limbs info.limb_bits info.w_ceil_bits info.w_modulus times
  pure (ls.map (Nat.cast : ℕ → ZMod n))

/-- The largest limb of `w`: `.iter().reduce(max).unwrap()`, `src/range_info.rs:217-221`. -/
def max_wi {n : ℕ} (info : RangeInfo n) : ℕ := info.w_modulus_limbs_le_bn.foldr Nat.max 0

/-- `pre_check`, block for `is_pure_w_modulus`, `src/range_info.rs:189-196`. -/
def pre_check_pure_w {n : ℕ} (info : RangeInfo n) : Except Panic Unit := do
  let lcm := Nat.lcm info.n_modulus (2 ^ (info.limb_bits * info.pure_w_check_limbs))
  check (lcm ≥ info.w_ceil)

/-- `pre_check`, block for `reduce`, `src/range_info.rs:198-241`. -/
def pre_check_reduce {n : ℕ} (info : RangeInfo n) : Except Panic Unit := do
  let max_a := info.w_ceil * (info.overflow_limit - 1) - 1
  let max_d := 2 ^ COMMON_RANGE_BITS - 1
  check (max_a ≤ max_d * info.w_modulus)
  let lcm := Nat.lcm info.n_modulus (2 ^ (info.limb_bits * info.reduce_check_limbs))
  check (lcm ≥ max_d * info.w_modulus + info.w_ceil)
  let max_v := info.limb_modulus - 1
  let max_rem := info.limb_modulus - 1
  check (max_v * info.limb_modulus ≥
    max_d * info.max_wi + max_rem + max_v + info.overflow_limit * info.limb_modulus)
  check (max_v * info.limb_modulus < info.n_modulus)
  check (max_d * info.max_wi + max_rem + max_v + info.overflow_limit * info.limb_modulus
    < info.n_modulus)
  let max_ai := info.limb_modulus * (info.overflow_limit - 1) - 1
  check (info.overflow_limit * info.limb_modulus - info.overflow_limit ≥ max_ai)

/-- `pre_check`, block for `mul`, `src/range_info.rs:243-293`. -/
def pre_check_mul {n : ℕ} (info : RangeInfo n) : Except Panic Unit := do
  let max_a := info.w_ceil * (info.overflow_limit - 1) - 1
  let max_d := 2 ^ info.d_bits - 1
  check (max_a * max_a ≤ max_d * info.w_modulus)
  let lcm := Nat.lcm info.n_modulus (2 ^ (info.limb_bits * info.mul_check_limbs))
  let max_rem := info.w_ceil - 1
  check (lcm > max_a * max_a)
  check (lcm > max_d * info.w_modulus + max_rem)
  let borrow := info.limbs * info.limb_modulus + 2
  let max_d_j := info.limb_modulus - 1
  let max_rem_i := info.limb_modulus - 1
  check (borrow * info.limb_modulus - borrow ≥ info.limbs * max_d_j * info.max_wi + max_rem_i)
  let max_v := info.limb_modulus * 2 ^ COMMON_RANGE_BITS - 1
  let max_a_j := info.limb_modulus * (info.overflow_limit - 1)
  check (max_v * info.limb_modulus ≥ max_a_j * max_a_j * info.limbs + info.limb_modulus * borrow)
  check (max_v * info.limb_modulus < info.n_modulus)

/-- `pre_check`, `src/range_info.rs:186-297`. -/
def pre_check {n : ℕ} (info : RangeInfo n) : Except Panic Unit := do
  info.pre_check_pure_w
  info.pre_check_reduce
  info.pre_check_mul
  check (info.limbs ≥ 3)

/-- The loop filling `w_modulus_of_ceil_times`, `src/range_info.rs:178-180` (index 0 stays `None`). -/
def fill_ceil_times {n : ℕ} (info : RangeInfo n) : Except Panic (List (Option (List (ZMod n)))) := do
  let l ← (List.range (info.overflow_limit - 1)).mapM fun i =>
    info.find_w_modulus_of_ceil_times (i + 1)
  pure (none :: l.map some)

/-- `RangeInfo::new(common_bits, overflow_bits)`, `src/range_info.rs:77-184`, for `W` of modulus `w` and
`N` of modulus `n`.  `field_to_bn(-W::one())` is `w - 1`. -/
def new (w n common_bits overflow_bits : ℕ) : Except Panic (RangeInfo n) := do
  check (common_bits = COMMON_RANGE_BITS)
  check (overflow_bits = OVERFLOW_BITS)
  let w_max := w - 1
  let w_ceil_bits := bits w_max
  check (2 ^ w_ceil_bits > w_max)
  check (2 ^ (← usub w_ceil_bits 1) ≤ w_max)
  let (_, w_ceil_leading_decompose) ← bits_to_leading_bits_and_decompose w_ceil_bits common_bits
  let n_max := n - 1
  let n_floor_bits ← usub (bits n_max) 1
  check (2 ^ n_floor_bits < n_max)
  check (2 ^ (n_floor_bits + 1) ≥ n_max)
  let _ ← bits_to_leading_bits_and_decompose n_floor_bits common_bits
  let d_bits ← d_bits_of w overflow_bits
  let (_, d_leading_decompose) ← bits_to_leading_bits_and_decompose d_bits common_bits
  let limb_bits := common_bits * RANGE_VALUE_DECOMPOSE
  let limbs := (w_ceil_bits + limb_bits - 1) / limb_bits
  let limb_mask := 2 ^ limb_bits - 1
  let n_modulus := n_max + 1
  let w_modulus := w_max + 1
  let w_native := w_modulus % n_modulus
  let w_modulus_limbs_le_bn := (List.range limbs).map fun i => limbOf limb_bits i w_modulus
  let overflow_limit := 2 ^ overflow_bits
  let pure_w := (← usub w_ceil_bits n_floor_bits) + limb_bits - 1
  let mulc := (← usub (Nat.max (w_ceil_bits * 2 + overflow_bits * 2) (d_bits + w_ceil_bits)) n_floor_bits)
    + limb_bits - 1
  let redc := (← usub (Nat.max (w_ceil_bits + overflow_bits) (common_bits + w_ceil_bits)) n_floor_bits)
    + limb_bits - 1
  let res : RangeInfo n :=
    { limbs, limb_bits, w_ceil_leading_decompose, d_leading_decompose, w_ceil_bits, d_bits,
      n_floor_bits, w_ceil := 2 ^ w_ceil_bits, n_modulus, w_modulus,
      common_range_mask := 2 ^ common_bits - 1, limb_mask, limb_modulus := 2 ^ limb_bits,
      w_modulus_limbs_le_bn,
      w_modulus_limbs_le := w_modulus_limbs_le_bn.map (Nat.cast : ℕ → ZMod n),
      limb_coeffs := (List.range limbs).map fun i => ((2 ^ (i * limb_bits) : ℕ) : ZMod n),
      limb_modulus_n := ((2 ^ limb_bits : ℕ) : ZMod n),
      overflow_bits, overflow_limit,
      w_native := (w_native : ZMod n),
      pure_w_check_limbs := pure_w / limb_bits,
      mul_check_limbs := mulc / limb_bits,
      reduce_check_limbs := redc / limb_bits,
      w_modulus_of_ceil_times := [] }
  let table ← res.fill_ceil_times
  let res := { res with w_modulus_of_ceil_times := table }
  res.pre_check
  pure res

end RangeInfo

end Verif
