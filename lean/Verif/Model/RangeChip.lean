import Verif.Model.Core
import Verif.Model.RangeInfo

/-!
# Range chip operations

Model of `src/circuit/range_chip.rs:259-348`.
-/

namespace Verif
variable {n : ℕ}

/-- `decompose_bn`, `src/circuit/range_chip.rs:270-280`; `mask` is `common_range_mask = 2^18 - 1`
(`& mask` is `% (mask + 1)`). -/
def decompose_bn (n bn decompose mask : ℕ) : ZMod n × List (ZMod n) :=
  ((bn : ZMod n), (List.range decompose).map fun i =>
    ((bn / 2 ^ (i * COMMON_RANGE_BITS) % (mask + 1) : ℕ) : ZMod n))

/-- The common part of `assign_nonleading_limb`, `assign_w_ceil_leading_limb` and `assign_d_leading_limb`
(`src/circuit/range_chip.rs:307-315` and similar): call `assign_range_value`, advance the offset. -/
def assign_range (v : ZMod n × List (ZMod n)) (bits : ℕ) : M n (AssignedValue n) := fun s =>
  match s.records.assign_range_value s.range_offset v.2 v.1 bits with
  | .error e => .error e
  | .ok ((res, offset_increase), records) =>
    .ok (res, { s with records, range_offset := s.range_offset + offset_increase })

/-- `assign_common`, `src/circuit/range_chip.rs:287-298`. -/
def assign_common (bn : ℕ) : M n (AssignedValue n) := fun s =>
  match s.records.assign_one_line_range_value s.range_offset [(bn : ZMod n)] (bn : ZMod n)
      COMMON_RANGE_BITS with
  | .error e => .error e
  | .ok (res, records) => .ok (res, { s with records, range_offset := s.range_offset + 1 })

/-- `assign_nonleading_limb`, `src/circuit/range_chip.rs:300-315`. -/
def assign_nonleading_limb (info : RangeInfo n) (bn : ℕ) : M n (AssignedValue n) :=
  assign_range (decompose_bn n bn RANGE_VALUE_DECOMPOSE info.common_range_mask) info.limb_bits

/-- `assign_w_ceil_leading_limb`, `src/circuit/range_chip.rs:317-333`. -/
def assign_w_ceil_leading_limb (info : RangeInfo n) (bn : ℕ) : M n (AssignedValue n) :=
  assign_range (decompose_bn n bn info.w_ceil_leading_decompose info.common_range_mask)
    (info.w_ceil_bits % info.limb_bits)

/-- `assign_d_leading_limb`, `src/circuit/range_chip.rs:335-347`. -/
def assign_d_leading_limb (info : RangeInfo n) (bn : ℕ) : M n (AssignedValue n) :=
  assign_range (decompose_bn n bn info.d_leading_decompose info.common_range_mask)
    (info.d_bits % info.limb_bits)

end Verif
