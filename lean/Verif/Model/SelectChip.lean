import Verif.Model.Core

/-!
# Select chip operations

Model of `src/circuit/select_chip.rs:99-162`.
-/

namespace Verif
variable {n : ℕ}

/-- `encode_offset`, `src/circuit/select_chip.rs:118-122`. -/
def encode_offset (n g offset limb_offset : ℕ) : ZMod n :=
  ((offset * 2 ^ 128 + g * 2 ^ 64 + limb_offset : ℕ) : ZMod n)

/-- `assign_cache_value`, `src/circuit/select_chip.rs:129-143`. -/
def assign_cache_value (v : AssignedValue n) (offset group_index selector : ℕ) : M n Unit := fun s =>
  let encoded_offset := encode_offset n group_index selector offset
  .ok ((), { s with
    records := s.records.assign_cache_value s.select_offset v encoded_offset
    select_offset := s.select_offset + 1 })

/-- `assign_selected_value`, `src/circuit/select_chip.rs:144-161`. -/
def assign_selected_value (v : AssignedValue n) (offset group_index : ℕ) (selector : AssignedValue n) :
    M n (AssignedValue n) := fun s =>
  let encoded_offset := encode_offset n group_index 0 offset
  let r := s.records.assign_select_value s.select_offset v encoded_offset selector
  .ok (r.1, { s with records := r.2, select_offset := s.select_offset + 1 })

end Verif
