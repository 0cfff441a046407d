import Verif.Model.IntegerChip

/-!
# Scalar decomposition

Model of the `decompose_scalar` functions of `src/circuit/native_scalar_ecc_chip.rs:97-171` and
`src/circuit/general_scalar_ecc_chip.rs:96-147`. A fixed-size array `[AssignedCondition; WINDOW_SIZE]` is a list.
`WINDOW_SIZE` (a const generic, at least 1) is `ws`; `NUM_BITS` of the native field is `num_bits`.
-/

namespace Verif
variable {n : ℕ}

/-- Rust's `slice::chunks` (for `k ≠ 0`). -/
def chunks {α : Type} (k : ℕ) (l : List α) : List (List α) :=
  if h : l = [] ∨ k = 0 then [] else l.take k :: chunks k (l.drop k)
termination_by l.length
decreasing_by
  have := List.length_pos_iff.2 (fun e => h (.inl e))
  have : k ≠ 0 := fun e => h (.inr e)
  simp only [List.length_drop]; omega

/-- `if b { one } else { zero }`. -/
def bitField (n : ℕ) (b : Bool) : ZMod n := if b then 1 else 0

/-- The loop of `src/circuit/native_scalar_ecc_chip.rs:111-143` over the remaining indices `i`; returns the bits in
push order and the final `v`. -/
def native_bits (s_bn : ℕ) : List ℕ → AssignedValue n → M n (List (AssignedCondition n) × AssignedValue n)
  | [], v => pure ([], v)
  | i :: is, v => do
    let b0 ← assign_bit (bitField n (s_bn.testBit (i * 2)))
    let b1 ← assign_bit (bitField n (s_bn.testBit (i * 2 + 1)))
    let v_next : ZMod n := ((s_bn >>> (i * 2 + 2) : ℕ) : ZMod n)
    let cells ← one_line_with_last [pairU v_next 4, pairA b1 2, pairA b0 1] (pairA v (-1)) none [] none
    let v ← index cells.1 0
    let r ← native_bits s_bn is v
    pure (b0 :: b1 :: r.1, r.2)

/-- The padding of the bits to a multiple of the window size: `native_scalar_ecc_chip.rs:155-164` and
`general_scalar_ecc_chip.rs:132-138`. -/
def pad_bits (ws rem : ℕ) (bits : List (AssignedCondition n)) : M n (List (AssignedCondition n)) :=
  if rem ≠ 0 then do
    let zero ← assign_constant 0
    pure (bits ++ List.replicate (ws - rem) zero)
  else pure bits

/-- `NativeScalarEccContext::decompose_scalar`, `src/circuit/native_scalar_ecc_chip.rs:97-171`. -/
def decompose_scalar_native (num_bits ws : ℕ) (s : AssignedValue n) : M n (List (List (AssignedCondition n))) := do
  let r ← native_bits s.val.val (List.range (num_bits / 2)) s
  let bits ← (if num_bits % 2 = 1 then do
      assert_bit r.2
      pure (r.1 ++ [r.2])
    else do
      assert_constant r.2 0
      pure r.1 : M n _)
  let bits ← pad_bits ws (num_bits % ws) bits
  pure (chunks ws bits).reverse

/-- The inner loop `src/circuit/general_scalar_ecc_chip.rs:113-128` over the remaining bit indices `j`; returns the bits
and the final `rest`. `two_inv` is `2⁻¹` (`two.invert().unwrap()`; it panics only in characteristic two). -/
def limb_bits_loop (v : ℕ) : List ℕ → AssignedValue n → M n (List (AssignedCondition n) × AssignedValue n)
  | [], rest => pure ([], rest)
  | j :: js, rest => do
    let b ← assign_bit (bitField n (v.testBit j))
    let v' := (rest.val - b.val) * 2⁻¹
    let cells ← one_line_with_last [pairA rest (-1), pairA b 1] (pairU v' 2) none [] none
    let r ← limb_bits_loop v js cells.2
    pure (b :: r.1, r.2)

/-- The outer loop `src/circuit/general_scalar_ecc_chip.rs:109-130` over the limbs. -/
def limbs_bits (info : RangeInfo n) : List (AssignedValue n) → M n (List (AssignedCondition n))
  | [] => pure []
  | l :: ls => do
    let r ← limb_bits_loop l.val.val (List.range info.limb_bits) l
    assert_constant r.2 0
    let rs ← limbs_bits info ls
    pure (r.1 ++ rs)

/-- `GeneralScalarEccContext::decompose_scalar`, `src/circuit/general_scalar_ecc_chip.rs:96-147`; `info` is the range
info of the scalar field. `chunks_exact` agrees with `chunks` because of the assertion before it. -/
def decompose_scalar_general (info : RangeInfo n) (ws : ℕ) (s : AssignedInteger n) :
    M n (List (List (AssignedCondition n))) := do
  let s ← reduce info s
  let bits ← limbs_bits info s.limbs_le
  let bits ← pad_bits ws (bits.length % ws) bits
  rassert (decide (bits.length % ws = 0))
  pure (chunks ws bits).reverse

end Verif
