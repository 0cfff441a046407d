import Verif.Model.EccChip

/-!
# Tower fields

Model of `src/circuit/fq12.rs`, and of the curve-specific multiplications by the non-residues in
`src/circuit/bn256_pairing_chip.rs` and `src/circuit/bls12_381_pairing_chip.rs`. The components of tuples are
evaluated from left to right. `info` is the range info of the base field (`self.base_integer_chip()`).
-/

namespace Verif
variable {n : ℕ}

/-- `AssignedFq2`, `src/assign.rs:165`. -/
abbrev AssignedFq2 (n : ℕ) : Type := AssignedInteger n × AssignedInteger n

/-- `AssignedFq6`, `src/assign.rs:166`. -/
structure AssignedFq6 (n : ℕ) where
  c0 : AssignedFq2 n
  c1 : AssignedFq2 n
  c2 : AssignedFq2 n

/-- `AssignedFq12`, `src/assign.rs:167`. -/
structure AssignedFq12 (n : ℕ) where
  c0 : AssignedFq6 n
  c1 : AssignedFq6 n

/-- The curves with a pairing chip: the implementations of `Fq2BnSpecificOps` and so on are chosen by the base field. -/
inductive PairingCurve where
  | bn256
  | bls12_381

/-! ## Fq2, `src/circuit/fq12.rs:24-104` -/

/-- `fq2_reduce`, `src/circuit/fq12.rs:25-30`. -/
def fq2_reduce (info : RangeInfo n) (x : AssignedFq2 n) : M n (AssignedFq2 n) := do
  let c0 ← reduce info x.1
  let c1 ← reduce info x.2
  pure (c0, c1)

/-- `fq2_assert_equal`, `src/circuit/fq12.rs:31-34`. -/
def fq2_assert_equal (info : RangeInfo n) (x y : AssignedFq2 n) : M n Unit := do
  assert_int_equal info x.1 y.1
  assert_int_equal info x.2 y.2

/-- `fq2_assign_zero`, `src/circuit/fq12.rs:35-38`. -/
def fq2_assign_zero (info : RangeInfo n) : M n (AssignedFq2 n) := do
  let fq2_zero ← assign_int_constant info 0
  pure (fq2_zero, fq2_zero)

/-- `fq2_assign_one`, `src/circuit/fq12.rs:39-44`. -/
def fq2_assign_one (info : RangeInfo n) : M n (AssignedFq2 n) := do
  let c0 ← assign_int_constant info 1
  let c1 ← assign_int_constant info 0
  pure (c0, c1)

/-- `fq2_assign_constant`, `src/circuit/fq12.rs:45-50`. -/
def fq2_assign_constant (info : RangeInfo n) (c : ℕ × ℕ) : M n (AssignedFq2 n) := do
  let c0 ← assign_int_constant info c.1
  let c1 ← assign_int_constant info c.2
  pure (c0, c1)

/-- `fq2_add`, `src/circuit/fq12.rs:51-56`. -/
def fq2_add (info : RangeInfo n) (a b : AssignedFq2 n) : M n (AssignedFq2 n) := do
  let c0 ← int_add info a.1 b.1
  let c1 ← int_add info a.2 b.2
  pure (c0, c1)

/-- `fq2_mul`, `src/circuit/fq12.rs:57-69`. -/
def fq2_mul (info : RangeInfo n) (a b : AssignedFq2 n) : M n (AssignedFq2 n) := do
  let ab00 ← int_mul info a.1 b.1
  let ab11 ← int_mul info a.2 b.2
  let c0 ← int_sub info ab00 ab11
  let a01 ← int_add info a.1 a.2
  let b01 ← int_add info b.1 b.2
  let c1 ← int_mul info a01 b01
  let c1 ← int_sub info c1 ab00
  let c1 ← int_sub info c1 ab11
  pure (c0, c1)

/-- `fq2_sub`, `src/circuit/fq12.rs:70-75`. -/
def fq2_sub (info : RangeInfo n) (a b : AssignedFq2 n) : M n (AssignedFq2 n) := do
  let c0 ← int_sub info a.1 b.1
  let c1 ← int_sub info a.2 b.2
  pure (c0, c1)

/-- `fq2_double`, `src/circuit/fq12.rs:76-81`. -/
def fq2_double (info : RangeInfo n) (a : AssignedFq2 n) : M n (AssignedFq2 n) := do
  let c0 ← int_add info a.1 a.1
  let c1 ← int_add info a.2 a.2
  pure (c0, c1)

/-- `fq2_square`, `src/circuit/fq12.rs:82-84`. -/
def fq2_square (info : RangeInfo n) (a : AssignedFq2 n) : M n (AssignedFq2 n) := fq2_mul info a a

/-- `fq2_neg`, `src/circuit/fq12.rs:85-90`. -/
def fq2_neg (info : RangeInfo n) (a : AssignedFq2 n) : M n (AssignedFq2 n) := do
  let c0 ← int_neg info a.1
  let c1 ← int_neg info a.2
  pure (c0, c1)

/-- `fq2_conjugate`, `src/circuit/fq12.rs:91-93`. -/
def fq2_conjugate (info : RangeInfo n) (a : AssignedFq2 n) : M n (AssignedFq2 n) := do
  let c1 ← int_neg info a.2
  pure (a.1, c1)

/-- `fq2_unsafe_invert`, `src/circuit/fq12.rs:94-103`. -/
def fq2_unsafe_invert (info : RangeInfo n) (x : AssignedFq2 n) : M n (AssignedFq2 n) := do
  let t0 ← int_square info x.1
  let t1 ← int_square info x.2
  let t0 ← int_add info t0 t1
  let t ← int_unsafe_invert info t0
  let c0 ← int_mul info x.1 t
  let c1 ← int_mul info x.2 t
  let c1 ← int_neg info c1
  pure (c0, c1)

/-- `fq2_mul_by_nonresidue`, `src/circuit/bn256_pairing_chip.rs:32-44` and
`src/circuit/bls12_381_pairing_chip.rs:32-37`. -/
def fq2_mul_by_nonresidue (info : RangeInfo n) (crv : PairingCurve) (a : AssignedFq2 n) : M n (AssignedFq2 n) :=
  match crv with
  | .bn256 => do
    let a2 ← fq2_double info a
    let a4 ← fq2_double info a2
    let a8 ← fq2_double info a4
    let t ← int_add info a8.1 a.1
    let c0 ← int_sub info t a.2
    let t ← int_add info a8.2 a.1
    let c1 ← int_add info t a.2
    pure (c0, c1)
  | .bls12_381 => do
    let c0 ← int_sub info a.1 a.2
    let c1 ← int_add info a.1 a.2
    pure (c0, c1)

/-! ## Fq6, `src/circuit/fq12.rs:106-287` -/

/-- `fq6_reduce`, `src/circuit/fq12.rs:107-113`. -/
def fq6_reduce (info : RangeInfo n) (x : AssignedFq6 n) : M n (AssignedFq6 n) := do
  let c0 ← fq2_reduce info x.c0
  let c1 ← fq2_reduce info x.c1
  let c2 ← fq2_reduce info x.c2
  pure ⟨c0, c1, c2⟩

/-- `fq6_assert_equal`, `src/circuit/fq12.rs:114-118`. -/
def fq6_assert_equal (info : RangeInfo n) (x y : AssignedFq6 n) : M n Unit := do
  fq2_assert_equal info x.c0 y.c0
  fq2_assert_equal info x.c1 y.c1
  fq2_assert_equal info x.c2 y.c2

/-- `fq6_assign_zero`, `src/circuit/fq12.rs:119-122`. -/
def fq6_assign_zero (info : RangeInfo n) : M n (AssignedFq6 n) := do
  let fq2_zero ← fq2_assign_zero info
  pure ⟨fq2_zero, fq2_zero, fq2_zero⟩

/-- `fq6_assign_one`, `src/circuit/fq12.rs:123-127`. -/
def fq6_assign_one (info : RangeInfo n) : M n (AssignedFq6 n) := do
  let fq2_one ← fq2_assign_one info
  let fq2_zero ← fq2_assign_zero info
  pure ⟨fq2_one, fq2_zero, fq2_zero⟩

/-- `fq6_add`, `src/circuit/fq12.rs:128-134`. -/
def fq6_add (info : RangeInfo n) (a b : AssignedFq6 n) : M n (AssignedFq6 n) := do
  let c0 ← fq2_add info a.c0 b.c0
  let c1 ← fq2_add info a.c1 b.c1
  let c2 ← fq2_add info a.c2 b.c2
  pure ⟨c0, c1, c2⟩

/-- `fq6_mul`, `src/circuit/fq12.rs:135-170`. -/
def fq6_mul (info : RangeInfo n) (crv : PairingCurve) (a b : AssignedFq6 n) : M n (AssignedFq6 n) := do
  let ab00 ← fq2_mul info a.c0 b.c0
  let ab11 ← fq2_mul info a.c1 b.c1
  let ab22 ← fq2_mul info a.c2 b.c2
  let b12 ← fq2_add info b.c1 b.c2
  let a12 ← fq2_add info a.c1 a.c2
  let t ← fq2_mul info a12 b12
  let t ← fq2_sub info t ab11
  let t ← fq2_sub info t ab22
  let t ← fq2_mul_by_nonresidue info crv t
  let c0 ← fq2_add info t ab00
  let b01 ← fq2_add info b.c0 b.c1
  let a01 ← fq2_add info a.c0 a.c1
  let t ← fq2_mul info a01 b01
  let t ← fq2_sub info t ab00
  let t ← fq2_sub info t ab11
  let ab22' ← fq2_mul_by_nonresidue info crv ab22
  let c1 ← fq2_add info t ab22'
  let b02 ← fq2_add info b.c0 b.c2
  let a02 ← fq2_add info a.c0 a.c2
  let t ← fq2_mul info a02 b02
  let t ← fq2_sub info t ab00
  let t ← fq2_add info t ab11
  let c2 ← fq2_sub info t ab22
  pure ⟨c0, c1, c2⟩

/-- `fq6_sub`, `src/circuit/fq12.rs:171-177`. -/
def fq6_sub (info : RangeInfo n) (a b : AssignedFq6 n) : M n (AssignedFq6 n) := do
  let c0 ← fq2_sub info a.c0 b.c0
  let c1 ← fq2_sub info a.c1 b.c1
  let c2 ← fq2_sub info a.c2 b.c2
  pure ⟨c0, c1, c2⟩

/-- `fq6_double`, `src/circuit/fq12.rs:178-184`. -/
def fq6_double (info : RangeInfo n) (a : AssignedFq6 n) : M n (AssignedFq6 n) := do
  let c0 ← fq2_double info a.c0
  let c1 ← fq2_double info a.c1
  let c2 ← fq2_double info a.c2
  pure ⟨c0, c1, c2⟩

/-- `fq6_square`, `src/circuit/fq12.rs:185-187`. -/
def fq6_square (info : RangeInfo n) (crv : PairingCurve) (a : AssignedFq6 n) : M n (AssignedFq6 n) :=
  fq6_mul info crv a a

/-- `fq6_neg`, `src/circuit/fq12.rs:188-190`. -/
def fq6_neg (info : RangeInfo n) (a : AssignedFq6 n) : M n (AssignedFq6 n) := do
  let c0 ← fq2_neg info a.c0
  let c1 ← fq2_neg info a.c1
  let c2 ← fq2_neg info a.c2
  pure ⟨c0, c1, c2⟩

/-- `fq6_mul_by_1`, `src/circuit/fq12.rs:191-212`. -/
def fq6_mul_by_1 (info : RangeInfo n) (crv : PairingCurve) (a : AssignedFq6 n) (b1 : AssignedFq2 n) :
    M n (AssignedFq6 n) := do
  let ab11 ← fq2_mul info a.c1 b1
  let a12 ← fq2_add info a.c1 a.c2
  let t ← fq2_mul info a12 b1
  let t ← fq2_sub info t ab11
  let c0 ← fq2_mul_by_nonresidue info crv t
  let a01 ← fq2_add info a.c0 a.c1
  let t ← fq2_mul info a01 b1
  let c1 ← fq2_sub info t ab11
  pure ⟨c0, c1, ab11⟩

/-- `fq6_mul_by_01`, `src/circuit/fq12.rs:213-248`. -/
def fq6_mul_by_01 (info : RangeInfo n) (crv : PairingCurve) (a : AssignedFq6 n) (b0 b1 : AssignedFq2 n) :
    M n (AssignedFq6 n) := do
  let ab00 ← fq2_mul info a.c0 b0
  let ab11 ← fq2_mul info a.c1 b1
  let a12 ← fq2_add info a.c1 a.c2
  let t ← fq2_mul info a12 b1
  let t ← fq2_sub info t ab11
  let t ← fq2_mul_by_nonresidue info crv t
  let c0 ← fq2_add info t ab00
  let b01 ← fq2_add info b0 b1
  let a01 ← fq2_add info a.c0 a.c1
  let t ← fq2_mul info a01 b01
  let t ← fq2_sub info t ab00
  let c1 ← fq2_sub info t ab11
  let a02 ← fq2_add info a.c0 a.c2
  let t ← fq2_mul info a02 b0
  let t ← fq2_sub info t ab00
  let c2 ← fq2_add info t ab11
  pure ⟨c0, c1, c2⟩

/-- `fq6_unsafe_invert`, `src/circuit/fq12.rs:249-279`. -/
def fq6_unsafe_invert (info : RangeInfo n) (crv : PairingCurve) (x : AssignedFq6 n) : M n (AssignedFq6 n) := do
  let c0 ← fq2_mul_by_nonresidue info crv x.c2
  let c0 ← fq2_mul info c0 x.c1
  let c0 ← fq2_neg info c0
  let x0s ← fq2_square info x.c0
  let c0 ← fq2_add info c0 x0s
  let c1 ← fq2_square info x.c2
  let c1 ← fq2_mul_by_nonresidue info crv c1
  let x01 ← fq2_mul info x.c0 x.c1
  let c1 ← fq2_sub info c1 x01
  let c2 ← fq2_square info x.c1
  let x02 ← fq2_mul info x.c0 x.c2
  let c2 ← fq2_sub info c2 x02
  let c0x0 ← fq2_mul info c0 x.c0
  let c1x2 ← fq2_mul info c1 x.c2
  let c2x1 ← fq2_mul info c2 x.c1
  let t ← fq2_add info c1x2 c2x1
  let t ← fq2_mul_by_nonresidue info crv t
  let t ← fq2_add info t c0x0
  let t ← fq2_unsafe_invert info t
  let r0 ← fq2_mul info t c0
  let r1 ← fq2_mul info t c1
  let r2 ← fq2_mul info t c2
  pure ⟨r0, r1, r2⟩

/-- `fq6_assign_constant`, `src/circuit/fq12.rs:280-286`. -/
def fq6_assign_constant (info : RangeInfo n) (c : (ℕ × ℕ) × (ℕ × ℕ) × (ℕ × ℕ)) : M n (AssignedFq6 n) := do
  let c0 ← fq2_assign_constant info c.1
  let c1 ← fq2_assign_constant info c.2.1
  let c2 ← fq2_assign_constant info c.2.2
  pure ⟨c0, c1, c2⟩

/-- `fq6_mul_by_nonresidue`, `src/circuit/bn256_pairing_chip.rs:59-61` and
`src/circuit/bls12_381_pairing_chip.rs:47-49`. -/
def fq6_mul_by_nonresidue (info : RangeInfo n) (crv : PairingCurve) (a : AssignedFq6 n) : M n (AssignedFq6 n) := do
  let c0 ← fq2_mul_by_nonresidue info crv a.c2
  pure ⟨c0, a.c0, a.c1⟩

/-! ## Fq12, `src/circuit/fq12.rs:289-459` -/

/-- `fq12_reduce`, `src/circuit/fq12.rs:290-295`. -/
def fq12_reduce (info : RangeInfo n) (x : AssignedFq12 n) : M n (AssignedFq12 n) := do
  let c0 ← fq6_reduce info x.c0
  let c1 ← fq6_reduce info x.c1
  pure ⟨c0, c1⟩

/-- `fq12_assert_eq`, `src/circuit/fq12.rs:300-303`. -/
def fq12_assert_eq (info : RangeInfo n) (x y : AssignedFq12 n) : M n Unit := do
  fq6_assert_equal info x.c0 y.c0
  fq6_assert_equal info x.c1 y.c1

/-- `fq12_assign_zero`, `src/circuit/fq12.rs:304-307`. -/
def fq12_assign_zero (info : RangeInfo n) : M n (AssignedFq12 n) := do
  let fq6_zero ← fq6_assign_zero info
  pure ⟨fq6_zero, fq6_zero⟩

/-- `fq12_assign_one`, `src/circuit/fq12.rs:308-312`. -/
def fq12_assign_one (info : RangeInfo n) : M n (AssignedFq12 n) := do
  let fq6_one ← fq6_assign_one info
  let fq6_zero ← fq6_assign_zero info
  pure ⟨fq6_one, fq6_zero⟩

/-- `fq12_assert_one`, `src/circuit/fq12.rs:296-299`. -/
def fq12_assert_one (info : RangeInfo n) (x : AssignedFq12 n) : M n Unit := do
  let one ← fq12_assign_one info
  fq12_assert_eq info x one

/-- `fq12_add`, `src/circuit/fq12.rs:313-315`. -/
def fq12_add (info : RangeInfo n) (a b : AssignedFq12 n) : M n (AssignedFq12 n) := do
  let c0 ← fq6_add info a.c0 b.c0
  let c1 ← fq6_add info a.c1 b.c1
  pure ⟨c0, c1⟩

/-- `fq12_mul`, `src/circuit/fq12.rs:316-330`. -/
def fq12_mul (info : RangeInfo n) (crv : PairingCurve) (a b : AssignedFq12 n) : M n (AssignedFq12 n) := do
  let ab00 ← fq6_mul info crv a.c0 b.c0
  let ab11 ← fq6_mul info crv a.c1 b.c1
  let a01 ← fq6_add info a.c0 a.c1
  let b01 ← fq6_add info b.c0 b.c1
  let c1 ← fq6_mul info crv a01 b01
  let c1 ← fq6_sub info c1 ab00
  let c1 ← fq6_sub info c1 ab11
  let ab11 ← fq6_mul_by_nonresidue info crv ab11
  let c0 ← fq6_add info ab00 ab11
  pure ⟨c0, c1⟩

/-- `fq12_sub`, `src/circuit/fq12.rs:331-333`. -/
def fq12_sub (info : RangeInfo n) (a b : AssignedFq12 n) : M n (AssignedFq12 n) := do
  let c0 ← fq6_sub info a.c0 b.c0
  let c1 ← fq6_sub info a.c1 b.c1
  pure ⟨c0, c1⟩

/-- `fq12_double`, `src/circuit/fq12.rs:334-336`. -/
def fq12_double (info : RangeInfo n) (a : AssignedFq12 n) : M n (AssignedFq12 n) := do
  let c0 ← fq6_double info a.c0
  let c1 ← fq6_double info a.c1
  pure ⟨c0, c1⟩

/-- `fq12_square`, `src/circuit/fq12.rs:337-339`. -/
def fq12_square (info : RangeInfo n) (crv : PairingCurve) (a : AssignedFq12 n) : M n (AssignedFq12 n) :=
  fq12_mul info crv a a

/-- `fq12_neg`, `src/circuit/fq12.rs:340-342`. -/
def fq12_neg (info : RangeInfo n) (a : AssignedFq12 n) : M n (AssignedFq12 n) := do
  let c0 ← fq6_neg info a.c0
  let c1 ← fq6_neg info a.c1
  pure ⟨c0, c1⟩

/-- `fq12_conjugate`, `src/circuit/fq12.rs:343-345`. -/
def fq12_conjugate (info : RangeInfo n) (x : AssignedFq12 n) : M n (AssignedFq12 n) := do
  let c1 ← fq6_neg info x.c1
  pure ⟨x.c0, c1⟩

/-- `fq12_mul_by_014`, `src/circuit/fq12.rs:346-366`. -/
def fq12_mul_by_014 (info : RangeInfo n) (crv : PairingCurve) (x : AssignedFq12 n) (c0 c1 c4 : AssignedFq2 n) :
    M n (AssignedFq12 n) := do
  let t0 ← fq6_mul_by_01 info crv x.c0 c0 c1
  let t1 ← fq6_mul_by_1 info crv x.c1 c4
  let o ← fq2_add info c1 c4
  let x0 ← fq6_mul_by_nonresidue info crv t1
  let x0 ← fq6_add info x0 t0
  let x1 ← fq6_add info x.c0 x.c1
  let x1 ← fq6_mul_by_01 info crv x1 c0 o
  let x1 ← fq6_sub info x1 t0
  let x1 ← fq6_sub info x1 t1
  pure ⟨x0, x1⟩

/-- `fq12_mul_by_034`, `src/circuit/fq12.rs:367-388`. -/
def fq12_mul_by_034 (info : RangeInfo n) (crv : PairingCurve) (x : AssignedFq12 n) (c0 c3 c4 : AssignedFq2 n) :
    M n (AssignedFq12 n) := do
  let t00 ← fq2_mul info x.c0.c0 c0
  let t01 ← fq2_mul info x.c0.c1 c0
  let t02 ← fq2_mul info x.c0.c2 c0
  let t0 : AssignedFq6 n := ⟨t00, t01, t02⟩
  let t1 ← fq6_mul_by_01 info crv x.c1 c3 c4
  let t2 ← fq6_add info x.c0 x.c1
  let o ← fq2_add info c0 c3
  let t2 ← fq6_mul_by_01 info crv t2 o c4
  let t2 ← fq6_sub info t2 t0
  let x1 ← fq6_sub info t2 t1
  let t1 ← fq6_mul_by_nonresidue info crv t1
  let x0 ← fq6_add info t0 t1
  pure ⟨x0, x1⟩

/-- `fp4_square`, `src/circuit/fq12.rs:389-404`. The out parameters `c0`, `c1` are returned. -/
def fp4_square (info : RangeInfo n) (crv : PairingCurve) (a0 a1 : AssignedFq2 n) :
    M n (AssignedFq2 n × AssignedFq2 n) := do
  let t0 ← fq2_square info a0
  let t1 ← fq2_square info a1
  let t2 ← fq2_mul_by_nonresidue info crv t1
  let c0 ← fq2_add info t2 t0
  let t2 ← fq2_add info a0 a1
  let t2 ← fq2_square info t2
  let t2 ← fq2_sub info t2 t0
  let c1 ← fq2_sub info t2 t1
  pure (c0, c1)

/-- `fq12_cyclotomic_square`, `src/circuit/fq12.rs:405-440`. -/
def fq12_cyclotomic_square (info : RangeInfo n) (crv : PairingCurve) (x : AssignedFq12 n) : M n (AssignedFq12 n) := do
  let _zero ← fq2_assign_zero info
  let (t3, t4) ← fp4_square info crv x.c0.c0 x.c1.c1
  let t2 ← fq2_sub info t3 x.c0.c0
  let t2 ← fq2_double info t2
  let c00 ← fq2_add info t2 t3
  let t2 ← fq2_add info t4 x.c1.c1
  let t2 ← fq2_double info t2
  let c11 ← fq2_add info t2 t4
  let (t3, t4) ← fp4_square info crv x.c1.c0 x.c0.c2
  let (t5, t6) ← fp4_square info crv x.c0.c1 x.c1.c2
  let t2 ← fq2_sub info t3 x.c0.c1
  let t2 ← fq2_double info t2
  let c01 ← fq2_add info t2 t3
  let t2 ← fq2_add info t4 x.c1.c2
  let t2 ← fq2_double info t2
  let c12 ← fq2_add info t2 t4
  let t3 ← fq2_mul_by_nonresidue info crv t6
  let t2 ← fq2_add info t3 x.c1.c0
  let t2 ← fq2_double info t2
  let c10 ← fq2_add info t2 t3
  let t2 ← fq2_sub info t5 x.c0.c2
  let t2 ← fq2_double info t2
  let c02 ← fq2_add info t2 t5
  pure ⟨⟨c00, c01, c02⟩, ⟨c10, c11, c12⟩⟩

/-- `fq12_unsafe_invert`, `src/circuit/fq12.rs:441-452`. -/
def fq12_unsafe_invert (info : RangeInfo n) (crv : PairingCurve) (x : AssignedFq12 n) : M n (AssignedFq12 n) := do
  let x0s ← fq6_square info crv x.c0
  let x1s ← fq6_square info crv x.c1
  let t ← fq6_mul_by_nonresidue info crv x1s
  let t ← fq6_sub info x0s t
  let t ← fq6_unsafe_invert info crv t
  let c0 ← fq6_mul info crv t x.c0
  let c1 ← fq6_mul info crv t x.c1
  let c1 ← fq6_neg info c1
  pure ⟨c0, c1⟩

/-- `fq12_assign_constant`, `src/circuit/fq12.rs:453-458`. -/
def fq12_assign_constant (info : RangeInfo n)
    (c : ((ℕ × ℕ) × (ℕ × ℕ) × (ℕ × ℕ)) × ((ℕ × ℕ) × (ℕ × ℕ) × (ℕ × ℕ))) : M n (AssignedFq12 n) := do
  let c0 ← fq6_assign_constant info c.1
  let c1 ← fq6_assign_constant info c.2
  pure ⟨c0, c1⟩

end Verif
