import Verif.Spec.ApiStore

/-! # Calls of the tower, of the pairing chips and of the Keccak chip -/

namespace Verif
variable {n : ℕ}

/-- A call of the tower, of a pairing chip or of the Keccak chip. Natural numbers refer to objects or are constants. The
last ones take objects apart and put them together: their fields are public. -/
inductive TowerCall where
  | fq2_reduce (a : ℕ)
  | fq2_assert_equal (a : ℕ) (b : ℕ)
  | fq2_assign_zero 
  | fq2_assign_one 
  | fq2_assign_constant (a : ℕ × ℕ)
  | fq2_add (a : ℕ) (b : ℕ)
  | fq2_mul (a : ℕ) (b : ℕ)
  | fq2_sub (a : ℕ) (b : ℕ)
  | fq2_double (a : ℕ)
  | fq2_square (a : ℕ)
  | fq2_neg (a : ℕ)
  | fq2_conjugate (a : ℕ)
  | fq2_unsafe_invert (a : ℕ)
  | fq2_mul_by_nonresidue (a : PairingCurve) (b : ℕ)
  | fq2_frobenius_map (a : PairingCurve) (b : ℕ) (c : ℕ)
  | fq6_reduce (a : ℕ)
  | fq6_assert_equal (a : ℕ) (b : ℕ)
  | fq6_assign_zero 
  | fq6_assign_one 
  | fq6_assign_constant (a : (ℕ × ℕ) × (ℕ × ℕ) × (ℕ × ℕ))
  | fq6_add (a : ℕ) (b : ℕ)
  | fq6_mul (a : PairingCurve) (b : ℕ) (c : ℕ)
  | fq6_sub (a : ℕ) (b : ℕ)
  | fq6_double (a : ℕ)
  | fq6_square (a : PairingCurve) (b : ℕ)
  | fq6_neg (a : ℕ)
  | fq6_unsafe_invert (a : PairingCurve) (b : ℕ)
  | fq6_mul_by_nonresidue (a : PairingCurve) (b : ℕ)
  | fq6_frobenius_map (a : PairingCurve) (b : ℕ) (c : ℕ)
  | fq12_reduce (a : ℕ)
  | fq12_assert_eq (a : ℕ) (b : ℕ)
  | fq12_assign_zero 
  | fq12_assign_one 
  | fq12_assert_one (a : ℕ)
  | fq12_assign_constant (a : ((ℕ × ℕ) × (ℕ × ℕ) × (ℕ × ℕ)) × ((ℕ × ℕ) × (ℕ × ℕ) × (ℕ × ℕ)))
  | fq12_add (a : ℕ) (b : ℕ)
  | fq12_mul (a : PairingCurve) (b : ℕ) (c : ℕ)
  | fq12_sub (a : ℕ) (b : ℕ)
  | fq12_double (a : ℕ)
  | fq12_square (a : PairingCurve) (b : ℕ)
  | fq12_neg (a : ℕ)
  | fq12_conjugate (a : ℕ)
  | fq12_unsafe_invert (a : PairingCurve) (b : ℕ)
  | fq12_frobenius_map (a : PairingCurve) (b : ℕ) (c : ℕ)
  | fq6_mul_by_1 (a : PairingCurve) (b : ℕ) (c : ℕ)
  | fq6_mul_by_01 (a : PairingCurve) (b : ℕ) (c : ℕ) (d : ℕ)
  | fq12_mul_by_014 (a : PairingCurve) (b : ℕ) (c : ℕ) (d : ℕ) (e : ℕ)
  | fq12_mul_by_034 (a : PairingCurve) (b : ℕ) (c : ℕ) (d : ℕ) (e : ℕ)
  | fq12_cyclotomic_square (a : PairingCurve) (b : ℕ)
  | g2_neg (a : ℕ)
  | prepare_g2 (a : PairingCurve) (b : ℕ)
  | multi_miller_loop (a : PairingCurve) (b : List (ℕ × ℕ))
  | final_exponentiation (a : PairingCurve) (b : ℕ)
  | pairing (a : PairingCurve) (b : List (ℕ × ℕ))
  | check_pairing (a : PairingCurve) (b : List (ℕ × ℕ))
  | keccak_hash (a : List ℕ)
  | decompose_scalar_as_u256_be (a : ℕ)
  | compose_to_scalar_be (a : List ℕ)
  | fq2_parts (a : ℕ)
  | fq6_parts (a : ℕ)
  | fq12_parts (a : ℕ)
  | g2_parts (a : ℕ)
  | mk_fq2 (a b : ℕ)
  | mk_fq6 (a b c : ℕ)
  | mk_fq12 (a b : ℕ)
  | mk_g2 (x y z : ℕ)

/-- The effect of a call. The curve is fixed by the type of the context; here any may be chosen. -/
def runTowerCall (A : Api n) (σ : Store n) : TowerCall → M n (Store n)
  | .fq2_reduce a => do
    let a ← index σ.f2 a
    let r ← fq2_reduce A.info a
    pure (σ.pushQ r)
  | .fq2_assert_equal a b => do
    let a ← index σ.f2 a
    let b ← index σ.f2 b
    fq2_assert_equal A.info a b
    pure σ
  | .fq2_assign_zero  => do
    let r ← fq2_assign_zero A.info
    pure (σ.pushQ r)
  | .fq2_assign_one  => do
    let r ← fq2_assign_one A.info
    pure (σ.pushQ r)
  | .fq2_assign_constant a => do
    let r ← fq2_assign_constant A.info a
    pure (σ.pushQ r)
  | .fq2_add a b => do
    let a ← index σ.f2 a
    let b ← index σ.f2 b
    let r ← fq2_add A.info a b
    pure (σ.pushQ r)
  | .fq2_mul a b => do
    let a ← index σ.f2 a
    let b ← index σ.f2 b
    let r ← fq2_mul A.info a b
    pure (σ.pushQ r)
  | .fq2_sub a b => do
    let a ← index σ.f2 a
    let b ← index σ.f2 b
    let r ← fq2_sub A.info a b
    pure (σ.pushQ r)
  | .fq2_double a => do
    let a ← index σ.f2 a
    let r ← fq2_double A.info a
    pure (σ.pushQ r)
  | .fq2_square a => do
    let a ← index σ.f2 a
    let r ← fq2_square A.info a
    pure (σ.pushQ r)
  | .fq2_neg a => do
    let a ← index σ.f2 a
    let r ← fq2_neg A.info a
    pure (σ.pushQ r)
  | .fq2_conjugate a => do
    let a ← index σ.f2 a
    let r ← fq2_conjugate A.info a
    pure (σ.pushQ r)
  | .fq2_unsafe_invert a => do
    let a ← index σ.f2 a
    let r ← fq2_unsafe_invert A.info a
    pure (σ.pushQ r)
  | .fq2_mul_by_nonresidue a b => do
    let b ← index σ.f2 b
    let r ← fq2_mul_by_nonresidue A.info a b
    pure (σ.pushQ r)
  | .fq2_frobenius_map a b c => do
    let b ← index σ.f2 b
    let r ← fq2_frobenius_map A.info a b c
    pure (σ.pushQ r)
  | .fq6_reduce a => do
    let a ← index σ.f6 a
    let r ← fq6_reduce A.info a
    pure (σ.pushS r)
  | .fq6_assert_equal a b => do
    let a ← index σ.f6 a
    let b ← index σ.f6 b
    fq6_assert_equal A.info a b
    pure σ
  | .fq6_assign_zero  => do
    let r ← fq6_assign_zero A.info
    pure (σ.pushS r)
  | .fq6_assign_one  => do
    let r ← fq6_assign_one A.info
    pure (σ.pushS r)
  | .fq6_assign_constant a => do
    let r ← fq6_assign_constant A.info a
    pure (σ.pushS r)
  | .fq6_add a b => do
    let a ← index σ.f6 a
    let b ← index σ.f6 b
    let r ← fq6_add A.info a b
    pure (σ.pushS r)
  | .fq6_mul a b c => do
    let b ← index σ.f6 b
    let c ← index σ.f6 c
    let r ← fq6_mul A.info a b c
    pure (σ.pushS r)
  | .fq6_sub a b => do
    let a ← index σ.f6 a
    let b ← index σ.f6 b
    let r ← fq6_sub A.info a b
    pure (σ.pushS r)
  | .fq6_double a => do
    let a ← index σ.f6 a
    let r ← fq6_double A.info a
    pure (σ.pushS r)
  | .fq6_square a b => do
    let b ← index σ.f6 b
    let r ← fq6_square A.info a b
    pure (σ.pushS r)
  | .fq6_neg a => do
    let a ← index σ.f6 a
    let r ← fq6_neg A.info a
    pure (σ.pushS r)
  | .fq6_unsafe_invert a b => do
    let b ← index σ.f6 b
    let r ← fq6_unsafe_invert A.info a b
    pure (σ.pushS r)
  | .fq6_mul_by_nonresidue a b => do
    let b ← index σ.f6 b
    let r ← fq6_mul_by_nonresidue A.info a b
    pure (σ.pushS r)
  | .fq6_frobenius_map a b c => do
    let b ← index σ.f6 b
    let r ← fq6_frobenius_map A.info a b c
    pure (σ.pushS r)
  | .fq12_reduce a => do
    let a ← index σ.f12 a
    let r ← fq12_reduce A.info a
    pure (σ.pushT r)
  | .fq12_assert_eq a b => do
    let a ← index σ.f12 a
    let b ← index σ.f12 b
    fq12_assert_eq A.info a b
    pure σ
  | .fq12_assign_zero  => do
    let r ← fq12_assign_zero A.info
    pure (σ.pushT r)
  | .fq12_assign_one  => do
    let r ← fq12_assign_one A.info
    pure (σ.pushT r)
  | .fq12_assert_one a => do
    let a ← index σ.f12 a
    fq12_assert_one A.info a
    pure σ
  | .fq12_assign_constant a => do
    let r ← fq12_assign_constant A.info a
    pure (σ.pushT r)
  | .fq12_add a b => do
    let a ← index σ.f12 a
    let b ← index σ.f12 b
    let r ← fq12_add A.info a b
    pure (σ.pushT r)
  | .fq12_mul a b c => do
    let b ← index σ.f12 b
    let c ← index σ.f12 c
    let r ← fq12_mul A.info a b c
    pure (σ.pushT r)
  | .fq12_sub a b => do
    let a ← index σ.f12 a
    let b ← index σ.f12 b
    let r ← fq12_sub A.info a b
    pure (σ.pushT r)
  | .fq12_double a => do
    let a ← index σ.f12 a
    let r ← fq12_double A.info a
    pure (σ.pushT r)
  | .fq12_square a b => do
    let b ← index σ.f12 b
    let r ← fq12_square A.info a b
    pure (σ.pushT r)
  | .fq12_neg a => do
    let a ← index σ.f12 a
    let r ← fq12_neg A.info a
    pure (σ.pushT r)
  | .fq12_conjugate a => do
    let a ← index σ.f12 a
    let r ← fq12_conjugate A.info a
    pure (σ.pushT r)
  | .fq12_unsafe_invert a b => do
    let b ← index σ.f12 b
    let r ← fq12_unsafe_invert A.info a b
    pure (σ.pushT r)
  | .fq12_frobenius_map a b c => do
    let b ← index σ.f12 b
    let r ← fq12_frobenius_map A.info a b c
    pure (σ.pushT r)
  | .fq6_mul_by_1 a b c => do
    let b ← index σ.f6 b
    let c ← index σ.f2 c
    let r ← fq6_mul_by_1 A.info a b c
    pure (σ.pushS r)
  | .fq6_mul_by_01 a b c d => do
    let b ← index σ.f6 b
    let c ← index σ.f2 c
    let d ← index σ.f2 d
    let r ← fq6_mul_by_01 A.info a b c d
    pure (σ.pushS r)
  | .fq12_mul_by_014 a b c d e => do
    let b ← index σ.f12 b
    let c ← index σ.f2 c
    let d ← index σ.f2 d
    let e ← index σ.f2 e
    let r ← fq12_mul_by_014 A.info a b c d e
    pure (σ.pushT r)
  | .fq12_mul_by_034 a b c d e => do
    let b ← index σ.f12 b
    let c ← index σ.f2 c
    let d ← index σ.f2 d
    let e ← index σ.f2 e
    let r ← fq12_mul_by_034 A.info a b c d e
    pure (σ.pushT r)
  | .fq12_cyclotomic_square a b => do
    let b ← index σ.f12 b
    let r ← fq12_cyclotomic_square A.info a b
    pure (σ.pushT r)
  | .g2_neg a => do
    let a ← index σ.g2 a
    let r ← g2_neg A.info a
    pure (σ.pushG r)
  | .prepare_g2 a b => do
    let b ← index σ.g2 b
    let r ← prepare_g2 A.info a b
    pure (σ.pushL r)
  | .multi_miller_loop a b => do
    let b ← b.mapM σ.lineTerm
    let r ← multi_miller_loop A.info a b
    pure (σ.pushT r)
  | .final_exponentiation a b => do
    let b ← index σ.f12 b
    let r ← final_exponentiation A.info a b
    pure (σ.pushT r)
  | .pairing a b => do
    let b ← b.mapM σ.pairTerm
    let r ← pairing A.info a b
    pure (σ.pushT r)
  | .check_pairing a b => do
    let b ← b.mapM σ.pairTerm
    check_pairing A.info a b
    pure σ
  | .keccak_hash a => do
    let a ← a.mapM (index σ.v)
    let r ← keccak_hash a
    pure (σ.pushV r)
  | .decompose_scalar_as_u256_be a => do
    let a ← index σ.v a
    let r ← decompose_scalar_as_u256_be a
    pure (σ.pushVs r)
  | .compose_to_scalar_be a => do
    let a ← a.mapM (index σ.v)
    let r ← compose_to_scalar_be a
    pure (σ.pushV r)
  | .fq2_parts a => do
    let a ← index σ.f2 a
    pure ((σ.pushI a.1).pushI a.2)
  | .fq6_parts a => do
    let a ← index σ.f6 a
    pure (((σ.pushQ a.c0).pushQ a.c1).pushQ a.c2)
  | .fq12_parts a => do
    let a ← index σ.f12 a
    pure ((σ.pushS a.c0).pushS a.c1)
  | .g2_parts a => do
    let a ← index σ.g2 a
    pure (((σ.pushQ a.x).pushQ a.y).pushV a.z)
  | .mk_fq2 a b => do
    let a ← index σ.i a
    let b ← index σ.i b
    pure (σ.pushQ (a, b))
  | .mk_fq6 a b c => do
    let a ← index σ.f2 a
    let b ← index σ.f2 b
    let c ← index σ.f2 c
    pure (σ.pushS ⟨a, b, c⟩)
  | .mk_fq12 a b => do
    let a ← index σ.f6 a
    let b ← index σ.f6 b
    pure (σ.pushT ⟨a, b⟩)
  | .mk_g2 x y z => do
    let x ← index σ.f2 x
    let y ← index σ.f2 y
    let z ← index σ.v z
    pure (σ.pushG ⟨x, y, z⟩)

end Verif
