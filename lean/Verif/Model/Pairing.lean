import Verif.Model.Fq12
import Verif.Model.Bn256Constants

/-!
# Pairings

Model of `src/circuit/pairing_chip.rs`, `src/circuit/bn256_pairing_chip.rs` and
`src/circuit/bls12_381_pairing_chip.rs`. Mutable references are returned together with the result.
-/

namespace Verif
variable {n : ℕ}

/-- `AssignedG2Affine`, `src/assign.rs:172-177`. -/
structure AssignedG2Affine (n : ℕ) where
  x : AssignedFq2 n
  y : AssignedFq2 n
  z : AssignedCondition n

/-- `AssignedG2` (Jacobian coordinates), `src/assign.rs:194-199`. -/
structure AssignedG2 (n : ℕ) where
  x : AssignedFq2 n
  y : AssignedFq2 n
  z : AssignedFq2 n

/-- `[AssignedFq2<C::Base, N>; 3]`, the coefficients of a line. -/
structure LineCoeffs (n : ℕ) where
  c0 : AssignedFq2 n
  c1 : AssignedFq2 n
  c2 : AssignedFq2 n

/-! ## Frobenius maps -/

/-- `BigUint::from_bytes_le`. -/
def from_bytes_le : List ℕ → ℕ
  | [] => 0
  | b :: bs => b + 256 * from_bytes_le bs

/-- `bn_to_field(&BigUint::from_bytes_le(&bytes))` with the base field as target, `src/utils.rs:10-17`: the number is
reduced modulo the modulus. -/
def field_const (info : RangeInfo n) (bytes : List ℕ) : ℕ := from_bytes_le bytes % info.w_modulus

/-- `FROBENIUS_..[k]` of a table of pairs of byte strings, converted. -/
def field_const2 (info : RangeInfo n) (table : List (List (List ℕ))) (k : ℕ) : ℕ × ℕ :=
  let c := (table[k]?).getD []
  (field_const info ((c[0]?).getD []), field_const info ((c[1]?).getD []))

/-- Modulus of the base field of bls12_381, and the inverse of the Montgomery factor `2^384` modulo it (external crate
`halo2_proofs::pairing::bls12_381`). -/
def blsModulus : ℕ :=
  0x1a0111ea397fe69a4b1ba7b6434bacd764774b84f38512bf6730d2a0f6b0f6241eabfffeb153ffffb9feffffffffaaab

/-- See `blsModulus`. -/
def blsMontInv : ℕ := 
  0x14fec701e8fb0ce9ed5e64273c4f538b1797ab1458a88de9343ea97914956dc87fe11274d898fafbf4d38259380b4820

/-- `Fq::from_raw_unchecked` of bls12_381: six 64-bit limbs, least significant first, of a number in Montgomery form. -/
def from_raw_unchecked (limbs : List ℕ) : ℕ :=
  (limbs.foldr (fun l acc => l + 2 ^ 64 * acc) 0) * blsMontInv % blsModulus

/-- `fq2_frobenius_map`, `src/circuit/bn256_pairing_chip.rs:46-53` and `src/circuit/bls12_381_pairing_chip.rs:39-41`. -/
def fq2_frobenius_map (info : RangeInfo n) (crv : PairingCurve) (x : AssignedFq2 n) (power : ℕ) :
    M n (AssignedFq2 n) :=
  match crv with
  | .bn256 => do
    let v ← assign_int_constant info (field_const info ((FROBENIUS_COEFF_FQ2_C1[power % 2]?).getD []))
    let c1 ← int_mul info x.2 v
    pure (x.1, c1)
  | .bls12_381 => fq2_conjugate info x

/-- The constants of `fq6_frobenius_map`, `src/circuit/bn256_pairing_chip.rs:68-74` and
`src/circuit/bls12_381_pairing_chip.rs:56-78`. -/
def frobenius_coeff6 (info : RangeInfo n) (crv : PairingCurve) (power : ℕ) : (ℕ × ℕ) × (ℕ × ℕ) :=
  match crv with
  | .bn256 => (field_const2 info FROBENIUS_COEFF_FQ6_C1 (power % 6), field_const2 info FROBENIUS_COEFF_FQ6_C2 (power % 6))
  | .bls12_381 =>
    ((0, from_raw_unchecked [0xcd03c9e48671f071, 0x5dab22461fcda5d2, 0x587042afd3851b95, 0x8eb60ebe01bacb9e,
        0x03f97d6e83d050d2, 0x18f0206554638741]),
     (from_raw_unchecked [0x890dc9e4867545c3, 0x2af322533285a5d5, 0x50880866309b7e2c, 0xa20d1b8c7e881024,
        0x14e4f04fe2db9068, 0x14e56d3f1564853a], 0))

/-- The constant of `fq12_frobenius_map`, `src/circuit/bn256_pairing_chip.rs:88-90` and
`src/circuit/bls12_381_pairing_chip.rs:92-109`. -/
def frobenius_coeff12 (info : RangeInfo n) (crv : PairingCurve) (power : ℕ) : ℕ × ℕ :=
  match crv with
  | .bn256 => field_const2 info FROBENIUS_COEFF_FQ12_C1 (power % 12)
  | .bls12_381 =>
    (from_raw_unchecked [0x07089552b319d465, 0xc6695f92b50a8313, 0x97e83cccd117228f, 0xa35baecab2dc29ee,
        0x1ce393ea5daace4d, 0x08f2220fb0fb66eb],
     from_raw_unchecked [0xb2f66aad4ce5d646, 0x5842a06bfc497cec, 0xcf4895d42599d394, 0xc11b9cba40a8e8d0,
        0x2e3813cbe5a0de89, 0x110eefda88847faf])

/-- `fq6_frobenius_map`, `src/circuit/bn256_pairing_chip.rs:63-78` and `src/circuit/bls12_381_pairing_chip.rs:51-82`. -/
def fq6_frobenius_map (info : RangeInfo n) (crv : PairingCurve) (x : AssignedFq6 n) (power : ℕ) :
    M n (AssignedFq6 n) := do
  let c0 ← fq2_frobenius_map info crv x.c0 power
  let c1 ← fq2_frobenius_map info crv x.c1 power
  let c2 ← fq2_frobenius_map info crv x.c2 power
  let coeff_c1 ← fq2_assign_constant info (frobenius_coeff6 info crv power).1
  let c1 ← fq2_mul info c1 coeff_c1
  let coeff_c2 ← fq2_assign_constant info (frobenius_coeff6 info crv power).2
  let c2 ← fq2_mul info c2 coeff_c2
  pure ⟨c0, c1, c2⟩

/-- `fq12_frobenius_map`, `src/circuit/bn256_pairing_chip.rs:84-96` and
`src/circuit/bls12_381_pairing_chip.rs:88-115`. -/
def fq12_frobenius_map (info : RangeInfo n) (crv : PairingCurve) (x : AssignedFq12 n) (power : ℕ) :
    M n (AssignedFq12 n) := do
  let c0 ← fq6_frobenius_map info crv x.c0 power
  let c1 ← fq6_frobenius_map info crv x.c1 power
  let coeff ← fq2_assign_constant info (frobenius_coeff12 info crv power)
  let c1c0 ← fq2_mul info c1.c0 coeff
  let c1c1 ← fq2_mul info c1.c1 coeff
  let c1c2 ← fq2_mul info c1.c2 coeff
  pure ⟨c0, ⟨c1c0, c1c1, c1c2⟩⟩

/-! ## Line steps, `src/circuit/pairing_chip.rs` -/

/-- `doubling_step`, `src/circuit/pairing_chip.rs:13-76`. -/
def doubling_step (info : RangeInfo n) (pt : AssignedG2 n) : M n (LineCoeffs n × AssignedG2 n) := do
  let x2 ← fq2_square info pt.x
  let y2 ← fq2_square info pt.y
  let _2y2 ← fq2_double info y2
  let _4y2 ← fq2_double info _2y2
  let _4y4 ← fq2_square info _2y2
  let _8y4 ← fq2_double info _4y4
  let z2 ← fq2_square info pt.z
  let t ← fq2_mul info y2 pt.x
  let t ← fq2_double info t
  let _4xy2 ← fq2_double info t
  let t ← fq2_double info x2
  let _3x2 ← fq2_add info t x2
  let _6x2 ← fq2_double info _3x2
  let _9x4 ← fq2_square info _3x2
  let _3x2_x ← fq2_add info _3x2 pt.x
  let t ← fq2_sub info _9x4 _4xy2
  let rx ← fq2_sub info t _4xy2
  let t ← fq2_sub info _4xy2 rx
  let t ← fq2_mul info t _3x2
  let ry ← fq2_sub info t _8y4
  let yz ← fq2_mul info pt.y pt.z
  let rz ← fq2_double info yz
  let t ← fq2_mul info z2 rz
  let c0 ← fq2_double info t
  let _6x2z2 ← fq2_mul info z2 _6x2
  let c1 ← fq2_neg info _6x2z2
  let _6x3 ← fq2_mul info _6x2 pt.x
  let c2 ← fq2_sub info _6x3 _4y2
  pure (⟨c0, c1, c2⟩, ⟨rx, ry, rz⟩)

/-- `addition_step`, `src/circuit/pairing_chip.rs:78-133`. -/
def addition_step (info : RangeInfo n) (pt : AssignedG2 n) (pq : AssignedG2Affine n) :
    M n (LineCoeffs n × AssignedG2 n) := do
  let zt2 ← fq2_square info pt.z
  let yqzt ← fq2_mul info pq.y pt.z
  let yqzt3 ← fq2_mul info yqzt zt2
  let yqzt3_yt ← fq2_sub info yqzt3 pt.y
  let _2yqzt3_2yt ← fq2_double info yqzt3_yt
  let xqzt2 ← fq2_mul info pq.x zt2
  let xqzt2_xt ← fq2_sub info xqzt2 pt.x
  let _2_xqzt2_xt ← fq2_double info xqzt2_xt
  let _4_xqzt2_xt_2 ← fq2_square info _2_xqzt2_xt
  let t0 ← fq2_mul info _4_xqzt2_xt_2 xqzt2_xt
  let t1 ← fq2_double info _4_xqzt2_xt_2
  let t2 ← fq2_mul info t1 pt.x
  let t ← fq2_square info _2yqzt3_2yt
  let t ← fq2_sub info t t0
  let rx ← fq2_sub info t t2
  let t0 ← fq2_mul info _4_xqzt2_xt_2 pt.x
  let t0 ← fq2_sub info t0 rx
  let t0 ← fq2_mul info _2yqzt3_2yt t0
  let t1 ← fq2_mul info _2_xqzt2_xt _4_xqzt2_xt_2
  let t1 ← fq2_mul info t1 pt.y
  let ry ← fq2_sub info t0 t1
  let rz ← fq2_mul info pt.z _2_xqzt2_xt
  let c0 ← fq2_double info rz
  let t ← fq2_double info _2yqzt3_2yt
  let c1 ← fq2_neg info t
  let t0 ← fq2_double info _2yqzt3_2yt
  let t0 ← fq2_mul info t0 pq.x
  let t1 ← fq2_mul info pq.y rz
  let t1 ← fq2_double info t1
  let c2 ← fq2_sub info t0 t1
  pure (⟨c0, c1, c2⟩, ⟨rx, ry, rz⟩)

/-- `g2affine_to_g2`, `src/circuit/pairing_chip.rs:135-141`. -/
def g2affine_to_g2 (info : RangeInfo n) (g2 : AssignedG2Affine n) : M n (AssignedG2 n) := do
  assert_false g2.z
  let z ← fq2_assign_one info
  pure ⟨g2.x, g2.y, z⟩

/-- `g2_neg`, `src/circuit/pairing_chip.rs:143-146`. -/
def g2_neg (info : RangeInfo n) (g2 : AssignedG2Affine n) : M n (AssignedG2Affine n) := do
  let y ← fq2_neg info g2.y
  pure ⟨g2.x, y, g2.z⟩

/-- `ell`, `src/circuit/bn256_pairing_chip.rs:157-174` and `src/circuit/bls12_381_pairing_chip.rs:123-140`. -/
def ell (info : RangeInfo n) (crv : PairingCurve) (f : AssignedFq12 n) (coeffs : LineCoeffs n) (p : AssignedPoint n) :
    M n (AssignedFq12 n) := do
  let c00 ← int_mul info coeffs.c0.1 p.y
  let c01 ← int_mul info coeffs.c0.2 p.y
  let c10 ← int_mul info coeffs.c1.1 p.x
  let c11 ← int_mul info coeffs.c1.2 p.x
  match crv with
  | .bn256 => fq12_mul_by_034 info crv f (c00, c01) (c10, c11) coeffs.c2
  | .bls12_381 => fq12_mul_by_014 info crv f coeffs.c2 (c10, c11) (c00, c01)

/-- The loop `for &mut (p, ref mut coeffs) in &mut pairs { f = self.ell(&f, coeffs.next().unwrap(), &p); }`, occurring in
`src/circuit/bn256_pairing_chip.rs:196-198, 202-204, 207-209, 215-221` and
`src/circuit/bls12_381_pairing_chip.rs:214-216, 219-221, 227-229`. An iterator over coefficients is the list of those not
yet consumed. -/
def ell_pairs (info : RangeInfo n) (crv : PairingCurve) (f : AssignedFq12 n) :
    List (AssignedPoint n × List (LineCoeffs n)) →
      M n (AssignedFq12 n × List (AssignedPoint n × List (LineCoeffs n)))
  | [] => pure (f, [])
  | (p, coeffs) :: pairs => do
    let c ← unwrap coeffs.head?
    let f ← ell info crv f c p
    let (f, pairs) ← ell_pairs info crv f pairs
    pure (f, (p, coeffs.tail) :: pairs)

/-- The loop checking that no point is the identity, `src/circuit/bn256_pairing_chip.rs:184-188` and
`src/circuit/bls12_381_pairing_chip.rs:199-203`. -/
def assert_not_identity : List (AssignedPoint n × List (LineCoeffs n)) → M n Unit
  | [] => pure ()
  | (p, _) :: pairs => do
    assert_false p.z
    assert_not_identity pairs

/-! ## bn256 -/

/-- One iteration of the loop in `prepare_g2` of bn256, `src/circuit/bn256_pairing_chip.rs:114-124`, for the digit `x`. -/
def bn_prepare_step (info : RangeInfo n) (g2 neg_g2 : AssignedG2Affine n) (st : List (LineCoeffs n) × AssignedG2 n)
    (x : ℤ) : M n (List (LineCoeffs n) × AssignedG2 n) := do
  let (coeffs, r) := st
  let (c, r) ← doubling_step info r
  let coeffs := coeffs ++ [c]
  if x = 1 then do
    let (c, r) ← addition_step info r g2
    pure (coeffs ++ [c], r)
  else if x = -1 then do
    let (c, r) ← addition_step info r neg_g2
    pure (coeffs ++ [c], r)
  else pure (coeffs, r)

/-- The digits `SIX_U_PLUS_2_NAF[i - 1]` for `i` in `(1..SIX_U_PLUS_2_NAF.len()).rev()`. -/
def naf_digits : List ℤ := SIX_U_PLUS_2_NAF.dropLast.reverse

/-- `prepare_g2` of bn256, `src/circuit/bn256_pairing_chip.rs:104-155`. -/
def bn_prepare_g2 (info : RangeInfo n) (g2 : AssignedG2Affine n) : M n (List (LineCoeffs n)) := do
  let neg_g2 ← g2_neg info g2
  let r ← g2affine_to_g2 info g2
  let (coeffs, r) ← naf_digits.foldlM (bn_prepare_step info g2 neg_g2) ([], r)
  let c11 ← fq2_assign_constant info (field_const2 info FROBENIUS_COEFF_FQ6_C1 1)
  let c12 ← fq2_assign_constant info (field_const2 info FROBENIUS_COEFF_FQ6_C1 2)
  let xi ← fq2_assign_constant info (field_const info ((XI_TO_Q_MINUS_1_OVER_2[0]?).getD []),
    field_const info ((XI_TO_Q_MINUS_1_OVER_2[1]?).getD []))
  let q1x1 ← int_neg info g2.x.2
  let q1x ← fq2_mul info (g2.x.1, q1x1) c11
  let q1y1 ← int_neg info g2.y.2
  let q1y ← fq2_mul info (g2.y.1, q1y1) xi
  let (c, r) ← addition_step info r ⟨q1x, q1y, g2.z⟩
  let coeffs := coeffs ++ [c]
  let minusq2x ← fq2_mul info g2.x c12
  let (c, _) ← addition_step info r ⟨minusq2x, g2.y, g2.z⟩
  pure (coeffs ++ [c])

/-- The loop of `multi_miller_loop` of bn256, `src/circuit/bn256_pairing_chip.rs:192-213`; `first` says that
`i = SIX_U_PLUS_2_NAF.len() - 1`. -/
def bn_miller_loop (info : RangeInfo n) : Bool → AssignedFq12 n → List (AssignedPoint n × List (LineCoeffs n)) → List ℤ →
    M n (AssignedFq12 n × List (AssignedPoint n × List (LineCoeffs n)))
  | _, f, pairs, [] => pure (f, pairs)
  | first, f, pairs, x :: xs => do
    let f ← if first then pure f else fq12_square info .bn256 f
    let (f, pairs) ← ell_pairs info .bn256 f pairs
    let (f, pairs) ←
      if x = 1 then ell_pairs info .bn256 f pairs
      else if x = -1 then ell_pairs info .bn256 f pairs
      else pure (f, pairs)
    bn_miller_loop info false f pairs xs

/-- `multi_miller_loop` of bn256, `src/circuit/bn256_pairing_chip.rs:176-228`. -/
def bn_multi_miller_loop (info : RangeInfo n) (terms : List (AssignedPoint n × List (LineCoeffs n))) :
    M n (AssignedFq12 n) := do
  assert_not_identity terms
  let f ← fq12_assign_one info
  let (f, pairs) ← bn_miller_loop info true f terms naf_digits
  let (f, pairs) ← ell_pairs info .bn256 f pairs
  let (f, pairs) ← ell_pairs info .bn256 f pairs
  rassert (pairs.all fun p => p.2.isEmpty)
  pure f

/-- One iteration of `exp_by_x`, `src/circuit/bn256_pairing_chip.rs:234-237`. -/
def bn_exp_step (info : RangeInfo n) (f res : AssignedFq12 n) (bit : Bool) : M n (AssignedFq12 n) := do
  let res ← fq12_cyclotomic_square info .bn256 res
  if bit then fq12_mul info .bn256 res f else pure res

/-- `(x >> i) & 1 == 1` for `i` in `(0..64).rev()`. -/
def bits64 (x : ℕ) : List Bool := (List.range 64).reverse.map fun i => x.testBit i

/-- `exp_by_x`, `src/circuit/bn256_pairing_chip.rs:230-240`. -/
def bn_exp_by_x (info : RangeInfo n) (f : AssignedFq12 n) : M n (AssignedFq12 n) := do
  let res ← fq12_assign_one info
  (bits64 BN_X).foldlM (bn_exp_step info f) res

/-- `final_exponentiation` of bn256, `src/circuit/bn256_pairing_chip.rs:242-323`. -/
def bn_final_exponentiation (info : RangeInfo n) (f : AssignedFq12 n) : M n (AssignedFq12 n) := do
  let f1 ← fq12_conjugate info f
  let f2 ← fq12_unsafe_invert info .bn256 f
  let r ← fq12_mul info .bn256 f1 f2
  let f2 := r
  let r ← fq12_frobenius_map info .bn256 r 2
  let r ← fq12_mul info .bn256 r f2
  let fp ← fq12_frobenius_map info .bn256 r 1
  let fp2 ← fq12_frobenius_map info .bn256 r 2
  let fp3 ← fq12_frobenius_map info .bn256 fp2 1
  let fu ← bn_exp_by_x info r
  let fu2 ← bn_exp_by_x info fu
  let fu3 ← bn_exp_by_x info fu2
  let y3 ← fq12_frobenius_map info .bn256 fu 1
  let fu2p ← fq12_frobenius_map info .bn256 fu2 1
  let fu3p ← fq12_frobenius_map info .bn256 fu3 1
  let y2 ← fq12_frobenius_map info .bn256 fu2 2
  let y0 ← fq12_mul info .bn256 fp fp2
  let y0 ← fq12_mul info .bn256 y0 fp3
  let y1 ← fq12_conjugate info r
  let y5 ← fq12_conjugate info fu2
  let y3 ← fq12_conjugate info y3
  let y4 ← fq12_mul info .bn256 fu fu2p
  let y4 ← fq12_conjugate info y4
  let y6 ← fq12_mul info .bn256 fu3 fu3p
  let y6 ← fq12_conjugate info y6
  let y6 ← fq12_cyclotomic_square info .bn256 y6
  let y6 ← fq12_mul info .bn256 y6 y4
  let y6 ← fq12_mul info .bn256 y6 y5
  let t1 ← fq12_mul info .bn256 y3 y5
  let t1 ← fq12_mul info .bn256 t1 y6
  let y6 ← fq12_mul info .bn256 y6 y2
  let t1 ← fq12_cyclotomic_square info .bn256 t1
  let t1 ← fq12_mul info .bn256 t1 y6
  let t1 ← fq12_cyclotomic_square info .bn256 t1
  let t0 ← fq12_mul info .bn256 t1 y1
  let t1 ← fq12_mul info .bn256 t1 y0
  let t0 ← fq12_cyclotomic_square info .bn256 t0
  fq12_mul info .bn256 t0 t1

/-! ## bls12_381 -/

/-- `BLS_X`, `src/circuit/bls12_381_pairing_chip.rs:162`. -/
def BLS_X : ℕ := 0xd201000000010000

/-- One iteration of the loop of `prepare_g2` of bls12_381, `src/circuit/bls12_381_pairing_chip.rs:174-183`. The state is
`(found_one, coeffs, f)`. -/
def bls_prepare_step (info : RangeInfo n) (g2 : AssignedG2Affine n) (st : Bool × List (LineCoeffs n) × AssignedG2 n)
    (i : Bool) : M n (Bool × List (LineCoeffs n) × AssignedG2 n) := do
  let (found_one, coeffs, f) := st
  if !found_one then pure (i, coeffs, f)
  else do
    let (c, f) ← doubling_step info f
    let coeffs := coeffs ++ [c]
    if i then do
      let (c, f) ← addition_step info f g2
      pure (found_one, coeffs ++ [c], f)
    else pure (found_one, coeffs, f)

/-- `prepare_g2` of bls12_381, `src/circuit/bls12_381_pairing_chip.rs:165-189`. -/
def bls_prepare_g2 (info : RangeInfo n) (g2 : AssignedG2Affine n) : M n (List (LineCoeffs n)) := do
  let f ← g2affine_to_g2 info g2
  let (_, coeffs, f) ← (bits64 (BLS_X >>> 1)).foldlM (bls_prepare_step info g2) (false, [], f)
  let (c, _) ← doubling_step info f
  pure (coeffs ++ [c])

/-- The loop of `multi_miller_loop` of bls12_381, `src/circuit/bls12_381_pairing_chip.rs:208-225`. -/
def bls_miller_loop (info : RangeInfo n) : Bool → AssignedFq12 n → List (AssignedPoint n × List (LineCoeffs n)) →
    List Bool → M n (AssignedFq12 n × List (AssignedPoint n × List (LineCoeffs n)))
  | _, f, pairs, [] => pure (f, pairs)
  | found_one, f, pairs, i :: is =>
    if !found_one then bls_miller_loop info i f pairs is
    else do
      let (f, pairs) ← ell_pairs info .bls12_381 f pairs
      let (f, pairs) ← if i then ell_pairs info .bls12_381 f pairs else pure (f, pairs)
      let f ← fq12_square info .bls12_381 f
      bls_miller_loop info found_one f pairs is

/-- `multi_miller_loop` of bls12_381, `src/circuit/bls12_381_pairing_chip.rs:191-234`. -/
def bls_multi_miller_loop (info : RangeInfo n) (terms : List (AssignedPoint n × List (LineCoeffs n))) :
    M n (AssignedFq12 n) := do
  assert_not_identity terms
  let f ← fq12_assign_one info
  let (f, pairs) ← bls_miller_loop info false f terms (bits64 (BLS_X >>> 1))
  let (f, _) ← ell_pairs info .bls12_381 f pairs
  fq12_conjugate info f

/-- One iteration of `cycolotomic_exp`, `src/circuit/bls12_381_pairing_chip.rs:146-156`. The state is
`(found_one, tmp)`. -/
def bls_exp_step (info : RangeInfo n) (f : AssignedFq12 n) (st : Bool × AssignedFq12 n) (i : Bool) :
    M n (Bool × AssignedFq12 n) := do
  let (found_one, tmp) := st
  let (found_one, tmp) ←
    if found_one then do
      let tmp ← fq12_cyclotomic_square info .bls12_381 tmp
      pure (found_one, tmp)
    else pure (i, tmp)
  if i then do
    let tmp ← fq12_mul info .bls12_381 tmp f
    pure (found_one, tmp)
  else pure (found_one, tmp)

/-- `cycolotomic_exp`, `src/circuit/bls12_381_pairing_chip.rs:142-159`. -/
def bls_cyclotomic_exp (info : RangeInfo n) (f : AssignedFq12 n) : M n (AssignedFq12 n) := do
  let tmp ← fq12_assign_one info
  let (_, tmp) ← (bits64 BLS_X).foldlM (bls_exp_step info f) (false, tmp)
  fq12_conjugate info tmp

/-- `final_exponentiation` of bls12_381, `src/circuit/bls12_381_pairing_chip.rs:236-286`; the loops of lines 273 and 279
are unrolled. -/
def bls_final_exponentiation (info : RangeInfo n) (f : AssignedFq12 n) : M n (AssignedFq12 n) := do
  let t0 ← fq12_frobenius_map info .bls12_381 f 1
  let t0 ← fq12_frobenius_map info .bls12_381 t0 1
  let t0 ← fq12_frobenius_map info .bls12_381 t0 1
  let t0 ← fq12_frobenius_map info .bls12_381 t0 1
  let t0 ← fq12_frobenius_map info .bls12_381 t0 1
  let t0 ← fq12_frobenius_map info .bls12_381 t0 1
  let t1 ← fq12_unsafe_invert info .bls12_381 f
  let t2 ← fq12_mul info .bls12_381 t0 t1
  let t1 := t2
  let t2 ← fq12_frobenius_map info .bls12_381 t2 1
  let t2 ← fq12_frobenius_map info .bls12_381 t2 1
  let t2 ← fq12_mul info .bls12_381 t2 t1
  let t1 ← fq12_cyclotomic_square info .bls12_381 t2
  let t1 ← fq12_conjugate info t1
  let t3 ← bls_cyclotomic_exp info t2
  let t4 ← fq12_cyclotomic_square info .bls12_381 t3
  let t5 ← fq12_mul info .bls12_381 t1 t3
  let t1 ← bls_cyclotomic_exp info t5
  let t0 ← bls_cyclotomic_exp info t1
  let t6 ← bls_cyclotomic_exp info t0
  let t6 ← fq12_mul info .bls12_381 t6 t4
  let t4 ← bls_cyclotomic_exp info t6
  let t5 ← fq12_conjugate info t5
  let t ← fq12_mul info .bls12_381 t5 t2
  let t4 ← fq12_mul info .bls12_381 t4 t
  let t5 ← fq12_conjugate info t2
  let t1 ← fq12_mul info .bls12_381 t1 t2
  let t1 ← fq12_frobenius_map info .bls12_381 t1 1
  let t1 ← fq12_frobenius_map info .bls12_381 t1 1
  let t1 ← fq12_frobenius_map info .bls12_381 t1 1
  let t6 ← fq12_mul info .bls12_381 t6 t5
  let t6 ← fq12_frobenius_map info .bls12_381 t6 1
  let t3 ← fq12_mul info .bls12_381 t3 t0
  let t3 ← fq12_frobenius_map info .bls12_381 t3 1
  let t3 ← fq12_frobenius_map info .bls12_381 t3 1
  let t3 ← fq12_mul info .bls12_381 t3 t1
  let t3 ← fq12_mul info .bls12_381 t3 t6
  fq12_mul info .bls12_381 t3 t4

/-! ## The pairing check, `src/circuit/pairing_chip.rs:148-176` -/

/-- `prepare_g2`. -/
def prepare_g2 (info : RangeInfo n) : PairingCurve → AssignedG2Affine n → M n (List (LineCoeffs n))
  | .bn256 => bn_prepare_g2 info
  | .bls12_381 => bls_prepare_g2 info

/-- `multi_miller_loop`. -/
def multi_miller_loop (info : RangeInfo n) :
    PairingCurve → List (AssignedPoint n × List (LineCoeffs n)) → M n (AssignedFq12 n)
  | .bn256 => bn_multi_miller_loop info
  | .bls12_381 => bls_multi_miller_loop info

/-- `final_exponentiation`. -/
def final_exponentiation (info : RangeInfo n) : PairingCurve → AssignedFq12 n → M n (AssignedFq12 n)
  | .bn256 => bn_final_exponentiation info
  | .bls12_381 => bls_final_exponentiation info

/-- The first loop of `pairing`, `src/circuit/pairing_chip.rs:161-164`. -/
def prepare_terms (info : RangeInfo n) (crv : PairingCurve) :
    List (AssignedPoint n × AssignedG2Affine n) → M n (List (AssignedPoint n × List (LineCoeffs n)))
  | [] => pure []
  | (p, q) :: terms => do
    let c ← prepare_g2 info crv q
    let rest ← prepare_terms info crv terms
    pure ((p, c) :: rest)

/-- `pairing`, `src/circuit/pairing_chip.rs:157-171`. -/
def pairing (info : RangeInfo n) (crv : PairingCurve) (terms : List (AssignedPoint n × AssignedG2Affine n)) :
    M n (AssignedFq12 n) := do
  let terms ← prepare_terms info crv terms
  let res ← multi_miller_loop info crv terms
  final_exponentiation info crv res

/-- `check_pairing`, `src/circuit/pairing_chip.rs:173-176`. -/
def check_pairing (info : RangeInfo n) (crv : PairingCurve) (terms : List (AssignedPoint n × AssignedG2Affine n)) :
    M n Unit := do
  let res ← pairing info crv terms
  fq12_assert_one info res

end Verif
