/-!
# The prime fields used by the library

`halo2_proofs::pairing::bn256::{Fr, Fq}` and `bls12_381::{Fr, Fq}` (external crates; the moduli are the
published ones).
-/

namespace Verif

/-- Order of the bn256 (BN254) group: the native field. -/
def bnR : Nat := 0x30644e72e131a029b85045b68181585d2833e84879b9709143e1f593f0000001
/-- Base field of bn256. -/
def bnQ : Nat := 0x30644e72e131a029b85045b68181585d97816a916871ca8d3c208c16d87cfd47
/-- Order of the BLS12-381 group. -/
def blsR : Nat := 0x73eda753299d7d483339d80809a1d80553bda402fffe5bfeffffffff00000001
/-- Base field of BLS12-381. -/
def blsQ : Nat :=
  0x1a0111ea397fe69a4b1ba7b6434bacd764774b84f38512bf6730d2a0f6b0f6241eabfffeb153ffffb9feffffffffaaab

end Verif
