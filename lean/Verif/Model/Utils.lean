import Verif.Model.RangeInfo
import Mathlib.Data.Nat.Digits.Defs

/-!
# Model of `src/utils.rs`

The rest of the model converts between fields and numbers by casts and canonical representatives. Here the conversions are
modelled as they are written, on the level of bytes; C69 says that they are these casts.

The interface of the field (`BaseExt` of halo2, not part of the repository) is: an element is written as `k` bytes, the
canonical representative in little-endian order; reading takes the first `k` bytes and fails if there are fewer or if the
number is not below the modulus.
-/

namespace Verif.Utils

/-- `BigUint::from_bytes_le`. -/
def from_bytes_le : List UInt8 → ℕ
  | [] => 0
  | b :: bs => b.toNat + 256 * from_bytes_le bs

/-- `BigUint::to_bytes_le`: no leading zeros, but one byte for zero. -/
def to_bytes_le (x : ℕ) : List UInt8 := if x = 0 then [0] else (Nat.digits 256 x).map UInt8.ofNat

/-- `Vec::resize` with zeros. -/
def resize (l : List UInt8) (k : ℕ) : List UInt8 := l.take k ++ List.replicate (k - l.length) 0

/-- `BaseExt::write` of a field with `k` bytes. -/
def field_write (k : ℕ) {p : ℕ} (f : ZMod p) : List UInt8 := (List.range k).map fun i => UInt8.ofNat (f.val / 256 ^ i)

/-- `BaseExt::read` of a field with `k` bytes, and `unwrap`. -/
def field_read (k p : ℕ) (l : List UInt8) : Except Panic (ZMod p) :=
  if l.length < k then .error .unwrapNone
  else if from_bytes_le (l.take k) < p then .ok (from_bytes_le (l.take k) : ZMod p) else .error .unwrapNone

/-- `field_to_bn`, `src/utils.rs:4-8`. -/
def field_to_bn (k : ℕ) {p : ℕ} (f : ZMod p) : ℕ := from_bytes_le (field_write k f)

/-- `bn_to_field`, `src/utils.rs:10-17`. -/
def bn_to_field (k p : ℕ) (bn : ℕ) : Except Panic (ZMod p) :=
  let modulus := field_to_bn k (-1 : ZMod p) + 1
  let bn := bn % modulus
  let bytes := to_bytes_le bn
  let bytes := resize bytes ((RangeInfo.bits modulus + 7) / 8)
  field_read k p bytes

end Verif.Utils
