import Verif.Model.Utils
import Verif.Model.Pairing
import Verif.Spec.Fields
import Mathlib.Data.Nat.Digits.Lemmas
import Mathlib.Data.Nat.Size

/-!
# C69: conversions between fields and numbers

The conversions of `src/utils.rs` go through bytes. They are the cast from numbers to the field and the canonical
representative, for every field whose elements are written with as many bytes as its modulus needs.
-/

namespace Verif
open Utils (to_bytes_le field_write field_read field_to_bn bn_to_field)
variable {p k : ℕ}

theorem from_bytes_append (a b : List UInt8) :
    Utils.from_bytes_le (a ++ b) = Utils.from_bytes_le a + 256 ^ a.length * Utils.from_bytes_le b := by
  induction a with
  | nil => simp [Utils.from_bytes_le]
  | cons x a ih => rw [List.cons_append, Utils.from_bytes_le, Utils.from_bytes_le, ih, List.length_cons, pow_succ]; ring

theorem from_bytes_zeros (j : ℕ) : Utils.from_bytes_le (List.replicate j 0) = 0 := by
  induction j with
  | zero => rfl
  | succ j ih => rw [List.replicate_succ, Utils.from_bytes_le, ih]; rfl

theorem from_bytes_range (x k : ℕ) :
    Utils.from_bytes_le ((List.range k).map fun i => UInt8.ofNat (x / 256 ^ i)) = x % 256 ^ k := by
  induction k with
  | zero => simp [Utils.from_bytes_le, Nat.mod_one]
  | succ k ih =>
    rw [List.range_succ, List.map_append, from_bytes_append, ih, List.length_map, List.length_range]
    simp only [List.map_cons, List.map_nil, Utils.from_bytes_le, Nat.mul_zero, Nat.add_zero]
    rw [pow_succ, Nat.mod_mul]
    congr 2

theorem from_bytes_digits (l : List ℕ) (h : ∀ d ∈ l, d < 256) :
    Utils.from_bytes_le (l.map UInt8.ofNat) = Nat.ofDigits 256 l := by
  induction l with
  | nil => rfl
  | cons d l ih =>
    rw [List.map_cons, Utils.from_bytes_le, ih fun d hd => h d (List.mem_cons_of_mem _ hd), Nat.ofDigits_cons]
    congr 1
    exact Nat.mod_eq_of_lt (h d List.mem_cons_self)

theorem from_to_bytes (x : ℕ) : Utils.from_bytes_le (to_bytes_le x) = x := by
  unfold to_bytes_le
  split
  · rename_i h
    rw [h]
    rfl
  · rw [from_bytes_digits _ fun d hd => Nat.digits_lt_base (by norm_num) hd, Nat.ofDigits_digits]

theorem to_bytes_length {x k : ℕ} (h : x < 256 ^ k) (hk : 0 < k) : (to_bytes_le x).length ≤ k := by
  unfold to_bytes_le
  split
  · exact hk
  · rw [List.length_map]
    exact (Nat.digits_length_le_iff (by norm_num) _).2 h

theorem resize_bytes {x k : ℕ} (h : x < 256 ^ k) (hk : 0 < k) :
    (Utils.resize (to_bytes_le x) k).length = k ∧ Utils.from_bytes_le (Utils.resize (to_bytes_le x) k) = x := by
  have := to_bytes_length h hk
  unfold Utils.resize
  rw [List.take_of_length_le this]
  refine ⟨by rw [List.length_append, List.length_replicate]; omega, ?_⟩
  rw [from_bytes_append, from_bytes_zeros, from_to_bytes, Nat.mul_zero, Nat.add_zero]

/-- The number of bytes that `bn_to_field` makes. -/
theorem lt_bytes (p : ℕ) : p < 256 ^ ((RangeInfo.bits p + 7) / 8) := by
  have h : (256 : ℕ) = 2 ^ 8 := rfl
  rw [h, ← pow_mul]
  exact Nat.lt_of_lt_of_le (Nat.lt_size_self p) (Nat.pow_le_pow_right (by norm_num) (by unfold RangeInfo.bits; omega))

/-- **C69.** `field_to_bn` returns the canonical representative, for every field whose representatives fit into `k` bytes. -/
theorem C69_field_to_bn [NeZero p] (hk : p ≤ 256 ^ k) (f : ZMod p) : field_to_bn k f = f.val := by
  unfold field_to_bn field_write
  rw [from_bytes_range, Nat.mod_eq_of_lt (Nat.lt_of_lt_of_le (ZMod.val_lt f) hk)]

theorem modulus_bytes [NeZero p] (hk : p ≤ 256 ^ k) : field_to_bn k (-1 : ZMod p) + 1 = p := by
  rw [C69_field_to_bn hk]
  obtain ⟨q, rfl⟩ := Nat.exists_eq_succ_of_ne_zero (NeZero.ne p)
  rw [ZMod.val_neg_one]

/-- **C69.** `bn_to_field` never panics and returns the residue class, for all numbers (also for those not below the
modulus) and for every field that is written with as few bytes as possible. -/
theorem C69_bn_to_field [NeZero p] (hk : k = (RangeInfo.bits p + 7) / 8) (x : ℕ) : bn_to_field k p x = .ok (x : ZMod p) := by
  have hp := NeZero.pos p
  have hb : 0 < RangeInfo.bits p := Nat.size_pos.2 hp
  have hl := lt_bytes p
  rw [← hk] at hl
  have hx := Nat.mod_lt x hp
  unfold bn_to_field
  dsimp only
  rw [modulus_bytes hl.le, ← hk]
  obtain ⟨h1, h2⟩ := resize_bytes (hx.trans hl) (by omega)
  unfold field_read
  rw [if_neg (by omega), List.take_of_length_le h1.le, h2, if_pos hx, ZMod.natCast_mod]

/-- **C69.** The two conversions are inverse to each other. -/
theorem C69_inverse [NeZero p] (hk : k = (RangeInfo.bits p + 7) / 8) : (∀ f : ZMod p, bn_to_field k p (field_to_bn k f) = .ok f) ∧
    ∀ x < p, ∃ f, bn_to_field k p x = .ok f ∧ field_to_bn k f = x := by
  have hl := lt_bytes p
  rw [← hk] at hl
  refine ⟨fun f => ?_, fun x hx => ⟨x, C69_bn_to_field hk x, ?_⟩⟩
  · rw [C69_bn_to_field hk, C69_field_to_bn hl.le, ZMod.natCast_zmod_val]
  · rw [C69_field_to_bn hl.le, ZMod.val_natCast_of_lt hx]

/-- The condition on the number of bytes cannot be dropped: a field that is written with more bytes than its modulus needs
cannot be used, every conversion panics. -/
theorem C69_bytes_needed [NeZero p] (hk : (RangeInfo.bits p + 7) / 8 < k) (x : ℕ) : bn_to_field k p x = .error .unwrapNone := by
  have hp := NeZero.pos p
  have hb : 0 < RangeInfo.bits p := Nat.size_pos.2 hp
  have hl := lt_bytes p
  have hx := Nat.mod_lt x hp
  unfold bn_to_field
  dsimp only
  rw [modulus_bytes (hl.le.trans (Nat.pow_le_pow_right (by norm_num) hk.le))]
  obtain ⟨h1, -⟩ := resize_bytes (hx.trans hl) (by omega)
  unfold field_read
  rw [if_pos (by omega)]

/-- **C69.** The constants of the pairing chip, given as bytes, are converted to what the model uses. -/
theorem C69_constants {n wm : ℕ} {info : RangeInfo n} [NeZero wm] (hw : info.w_modulus = wm) (hk : k = (RangeInfo.bits wm + 7) / 8)
    (bytes : List UInt8) :
    bn_to_field k wm (Utils.from_bytes_le bytes) = .ok ((field_const info (bytes.map UInt8.toNat) : ℕ) : ZMod wm) := by
  have : Verif.from_bytes_le (bytes.map UInt8.toNat) = Utils.from_bytes_le bytes := by
    induction bytes with
    | nil => rfl
    | cons b bs ih => rw [List.map_cons, Verif.from_bytes_le, ih]; rfl
  rw [C69_bn_to_field hk, field_const, this, hw, ZMod.natCast_mod]

/-- The fields of the supported curves satisfy the condition with 32 and 48 bytes. -/
theorem C69_supported : (∀ p ∈ [bnR, bnQ, blsR], 32 = (RangeInfo.bits p + 7) / 8) ∧ 48 = (RangeInfo.bits blsQ + 7) / 8 := by
  have key : ∀ p b : ℕ, p < 2 ^ (b + 1) → 2 ^ b ≤ p → RangeInfo.bits p = b + 1 := fun p b h h' =>
    le_antisymm (Nat.size_le.2 h) (Nat.lt_size.2 h')
  refine ⟨?_, ?_⟩
  · intro p hp
    simp only [List.mem_cons, List.not_mem_nil, or_false] at hp
    rcases hp with rfl | rfl | rfl
    · rw [key bnR 253 (by decide +kernel) (by decide +kernel)]
    · rw [key bnQ 253 (by decide +kernel) (by decide +kernel)]
    · rw [key blsR 254 (by decide +kernel) (by decide +kernel)]
  · rw [key blsQ 380 (by decide +kernel) (by decide +kernel)]

/-- Concretely, in the field with 7 elements written with one byte; and with two bytes every conversion panics. -/
example : bn_to_field 1 7 1000 = .ok 6 ∧ field_to_bn 1 (6 : ZMod 7) = 6 ∧ bn_to_field 2 7 1000 = .error .unwrapNone :=
  ⟨C69_bn_to_field rfl 1000, C69_field_to_bn (by norm_num) 6, C69_bytes_needed (by decide) 1000⟩

end Verif
