import Verif.Proof.RangeInfo
import Verif.Proof.IntLinear
import Verif.Proof.Primes

/-!
# C10: parameter set-up for the supported field pairs
-/

namespace Verif

/-- A summary of a set-up: `none` if it panicked. -/
def setupSummary {n : ℕ} : Except Panic (RangeInfo n) → Option (List ℕ)
  | .ok i => some [i.limbs, i.w_ceil_bits, i.d_bits, i.n_floor_bits, i.pure_w_check_limbs,
      i.reduce_check_limbs, i.mul_check_limbs]
  | .error _ => none

theorem summary_bnQ : setupSummary (RangeInfo.new bnQ bnR 18 6) = some [3, 254, 267, 253, 1, 1, 3] := by
  decide +kernel

theorem summary_blsR : setupSummary (RangeInfo.new blsR bnR 18 6) = some [3, 255, 268, 253, 1, 1, 3] := by
  decide +kernel

theorem summary_blsQ : setupSummary (RangeInfo.new blsQ bnR 18 6) = some [4, 381, 394, 253, 2, 2, 5] := by
  decide +kernel

/-- What a successful set-up for one of the supported pairs looks like. -/
structure Setup (w : ℕ) (info : RangeInfo bnR) (l : List ℕ) : Prop where
  new : RangeInfo.new w bnR 18 6 = .ok info
  summary : l = [info.limbs, info.w_ceil_bits, info.d_bits, info.n_floor_bits, info.pure_w_check_limbs,
      info.reduce_check_limbs, info.mul_check_limbs]

theorem Setup.of_summary {w : ℕ} {l : List ℕ} (h : setupSummary (RangeInfo.new w bnR 18 6) = some l) :
    ∃ info, Setup w info l := by
  cases e : RangeInfo.new w bnR 18 6 with
  | error p => rw [e] at h; cases h
  | ok i => rw [e] at h; exact ⟨i, e, by simpa [setupSummary] using h.symm⟩

/-- C10, first half: set-up passes all internal checks for the three supported pairs. -/
theorem C10_setup : ∀ w ∈ [bnQ, blsR, blsQ], ∃ info : RangeInfo bnR, RangeInfo.new w bnR 18 6 = .ok info := by
  intro w hw
  simp only [List.mem_cons, List.not_mem_nil, or_false] at hw
  rcases hw with rfl | rfl | rfl
  exacts [let ⟨i, h⟩ := Setup.of_summary summary_bnQ; ⟨i, h.new⟩,
    let ⟨i, h⟩ := Setup.of_summary summary_blsR; ⟨i, h.new⟩,
    let ⟨i, h⟩ := Setup.of_summary summary_blsQ; ⟨i, h.new⟩]

/-- C10: the options of `new_with_options` (`src/context.rs:178-187`) are no options. Set-up panics with all parameters but
the ones all theorems are about, whatever the moduli. -/
theorem C10_options {n w cb ob : ℕ} {info : RangeInfo n} (h : RangeInfo.new w n cb ob = .ok info) : cb = 18 ∧ ob = 6 := by
  unfold RangeInfo.new at h
  by_cases h1 : cb = 18
  · by_cases h2 : ob = 6
    · exact ⟨h1, h2⟩
    · have e : RangeInfo.check (ob = OVERFLOW_BITS) = .error .assertion := if_neg (by simpa using h2)
      have e' : RangeInfo.check (cb = COMMON_RANGE_BITS) = .ok () := if_pos (by simpa using h1)
      rw [e, e'] at h
      cases h
  · have e : RangeInfo.check (cb = COMMON_RANGE_BITS) = .error .assertion := if_neg (by simpa using h1)
    rw [e] at h
    cases h

/-- Both happen: the pair of bn256 with the parameters, and with 17 instead of 18 bits. -/
example : (∃ info : RangeInfo bnR, RangeInfo.new bnQ bnR 18 6 = .ok info) ∧
    ∀ info : RangeInfo bnR, RangeInfo.new bnQ bnR 17 6 ≠ .ok info :=
  ⟨C10_setup bnQ (by simp), fun _ h => absurd (C10_options h).1 (by decide)⟩

/-- C10, second half: whatever pair of moduli set-up accepts, and whatever the overflow counter
`1 ≤ t < 64`, the tabulated multiple of `w` is a multiple of `w` and dominates, limb by limb, every well-formed
integer with that counter, so that the limb-wise differences of `int_sub` and `int_neg` are not negative. -/
theorem C10_table {n w : ℕ} {info : RangeInfo n} (h : RangeInfo.new w n 18 6 = .ok info) (t : ℕ) (h1 : 1 ≤ t)
    (h2 : t < 64) : ∃ us : List ℕ,
      info.w_modulus_of_ceil_times[t]? = some (some (us.map (Nat.cast : ℕ → ZMod n))) ∧
      us.length = info.limbs ∧ (∀ x ∈ us, x < n) ∧
      w ∣ ∑ i ∈ Finset.range info.limbs, us.getD i 0 * 2 ^ (108 * i) ∧
      ∀ (f : AssignedValue n → ZMod n) (a : AssignedInteger n), WF info f a → a.times = t →
        ∀ i < info.limbs, limbAt f a.limbs_le i ≤ us.getD i 0 := by
  have hv := RangeInfo.new_valid h
  obtain ⟨us, e1, e2, e3, e4, e5, e6, e7⟩ := hv.table t h1 h2
  have hk := hv.limbs_ge
  have hget : ∀ i, i < info.limbs → us[i]? = some (us.getD i 0) := fun i hi => by
    rw [List.getD_eq_getElem?_getD, List.getElem?_eq_getElem (by omega)]; rfl
  have hlt : ∀ i < info.limbs, us.getD i 0 < 2 ^ 108 * 64 := by
    intro i hi
    by_cases hi' : i < info.limbs - 1
    · exact (e3 i _ (hget i hi) hi').2.trans_le (Nat.mul_le_mul le_rfl (by omega))
    · have : i = info.limbs - 1 := by omega
      subst this
      refine (e4 _ (hget _ hi)).2.trans_le (Nat.mul_le_mul ?_ (by omega))
      exact Nat.pow_le_pow_right (by norm_num) (by omega)
  refine ⟨us, e1, e2, ?_, ?_, ?_⟩
  · intro x hx
    obtain ⟨i, hi, rfl⟩ := List.getElem_of_mem hx
    have := hlt i (by omega)
    rw [List.getD_eq_getElem?_getD, List.getElem?_eq_getElem hi] at this
    exact this.trans (lt_trans (by norm_num) hv.n_big)
  · rw [value_eq_sum, e2] at e5; exact e5
  · intro f a ha ht i hi
    by_cases hi' : i < info.limbs - 1
    · have := ha.limb i
      rw [ht] at this
      exact this.le.trans ((mul_comm _ _).trans_le (e3 i _ (hget i hi) hi').1)
    · have hi'' : i = info.limbs - 1 := by omega
      subst hi''
      refine le_trans ?_ (e4 _ (hget _ hi)).1
      have := ha.lead hv
      rw [ht, mul_comm] at this
      exact this.le

end Verif
