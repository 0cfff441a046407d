import Verif.Proof.KeysApi
import Verif.Proof.Primes

/-!
# C31: cache keys never collide
-/

namespace Verif
variable {n : ℕ}

/-- `encode_offset` is injective, in every native field with at least `2 ^ 253` elements, on group numbers and limb
offsets below `2 ^ 64` and selectors below `2 ^ 125`. -/
theorem C31_encode_injective (hn : 2 ^ 253 ≤ n) (g sel l g' sel' l' : ℕ) (hg : g < 2 ^ 64) (hs : sel < 2 ^ 125)
    (hl : l < 2 ^ 64) (hg' : g' < 2 ^ 64) (hs' : sel' < 2 ^ 125) (hl' : l' < 2 ^ 64)
    (e : encode_offset n g sel l = encode_offset n g' sel' l') : g = g' ∧ sel = sel' ∧ l = l' :=
  encode_offset_injective hn ⟨hg, hs, hl⟩ ⟨hg', hs', hl'⟩ e

/-- Both native fields of the library are large enough. -/
theorem C31_fields_large : 2 ^ 253 ≤ bnR ∧ 2 ^ 253 ≤ blsR := ⟨by decide +kernel, by decide +kernel⟩

/-- The bounds cannot be dropped: a limb offset of `2 ^ 64` is read as the next group, a group of `2 ^ 64` as the next
selector. -/
theorem C31_bounds_needed : encode_offset n 0 0 (2 ^ 64) = encode_offset n 1 0 0 ∧
    encode_offset n (2 ^ 64) 0 0 = encode_offset n 0 1 0 := by
  constructor <;> unfold encode_offset <;> norm_num

/-- Hypotheses of `C31_encode_injective` at the largest group number and the largest selector of a multi-scalar
multiplication, and the last limb of a point of bls12-381. -/
example : encode_offset bnR (2 ^ 28 + 2 ^ 20 - 1) 31 9 ≠ encode_offset bnR (2 ^ 28 + 2 ^ 20 - 1) 31 8 := fun e =>
  absurd (C31_encode_injective C31_fields_large.1 _ _ _ _ _ _ (by norm_num) (by norm_num) (by norm_num) (by norm_num)
    (by norm_num) (by norm_num) e).2.2 (by norm_num)

theorem nontrivial_of_large (hn : 2 ^ 253 ≤ n) : Nontrivial (ZMod n) :=
  haveI : Fact (1 < n) := ⟨lt_of_lt_of_le (by norm_num) hn⟩
  inferInstance

/-- A multi-scalar multiplication on a context with prefix `p` caches its points under group numbers from `p` to
`p + 2 ^ 20`; every other call that does not let the client choose a key caches nothing. -/
theorem C31_groups (hn : 2 ^ 253 ≤ n) (A : Api n) (hl : A.info.limbs ≤ 2 ^ 32) (w : Witness n) (S S' : Store n)
    (c : Call n) (hc : c.ChoosesKey = false) (s t : Context n) (h : runCall A w S c s = .ok (S', t)) (r : ℕ) (k : ZMod n)
    (hr : t.records.inner.KeyRow r k) (hr' : ¬ s.records.inner.KeyRow r k) :
    c.IsMsm = true ∧ ∃ p g sel l, S.msm_prefix = some p ∧ p < 2 ^ 28 ∧ p ≤ g ∧ g < p + 2 ^ 20 ∧ sel < 2 ^ 125 ∧
      l < 2 ^ 64 ∧ k = encode_offset n g sel l := by
  haveI := nontrivial_of_large hn
  rcases (emits_runCall hn A hl w S c hc _ _ _ h).1 r k hr with h | ⟨hm, p, e, h1, g, h2, h3, sel, -, h5, l, -, h7, h8⟩
  · exact absurd h hr'
  · exact ⟨hm, p, g, sel, l, e, h1, h2, h3, by omega, by omega, h8⟩

/-- Each multi-scalar multiplication moves the prefix by `2 ^ 20`, and no other call moves it. -/
theorem C31_prefix (A : Api n) (w : Witness n) (cs : List (Call n)) (S S' : Store n) (p : ℕ)
    (hp : S.msm_prefix = some p) (s t : Context n) (h : runCalls A w cs S s = .ok (S', t)) :
    S'.msm_prefix = some (p + cs.countP Call.IsMsm * 2 ^ 20) := by
  induction cs generalizing S s p with
  | nil => cases h; simpa using hp
  | cons c cs ih =>
    unfold runCalls at h
    obtain ⟨S1, u, e1, e2⟩ := run_bind_ok.1 h
    have h1 := returns_runCall A w S c _ _ _ e1
    rw [hp] at h1
    by_cases hm : c.IsMsm = true
    · rw [if_pos hm] at h1
      rw [ih S1 _ h1 _ e2, List.countP_cons, if_pos hm]
      unfold MSM_PREFIX_OFFSET
      congr 1
      ring
    · rw [if_neg hm] at h1
      rw [ih S1 _ h1 _ e2, List.countP_cons, if_neg hm]
      rfl

/-- In every run of every sequence of calls on a new context, whatever prefix it starts with, no two values are cached
under the same key, as long as the client does not choose keys itself. -/
theorem C31_keys_distinct (hn : 2 ^ 253 ≤ n) (A : Api n) (hl : A.info.limbs ≤ 2 ^ 32) (w : Witness n)
    (cs : List (Call n)) (hc : ∀ c ∈ cs, c.ChoosesKey = false) (pre : Option ℕ) (S : Store n) (t : Context n)
    (h : runCalls A w cs (Store.empty n pre) (Context.new n) = .ok (S, t)) : t.records.inner.KeysDistinct :=
  haveI := nontrivial_of_large hn
  (runCalls_keys hn A hl w cs _ _ _ _ hc h (fun r k hk => by cases hk.2) fun r r' k hk => by cases hk.2).2

/-- Two calls that let the client choose the key. -/
def twiceCached : List (Call n) :=
  [.assign_constant 5, .assign_cache_value 0 0 0 0, .assign_cache_value 0 0 0 0]

/-- The condition on the calls cannot be dropped: a client that caches two values under one key gets them both stored.
The same happens if two contexts of the elliptic curve chip share one native context, because both start with prefix 0
(`src/context.rs:200`, `src/context.rs:236`). -/
theorem C31_client_keys_collide (A : Api n) (w : Witness n) : ∃ S t,
    runCalls A w twiceCached (Store.empty n (some 0)) (Context.new n) = .ok (S, t) ∧ ¬ t.records.inner.KeysDistinct := by
  refine ⟨_, _, rfl, fun h => ?_⟩
  have := h 0 1 (encode_offset n 0 0 0) ⟨rfl, rfl⟩ ⟨rfl, rfl⟩
  cases this

/-- A run that meets the hypotheses of `C31_keys_distinct` and in which a value is selected. -/
example (A : Api bnR) (w : Witness bnR) : ∃ S t, runCalls A w
    [.assign_constant 5, .assign_constant 0, .assign_selected_value 0 0 0 1] (Store.empty bnR (some 0)) (Context.new bnR) =
    .ok (S, t) ∧ t.select_offset = 1 := ⟨_, _, rfl, rfl⟩

end Verif
