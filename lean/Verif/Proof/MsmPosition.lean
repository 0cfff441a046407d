import Verif.Spec.MsmPosition
import Verif.Proof.MsmComplete

/-!
# General position in terms of the sums the model forms
-/

namespace Verif
variable {n : ℕ} {G : Type} [AddCommGroup G]

/-! ### Candidates -/

theorem subsetSum_sublist : ∀ (Ps : List G) (i : ℕ), ∃ S : List G, S.Sublist Ps ∧ subsetSum Ps i = S.sum
  | [], _ => ⟨[], .slnil, rfl⟩
  | P :: Ps, i => by
    obtain ⟨S, h1, h2⟩ := subsetSum_sublist Ps (i / 2)
    simp only [subsetSum]
    rcases Nat.mod_two_eq_zero_or_one i with e | e
    · exact ⟨S, h1.cons _, by rw [e, zero_smul, zero_add, h2]⟩
    · exact ⟨P :: S, h1.cons_cons _, by rw [e, one_smul, h2, List.sum_cons]⟩

theorem subsetSum_tail : ∀ (k i : ℕ) (Ps : List G) (P : G), i ≠ 0 → i < 2 ^ k →
    Ps[trailing_zeros k i]? = some P → ∃ before after S : List G, Ps = before ++ P :: after ∧ S.Sublist after ∧
      subsetSum Ps (i - 2 ^ trailing_zeros k i) = S.sum
  | 0, i, Ps, P, h, h', _ => by simp at h'; omega
  | k + 1, i, [], P, h, h', hP => by simp at hP
  | k + 1, i, P0 :: Ps, P, h, h', hP => by
    unfold trailing_zeros at hP ⊢
    split at hP
    · rename_i hi
      rw [if_pos hi]
      simp at hP
      subst hP
      obtain ⟨S, h1, h2⟩ := subsetSum_sublist Ps (i / 2)
      refine ⟨[], Ps, S, rfl, h1, ?_⟩
      simp only [subsetSum, pow_zero]
      rw [show (i - 1) % 2 = 0 by omega, show (i - 1) / 2 = i / 2 by omega, zero_smul, zero_add, h2]
    · rename_i hi
      rw [if_neg hi]
      have hlt : i / 2 < 2 ^ k := by rw [pow_succ] at h'; omega
      have hle := tz_le k (i / 2) (by omega) hlt
      rw [Nat.add_comm, List.getElem?_cons_succ] at hP
      obtain ⟨bf, af, S, e1, e2, e3⟩ := subsetSum_tail k (i / 2) Ps P (by omega) hlt hP
      refine ⟨P0 :: bf, af, S, by rw [e1]; rfl, e2, ?_⟩
      simp only [subsetSum]
      rw [pow_add, pow_one, show (i - 2 * 2 ^ trailing_zeros k (i / 2)) % 2 = 0 by omega,
        show (i - 2 * 2 ^ trailing_zeros k (i / 2)) / 2 = i / 2 - 2 ^ trailing_zeros k (i / 2) by omega, e3,
        zero_smul, zero_add]

theorem candPos_of {I : G} {Ps : List G} (hl : Ps.length ≤ 31)
    (hp : ∀ (before : List G) (P : G) (after S : List G), Ps = before ++ P :: after → S.Sublist after → Addable (I + S.sum) P) : CandPos I Ps := by
  intro i P h1 h2 hP
  have h3 : 2 ^ Ps.length ≤ 2 ^ 31 := Nat.pow_le_pow_right (by norm_num) hl
  have h4 : (2 : ℕ) ^ 31 < 2 ^ 32 := by norm_num
  obtain ⟨bf, af, S, e1, e2, e3⟩ := subsetSum_tail 32 i Ps P (by omega) (by omega) hP
  rw [e3]
  exact hp bf P af S e1 e2

/-! ### Chunks -/

theorem chunks_getElem? {α : Type} {k : ℕ} (hk : k ≠ 0) : ∀ (g : ℕ) (l : List α), g * k < l.length →
    (chunks k l)[g]? = some (groupOf k g l)
  | 0, l, h => by
    have : l ≠ [] := by rintro rfl; simp at h
    rw [chunks_cons hk this]
    simp [groupOf]
  | g + 1, l, h => by
    have : l ≠ [] := by rintro rfl; simp at h
    rw [chunks_cons hk this, List.getElem?_cons_succ, chunks_getElem? hk g _ (by
      rw [List.length_drop]; rw [Nat.add_mul, Nat.one_mul] at h; omega)]
    simp only [groupOf, List.drop_drop]
    rw [show k + g * k = (g + 1) * k by ring]

theorem chunks_getElem?_some {α : Type} {k : ℕ} (hk : k ≠ 0) {g : ℕ} {l x : List α} (h : (chunks k l)[g]? = some x) :
    x = groupOf k g l := by
  rcases Nat.lt_or_ge (g * k) l.length with hg | hg
  · rw [chunks_getElem? hk g l hg] at h
    exact (Option.some.inj h).symm
  · exfalso
    have h1 := (List.getElem?_eq_some_iff.1 h).1
    rw [chunks_length hk] at h1
    have := Nat.div_mul_le_self (l.length + k - 1) k
    have h2 : (g + 1) * k ≤ (l.length + k - 1) / k * k := Nat.mul_le_mul_right _ h1
    rw [Nat.add_mul, Nat.one_mul] at h2
    have hk' : 0 < k := Nat.pos_of_ne_zero hk
    omega

/-! ### Digits -/

/-- The bits of the scalars. -/
def ScalarBits (W : ℕ) (bits : List (List (List (AssignedValue n)))) (ks : List ℕ) : Prop :=
  List.Forall₂ (fun bs k => Windows AssignedValue.val 1 bs k ∧ bs.length = W) bits ks

theorem digit_le_one [Fact n.Prime] {f : AssignedValue n → ZMod n} {res : List (List (AssignedValue n))} {k : ℕ}
    (hw : Windows f 1 res k) (t : ℕ) : digitAt f res t ≤ 1 := by
  unfold digitAt
  cases e : res[t]? with
  | none => exact Nat.zero_le _
  | some win =>
    show digit f win ≤ 1
    unfold digit
    cases e' : win[0]? with
    | none => exact Nat.zero_le _
    | some x =>
      show (f x).val ≤ 1
      have : Fact (1 < n) := ⟨(Fact.out : n.Prime).one_lt⟩
      rcases hw.bit win (List.mem_of_getElem? e) x (List.mem_of_getElem? e') with h | h <;> rw [h]
      · simp
      · rw [ZMod.val_one n]

theorem horner_take [Fact n.Prime] {f : AssignedValue n → ZMod n} {res : List (List (AssignedValue n))} {k : ℕ}
    (hw : Windows f 1 res k) : ∀ d, d ≤ res.length → horner f (res.take (res.length - d)) = k / 2 ^ d
  | 0, _ => by simp [hw.horner]
  | d + 1, hd => by
    have ih := horner_take hw d (by omega)
    obtain ⟨t, ht⟩ : ∃ t, t = res.length - (d + 1) := ⟨_, rfl⟩
    have hlt : t < res.length := by omega
    rw [show res.length - d = t + 1 by omega, List.take_add_one, List.getElem?_eq_getElem hlt, Option.toList_some,
      horner_append] at ih
    have h1 := digit_le_one hw t
    unfold digitAt at h1
    rw [List.getElem?_eq_getElem hlt] at h1
    simp only [Option.elim] at h1
    rw [← ht, pow_succ, ← Nat.div_div_eq_div_mul]
    omega

theorem digitAt_eq [Fact n.Prime] {f : AssignedValue n → ZMod n} {res : List (List (AssignedValue n))} {k wi : ℕ}
    (hw : Windows f 1 res k) (hwi : wi < res.length) : digitAt f res wi = windowBit res.length wi k := by
  have h1 := horner_take hw (res.length - 1 - wi) (by omega)
  have h2 := digit_le_one hw wi
  rw [show res.length - (res.length - 1 - wi) = wi + 1 by omega, List.take_add_one, List.getElem?_eq_getElem hwi,
    Option.toList_some, horner_append] at h1
  unfold digitAt at h2 ⊢
  rw [List.getElem?_eq_getElem hwi] at h2 ⊢
  simp only [Option.elim] at h2 ⊢
  unfold windowBit
  omega

theorem wsum_eq [Fact n.Prime] {W wi : ℕ} (hwi : wi < W) : ∀ {bits : List (List (List (AssignedValue n)))} {ks : List ℕ}
    (Ps : List G), ScalarBits W bits ks → wsum AssignedValue.val wi bits Ps = windowSum W wi ks Ps
  | [], [], Ps, .nil => by simp [wsum, windowSum]
  | bs :: bits, k :: ks, [], .cons _ _ => by simp [wsum, windowSum]
  | bs :: bits, k :: ks, P :: Ps, .cons h hs => by
    have ih := wsum_eq hwi Ps hs
    unfold windowSum at ih ⊢
    simp only [wsum, List.zipWith_cons_cons, List.sum_cons]
    rw [ih, digitAt_eq h.1 (by rw [h.2]; exact hwi), h.2]

theorem vsum_eq [Fact n.Prime] {W t : ℕ} (ht : t ≤ W) : ∀ {bits : List (List (List (AssignedValue n)))} {ks : List ℕ}
    (Ps : List G), ScalarBits W bits ks → vsum AssignedValue.val t bits Ps = prefixSum W t ks Ps
  | [], [], Ps, .nil => by simp [vsum, prefixSum]
  | bs :: bits, k :: ks, [], .cons _ _ => by simp [vsum, prefixSum]
  | bs :: bits, k :: ks, P :: Ps, .cons h hs => by
    have ih := vsum_eq ht Ps hs
    unfold prefixSum at ih ⊢
    simp only [vsum, List.zipWith_cons_cons, List.sum_cons]
    have := horner_take h.1 (W - t) (by rw [h.2]; omega)
    rw [h.2, show W - (W - t) = t by omega] at this
    rw [ih, this]

/-! ### Windows -/

theorem windowPos_of [Fact n.Prime] {W size wi : ℕ} (hs : size ≠ 0) (hwi : wi < W) {L A : G} {ks : List ℕ} {Ps : List G}
    {bits : List (List (List (AssignedValue n)))} (hb : ScalarBits W bits ks) (hlen : bits.length = Ps.length)
    (hp : ∀ g, g * size < Ps.length →
      Addable (lineSign L g + windowSum W wi (groupOf size g ks) (groupOf size g Ps))
        (-A + lineRest L g + windowSum W wi (ks.take (g * size)) (Ps.take (g * size)))) :
    WindowPos AssignedValue.val wi L 0 (-A) (chunks size bits) (chunks size Ps) := by
  have key : ∀ m g, bits.length - g * size = m → WindowPos AssignedValue.val wi L g (-A + lineRest L g +
      windowSum W wi (ks.take (g * size)) (Ps.take (g * size))) (chunks size (bits.drop (g * size)))
      (chunks size (Ps.drop (g * size))) := by
    intro m
    induction m using Nat.strong_induction_on with
    | _ m ih =>
      intro g hg
      rcases Nat.lt_or_ge (g * size) bits.length with hlt | hge
      · have h1 : bits.drop (g * size) ≠ [] := by rw [Ne, List.drop_eq_nil_iff]; omega
        have h2 : Ps.drop (g * size) ≠ [] := by rw [Ne, List.drop_eq_nil_iff]; omega
        have hgr : ScalarBits W ((bits.drop (g * size)).take size) (groupOf size g ks) :=
          List.forall₂_take _ (List.forall₂_drop _ hb)
        have hadd : ∀ l : List G, l.length = bits.length → wsum AssignedValue.val wi (bits.take (g * size)) (l.take (g * size))
            = windowSum W wi (ks.take (g * size)) (l.take (g * size)) := fun l _ => wsum_eq hwi _ (List.forall₂_take _ hb)
        rw [chunks_cons hs h1, chunks_cons hs h2]
        refine ⟨?_, ?_⟩
        · rw [wsum_eq hwi _ hgr]
          exact hp g (by omega)
        · rw [wsum_eq hwi _ hgr, List.drop_drop, List.drop_drop]
          have e1 : g * size + size = (g + 1) * size := by ring
          have e2 : signed L g + windowSum W wi (groupOf size g ks) (List.take size (List.drop (g * size) Ps)) +
              (-A + lineRest L g + windowSum W wi (ks.take (g * size)) (Ps.take (g * size))) =
              -A + lineRest L (g + 1) + windowSum W wi (ks.take ((g + 1) * size)) (Ps.take ((g + 1) * size)) := by
            have e3 : windowSum W wi (ks.take ((g + 1) * size)) (Ps.take ((g + 1) * size)) =
                windowSum W wi (ks.take (g * size)) (Ps.take (g * size)) +
                  windowSum W wi (groupOf size g ks) (List.take size (List.drop (g * size) Ps)) := by
              unfold windowSum groupOf
              rw [← e1, List.take_add, List.take_add, List.zipWith_append (by
                rw [List.length_take, List.length_take, ← hb.length_eq, hlen]), List.sum_append]
            have e4 : lineRest L (g + 1) = lineRest L g + signed L g := by
              unfold lineRest signed
              rcases Nat.mod_two_eq_zero_or_one g with h | h
              · rw [if_pos (show (g + 1) % 2 = 1 by omega), if_neg (by omega), if_pos h, zero_add]
              · rw [if_neg (show ¬ (g + 1) % 2 = 1 by omega), if_pos h, if_neg (by omega), add_neg_cancel]
            rw [e3, e4]
            abel
          rw [e2, e1]
          refine ih (bits.length - (g + 1) * size) ?_ (g + 1) rfl
          rw [← e1]
          have := Nat.pos_of_ne_zero hs
          omega
      · rw [List.drop_eq_nil_of_le hge, chunks_nil]
        trivial
  have := key _ 0 rfl
  simpa [lineRest, windowSum] using this

end Verif
