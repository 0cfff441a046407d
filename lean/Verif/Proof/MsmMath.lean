import Verif.Proof.Scalar
import Verif.Proof.Curve
import Verif.Model.Msm

/-!
# The arithmetic of the multi-scalar multiplication

Sums of points as the algorithm forms them, over any additive commutative group.
-/

namespace Verif
variable {n : ℕ} {G : Type} [AddCommGroup G]

/-- The sum of the points whose position is a bit of `i`. -/
def subsetSum : List G → ℕ → G
  | [], _ => 0
  | P :: Ps, i => (i % 2) • P + subsetSum Ps (i / 2)

@[simp] theorem subsetSum_zero (Ps : List G) : subsetSum Ps 0 = 0 := by
  induction Ps with
  | nil => rfl
  | cons P Ps ih => simp [subsetSum, ih]

theorem tz_le : ∀ (k i : ℕ), i ≠ 0 → i < 2 ^ k → 2 ^ trailing_zeros k i ≤ i
  | 0, i, h, h' => by simp at h'; omega
  | k + 1, i, h, h' => by
    unfold trailing_zeros
    split
    · simp; omega
    · have := tz_le k (i / 2) (by omega) (by rw [pow_succ] at h'; omega)
      rw [pow_add, pow_one]
      omega

theorem subsetSum_step : ∀ (k i : ℕ) (Ps : List G) (P : G), i ≠ 0 → i < 2 ^ k →
    Ps[trailing_zeros k i]? = some P → subsetSum Ps i = subsetSum Ps (i - 2 ^ trailing_zeros k i) + P
  | 0, i, Ps, P, h, h', _ => by simp at h'; omega
  | k + 1, i, [], P, h, h', hP => by simp at hP
  | k + 1, i, P0 :: Ps, P, h, h', hP => by
    unfold trailing_zeros at hP ⊢
    split at hP
    · rename_i hi
      rw [if_pos hi]
      simp at hP
      subst hP
      simp only [subsetSum, pow_zero, hi]
      rw [show (i - 1) % 2 = 0 by omega, show (i - 1) / 2 = i / 2 by omega]
      simp [add_comm]
    · rename_i hi
      rw [if_neg hi]
      have hlt : i / 2 < 2 ^ k := by rw [pow_succ] at h'; omega
      have hle := tz_le k (i / 2) (by omega) hlt
      rw [Nat.add_comm, List.getElem?_cons_succ] at hP
      have ih := subsetSum_step k (i / 2) Ps P (by omega) hlt hP
      simp only [subsetSum]
      rw [ih, pow_add, pow_one, show (i - 2 * 2 ^ trailing_zeros k (i / 2)) % 2 = i % 2 by omega,
        show (i - 2 * 2 ^ trailing_zeros k (i / 2)) / 2 = i / 2 - 2 ^ trailing_zeros k (i / 2) by omega, add_assoc]

/-- The digit of a window of one bit. -/
def digit (f : AssignedValue n → ZMod n) (win : List (AssignedValue n)) : ℕ := (win[0]?).elim 0 fun x => (f x).val

/-- The digit of window `wi`. -/
def digitAt (f : AssignedValue n → ZMod n) (bits : List (List (AssignedValue n))) (wi : ℕ) : ℕ :=
  (bits[wi]?).elim 0 (digit f)

/-- The sum of the points weighted by their scalars' digits in window `wi`. -/
def wsum (f : AssignedValue n → ZMod n) (wi : ℕ) : List (List (List (AssignedValue n))) → List G → G
  | b :: bs, P :: Ps => digitAt f b wi • P + wsum f wi bs Ps
  | _, _ => 0

theorem subsetSum_binVal [Fact n.Prime] {f : AssignedValue n → ZMod n} {wi : ℕ} :
    ∀ {grp : List (List (List (AssignedValue n)))} {bits : List (AssignedValue n)} {Ps : List G},
    List.Forall₂ (fun bs x => ∃ win, bs[wi]? = some win ∧ win[0]? = some x) grp bits → grp.length = Ps.length →
    (∀ x ∈ bits, f x = 0 ∨ f x = 1) → subsetSum Ps (binVal f bits) = wsum f wi grp Ps
  | [], _, Ps, .nil, hl, _ => by
    cases Ps with
    | nil => rfl
    | cons P Ps => simp at hl
  | bs :: grp, x :: bits, [], .cons h hs, hl, hb => by simp at hl
  | bs :: grp, x :: bits, P :: Ps, .cons h hs, hl, hb => by
    have ih := subsetSum_binVal (Ps := Ps) hs (by simpa using hl) fun y hy => hb y (by simp [hy])
    obtain ⟨win, h1, h2⟩ := h
    have hx : (f x).val = 0 ∨ (f x).val = 1 := by
      rcases hb x (by simp) with e | e <;> rw [e]
      · simp
      · exact .inr (ZMod.val_one n)
    simp only [subsetSum, binVal, wsum, digitAt, digit, h1, h2, Option.elim]
    rw [show ((f x).val + 2 * binVal f bits) % 2 = (f x).val by omega,
      show ((f x).val + 2 * binVal f bits) / 2 = binVal f bits by omega, ih]

theorem wsum_append (f : AssignedValue n → ZMod n) (wi : ℕ) :
    ∀ (a c : List (List (List (AssignedValue n)))) (P Q : List G), a.length = P.length →
      wsum f wi (a ++ c) (P ++ Q) = wsum f wi a P + wsum f wi c Q
  | [], c, [], Q, _ => by simp [wsum]
  | [], c, _ :: _, Q, h => by simp at h
  | _ :: _, c, [], Q, h => by simp at h
  | x :: a, c, p :: P, Q, h => by
    simp only [List.cons_append, wsum]
    rw [wsum_append f wi a c P Q (by simpa using h), add_assoc]

/-- The line point with the sign of group `g`. -/
def signed (L : G) (g : ℕ) : G := if g % 2 = 0 then L else -L

/-- What the groups from `g` on contribute in window `wi`. -/
def gsum (f : AssignedValue n → ZMod n) (wi : ℕ) (L : G) :
    ℕ → List (List (List (List (AssignedValue n)))) → List (List G) → G
  | g, b :: bs, P :: Ps => signed L g + wsum f wi b P + gsum f wi L (g + 1) bs Ps
  | _, _, _ => 0

/-- The line points of `m` groups from `g` on. -/
def altSum (L : G) : ℕ → ℕ → G
  | _, 0 => 0
  | g, m + 1 => signed L g + altSum L (g + 1) m

theorem altSum_eq (L : G) : ∀ m g, altSum L g m = if m % 2 = 1 then signed L g else 0
  | 0, _ => by simp [altSum]
  | 1, _ => by simp [altSum]
  | m + 2, g => by
    simp only [altSum]
    rw [altSum_eq L m (g + 1 + 1)]
    have e : signed L g + signed L (g + 1) = 0 := by
      unfold signed
      rcases Nat.mod_two_eq_zero_or_one g with h | h
      · rw [if_pos h, if_neg (by omega)]; abel
      · rw [if_neg (by omega), if_pos (by omega)]; abel
    rw [← add_assoc, e, zero_add, show (m + 2) % 2 = m % 2 by omega, show signed L (g + 1 + 1) = signed L g by
      unfold signed; rw [show (g + 1 + 1) % 2 = g % 2 by omega]]

theorem gsum_chunks (f : AssignedValue n → ZMod n) (wi : ℕ) (L : G) {k : ℕ} (hk : k ≠ 0) :
    ∀ (m : ℕ) (bits : List (List (List (AssignedValue n)))) (Ps : List G) (g : ℕ), bits.length = m →
      bits.length = Ps.length →
      gsum f wi L g (chunks k bits) (chunks k Ps) = altSum L g (chunks k bits).length + wsum f wi bits Ps := by
  intro m
  induction m using Nat.strong_induction_on with
  | _ m ih =>
    intro bits Ps g hm hl
    by_cases hb : bits = []
    · subst hb
      have : Ps = [] := List.length_eq_zero_iff.1 (by simpa using hl.symm)
      subst this
      simp [chunks_nil, gsum, altSum, wsum]
    · have hP : Ps ≠ [] := by
        intro e
        subst e
        exact hb (List.length_eq_zero_iff.1 (by simpa using hl))
      have hpos := List.length_pos_iff.2 hb
      rw [chunks_cons hk hb, chunks_cons hk hP]
      simp only [gsum, List.length_cons, altSum]
      rw [ih (bits.drop k).length (by simp; omega) _ _ (g + 1) rfl (by simp [hl])]
      have := wsum_append f wi (bits.take k) (bits.drop k) (Ps.take k) (Ps.drop k) (by simp [hl])
      rw [List.take_append_drop, List.take_append_drop] at this
      rw [this]
      abel

/-- The value of a list of windows of one bit, most significant first. -/
def horner (f : AssignedValue n → ZMod n) (bits : List (List (AssignedValue n))) : ℕ :=
  bits.foldl (fun v win => 2 * v + digit f win) 0

theorem horner_append (f : AssignedValue n → ZMod n) (bits : List (List (AssignedValue n)))
    (win : List (AssignedValue n)) : horner f (bits ++ [win]) = 2 * horner f bits + digit f win := by
  simp [horner]

theorem Windows.horner {f : AssignedValue n → ZMod n} {res : List (List (AssignedValue n))} {k : ℕ}
    (h : Windows f 1 res k) : horner f res = k := by
  rw [← h.value]
  have hl := h.len
  clear h
  induction res using List.reverseRecOn with
  | nil => rfl
  | append_singleton l win ih =>
    rw [horner_append, ih fun w hw => hl w (by simp [hw])]
    obtain ⟨x, rfl⟩ := List.length_eq_one_iff.1 (hl win (by simp))
    simp [binVal, digit]
    ring

/-- The sum of the points weighted by the leading `t` windows of their scalars. -/
def vsum (f : AssignedValue n → ZMod n) (t : ℕ) : List (List (List (AssignedValue n))) → List G → G
  | b :: bs, P :: Ps => Verif.horner f (b.take t) • P + vsum f t bs Ps
  | _, _ => 0

theorem vsum_zero (f : AssignedValue n → ZMod n) :
    ∀ (bits : List (List (List (AssignedValue n)))) (Ps : List G), vsum f 0 bits Ps = 0
  | [], _ => by simp [vsum]
  | _ :: _, [] => by simp [vsum]
  | b :: bs, P :: Ps => by
    simp only [vsum]
    rw [vsum_zero f bs Ps]
    simp [Verif.horner]

theorem vsum_succ (f : AssignedValue n → ZMod n) {t : ℕ} :
    ∀ (bits : List (List (List (AssignedValue n)))) (Ps : List G), (∀ b ∈ bits, t < b.length) →
      vsum f (t + 1) bits Ps = vsum f t bits Ps + vsum f t bits Ps + wsum f t bits Ps
  | [], _, _ => by simp [vsum, wsum]
  | _ :: _, [], _ => by simp [vsum, wsum]
  | b :: bs, P :: Ps, h => by
    simp only [vsum, wsum]
    rw [vsum_succ f bs Ps fun b hb => h b (by simp [hb])]
    have hb := h b (by simp)
    rw [List.take_add_one, List.getElem?_eq_getElem hb, Option.toList_some, horner_append, digitAt,
      List.getElem?_eq_getElem hb]
    simp only [Option.elim]
    rw [add_smul, two_mul, add_smul]
    abel

end Verif
