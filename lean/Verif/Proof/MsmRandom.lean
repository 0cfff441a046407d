import Verif.Spec.MsmPosition
import Mathlib.Algebra.Group.Subgroup.Defs
import Mathlib.Data.Finset.Union
import Mathlib.Data.Set.Card
import Mathlib.Tactic.Ring
import Mathlib.Tactic.Abel

/-!
# Almost all random points are in general position
-/

namespace Verif
variable {α ι G : Type} [AddCommGroup G]

theorem AtMost.mono {k l : ℕ} {p q : α → Prop} (h : AtMost k p) (hkl : k ≤ l) (hpq : ∀ A, q A → p A) : AtMost l q :=
  let ⟨F, h1, h2⟩ := h; ⟨F, h1.trans hkl, fun A hA => h2 A (hpq A hA)⟩

theorem AtMost.one {p : α → Prop} (h : ∀ A B, p A → p B → A = B) : AtMost 1 p := by
  by_cases hp : ∃ A, p A
  · obtain ⟨A, hA⟩ := hp
    exact ⟨{A}, by simp, fun B hB => by rw [h B A hB hA]; simp⟩
  · exact ⟨∅, by simp, fun B hB => (hp ⟨B, hB⟩).elim⟩

theorem AtMost.or {k l : ℕ} {p q : α → Prop} (hp : AtMost k p) (hq : AtMost l q) : AtMost (k + l) fun A => p A ∨ q A := by
  classical
  obtain ⟨F, h1, h2⟩ := hp
  obtain ⟨E, h3, h4⟩ := hq
  refine ⟨F ∪ E, (Finset.card_union_le _ _).trans (by omega), fun A hA => ?_⟩
  rcases hA with hA | hA
  · exact Finset.mem_union_left _ (h2 A hA)
  · exact Finset.mem_union_right _ (h4 A hA)

theorem AtMost.exists_lt {k : ℕ} {p : ℕ → α → Prop} : ∀ m : ℕ, (∀ i < m, AtMost k (p i)) →
    AtMost (m * k) fun A => ∃ i < m, p i A
  | 0, _ => ⟨∅, by simp, fun A ⟨i, hi, _⟩ => by omega⟩
  | m + 1, h => ((AtMost.exists_lt m fun i hi => h i (by omega)).or (h m (by omega))).mono (by rw [Nat.succ_mul])
      fun A ⟨i, hi, hA⟩ => by
        rcases Nat.lt_succ_iff_lt_or_eq.1 hi with hi | rfl
        · exact .inl ⟨i, hi, hA⟩
        · exact .inr hA

theorem AtMost.exists_mem {k : ℕ} {p : ι → α → Prop} : ∀ l : List ι, (∀ i ∈ l, AtMost k (p i)) →
    AtMost (l.length * k) fun A => ∃ i ∈ l, p i A
  | [], _ => ⟨∅, by simp, fun A ⟨i, hi, _⟩ => by simp at hi⟩
  | i :: l, h => ((h i (by simp)).or (AtMost.exists_mem l fun j hj => h j (by simp [hj]))).mono
      (by rw [List.length_cons, Nat.succ_mul, Nat.add_comm]) fun A ⟨j, hj, hA⟩ => by
        rcases List.mem_cons.1 hj with rfl | hj
        · exact .inl hA
        · exact .inr ⟨j, hj, hA⟩

/-- A property that holds for almost all elements of a large set holds for one that also avoids another few. -/
theorem AtMost.exists_not [Finite α] {k : ℕ} {p : α → Prop} (h : AtMost k p) (hk : k < Nat.card α) : ∃ A, ¬ p A := by
  obtain ⟨F, h1, h2⟩ := h
  by_contra hc
  have : Nat.card α ≤ F.card := by
    rw [← Set.ncard_univ, ← Set.ncard_coe_finset]
    exact Set.ncard_le_ncard (fun A _ => h2 A (by by_contra hA; exact hc ⟨A, hA⟩)) F.finite_toSet
  omega

theorem not_addable {P Q : G} : ¬ Addable P Q ↔ P = Q ∨ P = -Q := by unfold Addable; tauto

/-- The points `L` for which building the table of the points `l` meets an exception. -/
theorem atMost_table (even : Bool) : ∀ l : List G, AtMost (2 * 2 ^ l.length) fun L => ∃ (before : List G) (P : G)
    (after S : List G), l = before ++ P :: after ∧ S.Sublist after ∧ ¬ Addable ((if even then L else -L) + S.sum) P
  | [] => ⟨∅, by simp, fun A ⟨b, P, a, S, e, _⟩ => by simp at e⟩
  | P :: l => by
    have ih := atMost_table even l
    have h0 : AtMost (2 ^ l.length * 2) fun L => ∃ S ∈ l.sublists, ¬ Addable ((if even then L else -L) + S.sum) P := by
      have := AtMost.exists_mem (k := 2) (p := fun (S : List G) L => ¬ Addable ((if even then L else -L) + S.sum) P) l.sublists
        fun S _ => by
          have ho : AtMost (1 + 1) fun L : G => (if even then L else -L) + S.sum = P ∨ (if even then L else -L) + S.sum = -P := by
            refine AtMost.or (AtMost.one ?_) (AtMost.one ?_) <;> intro A B hA hB <;> have := hA.trans hB.symm <;>
              cases even <;> simpa using this
          exact ho.mono (by norm_num) fun A hA => not_addable.1 hA
      rwa [List.length_sublists] at this
    refine (h0.or ih).mono (by rw [List.length_cons, pow_succ]; omega) ?_
    rintro L ⟨before, P', after, S, e, hS, hL⟩
    cases before with
    | nil =>
      simp only [List.nil_append, List.cons.injEq] at e
      obtain ⟨rfl, rfl⟩ := e
      exact .inl ⟨S, List.mem_sublists.2 hS, hL⟩
    | cons x before =>
      simp only [List.cons_append, List.cons.injEq] at e
      exact .inr ⟨before, P', after, S, e.2, hS, hL⟩

theorem lt_groupCount {size N g : ℕ} (hs : 1 ≤ size) (h : g * size < N) : g < groupCount size N := by
  unfold groupCount
  rw [Nat.lt_iff_add_one_le, Nat.le_div_iff_mul_le hs, Nat.add_mul]
  omega

theorem atMost_candidates {size : ℕ} (hs : 1 ≤ size) (Ps : List G) :
    AtMost (groupCount size Ps.length * (2 * 2 ^ size)) fun L => ¬ ∀ g (before : List G) (P : G) (after S : List G),
      groupOf size g Ps = before ++ P :: after → S.Sublist after → Addable (lineSign L g + S.sum) P := by
  refine (AtMost.exists_lt (k := 2 * 2 ^ size) (p := fun g L => ∃ (before : List G) (P : G) (after S : List G),
    groupOf size g Ps = before ++ P :: after ∧ S.Sublist after ∧
    ¬ Addable ((if decide (g % 2 = 0) then L else -L) + S.sum) P) (groupCount size Ps.length) fun g _ => ?_).mono le_rfl ?_
  · refine (atMost_table _ (groupOf size g Ps)).mono ?_ fun _ h => h
    have : (groupOf size g Ps).length ≤ size := by simp [groupOf]
    exact Nat.mul_le_mul_left _ (Nat.pow_le_pow_right (by norm_num) this)
  · intro L hL
    push Not at hL
    obtain ⟨g, before, P, after, S, e, hS, hL⟩ := hL
    refine ⟨g, lt_groupCount hs ?_, before, P, after, S, e, hS, ?_⟩
    · by_contra hc
      unfold groupOf at e
      rw [List.drop_eq_nil_of_le (by omega)] at e
      simp at e
    · simpa only [lineSign, decide_eq_true_eq] using hL

variable {T : AddSubgroup G}

theorem eq_of_double (h2 : ∀ P ∈ T, P + P = 0 → P = 0) {A B : G} (hA : A ∈ T) (hB : B ∈ T) (h : A + A = B + B) :
    A = B := by
  have := h2 (A - B) (T.sub_mem hA hB) (by rw [sub_add_sub_comm, h, sub_self])
  exact sub_eq_zero.1 this

theorem eq_of_triple (h3 : ∀ P ∈ T, P + P + P = 0 → P = 0) {A B : G} (hA : A ∈ T) (hB : B ∈ T)
    (h : A + A + A = B + B + B) : A = B := by
  have := h3 (A - B) (T.sub_mem hA hB) (by rw [sub_add_sub_comm, sub_add_sub_comm, h, sub_self])
  exact sub_eq_zero.1 this

/-- For a good `L`, all but few `A` of a subgroup without elements of order two and three are good. -/
theorem atMost_acc {W size : ℕ} (hs : 1 ≤ size) {ks : List ℕ} {Ps : List G} {L : G}
    (h2 : ∀ P ∈ T, P + P = 0 → P = 0) (h3 : ∀ P ∈ T, P + P + P = 0 → P = 0)
    (hL : ∀ g (before : List G) (P : G) (after S : List G),
      groupOf size g Ps = before ++ P :: after → S.Sublist after → Addable (lineSign L g + S.sum) P) :
    AtMost (W * (2 * groupCount size Ps.length + 5)) fun A => A ∈ T ∧ ¬ GeneralPosition W size ks Ps A L := by
  have hw : AtMost (W * (groupCount size Ps.length * 2)) fun A => ∃ wi < W, ∃ g < groupCount size Ps.length, A ∈ T ∧
      ¬ Addable (lineSign L g + windowSum W wi (groupOf size g ks) (groupOf size g Ps))
      (-A + lineRest L g + windowSum W wi (ks.take (g * size)) (Ps.take (g * size))) := by
    refine AtMost.exists_lt W fun wi _ => AtMost.exists_lt _ fun g _ => ?_
    generalize lineSign L g + windowSum W wi (groupOf size g ks) (groupOf size g Ps) = Y
    generalize windowSum W wi (ks.take (g * size)) (Ps.take (g * size)) = X
    generalize lineRest L g = Z
    have : AtMost (1 + 1) fun A => Y = -A + Z + X ∨ Y = -(-A + Z + X) := by
      refine (AtMost.one ?_).or (AtMost.one ?_) <;> intro A B hA hB <;> have := hA.symm.trans hB <;> simpa using this
    exact this.mono le_rfl fun A hA => not_addable.1 hA.2
  have hd : AtMost (W * 1) fun A => ∃ t < W, A ∈ T ∧ (A + prefixSum W t ks Ps) + (A + prefixSum W t ks Ps) = 0 := by
    refine AtMost.exists_lt W fun t _ => AtMost.one fun A B hA hB => eq_of_double h2 hA.1 hB.1 ?_
    have := hA.2.trans hB.2.symm
    rw [add_add_add_comm, add_add_add_comm B] at this
    exact add_right_cancel this
  have ha : AtMost (W * 2) fun A => ∃ t < W, A ∈ T ∧
      ¬ Addable (-A + lineRest L (groupCount size Ps.length) + windowSum W t ks Ps)
      ((A + prefixSum W t ks Ps) + (A + prefixSum W t ks Ps)) := by
    refine AtMost.exists_lt W fun t _ => ?_
    generalize lineRest L (groupCount size Ps.length) = Z
    generalize windowSum W t ks Ps = X
    generalize prefixSum W t ks Ps = Y
    have : AtMost (1 + 1) fun A => (A ∈ T ∧ -A + Z + X = (A + Y) + (A + Y)) ∨ (A ∈ T ∧ -A + Z + X = -((A + Y) + (A + Y))) := by
      refine (AtMost.one ?_).or (AtMost.one ?_)
      · intro A B hA hB
        have e : ∀ A : G, -A + Z + X = (A + Y) + (A + Y) → A + A + A = Z + X - (Y + Y) := by
          intro A h
          have : A + A + A = ((A + Y) + (A + Y)) + A - (Y + Y) := by abel
          rw [this, ← h]; abel
        exact eq_of_triple h3 hA.1 hB.1 ((e A hA.2).trans (e B hB.2).symm)
      · intro A B hA hB
        have e : ∀ A : G, -A + Z + X = -((A + Y) + (A + Y)) → A = -(Z + X + (Y + Y)) := by
          intro A h
          have h' : (A + Y) + (A + Y) = -(-A + Z + X) := by rw [h, neg_neg]
          have : A = ((A + Y) + (A + Y)) - A - (Y + Y) := by abel
          rw [this, h']; abel
        exact (e A hA.2).trans (e B hB.2).symm
    exact this.mono le_rfl fun A hA => (not_addable.1 hA.2).imp (fun e => ⟨hA.1, e⟩) fun e => ⟨hA.1, e⟩
  have hl : AtMost (W * 2) fun A => ∃ t < W, ¬ Addable (A + prefixSum W (t + 1) ks Ps + L) (-L) := by
    refine AtMost.exists_lt W fun t _ => ?_
    have : AtMost (1 + 1) fun A => A + prefixSum W (t + 1) ks Ps + L = -L ∨ A + prefixSum W (t + 1) ks Ps + L = - -L := by
      refine (AtMost.one ?_).or (AtMost.one ?_) <;> intro A B hA hB <;> have := hA.trans hB.symm <;> simpa using this
    exact this.mono le_rfl fun A hA => not_addable.1 hA
  refine (((hw.or hd).or ha).or hl).mono (le_of_eq (by ring)) ?_
  rintro A ⟨hA, hn⟩
  by_contra hc
  push Not at hc
  obtain ⟨⟨⟨h1, h4⟩, h5⟩, h6⟩ := hc
  refine hn ⟨hL, fun wi g hwi hg => ?_, fun t ht => h4 t ht hA, fun t ht => h5 t ht hA, fun _ t ht => h6 t ht⟩
  exact h1 wi hwi g (lt_groupCount hs hg) hA

/-- All but few `L` are good, and for these all but few `A` are. -/
theorem atMost_position {W size : ℕ} (hs : 1 ≤ size) (ks : List ℕ) (Ps : List G)
    (h2 : ∀ P ∈ T, P + P = 0 → P = 0) (h3 : ∀ P ∈ T, P + P + P = 0 → P = 0) :
    AtMost (groupCount size Ps.length * (2 * 2 ^ size)) fun L =>
      ¬ AtMost (W * (2 * groupCount size Ps.length + 5)) fun A => A ∈ T ∧ ¬ GeneralPosition W size ks Ps A L :=
  (atMost_candidates hs Ps).mono le_rfl fun _ hL hc => hL (atMost_acc hs h2 h3 hc)

theorem groupSize_le {best N : ℕ} (hb : 1 ≤ best) (hN : 1 ≤ N) : groupSize best N ≤ best ∧ 1 ≤ groupSize best N := by
  unfold groupSize
  have h1 : 1 ≤ groupCount best N := by
    unfold groupCount
    rw [Nat.le_div_iff_mul_le hb]; omega
  have h2 : N ≤ best * groupCount best N := by
    unfold groupCount
    have := Nat.div_add_mod (N + best - 1) best
    have := Nat.mod_lt (N + best - 1) hb
    omega
  constructor
  · rw [Nat.div_le_iff_le_mul_add_pred h1, Nat.mul_comm]; omega
  · rw [Nat.le_div_iff_mul_le h1]; omega

theorem groupCount_le {size N : ℕ} (hs : 1 ≤ size) (hN : 1 ≤ N) : groupCount size N ≤ N := by
  unfold groupCount
  rw [Nat.div_le_iff_le_mul_add_pred hs]
  have : N * 1 ≤ N * size := Nat.mul_le_mul_left _ hs
  have : size * N = N * size := Nat.mul_comm _ _
  omega

end Verif
