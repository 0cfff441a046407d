import Verif.Spec.Synthesis
import Verif.Proof.Log

/-! # Synthesis -/

namespace Verif
variable {n : ℕ} {s : Records n} {max_rows : ℕ}

theorem chunk_ne_zero (hb : 1 ≤ s.base_height) : chunk_size s ≠ 0 := by
  unfold chunk_size
  omega

theorem visited_iff (row : ℕ) : visited s max_rows row = true ↔
    row < max_rows ∧ row < 16 * ((s.base_height + 15) / 16) ^ 2 := by
  unfold visited chunk_num chunk_size
  rw [Bool.and_eq_true, decide_eq_true_iff, decide_eq_true_iff,
    show 16 * ((s.base_height + 15) / 16) ^ 2 = (s.base_height + 16 - 1) / 16 * ((s.base_height + 16 - 1) / 16 * 16) by
      rw [show s.base_height + 16 - 1 = s.base_height + 15 by omega]; ring]

theorem base_visited (hb : 1 ≤ s.base_height) {row : ℕ} (hm : row < max_rows) (h : row < s.base_height) :
    visited s max_rows row = true := by
  rw [visited_iff]
  refine ⟨hm, ?_⟩
  have h1 : 1 ≤ (s.base_height + 15) / 16 := by omega
  have h2 : row < 16 * ((s.base_height + 15) / 16) := by omega
  calc row < 16 * ((s.base_height + 15) / 16) := h2
    _ ≤ 16 * ((s.base_height + 15) / 16) ^ 2 := by
      apply Nat.mul_le_mul_left
      rw [Nat.pow_two]
      exact Nat.le_mul_of_pos_left _ h1

theorem base_ok (hb : 1 ≤ s.base_height) (hrow : RowsBelow s) (hm : RowsFit s max_rows) :
    ∃ l, _assign_to_base_chip s max_rows = .ok l ∧ l.adv = s.inner.base_adv_record ∧ l.fix = s.inner.base_fix_record ∧
      ∀ col row, CellReady s ⟨.base, col, row⟩ → lookup_cell l col row = .ok () := by
  unfold _assign_to_base_chip
  rw [if_neg (chunk_ne_zero hb), if_neg]
  · refine ⟨_, rfl, ?_, ?_, ?_⟩
    · funext row col
      dsimp only
      by_cases h : s.inner.base_adv_record row col = none
      · rw [h]; split <;> rfl
      · rw [if_pos (base_visited hb (hm .base row col (.inr h)) (hrow .base row col (.inr h)))]
    · funext row col
      dsimp only
      by_cases h : s.inner.base_fix_record row col = none
      · rw [h]; split <;> rfl
      · rw [if_pos ⟨hm .base row col (.inl h), hrow .base row col (.inl h)⟩]
    · intro col row ⟨h1, h2, h3⟩
      have h4 := hrow .base row col (.inr h2)
      unfold lookup_cell
      rw [if_neg (by simp only [not_not]; exact ⟨h1, h4⟩), if_pos]
      simp only [Bool.and_eq_true]
      exact ⟨⟨base_visited hb (hm .base row col (.inr h2)) h4, Option.isSome_iff_ne_none.2 h2⟩, h3⟩
  · simp only [List.any_eq_true, Bool.and_eq_true, decide_eq_true_iff]
    rintro ⟨row, -, ⟨h1, -⟩, col, -, h2, -⟩
    have := hrow .base row col (.inr (Option.isSome_iff_ne_none.1 h2))
    change row < s.base_height at this
    omega

theorem range_ok (hb : 1 ≤ s.base_height) (hrow : RowsBelow s) (hm : RowsFit s max_rows)
    (hr : ∀ r c, s.inner.range_adv_record r c ≠ none → r < 16 * ((s.base_height + 15) / 16) ^ 2) :
    ∃ l, _assign_to_range_chip s max_rows = .ok l ∧ l.adv = s.inner.range_adv_record ∧ l.fix = s.inner.range_fix_record ∧
      ∀ col row, CellReady s ⟨.range, col, row⟩ → lookup_cell l col row = .ok () := by
  have hv : ∀ r c, s.inner.range_adv_record r c ≠ none → visited s max_rows r = true := by
    intro r c h
    rw [visited_iff]
    exact ⟨hm .range r c (.inr h), hr r c h⟩
  unfold _assign_to_range_chip
  rw [if_neg (chunk_ne_zero hb), if_neg]
  · refine ⟨_, rfl, ?_, ?_, ?_⟩
    · funext row col
      dsimp only
      by_cases h : s.inner.range_adv_record row col = none
      · rw [h]; split <;> rfl
      · rw [if_pos (hv _ _ h)]
    · funext row col
      dsimp only
      by_cases h : s.inner.range_fix_record row col = none
      · rw [h]; split <;> rfl
      · have : row < s.range_height := hrow .range row col (.inl h)
        rw [if_pos ⟨hm .range row col (.inl h), by omega⟩]
    · intro col row ⟨h1, h2, h3⟩
      have h4 := hrow .range row col (.inr h2)
      unfold lookup_cell
      rw [if_neg (by simp only [not_not]; exact ⟨Nat.lt_of_lt_of_le (show col < 1 from h1) (by decide), h4⟩), if_pos]
      simp only [Bool.and_eq_true]
      exact ⟨⟨hv _ _ h2, Option.isSome_iff_ne_none.2 h2⟩, h3⟩
  · simp only [List.any_eq_true, Bool.and_eq_true, decide_eq_true_iff]
    rintro ⟨row, -, ⟨h1, -⟩, col, -, h2, -⟩
    have := hrow .range row col (.inr (Option.isSome_iff_ne_none.1 h2))
    change row < s.range_height at this
    omega

theorem select_ok (hrow : RowsBelow s) (hm : RowsFit s max_rows) :
    ∃ l, _assign_to_select_chip s max_rows = .ok l ∧ l.adv = s.inner.select_adv_record ∧
      l.fix = s.inner.select_fix_record ∧
      ∀ col row, CellReady s ⟨.select, col, row⟩ → lookup_cell l col row = .ok () := by
  unfold _assign_to_select_chip
  rw [if_neg]
  · refine ⟨_, rfl, ?_, ?_, ?_⟩
    · funext row col
      dsimp only
      by_cases h : s.inner.select_adv_record row col = none
      · rw [h]; split <;> rfl
      · have : row < s.select_height := hrow .select row col (.inr h)
        rw [if_pos ⟨hm .select row col (.inr h), by omega⟩]
    · funext row col
      dsimp only
      by_cases h : s.inner.select_fix_record row col = none
      · rw [h]; split <;> rfl
      · have : row < s.select_height := hrow .select row col (.inl h)
        rw [if_pos ⟨hm .select row col (.inl h), by omega⟩]
    · intro col row ⟨h1, h2, h3⟩
      have h4 : row < s.select_height := hrow .select row col (.inr h2)
      have h1 : col < 2 := h1
      unfold lookup_cell
      rw [if_neg (by simp only [not_not]; exact ⟨by omega, h4⟩), if_pos]
      simp only [Bool.and_eq_true, decide_eq_true_iff]
      exact ⟨⟨⟨⟨hm .select row col (.inr h2), by omega⟩, h1⟩, Option.isSome_iff_ne_none.2 h2⟩, h3⟩
  · simp only [List.any_eq_true, Bool.and_eq_true, decide_eq_true_iff]
    rintro ⟨h1, col, -, h2, -⟩
    have := hrow .select s.select_height col (.inr (Option.isSome_iff_ne_none.1 h2))
    exact lt_irrefl _ this

theorem permutation_ok {of : Chip → ChipLayout n}
    (h : ∀ c : Cell, CellReady s c → lookup_cell (of c.region) c.col c.row = .ok ()) :
    ∀ l : List (Cell × Cell), (∀ p ∈ l, CellReady s p.1 ∧ CellReady s p.2) → _assign_permutation of l = .ok l := by
  intro l
  induction l with
  | nil => intro _; rfl
  | cons p l ih =>
    intro hp
    obtain ⟨h1, h2⟩ := hp p List.mem_cons_self
    unfold _assign_permutation
    rw [h _ h1, h _ h2, ih fun q hq => hp q (List.mem_cons_of_mem _ hq)]
    rfl

theorem assign_all_ok (hb : 1 ≤ s.base_height) (hrow : RowsBelow s) (hm : RowsFit s max_rows)
    (hr : ∀ r c, s.inner.range_adv_record r c ≠ none → r < 16 * ((s.base_height + 15) / 16) ^ 2)
    (hc : CopiesReady s) : ∃ L, assign_all s max_rows = .ok L ∧ L.Is s := by
  obtain ⟨b, b1, b2, b3, b4⟩ := base_ok hb hrow hm
  obtain ⟨r, r1, r2, r3, r4⟩ := range_ok hb hrow hm hr
  obtain ⟨c, c1, c2, c3, c4⟩ := select_ok hrow hm
  unfold assign_all
  rw [b1, r1, c1]
  simp only [bind, Except.bind]
  rw [permutation_ok (s := s) _ _ hc]
  · refine ⟨_, rfl, ?_, ?_, rfl⟩
    · funext chip
      cases chip
      exacts [b2, r2, c2]
    · funext chip
      cases chip
      exacts [b3, r3, c3]
  · rintro ⟨_ | _ | _, col, row⟩ h
    exacts [b4 _ _ h, r4 _ _ h, c4 _ _ h]

/-- Records without a row of the select chip, synthesised without a select chip. -/
theorem assign_all_without_select_ok (hb : 1 ≤ s.base_height) (hrow : RowsBelow s)
    (hm : RowsFit s max_rows)
    (hr : ∀ r c, s.inner.range_adv_record r c ≠ none → r < 16 * ((s.base_height + 15) / 16) ^ 2)
    (hc : CopiesReady s) (h0 : s.select_height = 0) :
    ∃ L, assign_all_without_select s max_rows = .ok L ∧ L.Is s := by
  obtain ⟨b, b1, b2, b3, b4⟩ := base_ok hb hrow hm
  obtain ⟨r, r1, r2, r3, r4⟩ := range_ok hb hrow hm hr
  have hno : ∀ row col, s.inner.fixOf .select row col = none ∧ s.inner.advOf .select row col = none := by
    intro row col
    by_contra h
    have := hrow .select row col (by
      by_contra h'
      rw [not_or, not_not, not_not] at h'
      exact h h')
    have h0' : s.heightOf .select = 0 := h0
    omega
  unfold assign_all_without_select
  rw [b1, r1]
  simp only [bind, Except.bind]
  rw [if_neg (not_not.2 h0)]
  simp only [pure, Except.pure]
  rw [permutation_ok (s := s) _ _ hc]
  · refine ⟨_, rfl, ?_, ?_, rfl⟩
    · funext chip
      cases chip
      exacts [b2, r2, funext fun row => funext fun col => ((hno row col).2).symm]
    · funext chip
      cases chip
      exacts [b3, r3, funext fun row => funext fun col => ((hno row col).1).symm]
  · rintro ⟨_ | _ | _, col, row⟩ h
    exacts [b4 _ _ h, r4 _ _ h, absurd (hno row col).2 h.2.1]

/-- Records with a row of the select chip are refused without a select chip. -/
theorem assign_all_without_select_refuses (h : s.select_height ≠ 0) (L : Layout n) :
    assign_all_without_select s max_rows ≠ .ok L := by
  unfold assign_all_without_select
  rcases _assign_to_base_chip s max_rows with e | b
  · intro h; cases h
  rcases _assign_to_range_chip s max_rows with e | r
  · intro h; cases h
  simp only [bind, Except.bind]
  rw [if_pos h]
  intro h; cases h

end Verif
