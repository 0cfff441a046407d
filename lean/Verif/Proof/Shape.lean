import Verif.Spec.Shape
import Verif.Proof.Parallel
import Verif.Proof.ProgAttr

/-!
# Logic for pairs of runs
-/

namespace Verif
variable {n : ℕ} {α β : Type} {st : Prop}

/-! ## Erasing the witness -/

/-- The records without the advice values. -/
def Records.shape (s : Records n) : Records n :=
  { s with inner := { s.inner with
      base_adv_record := fun _ _ => none
      range_adv_record := fun _ _ => none
      select_adv_record := fun _ _ => none } }

theorem sameShape_iff (s s' : Context n) : SameShape s s' ↔ s.offs = s'.offs ∧ s.records.shape = s'.records.shape := by
  constructor
  · rintro ⟨h1, h2, h3, h4, h5, h6, h7, h8, h9, h10, h11⟩
    refine ⟨?_, ?_⟩
    · unfold Context.offs; rw [h1, h2, h3]
    · unfold Records.shape; dsimp only; rw [h4, h5, h6, h7, h8, h9, h10, h11]
  · rintro ⟨h1, h2⟩
    unfold Context.offs at h1
    unfold Records.shape at h2
    injection h1 with a1 a2 a3
    injection h2 with b1 b2 b3 b4 b5
    injection b1 with c1 c2 c3 c4 c5 c6 c7
    exact ⟨a1, a2, a3, c2, c4, c6, c7, b2, b3, b4, b5⟩

theorem shape_adv_base (s : Records n) (o c : ℕ) (v : ZMod n) : (s.assign_adv_cell_in_base_chip o c v).shape = s.shape := rfl
theorem shape_adv_range (s : Records n) (o c : ℕ) (v : ZMod n) :
    (s.assign_adv_cell_in_range_chip o c v).shape = s.shape := rfl
theorem shape_adv_select (s : Records n) (o c : ℕ) (v : ZMod n) :
    (s.assign_adv_cell_in_select_chip o c v).shape = s.shape := rfl

theorem shape_fix_base {s s' : Records n} (h : s.shape = s'.shape) (o c : ℕ) (v : ZMod n) :
    (s.assign_fix_cell_in_base_chip o c v).shape = (s'.assign_fix_cell_in_base_chip o c v).shape :=
  congrArg (fun r => (Records.assign_fix_cell_in_base_chip r o c v)) h
theorem shape_fix_range {s s' : Records n} (h : s.shape = s'.shape) (o c : ℕ) (v : ZMod n) :
    (s.assign_fix_cell_in_range_chip o c v).shape = (s'.assign_fix_cell_in_range_chip o c v).shape :=
  congrArg (fun r => (Records.assign_fix_cell_in_range_chip r o c v)) h
theorem shape_fix_select {s s' : Records n} (h : s.shape = s'.shape) (o c : ℕ) (v : ZMod n) :
    (s.assign_fix_cell_in_select_chip o c v).shape = (s'.assign_fix_cell_in_select_chip o c v).shape :=
  congrArg (fun r => (Records.assign_fix_cell_in_select_chip r o c v)) h
theorem shape_ensure_range {s s' : Records n} (h : s.shape = s'.shape) (o : ℕ) :
    (s.ensure_range_record_size o).shape = (s'.ensure_range_record_size o).shape := by
  have e : ∀ s : Records n, (s.ensure_range_record_size o).shape = s.shape.ensure_range_record_size o := by
    intro s
    unfold Records.ensure_range_record_size
    by_cases hh : o ≥ s.range_height
    · rw [if_pos hh, if_pos (show o ≥ s.shape.range_height from hh)]; rfl
    · rw [if_neg hh, if_neg (show ¬ o ≥ s.shape.range_height from hh)]
  rw [e, e, h]

/-- What an argument of a row contributes to the circuit: its cell, if it has one. -/
inductive SchemaShape (st : Prop) : ValueSchema n → ValueSchema n → Prop where
  | assigned {a a' : AssignedValue n} (h : sh st a a') : SchemaShape st (.assigned a) (.assigned a')
  | unassigned (v v' : ZMod n) : SchemaShape st (.unassigned v) (.unassigned v')

/-- An argument of a row with its coefficient. -/
structure ArgShape (st : Prop) (p p' : ValueSchema n × ZMod n) : Prop where
  arg : SchemaShape st p.1 p'.1
  coeff : p.2 = p'.2

theorem shape_line_cell {s s' : Records n} (h : s.shape = s'.shape) (o i : ℕ) {b b' : ValueSchema n}
    (hb : SchemaShape True b b') (k : ZMod n) : (s.line_cell o i b k).shape = (s'.line_cell o i b' k).shape := by
  cases hb with
  | @assigned a a' hc =>
    have hc : a.cell = a'.cell := hc trivial
    have e : ∀ s : Records n, ∀ a : AssignedValue n, (s.line_cell o i (.assigned a) k).shape =
        (s.shape.line_cell o i (.assigned ⟨a.cell, 0⟩) k).shape := fun _ _ => rfl
    rw [e s, e s', h, hc]
  | unassigned v v' =>
    have e : ∀ s : Records n, ∀ v : ZMod n, (s.line_cell o i (.unassigned v) k).shape =
        (s.shape.line_cell o i (.unassigned 0) k).shape := fun _ _ => rfl
    rw [e s, e s', h]

theorem shape_line_cells {s s' : Records n} (h : s.shape = s'.shape) (o i : ℕ) {l l' : List (ValueSchema n × ZMod n)}
    (hl : List.Forall₂ (ArgShape True) l l') : (s.line_cells o i l).shape = (s'.line_cells o i l').shape := by
  induction hl generalizing s s' i with
  | nil => exact h
  | @cons p p' l l' hp _ ih =>
    obtain ⟨b, k⟩ := p
    obtain ⟨b', k'⟩ := p'
    obtain ⟨h1, h2⟩ := hp
    dsimp only at h1 h2
    subst h2
    exact ih (shape_line_cell h o i h1 k) (i + 1)

theorem shape_mul_cells {s s' : Records n} (h : s.shape = s'.shape) (o i : ℕ) (l : List (ZMod n)) :
    (s.mul_cells o i l).shape = (s'.mul_cells o i l).shape := by
  induction l generalizing s s' i with
  | nil => exact h
  | cons k l ih => exact ih (shape_fix_base h _ _ _) (i + 1)

/-- The records after a successful `one_line`. -/
def Records.line_done (s : Records n) (o : ℕ) (l : List (ValueSchema n × ZMod n)) (c : Option (ZMod n))
    (mul : List (ZMod n)) (next : Option (ZMod n)) : Records n :=
  let s := ((if o ≥ s.base_height then { s with base_height := o + 1 } else s).line_cells o 0 l).mul_cells o 0 mul
  let s := next.elim s fun v => s.assign_fix_cell_in_base_chip o (VAR_COLUMNS + MUL_COLUMNS) v
  c.elim s fun v => s.assign_fix_cell_in_base_chip o (VAR_COLUMNS + MUL_COLUMNS + 1) v

theorem one_line_done {s r : Records n} {o : ℕ} {l : List (ValueSchema n × ZMod n)} {c : Option (ZMod n)}
    {mul : List (ZMod n)} {next : Option (ZMod n)} (e : s.one_line o l c mul next = .ok r) :
    r = s.line_done o l c mul next := by
  unfold Records.one_line at e
  by_cases h1 : l.length ≤ VAR_COLUMNS
  swap
  · simp only [h1, not_false_eq_true, if_true] at e
    cases e
  by_cases h2 : mul.length ≤ MUL_COLUMNS
  swap
  · simp only [h1, h2, not_true_eq_false, not_false_eq_true, if_true, if_false] at e
    cases e
  simp only [h1, h2, not_true_eq_false, if_false] at e
  unfold Records.line_done
  generalize (if o ≥ s.base_height then { s with base_height := o + 1 } else s) = s0 at e ⊢
  cases next with
  | some v =>
    cases c with
    | some c => injection e with e; exact e.symm
    | none =>
      dsimp only [bind, Except.bind, pure, Except.pure] at e
      split at e
      · injection e with e; exact e.symm
      · cases e
  | none =>
    dsimp only [bind, Except.bind, pure, Except.pure] at e
    split at e
    · cases c with
      | some c => injection e with e; exact e.symm
      | none =>
        dsimp only at e
        split at e
        · injection e with e; exact e.symm
        · cases e
    · cases e

theorem shape_one_line {s s' r r' : Records n} (h : s.shape = s'.shape) (o : ℕ) {l l' : List (ValueSchema n × ZMod n)}
    (hl : List.Forall₂ (ArgShape True) l l') (c : Option (ZMod n)) (mul : List (ZMod n)) (next : Option (ZMod n))
    (e : s.one_line o l c mul next = .ok r) (e' : s'.one_line o l' c mul next = .ok r') : r.shape = r'.shape := by
  rw [one_line_done e, one_line_done e']
  have h0 : (if o ≥ s.base_height then { s with base_height := o + 1 } else s).shape =
      (if o ≥ s'.base_height then { s' with base_height := o + 1 } else s').shape := by
    have e : ∀ s : Records n, (if o ≥ s.base_height then { s with base_height := o + 1 } else s : Records n).shape =
        if o ≥ s.shape.base_height then { s.shape with base_height := o + 1 } else s.shape := by
      intro s
      by_cases hh : o ≥ s.base_height
      · rw [if_pos hh, if_pos (show o ≥ s.shape.base_height from hh)]; rfl
      · rw [if_neg hh, if_neg (show ¬ o ≥ s.shape.base_height from hh)]
    rw [e, e, h]
  have h1 := shape_mul_cells (shape_line_cells h0 o 0 hl) o 0 mul
  cases next <;> cases c
  · exact h1
  · exact shape_fix_base h1 _ _ _
  · exact shape_fix_base h1 _ _ _
  · exact shape_fix_base (shape_fix_base h1 _ _ _) _ _ _

theorem shape_one_line_with_last {s s' r r' : Records n} (h : s.shape = s'.shape) (o : ℕ)
    {l l' : List (ValueSchema n × ZMod n)} {t t' : ValueSchema n × ZMod n}
    (hl : List.Forall₂ (ArgShape True) l l') (ht : ArgShape True t t') (c : Option (ZMod n)) (mul : List (ZMod n))
    (next : Option (ZMod n)) (e : s.one_line_with_last o l t c mul next = .ok r)
    (e' : s'.one_line_with_last o l' t' c mul next = .ok r') : r.shape = r'.shape := by
  have key : ∀ {s r : Records n} {l : List (ValueSchema n × ZMod n)} {t : ValueSchema n × ZMod n},
      s.one_line_with_last o l t c mul next = .ok r →
      ∃ u, s.one_line o l c mul next = .ok u ∧ r = u.line_cell o (VAR_COLUMNS - 1) t.1 t.2 := by
    intro s r l t e
    unfold Records.one_line_with_last at e
    by_cases h1 : l.length ≤ VAR_COLUMNS - 1
    swap
    · simp only [h1, not_false_eq_true, if_true] at e
      cases e
    simp only [h1, not_true_eq_false, if_false] at e
    dsimp only [bind, Except.bind, pure, Except.pure] at e
    split at e
    · cases e
    · rename_i u hu
      injection e with e
      exact ⟨u, hu, e.symm⟩
  obtain ⟨u, hu, rfl⟩ := key e
  obtain ⟨u', hu', rfl⟩ := key e'
  obtain ⟨h1, h2⟩ := ht
  rw [h2]
  exact shape_line_cell (shape_one_line h o hl c mul next hu hu') _ _ h1 _

theorem fix_adv_range (s : Records n) (o c o' c' : ℕ) (v k : ZMod n) :
    (s.assign_adv_cell_in_range_chip o c v).assign_fix_cell_in_range_chip o' c' k =
      (s.assign_fix_cell_in_range_chip o' c' k).assign_adv_cell_in_range_chip o c v := rfl

theorem shape_range_one {s s' r r' : Records n} (h : s.shape = s'.shape) (o : ℕ) {v v' : List (ZMod n)} {x x' : ZMod n}
    {bits : ℕ} {a a' : AssignedValue n} (e : s.assign_one_line_range_value o v x bits = .ok (a, r))
    (e' : s'.assign_one_line_range_value o v' x' bits = .ok (a', r')) : r.shape = r'.shape := by
  have key : ∀ {s r : Records n} {v : List (ZMod n)} {x : ZMod n} {a : AssignedValue n},
      s.assign_one_line_range_value o v x bits = .ok (a, r) → r.shape =
        (((s.ensure_range_record_size (o + 1)).assign_fix_cell_in_range_chip o Records.AccLinesCol 1
          ).assign_fix_cell_in_range_chip o Records.TagCol (bits : ZMod n)).shape := by
    intro s r v x a e
    unfold Records.assign_one_line_range_value at e
    by_cases h1 : bits ≤ COMMON_RANGE_BITS
    swap
    · simp only [h1, not_false_eq_true, if_true] at e
      cases e
    simp only [h1, not_true_eq_false, if_false] at e
    cases v with
    | nil => cases e
    | cons v0 v =>
      injection e with e
      injection e with e1 e2
      subst e2
      simp only [fix_adv_range, shape_adv_range]
  rw [key e, key e']
  exact shape_fix_range (shape_fix_range (shape_ensure_range h _) _ _ _) _ _ _

theorem shape_range_two {s s' r r' : Records n} (h : s.shape = s'.shape) (o : ℕ) {v v' : List (ZMod n)} {x x' : ZMod n}
    {bits : ℕ} {a a' : AssignedValue n} (e : s.assign_two_line_range_value o v x bits = .ok (a, r))
    (e' : s'.assign_two_line_range_value o v' x' bits = .ok (a', r')) : r.shape = r'.shape := by
  have key : ∀ {s r : Records n} {v : List (ZMod n)} {x : ZMod n} {a : AssignedValue n},
      s.assign_two_line_range_value o v x bits = .ok (a, r) → r.shape =
        ((((s.ensure_range_record_size (o + 2)).assign_fix_cell_in_range_chip o Records.AccLinesCol (1 + 1)
          ).assign_fix_cell_in_range_chip o Records.TagCol (Records.two_line_tag0 bits : ZMod n)
          ).assign_fix_cell_in_range_chip (o + 1) Records.TagCol (Records.two_line_tag1 bits : ZMod n)).shape := by
    intro s r v x a e
    unfold Records.assign_two_line_range_value at e
    by_cases h1 : bits ≥ COMMON_RANGE_BITS * 2
    swap
    · simp only [h1, not_false_eq_true, if_true] at e
      cases e
    by_cases h2 : bits ≤ COMMON_RANGE_BITS * 4
    swap
    · simp only [h1, h2, not_true_eq_false, not_false_eq_true, if_true, if_false] at e
      cases e
    simp only [h1, h2, not_true_eq_false, if_false] at e
    rcases v with _ | ⟨v0, _ | ⟨v1, _ | ⟨v2, _ | ⟨v3, v⟩⟩⟩⟩
    · cases e
    · cases e
    · cases e
    · cases e
    · injection e with e
      injection e with e1 e2
      subst e2
      simp only [fix_adv_range, shape_adv_range]
  rw [key e, key e']
  exact shape_fix_range (shape_fix_range (shape_fix_range (shape_ensure_range h _) _ _ _) _ _ _) _ _ _

theorem shape_range_three {s s' r r' : Records n} (h : s.shape = s'.shape) (o : ℕ) {v v' : List (ZMod n)}
    {x x' : ZMod n} {bits : ℕ} {a a' : AssignedValue n} (e : s.assign_three_line_range_value o v x bits = .ok (a, r))
    (e' : s'.assign_three_line_range_value o v' x' bits = .ok (a', r')) : r.shape = r'.shape := by
  have key : ∀ {s r : Records n} {v : List (ZMod n)} {x : ZMod n} {a : AssignedValue n},
      s.assign_three_line_range_value o v x bits = .ok (a, r) → r.shape =
        (((((s.ensure_range_record_size (o + 3)).assign_fix_cell_in_range_chip o Records.AccLinesCol (1 + 1 + 1)
          ).assign_fix_cell_in_range_chip o Records.TagCol (Records.three_line_tag0 bits : ZMod n)
          ).assign_fix_cell_in_range_chip (o + 1) Records.TagCol (Records.three_line_tag1 bits : ZMod n)
          ).assign_fix_cell_in_range_chip (o + 2) Records.TagCol (Records.three_line_tag2 bits : ZMod n)).shape := by
    intro s r v x a e
    unfold Records.assign_three_line_range_value at e
    by_cases h1 : bits ≥ COMMON_RANGE_BITS * 3
    swap
    · simp only [h1, not_false_eq_true, if_true] at e
      cases e
    by_cases h2 : bits ≤ COMMON_RANGE_BITS * 6
    swap
    · simp only [h1, h2, not_true_eq_false, not_false_eq_true, if_true, if_false] at e
      cases e
    simp only [h1, h2, not_true_eq_false, if_false] at e
    rcases v with _ | ⟨v0, _ | ⟨v1, _ | ⟨v2, _ | ⟨v3, _ | ⟨v4, _ | ⟨v5, v⟩⟩⟩⟩⟩⟩
    · cases e
    · cases e
    · cases e
    · cases e
    · cases e
    · cases e
    · injection e with e
      injection e with e1 e2
      subst e2
      simp only [fix_adv_range, shape_adv_range]
  rw [key e, key e']
  exact shape_fix_range (shape_fix_range (shape_fix_range (shape_fix_range (shape_ensure_range h _) _ _ _) _ _ _) _ _ _)
    _ _ _

/-- The number of rows of a range value. -/
def rangeRows (bits : ℕ) : ℕ :=
  if bits ≤ COMMON_RANGE_BITS then 1 else if bits ≤ 4 * COMMON_RANGE_BITS then 2 else 3

theorem range_cell {s r : Records n} {o : ℕ} {v : List (ZMod n)} {x : ZMod n} {bits k : ℕ} {a : AssignedValue n}
    (e : s.assign_range_value o v x bits = .ok ((a, k), r)) :
    a.cell = ⟨.range, Records.ValueAccCol, o⟩ ∧ k = rangeRows bits := by
  unfold Records.assign_range_value at e
  unfold rangeRows
  by_cases h1 : bits ≤ COMMON_RANGE_BITS
  · rw [if_pos h1] at e ⊢
    unfold Records.assign_one_line_range_value at e
    simp only [h1, not_true_eq_false, if_false] at e
    cases v with
    | nil => cases e
    | cons v0 v => cases e; exact ⟨rfl, rfl⟩
  rw [if_neg h1] at e ⊢
  by_cases h2 : bits < 2 * COMMON_RANGE_BITS
  · rw [if_pos h2] at e; cases e
  rw [if_neg h2] at e
  by_cases h3 : bits ≤ 4 * COMMON_RANGE_BITS
  · rw [if_pos h3] at e ⊢
    generalize Records.resize v 4 = v at e
    unfold Records.assign_two_line_range_value at e
    have e1 : bits ≥ COMMON_RANGE_BITS * 2 := by omega
    have e2 : bits ≤ COMMON_RANGE_BITS * 4 := by omega
    simp only [e1, e2, not_true_eq_false, if_false] at e
    rcases v with _ | ⟨v0, _ | ⟨v1, _ | ⟨v2, _ | ⟨v3, v⟩⟩⟩⟩ <;> cases e
    exact ⟨rfl, rfl⟩
  rw [if_neg h3] at e ⊢
  by_cases h4 : bits ≤ 6 * COMMON_RANGE_BITS
  · rw [if_pos h4] at e
    generalize Records.resize v 6 = v at e
    unfold Records.assign_three_line_range_value at e
    have e1 : bits ≥ COMMON_RANGE_BITS * 3 := by omega
    have e2 : bits ≤ COMMON_RANGE_BITS * 6 := by omega
    simp only [e1, e2, not_true_eq_false, if_false] at e
    rcases v with _ | ⟨v0, _ | ⟨v1, _ | ⟨v2, _ | ⟨v3, _ | ⟨v4, _ | ⟨v5, v⟩⟩⟩⟩⟩⟩ <;> cases e
    exact ⟨rfl, rfl⟩
  · rw [if_neg h4] at e; cases e

theorem shape_range {s s' r r' : Records n} (h : s.shape = s'.shape) (o : ℕ) {v v' : List (ZMod n)} {x x' : ZMod n}
    {bits : ℕ} {a a' : AssignedValue n × ℕ} (e : s.assign_range_value o v x bits = .ok (a, r))
    (e' : s'.assign_range_value o v' x' bits = .ok (a', r')) : r.shape = r'.shape := by
  unfold Records.assign_range_value at e e'
  by_cases h1 : bits ≤ COMMON_RANGE_BITS
  · rw [if_pos h1] at e e'
    dsimp only [bind, Except.bind, pure, Except.pure] at e e'
    split at e
    · cases e
    split at e'
    · cases e'
    rename_i q hq _ q' hq'
    obtain ⟨b, u⟩ := q
    obtain ⟨b', u'⟩ := q'
    cases e
    cases e'
    exact shape_range_one h o hq hq'
  rw [if_neg h1] at e e'
  by_cases h2 : bits < 2 * COMMON_RANGE_BITS
  · rw [if_pos h2] at e; cases e
  rw [if_neg h2] at e e'
  by_cases h3 : bits ≤ 4 * COMMON_RANGE_BITS
  · rw [if_pos h3] at e e'
    dsimp only [bind, Except.bind, pure, Except.pure] at e e'
    split at e
    · cases e
    split at e'
    · cases e'
    rename_i q hq _ q' hq'
    obtain ⟨b, u⟩ := q
    obtain ⟨b', u'⟩ := q'
    cases e
    cases e'
    exact shape_range_two h o hq hq'
  rw [if_neg h3] at e e'
  by_cases h4 : bits ≤ 6 * COMMON_RANGE_BITS
  · rw [if_pos h4] at e e'
    dsimp only [bind, Except.bind, pure, Except.pure] at e e'
    split at e
    · cases e
    split at e'
    · cases e'
    rename_i q hq _ q' hq'
    obtain ⟨b, u⟩ := q
    obtain ⟨b', u'⟩ := q'
    cases e
    cases e'
    exact shape_range_three h o hq hq'
  · rw [if_neg h4] at e; cases e

theorem shape_select_height {s s' : Records n} (h : s.shape = s'.shape) (o : ℕ) :
    (if o ≥ s.select_height then { s with select_height := o + 1 } else s : Records n).shape =
      (if o ≥ s'.select_height then { s' with select_height := o + 1 } else s' : Records n).shape := by
  have e : ∀ s : Records n, (if o ≥ s.select_height then { s with select_height := o + 1 } else s : Records n).shape =
      if o ≥ s.shape.select_height then { s.shape with select_height := o + 1 } else s.shape := by
    intro s
    by_cases hh : o ≥ s.select_height
    · rw [if_pos hh, if_pos (show o ≥ s.shape.select_height from hh)]; rfl
    · rw [if_neg hh, if_neg (show ¬ o ≥ s.shape.select_height from hh)]
  rw [e, e, h]

theorem shape_cache {s s' : Records n} (h : s.shape = s'.shape) (o : ℕ) {v v' : AssignedValue n}
    (hv : v.cell = v'.cell) (k : ZMod n) : (s.assign_cache_value o v k).shape = (s'.assign_cache_value o v' k).shape := by
  have h0 := shape_select_height h o
  unfold Records.assign_cache_value
  generalize (if o ≥ s.select_height then { s with select_height := o + 1 } else s : Records n) = u at h0 ⊢
  generalize (if o ≥ s'.select_height then { s' with select_height := o + 1 } else s' : Records n) = u' at h0 ⊢
  rw [hv]
  exact congrArg (fun r : Records n => (((({ r with permutations := r.permutations ++
    [((⟨.select, Records.ValueCol, o⟩ : Cell), v'.cell)] } : Records n).enable_permute ⟨.select, Records.ValueCol, o⟩).enable_permute v'.cell
    ).assign_fix_cell_in_select_chip o Records.EncodeCol k).assign_fix_cell_in_select_chip o Records.IsLookupCol 0) h0

theorem shape_selected {s s' : Records n} (h : s.shape = s'.shape) (o : ℕ) (v v' : AssignedValue n) (k : ZMod n)
    {sel sel' : AssignedValue n} (hv : sel.cell = sel'.cell) :
    (s.assign_select_value o v k sel).2.shape = (s'.assign_select_value o v' k sel').2.shape := by
  have h0 := shape_select_height h o
  unfold Records.assign_select_value
  generalize (if o ≥ s.select_height then { s with select_height := o + 1 } else s : Records n) = u at h0 ⊢
  generalize (if o ≥ s'.select_height then { s' with select_height := o + 1 } else s' : Records n) = u' at h0 ⊢
  rw [hv]
  exact congrArg (fun r : Records n => (((({ r with permutations := r.permutations ++
    [((⟨.select, Records.SelectCol, o⟩ : Cell), sel'.cell)] } : Records n).enable_permute ⟨.select, Records.SelectCol, o⟩).enable_permute
    sel'.cell).assign_fix_cell_in_select_chip o Records.EncodeCol k).assign_fix_cell_in_select_chip o
    Records.IsLookupCol 1) h0

end Verif
