import Verif.Model.BaseChip
import Verif.Proof.Logic

/-!
# The effect of `one_line` and `one_line_with_last` on a fresh context
-/

namespace Verif

variable {n : ℕ}

/-- Copy constraints of a row. -/
def linePerms (offset : ℕ) : ℕ → List (ValueSchema n × ZMod n) → List (Cell × Cell)
  | _, [] => []
  | i, (b, _) :: rest =>
    (match b.cell with | some cell => [(cell, ⟨.base, i, offset⟩)] | none => []) ++
      linePerms offset (i + 1) rest

theorem mem_linePerms {offset : ℕ} {p : Cell × Cell} :
    ∀ {i : ℕ} {l : List (ValueSchema n × ZMod n)},
      p ∈ linePerms offset i l ↔
        ∃ k b y, l[k]? = some (b, y) ∧ b.cell = some p.1 ∧ p.2 = ⟨.base, i + k, offset⟩
  | i, [] => by simp [linePerms]
  | i, (b, y) :: rest => by
    rw [linePerms, List.mem_append, mem_linePerms]
    constructor
    · rintro (h | ⟨k, b', y', h1, h2, h3⟩)
      · refine ⟨0, b, y, by simp, ?_⟩
        cases hb : b.cell with
        | none => simp [hb] at h
        | some cell => simp only [hb, List.mem_singleton] at h; subst h; simp
      · exact ⟨k + 1, b', y', by simpa using h1, h2, by rw [h3]; congr 1; omega⟩
    · rintro ⟨k, b', y', h1, h2, h3⟩
      cases k with
      | zero =>
        left
        simp only [List.getElem?_cons_zero, Option.some.injEq, Prod.mk.injEq] at h1
        obtain ⟨rfl, rfl⟩ := h1
        rw [h2]
        simp only [List.mem_singleton]
        exact Prod.ext rfl h3
      | succ k =>
        right
        exact ⟨k, b', y', by simpa using h1, h2, by rw [h3]; congr 1; omega⟩

/-- The effect of adding one base-chip row. -/
structure RowAdded (s t : Context n) (fix adv : ℕ → Option (ZMod n)) (perms : List (Cell × Cell)) :
    Prop where
  baseOff : t.base_offset = s.base_offset + 1
  rangeOff : t.range_offset = s.range_offset
  selOff : t.select_offset = s.select_offset
  fix : ∀ r k, t.records.inner.base_fix_record r k =
    if r = s.base_offset then fix k else s.records.inner.base_fix_record r k
  adv : ∀ r k, t.records.inner.base_adv_record r k =
    if r = s.base_offset then adv k else s.records.inner.base_adv_record r k
  rangeFix : t.records.inner.range_fix_record = s.records.inner.range_fix_record
  rangeAdv : t.records.inner.range_adv_record = s.records.inner.range_adv_record
  selFix : t.records.inner.select_fix_record = s.records.inner.select_fix_record
  selAdv : t.records.inner.select_adv_record = s.records.inner.select_adv_record
  perms : t.records.permutations = s.records.permutations ++ perms

namespace RowAdded
variable {s t : Context n} {fix adv : ℕ → Option (ZMod n)} {perms : List (Cell × Cell)}

theorem fresh (h : RowAdded s t fix adv perms) (hs : s.Fresh) : t.Fresh where
  baseFix r c hr := by
    rw [h.baseOff] at hr
    rw [h.fix, if_neg (by omega)]; exact hs.baseFix r c (by omega)
  baseAdv r c hr := by
    rw [h.baseOff] at hr
    rw [h.adv, if_neg (by omega)]; exact hs.baseAdv r c (by omega)
  rangeFix r c hr := by rw [h.rangeFix]; exact hs.rangeFix r c (h.rangeOff ▸ hr)
  rangeAdv r c hr := by rw [h.rangeAdv]; exact hs.rangeAdv r c (h.rangeOff ▸ hr)
  selFix r c hr := by rw [h.selFix]; exact hs.selFix r c (h.selOff ▸ hr)
  selAdv r c hr := by rw [h.selAdv]; exact hs.selAdv r c (h.selOff ▸ hr)

theorem grows (h : RowAdded s t fix adv perms) : Grows s t where
  baseOff := by rw [h.baseOff]; omega
  rangeOff := h.rangeOff.ge
  selOff := h.selOff.ge
  baseFix r k hr := by rw [h.fix, if_neg (by omega)]
  baseAdv r k hr := by rw [h.adv, if_neg (by omega)]
  rangeFix r k _ := by rw [h.rangeFix]
  rangeAdv r k _ := by rw [h.rangeAdv]
  selFix r k _ := by rw [h.selFix]
  selAdv r k _ := by rw [h.selAdv]
  perms := ⟨perms, h.perms⟩

theorem lt_usable (h : RowAdded s t fix adv perms) {c : Circuit n} (e : t.Embeds c) :
    s.base_offset < c.usable := by
  have := e.fits.base
  rw [h.baseOff] at this
  omega

theorem baseFix_eq (h : RowAdded s t fix adv perms) {c : Circuit n} (e : t.Embeds c) (k : ℕ) :
    c.baseFix s.base_offset k = (fix k).getD 0 := by
  rw [e.base _ _ (by rw [h.baseOff]; omega), h.fix, if_pos rfl]

theorem copies (h : RowAdded s t fix adv perms) {c : Circuit n} (e : t.Embeds c) {p : Cell × Cell}
    (hp : p ∈ perms) : p ∈ c.copies :=
  e.copies p (by rw [h.perms]; exact List.mem_append_right _ hp)

theorem honest_eq (h : RowAdded s t fix adv perms) {a : Advice n} (e : Agrees t a) (k : ℕ) :
    a ⟨.base, k, s.base_offset⟩ = (adv k).getD 0 := by
  rw [e.base _ _ (by rw [h.baseOff]; omega), h.adv, if_pos rfl]

end RowAdded

/-! ## Records-level lemmas -/

namespace Records

@[simp] theorem line_cell_inner_fix (s : Records n) (o i : ℕ) (b : ValueSchema n) (y : ZMod n) :
    (s.line_cell o i b y).inner.base_fix_record = setCell s.inner.base_fix_record o i y := by
  unfold line_cell; cases b.cell <;> rfl

@[simp] theorem line_cell_inner_adv (s : Records n) (o i : ℕ) (b : ValueSchema n) (y : ZMod n) :
    (s.line_cell o i b y).inner.base_adv_record = setCell s.inner.base_adv_record o i b.value := by
  unfold line_cell; cases b.cell <;> rfl

theorem line_cell_rest (s : Records n) (o i : ℕ) (b : ValueSchema n) (y : ZMod n) :
    (s.line_cell o i b y).inner.range_fix_record = s.inner.range_fix_record ∧
    (s.line_cell o i b y).inner.range_adv_record = s.inner.range_adv_record ∧
    (s.line_cell o i b y).inner.select_fix_record = s.inner.select_fix_record ∧
    (s.line_cell o i b y).inner.select_adv_record = s.inner.select_adv_record := by
  unfold line_cell; cases b.cell <;> exact ⟨rfl, rfl, rfl, rfl⟩

theorem line_cell_perms (s : Records n) (o i : ℕ) (b : ValueSchema n) (y : ZMod n) :
    (s.line_cell o i b y).permutations = s.permutations ++ linePerms o i [(b, y)] := by
  unfold line_cell linePerms linePerms
  cases b.cell <;> simp [assign_adv_cell_in_base_chip, assign_fix_cell_in_base_chip, enable_permute]

theorem line_cells_rest (o : ℕ) : ∀ (l : List (ValueSchema n × ZMod n)) (s : Records n) (i : ℕ),
    (s.line_cells o i l).inner.range_fix_record = s.inner.range_fix_record ∧
    (s.line_cells o i l).inner.range_adv_record = s.inner.range_adv_record ∧
    (s.line_cells o i l).inner.select_fix_record = s.inner.select_fix_record ∧
    (s.line_cells o i l).inner.select_adv_record = s.inner.select_adv_record ∧
    (s.line_cells o i l).permutations = s.permutations ++ linePerms o i l
  | [], s, i => by simp [line_cells, linePerms]
  | (b, y) :: l, s, i => by
    obtain ⟨h1, h2, h3, h4, h5⟩ := line_cells_rest o l (s.line_cell o i b y) (i + 1)
    obtain ⟨k1, k2, k3, k4⟩ := line_cell_rest s o i b y
    rw [line_cells]
    refine ⟨h1.trans k1, h2.trans k2, h3.trans k3, h4.trans k4, ?_⟩
    rw [h5, line_cell_perms, List.append_assoc]
    simp [linePerms]

theorem line_cells_fix (o : ℕ) : ∀ (l : List (ValueSchema n × ZMod n)) (s : Records n) (i r k : ℕ),
    (s.line_cells o i l).inner.base_fix_record r k =
      if r = o ∧ i ≤ k ∧ k < i + l.length then (l[k - i]?).map Prod.snd
      else s.inner.base_fix_record r k
  | [], s, i, r, k => by
    rw [line_cells, if_neg (by simp)]
  | (b, y) :: l, s, i, r, k => by
    rw [line_cells, line_cells_fix o l, line_cell_inner_fix]
    unfold setCell
    by_cases hr : r = o
    · subst hr
      by_cases h1 : k = i
      · subst h1; simp
      · by_cases h2 : i + 1 ≤ k
        · have : k - i = (k - (i + 1)) + 1 := by omega
          simp only [true_and, h2, h1, if_false, this, List.getElem?_cons_succ, List.length_cons]
          by_cases h3 : k < i + 1 + l.length
          · rw [if_pos h3, if_pos ⟨by omega, by omega⟩]
          · rw [if_neg h3, if_neg (by omega)]
        · simp [h1, h2, show ¬ (i ≤ k) by omega]
    · simp [hr]

theorem line_cells_adv (o : ℕ) : ∀ (l : List (ValueSchema n × ZMod n)) (s : Records n) (i r k : ℕ),
    (s.line_cells o i l).inner.base_adv_record r k =
      if r = o ∧ i ≤ k ∧ k < i + l.length then (l[k - i]?).map fun p => p.1.value
      else s.inner.base_adv_record r k
  | [], s, i, r, k => by
    rw [line_cells, if_neg (by simp)]
  | (b, y) :: l, s, i, r, k => by
    rw [line_cells, line_cells_adv o l, line_cell_inner_adv]
    unfold setCell
    by_cases hr : r = o
    · subst hr
      by_cases h1 : k = i
      · subst h1; simp
      · by_cases h2 : i + 1 ≤ k
        · have : k - i = (k - (i + 1)) + 1 := by omega
          simp only [true_and, h2, h1, if_false, this, List.getElem?_cons_succ, List.length_cons]
          by_cases h3 : k < i + 1 + l.length
          · rw [if_pos h3, if_pos ⟨by omega, by omega⟩]
          · rw [if_neg h3, if_neg (by omega)]
        · simp [h1, h2, show ¬ (i ≤ k) by omega]
    · simp [hr]

theorem mul_cells_rest (o : ℕ) : ∀ (l : List (ZMod n)) (s : Records n) (i : ℕ),
    (s.mul_cells o i l).inner.base_adv_record = s.inner.base_adv_record ∧
    (s.mul_cells o i l).inner.range_fix_record = s.inner.range_fix_record ∧
    (s.mul_cells o i l).inner.range_adv_record = s.inner.range_adv_record ∧
    (s.mul_cells o i l).inner.select_fix_record = s.inner.select_fix_record ∧
    (s.mul_cells o i l).inner.select_adv_record = s.inner.select_adv_record ∧
    (s.mul_cells o i l).permutations = s.permutations
  | [], s, i => by simp [mul_cells]
  | y :: l, s, i => by
    rw [mul_cells]
    exact mul_cells_rest o l _ (i + 1)

theorem mul_cells_fix (o : ℕ) : ∀ (l : List (ZMod n)) (s : Records n) (i r k : ℕ),
    (s.mul_cells o i l).inner.base_fix_record r k =
      if r = o ∧ 5 + i ≤ k ∧ k < 5 + i + l.length then l[k - (5 + i)]?
      else s.inner.base_fix_record r k
  | [], s, i, r, k => by
    rw [mul_cells, if_neg (by simp)]
  | y :: l, s, i, r, k => by
    rw [mul_cells, mul_cells_fix o l]
    show (if _ then _ else setCell _ _ _ _ _ _) = _
    unfold setCell
    by_cases hr : r = o
    · subst hr
      by_cases h1 : k = 5 + i
      · subst h1; simp
      · by_cases h2 : 5 + (i + 1) ≤ k
        · have : k - (5 + i) = (k - (5 + (i + 1))) + 1 := by omega
          simp only [true_and, h2, h1, if_false, this, List.getElem?_cons_succ, List.length_cons]
          by_cases h3 : k < 5 + (i + 1) + l.length
          · rw [if_pos h3, if_pos ⟨by omega, by omega⟩]
          · rw [if_neg h3, if_neg (by omega)]
        · simp [h1, h2, show ¬ (5 + i ≤ k) by omega]
    · simp [hr]

end Records

/-- Fixed columns of the row written by `one_line`. -/
def rowFix (pairs : List (ValueSchema n × ZMod n)) (constant : Option (ZMod n)) (mul : List (ZMod n))
    (next : Option (ZMod n)) (k : ℕ) : Option (ZMod n) :=
  if k < 5 then (pairs[k]?).map Prod.snd
  else if k < 7 then mul[k - 5]?
  else if k = 7 then next
  else if k = 8 then constant
  else none

/-- Advice columns of the row written by `one_line`. -/
def rowAdv (pairs : List (ValueSchema n × ZMod n)) (k : ℕ) : Option (ZMod n) :=
  (pairs[k]?).map fun p => p.1.value

theorem Records.one_line_spec {s : Records n} {o : ℕ} {pairs : List (ValueSchema n × ZMod n)}
    {constant : Option (ZMod n)} {mul : List (ZMod n)} {next : Option (ZMod n)}
    (hp : pairs.length ≤ 5) (hm : mul.length ≤ 2)
    (h7 : ∀ k, s.inner.base_fix_record o k = none) (hadv : ∀ k, s.inner.base_adv_record o k = none) :
    ∃ t, s.one_line o pairs constant mul next = .ok t ∧
      (∀ r k, t.inner.base_fix_record r k =
        if r = o then rowFix pairs constant mul next k else s.inner.base_fix_record r k) ∧
      (∀ r k, t.inner.base_adv_record r k =
        if r = o then rowAdv pairs k else s.inner.base_adv_record r k) ∧
      t.inner.range_fix_record = s.inner.range_fix_record ∧
      t.inner.range_adv_record = s.inner.range_adv_record ∧
      t.inner.select_fix_record = s.inner.select_fix_record ∧
      t.inner.select_adv_record = s.inner.select_adv_record ∧
      t.permutations = s.permutations ++ linePerms o 0 pairs := by
  set s1 : Records n := if o ≥ s.base_height then { s with base_height := o + 1 } else s with hs1
  have e1 : s1.inner = s.inner := by rw [hs1]; split <;> rfl
  have e2 : s1.permutations = s.permutations := by rw [hs1]; split <;> rfl
  set s2 := s1.line_cells o 0 pairs with hs2
  obtain ⟨a1, a2, a3, a4, a5⟩ := line_cells_rest o pairs s1 0
  rw [← hs2, e1] at a1 a2 a3 a4
  rw [← hs2, e2] at a5
  set s3 := s2.mul_cells o 0 mul with hs3
  obtain ⟨b0, b1, b2, b3, b4, b5⟩ := mul_cells_rest o mul s2 0
  rw [← hs3] at b0 b1 b2 b3 b4 b5
  have f3 : ∀ r k, s3.inner.base_fix_record r k =
      if r = o then (if k < 5 then (pairs[k]?).map Prod.snd else if k < 7 then mul[k - 5]? else none)
      else s.inner.base_fix_record r k := by
    intro r k
    rw [hs3, mul_cells_fix, hs2, line_cells_fix, e1]
    by_cases hr : r = o
    · subst hr
      by_cases hk : k < 5
      · simp only [true_and, hk, if_true]
        rw [if_neg (by omega)]
        by_cases hk' : k < pairs.length
        · rw [if_pos (by omega), Nat.sub_zero]
        · rw [if_neg (by omega), h7, List.getElem?_eq_none (by omega)]; rfl
      · simp only [true_and, hk, if_false, if_true]
        by_cases hk7 : k < 5 + mul.length
        · rw [if_pos (by omega), if_pos (by omega)]
        · rw [if_neg (by omega), if_neg (by omega), h7]
          by_cases hk' : k < 7
          · rw [if_pos hk', List.getElem?_eq_none (by omega)]
          · rw [if_neg hk']
    · simp [hr]
  have g3 : ∀ r k, s3.inner.base_adv_record r k =
      if r = o then rowAdv pairs k else s.inner.base_adv_record r k := by
    intro r k
    rw [b0, hs2, line_cells_adv, e1]
    by_cases hr : r = o
    · subst hr
      by_cases hk' : k < pairs.length
      · rw [if_pos (by omega), Nat.sub_zero, if_pos rfl]; rfl
      · rw [if_neg (by omega), hadv, if_pos rfl, rowAdv, List.getElem?_eq_none (by omega)]; rfl
    · simp [hr]
  have key : s.one_line o pairs constant mul next = (do
      let s ← match next with
        | some v => pure (s3.assign_fix_cell_in_base_chip o (VAR_COLUMNS + MUL_COLUMNS) v)
        | none =>
          if (s3.inner.base_fix_record o (VAR_COLUMNS + MUL_COLUMNS)).isNone then pure s3
          else throw .assertion
      match constant with
        | some v => pure (s.assign_fix_cell_in_base_chip o (VAR_COLUMNS + MUL_COLUMNS + 1) v)
        | none =>
          if (s.inner.base_fix_record o (VAR_COLUMNS + MUL_COLUMNS + 1)).isNone then pure s
          else throw .assertion) := by
    unfold one_line
    rw [if_neg (by simpa using hp), if_neg (by simpa using hm)]
    rfl
  rw [key]
  have n7 : s3.inner.base_fix_record o (VAR_COLUMNS + MUL_COLUMNS) = none := by
    show s3.inner.base_fix_record o 7 = none
    rw [f3]; simp
  have n8 : s3.inner.base_fix_record o (VAR_COLUMNS + MUL_COLUMNS + 1) = none := by
    show s3.inner.base_fix_record o 8 = none
    rw [f3]; simp
  have c1 := b1.trans a1
  have c2 := b2.trans a2
  have c3 := b3.trans a3
  have c4 := b4.trans a4
  have c5 := b5.trans a5
  cases next with
  | none =>
    cases constant with
    | none =>
      refine ⟨s3, by simp [n7, n8]; rfl, ?_, g3, c1, c2, c3, c4, c5⟩
      intro r k
      rw [f3]
      by_cases hr : r = o
      · simp only [hr, if_true, rowFix]; repeat' split
        all_goals rfl
      · simp [hr]
    | some v =>
      refine ⟨s3.assign_fix_cell_in_base_chip o 8 v, by simp [n7]; rfl, ?_, g3, c1, c2, c3, c4, c5⟩
      intro r k
      show setCell _ _ _ _ _ _ = _
      unfold setCell
      rw [f3]
      by_cases hr : r = o
      · simp only [hr, true_and, if_true, rowFix]; repeat' split
        all_goals first | rfl | omega
      · simp [hr]
  | some u =>
    cases constant with
    | none =>
      refine ⟨s3.assign_fix_cell_in_base_chip o 7 u, ?_, ?_, g3, c1, c2, c3, c4, c5⟩
      · have : (s3.assign_fix_cell_in_base_chip o (VAR_COLUMNS + MUL_COLUMNS) u).inner.base_fix_record o
            (VAR_COLUMNS + MUL_COLUMNS + 1) = none := by
          show setCell _ _ _ _ _ _ = _
          simp [setCell, n8]
        simp [this]; rfl
      intro r k
      show setCell _ _ _ _ _ _ = _
      unfold setCell
      rw [f3]
      by_cases hr : r = o
      · simp only [hr, true_and, if_true, rowFix]; repeat' split
        all_goals first | rfl | omega
      · simp [hr]
    | some v =>
      refine ⟨(s3.assign_fix_cell_in_base_chip o 7 u).assign_fix_cell_in_base_chip o 8 v, rfl, ?_, g3,
        c1, c2, c3, c4, c5⟩
      intro r k
      show setCell (setCell _ _ _ _) _ _ _ _ _ = _
      unfold setCell
      rw [f3]
      by_cases hr : r = o
      · simp only [hr, true_and, if_true, rowFix]; repeat' split
        all_goals first | rfl | omega
      · simp [hr]

theorem one_line_run {s : Context n} (hs : s.Fresh) {pairs : List (ValueSchema n × ZMod n)}
    {constant : Option (ZMod n)} {mul : List (ZMod n)} {next : Option (ZMod n)}
    (hp : pairs.length ≤ 5) (hm : mul.length ≤ 2) :
    ∃ t, one_line pairs constant mul next s = .ok (lineCells s.base_offset pairs, t) ∧
      RowAdded s t (rowFix pairs constant mul next) (rowAdv pairs) (linePerms s.base_offset 0 pairs) := by
  obtain ⟨t, h0, h1, h2, h3, h4, h5, h6, h7⟩ := Records.one_line_spec (s := s.records)
    (o := s.base_offset) (constant := constant) (next := next) hp hm
    (fun k => hs.baseFix _ k le_rfl) (fun k => hs.baseAdv _ k le_rfl)
  refine ⟨{ s with records := t, base_offset := s.base_offset + 1 }, ?_, ?_⟩
  · unfold one_line; rw [h0]
  · exact ⟨rfl, rfl, rfl, h1, h2, h3, h4, h5, h6, h7⟩

/-- Fixed columns of the row written by `one_line_with_last`. -/
def rowFixL (pairs : List (ValueSchema n × ZMod n)) (last : ValueSchema n × ZMod n)
    (constant : Option (ZMod n)) (mul : List (ZMod n)) (next : Option (ZMod n)) (k : ℕ) :
    Option (ZMod n) :=
  if k = 4 then some last.2 else rowFix pairs constant mul next k

/-- Advice columns of the row written by `one_line_with_last`. -/
def rowAdvL (pairs : List (ValueSchema n × ZMod n)) (last : ValueSchema n × ZMod n) (k : ℕ) :
    Option (ZMod n) :=
  if k = 4 then some last.1.value else rowAdv pairs k

theorem one_line_with_last_run {s : Context n} (hs : s.Fresh) {pairs : List (ValueSchema n × ZMod n)}
    {last : ValueSchema n × ZMod n}
    {constant : Option (ZMod n)} {mul : List (ZMod n)} {next : Option (ZMod n)}
    (hp : pairs.length ≤ 4) (hm : mul.length ≤ 2) :
    ∃ t, one_line_with_last pairs last constant mul next s =
        .ok ((lineCells s.base_offset pairs, ⟨⟨.base, 4, s.base_offset⟩, last.1.value⟩), t) ∧
      RowAdded s t (rowFixL pairs last constant mul next) (rowAdvL pairs last)
        (linePerms s.base_offset 0 pairs ++ linePerms s.base_offset 4 [last]) := by
  obtain ⟨t, h0, h1, h2, h3, h4, h5, h6, h7⟩ := Records.one_line_spec (s := s.records)
    (o := s.base_offset) (constant := constant) (next := next) (pairs := pairs) (by omega) hm
    (fun k => hs.baseFix _ k le_rfl) (fun k => hs.baseAdv _ k le_rfl)
  have key : s.records.one_line_with_last s.base_offset pairs last constant mul next
      = .ok (t.line_cell s.base_offset 4 last.1 last.2) := by
    unfold Records.one_line_with_last
    rw [if_neg (by simpa using hp), h0]; rfl
  refine ⟨{ s with records := t.line_cell s.base_offset 4 last.1 last.2,
                   base_offset := s.base_offset + 1 }, ?_, ?_⟩
  · unfold one_line_with_last; rw [key]; rfl
  · obtain ⟨k1, k2, k3, k4⟩ := Records.line_cell_rest t s.base_offset 4 last.1 last.2
    refine ⟨rfl, rfl, rfl, ?_, ?_, k1.trans h3, k2.trans h4, k3.trans h5, k4.trans h6, ?_⟩
    · intro r k
      show (t.line_cell s.base_offset 4 last.1 last.2).inner.base_fix_record r k = _
      rw [Records.line_cell_inner_fix]
      unfold setCell
      rw [h1]
      by_cases hr : r = s.base_offset <;> by_cases hk : k = 4 <;> simp [hr, hk, rowFixL]
    · intro r k
      show (t.line_cell s.base_offset 4 last.1 last.2).inner.base_adv_record r k = _
      rw [Records.line_cell_inner_adv]
      unfold setCell
      rw [h2]
      by_cases hr : r = s.base_offset <;> by_cases hk : k = 4 <;> simp [hr, hk, rowAdvL]
    · show (t.line_cell s.base_offset 4 last.1 last.2).permutations = _
      rw [Records.line_cell_perms, h7, List.append_assoc]


/-! ## Triples for rows -/

/-- The base gate as a function of the fixed columns, the advice columns and the next row's last column. -/
def gateEq (fix x : ℕ → ZMod n) (nx : ZMod n) : ZMod n :=
  fix 8 + nx * fix 7 + x 0 * fix 0 + x 1 * fix 1 + x 2 * fix 2 + x 3 * fix 3 + x 4 * fix 4
    + x 0 * x 1 * fix 5 + x 2 * x 3 * fix 6

theorem baseGate_eq (c : Circuit n) (w : Advice n) (r : ℕ) :
    c.baseGate w r = gateEq (c.baseFix r) (fun k => w ⟨.base, k, r⟩) (w ⟨.base, 4, r + 1⟩) := rfl

/-- Everything a row written by `one_line` guarantees about a satisfying assignment. -/
structure RowFacts (c : Circuit n) (w : Advice n) (r : ℕ) (fix : ℕ → Option (ZMod n))
    (pairs : List (ValueSchema n × ZMod n)) : Prop where
  usable : r < c.usable
  fixed : ∀ k, c.baseFix r k = (fix k).getD 0
  gate : gateEq (fun k => (fix k).getD 0) (fun k => w ⟨.base, k, r⟩) (w ⟨.base, 4, r + 1⟩) = 0
  copy : ∀ (k : ℕ) v y, pairs[k]? = some (ValueSchema.assigned v, y) → w ⟨.base, k, r⟩ = w v.cell

theorem RowAdded.facts {s t : Context n} {fix adv : ℕ → Option (ZMod n)} {perms : List (Cell × Cell)}
    (h : RowAdded s t fix adv perms) {c : Circuit n} {w : Advice n} (hw : c.Sat w) (e : t.Embeds c)
    {pairs : List (ValueSchema n × ZMod n)}
    (hp : ∀ p ∈ linePerms s.base_offset 0 pairs, p ∈ perms) :
    RowFacts c w s.base_offset fix pairs where
  usable := h.lt_usable e
  fixed := h.baseFix_eq e
  gate := by
    have := hw.base _ (h.lt_usable e)
    rw [baseGate_eq] at this
    rwa [show c.baseFix s.base_offset = fun k => (fix k).getD 0 from funext (h.baseFix_eq e)] at this
  copy k v y hk := by
    have : ((v.cell, ⟨.base, k, s.base_offset⟩) : Cell × Cell) ∈ perms :=
      hp _ (mem_linePerms.2 ⟨k, .assigned v, y, hk, rfl, by simp⟩)
    exact (hw.copy _ (h.copies e this)).symm

section
variable {c : Circuit n} {w : Advice n} {pairs : List (ValueSchema n × ZMod n)}
  {last : ValueSchema n × ZMod n} {constant : Option (ZMod n)} {mul : List (ZMod n)}
  {next : Option (ZMod n)}

theorem S_one_line (hw : c.Sat w) (hp : pairs.length ≤ 5 := by simp) (hm : mul.length ≤ 2 := by simp) :
    S c (one_line pairs constant mul next) (fun cells => ∃ r, cells = lineCells r pairs ∧
      RowFacts c w r (rowFix pairs constant mul next) pairs) := by
  intro s a t hs h
  obtain ⟨t', h1, h2⟩ := one_line_run hs (constant := constant) (next := next) hp hm
  rw [h1] at h
  cases h
  exact ⟨h2.fresh hs, h2.grows, fun e => ⟨_, rfl, h2.facts hw e fun p hp => hp⟩⟩

theorem S_one_line_with_last (hw : c.Sat w) (hp : pairs.length ≤ 4 := by simp)
    (hm : mul.length ≤ 2 := by simp) :
    S c (one_line_with_last pairs last constant mul next) (fun cells => ∃ r,
      cells = (lineCells r pairs, ⟨⟨.base, 4, r⟩, last.1.value⟩) ∧
      RowFacts c w r (rowFixL pairs last constant mul next) pairs ∧
      ∀ v, last.1 = .assigned v → w ⟨.base, 4, r⟩ = w v.cell) := by
  intro s a t hs h
  obtain ⟨t', h1, h2⟩ := one_line_with_last_run hs (constant := constant) (next := next) (last := last)
    hp hm
  rw [h1] at h
  cases h
  refine ⟨h2.fresh hs, h2.grows, fun e => ⟨_, rfl, h2.facts hw e fun p hp => List.mem_append_left _ hp,
    ?_⟩⟩
  intro v hv
  have : ((v.cell, ⟨.base, 4, s.base_offset⟩) : Cell × Cell) ∈ c.copies := by
    refine h2.copies e (List.mem_append_right _ (mem_linePerms.2 ⟨0, last.1, last.2, rfl, ?_, rfl⟩))
    rw [hv]; rfl
  exact (hw.copy _ this).symm

theorem lineCells_getElem? (r k : ℕ) (pairs : List (ValueSchema n × ZMod n)) :
    (lineCells r pairs)[k]? = (pairs[k]?).map fun p => ⟨⟨.base, k, r⟩, p.1.value⟩ := by
  simp [lineCells, List.getElem?_mapIdx]

/-- Adding a row whose gate holds for the recorded values. -/
theorem RowAdded.newOk {s t : Context n} {fix adv : ℕ → Option (ZMod n)} {perms : List (Cell × Cell)}
    (k : RowAdded s t fix adv perms) {h : Advice n} (e : t.Embeds c) (ag : Agrees t h)
    (hg : gateEq (fun k => (fix k).getD 0) (fun k => (adv k).getD 0) (h ⟨.base, 4, s.base_offset + 1⟩) = 0)
    (hc : ∀ p ∈ perms, h p.1 = h p.2) : NewOk c h s t where
  base r h1 h2 := by
    rw [k.baseOff] at h2
    obtain rfl : r = s.base_offset := by omega
    rw [baseGate_eq, show c.baseFix s.base_offset = fun j => (fix j).getD 0 from funext (k.baseFix_eq e),
      show (fun j => h ⟨.base, j, s.base_offset⟩) = fun j => (adv j).getD 0 from funext (k.honest_eq ag)]
    exact hg
  range r h1 h2 := by rw [k.rangeOff] at h2; omega
  select r h1 h2 := by rw [k.selOff] at h2; omega
  copies := ⟨perms, k.perms, hc⟩

variable {h : Advice n} {H : Prop}

theorem gateEq_none {fix x : ℕ → ZMod n} (h7 : fix 7 = 0) (a b : ZMod n) :
    gateEq fix x a = gateEq fix x b := by simp [gateEq, h7]

theorem C_one_line (hg : gateEq (fun k => (rowFix pairs constant mul none k).getD 0)
      (fun k => (rowAdv pairs k).getD 0) 0 = 0)
    (hok : H → ∀ (k : ℕ) v y, pairs[k]? = some (ValueSchema.assigned v, y) → Ok h v)
    (hp : pairs.length ≤ 5 := by simp) (hm : mul.length ≤ 2 := by simp) :
    C c h H (one_line pairs constant mul none) (fun cells => ∃ r, cells = lineCells r pairs)
      (fun cells => ∀ (k : ℕ) x, cells[k]? = some x → Ok h x) := by
  intro s hs
  obtain ⟨t, h1, h2⟩ := one_line_run hs (constant := constant) (next := none) hp hm
  refine ⟨_, t, h1, h2.fresh hs, h2.grows, ⟨_, rfl⟩, fun hH e ag => ⟨h2.newOk e ag ?_ ?_, ?_⟩⟩
  · rw [gateEq_none _ _ 0]; exact hg
    simp [rowFix]
  · intro p hp
    obtain ⟨k, b, y, hk, hb, hc⟩ := mem_linePerms.1 hp
    cases b with
    | unassigned => simp [ValueSchema.cell] at hb
    | assigned v =>
      simp only [ValueSchema.cell, Option.some.injEq] at hb
      rw [← hb, hok hH k v y hk, hc, Nat.zero_add, h2.honest_eq ag, rowAdv, hk]
      rfl
  · intro k x hk
    rw [lineCells_getElem?] at hk
    cases hp' : pairs[k]? with
    | none => simp [hp'] at hk
    | some p =>
      simp only [hp', Option.map_some, Option.some.injEq] at hk
      subst hk
      show h ⟨.base, k, s.base_offset⟩ = _
      rw [h2.honest_eq ag, rowAdv, hp']; rfl

/-- The run of `one_line_with_last`, completeness side, with an arbitrary next-row coefficient. -/
theorem one_line_with_last_newOk {s : Context n} (hs : s.Fresh)
    (hok : H → ∀ (k : ℕ) v y, pairs[k]? = some (ValueSchema.assigned v, y) → Ok h v)
    (hl : H → ∀ v, last.1 = .assigned v → Ok h v)
    (hp : pairs.length ≤ 4 := by simp) (hm : mul.length ≤ 2 := by simp) :
    ∃ t, one_line_with_last pairs last constant mul next s =
        .ok ((lineCells s.base_offset pairs, ⟨⟨.base, 4, s.base_offset⟩, last.1.value⟩), t) ∧
      t.Fresh ∧ Grows s t ∧ t.base_offset = s.base_offset + 1 ∧ (H → t.Embeds c → Agrees t h →
        (gateEq (fun k => (rowFixL pairs last constant mul next k).getD 0)
          (fun k => (rowAdvL pairs last k).getD 0) (h ⟨.base, 4, s.base_offset + 1⟩) = 0 → NewOk c h s t) ∧
        (∀ (k : ℕ) x, (lineCells s.base_offset pairs)[k]? = some x → Ok h x) ∧
        h ⟨.base, 4, s.base_offset⟩ = last.1.value) := by
  obtain ⟨t, h1, h2⟩ := one_line_with_last_run hs (constant := constant) (next := next) (last := last)
    hp hm
  refine ⟨t, h1, h2.fresh hs, h2.grows, h2.baseOff, fun hH e ag => ⟨fun hg => h2.newOk e ag hg ?_, ?_, ?_⟩⟩
  · intro p hp'
    rcases List.mem_append.1 hp' with hp' | hp'
    · obtain ⟨k, b, y, hk, hb, hc⟩ := mem_linePerms.1 hp'
      have hk4 : k ≠ 4 := by
        rintro rfl
        rw [List.getElem?_eq_none hp] at hk
        simp at hk
      cases b with
      | unassigned => simp [ValueSchema.cell] at hb
      | assigned v =>
        simp only [ValueSchema.cell, Option.some.injEq] at hb
        rw [← hb, hok hH k v y hk, hc, Nat.zero_add, h2.honest_eq ag, rowAdvL, if_neg hk4, rowAdv, hk]
        rfl
    · obtain ⟨k, b, y, hk, hb, hc⟩ := mem_linePerms.1 hp'
      obtain rfl : k = 0 := by
        by_contra hk0
        rw [List.getElem?_eq_none (by simp; omega)] at hk
        simp at hk
      simp only [List.getElem?_cons_zero, Option.some.injEq] at hk
      cases b with
      | unassigned => simp [ValueSchema.cell] at hb
      | assigned v =>
        simp only [ValueSchema.cell, Option.some.injEq] at hb
        rw [← hb, hl hH v (by rw [hk]), hc, Nat.add_zero, h2.honest_eq ag, rowAdvL, if_pos rfl, hk]
        rfl
  · intro k x hk
    rw [lineCells_getElem?] at hk
    cases hp' : pairs[k]? with
    | none => simp [hp'] at hk
    | some p =>
      have hk4 : k ≠ 4 := by
        rintro rfl
        rw [List.getElem?_eq_none hp] at hp'
        simp at hp'
      simp only [hp', Option.map_some, Option.some.injEq] at hk
      subst hk
      show h ⟨.base, k, s.base_offset⟩ = _
      rw [h2.honest_eq ag, rowAdvL, if_neg hk4, rowAdv, hp']; rfl
  · rw [h2.honest_eq ag, rowAdvL, if_pos rfl]; rfl

theorem C_one_line_with_last
    (hg : gateEq (fun k => (rowFixL pairs last constant mul none k).getD 0)
      (fun k => (rowAdvL pairs last k).getD 0) 0 = 0)
    (hok : H → ∀ (k : ℕ) v y, pairs[k]? = some (ValueSchema.assigned v, y) → Ok h v)
    (hl : H → ∀ v, last.1 = .assigned v → Ok h v)
    (hp : pairs.length ≤ 4 := by simp) (hm : mul.length ≤ 2 := by simp) :
    C c h H (one_line_with_last pairs last constant mul none)
      (fun cells => ∃ r, cells = (lineCells r pairs, ⟨⟨.base, 4, r⟩, last.1.value⟩))
      (fun cells => (∀ (k : ℕ) x, cells.1[k]? = some x → Ok h x) ∧ Ok h cells.2) := by
  intro s hs
  obtain ⟨t, h1, h2, h3, -, h4⟩ := one_line_with_last_newOk (c := c) (constant := constant) (mul := mul)
    (next := none) hs hok hl hp hm
  refine ⟨_, t, h1, h2, h3, ⟨_, rfl⟩, fun hH e ag => ?_⟩
  obtain ⟨k1, k2, k3⟩ := h4 hH e ag
  refine ⟨k1 ?_, k2, k3⟩
  rw [gateEq_none _ _ 0]
  · exact hg
  · simp [rowFixL, rowFix]

end

end Verif
