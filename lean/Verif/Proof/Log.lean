import Verif.Spec.Log
import Verif.Proof.Prog
import Verif.Proof.Row
import Verif.Proof.RangeRow

/-!
# Every operation is a straight-line sequence of writes
-/

namespace Verif
variable {n : ℕ} {α β : Type}

theorem applyAll_append (a b : List (Write n)) (s : Records n) : applyAll (a ++ b) s = applyAll b (applyAll a s) := by
  unfold applyAll; rw [List.foldl_append]

theorem applyAll_cons (a : Write n) (b : List (Write n)) (s : Records n) :
    applyAll (a :: b) s = applyAll b (a.apply s) := rfl

theorem applyAll_nil (s : Records n) : applyAll [] s = s := rfl

theorem fresh_iff (s : Context n) : s.Fresh ↔ ∀ chip r c, s.offs.at chip ≤ r →
    s.records.inner.fixOf chip r c = none ∧ s.records.inner.advOf chip r c = none := by
  constructor
  · rintro ⟨h1, h2, h3, h4, h5, h6⟩ (_ | _ | _) r c hr
    exacts [⟨h1 r c hr, h2 r c hr⟩, ⟨h3 r c hr, h4 r c hr⟩, ⟨h5 r c hr, h6 r c hr⟩]
  · intro h
    exact ⟨fun r c hr => (h .base r c hr).1, fun r c hr => (h .base r c hr).2, fun r c hr => (h .range r c hr).1,
      fun r c hr => (h .range r c hr).2, fun r c hr => (h .select r c hr).1, fun r c hr => (h .select r c hr).2⟩

theorem Write.apply_other (s : Records n) (w : Write n) (chip : Chip) (r c : ℕ) (h : w.target ≠ some (chip, r)) :
    (w.apply s).inner.fixOf chip r c = s.inner.fixOf chip r c ∧
    (w.apply s).inner.advOf chip r c = s.inner.advOf chip r c := by
  rcases w with ⟨_ | _ | _, r', c', v⟩ | ⟨_ | _ | _, r', c', v⟩ | _ | _ | ⟨_ | _ | _, h'⟩ <;> cases chip <;>
    simp [Write.apply, RecordsInner.fixOf, RecordsInner.advOf, setCell, Write.target] at * <;> intro e <;>
    exact absurd e.symm h

theorem applyAll_other {ws : List (Write n)} (s : Records n) {chip : Chip} {r : ℕ} (c : ℕ)
    (h : ∀ w ∈ ws, w.target ≠ some (chip, r)) :
    (applyAll ws s).inner.fixOf chip r c = s.inner.fixOf chip r c ∧
    (applyAll ws s).inner.advOf chip r c = s.inner.advOf chip r c := by
  induction ws generalizing s with
  | nil => exact ⟨rfl, rfl⟩
  | cons w ws ih =>
    rw [applyAll_cons]
    obtain ⟨h1, h2⟩ := ih (w.apply s) fun x hx => h x (List.mem_cons_of_mem _ hx)
    obtain ⟨h3, h4⟩ := Write.apply_other s w chip r c (h w List.mem_cons_self)
    exact ⟨h1.trans h3, h2.trans h4⟩

theorem Between.fresh {o o' : Offsets} {ws : List (Write n)} (h : Between o o' ws) {s : Context n} (hs : s.Fresh)
    (ho : s.offs = o) : (Context.mk' (applyAll ws s.records) o').Fresh := by
  rw [fresh_iff] at hs ⊢
  intro chip r c hr
  have hr : o'.at chip ≤ r := hr
  obtain ⟨h1, h2⟩ := applyAll_other s.records c (ws := ws) (chip := chip) (r := r) fun w hw e => by
    have := (h.within w hw _ _ e).2; omega
  obtain ⟨h3, h4⟩ := hs chip r c (by rw [ho]; exact (h.le chip).trans hr)
  exact ⟨h1.trans h3, h2.trans h4⟩

theorem Between.nil (o : Offsets) : Between o o ([] : List (Write n)) := ⟨fun _ => le_rfl, by simp, by simp, fun _ => .inl rfl⟩

theorem Between.append {o o' o'' : Offsets} {a b : List (Write n)} (h : Between o o' a) (h' : Between o' o'' b) :
    Between o o'' (a ++ b) where
  le chip := (h.le chip).trans (h'.le chip)
  within w hw chip r e := by
    rcases List.mem_append.1 hw with hw | hw
    · have := h.within w hw chip r e
      have := h'.le chip
      omega
    · have := h'.within w hw chip r e
      have := h.le chip
      omega
  covered w hw chip r e := by
    rcases List.mem_append.1 hw with hw | hw
    · obtain ⟨x, h1, h2⟩ := h.covered w hw chip r e
      exact ⟨x, List.mem_append_left _ h1, h2⟩
    · obtain ⟨x, h1, h2⟩ := h'.covered w hw chip r e
      exact ⟨x, List.mem_append_right _ h1, h2⟩
  top chip := by
    rcases h'.top chip with e | ⟨x, h1, h2⟩
    · rcases h.top chip with e' | ⟨x, h1, h2⟩
      · exact .inl (e.trans e')
      · exact .inr ⟨x, List.mem_append_left _ h1, by omega⟩
    · exact .inr ⟨x, List.mem_append_right _ h1, h2⟩

theorem Context.Fresh.freshIn {s : Context n} (hs : s.Fresh) (o' : Offsets) : FreshIn s.offs o' s.records.inner :=
  fun chip r c h _ => (fresh_iff s).1 hs chip r c h

theorem FreshIn.left {o o' o'' : Offsets} {s : RecordsInner n} (h : FreshIn o o'' s)
    (hle : ∀ chip, o'.at chip ≤ o''.at chip) : FreshIn o o' s :=
  fun chip r c h1 h2 => h chip r c h1 (h2.trans_le (hle chip))

theorem Between.freshIn {o o' o'' : Offsets} {ws : List (Write n)} (h : Between o o' ws) {s : Records n}
    (hs : FreshIn o o'' s.inner) : FreshIn o' o'' (applyAll ws s).inner := by
  intro chip r c h1 h2
  obtain ⟨e1, e2⟩ := applyAll_other s c (ws := ws) (chip := chip) (r := r) fun w hw e => by
    have := (h.within w hw _ _ e).2; omega
  obtain ⟨e3, e4⟩ := hs chip r c ((h.le chip).trans h1) h2
  exact ⟨e1.trans e3, e2.trans e4⟩

theorem Performs.bind {m : M n α} {k : α → M n β} {o o' o'' : Offsets} {a : α} {b : β} {ws ws' : List (Write n)}
    (hb : Between o o' ws) (hb' : Between o' o'' ws') (h : Performs m o a ws o') (h' : Performs (k a) o' b ws' o'') :
    Performs (m >>= k) o b (ws ++ ws') o'' := by
  intro s hs ho
  rw [run_bind, h s (hs.left hb'.le) ho]
  dsimp only
  rw [h' _ (hb.freshIn hs) rfl, applyAll_append]
  rfl

theorem Logged.pure (a : α) : Logged (Pure.pure a : M n α) := fun o =>
  .inr ⟨a, [], o, Between.nil o, fun s _ ho => by subst ho; rfl⟩

theorem Logged.panic (p : Panic) : Logged (Verif.panic p : M n α) := fun _ => .inl ⟨p, fun _ _ _ => rfl⟩

theorem Logged.bind {m : M n α} {k : α → M n β} (hm : Logged m) (hk : ∀ a, Logged (k a)) : Logged (m >>= k) := by
  intro o
  rcases hm o with ⟨p, hp⟩ | ⟨a, ws, o', hb, h⟩
  · exact .inl ⟨p, fun s hs ho => by rw [run_bind, hp s hs ho]⟩
  · rcases hk a o' with ⟨p, hp⟩ | ⟨b, ws', o'', hb', h'⟩
    · exact .inl ⟨p, fun s hs ho => by rw [run_bind, h s (ho ▸ hs.freshIn _) ho]; exact hp _ (hb.fresh hs ho) rfl⟩
    · exact .inr ⟨b, ws ++ ws', o'', hb.append hb', h.bind hb hb' h'⟩

/-! ## The primitive writers -/

theorem raise_base (s : Records n) (o : ℕ) :
    (if o ≥ s.base_height then { s with base_height := o + 1 } else s) = Write.apply s (.height .base (o + 1)) := by
  show _ = ({ s with base_height := max s.base_height (o + 1) } : Records n)
  split
  · rw [max_eq_right (by omega)]
  · rw [max_eq_left (by omega)]

theorem raise_range (s : Records n) (o : ℕ) :
    s.ensure_range_record_size o = Write.apply s (.height .range (o + 1)) := by
  show (if _ then _ else _) = ({ s with range_height := max s.range_height (o + 1) } : Records n)
  split
  · rw [max_eq_right (by omega)]
  · rw [max_eq_left (by omega)]

theorem raise_select (s : Records n) (o : ℕ) :
    (if o ≥ s.select_height then { s with select_height := o + 1 } else s) =
      Write.apply s (.height .select (o + 1)) := by
  show _ = ({ s with select_height := max s.select_height (o + 1) } : Records n)
  split
  · rw [max_eq_right (by omega)]
  · rw [max_eq_left (by omega)]

/-- The writes of `line_cell`. -/
def cellWrites (o i : ℕ) (b : ValueSchema n) (y : ZMod n) : List (Write n) :=
  (b.cell.elim [] fun cell => [.flag ⟨.base, i, o⟩, .flag cell, .perm cell ⟨.base, i, o⟩]) ++
    [.adv .base o i b.value, .fix .base o i y]

theorem line_cell_eq (s : Records n) (o i : ℕ) (b : ValueSchema n) (y : ZMod n) :
    s.line_cell o i b y = applyAll (cellWrites o i b y) s := by
  unfold Records.line_cell cellWrites
  cases b.cell <;> rfl

/-- The writes of `line_cells`. -/
def cellsWrites (o : ℕ) : ℕ → List (ValueSchema n × ZMod n) → List (Write n)
  | _, [] => []
  | i, (b, y) :: rest => cellWrites o i b y ++ cellsWrites o (i + 1) rest

theorem line_cells_eq (s : Records n) (o i : ℕ) (l : List (ValueSchema n × ZMod n)) :
    s.line_cells o i l = applyAll (cellsWrites o i l) s := by
  induction l generalizing s i with
  | nil => rfl
  | cons x l ih =>
    unfold Records.line_cells cellsWrites
    rw [applyAll_append, ih, line_cell_eq]

/-- The writes of `mul_cells`. -/
def mulWrites (o : ℕ) : ℕ → List (ZMod n) → List (Write n)
  | _, [] => []
  | i, y :: rest => .fix .base o (VAR_COLUMNS + i) y :: mulWrites o (i + 1) rest

theorem mul_cells_eq (s : Records n) (o i : ℕ) (l : List (ZMod n)) :
    s.mul_cells o i l = applyAll (mulWrites o i l) s := by
  induction l generalizing s i with
  | nil => rfl
  | cons x l ih =>
    unfold Records.mul_cells mulWrites
    rw [applyAll_cons, ih]; rfl

/-- The writes of `one_line`. -/
def lineWrites (o : ℕ) (pairs : List (ValueSchema n × ZMod n)) (constant : Option (ZMod n)) (mul : List (ZMod n))
    (next : Option (ZMod n)) : List (Write n) :=
  .height .base (o + 1) :: (cellsWrites o 0 pairs ++ mulWrites o 0 mul ++
    (next.elim [] fun v => [.fix .base o 7 v]) ++ (constant.elim [] fun v => [.fix .base o 8 v]))

theorem records_one_line_eq {s t : Records n} {o : ℕ} {pairs : List (ValueSchema n × ZMod n)}
    {constant : Option (ZMod n)} {mul : List (ZMod n)} {next : Option (ZMod n)}
    (h : s.one_line o pairs constant mul next = .ok t) : t = applyAll (lineWrites o pairs constant mul next) s := by
  unfold lineWrites
  rw [applyAll_cons, applyAll_append, applyAll_append, applyAll_append, ← raise_base, ← line_cells_eq, ← mul_cells_eq]
  unfold Records.one_line at h
  by_cases h1 : pairs.length ≤ VAR_COLUMNS
  · by_cases h2 : mul.length ≤ MUL_COLUMNS
    · simp only [h1, h2, not_true_eq_false, if_false] at h
      generalize ((if o ≥ s.base_height then { s with base_height := o + 1 } else s).line_cells o 0 pairs).mul_cells
        o 0 mul = u at h ⊢
      cases next <;> cases constant
      · by_cases h3 : (u.inner.base_fix_record o (VAR_COLUMNS + MUL_COLUMNS)).isNone = true
        · by_cases h4 : (u.inner.base_fix_record o (VAR_COLUMNS + MUL_COLUMNS + 1)).isNone = true
          · simp only [h3, if_true] at h
            simp only [Bind.bind, Except.bind, Pure.pure, Except.pure, h4, if_true] at h
            cases h; rfl
          · simp only [h3, if_true] at h
            simp only [Bind.bind, Except.bind, Pure.pure, Except.pure, h4] at h
            cases h
        · simp only [h3] at h; cases h
      · by_cases h3 : (u.inner.base_fix_record o (VAR_COLUMNS + MUL_COLUMNS)).isNone = true
        · simp only [h3, if_true] at h; cases h; rfl
        · simp only [h3] at h; cases h
      · rename_i v
        by_cases h4 : ((u.assign_fix_cell_in_base_chip o (VAR_COLUMNS + MUL_COLUMNS) v).inner.base_fix_record o
            (VAR_COLUMNS + MUL_COLUMNS + 1)).isNone = true
        · simp only [Bind.bind, Except.bind, Pure.pure, Except.pure, h4, if_true] at h
          cases h; rfl
        · simp only [Bind.bind, Except.bind, Pure.pure, Except.pure, h4] at h
          cases h
      · cases h; rfl
    · simp only [h1, h2, not_true_eq_false, not_false_eq_true, if_false, if_true] at h; cases h
  · simp only [h1, not_false_eq_true, if_true] at h; cases h

/-- Every write of the list is on one of the `k` rows from `o` on of the chip, if it is on a row at all. -/
def OnRow (chip : Chip) (o k : ℕ) (ws : List (Write n)) : Prop :=
  ∀ w ∈ ws, ∀ c r, w.target = some (c, r) → c = chip ∧ o ≤ r ∧ r < o + k

theorem OnRow.append {chip : Chip} {o k : ℕ} {a b : List (Write n)} (h : OnRow chip o k a) (h' : OnRow chip o k b) :
    OnRow chip o k (a ++ b) := by
  intro w hw
  rcases List.mem_append.1 hw with h1 | h1
  exacts [h w h1, h' w h1]

theorem OnRow.cons {chip : Chip} {o k : ℕ} {x : Write n} {b : List (Write n)}
    (h : ∀ c r, x.target = some (c, r) → c = chip ∧ o ≤ r ∧ r < o + k) (h' : OnRow chip o k b) :
    OnRow chip o k (x :: b) := by
  intro w hw
  rcases List.mem_cons.1 hw with h1 | h1
  exacts [h1 ▸ h, h' w h1]

theorem OnRow.nil {chip : Chip} {o k : ℕ} : OnRow chip o k ([] : List (Write n)) := by
  intro w hw; cases hw

theorem OnRow.cons_none {chip : Chip} {o k : ℕ} {x : Write n} {b : List (Write n)} (h : x.target = none)
    (h' : OnRow chip o k b) : OnRow chip o k (x :: b) :=
  .cons (fun c r e => by rw [h] at e; cases e) h'

theorem OnRow.cons_some {chip : Chip} {o k r : ℕ} {x : Write n} {b : List (Write n)} (h : x.target = some (chip, r))
    (hr : o ≤ r ∧ r < o + k) (h' : OnRow chip o k b) : OnRow chip o k (x :: b) :=
  .cons (fun c r e => by rw [h] at e; cases e; exact ⟨rfl, hr⟩) h'

/-- Prove `OnRow` for an explicit list. -/
macro "on_row" : tactic => `(tactic|
  repeat' first
    | exact OnRow.nil
    | refine OnRow.cons_none rfl ?_
    | refine OnRow.cons_some rfl (by omega) ?_
    | apply OnRow.append)

theorem onRow_cell (o i : ℕ) (b : ValueSchema n) (y : ZMod n) : OnRow .base o 1 (cellWrites o i b y) := by
  unfold cellWrites
  cases b.cell <;> dsimp only [Option.elim] <;> on_row

theorem onRow_cells (o i : ℕ) (l : List (ValueSchema n × ZMod n)) : OnRow .base o 1 (cellsWrites o i l) := by
  induction l generalizing i with
  | nil => exact OnRow.nil
  | cons x l ih => exact (onRow_cell o i x.1 x.2).append (ih (i + 1))

theorem onRow_mul (o i : ℕ) (l : List (ZMod n)) : OnRow .base o 1 (mulWrites o i l) := by
  induction l generalizing i with
  | nil => exact OnRow.nil
  | cons x l ih =>
    refine OnRow.cons ?_ (ih (i + 1))
    intro c r e; simp [Write.target] at e; obtain ⟨rfl, rfl⟩ := e; simp

theorem onRow_line (o : ℕ) (pairs : List (ValueSchema n × ZMod n)) (constant : Option (ZMod n)) (mul : List (ZMod n))
    (next : Option (ZMod n)) : OnRow .base o 1 (lineWrites o pairs constant mul next) := by
  unfold lineWrites
  refine OnRow.cons (by intro c r e; cases e) ((((onRow_cells o 0 pairs).append (onRow_mul o 0 mul)).append ?_).append ?_)
  · cases next <;> dsimp only [Option.elim] <;> on_row
  · cases constant <;> dsimp only [Option.elim] <;> on_row

/-- Move the offset of a chip by `k`. -/
def Offsets.bump (o : Offsets) : Chip → ℕ → Offsets
  | .base, k => { o with base := o.base + k }
  | .range, k => { o with range := o.range + k }
  | .select, k => { o with select := o.select + k }

theorem Offsets.bump_at (o : Offsets) (chip c : Chip) (k : ℕ) :
    (o.bump chip k).at c = o.at c + if c = chip then k else 0 := by
  cases chip <;> cases c <;> rfl

theorem OnRow.between {chip : Chip} {o : Offsets} {k h : ℕ} {ws : List (Write n)} (hw : OnRow chip (o.at chip) k ws)
    (hh : .height chip h ∈ ws) (hk : o.at chip + k ≤ h) : Between o (o.bump chip k) ws where
  le c := by rw [Offsets.bump_at]; omega
  within w hw' c r e := by
    obtain ⟨rfl, h1, h2⟩ := hw w hw' c r e
    rw [Offsets.bump_at, if_pos rfl]
    exact ⟨h1, h2⟩
  covered w hw' c r e := by
    obtain ⟨rfl, h1, h2⟩ := hw w hw' c r e
    exact ⟨h, hh, by omega⟩
  top c := by
    rw [Offsets.bump_at]
    split
    · rename_i e; subst e; exact .inr ⟨h, hh, hk⟩
    · exact .inl rfl

theorem Logged.one_line (pairs : List (ValueSchema n × ZMod n)) (constant : Option (ZMod n)) (mul : List (ZMod n))
    (next : Option (ZMod n)) : Logged (Verif.one_line pairs constant mul next) := by
  intro o
  by_cases hp : pairs.length ≤ 5
  · by_cases hm : mul.length ≤ 2
    · refine .inr ⟨lineCells o.base pairs, lineWrites o.base pairs constant mul next, o.bump .base 1,
        (onRow_line (o.at .base) pairs constant mul next).between List.mem_cons_self le_rfl, ?_⟩
      rintro s hs rfl
      have hrow : ∀ k, _ ∧ _ := fun k => hs .base s.base_offset k le_rfl (Nat.lt_succ_self _)
      obtain ⟨t, h1, -⟩ := Records.one_line_spec (s := s.records) (o := s.base_offset) (constant := constant)
        (next := next) hp hm (fun k => (hrow k).1) (fun k => (hrow k).2)
      have := records_one_line_eq h1
      subst this
      unfold Verif.one_line
      rw [h1]
      rfl
    · refine .inl ⟨.indexOutOfBounds, fun s _ _ => ?_⟩
      unfold Verif.one_line Records.one_line
      rw [if_neg (by simpa using hp), if_pos (by simpa using hm)]; rfl
  · refine .inl ⟨.assertion, fun s _ _ => ?_⟩
    unfold Verif.one_line Records.one_line
    rw [if_pos (by simpa using hp)]; rfl

theorem Logged.one_line_with_last (pairs : List (ValueSchema n × ZMod n)) (last : ValueSchema n × ZMod n)
    (constant : Option (ZMod n)) (mul : List (ZMod n)) (next : Option (ZMod n)) :
    Logged (Verif.one_line_with_last pairs last constant mul next) := by
  intro o
  by_cases hp : pairs.length ≤ 4
  · by_cases hm : mul.length ≤ 2
    · refine .inr ⟨(lineCells o.base pairs, ⟨⟨.base, 4, o.base⟩, last.1.value⟩),
        lineWrites o.base pairs constant mul next ++ cellWrites o.base 4 last.1 last.2, o.bump .base 1,
        ((onRow_line (o.at .base) pairs constant mul next).append (onRow_cell _ _ _ _)).between
          (h := o.base + 1) (List.mem_append_left _ List.mem_cons_self) le_rfl, ?_⟩
      rintro s hs rfl
      have hrow : ∀ k, _ ∧ _ := fun k => hs .base s.base_offset k le_rfl (Nat.lt_succ_self _)
      obtain ⟨t, h1, -⟩ := Records.one_line_spec (s := s.records) (o := s.base_offset) (constant := constant)
        (next := next) (pairs := pairs) (by omega) hm (fun k => (hrow k).1) (fun k => (hrow k).2)
      have := records_one_line_eq h1
      unfold Verif.one_line_with_last Records.one_line_with_last
      rw [if_neg (by simpa using hp), h1, applyAll_append, ← line_cell_eq]
      subst this
      rfl
    · refine .inl ⟨.indexOutOfBounds, fun s _ _ => ?_⟩
      unfold Verif.one_line_with_last Records.one_line_with_last Records.one_line
      rw [if_neg (by simpa using hp), if_neg (by show ¬ ¬ _ ≤ 5; omega), if_pos (by simpa using hm)]; rfl
  · refine .inl ⟨.assertion, fun s _ _ => ?_⟩
    unfold Verif.one_line_with_last Records.one_line_with_last
    rw [if_pos (by simpa using hp)]; rfl


theorem one_line_range_logged (o : ℕ) (v : List (ZMod n)) (a : ZMod n) (bits : ℕ) :
    (∃ p, ∀ s : Records n, s.assign_one_line_range_value o v a bits = .error p) ∨
      ∃ r ws, OnRow .range o 1 ws ∧ .height .range (o + 2) ∈ ws ∧
        ∀ s : Records n, s.assign_one_line_range_value o v a bits = .ok (r, applyAll ws s) := by
  unfold Records.assign_one_line_range_value
  by_cases h : bits ≤ COMMON_RANGE_BITS
  · simp only [h, not_true_eq_false, if_false, raise_range]
    cases v with
    | nil => exact .inl ⟨_, fun s => rfl⟩
    | cons v0 v =>
      refine .inr ⟨_, [.height .range (o + 2), .fix .range o 0 1, .fix .range o 1 (bits : ZMod n),
        .adv .range o 1 v0, .adv .range o 0 a], ?_, List.mem_cons_self, fun s => rfl⟩
      on_row
  · simp only [h, not_false_eq_true, if_true]
    exact .inl ⟨_, fun s => rfl⟩

theorem two_line_range_logged (o : ℕ) (v : List (ZMod n)) (a : ZMod n) (bits : ℕ) :
    (∃ p, ∀ s : Records n, s.assign_two_line_range_value o v a bits = .error p) ∨
      ∃ r ws, OnRow .range o 2 ws ∧ .height .range (o + 3) ∈ ws ∧
        ∀ s : Records n, s.assign_two_line_range_value o v a bits = .ok (r, applyAll ws s) := by
  unfold Records.assign_two_line_range_value
  by_cases h : bits ≥ COMMON_RANGE_BITS * 2
  · by_cases h' : bits ≤ COMMON_RANGE_BITS * 4
    · simp only [h, h', not_true_eq_false, if_false, raise_range]
      match v with
      | [] => exact .inl ⟨_, fun s => rfl⟩
      | [_] => exact .inl ⟨_, fun s => rfl⟩
      | [_, _] => exact .inl ⟨_, fun s => rfl⟩
      | [_, _, _] => exact .inl ⟨_, fun s => rfl⟩
      | v0 :: v1 :: v2 :: v3 :: _ =>
        refine .inr ⟨_, [.height .range (o + 3), .fix .range o 0 (1 + 1), .adv .range o 2 v0, .adv .range (o + 1) 2 v1,
          .fix .range o 1 (Records.two_line_tag0 bits : ZMod n), .adv .range o 1 v2,
          .fix .range (o + 1) 1 (Records.two_line_tag1 bits : ZMod n), .adv .range (o + 1) 1 v3,
          .adv .range o 0 a], ?_, List.mem_cons_self, fun s => rfl⟩
        on_row
    · simp only [h, h', not_true_eq_false, not_false_eq_true, if_true, if_false]
      exact .inl ⟨_, fun s => rfl⟩
  · simp only [h, not_false_eq_true, if_true]
    exact .inl ⟨_, fun s => rfl⟩

theorem three_line_range_logged (o : ℕ) (v : List (ZMod n)) (a : ZMod n) (bits : ℕ) :
    (∃ p, ∀ s : Records n, s.assign_three_line_range_value o v a bits = .error p) ∨
      ∃ r ws, OnRow .range o 3 ws ∧ .height .range (o + 4) ∈ ws ∧
        ∀ s : Records n, s.assign_three_line_range_value o v a bits = .ok (r, applyAll ws s) := by
  unfold Records.assign_three_line_range_value
  by_cases h : bits ≥ COMMON_RANGE_BITS * 3
  · by_cases h' : bits ≤ COMMON_RANGE_BITS * 6
    · simp only [h, h', not_true_eq_false, if_false, raise_range]
      match v with
      | [] => exact .inl ⟨_, fun s => rfl⟩
      | [_] => exact .inl ⟨_, fun s => rfl⟩
      | [_, _] => exact .inl ⟨_, fun s => rfl⟩
      | [_, _, _] => exact .inl ⟨_, fun s => rfl⟩
      | [_, _, _, _] => exact .inl ⟨_, fun s => rfl⟩
      | [_, _, _, _, _] => exact .inl ⟨_, fun s => rfl⟩
      | v0 :: v1 :: v2 :: v3 :: v4 :: v5 :: _ =>
        refine .inr ⟨_, [.height .range (o + 4), .fix .range o 0 (1 + 1 + 1), .adv .range o 2 v0,
          .adv .range (o + 1) 2 v1, .adv .range (o + 2) 2 v2,
          .fix .range o 1 (Records.three_line_tag0 bits : ZMod n), .adv .range o 1 v3,
          .fix .range (o + 1) 1 (Records.three_line_tag1 bits : ZMod n), .adv .range (o + 1) 1 v4,
          .fix .range (o + 2) 1 (Records.three_line_tag2 bits : ZMod n), .adv .range (o + 2) 1 v5,
          .adv .range o 0 a], ?_, List.mem_cons_self, fun s => rfl⟩
        on_row
    · simp only [h, h', not_true_eq_false, not_false_eq_true, if_true, if_false]
      exact .inl ⟨_, fun s => rfl⟩
  · simp only [h, not_false_eq_true, if_true]
    exact .inl ⟨_, fun s => rfl⟩

theorem range_value_logged (o : ℕ) (v : List (ZMod n)) (a : ZMod n) (bits : ℕ) :
    (∃ p, ∀ s : Records n, s.assign_range_value o v a bits = .error p) ∨
      ∃ r k h ws, OnRow .range o k ws ∧ .height .range h ∈ ws ∧ o + k ≤ h ∧
        ∀ s : Records n, s.assign_range_value o v a bits = .ok ((r, k), applyAll ws s) := by
  unfold Records.assign_range_value
  by_cases h1 : bits ≤ COMMON_RANGE_BITS
  · simp only [h1, if_true]
    rcases one_line_range_logged o v a bits with ⟨p, hp⟩ | ⟨r, ws, h3, h4, h5⟩
    · exact .inl ⟨p, fun s => by rw [hp]; rfl⟩
    · exact .inr ⟨r, 1, _, ws, h3, h4, by omega, fun s => by rw [h5]; rfl⟩
  simp only [h1, if_false]
  by_cases h2 : bits < 2 * COMMON_RANGE_BITS
  · simp only [h2, if_true]; exact .inl ⟨_, fun s => rfl⟩
  simp only [h2, if_false]
  by_cases h3 : bits ≤ 4 * COMMON_RANGE_BITS
  · simp only [h3, if_true]
    rcases two_line_range_logged o (Records.resize v 4) a bits with ⟨p, hp⟩ | ⟨r, ws, h3, h4, h5⟩
    · exact .inl ⟨p, fun s => by rw [hp]; rfl⟩
    · exact .inr ⟨r, 2, _, ws, h3, h4, by omega, fun s => by rw [h5]; rfl⟩
  simp only [h3, if_false]
  by_cases h4 : bits ≤ 6 * COMMON_RANGE_BITS
  · simp only [h4, if_true]
    rcases three_line_range_logged o (Records.resize v 6) a bits with ⟨p, hp⟩ | ⟨r, ws, h3, h4, h5⟩
    · exact .inl ⟨p, fun s => by rw [hp]; rfl⟩
    · exact .inr ⟨r, 3, _, ws, h3, h4, by omega, fun s => by rw [h5]; rfl⟩
  simp only [h4, if_false]; exact .inl ⟨_, fun s => rfl⟩

theorem Logged.assign_range (v : ZMod n × List (ZMod n)) (bits : ℕ) : Logged (Verif.assign_range v bits) := by
  intro o
  rcases range_value_logged o.range v.2 v.1 bits with ⟨p, hp⟩ | ⟨r, k, h, ws, h1, h2, h3, h4⟩
  · refine .inl ⟨p, ?_⟩
    rintro s - rfl
    unfold Verif.assign_range
    rw [show s.range_offset = s.offs.range from rfl, hp]
  · refine .inr ⟨r, ws, o.bump .range k, OnRow.between (o := o) h1 h2 h3, ?_⟩
    rintro s - rfl
    unfold Verif.assign_range
    rw [show s.range_offset = s.offs.range from rfl, h4]; rfl

theorem Logged.assign_common (bn : ℕ) : Logged (Verif.assign_common bn : M n _) := by
  intro o
  rcases one_line_range_logged o.range [(bn : ZMod n)] (bn : ZMod n) COMMON_RANGE_BITS with
    ⟨p, hp⟩ | ⟨r, ws, h1, h2, h4⟩
  · refine .inl ⟨p, ?_⟩
    rintro s - rfl
    unfold Verif.assign_common
    rw [show s.range_offset = s.offs.range from rfl, hp]
  · refine .inr ⟨r, ws, o.bump .range 1, OnRow.between (o := o) h1 h2 (Nat.le_succ _), ?_⟩
    rintro s - rfl
    unfold Verif.assign_common
    rw [show s.range_offset = s.offs.range from rfl, h4]; rfl

/-- The writes of `assign_cache_value`. -/
def cacheWrites (o : ℕ) (v : AssignedValue n) (e : ZMod n) : List (Write n) :=
  [.height .select (o + 1), .adv .select o 0 v.val, .perm ⟨.select, 0, o⟩ v.cell, .flag ⟨.select, 0, o⟩, .flag v.cell,
    .fix .select o 0 e, .fix .select o 1 0]

theorem Logged.assign_cache_value (v : AssignedValue n) (offset g selector : ℕ) :
    Logged (Verif.assign_cache_value v offset g selector) := by
  intro o
  refine .inr ⟨(), cacheWrites o.select v (encode_offset n g selector offset), o.bump .select 1,
    OnRow.between (o := o) (h := o.select + 1) ?_ List.mem_cons_self le_rfl, ?_⟩
  · unfold cacheWrites; dsimp only [Offsets.at]; on_row
  · rintro s - rfl
    unfold Verif.assign_cache_value Records.assign_cache_value
    simp only [raise_select]
    rfl

/-- The writes of `assign_selected_value`. -/
def selectedWrites (o : ℕ) (v : AssignedValue n) (e : ZMod n) (selector : AssignedValue n) : List (Write n) :=
  [.height .select (o + 1), .adv .select o 0 v.val, .adv .select o 1 selector.val,
    .perm ⟨.select, 1, o⟩ selector.cell, .flag ⟨.select, 1, o⟩, .flag selector.cell,
    .fix .select o 0 e, .fix .select o 1 1]

theorem Logged.assign_selected_value (v : AssignedValue n) (offset g : ℕ) (selector : AssignedValue n) :
    Logged (Verif.assign_selected_value v offset g selector) := by
  intro o
  refine .inr ⟨⟨⟨.select, 0, o.select⟩, v.val⟩, selectedWrites o.select v (encode_offset n g 0 offset) selector,
    o.bump .select 1, OnRow.between (o := o) (h := o.select + 1) ?_ List.mem_cons_self le_rfl, ?_⟩
  · unfold selectedWrites; dsimp only [Offsets.at]; on_row
  · rintro s - rfl
    unfold Verif.assign_selected_value Records.assign_select_value
    simp only [raise_select]
    rfl

/-- Every program composed of the primitive writers is a straight-line sequence of writes. -/
theorem Built.logged {m : M n α} (h : Prog m) : Logged m := by
  induction h with
  | pure a => exact Logged.pure a
  | bind _ _ hm hk => exact Logged.bind hm hk
  | panic p => exact Logged.panic p
  | one_line => apply Logged.one_line
  | one_line_with_last => apply Logged.one_line_with_last
  | assign_range => apply Logged.assign_range
  | assign_common => apply Logged.assign_common
  | assign_cache_value => apply Logged.assign_cache_value
  | assign_selected_value => apply Logged.assign_selected_value

/-- Heights only grow, flags are only set, copy constraints are only appended. -/
structure RecGrows (s t : Records n) : Prop where
  baseH : s.base_height ≤ t.base_height
  rangeH : s.range_height ≤ t.range_height
  selH : s.select_height ≤ t.select_height
  flags : ∀ c, s.inner.permute_flag c = true → t.inner.permute_flag c = true
  perms : ∃ extra, t.permutations = s.permutations ++ extra

theorem RecGrows.refl (s : Records n) : RecGrows s s :=
  ⟨le_rfl, le_rfl, le_rfl, fun _ h => h, [], (List.append_nil _).symm⟩

theorem RecGrows.trans {s t u : Records n} (h : RecGrows s t) (h' : RecGrows t u) : RecGrows s u := by
  obtain ⟨e1, h1⟩ := h.perms
  obtain ⟨e2, h2⟩ := h'.perms
  exact ⟨h.baseH.trans h'.baseH, h.rangeH.trans h'.rangeH, h.selH.trans h'.selH, fun c hc => h'.flags c (h.flags c hc),
    e1 ++ e2, by rw [h2, h1, List.append_assoc]⟩

theorem Write.grows (s : Records n) (w : Write n) : RecGrows s (w.apply s) := by
  rcases w with ⟨_ | _ | _, r', c', v⟩ | ⟨_ | _ | _, r', c', v⟩ | f | ⟨a, b⟩ | ⟨_ | _ | _, h'⟩ <;>
    refine ⟨?_, ?_, ?_, ?_, ?_⟩ <;> first
      | exact le_rfl
      | exact le_max_left _ _
      | exact fun _ h => h
      | exact ⟨[], (List.append_nil _).symm⟩
      | exact ⟨_, rfl⟩
      | skip
  intro c hc
  show (if c = f then true else _) = true
  split
  · rfl
  · exact hc

theorem applyAll_grows (ws : List (Write n)) (s : Records n) : RecGrows s (applyAll ws s) := by
  induction ws generalizing s with
  | nil => exact .refl s
  | cons w ws ih => exact (Write.grows s w).trans (ih _)

theorem Between.grows {o o' : Offsets} {ws : List (Write n)} (h : Between o o' ws) {s : Context n}
    (ho : s.offs = o) : Grows s (Context.mk' (applyAll ws s.records) o') := by
  have key : ∀ chip r c, r < o.at chip →
      (applyAll ws s.records).inner.fixOf chip r c = s.records.inner.fixOf chip r c ∧
      (applyAll ws s.records).inner.advOf chip r c = s.records.inner.advOf chip r c := by
    intro chip r c hr
    refine applyAll_other s.records c fun w hw e => ?_
    have := (h.within w hw _ _ e).1
    omega
  subst ho
  exact ⟨h.le .base, h.le .range, h.le .select, fun r k hr => (key .base r k hr).1, fun r k hr => (key .base r k hr).2,
    fun r k hr => (key .range r k hr).1, fun r k hr => (key .range r k hr).2,
    fun r k hr => (key .select r k hr).1, fun r k hr => (key .select r k hr).2, (applyAll_grows ws s.records).perms⟩

/-- `m` only adds: it keeps the rows from the offsets on unwritten and never changes what is recorded. -/
def Growing (m : M n α) : Prop := ∀ s a t, s.Fresh → m s = .ok (a, t) → t.Fresh ∧ Grows s t

theorem Logged.growing {m : M n α} (h : Logged m) : Growing m := by
  intro s a t hs e
  rcases h s.offs with ⟨p, hp⟩ | ⟨b, ws, o', hb, h'⟩
  · rw [hp s hs rfl] at e; cases e
  · rw [h' s (hs.freshIn _) rfl] at e
    cases e
    exact ⟨hb.fresh hs rfl, hb.grows rfl⟩

theorem Raised.refl (s : Context n) : Raised s s := ⟨fun _ => le_rfl, fun _ h => h, fun _ => .inl rfl⟩

theorem Raised.trans {s t u : Context n} (h : Raised s t) (h' : Raised t u) : Raised s u where
  height chip := (h.height chip).trans (h'.height chip)
  flags c e := h'.flags c (h.flags c e)
  top chip := by
    rcases h'.top chip with e | e
    · rcases h.top chip with e' | e'
      · exact .inl (e.trans e')
      · have := h'.height chip
        exact .inr (by omega)
    · exact .inr e

theorem RecGrows.height {s t : Records n} (h : RecGrows s t) (chip : Chip) : s.heightOf chip ≤ t.heightOf chip := by
  cases chip
  exacts [h.baseH, h.rangeH, h.selH]

theorem applyAll_height {ws : List (Write n)} {chip : Chip} {h : ℕ} (hm : .height chip h ∈ ws) (s : Records n) :
    h ≤ (applyAll ws s).heightOf chip := by
  induction ws generalizing s with
  | nil => cases hm
  | cons w ws ih =>
    rcases List.mem_cons.1 hm with rfl | hm
    · refine le_trans ?_ ((applyAll_grows ws _).height chip)
      cases chip <;> exact le_max_right _ _
    · exact ih hm _

theorem Between.raised {o o' : Offsets} {ws : List (Write n)} (h : Between o o' ws) {s : Context n}
    (ho : s.offs = o) : Raised s (Context.mk' (applyAll ws s.records) o') where
  height chip := (applyAll_grows ws s.records).height chip
  flags := (applyAll_grows ws s.records).flags
  top chip := by
    rcases h.top chip with e | ⟨x, h1, h2⟩
    · exact .inl (by rw [ho]; exact e)
    · exact .inr (h2.trans (applyAll_height h1 _))

/-- `m` only raises heights and sets flags, and keeps the offsets it moves below the heights. -/
def Raises (m : M n α) : Prop := ∀ s a t, s.Fresh → m s = .ok (a, t) → Raised s t

theorem Logged.raises {m : M n α} (h : Logged m) : Raises m := by
  intro s a t hs e
  rcases h s.offs with ⟨p, hp⟩ | ⟨b, ws, o', hb, h'⟩
  · rw [hp s hs rfl] at e; cases e
  · rw [h' s (hs.freshIn _) rfl] at e
    cases e
    exact hb.raised rfl

theorem Built.raises {m : M n α} (h : Prog m) : Raises m := h.logged.raises

theorem Built.growing {m : M n α} (h : Prog m) : Growing m := h.logged.growing


/-! ## Hoare-style rules for `S`, for programs that only add -/

theorem Growing.trivial {m : M n α} (h : Growing m) (c : Circuit n) : S c m (fun _ => True) := fun s a t hs e =>
  ⟨(h s a t hs e).1, (h s a t hs e).2, fun _ => True.intro⟩

theorem S.growing {c : Circuit n} {m : M n α} {P : α → Prop} (h : S c m P) : Growing m := fun s a t hs e =>
  ⟨(h s a t hs e).1, (h s a t hs e).2.1⟩

/-- Sequencing: the postcondition of the first operation may be assumed for the second. -/
theorem S.bindP {c : Circuit n} {m : M n α} {k : α → M n β} {P : α → Prop} {Q : β → Prop} (h : S c m P)
    (hg : ∀ a, Prog (k a)) (hk : ∀ a, P a → S c (k a) Q) : S c (m >>= k) Q :=
  S.bind h fun a => S.imp (hk a) ((hg a).growing.trivial c)

/-- The `?` operator after an operation that cannot fail. -/
theorem S.tryB {c : Circuit n} {m : M n (Except UnsafeError α)} {k : α → M n (Except UnsafeError β)}
    {P : α → Prop} {Q : Except UnsafeError β → Prop} (h : S c m (fun r => ∃ a, r = .ok a ∧ P a))
    (hg : ∀ a, Prog (k a)) (hk : ∀ a, P a → S c (k a) Q) : S c (Verif.tryB m k) Q := by
  unfold Verif.tryB
  refine S.bindP h (fun r => ?_) ?_
  · cases r with
    | ok a => exact hg a
    | error e => exact .pure _
  · rintro _ ⟨a, rfl, ha⟩
    exact hk a ha

end Verif
