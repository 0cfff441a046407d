import Verif.Spec.Guarded
import Verif.Proof.Raised

/-!
# The guards of the writers
-/

namespace Verif
variable {n : ℕ} {α β ε : Type}

/-- The cell of the records a write sets: whether it is an advice cell, and where. -/
def Write.slot : Write n → Option (Bool × Chip × ℕ × ℕ)
  | .adv chip r c _ => some (true, chip, r, c)
  | .fix chip r c _ => some (false, chip, r, c)
  | _ => none

/-- The rows of the arrays a write touches. -/
def Write.row : Write n → Option ℕ
  | .adv _ r _ _ => some r
  | .fix _ r _ _ => some r
  | .flag cell => some cell.row
  | _ => none

/-- The content of a cell. -/
def RecordsInner.at (s : RecordsInner n) : Bool × Chip × ℕ × ℕ → Option (ZMod n)
  | (true, chip, r, c) => s.advOf chip r c
  | (false, chip, r, c) => s.fixOf chip r c

/-- The guard on the fixed values of the range chip. -/
def tagGuard (g : Guards) (chip : Chip) (c : ℕ) (v : ZMod n) : Except Panic Unit :=
  if chip = .range then
    if c = 0 then Guarded.check g (v == 1 || v == 2 || v == 3)
    else Guarded.check g (v.val ≤ ((COMMON_RANGE_BITS : ℕ) : ZMod n).val)
  else pure ()

/-- The guard of one write. -/
def Write.guard (g : Guards) (s : Records n) : Write n → Except Panic Unit
  | .adv chip r c v => do
    Guarded.row_index g r
    Guarded.check g (Guarded.unwritten (s.inner.advOf chip r c) v)
  | .fix chip r c v => do
    tagGuard g chip c v
    Guarded.row_index g r
    Guarded.check g (Guarded.unwritten (s.inner.fixOf chip r c) v)
  | .flag cell => Guarded.row_index g cell.row
  | _ => pure ()

/-- Writes with their guards. -/
def runW (g : Guards) : List (Write n) → Records n → Except Panic (Records n)
  | [], s => pure s
  | w :: ws, s => do
    w.guard g s
    runW g ws (w.apply s)

theorem ok_bind {a : α} {f : α → Except Panic β} : (Except.ok a >>= f) = f a := rfl
theorem error_bind {p : Panic} {f : α → Except Panic β} : ((Except.error p : Except Panic α) >>= f) = .error p := rfl

theorem runW_append (g : Guards) (a b : List (Write n)) (s : Records n) :
    runW g (a ++ b) s = runW g a s >>= runW g b := by
  induction a generalizing s with
  | nil => rfl
  | cons w a ih =>
    simp only [List.cons_append, runW, ih, bind_assoc]

theorem runW_cons_cons (g : Guards) (v w : Write n) (ws : List (Write n)) :
    runW g (v :: w :: ws) = fun s => runW g [v] s >>= runW g (w :: ws) := by
  funext s
  exact runW_append g [v] (w :: ws) s

theorem row_index_ok {g : Guards} {r : ℕ} : Guarded.row_index g r = .ok () ↔ ∀ k, g.max_rows = some k → r < k := by
  unfold Guarded.row_index
  cases g.max_rows with
  | none => exact ⟨fun _ k h => (nomatch h), fun _ => rfl⟩
  | some k =>
    dsimp only
    by_cases h : r < k
    · rw [if_pos h]; exact ⟨fun _ k' e => by cases e; exact h, fun _ => rfl⟩
    · rw [if_neg h]; exact ⟨fun e => (nomatch e), fun e => absurd (e k rfl) h⟩

theorem check_true (g : Guards) : Guarded.check g true = .ok () := by
  unfold Guarded.check; simp; rfl

theorem Write.apply_at (s : Records n) (w : Write n) (x : Bool × Chip × ℕ × ℕ) (h : w.slot ≠ some x) :
    (w.apply s).inner.at x = s.inner.at x := by
  obtain ⟨b, chip, r, c⟩ := x
  rcases w with ⟨_ | _ | _, r', c', v⟩ | ⟨_ | _ | _, r', c', v⟩ | _ | _ | ⟨_ | _ | _, h'⟩ <;> cases chip <;> cases b <;>
    simp [Write.apply, RecordsInner.at, RecordsInner.fixOf, RecordsInner.advOf, setCell, Write.slot] at * <;>
    intro e e' <;> exact absurd e'.symm (h e.symm)

theorem applyAll_at {ws : List (Write n)} (s : Records n) (x : Bool × Chip × ℕ × ℕ) (h : ∀ w ∈ ws, w.slot ≠ some x) :
    (applyAll ws s).inner.at x = s.inner.at x := by
  induction ws generalizing s with
  | nil => rfl
  | cons w ws ih =>
    rw [applyAll_cons, ih _ fun v hv => h v (List.mem_cons_of_mem _ hv), Write.apply_at s w x (h w List.mem_cons_self)]

/-- The writes set different cells. -/
def Distinct (ws : List (Write n)) : Prop := ws.Pairwise fun a b => ∀ x, a.slot = some x → b.slot ≠ some x

/-- The fixed values of the range chip are in range. -/
def TagsOk (ws : List (Write n)) : Prop :=
  ∀ w ∈ ws, ∀ r c v, w = .fix .range r c v →
    if c = 0 then v = 1 ∨ v = 2 ∨ v = 3 else v.val ≤ ((COMMON_RANGE_BITS : ℕ) : ZMod n).val

/-- Without the sanity checks, only the rows matter. -/
theorem Write.guard_row {g : Guards} {s : Records n} {w : Write n} (h : w.guard g s = .ok ()) :
    ∀ k, g.max_rows = some k → ∀ r, w.row = some r → r < k := by
  intro k hk r hr
  have key : ∀ {x : ℕ}, Guarded.row_index g x = .ok () → x < k := fun e => row_index_ok.1 e k hk
  cases w with
  | adv chip r' c v =>
    simp only [Write.row, Option.some.injEq] at hr
    subst hr
    dsimp only [Write.guard] at h
    cases e : Guarded.row_index g r' with
    | ok u => exact key e
    | error p => rw [e] at h; cases h
  | fix chip r' c v =>
    simp only [Write.row, Option.some.injEq] at hr
    subst hr
    dsimp only [Write.guard] at h
    cases e : Guarded.row_index g r' with
    | ok u => exact key e
    | error p =>
      rw [e] at h
      cases e' : tagGuard g chip c v <;> rw [e'] at h <;> cases h
  | flag cell => cases hr; exact key h
  | perm a b => cases hr
  | height chip h => cases hr

theorem Write.guard_ok {g : Guards} {s : Records n} {w : Write n} (hx : ∀ x, w.slot = some x → s.inner.at x = none)
    (ht : ∀ r c v, w = .fix .range r c v →
      if c = 0 then v = 1 ∨ v = 2 ∨ v = 3 else v.val ≤ ((COMMON_RANGE_BITS : ℕ) : ZMod n).val)
    (hr : ∀ k, g.max_rows = some k → ∀ r, w.row = some r → r < k) : w.guard g s = .ok () := by
  cases w with
  | adv chip r c v =>
    have h1 : Guarded.row_index g r = .ok () := row_index_ok.2 fun k hk => hr k hk r rfl
    have h2 : s.inner.advOf chip r c = none := hx _ rfl
    dsimp only [Write.guard]
    rw [h1, h2]
    exact check_true g
  | fix chip r c v =>
    have h1 : Guarded.row_index g r = .ok () := row_index_ok.2 fun k hk => hr k hk r rfl
    have h2 : s.inner.fixOf chip r c = none := hx _ rfl
    have h5 : tagGuard g chip c v = .ok () := by
      unfold tagGuard
      by_cases hc : chip = .range
      · subst hc
        have h3 := ht r c v rfl
        by_cases h0 : c = 0
        · rw [if_pos h0] at h3
          have : (v == 1 || v == 2 || v == 3) = true := by simpa [or_assoc] using h3
          rw [if_pos rfl, if_pos h0, this, check_true]
        · rw [if_neg h0] at h3
          rw [if_pos rfl, if_neg h0, decide_eq_true h3, check_true]
      · rw [if_neg hc]; rfl
    dsimp only [Write.guard]
    rw [h1, h2, h5]
    exact check_true g
  | flag cell => exact row_index_ok.2 fun k hk => hr k hk _ rfl
  | perm a b => rfl
  | height chip h => rfl

theorem runW_ok {g : Guards} {ws : List (Write n)} {s t : Records n} (h : runW g ws s = .ok t) :
    t = applyAll ws s ∧ ∀ k, g.max_rows = some k → ∀ w ∈ ws, ∀ r, w.row = some r → r < k := by
  induction ws generalizing s with
  | nil => cases h; exact ⟨rfl, fun _ _ w hw => absurd hw List.not_mem_nil⟩
  | cons w ws ih =>
    unfold runW at h
    cases e : w.guard g s with
    | error p => rw [e] at h; cases h
    | ok u =>
      rw [e] at h
      obtain ⟨h1, h2⟩ := ih h
      refine ⟨h1, fun k hk v hv => ?_⟩
      rcases List.mem_cons.1 hv with rfl | hv
      · exact Write.guard_row e k hk
      · exact h2 k hk v hv

/-- Writes to different, unwritten cells on existing rows pass their guards. -/
theorem runW_passes {g : Guards} {ws : List (Write n)} {s : Records n} (hd : Distinct ws) (ht : TagsOk ws)
    (hx : ∀ w ∈ ws, ∀ x, w.slot = some x → s.inner.at x = none)
    (hr : ∀ k, g.max_rows = some k → ∀ w ∈ ws, ∀ r, w.row = some r → r < k) : runW g ws s = .ok (applyAll ws s) := by
  induction ws generalizing s with
  | nil => rfl
  | cons w ws ih =>
    obtain ⟨d1, d2⟩ := List.pairwise_cons.1 hd
    unfold runW
    rw [Write.guard_ok (hx w List.mem_cons_self) (ht w List.mem_cons_self) fun k hk => hr k hk w List.mem_cons_self, ok_bind,
      applyAll_cons]
    refine ih d2 (fun v hv => ht v (List.mem_cons_of_mem _ hv)) (fun v hv x e => ?_)
      fun k hk v hv => hr k hk v (List.mem_cons_of_mem _ hv)
    rw [Write.apply_at s w x fun e' => d1 v hv x e' e]
    exact hx v (List.mem_cons_of_mem _ hv) x e

/-! ## The primitive writers as writes with guards -/

theorem enable_permute_eq (g : Guards) (s : Records n) (cell : Cell) :
    Guarded.enable_permute g s cell = runW g [.flag cell] s := by
  unfold Guarded.enable_permute runW
  cases e : Guarded.row_index g cell.row <;> simp only [Write.guard, e] <;> rfl

theorem adv_base_eq (g : Guards) (s : Records n) (o i : ℕ) (v : ZMod n) :
    Guarded.assign_adv_cell_in_base_chip g s o i v = runW g [.adv .base o i v] s := by
  simp only [Guarded.assign_adv_cell_in_base_chip, runW, Write.guard, bind_assoc]; rfl

theorem fix_base_eq (g : Guards) (s : Records n) (o i : ℕ) (v : ZMod n) :
    Guarded.assign_fix_cell_in_base_chip g s o i v = runW g [.fix .base o i v] s := by
  simp only [Guarded.assign_fix_cell_in_base_chip, runW, Write.guard, bind_assoc]; rfl

theorem adv_range_eq (g : Guards) (s : Records n) (o i : ℕ) (v : ZMod n) :
    Guarded.assign_adv_cell_in_range_chip g s o i v = runW g [.adv .range o i v] s := by
  simp only [Guarded.assign_adv_cell_in_range_chip, runW, Write.guard, bind_assoc]; rfl

theorem fix_range_eq (g : Guards) (s : Records n) (o i : ℕ) (v : ZMod n) :
    Guarded.assign_fix_cell_in_range_chip g s o i v = runW g [.fix .range o i v] s := by
  simp only [Guarded.assign_fix_cell_in_range_chip, runW, Write.guard, bind_assoc, tagGuard]
  by_cases h : i = 0
  · simp only [h, if_true]; rfl
  · simp only [h, if_true, if_false]; rfl

theorem adv_select_eq (g : Guards) (s : Records n) (o i : ℕ) (v : ZMod n) :
    Guarded.assign_adv_cell_in_select_chip g s o i v = runW g [.adv .select o i v] s := by
  simp only [Guarded.assign_adv_cell_in_select_chip, runW, Write.guard, bind_assoc]; rfl

theorem fix_select_eq (g : Guards) (s : Records n) (o i : ℕ) (v : ZMod n) :
    Guarded.assign_fix_cell_in_select_chip g s o i v = runW g [.fix .select o i v] s := by
  simp only [Guarded.assign_fix_cell_in_select_chip, runW, Write.guard, bind_assoc]; rfl

theorem runW_pure (g : Guards) (w : Write n) (s : Records n) (h : ∀ s, w.guard g s = .ok ()) :
    runW g [w] s = .ok (w.apply s) := by
  unfold runW; rw [h]; rfl

theorem perm_eq (g : Guards) (s : Records n) (a b : Cell) :
    (Except.ok ({ s with permutations := s.permutations ++ [(a, b)] } : Records n) : Except Panic _) =
      runW g [.perm a b] s := rfl

theorem line_cell_runW (g : Guards) (s : Records n) (o i : ℕ) (b : ValueSchema n) (y : ZMod n) :
    Guarded.line_cell g s o i b y = runW g (cellWrites o i b y) s := by
  unfold Guarded.line_cell cellWrites
  cases b.cell with
  | none =>
    simp only [adv_base_eq, fix_base_eq, Option.elim]
    simp only [List.nil_append, runW_cons_cons]
    rfl
  | some cell =>
    simp only [adv_base_eq, fix_base_eq, enable_permute_eq, Option.elim]
    simp only [List.cons_append, List.nil_append, runW_cons_cons]
    rfl

theorem line_cells_runW (g : Guards) (s : Records n) (o i : ℕ) (l : List (ValueSchema n × ZMod n)) :
    Guarded.line_cells g s o i l = runW g (cellsWrites o i l) s := by
  induction l generalizing s i with
  | nil => rfl
  | cons x l ih =>
    unfold Guarded.line_cells cellsWrites
    rw [runW_append, line_cell_runW]
    congr 1
    funext s
    exact ih s (i + 1)

theorem mul_cells_runW (g : Guards) (s : Records n) (o i : ℕ) (l : List (ZMod n)) :
    Guarded.mul_cells g s o i l = runW g (mulWrites o i l) s := by
  induction l generalizing s i with
  | nil => rfl
  | cons x l ih =>
    unfold Guarded.mul_cells mulWrites
    rw [show (Write.fix .base o (VAR_COLUMNS + i) x :: mulWrites o (i + 1) l) =
      [Write.fix .base o (VAR_COLUMNS + i) x] ++ mulWrites o (i + 1) l from rfl, runW_append, fix_base_eq]
    congr 1
    funext s
    exact ih s (i + 1)

/-- A write to an optional fixed cell of an unwritten row that is known to exist. -/
theorem optional_cell_runW (g : Guards) (s : Records n) (o c : ℕ) (v : Option (ZMod n))
    (hr : Guarded.row_index g o = .ok ()) (hc : s.inner.base_fix_record o c = none) :
    Guarded.optional_cell g s o c v = runW g (v.elim [] fun v => [.fix .base o c v]) s := by
  unfold Guarded.optional_cell
  cases v with
  | none => rw [hr, hc]; rfl
  | some v => exact fix_base_eq g s o c v

/-- What the guards of a sequence of writes depend on: the writes fill the rows between the offsets, set different cells
on these rows, and flag exactly the cells they copy. -/
structure GoodLog (o o' : Offsets) (ws : List (Write n)) : Prop where
  le : ∀ chip, o.at chip ≤ o'.at chip
  within : ∀ w ∈ ws, ∀ chip r, w.target = some (chip, r) → o.at chip ≤ r ∧ r < o'.at chip
  filled : ∀ chip r, o.at chip ≤ r → r < o'.at chip → (∃ c v, c < chip.fixCols ∧ .fix chip r c v ∈ ws) ∧
    ∃ c v, c < chip.width ∧ .adv chip r c v ∈ ws
  distinct : Distinct ws
  tags : 18 < n → TagsOk ws
  flags : ∀ c, .flag c ∈ ws ↔ ∃ a b, .perm a b ∈ ws ∧ (c = a ∨ c = b)

/-- `m` performs writes, and `m'` performs the same writes with their guards. -/
def Checked (g : Guards) (m m' : M n α) : Prop :=
  ∀ s : Context n, s.Fresh → (∃ p p', m s = .error p ∧ m' s = .error p') ∨
    ∃ a ws o', GoodLog s.offs o' ws ∧ m s = .ok (a, Context.mk' (applyAll ws s.records) o') ∧
      ∀ x, m' s = .ok x ↔ (runW g ws s.records >>= fun r => .ok (a, Context.mk' r o')) = .ok x

theorem slot_cell {o i : ℕ} {b : ValueSchema n} {y : ZMod n} {w : Write n} (hw : w ∈ cellWrites o i b y)
    {x : Bool × Chip × ℕ × ℕ} (h : w.slot = some x) : x.2 = (.base, o, i) := by
  unfold cellWrites at hw
  rcases List.mem_append.1 hw with h1 | h1
  · cases e : b.cell with
    | none => rw [e] at h1; cases h1
    | some cell =>
      rw [e] at h1
      simp only [Option.elim, List.mem_cons, List.not_mem_nil, or_false] at h1
      rcases h1 with rfl | rfl | rfl <;> cases h
  · simp only [List.mem_cons, List.not_mem_nil, or_false] at h1
    rcases h1 with rfl | rfl <;> cases h <;> rfl

theorem slot_cells {o i : ℕ} {l : List (ValueSchema n × ZMod n)} {w : Write n} (hw : w ∈ cellsWrites o i l)
    {x : Bool × Chip × ℕ × ℕ} (h : w.slot = some x) : ∃ j, x.2 = (.base, o, j) ∧ i ≤ j ∧ j < i + l.length := by
  induction l generalizing i with
  | nil => cases hw
  | cons y l ih =>
    unfold cellsWrites at hw
    rcases List.mem_append.1 hw with h1 | h1
    · exact ⟨i, slot_cell h1 h, le_rfl, by simp⟩
    · obtain ⟨j, h2, h3, h4⟩ := ih h1
      exact ⟨j, h2, by omega, by rw [List.length_cons]; omega⟩

theorem slot_mul {o i : ℕ} {l : List (ZMod n)} {w : Write n} (hw : w ∈ mulWrites o i l)
    {x : Bool × Chip × ℕ × ℕ} (h : w.slot = some x) :
    ∃ j, x = (false, .base, o, 5 + j) ∧ i ≤ j ∧ j < i + l.length := by
  induction l generalizing i with
  | nil => cases hw
  | cons y l ih =>
    unfold mulWrites at hw
    rcases List.mem_cons.1 hw with h1 | h1
    · subst h1; cases h; exact ⟨i, rfl, le_rfl, by simp⟩
    · obtain ⟨j, h2, h3, h4⟩ := ih h1
      exact ⟨j, h2, by omega, by rw [List.length_cons]; omega⟩

theorem distinct_cell (o i : ℕ) (b : ValueSchema n) (y : ZMod n) : Distinct (cellWrites o i b y) := by
  unfold cellWrites Distinct
  cases b.cell <;> simp [Write.slot]

theorem Distinct.append {a b : List (Write n)} (ha : Distinct a) (hb : Distinct b)
    (h : ∀ v ∈ a, ∀ w ∈ b, ∀ x, v.slot = some x → w.slot ≠ some x) : Distinct (a ++ b) :=
  List.pairwise_append.2 ⟨ha, hb, h⟩

theorem distinct_cells (o i : ℕ) (l : List (ValueSchema n × ZMod n)) : Distinct (cellsWrites o i l) := by
  induction l generalizing i with
  | nil => exact List.Pairwise.nil
  | cons y l ih =>
    refine (distinct_cell o i y.1 y.2).append (ih (i + 1)) fun v hv w hw x e e' => ?_
    obtain ⟨j, h2, h3, -⟩ := slot_cells hw e'
    rw [slot_cell hv e] at h2
    cases h2
    omega

theorem distinct_mul (o i : ℕ) (l : List (ZMod n)) : Distinct (mulWrites o i l) := by
  induction l generalizing i with
  | nil => exact List.Pairwise.nil
  | cons y l ih =>
    refine List.pairwise_cons.2 ⟨fun w hw x e e' => ?_, ih (i + 1)⟩
    obtain ⟨j, h2, h3, -⟩ := slot_mul hw e'
    cases e
    simp at h2
    omega

theorem slot_option {o c : ℕ} {v : Option (ZMod n)} {w : Write n}
    (hw : w ∈ v.elim [] fun v => [Write.fix .base o c v]) {x : Bool × Chip × ℕ × ℕ} (h : w.slot = some x) :
    x = (false, .base, o, c) := by
  cases v with
  | none => cases hw
  | some v =>
    rcases List.mem_cons.1 hw with rfl | h1
    · cases h; rfl
    · cases h1

theorem distinct_option (o c : ℕ) (v : Option (ZMod n)) : Distinct (v.elim [] fun v => [Write.fix .base o c v]) := by
  cases v with
  | none => exact List.Pairwise.nil
  | some v => exact List.pairwise_singleton _ _

theorem slot_line {o : ℕ} {pairs : List (ValueSchema n × ZMod n)} {constant : Option (ZMod n)} {mul : List (ZMod n)}
    {next : Option (ZMod n)} {w : Write n} (hw : w ∈ lineWrites o pairs constant mul next)
    {x : Bool × Chip × ℕ × ℕ} (h : w.slot = some x) : ∃ b j, x = (b, .base, o, j) ∧ (j < pairs.length ∨ 5 ≤ j) := by
  obtain ⟨b, y⟩ := x
  unfold lineWrites at hw
  simp only [List.mem_cons, List.mem_append] at hw
  rcases hw with rfl | ((h1 | h1) | h1) | h1
  · cases h
  · obtain ⟨j, h2, -, h3⟩ := slot_cells h1 h
    exact ⟨b, j, by rw [← h2], .inl (by simpa using h3)⟩
  · obtain ⟨j, h2, -, h3⟩ := slot_mul h1 h
    cases h2
    exact ⟨false, _, rfl, .inr (by omega)⟩
  · cases slot_option h1 h
    exact ⟨false, _, rfl, .inr (by omega)⟩
  · cases slot_option h1 h
    exact ⟨false, _, rfl, .inr (by omega)⟩

theorem distinct_line {o : ℕ} {pairs : List (ValueSchema n × ZMod n)} {constant : Option (ZMod n)} {mul : List (ZMod n)}
    {next : Option (ZMod n)} (hp : pairs.length ≤ 5) (hm : mul.length ≤ 2) :
    Distinct (lineWrites o pairs constant mul next) := by
  unfold lineWrites
  refine List.pairwise_cons.2 ⟨fun w hw x e => (nomatch e), ?_⟩
  refine ((((distinct_cells o 0 pairs).append (distinct_mul o 0 mul) ?_).append (distinct_option o 7 next) ?_).append
    (distinct_option o 8 constant) ?_)
  · intro v hv w hw x e e'
    obtain ⟨j, h1, h2, h3⟩ := slot_cells hv e
    obtain ⟨j', h4, -⟩ := slot_mul hw e'
    subst h4
    cases h1
    omega
  · intro v hv w hw x e e'
    cases slot_option hw e'
    rcases List.mem_append.1 hv with hv | hv
    · obtain ⟨j, h1, h2, h3⟩ := slot_cells hv e
      cases h1
      omega
    · obtain ⟨j, h1, h2, h3⟩ := slot_mul hv e
      simp at h1
      omega
  · intro v hv w hw x e e'
    cases slot_option hw e'
    rcases List.mem_append.1 hv with hv | hv
    · rcases List.mem_append.1 hv with hv | hv
      · obtain ⟨j, h1, h2, h3⟩ := slot_cells hv e
        cases h1
        omega
      · obtain ⟨j, h1, h2, h3⟩ := slot_mul hv e
        simp at h1
        omega
    · cases slot_option hv e

/-- The flags of a list of writes are those of its copy constraints. -/
def FlagsOk (ws : List (Write n)) : Prop := ∀ c, .flag c ∈ ws ↔ ∃ a b, .perm a b ∈ ws ∧ (c = a ∨ c = b)

theorem FlagsOk.append {a b : List (Write n)} (ha : FlagsOk a) (hb : FlagsOk b) : FlagsOk (a ++ b) := by
  intro c
  rw [List.mem_append, ha c, hb c]
  constructor
  · rintro (⟨x, y, h, h'⟩ | ⟨x, y, h, h'⟩)
    exacts [⟨x, y, List.mem_append_left _ h, h'⟩, ⟨x, y, List.mem_append_right _ h, h'⟩]
  · rintro ⟨x, y, h, h'⟩
    rcases List.mem_append.1 h with h | h
    exacts [.inl ⟨x, y, h, h'⟩, .inr ⟨x, y, h, h'⟩]

theorem FlagsOk.none {ws : List (Write n)} (h : ∀ c, .flag c ∉ ws) (h' : ∀ a b, .perm a b ∉ ws) : FlagsOk ws :=
  fun c => ⟨fun e => absurd e (h c), fun ⟨a, b, e, _⟩ => absurd e (h' a b)⟩

theorem flags_cell (o i : ℕ) (b : ValueSchema n) (y : ZMod n) : FlagsOk (cellWrites o i b y) := by
  intro c
  unfold cellWrites
  cases b.cell with
  | none => simp
  | some cell => simp; tauto

theorem flags_cells (o i : ℕ) (l : List (ValueSchema n × ZMod n)) : FlagsOk (cellsWrites o i l) := by
  induction l generalizing i with
  | nil => exact .none (by simp [cellsWrites]) (by simp [cellsWrites])
  | cons y l ih => exact (flags_cell o i y.1 y.2).append (ih (i + 1))

theorem flags_mul (o i : ℕ) (l : List (ZMod n)) : FlagsOk (mulWrites o i l) := by
  have : ∀ w ∈ mulWrites o i l, ∃ j v, w = .fix .base o j v := by
    induction l generalizing i with
    | nil => intro w hw; cases hw
    | cons y l ih =>
      intro w hw
      rcases List.mem_cons.1 hw with rfl | hw
      exacts [⟨_, _, rfl⟩, ih _ w hw]
  exact .none (fun c h => by obtain ⟨j, v, e⟩ := this _ h; cases e) (fun a b h => by obtain ⟨j, v, e⟩ := this _ h; cases e)

theorem flags_option (o c : ℕ) (v : Option (ZMod n)) : FlagsOk (v.elim [] fun v => [Write.fix .base o c v]) := by
  cases v <;> exact .none (by simp) (by simp)

theorem flags_line (o : ℕ) (pairs : List (ValueSchema n × ZMod n)) (constant : Option (ZMod n)) (mul : List (ZMod n))
    (next : Option (ZMod n)) : FlagsOk (lineWrites o pairs constant mul next) := by
  unfold lineWrites
  refine FlagsOk.append (a := [_]) (.none (by simp) (by simp)) ?_
  exact (((flags_cells o 0 pairs).append (flags_mul o 0 mul)).append (flags_option o 7 next)).append
    (flags_option o 8 constant)

theorem OnRow.tags {o k : ℕ} {chip : Chip} (hc : chip ≠ .range) {ws : List (Write n)} (h : OnRow chip o k ws) :
    TagsOk ws := by
  rintro w hw r c v rfl
  exact absurd (h _ hw .range r rfl).1.symm hc

theorem OnRow.good {chip : Chip} {o : Offsets} {k : ℕ} {ws : List (Write n)} (hw : OnRow chip (o.at chip) k ws)
    (hf : ∀ r, o.at chip ≤ r → r < o.at chip + k → (∃ c v, c < chip.fixCols ∧ .fix chip r c v ∈ ws) ∧
      ∃ c v, c < chip.width ∧ .adv chip r c v ∈ ws) (hd : Distinct ws)
    (ht : 18 < n → TagsOk ws) (hc : FlagsOk ws) : GoodLog o (o.bump chip k) ws where
  le c := by rw [Offsets.bump_at]; omega
  within w hw' c r e := by
    obtain ⟨rfl, h1, h2⟩ := hw w hw' c r e
    rw [Offsets.bump_at, if_pos rfl]
    exact ⟨h1, h2⟩
  filled c r h1 h2 := by
    rw [Offsets.bump_at] at h2
    by_cases e : c = chip
    · subst e; rw [if_pos rfl] at h2; exact hf r h1 h2
    · rw [if_neg e] at h2; omega
  distinct := hd
  tags := ht
  flags := hc

theorem fresh_at {s : Context n} (hs : s.Fresh) {b : Bool} {chip : Chip} {r c : ℕ} (h : s.offs.at chip ≤ r) :
    s.records.inner.at (b, chip, r, c) = none := by
  cases b
  exacts [((fresh_iff s).1 hs chip r c h).1, ((fresh_iff s).1 hs chip r c h).2]

theorem row_of_cells {g : Guards} {o : ℕ} {pairs : List (ValueSchema n × ZMod n)} (hne : pairs ≠ []) {s t : Records n}
    {ws : List (Write n)} (h : runW g (cellsWrites o 0 pairs ++ ws) s = .ok t) : Guarded.row_index g o = .ok () := by
  rw [row_index_ok]
  intro k hk
  obtain ⟨-, h2⟩ := runW_ok h
  cases pairs with
  | nil => exact absurd rfl hne
  | cons x l =>
    refine h2 k hk (.adv .base o 0 x.1.value) ?_ o rfl
    refine List.mem_append_left _ ?_
    unfold cellsWrites cellWrites
    exact List.mem_append_left _ (List.mem_append_right _ List.mem_cons_self)

/-- A row of the base chip, if it is known to exist. -/
theorem records_one_line_runW {g : Guards} {s : Records n} {o : ℕ} {pairs : List (ValueSchema n × ZMod n)}
    {constant : Option (ZMod n)} {mul : List (ZMod n)} {next : Option (ZMod n)} (hp : pairs.length ≤ 5)
    (hm : mul.length ≤ 2) (hrow : ∀ c, s.inner.base_fix_record o c = none) (hne : pairs ≠ [] ∨
      Guarded.row_index g o = .ok ()) :
    Guarded.records_one_line g s o pairs constant mul next = runW g (lineWrites o pairs constant mul next) s := by
  unfold Guarded.records_one_line lineWrites
  simp only [hp, hm, not_true_eq_false, if_false, raise_base, line_cells_runW, mul_cells_runW]
  show _ = runW g _ (Write.apply s (.height .base (o + 1)))
  set u := Write.apply s (.height .base (o + 1)) with hu
  have hrow : ∀ c, u.inner.at (false, .base, o, c) = none := hrow
  have hl : ∀ {x : Bool × Chip × ℕ × ℕ} {w}, w ∈ cellsWrites o 0 pairs ++ mulWrites o 0 mul → w.slot = some x →
      x ≠ (false, .base, o, 7) ∧ x ≠ (false, .base, o, 8) := by
    rintro x w hw e
    rcases List.mem_append.1 hw with hw | hw
    · obtain ⟨j, h1, -, h3⟩ := slot_cells hw e
      constructor <;> rintro rfl <;> cases h1 <;> omega
    · obtain ⟨j, rfl, -, h3⟩ := slot_mul hw e
      constructor <;> intro h <;> simp at h <;> omega
  rw [List.append_assoc, runW_append]
  rw [show (runW g (cellsWrites o 0 pairs) u >>= fun s => runW g (mulWrites o 0 mul) s >>= fun s =>
      Guarded.optional_cell g s o (VAR_COLUMNS + MUL_COLUMNS) next >>= fun s =>
      Guarded.optional_cell g s o (VAR_COLUMNS + MUL_COLUMNS + 1) constant) =
    runW g (cellsWrites o 0 pairs ++ mulWrites o 0 mul) u >>= fun s =>
      Guarded.optional_cell g s o 7 next >>= fun s => Guarded.optional_cell g s o 8 constant by
    rw [runW_append, bind_assoc]; rfl]
  cases e : runW g (cellsWrites o 0 pairs ++ mulWrites o 0 mul) u with
  | error p => rfl
  | ok t =>
    rw [ok_bind, ok_bind]
    have hr : Guarded.row_index g o = .ok () := by
      rcases hne with h | h
      · exact row_of_cells h e
      · exact h
    obtain ⟨ht, -⟩ := runW_ok e
    have h7 : t.inner.at (false, .base, o, 7) = none := by
      rw [ht, applyAll_at _ _ fun w hw e' => (hl hw e').1 rfl]; exact hrow 7
    have h8 : t.inner.at (false, .base, o, 8) = none := by
      rw [ht, applyAll_at _ _ fun w hw e' => (hl hw e').2 rfl]; exact hrow 8
    rw [optional_cell_runW g t o 7 next hr h7, runW_append]
    cases e' : runW g (next.elim [] fun v => [Write.fix .base o 7 v]) t with
    | error p => rfl
    | ok t' =>
      rw [ok_bind, ok_bind]
      obtain ⟨ht', -⟩ := runW_ok e'
      refine optional_cell_runW g t' o 8 constant hr ?_
      show t'.inner.at (false, .base, o, 8) = none
      rw [ht', applyAll_at _ _ fun w hw e'' => absurd (slot_option hw e'') (by simp)]; exact h8

theorem fix_of_cells {o : ℕ} {pairs : List (ValueSchema n × ZMod n)} (hne : pairs ≠ []) :
    ∃ v, (.fix .base o 0 v : Write n) ∈ cellsWrites o 0 pairs := by
  cases pairs with
  | nil => exact absurd rfl hne
  | cons x l =>
    refine ⟨x.2, ?_⟩
    unfold cellsWrites cellWrites
    exact List.mem_append_left _ (List.mem_append_right _ (List.mem_cons_of_mem _ List.mem_cons_self))

theorem adv_of_cells {o : ℕ} {pairs : List (ValueSchema n × ZMod n)} (hne : pairs ≠ []) :
    ∃ v, (.adv .base o 0 v : Write n) ∈ cellsWrites o 0 pairs := by
  cases pairs with
  | nil => exact absurd rfl hne
  | cons x l =>
    refine ⟨x.1.value, ?_⟩
    unfold cellsWrites cellWrites
    exact List.mem_append_left _ (List.mem_append_right _ List.mem_cons_self)

theorem checked_one_line (g : Guards) (pairs : List (ValueSchema n × ZMod n)) (constant : Option (ZMod n))
    (mul : List (ZMod n)) (next : Option (ZMod n)) (hne : pairs ≠ []) :
    Checked g (one_line pairs constant mul next) (Guarded.one_line g pairs constant mul next) := by
  intro s hs
  by_cases hp : pairs.length ≤ 5
  · by_cases hm : mul.length ≤ 2
    · refine .inr ⟨lineCells s.base_offset pairs, lineWrites s.base_offset pairs constant mul next, s.offs.bump .base 1,
        OnRow.good (o := s.offs) (onRow_line _ _ _ _ _) ?_ (distinct_line hp hm)
          (fun _ => (onRow_line _ _ _ _ _).tags (by decide)) (flags_line _ _ _ _ _), ?_, ?_⟩
      · intro r h1 h2
        have : r = s.base_offset := by simp only [Context.offs, Offsets.at] at h1 h2; omega
        subst this
        obtain ⟨v, hv⟩ := fix_of_cells (o := s.base_offset) hne
        obtain ⟨v', hv'⟩ := adv_of_cells (o := s.base_offset) hne
        refine ⟨⟨0, v, by decide, ?_⟩, 0, v', by decide, ?_⟩ <;> unfold lineWrites
        · exact List.mem_cons_of_mem _ (List.mem_append_left _ (List.mem_append_left _ (List.mem_append_left _ hv)))
        · exact List.mem_cons_of_mem _ (List.mem_append_left _ (List.mem_append_left _ (List.mem_append_left _ hv')))
      · have hrow := fun k => (fresh_iff s).1 hs .base s.base_offset k le_rfl
        obtain ⟨t, h1, -⟩ := Records.one_line_spec (s := s.records) (o := s.base_offset) (constant := constant)
          (next := next) hp hm (fun k => (hrow k).1) (fun k => (hrow k).2)
        have := records_one_line_eq h1
        subst this
        unfold one_line
        rw [h1]
        rfl
      · intro x
        unfold Guarded.one_line
        rw [records_one_line_runW hp hm (fun c => hs.baseFix _ _ le_rfl) (.inl hne)]
        exact Iff.rfl
    · refine .inl ⟨.indexOutOfBounds, .indexOutOfBounds, ?_, ?_⟩
      · unfold Verif.one_line Records.one_line
        rw [if_neg (by simpa using hp), if_pos (by simpa using hm)]; rfl
      · unfold Guarded.one_line Guarded.records_one_line
        rw [if_neg (by simpa using hp), if_pos (by simpa using hm)]; rfl
  · refine .inl ⟨.assertion, .assertion, ?_, ?_⟩
    · unfold Verif.one_line Records.one_line
      rw [if_pos (by simpa using hp)]; rfl
    · unfold Guarded.one_line Guarded.records_one_line
      rw [if_pos (by simpa using hp)]; rfl

theorem optional_cell_row {g : Guards} {s t : Records n} {o c : ℕ} {v : Option (ZMod n)}
    (h : Guarded.optional_cell g s o c v = .ok t) : Guarded.row_index g o = .ok () := by
  cases e : Guarded.row_index g o with
  | ok u => rfl
  | error p =>
    exfalso
    unfold Guarded.optional_cell Guarded.assign_fix_cell_in_base_chip at h
    cases v <;> dsimp only at h <;> rw [e] at h <;> cases h

theorem except_bind_ok {x : Except Panic α} {f : α → Except Panic β} {b : β} (h : (x >>= f) = .ok b) :
    ∃ a, x = .ok a ∧ f a = .ok b := by
  cases x with
  | error p => cases h
  | ok a => exact ⟨a, rfl, h⟩

theorem row_of_line {g : Guards} {s t : Records n} {o : ℕ} {pairs : List (ValueSchema n × ZMod n)}
    {constant : Option (ZMod n)} {mul : List (ZMod n)} {next : Option (ZMod n)}
    (h : Guarded.records_one_line g s o pairs constant mul next = .ok t) : Guarded.row_index g o = .ok () := by
  unfold Guarded.records_one_line at h
  by_cases hp : pairs.length ≤ VAR_COLUMNS
  · by_cases hm : mul.length ≤ MUL_COLUMNS
    · simp only [hp, hm, not_true_eq_false, if_false] at h
      obtain ⟨_, -, h⟩ := except_bind_ok h
      obtain ⟨_, -, h⟩ := except_bind_ok h
      obtain ⟨_, h, -⟩ := except_bind_ok h
      exact optional_cell_row h
    · simp only [hp, hm, not_true_eq_false, not_false_eq_true, if_true, if_false] at h
      cases h
  · simp only [hp, not_false_eq_true, if_true] at h
    cases h

theorem checked_one_line_with_last (g : Guards) (pairs : List (ValueSchema n × ZMod n)) (last : ValueSchema n × ZMod n)
    (constant : Option (ZMod n)) (mul : List (ZMod n)) (next : Option (ZMod n)) :
    Checked g (one_line_with_last pairs last constant mul next)
      (Guarded.one_line_with_last g pairs last constant mul next) := by
  intro s hs
  by_cases hp : pairs.length ≤ 4
  · by_cases hm : mul.length ≤ 2
    · refine .inr ⟨(lineCells s.base_offset pairs, ⟨⟨.base, 4, s.base_offset⟩, last.1.value⟩),
        lineWrites s.base_offset pairs constant mul next ++ cellWrites s.base_offset 4 last.1 last.2, s.offs.bump .base 1,
        OnRow.good (o := s.offs) ((onRow_line _ _ _ _ _).append (onRow_cell _ _ _ _)) ?_
          ((distinct_line (by omega) hm).append (distinct_cell _ _ _ _) ?_)
          (fun _ => ((onRow_line _ _ _ _ _).append (onRow_cell _ _ _ _)).tags (by decide))
          ((flags_line _ _ _ _ _).append (flags_cell _ _ _ _)), ?_, ?_⟩
      · intro r h1 h2
        have : r = s.base_offset := by simp only [Context.offs, Offsets.at] at h1 h2; omega
        subst this
        refine ⟨⟨4, last.2, by decide, List.mem_append_right _ ?_⟩, 4, last.1.value, by decide, List.mem_append_right _ ?_⟩
        · unfold cellWrites
          exact List.mem_append_right _ (List.mem_cons_of_mem _ List.mem_cons_self)
        · unfold cellWrites
          exact List.mem_append_right _ List.mem_cons_self
      · intro v hv w hw x e e'
        obtain ⟨b, j, rfl, h2⟩ := slot_line hv e
        have := slot_cell hw e'
        cases this
        omega
      · have hrow := fun k => (fresh_iff s).1 hs .base s.base_offset k le_rfl
        obtain ⟨t, h1, -⟩ := Records.one_line_spec (s := s.records) (o := s.base_offset) (constant := constant)
          (next := next) (pairs := pairs) (by omega) hm (fun k => (hrow k).1) (fun k => (hrow k).2)
        have := records_one_line_eq h1
        unfold Verif.one_line_with_last Records.one_line_with_last
        rw [if_neg (by simpa using hp), h1, applyAll_append, ← line_cell_eq]
        subst this
        rfl
      · intro x
        unfold Guarded.one_line_with_last Guarded.records_one_line_with_last
        rw [if_neg (by simpa using hp)]
        by_cases hr : Guarded.row_index g s.base_offset = .ok ()
        · rw [records_one_line_runW (by omega) hm (fun c => hs.baseFix _ _ le_rfl) (.inr hr), runW_append]
          simp only [line_cell_runW]
          exact Iff.rfl
        · constructor
          · intro h
            cases e : Guarded.records_one_line g s.records s.base_offset pairs constant mul next with
            | error p => rw [e] at h; cases h
            | ok t => exact absurd (row_of_line e) hr
          · intro h
            exfalso
            cases e : runW g (lineWrites s.base_offset pairs constant mul next ++
              cellWrites s.base_offset 4 last.1 last.2) s.records with
            | error p => rw [e] at h; cases h
            | ok t =>
              refine hr (row_index_ok.2 fun k hk => (runW_ok e).2 k hk (.fix .base s.base_offset 4 last.2) ?_ _ rfl)
              unfold cellWrites
              exact List.mem_append_right _ (List.mem_append_right _ (List.mem_cons_of_mem _ List.mem_cons_self))
    · refine .inl ⟨.indexOutOfBounds, .indexOutOfBounds, ?_, ?_⟩
      · unfold Verif.one_line_with_last Records.one_line_with_last Records.one_line
        rw [if_neg (by simpa using hp), if_neg (by show ¬ ¬ _ ≤ 5; omega), if_pos (by simpa using hm)]; rfl
      · unfold Guarded.one_line_with_last Guarded.records_one_line_with_last Guarded.records_one_line
        rw [if_neg (by simpa using hp), if_neg (by show ¬ ¬ _ ≤ 5; omega), if_pos (by simpa using hm)]; rfl
  · refine .inl ⟨.assertion, .assertion, ?_, ?_⟩
    · unfold Verif.one_line_with_last Records.one_line_with_last
      rw [if_pos (by simpa using hp)]; rfl
    · unfold Guarded.one_line_with_last Guarded.records_one_line_with_last
      rw [if_pos (by simpa using hp)]; rfl

/-- `m` either panics, with and without guards, or does `k` rows of writes, with and without guards. -/
def CheckedRange (g : Guards) (o k : ℕ) (x x' : Records n → Except Panic (AssignedValue n × Records n)) : Prop :=
  (∃ p, ∀ s, x s = .error p ∧ x' s = .error p) ∨
    ∃ a ws, OnRow .range o k ws ∧ (∀ r, o ≤ r → r < o + k → (∃ c v, c < 2 ∧ .fix .range r c v ∈ ws) ∧
      ∃ c v, c < 3 ∧ .adv .range r c v ∈ ws) ∧ Distinct ws ∧
      (18 < n → TagsOk ws) ∧ FlagsOk ws ∧
      ∀ s, x s = .ok (a, applyAll ws s) ∧ x' s = runW g ws s >>= fun r => .ok (a, r)

theorem tag_val {t : ℕ} (ht : t ≤ 18) (hn : 18 < n) : (t : ZMod n).val ≤ ((COMMON_RANGE_BITS : ℕ) : ZMod n).val := by
  rw [ZMod.val_natCast_of_lt (by omega), ZMod.val_natCast_of_lt (by exact hn)]
  exact ht

theorem TagsOk.nil : TagsOk ([] : List (Write n)) := fun _ h => (nomatch h)
theorem TagsOk.cons {w : Write n} {ws : List (Write n)} (hw : TagsOk [w]) (h : TagsOk ws) : TagsOk (w :: ws) := by
  intro v hv
  rcases List.mem_cons.1 hv with rfl | hv
  exacts [hw _ List.mem_cons_self, h _ hv]
theorem TagsOk.height {chip : Chip} {k : ℕ} {ws : List (Write n)} (h : TagsOk ws) : TagsOk (.height chip k :: ws) :=
  .cons (by intro w hw r c v e; subst e; simp at hw) h
theorem TagsOk.adv {chip : Chip} {r c : ℕ} {v : ZMod n} {ws : List (Write n)} (h : TagsOk ws) :
    TagsOk (.adv chip r c v :: ws) :=
  .cons (by intro w hw r c v e; subst e; simp at hw) h
theorem TagsOk.lines {r : ℕ} {v : ZMod n} {ws : List (Write n)} (hv : v = 1 ∨ v = 2 ∨ v = 3) (h : TagsOk ws) :
    TagsOk (.fix .range r 0 v :: ws) :=
  .cons (by intro w hw r c v e; subst e; simp at hw; obtain ⟨rfl, rfl, rfl⟩ := hw; rw [if_pos rfl]; exact hv) h
theorem TagsOk.tag {r : ℕ} {v : ZMod n} {ws : List (Write n)} (hv : v.val ≤ ((COMMON_RANGE_BITS : ℕ) : ZMod n).val)
    (h : TagsOk ws) : TagsOk (.fix .range r 1 v :: ws) :=
  .cons (by intro w hw r c v e; subst e; simp at hw; obtain ⟨rfl, rfl, rfl⟩ := hw; rw [if_neg (by omega)]; exact hv) h

theorem checked_one_line_range (g : Guards) (o : ℕ) (v : List (ZMod n)) (a : ZMod n) (bits : ℕ) :
    CheckedRange g o 1 (fun s => s.assign_one_line_range_value o v a bits)
      (fun s => Guarded.assign_one_line_range_value g s o v a bits) := by
  unfold Records.assign_one_line_range_value Guarded.assign_one_line_range_value
  by_cases h : bits ≤ COMMON_RANGE_BITS
  · simp only [h, not_true_eq_false, if_false, raise_range]
    cases v with
    | nil => exact .inl ⟨_, fun s => ⟨rfl, rfl⟩⟩
    | cons v0 v =>
      refine .inr ⟨⟨⟨.range, 0, o⟩, a⟩, [.height .range (o + 2), .fix .range o 0 1, .fix .range o 1 (bits : ZMod n),
        .adv .range o 1 v0, .adv .range o 0 a], by on_row, ?_, ?_, ?_, .none (by simp) (by simp), fun s => ⟨rfl, ?_⟩⟩
      · intro r h1 h2
        have : r = o := by omega
        subst this
        exact ⟨⟨0, 1, by omega, by simp⟩, 1, v0, by omega, by simp⟩
      · simp [Distinct, Write.slot]
      · intro hn
        exact .height (.lines (.inl rfl) (.tag (tag_val h hn) (.adv (.adv .nil))))
      · simp only [adv_range_eq, fix_range_eq, runW_cons_cons, bind_assoc]
        rfl
  · simp only [h, not_false_eq_true, if_true]
    exact .inl ⟨_, fun s => ⟨rfl, rfl⟩⟩

theorem two_line_tags_le {bits : ℕ} (h' : bits ≤ 72) :
    Records.two_line_tag0 bits ≤ 18 ∧ Records.two_line_tag1 bits ≤ 18 := by
  unfold Records.two_line_tag0 Records.two_line_tag1
  simp only [COMMON_RANGE_BITS]
  constructor <;> split <;> omega

theorem three_line_tags_le {bits : ℕ} (h' : bits ≤ 108) : Records.three_line_tag0 bits ≤ 18 ∧
    Records.three_line_tag1 bits ≤ 18 ∧ Records.three_line_tag2 bits ≤ 18 := by
  unfold Records.three_line_tag0 Records.three_line_tag1 Records.three_line_tag2
  simp only [COMMON_RANGE_BITS]
  refine ⟨?_, ?_, ?_⟩ <;> repeat' split
  all_goals omega

theorem checked_two_line_range (g : Guards) (o : ℕ) (v : List (ZMod n)) (a : ZMod n) (bits : ℕ) :
    CheckedRange g o 2 (fun s => s.assign_two_line_range_value o v a bits)
      (fun s => Guarded.assign_two_line_range_value g s o v a bits) := by
  unfold Records.assign_two_line_range_value Guarded.assign_two_line_range_value
  by_cases h : bits ≥ COMMON_RANGE_BITS * 2
  · by_cases h' : bits ≤ COMMON_RANGE_BITS * 4
    · simp only [h, h', not_true_eq_false, if_false, raise_range]
      match v with
      | [] => exact .inl ⟨_, fun s => ⟨rfl, rfl⟩⟩
      | [_] => exact .inl ⟨_, fun s => ⟨rfl, rfl⟩⟩
      | [_, _] => exact .inl ⟨_, fun s => ⟨rfl, rfl⟩⟩
      | [_, _, _] => exact .inl ⟨_, fun s => ⟨rfl, rfl⟩⟩
      | v0 :: v1 :: v2 :: v3 :: _ =>
        refine .inr ⟨⟨⟨.range, 0, o⟩, a⟩, [.height .range (o + 3), .fix .range o 0 (1 + 1), .adv .range o 2 v0,
          .adv .range (o + 1) 2 v1,
          .fix .range o 1 (Records.two_line_tag0 bits : ZMod n), .adv .range o 1 v2,
          .fix .range (o + 1) 1 (Records.two_line_tag1 bits : ZMod n), .adv .range (o + 1) 1 v3,
          .adv .range o 0 a], by on_row, ?_, ?_, ?_, .none (by simp) (by simp), fun s => ⟨rfl, ?_⟩⟩
        · intro r h1 h2
          rcases (show r = o ∨ r = o + 1 by omega) with rfl | rfl
          exacts [⟨⟨1, (Records.two_line_tag0 bits : ZMod n), by omega, by simp⟩, 2, v0, by omega, by simp⟩,
            ⟨⟨1, (Records.two_line_tag1 bits : ZMod n), by omega, by simp⟩, 2, v1, by omega, by simp⟩]
        · simp [Distinct, Write.slot]
        · intro hn
          obtain ⟨t0, t1⟩ := two_line_tags_le h'
          exact .height (.lines (.inr (.inl (by norm_num))) (.adv (.adv (.tag (tag_val t0 hn) (.adv
            (.tag (tag_val t1 hn) (.adv (.adv .nil))))))))
        · simp only [adv_range_eq, fix_range_eq, runW_cons_cons, bind_assoc]
          rfl
    · simp only [h, h', not_true_eq_false, not_false_eq_true, if_true, if_false]
      exact .inl ⟨_, fun s => ⟨rfl, rfl⟩⟩
  · simp only [h, not_false_eq_true, if_true]
    exact .inl ⟨_, fun s => ⟨rfl, rfl⟩⟩

theorem checked_three_line_range (g : Guards) (o : ℕ) (v : List (ZMod n)) (a : ZMod n) (bits : ℕ) :
    CheckedRange g o 3 (fun s => s.assign_three_line_range_value o v a bits)
      (fun s => Guarded.assign_three_line_range_value g s o v a bits) := by
  unfold Records.assign_three_line_range_value Guarded.assign_three_line_range_value
  by_cases h : bits ≥ COMMON_RANGE_BITS * 3
  · by_cases h' : bits ≤ COMMON_RANGE_BITS * 6
    · simp only [h, h', not_true_eq_false, if_false, raise_range]
      match v with
      | [] => exact .inl ⟨_, fun s => ⟨rfl, rfl⟩⟩
      | [_] => exact .inl ⟨_, fun s => ⟨rfl, rfl⟩⟩
      | [_, _] => exact .inl ⟨_, fun s => ⟨rfl, rfl⟩⟩
      | [_, _, _] => exact .inl ⟨_, fun s => ⟨rfl, rfl⟩⟩
      | [_, _, _, _] => exact .inl ⟨_, fun s => ⟨rfl, rfl⟩⟩
      | [_, _, _, _, _] => exact .inl ⟨_, fun s => ⟨rfl, rfl⟩⟩
      | v0 :: v1 :: v2 :: v3 :: v4 :: v5 :: _ =>
        refine .inr ⟨⟨⟨.range, 0, o⟩, a⟩, [.height .range (o + 4), .fix .range o 0 (1 + 1 + 1), .adv .range o 2 v0,
          .adv .range (o + 1) 2 v1, .adv .range (o + 2) 2 v2,
          .fix .range o 1 (Records.three_line_tag0 bits : ZMod n), .adv .range o 1 v3,
          .fix .range (o + 1) 1 (Records.three_line_tag1 bits : ZMod n), .adv .range (o + 1) 1 v4,
          .fix .range (o + 2) 1 (Records.three_line_tag2 bits : ZMod n), .adv .range (o + 2) 1 v5,
          .adv .range o 0 a], by on_row, ?_, ?_, ?_, .none (by simp) (by simp), fun s => ⟨rfl, ?_⟩⟩
        · intro r h1 h2
          rcases (show r = o ∨ r = o + 1 ∨ r = o + 2 by omega) with rfl | rfl | rfl
          exacts [⟨⟨1, (Records.three_line_tag0 bits : ZMod n), by omega, by simp⟩, 2, v0, by omega, by simp⟩,
            ⟨⟨1, (Records.three_line_tag1 bits : ZMod n), by omega, by simp⟩, 2, v1, by omega, by simp⟩,
            ⟨⟨1, (Records.three_line_tag2 bits : ZMod n), by omega, by simp⟩, 2, v2, by omega, by simp⟩]
        · simp [Distinct, Write.slot]
        · intro hn
          obtain ⟨t0, t1, t2⟩ := three_line_tags_le h'
          exact .height (.lines (.inr (.inr (by norm_num))) (.adv (.adv (.adv (.tag (tag_val t0 hn) (.adv
            (.tag (tag_val t1 hn) (.adv (.tag (tag_val t2 hn) (.adv (.adv .nil)))))))))))
        · simp only [adv_range_eq, fix_range_eq, runW_cons_cons, bind_assoc]
          rfl
    · simp only [h, h', not_true_eq_false, not_false_eq_true, if_true, if_false]
      exact .inl ⟨_, fun s => ⟨rfl, rfl⟩⟩
  · simp only [h, not_false_eq_true, if_true]
    exact .inl ⟨_, fun s => ⟨rfl, rfl⟩⟩

/-- A range value, as part of an operation. -/
theorem CheckedRange.checked {g : Guards} {k : ℕ} {s : Context n}
    {x x' : Records n → Except Panic (AssignedValue n × Records n)} (h : CheckedRange g s.range_offset k x x')
    {m m' : M n (AssignedValue n)}
    (hm : m s = x s.records >>= fun y => .ok (y.1, Context.mk' y.2 (s.offs.bump .range k)))
    (hm' : m' s = x' s.records >>= fun y => .ok (y.1, Context.mk' y.2 (s.offs.bump .range k))) :
    (∃ p p', m s = .error p ∧ m' s = .error p') ∨
    ∃ a ws o', GoodLog s.offs o' ws ∧ m s = .ok (a, Context.mk' (applyAll ws s.records) o') ∧
      ∀ y, m' s = .ok y ↔ (runW g ws s.records >>= fun r => .ok (a, Context.mk' r o')) = .ok y := by
  rcases h with ⟨p, hp⟩ | ⟨a, ws, h1, h2, h3, h4, h5, h6⟩
  · exact .inl ⟨p, p, by rw [hm, (hp _).1]; rfl, by rw [hm', (hp _).2]; rfl⟩
  · refine .inr ⟨a, ws, _, OnRow.good (o := s.offs) h1 h2 h3 h4 h5, by rw [hm, (h6 _).1]; rfl, fun y => ?_⟩
    rw [hm', (h6 _).2, bind_assoc]
    exact Iff.rfl

theorem checked_assign_common (g : Guards) (bn : ℕ) : Checked (n := n) g (assign_common bn) (Guarded.assign_common g bn) := by
  intro s hs
  refine (checked_one_line_range g s.range_offset [(bn : ZMod n)] (bn : ZMod n) COMMON_RANGE_BITS).checked (k := 1) ?_ ?_
  · unfold assign_common
    split
    · rename_i e; rw [e]; rfl
    · rename_i e; rw [e]; rfl
  · rfl

theorem checked_assign_range (g : Guards) (v : ZMod n × List (ZMod n)) (bits : ℕ) :
    Checked g (assign_range v bits) (Guarded.assign_range g v bits) := by
  intro s hs
  have key : ∀ {k : ℕ} {x x' : Records n → Except Panic (AssignedValue n × Records n)},
      CheckedRange g s.range_offset k x x' →
      (s.records.assign_range_value s.range_offset v.2 v.1 bits = x s.records >>= fun y => .ok ((y.1, k), y.2)) →
      (Guarded.assign_range_value g s.records s.range_offset v.2 v.1 bits =
        x' s.records >>= fun y => .ok ((y.1, k), y.2)) → _ := fun {k x x'} h e1 e2 =>
    h.checked (m := assign_range v bits) (m' := Guarded.assign_range g v bits) (by
      unfold assign_range; rw [e1]; cases x s.records <;> rfl) (by
      unfold Guarded.assign_range; rw [e2]; cases x' s.records <;> rfl)
  by_cases h1 : bits ≤ COMMON_RANGE_BITS
  · exact key (checked_one_line_range g s.range_offset v.2 v.1 bits)
      (by unfold Records.assign_range_value; rw [if_pos h1]; rfl)
      (by unfold Guarded.assign_range_value; rw [if_pos h1]; rfl)
  by_cases h2 : bits < 2 * COMMON_RANGE_BITS
  · refine .inl ⟨.unreachable, .unreachable, ?_, ?_⟩
    · unfold assign_range Records.assign_range_value; rw [if_neg h1, if_pos h2]; rfl
    · unfold Guarded.assign_range Guarded.assign_range_value; rw [if_neg h1, if_pos h2]; rfl
  by_cases h3 : bits ≤ 4 * COMMON_RANGE_BITS
  · exact key (checked_two_line_range g s.range_offset (Records.resize v.2 4) v.1 bits)
      (by unfold Records.assign_range_value; rw [if_neg h1, if_neg h2, if_pos h3]; rfl)
      (by unfold Guarded.assign_range_value; rw [if_neg h1, if_neg h2, if_pos h3]; rfl)
  by_cases h4 : bits ≤ 6 * COMMON_RANGE_BITS
  · exact key (checked_three_line_range g s.range_offset (Records.resize v.2 6) v.1 bits)
      (by unfold Records.assign_range_value; rw [if_neg h1, if_neg h2, if_neg h3, if_pos h4]; rfl)
      (by unfold Guarded.assign_range_value; rw [if_neg h1, if_neg h2, if_neg h3, if_pos h4]; rfl)
  · refine .inl ⟨.unreachable, .unreachable, ?_, ?_⟩
    · unfold assign_range Records.assign_range_value; rw [if_neg h1, if_neg h2, if_neg h3, if_neg h4]; rfl
    · unfold Guarded.assign_range Guarded.assign_range_value; rw [if_neg h1, if_neg h2, if_neg h3, if_neg h4]; rfl

theorem checked_assign_cache_value (g : Guards) (v : AssignedValue n) (offset group selector : ℕ) :
    Checked g (assign_cache_value v offset group selector) (Guarded.assign_cache_value g v offset group selector) := by
  intro s hs
  have hw : OnRow .select s.select_offset 1 (cacheWrites s.select_offset v (encode_offset n group selector offset)) := by
    unfold cacheWrites; on_row
  refine .inr ⟨(), cacheWrites s.select_offset v (encode_offset n group selector offset), s.offs.bump .select 1,
    OnRow.good (o := s.offs) hw ?_ ?_ (fun _ => hw.tags (by decide)) ?_, ?_, ?_⟩
  · intro r h1 h2
    have : r = s.select_offset := by simp only [Context.offs, Offsets.at] at h1 h2; omega
    subst this
    exact ⟨⟨0, _, by decide, by simp [cacheWrites]; rfl⟩, 0, v.val, by decide, by simp [cacheWrites]⟩
  · simp [cacheWrites, Distinct, Write.slot]
  · intro c; simp [cacheWrites]
  · unfold Verif.assign_cache_value Records.assign_cache_value
    simp only [raise_select]
    rfl
  · intro x
    unfold Guarded.assign_cache_value Guarded.records_assign_cache_value cacheWrites
    simp only [raise_select, adv_select_eq, fix_select_eq, enable_permute_eq, runW_cons_cons, bind_assoc]
    exact Iff.rfl

theorem checked_assign_selected_value (g : Guards) (v : AssignedValue n) (offset group : ℕ) (selector : AssignedValue n) :
    Checked g (assign_selected_value v offset group selector)
      (Guarded.assign_selected_value g v offset group selector) := by
  intro s hs
  have hw : OnRow .select s.select_offset 1 (selectedWrites s.select_offset v (encode_offset n group 0 offset) selector) := by
    unfold selectedWrites; on_row
  refine .inr ⟨⟨⟨.select, 0, s.select_offset⟩, v.val⟩,
    selectedWrites s.select_offset v (encode_offset n group 0 offset) selector, s.offs.bump .select 1,
    OnRow.good (o := s.offs) hw ?_ ?_ (fun _ => hw.tags (by decide)) ?_, ?_, ?_⟩
  · intro r h1 h2
    have : r = s.select_offset := by simp only [Context.offs, Offsets.at] at h1 h2; omega
    subst this
    exact ⟨⟨0, _, by decide, by simp [selectedWrites]; rfl⟩, 0, v.val, by decide, by simp [selectedWrites]⟩
  · simp [selectedWrites, Distinct, Write.slot]
  · intro c; simp [selectedWrites]
  · unfold Verif.assign_selected_value Records.assign_select_value
    simp only [raise_select]
    rfl
  · intro x
    unfold Guarded.assign_selected_value Guarded.records_assign_select_value selectedWrites
    simp only [raise_select, adv_select_eq, fix_select_eq, enable_permute_eq, runW_cons_cons, bind_assoc]
    exact Iff.rfl

/-! ## Operations -/

theorem Write.apply_perms (s : Records n) (w : Write n) (p : Cell × Cell) :
    p ∈ (w.apply s).permutations ↔ p ∈ s.permutations ∨ w = .perm p.1 p.2 := by
  rcases w with ⟨_ | _ | _, r', c', v⟩ | ⟨_ | _ | _, r', c', v⟩ | _ | ⟨a, b⟩ | ⟨_ | _ | _, h'⟩ <;>
    simp [Write.apply]
  obtain ⟨x, y⟩ := p
  simp only [Prod.mk.injEq]
  constructor
  · rintro (h | ⟨rfl, rfl⟩)
    exacts [.inl h, .inr ⟨rfl, rfl⟩]
  · rintro (h | ⟨rfl, rfl⟩)
    exacts [.inl h, .inr ⟨rfl, rfl⟩]

theorem mem_applyAll_perms (ws : List (Write n)) (s : Records n) (p : Cell × Cell) :
    p ∈ (applyAll ws s).permutations ↔ p ∈ s.permutations ∨ .perm p.1 p.2 ∈ ws := by
  induction ws generalizing s with
  | nil => simp [applyAll_nil]
  | cons w ws ih =>
    rw [applyAll_cons, ih, Write.apply_perms, List.mem_cons, or_assoc]
    constructor <;> rintro (h | h | h) <;> simp [h]

theorem GoodLog.between {o o' : Offsets} {ws : List (Write n)} (h : GoodLog o o' ws) {s : Context n} (hs : s.Fresh)
    (ho : s.offs = o) : (Context.mk' (applyAll ws s.records) o').Fresh := by
  rw [fresh_iff] at hs ⊢
  intro chip r c hr
  have hr : o'.at chip ≤ r := hr
  obtain ⟨h1, h2⟩ := applyAll_other s.records c (ws := ws) (chip := chip) (r := r) fun w hw e => by
    have := (h.within w hw _ _ e).2; omega
  obtain ⟨h3, h4⟩ := hs chip r c (by rw [ho]; exact (h.le chip).trans hr)
  exact ⟨h1.trans h3, h2.trans h4⟩

theorem GoodLog.rows_iff {g : Guards} {s : Context n} {o' : Offsets} {ws : List (Write n)} (h : GoodLog s.offs o' ws)
    (hf : g.Fits s) : (∀ k, g.max_rows = some k → ∀ w ∈ ws, ∀ r, w.row = some r → r < k) ↔
      g.Fits (Context.mk' (applyAll ws s.records) o') := by
  constructor
  · intro hr
    refine ⟨fun k hk chip => ?_, fun k hk p hp => ?_⟩
    · show o'.at chip ≤ k
      by_cases e : o'.at chip = s.offs.at chip
      · rw [e]; exact hf.1 k hk chip
      · have h1 := h.le chip
        obtain ⟨⟨c, v, -, hv⟩, -⟩ := h.filled chip (o'.at chip - 1) (by omega) (by omega)
        have := hr k hk _ hv _ rfl
        omega
    · rcases (mem_applyAll_perms ws s.records p).1 hp with h1 | h1
      · exact hf.2 k hk p h1
      · exact ⟨hr k hk _ ((h.flags p.1).2 ⟨_, _, h1, .inl rfl⟩) _ rfl,
          hr k hk _ ((h.flags p.2).2 ⟨_, _, h1, .inr rfl⟩) _ rfl⟩
  · rintro ⟨h1, h2⟩ k hk w hw r hr
    have key : ∀ chip r', w.target = some (chip, r') → r' < k := fun chip r' e =>
      (h.within w hw chip r' e).2.trans_le (h1 k hk chip)
    cases w with
    | adv chip r' c v => cases hr; exact key _ _ rfl
    | fix chip r' c v => cases hr; exact key _ _ rfl
    | flag cell =>
      cases hr
      obtain ⟨a, b, h3, h4⟩ := (h.flags cell).1 hw
      have := h2 k hk (a, b) ((mem_applyAll_perms ws s.records (a, b)).2 (.inr h3))
      rcases h4 with rfl | rfl
      exacts [this.1, this.2]
    | perm a b => cases hr
    | height chip h => cases hr

/-- `m'` does what `m` does exactly when what `m` uses fits. -/
def SameIfFits (g : Guards) (m m' : M n α) : Prop :=
  ∀ s : Context n, s.Fresh → g.Fits s → ∀ x t, m' s = .ok (x, t) ↔ m s = .ok (x, t) ∧ g.Fits t

/-- Every row `m` uses gets a fixed value. -/
def Filling (m : M n α) : Prop :=
  ∀ (s : Context n) x t, s.Fresh → m s = .ok (x, t) → FilledIn s.offs t.offs t.records.inner

theorem Checked.same {g : Guards} {m m' : M n α} (h : Checked g m m') (hn : 18 < n) : SameIfFits g m m' := by
  intro s hs hf x t
  rcases h s hs with ⟨p, p', h1, h2⟩ | ⟨a, ws, o', h1, h2, h3⟩
  · rw [h1, h2]; exact ⟨fun e => (nomatch e), fun e => (nomatch e.1)⟩
  · rw [h3, h2]
    constructor
    · intro e
      obtain ⟨r, e1, e2⟩ := except_bind_ok e
      cases e2
      obtain ⟨rfl, h4⟩ := runW_ok e1
      exact ⟨rfl, (h1.rows_iff hf).1 h4⟩
    · rintro ⟨e, h4⟩
      cases e
      rw [runW_passes h1.distinct (h1.tags hn) ?_ ((h1.rows_iff hf).2 h4)]
      · rfl
      · intro w hw x e
        obtain ⟨b, chip, r, c⟩ := x
        refine fresh_at hs (h1.within w hw chip r ?_).1
        cases w <;> cases e <;> rfl

/-- The last write to a cell determines its content, so a written cell is not empty. -/
theorem applyAll_fix {ws : List (Write n)} {s : Records n} {chip : Chip} {r c : ℕ} {v : ZMod n}
    (h : .fix chip r c v ∈ ws) : (applyAll ws s).inner.fixOf chip r c ≠ none := by
  induction ws using List.reverseRecOn generalizing s with
  | nil => cases h
  | append_singleton ws w ih =>
    rw [applyAll_append]
    by_cases e : w.slot = some (false, chip, r, c)
    · cases w with
      | fix chip' r' c' v' =>
        cases e
        cases chip <;> simp [applyAll, Write.apply, RecordsInner.fixOf, setCell]
      | adv => cases e
      | flag => cases e
      | perm => cases e
      | height => cases e
    · have h1 : (applyAll [w] (applyAll ws s)).inner.at (false, chip, r, c) = (applyAll ws s).inner.at (false, chip, r, c) :=
        Write.apply_at _ w _ e
      rcases List.mem_append.1 h with h | h
      · exact fun h2 => ih h (h1.symm.trans h2)
      · rw [List.mem_singleton] at h
        subst h
        exact absurd rfl e

theorem applyAll_adv {ws : List (Write n)} {s : Records n} {chip : Chip} {r c : ℕ} {v : ZMod n}
    (h : .adv chip r c v ∈ ws) : (applyAll ws s).inner.advOf chip r c ≠ none := by
  induction ws using List.reverseRecOn generalizing s with
  | nil => cases h
  | append_singleton ws w ih =>
    rw [applyAll_append]
    by_cases e : w.slot = some (true, chip, r, c)
    · cases w with
      | adv chip' r' c' v' =>
        cases e
        cases chip <;> simp [applyAll, Write.apply, RecordsInner.advOf, setCell]
      | fix => cases e
      | flag => cases e
      | perm => cases e
      | height => cases e
    · have h1 : (applyAll [w] (applyAll ws s)).inner.at (true, chip, r, c) = (applyAll ws s).inner.at (true, chip, r, c) :=
        Write.apply_at _ w _ e
      rcases List.mem_append.1 h with h | h
      · exact fun h2 => ih h (h1.symm.trans h2)
      · rw [List.mem_singleton] at h
        subst h
        exact absurd rfl e

theorem Checked.filling {g : Guards} {m m' : M n α} (h : Checked g m m') : Filling m := by
  intro s x t hs e
  rcases h s hs with ⟨p, p', h1, h2⟩ | ⟨a, ws, o', h1, h2, -⟩
  · rw [h1] at e; cases e
  · rw [h2] at e
    cases e
    intro chip r hr hr'
    obtain ⟨⟨c, v, hc, hv⟩, c', v', hc', hv'⟩ := h1.filled chip r hr hr'
    exact ⟨⟨c, hc, applyAll_fix hv⟩, c', hc', applyAll_adv hv'⟩

theorem Guards.Fits.mono {g : Guards} {s t : Context n} (h : g.Fits t) (hg : Grows s t) : g.Fits s := by
  obtain ⟨h1, -, x, h2⟩ := (grows_iff _ _).1 hg
  exact ⟨fun k hk chip => (h1 chip).trans (h.1 k hk chip), fun k hk p hp =>
    h.2 k hk p (by rw [h2]; exact List.mem_append_left _ hp)⟩

theorem FilledIn.append {o o' o'' : Offsets} {i j : RecordsInner n} (h : FilledIn o o' i) (h' : FilledIn o' o'' j)
    (hs : SameBelow i j o') : FilledIn o o'' j := by
  intro chip r hr hr'
  by_cases e : r < o'.at chip
  · obtain ⟨⟨c, h1, h2⟩, c', h3, h4⟩ := h chip r hr e
    exact ⟨⟨c, h1, by rw [(hs chip r c e).1]; exact h2⟩, c', h3, by rw [(hs chip r c' e).2]; exact h4⟩
  · exact h' chip r (by omega) hr'

theorem SameIfFits.bind {g : Guards} {m m' : M n α} {k k' : α → M n β} (hg : Growing m)
    (hgk : ∀ a, (∃ s t, m s = .ok (a, t)) → Growing (k a)) (hm : SameIfFits g m m')
    (hk : ∀ a, (∃ s t, m s = .ok (a, t)) → SameIfFits g (k a) (k' a)) : SameIfFits g (m >>= k) (m' >>= k') := by
  intro s hs hf x t
  rw [run_bind_ok, run_bind_ok]
  constructor
  · rintro ⟨a, u, h1, h2⟩
    obtain ⟨h3, h4⟩ := (hm s hs hf a u).1 h1
    obtain ⟨h5, h6⟩ := (hk a ⟨s, u, h3⟩ u (hg _ _ _ hs h3).1 h4 x t).1 h2
    exact ⟨⟨a, u, h3, h5⟩, h6⟩
  · rintro ⟨⟨a, u, h1, h2⟩, h3⟩
    have hu := (hg _ _ _ hs h1).1
    have h4 : g.Fits u := h3.mono (hgk a ⟨s, u, h1⟩ _ _ _ hu h2).2
    exact ⟨a, u, (hm s hs hf a u).2 ⟨h1, h4⟩, (hk a ⟨s, u, h1⟩ u hu h4 x t).2 ⟨h2, h3⟩⟩

theorem Filling.bind {m : M n α} {k : α → M n β} (hg : Growing m)
    (hgk : ∀ a, (∃ s t, m s = .ok (a, t)) → Growing (k a)) (hm : Filling m)
    (hk : ∀ a, (∃ s t, m s = .ok (a, t)) → Filling (k a)) : Filling (m >>= k) := by
  intro s x t hs e
  obtain ⟨a, u, h1, h2⟩ := run_bind_ok.1 e
  have hu := (hg _ _ _ hs h1).1
  obtain ⟨-, h4, -⟩ := (grows_iff _ _).1 (hgk a ⟨s, u, h1⟩ _ _ _ hu h2).2
  exact (hm s a u hs h1).append (hk a ⟨s, u, h1⟩ u x t hu h2) h4

theorem clone_body_congr {diff before : Offsets} {m m' : M n (Except ε α)} {s : Context n} (h : m' s = m s) :
    clone_body diff m' before s = clone_body diff m before s := by
  unfold clone_body
  rw [run_bind, run_bind, h]

theorem scale_mono (o diff : Offsets) {i j : ℕ} (h : i ≤ j) : (o.add (diff.scale i)).le (o.add (diff.scale j)) := by
  intro chip
  simp only [Offsets.add_at, Offsets.scale_at]
  have := Nat.mul_le_mul_left (diff.at chip) h
  omega

theorem Guards.FitsOffs.mono {g : Guards} {o o' : Offsets} (h : g.FitsOffs o') (hle : o.le o') : g.FitsOffs o :=
  fun k hk chip => (hle chip).trans (h k hk chip)

theorem clone_step {s : Context n} {diff : Offsets} {m : M n (Except ε α)} (hg : Growing m) {i : ℕ}
    {inner : RecordsInner n} (hf : FreshFrom inner (s.offs.add (diff.scale i))) {a : Except ε α} {t : Context n}
    (h3 : m ((s.share inner).clone_with_offset (diff.scale i)) = .ok (a, t))
    (h4 : t.offs.sub ((s.share inner).clone_with_offset (diff.scale i)).offs = diff) :
    t.offs = s.offs.add (diff.scale (i + 1)) ∧ FreshFrom t.records.inner (s.offs.add (diff.scale (i + 1))) := by
  set start := (s.share inner).clone_with_offset (diff.scale i) with hstart
  have hso : start.offs = s.offs.add (diff.scale i) := rfl
  have hsf : start.Fresh := (fresh_iff' start).2 hf
  obtain ⟨ft, gt⟩ := hg start _ t hsf h3
  obtain ⟨g1, -, -⟩ := (grows_iff _ _).1 gt
  have hto : t.offs = s.offs.add (diff.scale (i + 1)) := by
    apply Offsets.ext_at
    intro chip
    have e := congrArg (fun o => Offsets.at o chip) h4
    have := g1 chip
    simp only [Offsets.sub_at, hso, Offsets.add_at, Offsets.scale_at] at e this ⊢
    have e2 : diff.at chip * (i + 1) = diff.at chip * i + diff.at chip := by ring
    omega
  exact ⟨hto, by rw [← hto]; exact (fresh_iff' t).1 ft⟩

/-- If the clones succeed with guards, they do the same without, and everything fits. -/
theorem run_clones_sound {g : Guards} {s : Context n} {diff : Offsets} {body body' : ℕ → M n (Except ε α)}
    (hg : ∀ i, Growing (body i)) (hne : ∀ i, NeverErr (body i)) (hb : ∀ i, SameIfFits g (body i) (body' i)) :
    ∀ (k i : ℕ) (inner inner' : RecordsInner n) (r : Except ε (List (α × Context n))),
    FreshFrom inner (s.offs.add (diff.scale i)) → g.FitsOffs (s.offs.add (diff.scale i)) →
    run_clones s diff body' inner (List.range' i k) = .ok (r, inner') →
    ∃ l, r = .ok l ∧ run_clones s diff body inner (List.range' i k) = .ok (.ok l, inner') ∧
      g.FitsOffs (s.offs.add (diff.scale (i + k))) ∧ ∀ x ∈ l, g.FitsPerms x.2.records.permutations := by
  intro k
  induction k with
  | zero =>
    intro i inner inner' r hf ho h
    cases h
    exact ⟨[], rfl, rfl, ho, fun x hx => (nomatch hx)⟩
  | succ k ih =>
    intro i inner inner' r hf ho h
    rw [List.range'_succ] at h ⊢
    unfold run_clones at h ⊢
    dsimp only at h ⊢
    set start := (s.share inner).clone_with_offset (diff.scale i) with hstart
    have hsf : start.Fresh := (fresh_iff' start).2 hf
    have hfit : g.Fits start := ⟨ho, fun _ _ p hp => absurd (show p ∈ [] from hp) List.not_mem_nil⟩
    cases e : body' i start with
    | error p =>
      exfalso
      have : clone_body diff (body' i) start.offs start = .error p := by unfold clone_body; rw [run_bind, e]
      rw [this] at h; cases h
    | ok y =>
      obtain ⟨r1, t⟩ := y
      obtain ⟨e1, ht⟩ := (hb i start hsf hfit r1 t).1 e
      rw [clone_body_congr (e.trans e1.symm)] at h
      split at h
      · cases h
      · rename_i h1
        obtain ⟨a, h2, -⟩ := clone_body_ok (hne i) h1
        cases h2
      · rename_i a t' h1
        obtain ⟨a', h2, h3, h4⟩ := clone_body_ok (hne i) h1
        cases h2
        obtain ⟨hto, ft⟩ := clone_step (hg i) hf h3 h4
        rw [h3] at e1
        cases e1
        split at h
        · cases h
        · rename_i h5
          obtain ⟨l, hl, -⟩ := ih _ _ _ _ ft (hto ▸ ht.1) h5
          cases hl
        · rename_i l inner2 h5
          cases h
          obtain ⟨l', hl, h6, h7, h8⟩ := ih _ _ _ _ ft (hto ▸ ht.1) h5
          cases hl
          refine ⟨_, rfl, ?_, by rw [show i + (k + 1) = i + 1 + k by ring]; exact h7, ?_⟩
          · rw [h6]
          · intro x hx
            rcases List.mem_cons.1 hx with rfl | hx
            exacts [ht.2, h8 x hx]

/-- If everything the clones use fits, they do the same with guards. -/
theorem run_clones_complete {g : Guards} {s : Context n} {diff : Offsets} {body body' : ℕ → M n (Except ε α)}
    (hg : ∀ i, Growing (body i)) (hne : ∀ i, NeverErr (body i)) (hb : ∀ i, SameIfFits g (body i) (body' i)) :
    ∀ (k i : ℕ) (inner inner' : RecordsInner n) (l : List (α × Context n)),
    FreshFrom inner (s.offs.add (diff.scale i)) → 
    run_clones s diff body inner (List.range' i k) = .ok (.ok l, inner') →
    g.FitsOffs (s.offs.add (diff.scale (i + k))) → (∀ x ∈ l, g.FitsPerms x.2.records.permutations) →
    run_clones s diff body' inner (List.range' i k) = .ok (.ok l, inner') := by
  intro k
  induction k with
  | zero => intro i inner inner' l hf h _ _; exact h
  | succ k ih =>
    intro i inner inner' l hf h ho hp
    rw [List.range'_succ] at h ⊢
    unfold run_clones at h ⊢
    dsimp only at h ⊢
    set start := (s.share inner).clone_with_offset (diff.scale i) with hstart
    have hsf : start.Fresh := (fresh_iff' start).2 hf
    have hfit : g.Fits start := ⟨ho.mono (scale_mono _ _ (by omega)),
      fun _ _ p hp => absurd (show p ∈ [] from hp) List.not_mem_nil⟩
    split at h
    · cases h
    · cases h
    · rename_i a t h1
      obtain ⟨a', h2, h3, h4⟩ := clone_body_ok (hne i) h1
      cases h2
      obtain ⟨hto, ft⟩ := clone_step (hg i) hf h3 h4
      split at h
      · cases h
      · cases h
      · rename_i l inner2 h5
        cases h
        have ht : g.Fits t := ⟨by rw [hto]; exact ho.mono (scale_mono _ _ (by omega)), hp _ List.mem_cons_self⟩
        have e := (hb i start hsf hfit _ t).2 ⟨h3, ht⟩
        rw [clone_body_congr (e.trans h3.symm), h1]
        dsimp only
        rw [ih _ _ _ _ ft h5 (by rw [show i + 1 + k = i + (k + 1) by ring]; exact ho)
          fun x hx => hp x (List.mem_cons_of_mem _ hx)]

/-- What a successful run of the windows looks like. -/
theorem windows_parallel_shape {windows : ℕ} {body : ℕ → M n (Except ε α)}
    (hg : ∀ i, Growing (body i)) (hne : ∀ i, NeverErr (body i)) {s t : Context n} {r : Except ε (List α)}
    (hs : s.Fresh) (h : windows_parallel windows body s = .ok (r, t)) :
    ∃ a u l inner, body 0 (s.clone_with_offset ⟨0, 0, 0⟩) = .ok (.ok a, u) ∧
      FreshFrom u.records.inner (s.offs.add ((u.offs.sub s.offs).scale 1)) ∧
      s.offs.add ((u.offs.sub s.offs).scale 1) = u.offs ∧
      run_clones ((s.share u.records.inner).merge u) (u.offs.sub s.offs) body u.records.inner
        (List.range' 1 (windows - 1)) = .ok (.ok l, inner) ∧ r = .ok (a :: l.map Prod.fst) ∧
      t = ((l.map Prod.snd).foldl Context.merge (((s.share u.records.inner).merge u).share inner)).apply_offset_diff
        ((u.offs.sub s.offs).scale windows) := by
  unfold windows_parallel at h
  obtain ⟨r1, s1, h1, h2⟩ := run_bind_ok.1 h
  obtain ⟨a, u, rfl, h3, rfl⟩ := predict_ok (hne 0) h1
  have hs0 : (s.clone_with_offset ⟨0, 0, 0⟩).Fresh := (fresh_iff' _).2 ((fresh_iff' s).1 hs)
  obtain ⟨fu, gu⟩ := hg 0 _ _ _ hs0 h3
  obtain ⟨g1, -, -⟩ := (grows_iff _ _).1 gu
  dsimp only at h2
  obtain ⟨r2, s2, h4, h5⟩ := run_bind_ok.1 h2
  have hu1 : s.offs.add ((u.offs.sub s.offs).scale 1) = u.offs := by
    apply Offsets.ext_at
    intro chip
    have := g1 chip
    simp only [clone_zero_offs] at this
    simp only [Offsets.sub_at, Offsets.add_at, Offsets.scale_at]
    omega
  have hf : FreshFrom u.records.inner (s.offs.add ((u.offs.sub s.offs).scale 1)) := by
    rw [hu1]; exact (fresh_iff' u).1 fu
  unfold rest_windows at h4
  split at h4
  · cases h4
  · rename_i h6
    obtain ⟨l, hl, -⟩ := run_clones_ok hg hne _ _ _ _ _ h6 hf
    cases hl
  · rename_i l inner h6
    cases h4
    cases h5
    exact ⟨a, u, l, inner, h3, hf, hu1, h6, rfl, rfl⟩

theorem windows_parallel_of {windows : ℕ} {body : ℕ → M n (Except ε α)} {s u : Context n} {a : α}
    {l : List (α × Context n)} {inner : RecordsInner n}
    (h : body 0 (s.clone_with_offset ⟨0, 0, 0⟩) = .ok (.ok a, u))
    (h' : run_clones ((s.share u.records.inner).merge u) (u.offs.sub s.offs) body u.records.inner
        (List.range' 1 (windows - 1)) = .ok (.ok l, inner)) :
    windows_parallel windows body s = .ok (.ok (a :: l.map Prod.fst),
      ((l.map Prod.snd).foldl Context.merge (((s.share u.records.inner).merge u).share inner)).apply_offset_diff
        ((u.offs.sub s.offs).scale windows)) := by
  unfold windows_parallel
  rw [run_bind]
  have h1 : predict (body 0) s = .ok (.ok (a, u.offs.sub s.offs), (s.share u.records.inner).merge u) := by
    unfold predict; rw [h]
  rw [h1]
  dsimp only
  rw [run_bind]
  have h2 : rest_windows windows (u.offs.sub s.offs) body ((s.share u.records.inner).merge u) =
      .ok (.ok (l.map Prod.fst), ((l.map Prod.snd).foldl Context.merge
        (((s.share u.records.inner).merge u).share inner)).apply_offset_diff ((u.offs.sub s.offs).scale windows)) := by
    unfold rest_windows
    rw [show ((s.share u.records.inner).merge u).records.inner = u.records.inner from rfl, h']
  rw [h2]
  rfl

theorem SameIfFits.parallel {g : Guards} {windows : ℕ} {body body' : ℕ → M n (Except ε α)} (hw : 1 ≤ windows)
    (hg : ∀ i, Growing (body i)) (hne : ∀ i, NeverErr (body i)) (hb : ∀ i, SameIfFits g (body i) (body' i)) :
    SameIfFits g (windows_parallel windows body) (windows_parallel windows body') := by
  intro s hs hf x t
  have hs0 : (s.clone_with_offset ⟨0, 0, 0⟩).Fresh := (fresh_iff' _).2 ((fresh_iff' s).1 hs)
  have hf0 : g.Fits (s.clone_with_offset ⟨0, 0, 0⟩) := ⟨hf.1, fun _ _ p hp => absurd (show p ∈ [] from hp) List.not_mem_nil⟩
  -- the permutations and offsets of the result
  have hfit : ∀ {u : Context n} {l : List (α × Context n)} {inner : RecordsInner n},
      g.Fits (((l.map Prod.snd).foldl Context.merge (((s.share u.records.inner).merge u).share inner)).apply_offset_diff
        ((u.offs.sub s.offs).scale windows)) ↔ g.FitsOffs (s.offs.add ((u.offs.sub s.offs).scale windows)) ∧
        g.FitsPerms u.records.permutations ∧ ∀ x ∈ l, g.FitsPerms x.2.records.permutations := by
    intro u l inner
    obtain ⟨m1, m2, m3⟩ := foldl_merge (l.map Prod.snd) (((s.share u.records.inner).merge u).share inner)
    have hto : (((l.map Prod.snd).foldl Context.merge (((s.share u.records.inner).merge u).share inner)).apply_offset_diff
        ((u.offs.sub s.offs).scale windows)).offs = s.offs.add ((u.offs.sub s.offs).scale windows) := by
      show Offsets.add (Context.offs _) _ = _
      rw [m2]; rfl
    have htp : (((l.map Prod.snd).foldl Context.merge (((s.share u.records.inner).merge u).share inner)).apply_offset_diff
        ((u.offs.sub s.offs).scale windows)).records.permutations = s.records.permutations ++ u.records.permutations ++
        ((l.map Prod.snd).map fun t => t.records.permutations).flatten := m3
    unfold Guards.Fits
    rw [hto, htp]
    refine and_congr_right fun _ => ⟨fun h => ⟨fun k hk p hp => ?_, fun x hx k hk p hp => ?_⟩, fun h k hk p hp => ?_⟩
    · exact h k hk p (List.mem_append_left _ (List.mem_append_right _ hp))
    · refine h k hk p (List.mem_append_right _ (List.mem_flatten.2 ⟨_, ?_, hp⟩))
      rw [List.map_map]
      exact List.mem_map.2 ⟨x, hx, rfl⟩
    · rcases List.mem_append.1 hp with hp | hp
      · rcases List.mem_append.1 hp with hp | hp
        exacts [hf.2 k hk p hp, h.1 k hk p hp]
      · obtain ⟨q, hq, hp⟩ := List.mem_flatten.1 hp
        rw [List.map_map] at hq
        obtain ⟨x, hx, rfl⟩ := List.mem_map.1 hq
        exact h.2 x hx k hk p hp
  constructor
  · intro h
    -- the first window
    have h0 := h
    unfold windows_parallel at h
    obtain ⟨r1, s1, h1, h2⟩ := run_bind_ok.1 h
    cases e : body' 0 (s.clone_with_offset ⟨0, 0, 0⟩) with
    | error p => unfold predict at h1; rw [e] at h1; cases h1
    | ok y =>
      obtain ⟨y, u⟩ := y
      obtain ⟨e1, hu⟩ := (hb 0 _ hs0 hf0 y u).1 e
      obtain ⟨a, rfl⟩ := hne 0 _ _ _ e1
      unfold predict at h1
      rw [e] at h1
      cases h1
      dsimp only at h2
      obtain ⟨fu, gu⟩ := hg 0 _ _ _ hs0 e1
      obtain ⟨g1, -, -⟩ := (grows_iff _ _).1 gu
      have hu1 : s.offs.add ((u.offs.sub s.offs).scale 1) = u.offs := by
        apply Offsets.ext_at
        intro chip
        have := g1 chip
        simp only [clone_zero_offs] at this
        simp only [Offsets.sub_at, Offsets.add_at, Offsets.scale_at]
        omega
      have hfr : FreshFrom u.records.inner (s.offs.add ((u.offs.sub s.offs).scale 1)) := by
        rw [hu1]; exact (fresh_iff' u).1 fu
      obtain ⟨r2, s2, h4, h5⟩ := run_bind_ok.1 h2
      unfold rest_windows at h4
      split at h4
      · cases h4
      · rename_i h6
        obtain ⟨l, hl, -⟩ := run_clones_sound (g := g) (s := (s.share u.records.inner).merge u) hg hne hb _ _ _ _ _
          hfr (by show g.FitsOffs (s.offs.add _); rw [hu1]; exact hu.1) h6
        cases hl
      · rename_i l inner h6
        obtain ⟨l', hl, h7, h8, h9⟩ := run_clones_sound (g := g) (s := (s.share u.records.inner).merge u) hg hne hb _ _ _ _ _
          hfr (by show g.FitsOffs (s.offs.add _); rw [hu1]; exact hu.1) h6
        cases hl
        have := windows_parallel_of e h6
        rw [h0] at this
        cases this
        rw [show 1 + (windows - 1) = windows by omega] at h8
        exact ⟨windows_parallel_of e1 h7, hfit.2 ⟨h8, hu.2, h9⟩⟩
  · rintro ⟨h, ht⟩
    obtain ⟨a, u, l, inner, h1, h2, h3, h4, rfl, rfl⟩ := windows_parallel_shape hg hne hs h
    obtain ⟨f1, f2, f3⟩ := hfit.1 ht
    have hu : g.Fits u := ⟨by rw [← h3]; exact f1.mono (scale_mono _ _ hw), f2⟩
    refine windows_parallel_of ((hb 0 _ hs0 hf0 _ u).2 ⟨h1, hu⟩) (run_clones_complete hg hne hb _ _ _ _ _ h2 h4 ?_ f3)
    rw [show 1 + (windows - 1) = windows by omega]
    exact f1

/-- The clones fill the rows of their windows. -/
theorem run_clones_filling {s : Context n} {diff : Offsets} {body : ℕ → M n (Except ε α)}
    (hg : ∀ i, Growing (body i)) (hne : ∀ i, NeverErr (body i)) (hb : ∀ i, Filling (body i)) :
    ∀ (k i : ℕ) (inner inner' : RecordsInner n) (l : List (α × Context n)),
    FreshFrom inner (s.offs.add (diff.scale i)) →
    run_clones s diff body inner (List.range' i k) = .ok (.ok l, inner') →
    FilledIn (s.offs.add (diff.scale i)) (s.offs.add (diff.scale (i + k))) inner' := by
  intro k
  induction k with
  | zero => intro i inner inner' l _ _ chip r h1 h2; exact absurd (h1.trans_lt h2) (lt_irrefl _)
  | succ k ih =>
    intro i inner inner' l hf h
    rw [List.range'_succ] at h
    unfold run_clones at h
    dsimp only at h
    have hsf : ((s.share inner).clone_with_offset (diff.scale i)).Fresh := (fresh_iff' _).2 hf
    split at h
    · cases h
    · cases h
    · rename_i a t h1
      obtain ⟨a', h2, h3, h4⟩ := clone_body_ok (hne i) h1
      cases h2
      obtain ⟨hto, ft⟩ := clone_step (hg i) hf h3 h4
      split at h
      · cases h
      · cases h
      · rename_i l inner2 h5
        cases h
        obtain ⟨l', hl, -, -, h7, -⟩ := run_clones_ok hg hne _ _ _ _ _ h5 ft
        have h6 := ih _ _ _ _ ft h5
        rw [show i + 1 + k = i + (k + 1) by ring] at h6
        have h8 := hb i _ _ _ hsf h3
        rw [hto] at h8
        exact FilledIn.append h8 h6 h7

theorem Filling.parallel {windows : ℕ} {body : ℕ → M n (Except ε α)} (hw : 1 ≤ windows)
    (hg : ∀ i, Growing (body i)) (hne : ∀ i, NeverErr (body i)) (hb : ∀ i, Filling (body i)) :
    Filling (windows_parallel windows body) := by
  intro s x t hs h
  have hs0 : (s.clone_with_offset ⟨0, 0, 0⟩).Fresh := (fresh_iff' _).2 ((fresh_iff' s).1 hs)
  obtain ⟨a, u, l, inner, h1, h2, h3, h4, rfl, rfl⟩ := windows_parallel_shape hg hne hs h
  obtain ⟨m1, m2, -⟩ := foldl_merge (l.map Prod.snd) (((s.share u.records.inner).merge u).share inner)
  have hto : (((l.map Prod.snd).foldl Context.merge (((s.share u.records.inner).merge u).share inner)).apply_offset_diff
      ((u.offs.sub s.offs).scale windows)).offs = s.offs.add ((u.offs.sub s.offs).scale windows) := by
    show Offsets.add (Context.offs _) _ = _
    rw [m2]; rfl
  rw [hto]
  have hti : (((l.map Prod.snd).foldl Context.merge (((s.share u.records.inner).merge u).share inner)).apply_offset_diff
      ((u.offs.sub s.offs).scale windows)).records.inner = inner := m1
  rw [hti]
  obtain ⟨l', hl, -, -, h7, -⟩ := run_clones_ok hg hne _ _ _ _ _ h4 h2
  have h6 := run_clones_filling (s := (s.share u.records.inner).merge u) hg hne hb _ _ _ _ _ h2 h4
  rw [show 1 + (windows - 1) = windows by omega] at h6
  have h8 := hb 0 _ _ _ hs0 h1
  rw [← h3] at h8
  exact FilledIn.append h8 h6 h7

theorem Growing.parallel {windows : ℕ} {body : ℕ → M n (Except ε α)} (hw : 1 ≤ windows)
    (hg : ∀ i, Growing (body i)) (hne : ∀ i, NeverErr (body i)) : Growing (windows_parallel windows body) := by
  intro s x t hs h
  obtain ⟨_, -, -, h1, h2, -⟩ := windows_parallel_ok hw hg hne hs h
  exact ⟨h1, h2⟩

/-- An operation with guards does what it does without them, if what it uses fits. -/
theorem Guarding.main {g : Guards} {m m' : M n α} (h : Guarding g m m') :
    Growing m ∧ Filling m ∧ (18 < n → SameIfFits g m m') := by
  induction h with
  | pure a =>
    refine ⟨(Built.pure (cc := True) a).growing, ?_, fun _ s _ hf x t => ⟨fun e => ⟨e, ?_⟩, fun e => e.1⟩⟩
    · intro s x t _ e chip r h1 h2
      cases e
      exact absurd (h1.trans_lt h2) (lt_irrefl _)
    · cases e; exact hf
  | panic p =>
    refine ⟨(Built.panic (cc := True) p).growing, fun s x t _ e => (nomatch e),
      fun _ s _ _ x t => ⟨fun e => (nomatch e), fun e => (nomatch e.1)⟩⟩
  | bind _ _ hm hk =>
    refine ⟨?_, Filling.bind hm.1 (fun a ha => (hk a ha).1) hm.2.1 (fun a ha => (hk a ha).2.1), fun hn =>
      SameIfFits.bind hm.1 (fun a ha => (hk a ha).1) (hm.2.2 hn) (fun a ha => (hk a ha).2.2 hn)⟩
    intro s b t hs e
    obtain ⟨a, u, h1, h2⟩ := run_bind_ok.1 e
    obtain ⟨f1, g1⟩ := hm.1 _ _ _ hs h1
    obtain ⟨f2, g2⟩ := (hk a ⟨_, _, h1⟩).1 _ _ _ f1 h2
    exact ⟨f2, g1.trans g2⟩
  | one_line pairs constant mul next hne =>
    have h := checked_one_line g pairs constant mul next hne
    exact ⟨(Logged.one_line _ _ _ _).growing, h.filling, h.same⟩
  | one_line_with_last pairs last constant mul next =>
    have h := checked_one_line_with_last g pairs last constant mul next
    exact ⟨(Logged.one_line_with_last _ _ _ _ _).growing, h.filling, h.same⟩
  | assign_range v bits =>
    have h := checked_assign_range g v bits
    exact ⟨(Logged.assign_range _ _).growing, h.filling, h.same⟩
  | assign_common bn =>
    have h := checked_assign_common (n := n) g bn
    exact ⟨(Logged.assign_common _).growing, h.filling, h.same⟩
  | assign_cache_value v offset group selector =>
    have h := checked_assign_cache_value g v offset group selector
    exact ⟨(Logged.assign_cache_value _ _ _ _).growing, h.filling, h.same⟩
  | assign_selected_value v offset group selector =>
    have h := checked_assign_selected_value g v offset group selector
    exact ⟨(Logged.assign_selected_value _ _ _ _).growing, h.filling, h.same⟩
  | parallel windows hb hne hw ih =>
    by_cases h0 : windows = 0
    · refine ⟨fun _ _ _ _ e => (windows_parallel_panics (hw h0) e).elim,
        fun _ _ _ _ e => (windows_parallel_panics (hw h0) e).elim, fun hn s hs hf x t =>
        ⟨fun e => ?_, fun e => (windows_parallel_panics (hw h0) e.1).elim⟩⟩
      exfalso
      have hs0 : (s.clone_with_offset ⟨0, 0, 0⟩).Fresh := (fresh_iff' _).2 ((fresh_iff' s).1 hs)
      have hf0 : g.Fits (s.clone_with_offset ⟨0, 0, 0⟩) :=
        ⟨hf.1, fun _ _ p hp => absurd (show p ∈ [] from hp) List.not_mem_nil⟩
      unfold windows_parallel at e
      obtain ⟨r1, s1, h1, -⟩ := run_bind_ok.1 e
      obtain ⟨p, hp⟩ := hw h0 (s.clone_with_offset ⟨0, 0, 0⟩)
      unfold predict at h1
      split at h1
      · cases h1
      · rename_i e1
        have := ((ih 0).2.2 hn _ hs0 hf0 _ _).1 e1
        rw [hp] at this; cases this.1
      · rename_i e1
        have := ((ih 0).2.2 hn _ hs0 hf0 _ _).1 e1
        rw [hp] at this; cases this.1
    · have h1 : 1 ≤ windows := Nat.one_le_iff_ne_zero.2 h0
      exact ⟨Growing.parallel h1 (fun i => (ih i).1) hne,
        Filling.parallel h1 (fun i => (ih i).1) hne (fun i => (ih i).2.1),
        fun hn => SameIfFits.parallel h1 (fun i => (ih i).1) hne (fun i => (ih i).2.2 hn)⟩

/-- Every operation composed of the primitive writers has a version with guards. -/
theorem Built.guarding {cc : Prop} (g : Guards) {m : M n α} (h : Built cc m) : ∃ m', Guarding g m m' := by
  induction h with
  | pure a => exact ⟨_, .pure a⟩
  | bind _ _ hm hk =>
    obtain ⟨m', h1⟩ := hm
    choose k' h2 using hk
    exact ⟨_, .bind h1 fun a _ => h2 a⟩
  | panic p => exact ⟨_, .panic p⟩
  | one_line _ _ _ _ hne => exact ⟨_, .one_line _ _ _ _ hne⟩
  | one_line_with_last => exact ⟨_, .one_line_with_last ..⟩
  | assign_range => exact ⟨_, .assign_range ..⟩
  | assign_common => exact ⟨_, .assign_common ..⟩
  | assign_cache_value => exact ⟨_, .assign_cache_value ..⟩
  | assign_selected_value => exact ⟨_, .assign_selected_value ..⟩

open Classical in
theorem Built2.guarding {cc : Prop} (g : Guards) {m : M n α} (h : Built2 cc m) : ∃ m', Guarding g m m' := by
  induction h with
  | prog h => exact h.guarding g
  | @bind _ _ m k _ _ hm hk =>
    obtain ⟨m', h1⟩ := hm
    choose k' h2 using hk
    refine ⟨m' >>= fun a => if h : ∃ s t, m s = .ok (a, t) then k' a h else k a, .bind h1 fun a ha => ?_⟩
    rw [dif_pos ha]
    exact h2 a ha
  | parallel windows body hb hne hw =>
    choose b' h1 using fun i => (hb i).guarding g
    exact ⟨_, .parallel windows h1 hne hw⟩

end Verif
