import Verif.Spec.Synthesis
import Verif.Proof.Shape
import Verif.Proof.Parallel

/-!
# Handed-out cells have values

A logic for "every cell handed out exists and has a value, and copy constraints are recorded between such cells only".
-/

namespace Verif
variable {n : ℕ} {α β γ : Type}

/-! ## Cells with a value -/

/-- The cell exists, may be copied, and has this value. -/
def CellIn (r : RecordsInner n) (c : Cell × ZMod n) : Prop :=
  c.1.col < c.1.region.copyable ∧ r.advOf c.1.region c.1.row c.1.col = some c.2

/-- Every value in `r` is also in `r'`. -/
structure RLe (r r' : RecordsInner n) : Prop where
  cells : ∀ c, CellIn r c → CellIn r' c
  flags : ∀ c, r.permute_flag c = true → r'.permute_flag c = true

theorem RLe.rfl (r : RecordsInner n) : RLe r r := ⟨fun _ h => h, fun _ h => h⟩
theorem RLe.trans {r r' r'' : RecordsInner n} (h : RLe r r') (h' : RLe r' r'') : RLe r r'' :=
  ⟨fun c hc => h'.cells c (h.cells c hc), fun c hc => h'.flags c (h.flags c hc)⟩

/-- More values, and satisfied copy constraints stay satisfied. -/
structure Keeps (s t : Records n) : Prop where
  le : RLe s.inner t.inner
  copies : CopiesHold s → CopiesHold t

theorem Keeps.rfl (s : Records n) : Keeps s s := ⟨.rfl _, fun h => h⟩
theorem Keeps.trans {s t u : Records n} (h : Keeps s t) (h' : Keeps t u) : Keeps s u :=
  ⟨h.le.trans h'.le, fun hs => h'.copies (h.copies hs)⟩

theorem CellHolds.mono {s t : Records n} (h : RLe s.inner t.inner) {c : Cell} {v : ZMod n} (hc : CellHolds s c v) :
    CellHolds t c v :=
  have h1 := h.cells (c, v) ⟨hc.1, hc.2.1⟩
  ⟨h1.1, h1.2, h.flags c hc.2.2⟩

theorem CopiesHold.mono {s t : Records n} (h : RLe s.inner t.inner) (hp : t.permutations = s.permutations)
    (hs : CopiesHold s) : CopiesHold t := fun p hm => by
  obtain ⟨v, h1, h2⟩ := hs p (hp ▸ hm)
  exact ⟨v, h1.mono h, h2.mono h⟩

theorem CopiesHold.ready {s : Records n} (h : CopiesHold s) : CopiesReady s := fun p hp => by
  obtain ⟨v, ⟨h1, h2, h3⟩, h4, h5, h6⟩ := h p hp
  exact ⟨⟨h1, h2 ▸ Option.some_ne_none _, h3⟩, h4, h5 ▸ Option.some_ne_none _, h6⟩

theorem Keeps.of_le {s t : Records n} (h : RLe s.inner t.inner) (hp : t.permutations = s.permutations) : Keeps s t :=
  ⟨h, CopiesHold.mono h hp⟩

theorem setCell_keeps {m : ℕ → ℕ → Option α} {o c : ℕ} {v w : α} {r k : ℕ} (hn : m o c = none) (h : m r k = some w) :
    setCell m o c v r k = some w := by
  unfold setCell
  split
  · rename_i e
    obtain ⟨rfl, rfl⟩ := e
    rw [hn] at h
    cases h
  · exact h

theorem setCell_self {m : ℕ → ℕ → Option α} {o c : ℕ} {v : α} : setCell m o c v o c = some v := by
  unfold setCell
  rw [if_pos ⟨rfl, rfl⟩]

theorem setCell_col {m : ℕ → ℕ → Option α} {o c : ℕ} {v : α} {r k : ℕ} (h : k ≠ c) : setCell m o c v r k = m r k := by
  unfold setCell
  rw [if_neg fun e => h e.2]

theorem keeps_adv_base (s : Records n) (o c : ℕ) (v : ZMod n) (hn : s.inner.base_adv_record o c = none) :
    Keeps s (s.assign_adv_cell_in_base_chip o c v) := by
  refine .of_le ⟨?_, fun _ h => h⟩ rfl
  rintro ⟨⟨chip, col, row⟩, w⟩ ⟨h1, h2⟩
  refine ⟨h1, ?_⟩
  cases chip
  · exact setCell_keeps hn h2
  · exact h2
  · exact h2

theorem keeps_adv_select (s : Records n) (o c : ℕ) (v : ZMod n) (hn : s.inner.select_adv_record o c = none) :
    Keeps s (s.assign_adv_cell_in_select_chip o c v) := by
  refine .of_le ⟨?_, fun _ h => h⟩ rfl
  rintro ⟨⟨chip, col, row⟩, w⟩ ⟨h1, h2⟩
  refine ⟨h1, ?_⟩
  cases chip
  · exact h2
  · exact h2
  · exact setCell_keeps hn h2

theorem keeps_fix_base (s : Records n) (o c : ℕ) (v : ZMod n) : Keeps s (s.assign_fix_cell_in_base_chip o c v) :=
  .of_le ⟨fun ⟨⟨chip, _, _⟩, _⟩ h => by cases chip <;> exact h, fun _ h => h⟩ rfl
theorem keeps_fix_select (s : Records n) (o c : ℕ) (v : ZMod n) : Keeps s (s.assign_fix_cell_in_select_chip o c v) :=
  .of_le ⟨fun ⟨⟨chip, _, _⟩, _⟩ h => by cases chip <;> exact h, fun _ h => h⟩ rfl

theorem keeps_base_height (s : Records n) (o : ℕ) :
    Keeps s (if o ≥ s.base_height then { s with base_height := o + 1 } else s) := by
  split
  · exact .of_le (.rfl _) rfl
  · exact .rfl _

theorem keeps_select_height (s : Records n) (o : ℕ) :
    Keeps s (if o ≥ s.select_height then { s with select_height := o + 1 } else s) := by
  split
  · exact .of_le (.rfl _) rfl
  · exact .rfl _

theorem permute_self (s : Records n) (c : Cell) : (s.enable_permute c).inner.permute_flag c = true := by
  show (if c = c then true else _) = true
  rw [if_pos rfl]

theorem keeps_permute (s : Records n) (c : Cell) : Keeps s (s.enable_permute c) := by
  refine .of_le ⟨fun ⟨⟨chip, _, _⟩, _⟩ h => by cases chip <;> exact h, fun d h => ?_⟩ rfl
  show (if d = c then true else s.inner.permute_flag d) = true
  split
  · rfl
  · exact h

/-- Recording a copy constraint between cells with the same value. -/
theorem copy_ready {s t : Records n} (hs : CopiesHold s) (h : RLe s.inner t.inner) {a b : Cell} {v : ZMod n}
    (ha : CellHolds t a v) (hb : CellHolds t b v) (hp : t.permutations = s.permutations ++ [(a, b)]) : CopiesHold t := by
  intro p hm
  rw [hp, List.mem_append, List.mem_singleton] at hm
  rcases hm with hm | rfl
  · obtain ⟨w, h1, h2⟩ := hs p hm
    exact ⟨w, h1.mono h, h2.mono h⟩
  · exact ⟨v, ha, hb⟩

theorem in_adv_base (s : Records n) (o : ℕ) {c : ℕ} (hc : c < 5) (v : ZMod n) :
    CellIn (s.assign_adv_cell_in_base_chip o c v).inner (⟨.base, c, o⟩, v) := ⟨hc, setCell_self⟩
theorem in_adv_range (s : Records n) (o : ℕ) {c : ℕ} (hc : c < 1) (v : ZMod n) :
    CellIn (s.assign_adv_cell_in_range_chip o c v).inner (⟨.range, c, o⟩, v) := ⟨hc, setCell_self⟩
theorem in_adv_select (s : Records n) (o : ℕ) {c : ℕ} (hc : c < 2) (v : ZMod n) :
    CellIn (s.assign_adv_cell_in_select_chip o c v).inner (⟨.select, c, o⟩, v) := ⟨hc, setCell_self⟩

/-- The cell a schema refers to, with its value. -/
def ValueSchema.held : ValueSchema n → List (Cell × ZMod n)
  | .unassigned _ => []
  | .assigned a => [(a.cell, a.val)]

theorem line_cell_adv (s : Records n) (o i : ℕ) (b : ValueSchema n) (k : ZMod n) {j : ℕ} (h : j ≠ i) :
    (s.line_cell o i b k).inner.base_adv_record o j = s.inner.base_adv_record o j := by
  cases b <;> exact setCell_col h

theorem keeps_line_cell (s : Records n) (o : ℕ) {i : ℕ} (hi : i < 5) (b : ValueSchema n) (k : ZMod n)
    (hn : s.inner.base_adv_record o i = none) (hb : ∀ c ∈ b.held, CellIn s.inner c) :
    Keeps s (s.line_cell o i b k) ∧ CellIn (s.line_cell o i b k).inner (⟨.base, i, o⟩, b.value) := by
  have hfin : ∀ u : Records n, CellIn ((u.assign_adv_cell_in_base_chip o i b.value).assign_fix_cell_in_base_chip o i k).inner
      (⟨.base, i, o⟩, b.value) := fun u => (keeps_fix_base _ _ _ _).le.cells _ (in_adv_base u o hi _)
  have hk : ∀ u : Records n, u.inner.base_adv_record o i = none →
      Keeps u ((u.assign_adv_cell_in_base_chip o i b.value).assign_fix_cell_in_base_chip o i k) :=
    fun u hu => (keeps_adv_base _ _ _ _ hu).trans (keeps_fix_base _ _ _ _)
  cases b with
  | unassigned v => exact ⟨hk s hn, hfin s⟩
  | assigned a =>
    refine ⟨?_, hfin _⟩
    have h1 : Keeps s ((s.enable_permute ⟨.base, i, o⟩).enable_permute a.cell) :=
      (keeps_permute _ _).trans (keeps_permute _ _)
    have hle : RLe s.inner (s.line_cell o i (.assigned a) k).inner := by
      refine h1.le.trans (hk _ ?_).le
      exact hn
    refine ⟨hle, fun hs => copy_ready hs hle (a := a.cell) (b := ⟨.base, i, o⟩) (v := a.val) ?_ ?_ rfl⟩
    · have := hle.cells _ (hb (a.cell, a.val) (List.mem_singleton.2 rfl))
      exact ⟨this.1, this.2, permute_self (s.enable_permute ⟨.base, i, o⟩) a.cell⟩
    · have h2 : CellIn (s.line_cell o i (.assigned a) k).inner (⟨.base, i, o⟩, a.val) := hfin _
      exact ⟨h2.1, h2.2, (keeps_permute (s.enable_permute ⟨.base, i, o⟩) a.cell).le.flags _ (permute_self s _)⟩

/-- Nothing is lost by an operation that only adds rows. -/
theorem rle_of_grows {s t : Context n} (hs : s.Fresh) (g : Grows s t)
    (hf : ∀ c, s.records.inner.permute_flag c = true → t.records.inner.permute_flag c = true) :
    RLe s.records.inner t.records.inner := by
  refine ⟨?_, hf⟩
  rintro ⟨⟨chip, col, row⟩, w⟩ ⟨h1, h2⟩
  refine ⟨h1, ?_⟩
  obtain ⟨-, g2, -⟩ := (grows_iff _ _).1 g
  have hlt : row < s.offs.at chip := by
    by_contra hlt
    have := ((fresh_iff' s).1 hs chip row col (by omega)).2
    dsimp only at h2
    rw [this] at h2
    cases h2
  exact ((g2 chip row col hlt).2).trans h2

/-! ## Cells of handed-out objects -/

/-- The cells an object refers to, with the values it carries for them. -/
class HasCells (n : ℕ) (α : Type) where
  cells : α → List (Cell × ZMod n)

export HasCells (cells)

instance : HasCells n (AssignedValue n) := ⟨fun a => [(a.cell, a.val)]⟩
instance : HasCells n Unit := ⟨fun _ => []⟩
instance : HasCells n ℕ := ⟨fun _ => []⟩
instance : HasCells n (ZMod n) := ⟨fun _ => []⟩
instance : HasCells n Offsets := ⟨fun _ => []⟩
instance [HasCells n α] : HasCells n (Option α) := ⟨fun o => o.elim [] cells⟩
instance [HasCells n α] : HasCells n (List α) := ⟨fun l => l.flatMap cells⟩
instance [HasCells n α] [HasCells n β] : HasCells n (α × β) := ⟨fun x => cells x.1 ++ cells x.2⟩
instance : HasCells n (ValueSchema n) := ⟨ValueSchema.held⟩
instance : HasCells n (AssignedInteger n) := ⟨fun a => cells a.limbs_le ++ cells a.native⟩
instance : HasCells n (AssignedCurvature n) := ⟨fun a => cells a.v ++ cells a.z⟩
instance : HasCells n (AssignedPoint n) := ⟨fun a => cells a.x ++ cells a.y ++ cells a.z⟩
instance : HasCells n (AssignedNonZeroPoint n) := ⟨fun a => cells a.x ++ cells a.y⟩
instance : HasCells n (AssignedPointWithCurvature n) := ⟨fun a => cells a.x ++ cells a.y ++ cells a.z ++ cells a.curvature⟩
instance : HasCells n (MulTerm n) := ⟨fun l => cells l.a ++ cells l.b ++ cells l.c⟩
instance [HasCells n α] : HasCells n (Except UnsafeError α) := ⟨fun x => match x with | .ok a => cells a | .error _ => []⟩

/-- All cells of the object have values. -/
def In [HasCells n α] (r : RecordsInner n) (a : α) : Prop := ∀ c ∈ cells a, CellIn r c

theorem In.mono [HasCells n α] {r r' : RecordsInner n} (h : RLe r r') {a : α} (ha : In r a) : In r' a :=
  fun c hc => h.cells c (ha c hc)

section
variable {r : RecordsInner n}
theorem in_val_iff {a : AssignedValue n} : In r a ↔ CellIn r (a.cell, a.val) :=
  ⟨fun h => h _ (List.mem_singleton.2 rfl), fun h c hc => List.mem_singleton.1 hc ▸ h⟩
theorem in_none {a : α} [HasCells n α] (h : cells (n := n) a = []) : In r a := fun c hc => by rw [h] at hc; cases hc
theorem in_unit (a : Unit) : In r a := in_none rfl
theorem in_nat (a : ℕ) : In r a := in_none rfl
theorem in_field (a : ZMod n) : In r a := in_none rfl
theorem in_nil [HasCells n α] : In r ([] : List α) := in_none rfl
theorem in_append_cells {l l' : List (Cell × ZMod n)} : (∀ c ∈ l ++ l', CellIn r c) ↔ (∀ c ∈ l, CellIn r c) ∧ ∀ c ∈ l', CellIn r c :=
  List.forall_mem_append
theorem in_cons_iff [HasCells n α] {a : α} {l : List α} : In r (a :: l) ↔ In r a ∧ In r l := by
  unfold In
  show (∀ c ∈ (a :: l).flatMap cells, _) ↔ _
  rw [List.flatMap_cons]
  exact in_append_cells
theorem in_list_iff [HasCells n α] {l : List α} : In r l ↔ ∀ a ∈ l, In r a := by
  induction l with
  | nil => exact ⟨fun _ a h => (by cases h), fun _ => in_nil⟩
  | cons a l ih => rw [in_cons_iff, ih, List.forall_mem_cons]
theorem in_cons [HasCells n α] {a : α} {l : List α} (h : In r a) (hl : In r l) : In r (a :: l) := in_cons_iff.2 ⟨h, hl⟩
theorem in_append [HasCells n α] {l l' : List α} (h : In r l) (h' : In r l') : In r (l ++ l') :=
  in_list_iff.2 fun a ha => (List.mem_append.1 ha).elim (in_list_iff.1 h a) (in_list_iff.1 h' a)
theorem in_pair [HasCells n α] [HasCells n β] {a : α} {b : β} (h : In r a) (h' : In r b) : In r (a, b) :=
  in_append_cells.2 ⟨h, h'⟩
theorem in_fst [HasCells n α] [HasCells n β] {x : α × β} (h : In r x) : In r x.1 := (in_append_cells.1 h).1
theorem in_snd [HasCells n α] [HasCells n β] {x : α × β} (h : In r x) : In r x.2 := (in_append_cells.1 h).2
theorem in_left [HasCells n α] [HasCells n β] {a : α} {b : β} (h : In r (a, b)) : In r a := in_fst h
theorem in_right [HasCells n α] [HasCells n β] {a : α} {b : β} (h : In r (a, b)) : In r b := in_snd h
theorem in_ok [HasCells n α] {a : α} (h : In r a) : In r (.ok a : Except UnsafeError α) := h
theorem in_of_ok [HasCells n α] {a : α} (h : In r (.ok a : Except UnsafeError α)) : In r a := h
theorem in_error [HasCells n α] {e : UnsafeError} : In r (.error e : Except UnsafeError α) := in_none rfl
theorem in_U (v k : ZMod n) : In r (pairU v k) := in_none rfl
theorem in_A {a : AssignedValue n} (h : In r a) (k : ZMod n) : In r (pairA a k) := in_pair (α := ValueSchema n) h (in_field k)
theorem in_int {l : List (AssignedValue n)} {v : AssignedValue n} {k : ℕ} (h1 : In r l) (h2 : In r v) :
    In r (⟨l, v, k⟩ : AssignedInteger n) := in_append_cells.2 ⟨h1, h2⟩
theorem in_limbs {a : AssignedInteger n} (h : In r a) : In r a.limbs_le := (in_append_cells.1 h).1
theorem in_native {a : AssignedInteger n} (h : In r a) : In r a.native := (in_append_cells.1 h).2
theorem in_curv {v : AssignedInteger n} {z : AssignedValue n} (h : In r v) (h' : In r z) :
    In r (⟨v, z⟩ : AssignedCurvature n) := in_append_cells.2 ⟨h, h'⟩
theorem in_cv {a : AssignedCurvature n} (h : In r a) : In r a.v := (in_append_cells.1 h).1
theorem in_cz {a : AssignedCurvature n} (h : In r a) : In r a.z := (in_append_cells.1 h).2
theorem in_point {x y : AssignedInteger n} {z : AssignedValue n} (h : In r x) (h' : In r y) (h'' : In r z) :
    In r (⟨x, y, z⟩ : AssignedPoint n) := in_append_cells.2 ⟨in_append_cells.2 ⟨h, h'⟩, h''⟩
theorem in_px {a : AssignedPoint n} (h : In r a) : In r a.x := (in_append_cells.1 (in_append_cells.1 h).1).1
theorem in_py {a : AssignedPoint n} (h : In r a) : In r a.y := (in_append_cells.1 (in_append_cells.1 h).1).2
theorem in_pz {a : AssignedPoint n} (h : In r a) : In r a.z := (in_append_cells.1 h).2
theorem in_nz {x y : AssignedInteger n} (h : In r x) (h' : In r y) : In r (⟨x, y⟩ : AssignedNonZeroPoint n) :=
  in_append_cells.2 ⟨h, h'⟩
theorem in_nx {a : AssignedNonZeroPoint n} (h : In r a) : In r a.x := (in_append_cells.1 h).1
theorem in_ny {a : AssignedNonZeroPoint n} (h : In r a) : In r a.y := (in_append_cells.1 h).2
theorem in_pc {x y : AssignedInteger n} {z : AssignedValue n} {c : AssignedCurvature n} (h : In r x) (h' : In r y)
    (h'' : In r z) (hc : In r c) : In r (⟨x, y, z, c⟩ : AssignedPointWithCurvature n) :=
  in_append_cells.2 ⟨in_append_cells.2 ⟨in_append_cells.2 ⟨h, h'⟩, h''⟩, hc⟩
theorem in_pcc {a : AssignedPointWithCurvature n} (h : In r a) : In r a.curvature := (in_append_cells.1 h).2
theorem in_pcz {a : AssignedPointWithCurvature n} (h : In r a) : In r a.z := (in_append_cells.1 (in_append_cells.1 h).1).2
theorem in_pcx {a : AssignedPointWithCurvature n} (h : In r a) : In r a.x :=
  (in_append_cells.1 (in_append_cells.1 (in_append_cells.1 h).1).1).1
theorem in_pcy {a : AssignedPointWithCurvature n} (h : In r a) : In r a.y :=
  (in_append_cells.1 (in_append_cells.1 (in_append_cells.1 h).1).1).2
theorem in_to_point {a : AssignedPointWithCurvature n} (h : In r a) : In r a.to_point :=
  in_point (in_pcx h) (in_pcy h) (in_pcz h)
theorem in_term {a b c : AssignedValue n} {k : ZMod n} (h1 : In r a) (h2 : In r b) (h3 : In r c) :
    In r (⟨a, b, c, k⟩ : MulTerm n) := in_append_cells.2 ⟨in_append_cells.2 ⟨h1, h2⟩, h3⟩
theorem in_ta {l : MulTerm n} (h : In r l) : In r l.a := (in_append_cells.1 (in_append_cells.1 h).1).1
theorem in_tb {l : MulTerm n} (h : In r l) : In r l.b := (in_append_cells.1 (in_append_cells.1 h).1).2
theorem in_tc {l : MulTerm n} (h : In r l) : In r l.c := (in_append_cells.1 h).2
theorem in_zip [HasCells n α] [HasCells n β] {l : List α} {k : List β} (h : In r l) (h' : In r k) : In r (l.zip k) :=
  in_list_iff.2 fun p hp => in_pair (in_list_iff.1 h _ (List.of_mem_zip hp).1) (in_list_iff.1 h' _ (List.of_mem_zip hp).2)
theorem in_fields (l : List (ZMod n)) : In r l := in_list_iff.2 fun a _ => in_field a
theorem in_nats (l : List ℕ) : In r l := in_list_iff.2 fun a _ => in_nat a
theorem in_map [HasCells n α] [HasCells n β] {f : α → β} {l : List α} (h : In r l) (hf : ∀ a, In r a → In r (f a)) :
    In r (l.map f) := in_list_iff.2 fun b hb => by
  obtain ⟨a, ha, rfl⟩ := List.mem_map.1 hb
  exact hf a (in_list_iff.1 h a ha)
theorem in_sublist [HasCells n α] {l l' : List α} (h : In r l) (hs : ∀ a ∈ l', a ∈ l) : In r l' :=
  in_list_iff.2 fun a ha => in_list_iff.1 h a (hs a ha)
theorem in_getElem? [HasCells n α] {l : List α} (h : In r l) {i : ℕ} {a : α} (e : l[i]? = some a) : In r a :=
  in_list_iff.1 h a (List.mem_of_getElem? e)
end

/-! ## Rules -/

/-- From contexts with at least the values in `r`: values are added, satisfied copy constraints stay satisfied, and the
result has `P`. -/
def W (r : RecordsInner n) (m : M n α) (P : RecordsInner n → α → Prop) : Prop :=
  ∀ s a t, s.Fresh → RLe r s.records.inner → m s = .ok (a, t) → t.Fresh ∧ Keeps s.records t.records ∧ P t.records.inner a

section
variable {r : RecordsInner n} {P : RecordsInner n → α → Prop} {Q : RecordsInner n → β → Prop}

theorem W.le {r r' : RecordsInner n} (h : RLe r r') {m : M n α} (hm : W r m P) : W r' m P :=
  fun s a t hf hs e => hm s a t hf (h.trans hs) e

theorem W.mono {P' : RecordsInner n → α → Prop} {m : M n α} (hm : W r m P) (h : ∀ r a, P r a → P' r a) : W r m P' :=
  fun s a t hf hs e => ⟨(hm s a t hf hs e).1, (hm s a t hf hs e).2.1, h _ _ (hm s a t hf hs e).2.2⟩

theorem W.pure {a : α} (h : ∀ r', RLe r r' → P r' a) : W r (Pure.pure a) P := by
  rintro s b t hf hs e
  cases e
  exact ⟨hf, .rfl _, h _ hs⟩

theorem W.ret [HasCells n α] {a : α} (h : In r a) : W r (Pure.pure a) In := .pure fun _ hr => h.mono hr

theorem W.any {a : α} : W r (Pure.pure a) fun _ _ => True := .pure fun _ _ => trivial

theorem W.panic {p : Panic} : W r (Verif.panic p : M n α) P := fun _ _ _ _ _ e => by cases e

theorem W.bind {m : M n α} {f : α → M n β} (hm : W r m P) (hf : ∀ a r', RLe r r' → P r' a → W r' (f a) Q) :
    W r (m >>= f) Q := by
  intro s b t hs0 hs e
  obtain ⟨a, u, e1, e2⟩ := run_bind_ok.1 e
  obtain ⟨f1, k1, p1⟩ := hm s a u hs0 hs e1
  obtain ⟨f2, k2, p2⟩ := hf a _ (hs.trans k1.le) p1 u b t f1 (.rfl _) e2
  exact ⟨f2, k1.trans k2, p2⟩

theorem W.bindR {m : M n α} {f : α → M n β} (hm : W r m P)
    (hf : ∀ a r', (∃ s t, m s = .ok (a, t)) → RLe r r' → P r' a → W r' (f a) Q) : W r (m >>= f) Q := by
  intro s b t hs0 hs e
  obtain ⟨a, u, e1, e2⟩ := run_bind_ok.1 e
  obtain ⟨f1, k1, p1⟩ := hm s a u hs0 hs e1
  obtain ⟨f2, k2, p2⟩ := hf a _ ⟨_, _, e1⟩ (hs.trans k1.le) p1 u b t f1 (.rfl _) e2
  exact ⟨f2, k1.trans k2, p2⟩

theorem W.bindS [HasCells n α] [HasCells n γ] {m : M n (α × γ)} {f : α × γ → M n β} (hm : W r m In)
    (hf : ∀ a b r', RLe r r' → In r' a → In r' b → W r' (f (a, b)) Q) : W r (m >>= f) Q :=
  hm.bind fun x r' hr hx => hf x.1 x.2 r' hr (in_fst hx) (in_snd hx)

theorem W.ite {p : Prop} [Decidable p] {m m' : M n α} (h : W r m P) (h' : W r m' P) : W r (if p then m else m') P := by
  split
  · exact h
  · exact h'

theorem cel_rassert (b : Bool) : W r (rassert b) In := by
  unfold rassert
  cases b
  · exact .panic
  · exact .ret (in_unit _)

theorem cel_fits_u64 (x : ℕ) : W r (fits_u64 x) In := by
  unfold fits_u64
  exact .ite (.ret (in_unit _)) .panic

theorem cel_unwrap (o : Option α) : W r (unwrap o) fun _ _ => True := by
  cases o
  · exact .panic
  · exact .any

theorem cel_index [HasCells n α] {l : List α} (h : In r l) (i : ℕ) : W r (index l i) In := by
  unfold index
  cases e : l[i]? with
  | none => exact .panic
  | some a => exact .ret (in_getElem? h e)

theorem cel_index_any (l : List α) (i : ℕ) : W r (index l i) fun _ _ => True := by
  unfold index
  cases l[i]?
  · exact .panic
  · exact .any

theorem cel_mapM_gen [HasCells n β] {f : α → M n β} (l : List α) (hf : ∀ a ∈ l, ∀ r', RLe r r' → W r' (f a) In) :
    W r (l.mapM f) In := by
  induction l generalizing r with
  | nil => exact .ret in_nil
  | cons a l ih =>
    rw [List.mapM_cons]
    refine (hf a List.mem_cons_self _ (.rfl _)).bind fun b r1 h1 hb => ?_
    refine (ih (r := r1) fun a ha r' hr => hf a (List.mem_cons_of_mem _ ha) _ (h1.trans hr)).bind fun l r2 h2 hl => ?_
    exact .ret (in_cons (hb.mono h2) hl)

theorem cel_mapM_same [HasCells n β] {f : α → M n β} (l : List α) (hf : ∀ a r', RLe r r' → W r' (f a) In) :
    W r (l.mapM f) In := cel_mapM_gen l fun a _ => hf a

theorem cel_mapM [HasCells n α] [HasCells n β] {f : α → M n β} {l : List α} (hl : In r l)
    (hf : ∀ a r', RLe r r' → In r' a → W r' (f a) In) : W r (l.mapM f) In :=
  cel_mapM_gen l fun a ha r' hr => hf a r' hr ((in_list_iff.1 hl a ha).mono hr)

theorem cel_tryB [HasCells n α] {m : M n (Except UnsafeError α)} {k : α → M n (Except UnsafeError β)}
    {Q : RecordsInner n → Except UnsafeError β → Prop} (he : ∀ r e, Q r (.error e)) (h : W r m In)
    (hk : ∀ a r', RLe r r' → In r' a → W r' (k a) Q) : W r (tryB m k) Q := by
  unfold tryB
  refine h.bind fun x r' hr hx => ?_
  cases x with
  | ok a => exact hk a r' hr hx
  | error e => exact .pure fun _ _ => he _ _
end

/-! ## The primitive writers -/

theorem keeps_line_cells (o : ℕ) (l : List (ValueSchema n × ZMod n)) : ∀ (s : Records n) (i : ℕ), i + l.length ≤ 5 →
    (∀ j, i ≤ j → s.inner.base_adv_record o j = none) → In s.inner l → Keeps s (s.line_cells o i l) ∧
      (∀ j b k, l[j]? = some (b, k) → CellIn (s.line_cells o i l).inner (⟨.base, i + j, o⟩, b.value)) ∧
      ∀ j, i + l.length ≤ j → (s.line_cells o i l).inner.base_adv_record o j = none := by
  induction l with
  | nil => intro s i _ hn _; exact ⟨.rfl _, fun j b k h => by simp at h, fun j hj => hn j hj⟩
  | cons p l ih =>
    intro s i hi hn hl
    obtain ⟨b, k⟩ := p
    simp only [List.length_cons] at hi ⊢
    obtain ⟨h1, h2⟩ := in_cons_iff.1 hl
    obtain ⟨k1, c1⟩ := keeps_line_cell s o (i := i) (by omega) b k (hn i le_rfl) (in_left h1)
    obtain ⟨k2, c2, c3⟩ := ih (s.line_cell o i b k) (i + 1) (by omega)
      (fun j hj => (line_cell_adv s o i b k (by omega)).trans (hn j (by omega))) (h2.mono k1.le)
    refine ⟨k1.trans k2, fun j b' k' hj => ?_, fun j hj => c3 j (by omega)⟩
    cases j with
    | zero =>
      rw [List.getElem?_cons_zero] at hj
      cases hj
      exact k2.le.cells _ c1
    | succ j =>
      rw [List.getElem?_cons_succ] at hj
      have := c2 j b' k' hj
      rw [show i + 1 + j = i + (j + 1) by omega] at this
      exact this

theorem keeps_mul_cells (o : ℕ) (l : List (ZMod n)) : ∀ (s : Records n) (i : ℕ), Keeps s (s.mul_cells o i l) ∧
    (s.mul_cells o i l).inner.base_adv_record = s.inner.base_adv_record := by
  induction l with
  | nil => intro s i; exact ⟨.rfl _, rfl⟩
  | cons k l ih => intro s i; exact ⟨(keeps_fix_base _ _ _ _).trans (ih _ _).1, (ih _ _).2⟩

theorem in_lineCells {r : RecordsInner n} {o : ℕ} {l : List (ValueSchema n × ZMod n)}
    (h : ∀ j b k, l[j]? = some (b, k) → CellIn r (⟨.base, j, o⟩, b.value)) : In r (lineCells o l) := by
  refine in_list_iff.2 fun a ha => in_val_iff.2 ?_
  unfold lineCells at ha
  obtain ⟨j, hj, e⟩ := List.mem_iff_getElem.1 ha
  rw [List.getElem_mapIdx] at e
  rw [← e]
  rw [List.length_mapIdx] at hj
  exact h j _ _ (List.getElem?_eq_getElem hj)

theorem line_length {s r : Records n} {o : ℕ} {l : List (ValueSchema n × ZMod n)} {c : Option (ZMod n)}
    {mul : List (ZMod n)} {next : Option (ZMod n)} (e : s.one_line o l c mul next = .ok r) : l.length ≤ 5 := by
  unfold Records.one_line at e
  by_cases h1 : l.length ≤ VAR_COLUMNS
  · exact h1
  · simp only [h1, not_false_eq_true, if_true] at e
    cases e

theorem keeps_one_line {s r : Records n} {o : ℕ} {l : List (ValueSchema n × ZMod n)} {c : Option (ZMod n)}
    {mul : List (ZMod n)} {next : Option (ZMod n)} (e : s.one_line o l c mul next = .ok r)
    (hn : ∀ j, s.inner.base_adv_record o j = none) (hl : In s.inner l) :
    Keeps s r ∧ (∀ j b k, l[j]? = some (b, k) → CellIn r.inner (⟨.base, j, o⟩, b.value)) ∧
      ∀ j, l.length ≤ j → r.inner.base_adv_record o j = none := by
  have hlen := line_length e
  rw [one_line_done e]
  unfold Records.line_done
  have k0 := keeps_base_height s o
  have n0 : ∀ j, (if o ≥ s.base_height then { s with base_height := o + 1 } else s : Records n).inner.base_adv_record o j = none := by
    intro j
    split <;> exact hn j
  generalize (if o ≥ s.base_height then { s with base_height := o + 1 } else s : Records n) = s0 at k0 n0 ⊢
  obtain ⟨k1, c1, c2⟩ := keeps_line_cells o l s0 0 (by omega) (fun j _ => n0 j) (hl.mono k0.le)
  obtain ⟨k2, k3⟩ := keeps_mul_cells o mul (s0.line_cells o 0 l) 0
  have key : ∀ u, Keeps (s0.line_cells o 0 l) u → u.inner.base_adv_record = (s0.line_cells o 0 l).inner.base_adv_record →
      Keeps s u ∧ (∀ j b k, l[j]? = some (b, k) → CellIn u.inner (⟨.base, j, o⟩, b.value)) ∧
        ∀ j, l.length ≤ j → u.inner.base_adv_record o j = none := by
    refine fun u hu he => ⟨(k0.trans k1).trans hu, fun j b k hj => hu.le.cells _ ?_, fun j hj => ?_⟩
    · have := c1 j b k hj
      rwa [Nat.zero_add] at this
    · rw [he]; exact c2 j (by omega)
  cases next <;> cases c
  · exact key _ k2 k3
  · exact key _ (k2.trans (keeps_fix_base _ _ _ _)) k3
  · exact key _ (k2.trans (keeps_fix_base _ _ _ _)) k3
  · exact key _ (k2.trans ((keeps_fix_base _ _ _ _).trans (keeps_fix_base _ _ _ _))) k3

section
variable {r : RecordsInner n}

theorem cel_one_line {l : List (ValueSchema n × ZMod n)} (hl : In r l) (c : Option (ZMod n)) (mul : List (ZMod n))
    (next : Option (ZMod n)) : W r (one_line l c mul next) In := by
  intro s a t hf hs e
  refine ⟨((Logged.one_line l c mul next).growing s a t hf e).1, ?_⟩
  unfold one_line at e
  split at e
  · cases e
  rename_i u hu
  cases e
  obtain ⟨k, h, -⟩ := keeps_one_line hu (fun j => hf.baseAdv _ j le_rfl) (hl.mono hs)
  exact ⟨k, in_lineCells h⟩

theorem cel_one_line_with_last {l : List (ValueSchema n × ZMod n)} {x : ValueSchema n × ZMod n} (hl : In r l)
    (hx : In r x) (c : Option (ZMod n)) (mul : List (ZMod n)) (next : Option (ZMod n)) :
    W r (one_line_with_last l x c mul next) In := by
  intro s a t hf hs e
  refine ⟨((Built.one_line_with_last (cc := True) l x c mul next).growing s a t hf e).1, ?_⟩
  unfold one_line_with_last at e
  split at e
  · cases e
  rename_i u hu
  cases e
  unfold Records.one_line_with_last at hu
  by_cases h1 : l.length ≤ VAR_COLUMNS - 1
  swap
  · simp only [h1, not_false_eq_true, if_true] at hu
    cases hu
  simp only [h1, not_true_eq_false, if_false] at hu
  dsimp only [bind, Except.bind, pure, Except.pure] at hu
  split at hu
  · cases hu
  rename_i v hv
  cases hu
  obtain ⟨k, h, hn⟩ := keeps_one_line hv (fun j => hf.baseAdv _ j le_rfl) (hl.mono hs)
  obtain ⟨k', h'⟩ := keeps_line_cell v s.base_offset (i := VAR_COLUMNS - 1) (by decide) x.1 x.2 (hn _ h1)
    (in_fst ((hx.mono hs).mono k.le))
  exact ⟨k.trans k', in_pair (in_lineCells fun j b c hj => k'.le.cells _ (h j b c hj)) (in_val_iff.2 h')⟩

/-- What the lines of the range chip leave alone. -/
def SamePerm (s t : Records n) : Prop := t.inner.permute_flag = s.inner.permute_flag ∧ t.permutations = s.permutations

theorem samePerm_ensure (s : Records n) (o : ℕ) : SamePerm s (s.ensure_range_record_size o) := by
  unfold Records.ensure_range_record_size
  split <;> exact ⟨rfl, rfl⟩

theorem SamePerm.adv {s t : Records n} (h : SamePerm s t) (o c : ℕ) (v : ZMod n) :
    SamePerm s (t.assign_adv_cell_in_range_chip o c v) := h
theorem SamePerm.fix {s t : Records n} (h : SamePerm s t) (o c : ℕ) (v : ZMod n) :
    SamePerm s (t.assign_fix_cell_in_range_chip o c v) := h

theorem keeps_range_one {s t : Records n} {o : ℕ} {v : List (ZMod n)} {x : ZMod n} {bits : ℕ} {a : AssignedValue n}
    (e : s.assign_one_line_range_value o v x bits = .ok (a, t)) : SamePerm s t ∧ CellIn t.inner (a.cell, a.val) := by
  unfold Records.assign_one_line_range_value at e
  by_cases h1 : bits ≤ COMMON_RANGE_BITS
  swap
  · simp only [h1, not_false_eq_true, if_true] at e
    cases e
  simp only [h1, not_true_eq_false, if_false] at e
  cases v with
  | nil => cases e
  | cons v0 v =>
    injection e with e
    injection e with e1 e2
    subst e1
    subst e2
    exact ⟨samePerm_ensure s _, in_adv_range _ _ (by decide) _⟩

theorem keeps_range_two {s t : Records n} {o : ℕ} {v : List (ZMod n)} {x : ZMod n} {bits : ℕ} {a : AssignedValue n}
    (e : s.assign_two_line_range_value o v x bits = .ok (a, t)) : SamePerm s t ∧ CellIn t.inner (a.cell, a.val) := by
  unfold Records.assign_two_line_range_value at e
  by_cases h1 : bits ≥ COMMON_RANGE_BITS * 2
  swap
  · simp only [h1, not_false_eq_true, if_true] at e
    cases e
  by_cases h2 : bits ≤ COMMON_RANGE_BITS * 4
  swap
  · simp only [h1, h2, not_true_eq_false, not_false_eq_true, if_true, if_false] at e
    cases e
  simp only [h1, h2, not_true_eq_false, if_false] at e
  rcases v with _ | ⟨v0, _ | ⟨v1, _ | ⟨v2, _ | ⟨v3, v⟩⟩⟩⟩
  · cases e
  · cases e
  · cases e
  · cases e
  · injection e with e
    injection e with e1 e2
    subst e1
    subst e2
    refine ⟨?_, in_adv_range _ _ (by decide) _⟩
    repeat' first | with_reducible apply SamePerm.adv | with_reducible apply SamePerm.fix | exact samePerm_ensure s _

theorem keeps_range_three {s t : Records n} {o : ℕ} {v : List (ZMod n)} {x : ZMod n} {bits : ℕ} {a : AssignedValue n}
    (e : s.assign_three_line_range_value o v x bits = .ok (a, t)) : SamePerm s t ∧ CellIn t.inner (a.cell, a.val) := by
  unfold Records.assign_three_line_range_value at e
  by_cases h1 : bits ≥ COMMON_RANGE_BITS * 3
  swap
  · simp only [h1, not_false_eq_true, if_true] at e
    cases e
  by_cases h2 : bits ≤ COMMON_RANGE_BITS * 6
  swap
  · simp only [h1, h2, not_true_eq_false, not_false_eq_true, if_true, if_false] at e
    cases e
  simp only [h1, h2, not_true_eq_false, if_false] at e
  rcases v with _ | ⟨v0, _ | ⟨v1, _ | ⟨v2, _ | ⟨v3, _ | ⟨v4, _ | ⟨v5, v⟩⟩⟩⟩⟩⟩
  · cases e
  · cases e
  · cases e
  · cases e
  · cases e
  · cases e
  · injection e with e
    injection e with e1 e2
    subst e1
    subst e2
    refine ⟨?_, in_adv_range _ _ (by decide) _⟩
    repeat' first | with_reducible apply SamePerm.adv | with_reducible apply SamePerm.fix | exact samePerm_ensure s _

theorem keeps_range {s t : Records n} {o : ℕ} {v : List (ZMod n)} {x : ZMod n} {bits : ℕ} {a : AssignedValue n × ℕ}
    (e : s.assign_range_value o v x bits = .ok (a, t)) : SamePerm s t ∧ CellIn t.inner (a.1.cell, a.1.val) := by
  unfold Records.assign_range_value at e
  by_cases h1 : bits ≤ COMMON_RANGE_BITS
  · rw [if_pos h1] at e
    dsimp only [bind, Except.bind, pure, Except.pure] at e
    split at e
    · cases e
    rename_i q hq
    obtain ⟨b, u⟩ := q
    cases e
    exact keeps_range_one hq
  rw [if_neg h1] at e
  by_cases h2 : bits < 2 * COMMON_RANGE_BITS
  · rw [if_pos h2] at e; cases e
  rw [if_neg h2] at e
  by_cases h3 : bits ≤ 4 * COMMON_RANGE_BITS
  · rw [if_pos h3] at e
    dsimp only [bind, Except.bind, pure, Except.pure] at e
    split at e
    · cases e
    rename_i q hq
    obtain ⟨b, u⟩ := q
    cases e
    exact keeps_range_two hq
  rw [if_neg h3] at e
  by_cases h4 : bits ≤ 6 * COMMON_RANGE_BITS
  · rw [if_pos h4] at e
    dsimp only [bind, Except.bind, pure, Except.pure] at e
    split at e
    · cases e
    rename_i q hq
    obtain ⟨b, u⟩ := q
    cases e
    exact keeps_range_three hq
  · rw [if_neg h4] at e; cases e

theorem keeps_of_grows {s t : Context n} (hs : s.Fresh) (g : Grows s t) (h : SamePerm s.records t.records) :
    Keeps s.records t.records :=
  .of_le (rle_of_grows hs g fun c hc => by rw [h.1]; exact hc) h.2

theorem cel_assign_range (v : ZMod n × List (ZMod n)) (bits : ℕ) : W r (assign_range v bits) In := by
  intro s a t hf hs e
  obtain ⟨f, g⟩ := (Built.assign_range (cc := True) v bits).growing s a t hf e
  refine ⟨f, ?_⟩
  unfold assign_range at e
  split at e
  · cases e
  rename_i b k u hu
  cases e
  obtain ⟨h1, h2⟩ := keeps_range hu
  exact ⟨keeps_of_grows hf g h1, in_val_iff.2 h2⟩

theorem cel_assign_common (bn : ℕ) : W r (assign_common bn) In := by
  intro s a t hf hs e
  obtain ⟨f, g⟩ := (Built.assign_common (cc := True) bn).growing s a t hf e
  refine ⟨f, ?_⟩
  unfold assign_common at e
  split at e
  · cases e
  rename_i b u hu
  cases e
  obtain ⟨h1, h2⟩ := keeps_range_one hu
  exact ⟨keeps_of_grows hf g h1, in_val_iff.2 h2⟩

theorem cel_assign_cache_value {v : AssignedValue n} (hv : In r v) (offset g sel : ℕ) :
    W r (assign_cache_value v offset g sel) In := by
  intro s a t hf hs e
  refine ⟨((Built.assign_cache_value (cc := True) trivial v offset g sel).growing s a t hf e).1, ?_⟩
  cases e
  refine ⟨?_, in_unit _⟩
  have hc := (in_val_iff.1 (hv.mono hs))
  have k0 := keeps_select_height s.records s.select_offset
  have n0 : ∀ j, (if s.select_offset ≥ s.records.select_height then { s.records with select_height := s.select_offset + 1 }
    else s.records : Records n).inner.select_adv_record s.select_offset j = none := by
    intro j
    split <;> exact hf.selAdv _ j le_rfl
  show Keeps s.records (s.records.assign_cache_value s.select_offset v _)
  unfold Records.assign_cache_value
  generalize (if s.select_offset ≥ s.records.select_height then { s.records with select_height := s.select_offset + 1 }
    else s.records : Records n) = u at k0 n0 ⊢
  have k1 := keeps_adv_select u s.select_offset Records.ValueCol v.val (n0 _)
  have c1 := in_adv_select u s.select_offset (c := Records.ValueCol) (by decide) v.val
  dsimp only
  generalize u.assign_adv_cell_in_select_chip s.select_offset Records.ValueCol v.val = w at k1 c1 ⊢
  generalize encode_offset n g sel offset = k
  have k2 : RLe w.inner ((w.enable_permute ⟨.select, Records.ValueCol, s.select_offset⟩).enable_permute v.cell).inner :=
    (keeps_permute _ _).le.trans (keeps_permute _ _).le
  refine (k0.trans k1).trans ⟨?_, fun hw => ?_⟩
  · exact k2.trans ((keeps_fix_select ((w.enable_permute _).enable_permute _) _ _ _).le.trans (keeps_fix_select _ _ _ _).le)
  · refine copy_ready (a := ⟨.select, Records.ValueCol, s.select_offset⟩) (b := v.cell) (v := v.val) hw
      (k2.trans ((keeps_fix_select ((w.enable_permute _).enable_permute _) _ _ _).le.trans (keeps_fix_select _ _ _ _).le)) ?_ ?_ rfl
    · exact ⟨c1.1, c1.2, (keeps_permute (w.enable_permute ⟨.select, Records.ValueCol, s.select_offset⟩) v.cell).le.flags _
        (permute_self w _)⟩
    · have hc := (k0.trans k1).le.cells _ hc
      have h2 := (k2.trans ((keeps_fix_select ((w.enable_permute _).enable_permute _) s.select_offset Records.EncodeCol (0 : ZMod n)
        ).le.trans (keeps_fix_select _ s.select_offset Records.IsLookupCol 0).le)).cells _ hc
      refine ⟨h2.1, ?_, permute_self (w.enable_permute ⟨.select, Records.ValueCol, s.select_offset⟩) v.cell⟩
      obtain ⟨⟨chip, _, _⟩, _⟩ := v
      cases chip <;> exact h2.2

theorem cel_assign_selected_value (v : AssignedValue n) (offset g : ℕ) {sel : AssignedValue n} (hv : In r sel) :
    W r (assign_selected_value v offset g sel) In := by
  intro s a t hf hs e
  refine ⟨((Built.assign_selected_value (cc := True) v offset g sel).growing s a t hf e).1, ?_⟩
  cases e
  have hc := (in_val_iff.1 (hv.mono hs))
  have k0 := keeps_select_height s.records s.select_offset
  have n0 : ∀ j, (if s.select_offset ≥ s.records.select_height then { s.records with select_height := s.select_offset + 1 }
    else s.records : Records n).inner.select_adv_record s.select_offset j = none := by
    intro j
    split <;> exact hf.selAdv _ j le_rfl
  show Keeps s.records (s.records.assign_select_value s.select_offset v _ sel).2 ∧
    In (s.records.assign_select_value s.select_offset v _ sel).2.inner (⟨⟨.select, Records.ValueCol, s.select_offset⟩, v.val⟩ : AssignedValue n)
  rw [in_val_iff]
  unfold Records.assign_select_value
  generalize (if s.select_offset ≥ s.records.select_height then { s.records with select_height := s.select_offset + 1 }
    else s.records : Records n) = u at k0 n0 ⊢
  have k1 := keeps_adv_select u s.select_offset Records.ValueCol v.val (n0 _)
  have c1 := in_adv_select u s.select_offset (c := Records.ValueCol) (by decide) v.val
  have n1 : (u.assign_adv_cell_in_select_chip s.select_offset Records.ValueCol v.val).inner.select_adv_record
      s.select_offset Records.SelectCol = none := (setCell_col (by decide)).trans (n0 _)
  dsimp only
  generalize u.assign_adv_cell_in_select_chip s.select_offset Records.ValueCol v.val = w0 at k1 c1 n1 ⊢
  have k1' := keeps_adv_select w0 s.select_offset Records.SelectCol sel.val n1
  have c1' := in_adv_select w0 s.select_offset (c := Records.SelectCol) (by decide) sel.val
  replace c1 := k1'.le.cells _ c1
  replace k1 := k1.trans k1'
  generalize w0.assign_adv_cell_in_select_chip s.select_offset Records.SelectCol sel.val = w at k1 c1 c1' ⊢
  have k2 : RLe w.inner ((w.enable_permute ⟨.select, Records.SelectCol, s.select_offset⟩).enable_permute sel.cell).inner :=
    (keeps_permute _ _).le.trans (keeps_permute _ _).le
  have k3 : ∀ k : ZMod n, RLe w.inner ((((w.enable_permute ⟨.select, Records.SelectCol, s.select_offset⟩).enable_permute sel.cell
      ).assign_fix_cell_in_select_chip s.select_offset Records.EncodeCol k).assign_fix_cell_in_select_chip s.select_offset
      Records.IsLookupCol 1).inner := fun k =>
    k2.trans ((keeps_fix_select ((w.enable_permute _).enable_permute _) _ _ _).le.trans (keeps_fix_select _ _ _ _).le)
  refine ⟨(k0.trans k1).trans ⟨k3 _, fun hw => ?_⟩, (k3 0).cells _ c1⟩
  refine copy_ready (a := ⟨.select, Records.SelectCol, s.select_offset⟩) (b := sel.cell) (v := sel.val) hw (k3 _) ?_ ?_ rfl
  · exact ⟨c1'.1, c1'.2, (keeps_permute (w.enable_permute ⟨.select, Records.SelectCol, s.select_offset⟩) sel.cell).le.flags _
      (permute_self w _)⟩
  · have hc := (k0.trans k1).le.cells _ hc
    have h2 := (k3 0).cells _ hc
    refine ⟨h2.1, ?_, permute_self (w.enable_permute ⟨.select, Records.SelectCol, s.select_offset⟩) sel.cell⟩
    obtain ⟨⟨chip, _, _⟩, _⟩ := sel
    cases chip <;> exact h2.2

end

end Verif
