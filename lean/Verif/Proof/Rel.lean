import Verif.Proof.Shape

/-!
# Rules for pairs of runs
-/

namespace Verif
variable {n : ℕ} {α β γ : Type} {st : Prop}

theorem Offsets.add_zero (o : Offsets) : o.add ⟨0, 0, 0⟩ = o := rfl
theorem Offsets.add_assoc (a b c : Offsets) : (a.add b).add c = a.add (b.add c) := by
  unfold Offsets.add; simp only [Nat.add_assoc]

theorem Runs2.mono {m m' : M n α} {R R' : α → α → Prop} (h : Runs2 st m m' R) (hR : ∀ a a', R a a' → R' a a') :
    Runs2 st m m' R' := fun s s' a t a' t' hs e e' =>
  let ⟨h1, h2, h3⟩ := h s s' a t a' t' hs e e'
  ⟨h1, h2, hR _ _ h3⟩

theorem Runs2.pure {a a' : α} {R : α → α → Prop} (h : R a a') : Runs2 (n := n) st (pure a) (pure a') R := by
  intro s s' b t b' t' hs e e'
  cases e
  cases e'
  exact ⟨⟨⟨0, 0, 0⟩, rfl, rfl⟩, hs, h⟩

theorem Runs2.panic {p p' : Panic} {m' : M n α} {R : α → α → Prop} : Runs2 st (panic p) m' R := by
  intro s s' b t b' t' hs e e'
  cases e

theorem Runs2.panic' {p : Panic} {m : M n α} {R : α → α → Prop} : Runs2 st m (Verif.panic p) R := by
  intro s s' b t b' t' hs e e'
  cases e'

theorem Runs2.bind {m m' : M n α} {k k' : α → M n β} {R : α → α → Prop} {R' : β → β → Prop} (h : Runs2 st m m' R)
    (hk : ∀ a a', R a a' → Runs2 st (k a) (k' a') R') : Runs2 st (m >>= k) (m' >>= k') R' := by
  intro s s' b t b' t' hs e e'
  obtain ⟨a, u, e1, e2⟩ := run_bind_ok.1 e
  obtain ⟨a', u', e1', e2'⟩ := run_bind_ok.1 e'
  obtain ⟨⟨d, d1, d2⟩, hu, ha⟩ := h _ _ _ _ _ _ hs e1 e1'
  obtain ⟨⟨f, f1, f2⟩, ht, hb⟩ := hk a a' ha _ _ _ _ _ _ hu e2 e2'
  refine ⟨⟨d.add f, ?_, ?_⟩, ht, hb⟩
  · rw [f1, d1, Offsets.add_assoc]
  · rw [f2, d2, Offsets.add_assoc]

/-- Steps that may only panic; their outcomes may depend on the witness. -/
theorem Runs2.bindT {m m' : M n α} {k k' : α → M n β} {R' : β → β → Prop} (h : Runs2 st m m' fun _ _ => True)
    (hk : ∀ a a', Runs2 st (k a) (k' a') R') : Runs2 st (m >>= k) (m' >>= k') R' :=
  h.bind fun a a' _ => hk a a'

theorem Runs2.of_true {m m' : M n Unit} (h : Runs2 st m m' (sh st)) : Runs2 st m m' fun _ _ => True :=
  h.mono fun _ _ _ => trivial

theorem rel_rassert (b b' : Bool) : Runs2 (n := n) st (rassert b) (rassert b') (sh st) := by
  unfold rassert
  cases b
  · exact Runs2.panic (p' := .assertion)
  · cases b'
    · exact Runs2.panic'
    · exact Runs2.pure trivial

theorem rel_fits_u64 (x x' : ℕ) : Runs2 (n := n) st (fits_u64 x) (fits_u64 x') (sh st) := by
  unfold fits_u64
  by_cases h : x < 2 ^ 64
  · by_cases h' : x' < 2 ^ 64
    · rw [if_pos h, if_pos h']; exact Runs2.pure trivial
    · rw [if_neg h']; exact Runs2.panic'
  · rw [if_neg h]; exact Runs2.panic (p' := .assertion)

theorem rel_unwrap (o o' : Option α) : Runs2 (n := n) st (unwrap o) (unwrap o') fun _ _ => True := by
  cases o
  · exact Runs2.panic (p' := .assertion)
  · cases o'
    · exact Runs2.panic'
    · exact Runs2.pure trivial

theorem rel_unwrap_eq (o : Option α) : Runs2 (n := n) st (unwrap o) (unwrap o) fun a b => a = b := by
  cases o
  · exact Runs2.panic (p' := .assertion)
  · exact Runs2.pure rfl

theorem rel_index_gen {R : α → α → Prop} {l l' : List α} (h : List.Forall₂ R l l') (i : ℕ) :
    Runs2 (n := n) st (index l i) (index l' i) R := by
  unfold index
  induction h generalizing i with
  | nil => exact Runs2.panic (p' := .assertion)
  | cons ha _ ih =>
    cases i with
    | zero => exact Runs2.pure ha
    | succ i => exact ih i

theorem rel_index [Shaped α] {l l' : List α} (h : sh st l l') (i : ℕ) :
    Runs2 (n := n) st (index l i) (index l' i) (sh st) := rel_index_gen h i

/-- Indexing into a list that is part of the set-up. -/
theorem rel_index_eq (l : List α) (i : ℕ) : Runs2 (n := n) st (index l i) (index l i) fun a b => a = b :=
  rel_index_gen (List.forall₂_same.2 fun _ _ => rfl) i

/-- Indexing into witness data. -/
theorem rel_index_any (l l' : List α) (i i' : ℕ) : Runs2 (n := n) st (index l i) (index l' i') fun _ _ => True := by
  unfold index
  cases l[i]?
  · exact Runs2.panic (p' := .assertion)
  · cases l'[i']?
    · exact Runs2.panic'
    · exact Runs2.pure trivial

theorem rel_mapM_gen {R : α → α → Prop} {R' : β → β → Prop} {f f' : α → M n β} {l l' : List α}
    (hl : List.Forall₂ R l l') (hf : ∀ a a', R a a' → Runs2 st (f a) (f' a') R') :
    Runs2 st (l.mapM f) (l'.mapM f') (List.Forall₂ R') := by
  induction hl with
  | nil => exact Runs2.pure .nil
  | cons ha _ ih =>
    rw [List.mapM_cons, List.mapM_cons]
    exact (hf _ _ ha).bind fun b b' hb => ih.bind fun l l' hl => Runs2.pure (.cons hb hl)

theorem rel_mapM_same [Shaped β] {f f' : α → M n β} (l : List α) (hf : ∀ a, Runs2 st (f a) (f' a) (sh st)) :
    Runs2 st (l.mapM f) (l.mapM f') (sh st) :=
  rel_mapM_gen (R := fun a a' => a = a') (List.forall₂_same.2 fun _ _ => rfl) fun a a' e => e ▸ hf a

theorem rel_mapM [Shaped α] [Shaped β] {f f' : α → M n β} {l l' : List α} (hl : sh st l l')
    (hf : ∀ a a', sh st a a' → Runs2 st (f a) (f' a') (sh st)) : Runs2 st (l.mapM f) (l'.mapM f') (sh st) :=
  rel_mapM_gen hl hf

theorem rel_tryB [Shaped α] {m m' : M n (Except UnsafeError α)} {k k' : α → M n (Except UnsafeError β)}
    {R : Except UnsafeError β → Except UnsafeError β → Prop} (h : Runs2 st m m' (sh st))
    (hk : ∀ a a', sh st a a' → Runs2 st (k a) (k' a') R) : Runs2 st (tryB m k) (tryB m' k') R := by
  unfold tryB
  refine h.bind ?_
  rintro _ _ ⟨a, a', rfl, rfl, ha⟩
  exact hk a a' ha

/-! ## The primitive writers -/

theorem sh_lineCells (o o' : ℕ) (ho : st → o = o') {l l' : List (ValueSchema n × ZMod n)}
    (hl : List.Forall₂ (ArgShape st) l l') : sh st (lineCells o l) (lineCells o' l') := by
  unfold lineCells
  have key : ∀ {l l' : List (ValueSchema n × ZMod n)}, List.Forall₂ (ArgShape st) l l' → ∀ i : ℕ,
      List.Forall₂ (sh st) (l.mapIdx fun j p => (⟨⟨.base, i + j, o⟩, p.1.value⟩ : AssignedValue n))
        (l'.mapIdx fun j p => (⟨⟨.base, i + j, o'⟩, p.1.value⟩ : AssignedValue n)) := by
    intro l l' h
    induction h with
    | nil => intro i; exact .nil
    | cons _ _ ih =>
      intro i
      rw [List.mapIdx_cons, List.mapIdx_cons]
      refine .cons (fun hst => by rw [ho hst]) ?_
      have := ih (i + 1)
      simp only [Nat.add_assoc, Nat.add_comm 1] at this
      exact this
  have := key hl 0
  simp only [Nat.zero_add] at this
  exact this

theorem rel_one_line {l l' : List (ValueSchema n × ZMod n)} (hl : List.Forall₂ (ArgShape st) l l')
    (c : Option (ZMod n)) (mul : List (ZMod n)) (next : Option (ZMod n)) :
    Runs2 st (one_line l c mul next) (one_line l' c mul next) (sh st) := by
  intro s s' a t a' t' hs e e'
  unfold one_line at e e'
  split at e
  · cases e
  split at e'
  · cases e'
  rename_i r hr _ r' hr'
  cases e
  cases e'
  refine ⟨⟨⟨1, 0, 0⟩, rfl, rfl⟩, fun hst => ?_, sh_lineCells _ _ (fun hst => (hs hst).base_offset) hl⟩
  obtain ⟨h1, h2⟩ := (sameShape_iff _ _).1 (hs hst)
  have hb := (hs hst).base_offset
  rw [hb] at hr
  refine (sameShape_iff _ _).2 ⟨?_, ?_⟩
  · show Offsets.mk (s.base_offset + 1) s.range_offset s.select_offset =
      Offsets.mk (s'.base_offset + 1) s'.range_offset s'.select_offset
    rw [hb, (hs hst).range_offset, (hs hst).select_offset]
  · exact shape_one_line h2 _ (by rwa [eq_true hst] at hl) _ _ _ hr hr'

theorem rel_one_line_with_last {l l' : List (ValueSchema n × ZMod n)} {x x' : ValueSchema n × ZMod n}
    (hl : List.Forall₂ (ArgShape st) l l') (hx : ArgShape st x x')
    (c : Option (ZMod n)) (mul : List (ZMod n)) (next : Option (ZMod n)) :
    Runs2 st (one_line_with_last l x c mul next) (one_line_with_last l' x' c mul next) (sh st) := by
  intro s s' a t a' t' hs e e'
  unfold one_line_with_last at e e'
  split at e
  · cases e
  split at e'
  · cases e'
  rename_i r hr _ r' hr'
  cases e
  cases e'
  refine ⟨⟨⟨1, 0, 0⟩, rfl, rfl⟩, fun hst => ?_, sh_lineCells _ _ (fun hst => (hs hst).base_offset) hl,
    fun hst => by rw [(hs hst).base_offset]⟩
  obtain ⟨h1, h2⟩ := (sameShape_iff _ _).1 (hs hst)
  have hb := (hs hst).base_offset
  rw [hb] at hr
  refine (sameShape_iff _ _).2 ⟨?_, ?_⟩
  · show Offsets.mk (s.base_offset + 1) s.range_offset s.select_offset =
      Offsets.mk (s'.base_offset + 1) s'.range_offset s'.select_offset
    rw [hb, (hs hst).range_offset, (hs hst).select_offset]
  · rw [eq_true hst] at hl hx
    exact shape_one_line_with_last h2 _ hl hx _ _ _ hr hr'

theorem rel_assign_range (v v' : ZMod n × List (ZMod n)) (bits : ℕ) :
    Runs2 st (assign_range v bits) (assign_range v' bits) (sh st) := by
  intro s s' a t a' t' hs e e'
  unfold assign_range at e e'
  split at e
  · cases e
  split at e'
  · cases e'
  rename_i b k r hr _ b' k' r' hr'
  cases e
  cases e'
  obtain ⟨c1, rfl⟩ := range_cell hr
  obtain ⟨c2, rfl⟩ := range_cell hr'
  refine ⟨⟨⟨0, rangeRows bits, 0⟩, rfl, rfl⟩, fun hst => ?_, fun hst => by rw [c1, c2, (hs hst).range_offset]⟩
  obtain ⟨h1, h2⟩ := (sameShape_iff _ _).1 (hs hst)
  have hb := (hs hst).range_offset
  rw [hb] at hr
  refine (sameShape_iff _ _).2 ⟨?_, ?_⟩
  · show Offsets.mk s.base_offset (s.range_offset + _) s.select_offset =
      Offsets.mk s'.base_offset (s'.range_offset + _) s'.select_offset
    rw [hb, (hs hst).base_offset, (hs hst).select_offset]
  · exact shape_range h2 _ hr hr'

theorem rel_assign_common (bn bn' : ℕ) : Runs2 (n := n) st (assign_common bn) (assign_common bn') (sh st) := by
  intro s s' a t a' t' hs e e'
  unfold assign_common at e e'
  split at e
  · cases e
  split at e'
  · cases e'
  rename_i b r hr _ b' r' hr'
  cases e
  cases e'
  have key : ∀ {s : Records n} {o bn : ℕ} {a : AssignedValue n} {r : Records n},
      s.assign_one_line_range_value o [(bn : ZMod n)] bn COMMON_RANGE_BITS = .ok (a, r) →
      a.cell = ⟨.range, Records.ValueAccCol, o⟩ := by
    intro s o bn a r e
    unfold Records.assign_one_line_range_value at e
    simp only [le_refl, not_true_eq_false, if_false] at e
    cases e
    rfl
  have c1 := key hr
  have c2 := key hr'
  refine ⟨⟨⟨0, 1, 0⟩, rfl, rfl⟩, fun hst => ?_, fun hst => by rw [c1, c2, (hs hst).range_offset]⟩
  obtain ⟨h1, h2⟩ := (sameShape_iff _ _).1 (hs hst)
  have hb := (hs hst).range_offset
  rw [hb] at hr
  refine (sameShape_iff _ _).2 ⟨?_, ?_⟩
  · show Offsets.mk s.base_offset (s.range_offset + _) s.select_offset =
      Offsets.mk s'.base_offset (s'.range_offset + _) s'.select_offset
    rw [hb, (hs hst).base_offset, (hs hst).select_offset]
  · exact shape_range_one h2 _ hr hr'

theorem rel_assign_cache_value {v v' : AssignedValue n} (hv : sh st v v') (offset g sel : ℕ) :
    Runs2 st (assign_cache_value v offset g sel) (assign_cache_value v' offset g sel) (sh st) := by
  intro s s' a t a' t' hs e e'
  cases e
  cases e'
  refine ⟨⟨⟨0, 0, 1⟩, rfl, rfl⟩, fun hst => ?_, trivial⟩
  obtain ⟨h1, h2⟩ := (sameShape_iff _ _).1 (hs hst)
  have hb := (hs hst).select_offset
  refine (sameShape_iff _ _).2 ⟨?_, ?_⟩
  · show Offsets.mk s.base_offset s.range_offset (s.select_offset + 1) =
      Offsets.mk s'.base_offset s'.range_offset (s'.select_offset + 1)
    rw [hb, (hs hst).base_offset, (hs hst).range_offset]
  · show (s.records.assign_cache_value s.select_offset v _).shape =
      (s'.records.assign_cache_value s'.select_offset v' _).shape
    rw [hb]
    exact shape_cache h2 _ (hv hst) _

theorem rel_assign_selected_value (v v' : AssignedValue n) (offset g : ℕ) {sel sel' : AssignedValue n}
    (hv : sh st sel sel') :
    Runs2 st (assign_selected_value v offset g sel) (assign_selected_value v' offset g sel') (sh st) := by
  intro s s' a t a' t' hs e e'
  cases e
  cases e'
  refine ⟨⟨⟨0, 0, 1⟩, rfl, rfl⟩, fun hst => ?_, fun hst => ?_⟩
  · obtain ⟨h1, h2⟩ := (sameShape_iff _ _).1 (hs hst)
    have hb := (hs hst).select_offset
    refine (sameShape_iff _ _).2 ⟨?_, ?_⟩
    · show Offsets.mk s.base_offset s.range_offset (s.select_offset + 1) =
        Offsets.mk s'.base_offset s'.range_offset (s'.select_offset + 1)
      rw [hb, (hs hst).base_offset, (hs hst).range_offset]
    · show (s.records.assign_select_value s.select_offset v _ _).2.shape =
        (s'.records.assign_select_value s'.select_offset v' _ _).2.shape
      rw [hb]
      exact shape_selected h2 _ _ _ _ (hv hst)
  · show (⟨.select, _, s.select_offset⟩ : Cell) = ⟨.select, _, s'.select_offset⟩
    rw [(hs hst).select_offset]

end Verif
