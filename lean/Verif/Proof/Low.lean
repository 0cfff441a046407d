import Verif.Proof.Interleave
import Verif.Proof.Raised

/-!
# The heights are no larger than the offsets

The counterpart of `Proof/Raised.lean`: the heights of the base chip and of the select chip are never above the offsets,
and the height of the range chip exceeds its offset by at most one, or is at most the offset of the select chip.
-/

namespace Verif
variable {n : ℕ} {α β ε : Type}

/-- The heights are bounded by the offsets. -/
structure LowAt (r : Records n) (o : Offsets) : Prop where
  base : r.base_height ≤ o.base
  select : r.select_height ≤ o.select
  range : r.range_height ≤ max (o.range + 1) o.select

theorem LowAt.mono {r : Records n} {o o' : Offsets} (h : LowAt r o) (ho : o.le o') : LowAt r o' :=
  ⟨h.base.trans (ho .base), h.select.trans (ho .select),
    h.range.trans (max_le_max (Nat.succ_le_succ (ho .range)) (ho .select))⟩

/-- `m` moves the offsets up and keeps the heights below them. -/
structure Lows (m : M n α) : Prop where
  out : ∀ s a t, m s = .ok (a, t) → s.offs.le t.offs ∧ (LowAt s.records s.offs → LowAt t.records t.offs)

theorem Lows.bind {m : M n α} {k : α → M n β} (hm : Lows m) (hk : ∀ a, (∃ s t, m s = .ok (a, t)) → Lows (k a)) :
    Lows (m >>= k) := ⟨fun s b t e => by
  obtain ⟨a, u, h1, h2⟩ := run_bind_ok.1 e
  obtain ⟨g1, g2⟩ := hm.out _ _ _ h1
  obtain ⟨k1, k2⟩ := (hk a ⟨_, _, h1⟩).out _ _ _ h2
  exact ⟨g1.trans k1, k2 ∘ g2⟩⟩

theorem topOf_none {chip : Chip} {ws : List (Write n)} (h : ∀ w ∈ ws, ∀ c k, w ≠ .height c k) : topOf chip ws = 0 := by
  induction ws with
  | nil => rfl
  | cons w ws ih =>
    have ih := ih fun w hw => h w (List.mem_cons_of_mem _ hw)
    rcases w with _ | _ | _ | _ | ⟨c, k⟩
    · exact ih
    · exact ih
    · exact ih
    · exact ih
    · exact absurd rfl (h _ List.mem_cons_self c k)

theorem cellWrites_flat (o i : ℕ) (b : ValueSchema n) (y : ZMod n) : ∀ w ∈ cellWrites o i b y, ∀ c k, w ≠ .height c k := by
  unfold cellWrites
  intro w hw c k e
  subst e
  cases hb : b.cell <;> simp [hb] at hw

theorem cellsWrites_flat (o i : ℕ) (l : List (ValueSchema n × ZMod n)) :
    ∀ w ∈ cellsWrites o i l, ∀ c k, w ≠ .height c k := by
  induction l generalizing i with
  | nil => intro w hw; cases hw
  | cons x l ih =>
    intro w hw
    rcases List.mem_append.1 hw with h | h
    · exact cellWrites_flat _ _ _ _ w h
    · exact ih _ w h

theorem mulWrites_flat (o i : ℕ) (l : List (ZMod n)) : ∀ w ∈ mulWrites o i l, ∀ c k, w ≠ .height c k := by
  induction l generalizing i with
  | nil => intro w hw; cases hw
  | cons x l ih =>
    intro w hw
    rcases List.mem_cons.1 hw with h | h
    · subst h; intro c k e; cases e
    · exact ih _ w h

theorem topOf_line (chip : Chip) (o : ℕ) (pairs : List (ValueSchema n × ZMod n)) (constant : Option (ZMod n))
    (mul : List (ZMod n)) (next : Option (ZMod n)) :
    topOf chip (lineWrites o pairs constant mul next) = if Chip.base = chip then o + 1 else 0 := by
  unfold lineWrites
  show max _ (topOf chip _) = _
  rw [topOf_none, Nat.max_zero]
  intro w hw c k e
  subst e
  rcases List.mem_append.1 hw with hw | hw
  · rcases List.mem_append.1 hw with hw | hw
    · rcases List.mem_append.1 hw with hw | hw
      · exact cellsWrites_flat _ _ _ _ hw _ _ rfl
      · exact mulWrites_flat _ _ _ _ hw _ _ rfl
    · cases next <;> simp at hw
  · cases constant <;> simp at hw

/-- Heights after a line of the base chip. -/
theorem low_line {s t : Records n} {o : Offsets}
    (h : ∀ chip, t.heightOf chip = max (s.heightOf chip) (if Chip.base = chip then o.base + 1 else 0)) :
    LowAt s o → LowAt t { o with base := o.base + 1 } := fun hl => by
  have h1 := h .base
  have h2 := h .range
  have h3 := h .select
  simp only [Records.heightOf, if_true, reduceCtorEq, if_false, Nat.max_zero] at h1 h2 h3
  have k1 := hl.base
  have k2 := hl.select
  have k3 := hl.range
  exact ⟨show t.base_height ≤ o.base + 1 by omega, show t.select_height ≤ o.select by omega,
    show t.range_height ≤ max (o.range + 1) o.select by omega⟩

theorem low_one_line (pairs : List (ValueSchema n × ZMod n)) (constant : Option (ZMod n)) (mul : List (ZMod n))
    (next : Option (ZMod n)) : Lows (one_line pairs constant mul next) := ⟨fun s a t e => by
  unfold Verif.one_line at e
  split at e
  · cases e
  · rename_i r h
    cases e
    refine ⟨fun chip => by cases chip <;> simp [Context.offs, Offsets.at], low_line (o := s.offs) fun chip => ?_⟩
    have := records_one_line_eq h
    subst this
    rw [applyAll_heightOf, topOf_line]
    rfl⟩

theorem low_one_line_with_last (pairs : List (ValueSchema n × ZMod n)) (last : ValueSchema n × ZMod n)
    (constant : Option (ZMod n)) (mul : List (ZMod n)) (next : Option (ZMod n)) :
    Lows (one_line_with_last pairs last constant mul next) := ⟨fun s a t e => by
  unfold Verif.one_line_with_last at e
  split at e
  · cases e
  · rename_i r h
    cases e
    refine ⟨fun chip => by cases chip <;> simp [Context.offs, Offsets.at], low_line (o := s.offs) fun chip => ?_⟩
    unfold Records.one_line_with_last at h
    split at h
    · cases h
    cases h1 : s.records.one_line s.base_offset pairs constant mul next with
    | error p => rw [h1] at h; cases h
    | ok u =>
      rw [h1] at h
      cases h
      have := records_one_line_eq h1
      subst this
      show Records.heightOf (Records.line_cell _ _ _ _ _) chip = _
      rw [line_cell_eq, applyAll_heightOf, topOf_none (cellWrites_flat _ _ _ _), Nat.max_zero, applyAll_heightOf, topOf_line]
      rfl⟩

/-- Heights after a value of the range chip. -/
theorem low_range {s t : Records n} {o : Offsets} {k : ℕ} (hb : t.base_height = s.base_height)
    (hs : t.select_height = s.select_height) (hr : t.range_height = max s.range_height (o.range + k + 1)) :
    LowAt s o → LowAt t { o with range := o.range + k } := fun hl => by
  have k1 := hl.base
  have k2 := hl.select
  have k3 := hl.range
  exact ⟨show t.base_height ≤ o.base by omega, show t.select_height ≤ o.select by omega,
    show t.range_height ≤ max (o.range + k + 1) o.select by omega⟩

theorem ensure_range_height (s : Records n) (o : ℕ) : (s.ensure_range_record_size o).base_height = s.base_height ∧
    (s.ensure_range_record_size o).select_height = s.select_height ∧
    (s.ensure_range_record_size o).range_height = max s.range_height (o + 1) := by
  unfold Records.ensure_range_record_size
  split
  · exact ⟨rfl, rfl, by show o + 1 = _; omega⟩
  · exact ⟨rfl, rfl, by omega⟩

/-- Same heights. -/
def SameH (s t : Records n) : Prop :=
  t.base_height = s.base_height ∧ t.select_height = s.select_height ∧ t.range_height = s.range_height

theorem SameH.refl (s : Records n) : SameH s s := ⟨rfl, rfl, rfl⟩

theorem SameH.range_fix {s t : Records n} (h : SameH s t) (o c : ℕ) (v : ZMod n) :
    SameH s (t.assign_fix_cell_in_range_chip o c v) := h

theorem SameH.range_adv {s t : Records n} (h : SameH s t) (o c : ℕ) (v : ZMod n) :
    SameH s (t.assign_adv_cell_in_range_chip o c v) := h

theorem SameH.after {s u t : Records n} {m : ℕ} (h : SameH u t) (hu : u.base_height = s.base_height ∧
    u.select_height = s.select_height ∧ u.range_height = m) : t.base_height = s.base_height ∧
    t.select_height = s.select_height ∧ t.range_height = m :=
  ⟨h.1.trans hu.1, h.2.1.trans hu.2.1, h.2.2.trans hu.2.2⟩

theorem one_line_range_heights {s t : Records n} {o : ℕ} {v : List (ZMod n)} {a : ZMod n} {bits : ℕ} {r : AssignedValue n}
    (h : s.assign_one_line_range_value o v a bits = .ok (r, t)) : t.base_height = s.base_height ∧
      t.select_height = s.select_height ∧ t.range_height = max s.range_height (o + 1 + 1) := by
  unfold Records.assign_one_line_range_value at h
  by_cases hb : bits ≤ COMMON_RANGE_BITS
  swap
  · rw [if_pos hb] at h; cases h
  rw [if_neg (not_not_intro hb)] at h
  cases hv : v[0]? with
  | none => rw [hv] at h; cases h
  | some x =>
    rw [hv] at h
    cases h
    refine SameH.after ?_ (ensure_range_height s (o + 1))
    repeat' first | with_reducible exact SameH.refl _ | with_reducible apply SameH.range_fix | with_reducible apply SameH.range_adv

theorem two_line_range_heights {s t : Records n} {o : ℕ} {v : List (ZMod n)} {a : ZMod n} {bits : ℕ} {r : AssignedValue n}
    (h : s.assign_two_line_range_value o v a bits = .ok (r, t)) : t.base_height = s.base_height ∧
      t.select_height = s.select_height ∧ t.range_height = max s.range_height (o + 2 + 1) := by
  unfold Records.assign_two_line_range_value at h
  by_cases hb : bits ≥ COMMON_RANGE_BITS * 2
  swap
  · rw [if_pos hb] at h; cases h
  rw [if_neg (not_not_intro hb)] at h
  by_cases hb' : bits ≤ COMMON_RANGE_BITS * 4
  swap
  · rw [if_pos hb'] at h; cases h
  rw [if_neg (not_not_intro hb')] at h
  dsimp only [Bind.bind, Except.bind, Pure.pure, Except.pure] at h
  split at h
  · have h := congrArg Prod.snd (Except.ok.inj h)
    subst h
    refine SameH.after ?_ (ensure_range_height s (o + 2))
    repeat' first | with_reducible exact SameH.refl _ | with_reducible apply SameH.range_fix | with_reducible apply SameH.range_adv
  · cases h

theorem three_line_range_heights {s t : Records n} {o : ℕ} {v : List (ZMod n)} {a : ZMod n} {bits : ℕ} {r : AssignedValue n}
    (h : s.assign_three_line_range_value o v a bits = .ok (r, t)) : t.base_height = s.base_height ∧
      t.select_height = s.select_height ∧ t.range_height = max s.range_height (o + 3 + 1) := by
  unfold Records.assign_three_line_range_value at h
  by_cases hb : bits ≥ COMMON_RANGE_BITS * 3
  swap
  · rw [if_pos hb] at h; cases h
  rw [if_neg (not_not_intro hb)] at h
  by_cases hb' : bits ≤ COMMON_RANGE_BITS * 6
  swap
  · rw [if_pos hb'] at h; cases h
  rw [if_neg (not_not_intro hb')] at h
  dsimp only [Bind.bind, Except.bind, Pure.pure, Except.pure] at h
  split at h
  · have h := congrArg Prod.snd (Except.ok.inj h)
    subst h
    refine SameH.after ?_ (ensure_range_height s (o + 3))
    repeat' first | with_reducible exact SameH.refl _ | with_reducible apply SameH.range_fix | with_reducible apply SameH.range_adv
  · cases h

theorem range_value_heights {s t : Records n} {o : ℕ} {v : List (ZMod n)} {a : ZMod n} {bits k : ℕ} {r : AssignedValue n}
    (h : s.assign_range_value o v a bits = .ok ((r, k), t)) : t.base_height = s.base_height ∧
      t.select_height = s.select_height ∧ t.range_height = max s.range_height (o + k + 1) := by
  unfold Records.assign_range_value at h
  split at h
  · cases h1 : s.assign_one_line_range_value o v a bits with
    | error e => rw [h1] at h; cases h
    | ok x => rw [h1] at h; cases h; exact one_line_range_heights h1
  split at h
  · cases h
  split at h
  · cases h1 : s.assign_two_line_range_value o (Records.resize v 4) a bits with
    | error e => rw [h1] at h; cases h
    | ok x => rw [h1] at h; cases h; exact two_line_range_heights h1
  split at h
  · cases h1 : s.assign_three_line_range_value o (Records.resize v 6) a bits with
    | error e => rw [h1] at h; cases h
    | ok x => rw [h1] at h; cases h; exact three_line_range_heights h1
  · cases h

theorem low_assign_range (v : ZMod n × List (ZMod n)) (bits : ℕ) : Lows (assign_range v bits) := ⟨fun s a t e => by
  unfold Verif.assign_range at e
  split at e
  · cases e
  · rename_i res inc r h
    cases e
    obtain ⟨h1, h2, h3⟩ := range_value_heights h
    exact ⟨fun chip => by cases chip <;> simp [Context.offs, Offsets.at], low_range (o := s.offs) h1 h2 h3⟩⟩

theorem low_assign_common (bn : ℕ) : Lows (assign_common bn : M n _) := ⟨fun s a t e => by
  unfold Verif.assign_common at e
  split at e
  · cases e
  · rename_i res r h
    cases e
    obtain ⟨h1, h2, h3⟩ := one_line_range_heights h
    exact ⟨fun chip => by cases chip <;> simp [Context.offs, Offsets.at], low_range (o := s.offs) h1 h2 h3⟩⟩

/-- Heights after a row of the select chip. -/
theorem low_select {s t : Records n} {o : Offsets} (hb : t.base_height = s.base_height)
    (hs : t.select_height = max s.select_height (o.select + 1)) (hr : t.range_height = s.range_height) :
    LowAt s o → LowAt t { o with select := o.select + 1 } := fun hl => by
  have k1 := hl.base
  have k2 := hl.select
  have k3 := hl.range
  exact ⟨show t.base_height ≤ o.base by omega, show t.select_height ≤ o.select + 1 by omega,
    show t.range_height ≤ max (o.range + 1) (o.select + 1) by omega⟩

theorem low_assign_cache_value (v : AssignedValue n) (offset g selector : ℕ) :
    Lows (assign_cache_value v offset g selector) := ⟨fun s a t e => by
  have hh : ∀ chip, (s.records.assign_cache_value s.select_offset v (encode_offset n g selector offset)).heightOf chip =
      max (s.records.heightOf chip) (if Chip.select = chip then s.select_offset + 1 else 0) := fun chip => by
    unfold Records.assign_cache_value
    simp only [raise_select]
    show Records.heightOf (applyAll (cacheWrites _ _ _) _) _ = _
    rw [applyAll_heightOf]
    cases chip <;> rfl
  have h1 := hh .base
  have h2 := hh .select
  have h3 := hh .range
  simp only [Records.heightOf, if_true, reduceCtorEq, if_false, Nat.max_zero] at h1 h2 h3
  unfold Verif.assign_cache_value at e
  dsimp only at e
  generalize s.records.assign_cache_value s.select_offset v (encode_offset n g selector offset) = u at *
  cases e
  exact ⟨fun chip => by cases chip <;> simp [Context.offs, Offsets.at], low_select (o := s.offs) h1 h2 h3⟩⟩

theorem low_assign_selected_value (v : AssignedValue n) (offset g : ℕ) (selector : AssignedValue n) :
    Lows (assign_selected_value v offset g selector) := ⟨fun s a t e => by
  have hh : ∀ chip, (s.records.assign_select_value s.select_offset v (encode_offset n g 0 offset) selector).2.heightOf chip =
      max (s.records.heightOf chip) (if Chip.select = chip then s.select_offset + 1 else 0) := fun chip => by
    unfold Records.assign_select_value
    simp only [raise_select]
    show Records.heightOf (applyAll (selectedWrites _ _ _ _) _) _ = _
    rw [applyAll_heightOf]
    cases chip <;> rfl
  have h1 := hh .base
  have h2 := hh .select
  have h3 := hh .range
  simp only [Records.heightOf, if_true, reduceCtorEq, if_false, Nat.max_zero] at h1 h2 h3
  unfold Verif.assign_selected_value at e
  cases e
  exact ⟨fun chip => by cases chip <;> simp [Context.offs, Offsets.at], low_select (o := s.offs) h1 h2 h3⟩⟩

theorem Built.lows {cc : Prop} {m : M n α} (h : Built cc m) : Lows m := by
  induction h with
  | pure a => exact ⟨fun s b t e => by cases e; exact ⟨Offsets.le_refl _, id⟩⟩
  | bind _ _ hm hk => exact .bind hm fun a _ => hk a
  | panic p => exact ⟨fun s b t e => by cases e⟩
  | one_line => exact low_one_line ..
  | one_line_with_last => exact low_one_line_with_last ..
  | assign_range => exact low_assign_range ..
  | assign_common => exact low_assign_common ..
  | assign_cache_value => exact low_assign_cache_value ..
  | assign_selected_value => exact low_assign_selected_value ..

/-! ## Clones -/

theorem low_merge {s t : Context n} {o : Offsets} (hs : LowAt s.records o) (ht : LowAt t.records o) :
    LowAt (s.merge t).records o := by
  refine ⟨max_le hs.base ht.base, max_le hs.select ht.select, max_le ?_ ht.range⟩
  exact hs.select.trans (le_max_right _ _)

theorem low_foldl_merge {o : Offsets} : ∀ (l : List (Context n)) (s : Context n), LowAt s.records o →
    (∀ t ∈ l, LowAt t.records o) → LowAt (l.foldl Context.merge s).records o
  | [], _, h, _ => h
  | t :: l, _, h, hl => low_foldl_merge l _ (low_merge h (hl t List.mem_cons_self))
      fun t ht => hl t (List.mem_cons_of_mem _ ht)

theorem scale_le (d : Offsets) (o : Offsets) {i j : ℕ} (h : i ≤ j) : (o.add (d.scale i)).le (o.add (d.scale j)) :=
  fun chip => by
    rw [Offsets.add_at, Offsets.add_at, Offsets.scale_at, Offsets.scale_at]
    exact Nat.add_le_add_left (Nat.mul_le_mul_left _ h) _

theorem low_run_clones {s : Context n} {diff : Offsets} {body : ℕ → M n (Except ε α)} (hb : ∀ i, Lows (body i))
    (hne : ∀ i, NeverErr (body i)) {w : ℕ} :
    ∀ (k i : ℕ) (inner inner' : RecordsInner n) (l : List (α × Context n)),
    run_clones s diff body inner (List.range' i k) = .ok (.ok l, inner') → i + k ≤ w →
    LowAt s.records (s.offs.add (diff.scale i)) → ∀ x ∈ l, LowAt x.2.records (s.offs.add (diff.scale w)) := by
  intro k
  induction k with
  | zero =>
    intro i inner inner' l h _ _ x hx
    cases h
    cases hx
  | succ k ih =>
    intro i inner inner' l h hw hl x hx
    rw [List.range'_succ] at h
    unfold run_clones at h
    dsimp only at h
    set start := (s.share inner).clone_with_offset (diff.scale i) with hstart
    have hso : start.offs = s.offs.add (diff.scale i) := rfl
    split at h
    · cases h
    · cases h
    · rename_i a t h1
      obtain ⟨a', h2, h3, h4⟩ := clone_body_ok (hne i) h1
      cases h2
      obtain ⟨g1, g2⟩ := (hb i).out start _ t h3
      have ht := g2 (by rw [hso]; exact ⟨hl.base, hl.select, hl.range⟩)
      have hto : t.offs = s.offs.add (diff.scale (i + 1)) := by
        apply Offsets.ext_at
        intro chip
        have e := congrArg (fun o => Offsets.at o chip) h4
        have := g1 chip
        simp only [Offsets.sub_at, hso, Offsets.add_at, Offsets.scale_at] at e this ⊢
        have e2 : diff.at chip * (i + 1) = diff.at chip * i + diff.at chip := by ring
        omega
      split at h
      · cases h
      · cases h
      · rename_i l inner2 h5
        cases h
        rcases List.mem_cons.1 hx with rfl | hx
        · rw [hto] at ht
          exact ht.mono (scale_le _ _ (by omega))
        · exact ih _ _ _ _ h5 (by omega) (hl.mono (scale_le _ _ (Nat.le_succ i))) x hx

theorem low_windows_parallel {windows : ℕ} {body : ℕ → M n (Except ε α)} (hw : 1 ≤ windows)
    (hb : ∀ i, Lows (body i)) (hne : ∀ i, NeverErr (body i)) : Lows (windows_parallel windows body) := ⟨by
  intro s r t h
  unfold windows_parallel at h
  obtain ⟨r1, s1, h1, h2⟩ := run_bind_ok.1 h
  obtain ⟨a, u, rfl, h3, rfl⟩ := predict_ok (hne 0) h1
  obtain ⟨g1, g2⟩ := (hb 0).out _ _ _ h3
  set diff := u.offs.sub s.offs with hdiff
  set s1 := (s.share u.records.inner).merge u with hs1
  dsimp only at h2
  obtain ⟨r2, s2, h4, h5⟩ := run_bind_ok.1 h2
  have hu1 : s.offs.add (diff.scale 1) = u.offs := by
    apply Offsets.ext_at
    intro chip
    have := g1 chip
    simp only [clone_zero_offs] at this
    simp only [hdiff, Offsets.sub_at, Offsets.add_at, Offsets.scale_at]
    omega
  have hso : s1.offs = s.offs := rfl
  unfold rest_windows at h4
  split at h4
  · cases h4
  · rename_i er inner h6
    cases h4
    cases h5
    exfalso
    clear h h1 h2
    have : ∀ (l : List ℕ) (inner inner' : RecordsInner n) (e : ε), run_clones s1 diff body inner l ≠ .ok (.error e, inner') := by
      intro l
      induction l with
      | nil => intro _ _ _ h; cases h
      | cons i l ih =>
        intro inner inner' e h
        unfold run_clones at h
        dsimp only at h
        split at h
        · cases h
        · rename_i h7
          obtain ⟨_, h8, -⟩ := clone_body_ok (hne i) h7
          cases h8
        · split at h
          · cases h
          · rename_i h9
            exact ih _ _ _ h9
          · cases h
    exact this _ _ _ _ h6
  · rename_i l inner h6
    cases h4
    cases h5
    obtain ⟨m1, m2, m3⟩ := foldl_merge (l.map Prod.snd) (s1.share inner)
    have hto : ((l.map Prod.snd).foldl Context.merge (s1.share inner) |>.apply_offset_diff
        (diff.scale windows)).offs = s.offs.add (diff.scale windows) := by
      show Offsets.add (Context.offs _) _ = _
      rw [m2]; rfl
    rw [hto]
    refine ⟨fun chip => by rw [Offsets.add_at]; exact Nat.le_add_right _ _, fun hl => ?_⟩
    have hsw : s.offs.le (s.offs.add (diff.scale windows)) := fun chip => by
      rw [Offsets.add_at]; exact Nat.le_add_right _ _
    have huw : u.offs.le (s.offs.add (diff.scale windows)) := by rw [← hu1]; exact scale_le _ _ hw
    have hlu : LowAt u.records u.offs := g2 (by
      rw [clone_zero_offs]
      exact ⟨hl.base, hl.select, hl.range⟩)
    have hl1 : LowAt s1.records u.offs := by
      have hsu : s.offs.le u.offs := by
        have := g1
        rwa [clone_zero_offs] at this
      exact low_merge (s := s.share u.records.inner) (by
        have := hl.mono hsu
        exact ⟨this.base, this.select, this.range⟩) hlu
    refine low_foldl_merge _ (s1.share inner) ?_ fun t ht => ?_
    · have := hl1.mono huw
      exact ⟨this.base, this.select, this.range⟩
    · obtain ⟨x, hx, rfl⟩ := List.mem_map.1 ht
      have := low_run_clones (w := windows) hb hne _ _ _ _ _ h6 (by omega) (by rw [hso, hu1]; exact hl1) x hx
      rwa [hso] at this⟩

theorem Built2.lows {cc : Prop} {m : M n α} (h : Built2 cc m) : Lows m := by
  induction h with
  | prog h => exact h.lows
  | bind _ _ hm hk => exact .bind hm hk
  | parallel windows body hb hne hw =>
    by_cases h0 : windows = 0
    · exact ⟨fun _ _ _ e => (windows_parallel_panics (hw h0) e).elim⟩
    · exact low_windows_parallel (Nat.one_le_iff_ne_zero.2 h0) (fun i => (hb i).lows) hne

end Verif
