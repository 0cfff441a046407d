import Verif.Proof.Guarded
import Verif.Proof.ApiProg
import Verif.Props.Records
import Verif.Props.Synthesis

/-!
# C60, C61, C62: the self-checks of the records

`check_row_has_some` passes after every API history (C60); turning `SANITY_CHECK` on adds no panic and changes nothing
(C61); arrays that are too short make the operation panic, and only arrays that are too short do (C62).
-/

namespace Verif
variable {n : ℕ}

/-! ## C60 -/

/-- **C60.** Every row an API history claims, in any chip, has a fixed value and an advice value: no row of the circuit is
left without its gate. From any context in which nothing at or above an offset is written. -/
theorem C60_rows_filled (A : Api n) (w : Witness n) (calls : List (Call n)) {σ τ : Store n} {s t : Context n}
    (hs : s.Fresh) (h : runCalls A w calls σ s = .ok (τ, t)) :
    ∀ chip r, s.offs.at chip ≤ r → r < t.offs.at chip →
      (∃ c, c < chip.fixCols ∧ t.records.inner.fixOf chip r c ≠ none) ∧
      ∃ c, c < chip.width ∧ t.records.inner.advOf chip r c ≠ none := by
  obtain ⟨m', hg⟩ := (prog2_runCalls A w calls σ).guarding ⟨true, none⟩
  exact hg.main.2.1 s τ t hs h

/-- What `check_row_has_some` finds out. -/
theorem check_row_has_some_iff (t : Context n) : check_row_has_some t = .ok ((), t) ↔
    ∀ chip r, r < t.offs.at chip → ∃ c, c < chip.fixCols ∧ t.records.inner.fixOf chip r c ≠ none := by
  have hrows : ∀ (o k : ℕ) (f : ℕ → ℕ → Option (ZMod n)),
      ((List.range o).all fun i => (List.range k).any fun j => (f i j).isSome) = true ↔
        ∀ r, r < o → ∃ c, c < k ∧ f r c ≠ none := fun o k f => by
    simp [List.all_eq_true, List.any_eq_true, Option.isSome_iff_ne_none]
  have hsplit : ∀ {P : Chip → Prop}, (∀ c, P c) ↔ P .base ∧ P .range ∧ P .select :=
    fun {P} => ⟨fun h => ⟨h _, h _, h _⟩, fun h c => by cases c; exacts [h.1, h.2.1, h.2.2]⟩
  rw [hsplit]
  have hb := hrows t.base_offset 9 t.records.inner.base_fix_record
  have hr := hrows t.range_offset 2 t.records.inner.range_fix_record
  have hse := hrows t.select_offset 2 t.records.inner.select_fix_record
  refine Iff.trans ?_ (and_congr hb (and_congr hr hse))
  unfold check_row_has_some
  dsimp only
  by_cases h1 : ((List.range t.base_offset).all fun i => (List.range (VAR_COLUMNS + MUL_COLUMNS + 2)).any fun j =>
      (t.records.inner.base_fix_record i j).isSome) = true
  · by_cases h2 : ((List.range t.range_offset).all fun i => (List.range 2).any fun j =>
      (t.records.inner.range_fix_record i j).isSome) = true
    · by_cases h3 : ((List.range t.select_offset).all fun i => (List.range 2).any fun j =>
        (t.records.inner.select_fix_record i j).isSome) = true
      · rw [if_pos h1, if_pos h2, if_pos h3]
        exact ⟨fun _ => ⟨h1, h2, h3⟩, fun _ => rfl⟩
      · rw [if_pos h1, if_pos h2, if_neg h3]
        exact ⟨fun h => (nomatch h), fun h => absurd h.2.2 h3⟩
    · rw [if_pos h1, if_neg h2]
      exact ⟨fun h => (nomatch h), fun h => absurd h.2.1 h2⟩
  · rw [if_neg h1]
    exact ⟨fun h => (nomatch h), fun h => absurd h.1 h1⟩

/-- **C60.** `check_row_has_some` passes after every API history. -/
theorem C60_check_row_has_some (A : Api n) (w : Witness n) (calls : List (Call n)) (pre : Option ℕ) {τ : Store n}
    {t : Context n} (h : runCalls A w calls (.empty n pre) (.new n) = .ok (τ, t)) :
    check_row_has_some t = .ok ((), t) :=
  (check_row_has_some_iff t).2 fun chip r hr =>
    (C60_rows_filled A w calls fresh_new h chip r (by cases chip <;> exact Nat.zero_le r) hr).1

/-- `check_row_has_some` can fail: not after the primitive `one_line` with nothing in the line. -/
theorem C60_bare_line_fails : ∃ t : Context n, one_line [] none [] none (.new n) = .ok ([], t) ∧
    check_row_has_some t = .error .assertion := ⟨_, rfl, rfl⟩

namespace Example

/-- Not vacuous: the check looks at two rows of the base chip and one of the range chip. -/
theorem check_run (info : RangeInfo n) (w : Witness n) : ∃ τ t,
    runCalls ⟨info, info, 3, 7, 254, (1, 2)⟩ w [.assign 0, .assign_common 0, .mul 0 1] (.empty n none) (.new n)
      = .ok (τ, t) ∧ t.offs = ⟨2, 1, 0⟩ ∧ check_row_has_some t = .ok ((), t) :=
  have h : ∃ τ t, runCalls ⟨info, info, 3, 7, 254, (1, 2)⟩ w [.assign 0, .assign_common 0, .mul 0 1] (.empty n none)
      (.new n) = .ok (τ, t) ∧ t.offs = ⟨2, 1, 0⟩ := ⟨_, _, rfl, rfl⟩
  h.imp fun τ h => h.imp fun t h => ⟨h.1, h.2, C60_check_row_has_some _ _ _ none h.1⟩

end Example

/-! ## C61 -/

/-- **C61.** Turning `SANITY_CHECK` on changes nothing: every API history succeeds with the assertions exactly when it
succeeds without, with the same result and the same context. -/
theorem C61_sanity_check_silent (hn : 18 < n) (A : Api n) (w : Witness n) (calls : List (Call n)) (σ : Store n) :
    (∃ m', Guarding ⟨true, none⟩ (runCalls A w calls σ) m') ∧
    ∀ m', Guarding ⟨true, none⟩ (runCalls A w calls σ) m' → ∀ s : Context n, s.Fresh → ∀ τ t,
      m' s = .ok (τ, t) ↔ runCalls A w calls σ s = .ok (τ, t) :=
  ⟨(prog2_runCalls A w calls σ).guarding _, fun m' hg s hs τ t =>
    (hg.main.2.2 hn s hs ⟨fun k hk => (nomatch hk), fun k hk => (nomatch hk)⟩ τ t).trans
      ⟨fun h => h.1, fun h => ⟨h, fun k hk => (nomatch hk), fun k hk => (nomatch hk)⟩⟩⟩

/-- The assertions are not idle: writing a line over another one with a different value is caught by them, and only by
them. -/
theorem C61_sanity_check_catches (hn : 18 < n) : ∃ (s : Context n) (l : List (AssignedValue n)) (t : Context n),
    one_line [(.unassigned 5, 1)] none [] none s = .ok (l, t) ∧
    Guarded.one_line ⟨true, none⟩ [(.unassigned 5, 1)] none [] none s = .error .assertion ∧
    Guarded.one_line ⟨false, none⟩ [(.unassigned 5, 1)] none [] none s = .ok (l, t) := by
  refine ⟨{ Context.new n with records := (Context.new n).records.assign_adv_cell_in_base_chip 0 0 3 }, _, _, rfl, ?_, rfl⟩
  have h35 : (3 : ZMod n) ≠ 5 := by
    have : Fact (1 < n) := ⟨by omega⟩
    intro e
    have e' := congrArg ZMod.val e
    have h3 : ((3 : ℕ) : ZMod n).val = 3 := ZMod.val_cast_of_lt (by omega)
    have h5 : ((5 : ℕ) : ZMod n).val = 5 := ZMod.val_cast_of_lt (by omega)
    push_cast at h3 h5
    rw [h3, h5] at e'
    omega
  have hu : Guarded.unwritten (some (3 : ZMod n)) 5 = false := by simp [Guarded.unwritten, h35]
  simp [Guarded.one_line, Guarded.records_one_line, Guarded.line_cells, Guarded.line_cell,
    Guarded.assign_adv_cell_in_base_chip, Guarded.row_index, Guarded.check, Records.assign_adv_cell_in_base_chip,
    Context.new, VAR_COLUMNS, MUL_COLUMNS, hu, setCell, ValueSchema.cell, ValueSchema.value, bind, Except.bind, pure,
    Except.pure, throw, throwThe, MonadExceptOf.throw]

/-! ## C62 -/

/-- **C62.** Arrays of `k` rows (`HALO2ECC_S_MAX_ROWS`): an API history succeeds exactly when it does with unlimited
arrays and every chip uses at most `k` rows; the outcome is then the same. -/
theorem C62_max_rows (hn : 18 < n) (b : Bool) (k : ℕ) (A : Api n) (w : Witness n) (calls : List (Call n))
    (pre : Option ℕ) :
    (∃ m', Guarding ⟨b, some k⟩ (runCalls A w calls (.empty n pre)) m') ∧
    ∀ m', Guarding ⟨b, some k⟩ (runCalls A w calls (.empty n pre)) m' → ∀ τ t,
      m' (.new n) = .ok (τ, t) ↔
        runCalls A w calls (.empty n pre) (.new n) = .ok (τ, t) ∧ ∀ chip, t.offs.at chip ≤ k := by
  refine ⟨(prog2_runCalls A w calls _).guarding _, fun m' hg τ t => ?_⟩
  refine (hg.main.2.2 hn _ fresh_new ⟨fun k _ chip => ?_, fun k _ p hp => absurd hp List.not_mem_nil⟩ τ t).trans
    ⟨fun h => ⟨h.1, h.2.1 k rfl⟩, fun h => ⟨h.1, fun k' hk' => by cases hk'; exact h.2, fun k' hk' p hp => ?_⟩⟩
  · cases chip <;> exact Nat.zero_le k
  · cases hk'
    have hb := (C33_rows_below_height_new A w calls pre h.1).1
    have hc := C36_copies_ready A w calls pre h.1 p hp
    exact ⟨(hb _ _ _ (.inr hc.1.2.1)).trans_le (h.2 _), (hb _ _ _ (.inr hc.2.2.1)).trans_le (h.2 _)⟩

/-- The bound is exact, and running out of rows is a panic: one call that uses one row, with one row and with none. -/
theorem C62_exact (hn : 18 < n) (b : Bool) (info : RangeInfo n) (w : Witness n) (m' m'' : M n (Store n))
    (h1 : Guarding ⟨b, some 1⟩ (runCalls ⟨info, info, 3, 7, 254, (1, 2)⟩ w [.assign 0] (.empty n none)) m')
    (h0 : Guarding ⟨b, some 0⟩ (runCalls ⟨info, info, 3, 7, 254, (1, 2)⟩ w [.assign 0] (.empty n none)) m'') :
    (∃ τ t, m' (.new n) = .ok (τ, t) ∧ t.offs = ⟨1, 0, 0⟩) ∧ ∃ p, m'' (.new n) = .error p := by
  have h : ∃ τ t, runCalls ⟨info, info, 3, 7, 254, (1, 2)⟩ w [.assign 0] (.empty n none) (.new n) = .ok (τ, t) ∧
      t.offs = ⟨1, 0, 0⟩ := ⟨_, _, rfl, rfl⟩
  obtain ⟨τ, t, h, ho⟩ := h
  refine ⟨⟨τ, t, ((C62_max_rows hn b 1 _ w _ none).2 m' h1 τ t).2 ⟨h, fun chip => ?_⟩, ho⟩, ?_⟩
  · rw [ho]
    cases chip <;> decide
  · cases e : m'' (.new n) with
    | error p => exact ⟨p, rfl⟩
    | ok x =>
      obtain ⟨h2, h3⟩ := ((C62_max_rows hn b 0 _ w _ none).2 m'' h0 x.1 x.2).1 e
      cases h.symm.trans h2
      have h4 := h3 .base
      rw [ho] at h4
      exact absurd h4 (by decide)

/-! ## C36, exactly -/

theorem adv_of_assign_all {s : Records n} {max_rows : ℕ} {L : Layout n} (h : assign_all s max_rows = .ok L) :
    1 ≤ s.base_height ∧
      L.adv .range = fun row col => if visited s max_rows row then s.inner.range_adv_record row col else none := by
  have hb : s.base_height ≠ 0 := fun e => by rw [assign_all_of_empty e] at h; cases h
  refine ⟨by omega, ?_⟩
  unfold assign_all at h
  cases h1 : _assign_to_base_chip s max_rows with
  | error e => rw [h1] at h; cases h
  | ok b =>
    cases h2 : _assign_to_range_chip s max_rows with
    | error e => rw [h1, h2] at h; cases h
    | ok r =>
      cases h3 : _assign_to_select_chip s max_rows with
      | error e => rw [h1, h2, h3] at h; cases h
      | ok c =>
        rw [h1, h2, h3] at h
        simp only [bind, Except.bind] at h
        split at h
        · cases h
        · cases h
          unfold _assign_to_range_chip at h2
          by_cases c1 : chunk_size s = 0
          · rw [if_pos c1] at h2; cases h2
          rw [if_neg c1] at h2
          split at h2
          · cases h2
          · cases h2; rfl

/-- **C36**, exactly, for everything a client can do with arrays of `max_rows` rows: synthesis assigns what is recorded if
and only if there is a row of the base chip and the rows of the range chip are at most sixteen times the square of a
sixteenth of the height of the base chip, rounded up. (Partial: the second condition should not be there, see
`C36_violated_empty`, `C36_violated_rows_lost`.) -/
theorem C36_exact_partial (A : Api n) (w : Witness n) (calls : List (Call n)) (pre : Option ℕ) {τ : Store n}
    {t : Context n} (h : runCalls A w calls (.empty n pre) (.new n) = .ok (τ, t)) {max_rows : ℕ}
    (hm : ∀ chip, t.offs.at chip ≤ max_rows) :
    (∃ L, assign_all t.records max_rows = .ok L ∧ L.Is t.records) ↔
      1 ≤ t.records.base_height ∧ t.range_offset ≤ 16 * ((t.records.base_height + 15) / 16) ^ 2 := by
  refine ⟨fun ⟨L, e, hL⟩ => ?_, fun ⟨hb, hr⟩ => C36_client_partial A w calls pre h hb hm hr⟩
  obtain ⟨hb, ha⟩ := adv_of_assign_all e
  refine ⟨hb, Nat.le_of_not_lt fun hlt => ?_⟩
  obtain ⟨-, c, -, hc⟩ := C60_rows_filled A w calls fresh_new h .range (t.range_offset - 1) (Nat.zero_le _)
    (show _ < t.range_offset by omega)
  refine hc ?_
  rw [show t.records.inner.advOf = L.adv from hL.1.symm, ha]
  refine if_neg fun hv => ?_
  have := (visited_iff _).1 hv
  omega

/-- **C36** together with **C62**: the same for a run with arrays of `k` rows (`HALO2ECC_S_MAX_ROWS`), sanity checks on or
off, synthesized from those arrays. -/
theorem C36_exact_guarded_partial (hn : 18 < n) (b : Bool) (k : ℕ) (A : Api n) (w : Witness n) (calls : List (Call n))
    (pre : Option ℕ) {m' : M n (Store n)} (hg : Guarding ⟨b, some k⟩ (runCalls A w calls (.empty n pre)) m')
    {τ : Store n} {t : Context n} (h : m' (.new n) = .ok (τ, t)) :
    (∃ L, assign_all t.records k = .ok L ∧ L.Is t.records) ↔
      1 ≤ t.records.base_height ∧ t.range_offset ≤ 16 * ((t.records.base_height + 15) / 16) ^ 2 := by
  obtain ⟨h1, h2⟩ := ((C62_max_rows hn b k A w calls pre).2 m' hg τ t).1 h
  exact C36_exact_partial A w calls pre h1 h2

end Verif
