import Verif.Proof.Synthesis
import Verif.Props.Records
import Verif.Proof.CellsApi

/-!
# C36: synthesis assigns what has been recorded
-/

namespace Verif
variable {n : ℕ}

/-- **C36**, for records that satisfy what synthesis relies on: at least one row of the base chip, rows within the
size of the arrays, not too many rows of the range chip in comparison with the base chip (the rows are visited in
16 times the chunk size many chunks, where the chunk size is a sixteenth of the base height), copy constraints between
recorded cells only. Then synthesis does not panic and assigns exactly what is recorded. (Without the first and the third
condition it fails: `C36_violated_empty`, `C36_violated_rows_lost`, `C36_violated_panic`.) -/
theorem C36_assign_all_partial {s : Records n} {max_rows : ℕ} (hb : 1 ≤ s.base_height) (hrow : RowsBelow s)
    (hm : RowsFit s max_rows)
    (hr : ∀ r c, s.inner.range_adv_record r c ≠ none → r < 16 * ((s.base_height + 15) / 16) ^ 2)
    (hc : CopiesReady s) : ∃ L, assign_all s max_rows = .ok L ∧ L.Is s :=
  assign_all_ok hb hrow hm hr hc

theorem in_new_store (pre : Option ℕ) (r : RecordsInner n) : In r (Store.empty n pre) := by
  intro c hc
  simp [Store.empty, HasCells.cells] at hc

/-- Every copy constraint recorded by a client is between cells that exist, have a value and are marked as taking part in
copy constraints. -/
theorem C36_copies_ready (A : Api n) (w : Witness n) (calls : List (Call n)) (pre : Option ℕ) {τ : Store n}
    {t : Context n} (h : runCalls A w calls (.empty n pre) (.new n) = .ok (τ, t)) : CopiesReady t.records :=
  ((cel_runCalls A w calls (in_new_store pre _) _ _ _ fresh_new (.rfl _) h).2.1.copies
    fun p hp => absurd (show p ∈ [] from hp) List.not_mem_nil).ready

/-- **C36**, for everything a client can do: synthesis after any sequence of API calls does not panic and assigns exactly
what is recorded, if there is a row of the base chip, the arrays are large enough, and there are not too many rows of the
range chip in comparison with the base chip. -/
theorem C36_client_partial (A : Api n) (w : Witness n) (calls : List (Call n)) (pre : Option ℕ) {τ : Store n}
    {t : Context n} (h : runCalls A w calls (.empty n pre) (.new n) = .ok (τ, t)) {max_rows : ℕ}
    (hb : 1 ≤ t.records.base_height) (hm : ∀ chip, t.offs.at chip ≤ max_rows)
    (hr : t.range_offset ≤ 16 * ((t.records.base_height + 15) / 16) ^ 2) :
    ∃ L, assign_all t.records max_rows = .ok L ∧ L.Is t.records := by
  obtain ⟨h1, h2⟩ := C33_rows_below_height_new A w calls pre h
  refine C36_assign_all_partial hb (fun chip r c hc => lt_of_lt_of_le (h1 chip r c hc) (h2 chip))
    (fun chip r c hc => lt_of_lt_of_le (h1 chip r c hc) (hm chip)) (fun r c hc => ?_)
    (C36_copies_ready A w calls pre h)
  exact lt_of_lt_of_le (h1 .range r c (.inr hc)) hr

/-- **C36**, for a circuit without a select chip (`assign_all_with_optional_select_chip` with `None`): under the same
conditions synthesis after any sequence of API calls assigns exactly what is recorded if the select chip has not been
used, and does not go through otherwise. In no case are rows of the select chip dropped silently. -/
theorem C36_without_select_partial (A : Api n) (w : Witness n) (calls : List (Call n)) (pre : Option ℕ) {τ : Store n}
    {t : Context n} (h : runCalls A w calls (.empty n pre) (.new n) = .ok (τ, t)) {max_rows : ℕ}
    (hb : 1 ≤ t.records.base_height) (hm : ∀ chip, t.offs.at chip ≤ max_rows)
    (hr : t.range_offset ≤ 16 * ((t.records.base_height + 15) / 16) ^ 2) :
    (t.records.select_height = 0 ∧ ∃ L, assign_all_without_select t.records max_rows = .ok L ∧ L.Is t.records) ∨
    (t.records.select_height ≠ 0 ∧ ∀ L, assign_all_without_select t.records max_rows ≠ .ok L) := by
  obtain ⟨h1, h2⟩ := C33_rows_below_height_new A w calls pre h
  by_cases h0 : t.records.select_height = 0
  · exact .inl ⟨h0, assign_all_without_select_ok hb
      (fun chip r c hc => lt_of_lt_of_le (h1 chip r c hc) (h2 chip))
      (fun chip r c hc => lt_of_lt_of_le (h1 chip r c hc) (hm chip))
      (fun r c hc => lt_of_lt_of_le (h1 .range r c (.inr hc)) hr) (C36_copies_ready A w calls pre h) h0⟩
  · exact .inr ⟨h0, assign_all_without_select_refuses h0⟩

theorem assign_all_of_empty {s : Records n} (h : s.base_height = 0) (max_rows : ℕ) :
    assign_all s max_rows = .error .assertion := by
  have : chunk_size s = 0 := by unfold chunk_size; rw [h]
  unfold assign_all _assign_to_base_chip
  rw [if_pos this]
  rfl

namespace Example

/-- Not vacuous: records with rows of the base and the range chip and copy constraints between them. -/
theorem synthesis_run (A : Api n) (w : Witness n) : ∃ (τ : Store n) (t : Context n),
    runCalls A w [.assign 0, .assign_common 0, .add 0 1] (.empty n none) (.new n) = .ok (τ, t) ∧
    t.records.base_height = 2 ∧ t.records.permutations.length = 2 ∧ CopiesReady t.records := by
  refine ⟨_, _, rfl, rfl, rfl, ?_⟩
  intro p hp
  have hp : p ∈ [((⟨.base, 0, 0⟩, ⟨.base, 0, 1⟩) : Cell × Cell), (⟨.range, 0, 0⟩, ⟨.base, 1, 1⟩)] := hp
  simp only [List.mem_cons, List.not_mem_nil, or_false] at hp
  rcases hp with rfl | rfl
  · exact ⟨⟨by decide, Option.some_ne_none _, rfl⟩, ⟨by decide, Option.some_ne_none _, rfl⟩⟩
  · exact ⟨⟨by decide, Option.some_ne_none _, rfl⟩, ⟨by decide, Option.some_ne_none _, rfl⟩⟩

/-- Not vacuous: such a run of a client satisfies the conditions of `C36_client_partial`. -/
theorem synthesis_client (A : Api n) (w : Witness n) : ∃ (τ : Store n) (t : Context n) (L : Layout n),
    runCalls A w [.assign 0, .assign_common 0, .add 0 1] (.empty n none) (.new n) = .ok (τ, t) ∧
    assign_all t.records 4 = .ok L ∧ L.Is t.records ∧ L.copies.length = 2 := by
  have hr : ∃ (τ : Store n) (t : Context n),
      runCalls A w [.assign 0, .assign_common 0, .add 0 1] (.empty n none) (.new n) = .ok (τ, t) ∧
      t.records.base_height = 2 ∧ t.offs = ⟨2, 1, 0⟩ ∧ t.records.select_height = 0 ∧ t.range_offset = 1 ∧
      t.records.permutations.length = 2 :=
    ⟨_, _, rfl, rfl, rfl, rfl, rfl, rfl⟩
  obtain ⟨τ, t, h, k1, k2, k3, k4, k5⟩ := hr
  obtain ⟨L, e, hL⟩ := C36_client_partial A w _ none h (max_rows := 4) (by omega)
    (fun chip => by rw [k2]; cases chip <;> decide) (by rw [k1, k4]; decide)
  exact ⟨τ, t, L, h, e, hL, by rw [hL.2.2]; exact k5⟩

/-- Not vacuous: the same records, without a select chip. -/
theorem synthesis_without_select (A : Api n) (w : Witness n) : ∃ (τ : Store n) (t : Context n) (L : Layout n),
    runCalls A w [.assign 0, .assign_common 0, .add 0 1] (.empty n none) (.new n) = .ok (τ, t) ∧
    assign_all_without_select t.records 4 = .ok L ∧ L.Is t.records ∧ L.copies.length = 2 := by
  have hr : ∃ (τ : Store n) (t : Context n),
      runCalls A w [.assign 0, .assign_common 0, .add 0 1] (.empty n none) (.new n) = .ok (τ, t) ∧
      t.records.base_height = 2 ∧ t.offs = ⟨2, 1, 0⟩ ∧ t.records.select_height = 0 ∧ t.range_offset = 1 ∧
      t.records.permutations.length = 2 :=
    ⟨_, _, rfl, rfl, rfl, rfl, rfl, rfl⟩
  obtain ⟨τ, t, h, k1, k2, k3, k4, k5⟩ := hr
  rcases C36_without_select_partial A w _ none h (max_rows := 4) (by omega)
    (fun chip => by rw [k2]; cases chip <;> decide) (by rw [k1, k4]; decide) with ⟨-, L, e, hL⟩ | ⟨h0, -⟩
  · exact ⟨τ, t, L, h, e, hL, by rw [hL.2.2]; exact k5⟩
  · exact absurd k3 h0

/-- Not vacuous: records with a row of the select chip. -/
theorem synthesis_refused (A : Api n) (w : Witness n) : ∃ (τ : Store n) (t : Context n),
    runCalls A w [.assign 0, .assign_cache_value 0 0 0 0] (.empty n none) (.new n) = .ok (τ, t) ∧
    ∀ max_rows L, assign_all_without_select t.records max_rows ≠ .ok L := by
  have hr : ∃ (τ : Store n) (t : Context n),
      runCalls A w [.assign 0, .assign_cache_value 0 0 0 0] (.empty n none) (.new n) = .ok (τ, t) ∧
      t.records.select_height = 1 := ⟨_, _, rfl, rfl⟩
  obtain ⟨τ, t, h, k⟩ := hr
  exact ⟨τ, t, h, fun _ L => assign_all_without_select_refuses (by rw [k]; decide) L⟩

end Example

/-- **C36** fails: a client that only range-checks one value cannot synthesize, because the chunk size is zero. -/
theorem C36_violated_empty (A : Api n) (w : Witness n) (max_rows : ℕ) : ∃ (τ : Store n) (t : Context n),
    runCalls A w [.assign_common 0] (.empty n none) (.new n) = .ok (τ, t) ∧
    t.records.inner.range_adv_record 0 0 = some (w.nat 0 : ZMod n) ∧
    assign_all t.records max_rows = .error .assertion :=
  ⟨_, _, rfl, rfl, assign_all_of_empty rfl _⟩

theorem run_commons (A : Api n) (w : Witness n) (k : ℕ) : ∀ (σ : Store n) (s : Context n),
    ∃ (σ' : Store n) (t : Context n), runCalls A w (List.replicate k (.assign_common 0)) σ s = .ok (σ', t) ∧
    σ'.v = σ.v ++ (List.range k).map (fun i => ⟨⟨.range, 0, s.range_offset + i⟩, (w.nat 0 : ZMod n)⟩) ∧
    t.base_offset = s.base_offset ∧ t.range_offset = s.range_offset + k ∧
    t.records.base_height = s.records.base_height ∧
    t.records.inner.base_fix_record = s.records.inner.base_fix_record ∧
    t.records.inner.base_adv_record = s.records.inner.base_adv_record ∧
    t.records.permutations = s.records.permutations ∧ t.records.inner.permute_flag = s.records.inner.permute_flag ∧
    ∀ r, s.range_offset ≤ r → r < s.range_offset + k →
      t.records.inner.range_adv_record r 0 = some (w.nat 0 : ZMod n) := by
  induction k with
  | zero =>
    intro σ s
    exact ⟨σ, s, rfl, by simp, rfl, rfl, rfl, rfl, rfl, rfl, rfl, fun r h1 h2 => absurd h2 (by omega)⟩
  | succ k ih =>
    intro σ s
    obtain ⟨σ₁, s₁, e, h1, h2, h3, h4, h5, h6, h7, h8, h9⟩ : ∃ σ₁ s₁,
        runCall A w σ (.assign_common 0) s = .ok (σ₁, s₁) ∧
        σ₁.v = σ.v ++ [⟨⟨.range, 0, s.range_offset⟩, (w.nat 0 : ZMod n)⟩] ∧
        s₁.base_offset = s.base_offset ∧ s₁.range_offset = s.range_offset + 1 ∧
        s₁.records.base_height = s.records.base_height ∧
        s₁.records.inner.base_fix_record = s.records.inner.base_fix_record ∧
        s₁.records.inner.base_adv_record = s.records.inner.base_adv_record ∧
        s₁.records.permutations = s.records.permutations ∧ s₁.records.inner.permute_flag = s.records.inner.permute_flag ∧
        s₁.records.inner.range_adv_record s.range_offset 0 = some (w.nat 0 : ZMod n) := by
      refine ⟨_, _, rfl, rfl, rfl, rfl, ?_, ?_, ?_, ?_, ?_, ?_⟩
      · show (Records.ensure_range_record_size _ _).base_height = _
        unfold Records.ensure_range_record_size; split <;> rfl
      · show (Records.ensure_range_record_size _ _).inner.base_fix_record = _
        unfold Records.ensure_range_record_size; split <;> rfl
      · show (Records.ensure_range_record_size _ _).inner.base_adv_record = _
        unfold Records.ensure_range_record_size; split <;> rfl
      · show (Records.ensure_range_record_size _ _).permutations = _
        unfold Records.ensure_range_record_size; split <;> rfl
      · show (Records.ensure_range_record_size _ _).inner.permute_flag = _
        unfold Records.ensure_range_record_size; split <;> rfl
      · show setCell _ _ _ _ _ _ = _
        simp [setCell]
    obtain ⟨σ₂, t, f, k1, k2, k3, k4, k5, k6, k7, k8, k9⟩ := ih σ₁ s₁
    have hrun : runCalls A w (List.replicate (k + 1) (.assign_common 0)) σ s = .ok (σ₂, t) :=
      run_bind_ok.2 ⟨_, _, e, f⟩
    refine ⟨σ₂, t, hrun, ?_, k2.trans h2, by rw [k3, h3]; omega, k4.trans h4, k5.trans h5, k6.trans h6, k7.trans h7,
      k8.trans h8, ?_⟩
    · rw [k1, h1, h3, List.range_succ_eq_map, List.map_cons, List.map_map, List.append_assoc]
      congr 1
      simp only [List.singleton_append, Nat.add_zero, Function.comp_def]
      congr 1
      apply List.map_congr_left
      intro i _
      rw [show s.range_offset + 1 + i = s.range_offset + i.succ by omega]
    · intro r hr1 hr2
      rcases Nat.eq_or_lt_of_le hr1 with rfl | hlt
      · have hg := (prog2_runCalls A w (List.replicate k (.assign_common 0)) σ₁).tidy.1
        have hl : ∀ (k : ℕ) (σ : Store n) (u u' : Context n) (σ' : Store n),
            runCalls A w (List.replicate k (.assign_common 0)) σ u = .ok (σ', u') → ∀ r < u.range_offset,
            u'.records.inner.range_adv_record r 0 = u.records.inner.range_adv_record r 0 := by
          intro k
          induction k with
          | zero => intro σ u u' σ' e r _; cases e; rfl
          | succ k ih =>
            intro σ u u' σ' e r hr
            obtain ⟨σ₁, u₁, e1, e2⟩ := run_bind_ok.1 e
            have hu : u₁.range_offset = u.range_offset + 1 ∧
                u₁.records.inner.range_adv_record r 0 = u.records.inner.range_adv_record r 0 := by
              cases e1
              refine ⟨rfl, ?_⟩
              show setCell _ _ _ _ _ _ = _
              have : r ≠ u.range_offset := by omega
              simp only [setCell, this, false_and, if_false]
              show setCell (Records.ensure_range_record_size _ _).inner.range_adv_record _ _ _ _ _ = _
              simp only [setCell, this, false_and, if_false]
              unfold Records.ensure_range_record_size; split <;> rfl
            rw [ih _ _ _ _ e2 r (by omega), hu.2]
        rw [hl k σ₁ s₁ t σ₂ f _ (by omega)]
        exact h9
      · exact k9 r (by omega) (by omega)

theorem assign_all_no_copies {s : Records n} {max_rows : ℕ} (hb : 1 ≤ s.base_height)
    (hp : s.permutations = []) (hf : s.inner.permute_flag = fun _ => false) : ∃ L, assign_all s max_rows = .ok L ∧
      L.adv .range = fun row col => if visited s max_rows row then s.inner.range_adv_record row col else none := by
  have h1 : ¬ (List.range max_rows).any (fun row => s.base_height ≤ row && visited s max_rows row &&
      (List.range VAR_COLUMNS).any fun col =>
        (s.inner.base_adv_record row col).isSome && s.inner.permute_flag ⟨.base, col, row⟩) = true := by
    simp [hf]
  have h2 : ¬ (List.range max_rows).any (fun row => s.range_height ≤ row && visited s max_rows row &&
      (List.range 3).any fun col =>
        (s.inner.range_adv_record row col).isSome && s.inner.permute_flag ⟨.range, col, row⟩) = true := by
    simp [hf]
  have h3 : ¬ (s.select_height < max_rows && (List.range 2).any fun col =>
      (s.inner.select_adv_record s.select_height col).isSome &&
        s.inner.permute_flag ⟨.select, col, s.select_height⟩) = true := by
    simp [hf]
  unfold assign_all _assign_to_base_chip _assign_to_range_chip _assign_to_select_chip
  rw [if_neg (chunk_ne_zero hb), if_neg h1, if_neg (chunk_ne_zero hb), if_neg h2, if_neg h3, hp]
  refine ⟨_, rfl, rfl⟩

theorem lookup_of_assigned {of : Chip → ChipLayout n} : ∀ {l l' : List (Cell × Cell)},
    _assign_permutation of l = .ok l' → ∀ p ∈ l, lookup_cell (of p.1.region) p.1.col p.1.row = .ok ()
  | [], _, _, p, hp => by simp at hp
  | q :: l, l', h, p, hp => by
    unfold _assign_permutation at h
    cases h1 : lookup_cell (of q.1.region) q.1.col q.1.row with
    | error e => rw [h1] at h; cases h
    | ok _ =>
      cases h2 : lookup_cell (of q.2.region) q.2.col q.2.row with
      | error e => rw [h1, h2] at h; cases h
      | ok _ =>
        cases h3 : _assign_permutation of l with
        | error e => rw [h1, h2, h3] at h; cases h
        | ok _ =>
          rcases List.mem_cons.1 hp with rfl | hp
          · exact h1
          · exact lookup_of_assigned h3 p hp

theorem visited_of_assigned {s : Records n} {max_rows : ℕ} {L : Layout n} (h : assign_all s max_rows = .ok L) :
    ∀ p ∈ s.permutations, p.1.region = .range → visited s max_rows p.1.row = true := by
  intro p hp hreg
  unfold assign_all at h
  cases h1 : _assign_to_base_chip s max_rows with
  | error e => rw [h1] at h; cases h
  | ok b =>
    cases h2 : _assign_to_range_chip s max_rows with
    | error e => rw [h1, h2] at h; cases h
    | ok r =>
      cases h3 : _assign_to_select_chip s max_rows with
      | error e => rw [h1, h2, h3] at h; cases h
      | ok c =>
        rw [h1, h2, h3] at h
        simp only [bind, Except.bind] at h
        split at h
        · cases h
        · rename_i l hl
          have k := lookup_of_assigned hl p hp
          rw [hreg] at k
          dsimp only at k
          unfold lookup_cell at k
          split at k
          · cases k
          · split at k
            · rename_i hc
              unfold _assign_to_range_chip at h2
              by_cases c1 : chunk_size s = 0
              · rw [if_pos c1] at h2; cases h2
              rw [if_neg c1] at h2
              split at h2
              · cases h2
              · cases h2
                simp only [Bool.and_eq_true] at hc
                exact hc.1.1
            · cases k

/-- **C36** fails: with one row of the base chip and 17 rows of the range chip, which is what a client gets with `assign`
followed by 17 times `assign_common`, synthesis succeeds but leaves the last recorded row of the range chip
unassigned, whatever the size of the arrays. -/
theorem C36_violated_rows_lost (A : Api n) (w : Witness n) (max_rows : ℕ) :
    ∃ (τ : Store n) (t : Context n) (L : Layout n),
    runCalls A w (.assign 0 :: List.replicate 17 (.assign_common 0)) (.empty n none) (.new n) = .ok (τ, t) ∧
    t.records.inner.range_adv_record 16 0 = some (w.nat 0 : ZMod n) ∧ t.records.base_height = 1 ∧
    assign_all t.records max_rows = .ok L ∧ L.adv .range 16 0 = none := by
  obtain ⟨σ₁, s₁, e, h1, h2, h3, h4⟩ : ∃ σ₁ s₁, runCall A w (.empty n none) (.assign 0) (.new n) = .ok (σ₁, s₁) ∧
      s₁.range_offset = 0 ∧ s₁.records.base_height = 1 ∧ s₁.records.permutations = [] ∧
      s₁.records.inner.permute_flag = fun _ => false :=
    ⟨_, _, rfl, rfl, rfl, rfl, rfl⟩
  obtain ⟨τ, t, f, k1, k2, k3, k4, k5, k6, k7, k8, k9⟩ := run_commons A w 17 σ₁ s₁
  obtain ⟨L, e1, e2⟩ := assign_all_no_copies (s := t.records) (max_rows := max_rows) (by omega) (by rw [k7, h3])
    (by rw [k8, h4])
  refine ⟨τ, t, L, run_bind_ok.2 ⟨_, _, e, f⟩, k9 16 (by omega) (by omega), by omega, e1, ?_⟩
  rw [e2]
  refine if_neg ?_
  rw [visited_iff, k4, h2]
  omega

theorem run_last {pairs : List (ValueSchema n × ZMod n)} {last : ValueSchema n × ZMod n}
    {constant : Option (ZMod n)} {mul : List (ZMod n)} {next : Option (ZMod n)} {s : Context n} {r : Records n}
    (h : s.records.one_line_with_last s.base_offset pairs last constant mul next = .ok r) :
    one_line_with_last pairs last constant mul next s =
      .ok ((lineCells s.base_offset pairs, ⟨⟨.base, VAR_COLUMNS - 1, s.base_offset⟩, last.1.value⟩),
        { s with records := r, base_offset := s.base_offset + 1 }) := by
  unfold one_line_with_last
  rw [h]

theorem run_add_constant (a : AssignedValue n) (c : ZMod n) (t : Context n)
    (h1 : t.records.base_height = t.base_offset)
    (h2 : t.records.inner.base_fix_record t.base_offset 7 = none) : ∃ r u, add_constant a c t = .ok (r, u) ∧
      u.records.base_height = t.base_offset + 1 ∧
      u.records.permutations = t.records.permutations ++ [(a.cell, ⟨.base, 0, t.base_offset⟩)] := by
  obtain ⟨⟨⟨ba, bf, ra, rf, sa, sf, fl⟩, bh, rh, sh, pm⟩, bo, ro, so⟩ := t
  dsimp only at h1 h2
  subst h1
  have hrow : (Records.one_line ⟨⟨ba, bf, ra, rf, sa, sf, fl⟩, bh, rh, sh, pm⟩ bh [pairA a 1] (some c) [] none) =
      .ok ((Records.mul_cells (Records.line_cells ⟨⟨ba, bf, ra, rf, sa, sf, fl⟩, bh + 1, rh, sh, pm⟩ bh 0 [pairA a 1])
        bh 0 []).assign_fix_cell_in_base_chip bh 8 c) := by
    unfold Records.one_line
    dsimp only
    rw [if_neg (not_not.2 (by show (1 : ℕ) ≤ 5; omega)), if_neg (not_not.2 (by show (0 : ℕ) ≤ 2; omega)), if_pos (le_refl bh), if_pos]
    · rfl
    · show (setCell bf bh 0 (1 : ZMod n) bh 7).isNone = true
      simp [setCell, h2]
  have : sum_with_constant_in_one_line [(a, 1)] (some c)
      ⟨⟨⟨ba, bf, ra, rf, sa, sf, fl⟩, bh, rh, sh, pm⟩, bh, ro, so⟩ =
      .ok (⟨⟨.base, 4, bh⟩, c + (a.val * 1 + 0)⟩, ⟨((Records.mul_cells (Records.line_cells
        ⟨⟨ba, bf, ra, rf, sa, sf, fl⟩, bh + 1, rh, sh, pm⟩ bh 0 [pairA a 1]) bh 0 []).assign_fix_cell_in_base_chip
          bh 8 c).line_cell bh 4 (pairU (c + (a.val * 1 + 0)) (-1)).1 (-1), bh + 1, ro, so⟩) := by
    refine run_bind_ok.2 ⟨(), _, rfl, ?_⟩
    refine run_bind_ok.2 ⟨([⟨⟨.base, 0, bh⟩, a.val⟩], ⟨⟨.base, 4, bh⟩, c + (a.val * 1 + 0)⟩), _, ?_, rfl⟩
    have : Records.one_line_with_last ⟨⟨ba, bf, ra, rf, sa, sf, fl⟩, bh, rh, sh, pm⟩ bh [pairA a 1]
        (pairU (c + (a.val * 1 + 0)) (-1)) (some c) [] none = .ok (((Records.mul_cells (Records.line_cells
        ⟨⟨ba, bf, ra, rf, sa, sf, fl⟩, bh + 1, rh, sh, pm⟩ bh 0 [pairA a 1]) bh 0 []).assign_fix_cell_in_base_chip
          bh 8 c).line_cell bh 4 (pairU (c + (a.val * 1 + 0)) (-1)).1 (-1)) := by
      unfold Records.one_line_with_last
      rw [if_neg (not_not.2 (by show (1 : ℕ) ≤ 4; omega)), hrow]
      rfl
    exact run_last this
  unfold add_constant sum_with_constant
  rw [if_pos (by show (1 : ℕ) < 5; omega)]
  exact ⟨_, _, this, rfl, rfl⟩

/-- **C36** fails: if the value in that row is used, synthesis panics, because the copy constraint refers to a cell that
has not been assigned. -/
theorem C36_violated_panic (A : Api n) (w : Witness n) (max_rows : ℕ) : ∃ (τ : Store n) (t : Context n),
    runCalls A w (.assign 0 :: (List.replicate 17 (.assign_common 0) ++ [.add_constant 17 1])) (.empty n none) (.new n) =
      .ok (τ, t) ∧ ∀ L, assign_all t.records max_rows ≠ .ok L := by
  obtain ⟨σ₁, s₁, e, h0, h1, h2, h3, h4⟩ : ∃ σ₁ s₁,
      runCall A w (.empty n none) (.assign 0) (.new n) = .ok (σ₁, s₁) ∧ σ₁.v.length = 1 ∧
      s₁.range_offset = 0 ∧ s₁.records.base_height = 1 ∧ s₁.records.permutations = [] ∧ s₁.base_offset = 1 :=
    ⟨_, _, rfl, rfl, rfl, rfl, rfl, rfl⟩
  have h5 := ((prog2_runCall A w (.empty n none) (.assign 0)).tidy.1 _ _ _ fresh_new e).1
  obtain ⟨τ, t, f, k1, k2, k3, k4, k5, k6, k7, k8, k9⟩ := run_commons A w 17 σ₁ s₁
  have hfr : ∀ c, s₁.records.inner.base_fix_record 1 c = none := fun c =>
    ((fresh_iff' _).1 h5 .base 1 c (by show s₁.base_offset ≤ 1; omega)).1
  have hlast : τ.v[17]? = some ⟨⟨.range, 0, 16⟩, (w.nat 0 : ZMod n)⟩ := by
    rw [k1, List.getElem?_append_right (by omega), h0, h1]
    simp
  obtain ⟨r, u, g1, g2, g3⟩ := run_add_constant ⟨⟨.range, 0, 16⟩, (w.nat 0 : ZMod n)⟩ 1 t (by omega)
    (by rw [k5, k2, h4]; exact hfr 7)
  have hcat : ∀ (cs cs' : List (Call n)) (σ σ₁ σ₂ : Store n) (s s₁ s₂ : Context n),
      runCalls A w cs σ s = .ok (σ₁, s₁) → runCalls A w cs' σ₁ s₁ = .ok (σ₂, s₂) →
      runCalls A w (cs ++ cs') σ s = .ok (σ₂, s₂) := by
    intro cs
    induction cs with
    | nil => intro cs' σ σ₁ σ₂ s s₁ s₂ e1 e2; cases e1; exact e2
    | cons c cs ih =>
      intro cs' σ σ₁ σ₂ s s₁ s₂ e1 e2
      obtain ⟨a, v, e3, e4⟩ := run_bind_ok.1 e1
      exact run_bind_ok.2 ⟨a, v, e3, ih _ _ _ _ _ _ _ e4 e2⟩
  have hc : runCall A w τ (.add_constant 17 1) t = .ok (τ.pushV r, u) := by
    refine run_bind_ok.2 ⟨⟨⟨.range, 0, 16⟩, (w.nat 0 : ZMod n)⟩, t, ?_, run_bind_ok.2 ⟨r, u, g1, rfl⟩⟩
    unfold index
    rw [hlast]
    rfl
  refine ⟨τ.pushV r, u, run_bind_ok.2 ⟨_, _, e, hcat _ _ _ _ _ _ _ _ f (run_bind_ok.2 ⟨_, _, hc, rfl⟩)⟩, ?_⟩
  intro L hL
  have := visited_of_assigned hL (⟨.range, 0, 16⟩, ⟨.base, 0, t.base_offset⟩) (by rw [g3]; simp) rfl
  rw [visited_iff, g2, k2, h4] at this
  have h := this.2
  dsimp only at h
  omega

end Verif
