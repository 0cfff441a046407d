import Verif.Proof.ApiProg
import Verif.Proof.Interleave

/-!
# C33, C34, C35, C47: what the operations do to the records
-/

namespace Verif
variable {n : ℕ} {α ε : Type}

/-! ## C33 -/

/-- **C33.** Whatever calls are made on a context whose rows from the offsets on are unwritten: a fixed or advice cell
that changed was unwritten before and lies between the old and the new offset; the copy constraints recorded earlier are
still there, in place; offsets and heights only grow, and no cell is taken out of the copy constraints. -/
theorem C33_rows_written_once (A : Api n) (w : Witness n) (calls : List (Call n)) {σ τ : Store n} {s t : Context n}
    (hs : s.Fresh) (h : runCalls A w calls σ s = .ok (τ, t)) :
    (∀ chip r c, t.records.inner.fixOf chip r c ≠ s.records.inner.fixOf chip r c →
      s.records.inner.fixOf chip r c = none ∧ s.offs.at chip ≤ r ∧ r < t.offs.at chip) ∧
    (∀ chip r c, t.records.inner.advOf chip r c ≠ s.records.inner.advOf chip r c →
      s.records.inner.advOf chip r c = none ∧ s.offs.at chip ≤ r ∧ r < t.offs.at chip) ∧
    (∃ extra, t.records.permutations = s.records.permutations ++ extra) ∧
    (∀ chip, s.offs.at chip ≤ t.offs.at chip ∧ s.records.heightOf chip ≤ t.records.heightOf chip) ∧
    ∀ c, s.records.inner.permute_flag c = true → t.records.inner.permute_flag c = true := by
  obtain ⟨hg, hr⟩ := (prog2_runCalls A w calls σ).tidy
  obtain ⟨f, g⟩ := hg _ _ _ hs h
  have r := hr _ _ _ hs h
  obtain ⟨g1, g2, g3⟩ := (grows_iff _ _).1 g
  rw [fresh_iff'] at hs f
  have key : ∀ chip r, (s.offs.at chip ≤ r ∧ r < t.offs.at chip) ∨
      ∀ c, t.records.inner.fixOf chip r c = s.records.inner.fixOf chip r c ∧
        t.records.inner.advOf chip r c = s.records.inner.advOf chip r c := by
    intro chip r
    by_cases h1 : r < s.offs.at chip
    · exact .inr fun c => g2 chip r c h1
    by_cases h2 : r < t.offs.at chip
    · exact .inl ⟨by omega, h2⟩
    · refine .inr fun c => ?_
      obtain ⟨e1, e2⟩ := hs chip r c (by omega)
      obtain ⟨e3, e4⟩ := f chip r c (by omega)
      exact ⟨e3.trans e1.symm, e4.trans e2.symm⟩
  refine ⟨fun chip r c hne => ?_, fun chip r c hne => ?_, g3, fun chip => ⟨g1 chip, r.height chip⟩, r.flags⟩
  · rcases key chip r with h | h
    · exact ⟨(hs chip r c h.1).1, h⟩
    · exact absurd (h c).1 hne
  · rcases key chip r with h | h
    · exact ⟨(hs chip r c h.1).2, h⟩
    · exact absurd (h c).2 hne

/-- **C33.** Every recorded row lies below the offset, and the offset does not exceed the height, if that was so before;
in particular for every sequence of calls on a new context. -/
theorem C33_rows_below_height (A : Api n) (w : Witness n) (calls : List (Call n)) {σ τ : Store n} {s t : Context n}
    (hs : s.Fresh) (hh : ∀ chip, s.offs.at chip ≤ s.records.heightOf chip) (h : runCalls A w calls σ s = .ok (τ, t)) :
    (∀ chip r c, t.records.inner.fixOf chip r c ≠ none ∨ t.records.inner.advOf chip r c ≠ none →
      r < t.offs.at chip) ∧ ∀ chip, t.offs.at chip ≤ t.records.heightOf chip := by
  obtain ⟨hg, hr⟩ := (prog2_runCalls A w calls σ).tidy
  obtain ⟨f, -⟩ := hg _ _ _ hs h
  have r := hr _ _ _ hs h
  rw [fresh_iff'] at f
  refine ⟨fun chip r c hne => ?_, fun chip => ?_⟩
  · by_contra hlt
    obtain ⟨e1, e2⟩ := f chip r c (by omega)
    rcases hne with h | h
    · exact h e1
    · exact h e2
  · rcases r.top chip with e | e
    · exact (e.le.trans (hh chip)).trans (r.height chip)
    · exact e

theorem fresh_new : (Context.new n).Fresh := (fresh_iff' _).2 fun chip r c _ => by cases chip <;> exact ⟨rfl, rfl⟩

/-- **C33** for the contexts a client can get. -/
theorem C33_rows_below_height_new (A : Api n) (w : Witness n) (calls : List (Call n)) (pre : Option ℕ) {τ : Store n}
    {t : Context n} (h : runCalls A w calls (.empty n pre) (.new n) = .ok (τ, t)) :
    (∀ chip r c, t.records.inner.fixOf chip r c ≠ none ∨ t.records.inner.advOf chip r c ≠ none →
      r < t.offs.at chip) ∧ ∀ chip, t.offs.at chip ≤ t.records.heightOf chip :=
  C33_rows_below_height A w calls fresh_new (fun chip => by cases chip <;> exact le_rfl) h

namespace Example

/-- Not vacuous: a run that uses rows of both chips, from a context that already has rows. -/
theorem records_run (info : RangeInfo n) (w : Witness n) : ∃ τ s τ' t,
    runCalls ⟨info, info, 3, 7, 254, (1, 2)⟩ w [.assign 0, .assign_common 0] (.empty n none) (.new n) = .ok (τ, s) ∧
    runCalls ⟨info, info, 3, 7, 254, (1, 2)⟩ w [.mul 0 1, .assign_common 1] τ s = .ok (τ', t) ∧
    s.offs = ⟨1, 1, 0⟩ ∧ t.offs = ⟨2, 2, 0⟩ ∧ s.records.permutations.length = 0 ∧ t.records.permutations.length = 2 ∧
    s.records.inner.fixOf .base 1 5 = none ∧ t.records.inner.fixOf .base 1 5 = some 1 :=
  ⟨_, _, _, _, rfl, rfl, rfl, rfl, rfl, rfl, rfl, rfl⟩

end Example

/-! ## C34 -/

/-- **C34.** Work on the windows, on clones with predicted offsets, merged, against the same work done one window after
another on one context: the same results, the same shared arrays, copy constraints, offsets, and heights of the base
and the select chip. (The height of the range chip is computed differently, `C34_violated_range_height`; it is not
below the range offset unless it was before.) -/
theorem C34_parallel_eq_sequential_partial {windows : ℕ} {body : ℕ → M n (Except ε α)} (hw : 1 ≤ windows)
    (hb : ∀ i, Prog (body i)) (hne : ∀ i, NeverErr (body i)) {s t : Context n} {r : Except ε (List α)}
    (hs : s.Fresh) (h : windows_parallel windows body s = .ok (r, t)) :
    ∃ t', sequential body (List.range windows) s = .ok (r, t') ∧ t'.records.inner = t.records.inner ∧
      t'.records.permutations = t.records.permutations ∧ t'.offs = t.offs ∧
      t'.records.base_height = t.records.base_height ∧ t'.records.select_height = t.records.select_height ∧
      (t.offs.range = s.offs.range ∨ t.offs.range ≤ t.records.range_height) := by
  obtain ⟨O, as, ws, h1, h2, rfl, h4, h5, h6, h7, h8⟩ := windows_parallel_works hw (fun i => (hb i).logged) hne hs h
  have e := h5.sequential s hs h1.symm
  rw [h4, ← List.range_eq_range', Nat.zero_add] at e
  refine ⟨_, e, (applyAll_inner _ _).trans h6.symm, (applyAll_perms _ _).trans h7.symm, h2,
    (applyAll_heightOf _ _ .base).trans (h8 .base (by simp)).symm,
    (applyAll_heightOf _ _ .select).trans (h8 .select (by simp)).symm,
    windows_parallel_raised hw (fun i => (hb i).growing) (fun i => (hb i).raises) hne _ _ _ hs h |>.top .range⟩

/-- **C34.** The order of the individual writes does not matter. The work on each window performs a fixed sequence of
writes (whatever else is in the arrays, as long as its own rows are unwritten), on rows of its own, and every
interleaving of these sequences leaves the shared arrays in the same state. -/
theorem C34_every_schedule {windows : ℕ} {body : ℕ → M n (Except ε α)} (hw : 1 ≤ windows)
    (hb : ∀ i, Prog (body i)) (hne : ∀ i, NeverErr (body i)) {s t : Context n} {r : Except ε (List α)}
    (hs : s.Fresh) (h : windows_parallel windows body s = .ok (r, t)) :
    ∃ (O : ℕ → Offsets) (as : List α) (logs : List (List (Write n))), r = .ok as ∧ as.length = windows ∧
      logs.length = windows ∧ O 0 = s.offs ∧ O windows = t.offs ∧
      (∀ i a l, as[i]? = some a → logs[i]? = some l → Performs (body i) (O i) (.ok a) l (O (i + 1)) ∧
        (∀ chip, (O i).at chip ≤ (O (i + 1)).at chip) ∧
        ∀ x ∈ l, ∀ chip row, x.target = some (chip, row) → (O i).at chip ≤ row ∧ row < (O (i + 1)).at chip) ∧
      ∀ zs, Interleaving logs zs → zs.foldl Write.applyInner s.records.inner = t.records.inner := by
  obtain ⟨O, as, ws, h1, h2, h3, h4, h5, h6, h7, h8⟩ := windows_parallel_works hw (fun i => (hb i).logged) hne hs h
  refine ⟨O, as, ws, h3, h4, h5.length.symm.trans h4, h1, h2, fun i a l ha hl => ?_, fun zs hz => ?_⟩
  · obtain ⟨k1, k2⟩ := h5.index i a l ha hl
    rw [Nat.zero_add] at k1 k2
    exact ⟨k2, k1.le, k1.within⟩
  · rw [h5.interleave hz, h6]

/-- **C34, C35.** The height of the range chip is not always the one of sequential execution: with a select chip in use it
can come out larger. -/
theorem C34_violated_range_height : ∃ (body : ℕ → M n (Except UnsafeError Unit)) (s t t' : Context n)
    (r : Except UnsafeError (List Unit)), s.Fresh ∧ (∀ i, Prog (body i)) ∧ (∀ i, NeverErr (body i)) ∧
    windows_parallel 2 body s = .ok (r, t) ∧ sequential body (List.range 2) s = .ok (r, t') ∧
    t'.records.range_height = 0 ∧ t.records.range_height = 1 := by
  refine ⟨fun i => do assign_cache_value ⟨⟨.base, 0, 0⟩, 0⟩ 0 0 i; pure (.ok ()), .new n, _, _, _, fresh_new,
    fun i => .bind (.assign_cache_value trivial ..) fun _ => .pure _, fun i s r t e => ?_, rfl, rfl, rfl, rfl⟩
  obtain ⟨a, u, h1, h2⟩ := run_bind_ok.1 e
  cases h2
  exact ⟨_, rfl⟩

/-- **C34** for the windows of a multi-scalar multiplication, without and with the select chip. (Partial only as to the
height of the range chip.) -/
theorem C34_msm_windows_partial (info : RangeInfo n) (cs : List (List (AssignedNonZeroPoint n)))
    (pick : ℕ → List (AssignedCondition n) → M n (AssignedNonZeroPoint n))
    (hp : pick = pick_bisec info cs ∨ ∃ pre, pick = pick_select info pre cs) (windows : ℕ) (hw : 1 ≤ windows)
    (groups : List (List (List (List (AssignedCondition n))))) (acc : AssignedNonZeroPoint n) (s t : Context n)
    (r : Except UnsafeError (List (AssignedNonZeroPoint n))) (hs : s.Fresh)
    (h : windows_parallel windows (fun wi => window_acc info pick wi 0 groups acc) s = .ok (r, t)) :
    (∃ t', sequential (fun wi => window_acc info pick wi 0 groups acc) (List.range windows) s = .ok (r, t') ∧
      t'.records.inner = t.records.inner ∧ t'.records.permutations = t.records.permutations ∧ t'.offs = t.offs ∧
      t'.records.base_height = t.records.base_height ∧ t'.records.select_height = t.records.select_height ∧
      (t.offs.range = s.offs.range ∨ t.offs.range ≤ t.records.range_height)) ∧
    ∃ logs : List (List (Write n)), logs.length = windows ∧
      ∀ zs, Interleaving logs zs → zs.foldl Write.applyInner s.records.inner = t.records.inner := by
  have hb : ∀ i, Prog (window_acc info pick i 0 groups acc) := fun i => prog_window_acc (fun g l => by
    rcases hp with rfl | ⟨pre, rfl⟩
    · exact prog_pick_bisec _ _ _
    · exact prog_pick_select _ _ _ _) i _ _ _
  have hne : ∀ i, NeverErr (window_acc info pick i 0 groups acc) := fun i => neverErr_window_acc i _ _ _
  obtain ⟨-, -, logs, -, -, h1, -, -, -, h2⟩ := C34_every_schedule hw hb hne hs h
  exact ⟨C34_parallel_eq_sequential_partial hw hb hne hs h, logs, h1, h2⟩

namespace Example

/-- Not vacuous: two windows that write rows of the base and the range chip. -/
theorem windows_run : ∃ (r : Except UnsafeError (List (AssignedValue n))) (t : Context n),
    windows_parallel 2 (fun i => do
      let x ← assign_common i
      let y ← add_constant x 1
      pure (.ok y)) (.new n) = .ok (r, t) ∧ t.offs = ⟨2, 2, 0⟩ ∧ t.records.permutations.length = 2 :=
  ⟨_, _, rfl, rfl, rfl⟩

end Example

/-! ## C35 -/

/-- **C35** fails for arbitrary contexts: merging can lower the height of the range chip below rows that are recorded.
`s` is what a client gets with two range-checked values, the other one is a new context. -/
theorem C35_violated (A : Api n) (w : Witness n) : ∃ (s : Context n) (τ : Store n),
    runCalls A w [.assign_common 0, .assign_common 0] (.empty n none) (.new n) = .ok (τ, s) ∧
    s.records.inner.range_fix_record 1 0 = some 1 ∧ s.records.range_height = 3 ∧
    (s.merge (.new n)).records.range_height = 0 :=
  ⟨_, _, rfl, rfl, rfl, rfl⟩

/-- **C35** as the library uses it: what is merged into a context is a clone of it on which operations have been
performed. Then every height is at least as large as in both. (For a context that is not such a clone, see
`C35_violated`.) -/
theorem C35_merge_of_clone_partial {m : M n α} (hm : Prog2 m) (s t : Context n) (d : Offsets) {a : α}
    (hs : (s.clone_with_offset d).Fresh) (h : m (s.clone_with_offset d) = .ok (a, t)) (chip : Chip) :
    s.records.heightOf chip ≤ ((s.share t.records.inner).merge t).records.heightOf chip ∧
    t.records.heightOf chip ≤ ((s.share t.records.inner).merge t).records.heightOf chip := by
  have r := hm.tidy.2 _ _ _ hs h
  exact ⟨(r.height chip).trans (merge_height _ _ chip), merge_height _ _ chip⟩

/-- **C35** for all clones of the work on the windows, merged one after another: no row recorded by any of them, and none
recorded before, is above the heights. -/
theorem C35_windows_partial {windows : ℕ} {body : ℕ → M n (Except ε α)} (hw : 1 ≤ windows) (hb : ∀ i, Prog (body i))
    (hne : ∀ i, NeverErr (body i)) {s t : Context n} {r : Except ε (List α)} (hs : s.Fresh)
    (hh : ∀ chip, s.offs.at chip ≤ s.records.heightOf chip) (h : windows_parallel windows body s = .ok (r, t)) :
    (∀ chip row c, t.records.inner.fixOf chip row c ≠ none ∨ t.records.inner.advOf chip row c ≠ none →
      row < t.records.heightOf chip) ∧ ∀ chip, s.records.heightOf chip ≤ t.records.heightOf chip := by
  obtain ⟨l, -, -, f, -, -⟩ := windows_parallel_ok hw (fun i => (hb i).growing) hne hs h
  have k := windows_parallel_raised hw (fun i => (hb i).growing) (fun i => (hb i).raises) hne _ _ _ hs h
  rw [fresh_iff'] at f
  refine ⟨fun chip row c hne => ?_, k.height⟩
  have h1 : row < t.offs.at chip := by
    by_contra hlt
    obtain ⟨e1, e2⟩ := f chip row c (by omega)
    rcases hne with h | h
    · exact h e1
    · exact h e2
  have h2 := hh chip
  have h3 := k.height chip
  rcases k.top chip with e | e <;> omega

/-! ## C47 -/

/-- **C47** fails: after `assign_constant` on a clone of a new context, the original contains the row written through the
clone, and the next `assign` on the original, which otherwise succeeds, panics. -/
theorem C47_violated (v x : ZMod n) : ∃ (a : AssignedValue n) (s t : Context n) (b : AssignedValue n) (t' : Context n),
    onClone (assign_constant v) (.new n) = .ok (a, s, t) ∧
    (Context.new n).records.inner.base_fix_record 0 8 = none ∧ s.records.inner.base_fix_record 0 8 = some v ∧
    assign x (.new n) = .ok (b, t') ∧ assign x s = .error .assertion :=
  ⟨_, _, _, _, _, rfl, rfl, rfl, rfl, rfl⟩

/-- **C47**, the part that holds: whatever is done through the clone, the original keeps its offsets, heights and copy
constraints, and its rows below the offsets. (Rows from the offsets on are shared, `C47_violated`.) -/
theorem C47_clone_partial (A : Api n) (w : Witness n) (calls : List (Call n)) {σ τ : Store n} {s s' t : Context n}
    (hs : s.Fresh) (h : onClone (runCalls A w calls σ) s = .ok (τ, s', t)) :
    s'.offs = s.offs ∧ s'.records.permutations = s.records.permutations ∧
    (∀ chip, s'.records.heightOf chip = s.records.heightOf chip) ∧
    ∀ chip r c, r < s.offs.at chip → s'.records.inner.fixOf chip r c = s.records.inner.fixOf chip r c ∧
      s'.records.inner.advOf chip r c = s.records.inner.advOf chip r c := by
  unfold onClone at h
  split at h
  · cases h
  · rename_i a u e
    cases h
    obtain ⟨-, g⟩ := (prog2_runCalls A w calls σ).tidy.1 _ _ _ hs e
    obtain ⟨-, g2, -⟩ := (grows_iff _ _).1 g
    exact ⟨rfl, rfl, fun chip => by cases chip <;> rfl, g2⟩

end Verif
