import Verif.Spec.Layout
import Verif.Props.Guarded
import Verif.Props.FullProg
import Verif.Props.GeneralProg
import Verif.Proof.CellsProg

/-!
# C63: synthesis does not lose a constraint
-/

namespace Verif
variable {n : ℕ}

/-! ## What synthesis assigns -/

theorem copies_of_assigned {of : Chip → ChipLayout n} : ∀ {l l' : List (Cell × Cell)},
    _assign_permutation of l = .ok l' → l' = l
  | [], _, h => by cases h; rfl
  | q :: l, l', h => by
    unfold _assign_permutation at h
    cases h1 : lookup_cell (of q.1.region) q.1.col q.1.row with
    | error e => rw [h1] at h; cases h
    | ok _ =>
      cases h2 : lookup_cell (of q.2.region) q.2.col q.2.row with
      | error e => rw [h1, h2] at h; cases h
      | ok _ =>
        cases h3 : _assign_permutation of l with
        | error e => rw [h1, h2, h3] at h; cases h
        | ok _ => rw [h1, h2, h3] at h; cases h; rw [copies_of_assigned h3]

theorem fix_of_base {s : Records n} {max_rows : ℕ} (hrow : RowsBelow s) (hm : RowsFit s max_rows) {b : ChipLayout n}
    (h : _assign_to_base_chip s max_rows = .ok b) : b.fix = s.inner.fixOf .base := by
  unfold _assign_to_base_chip at h
  by_cases c1 : chunk_size s = 0
  · rw [if_pos c1] at h; cases h
  rw [if_neg c1] at h
  split at h
  · cases h
  · cases h
    funext r c
    show (if r < max_rows ∧ r < s.base_height then s.inner.base_fix_record r c else none) = s.inner.base_fix_record r c
    split
    · rfl
    · rename_i hn
      by_contra he
      exact hn ⟨hm .base r c (.inl (Ne.symm he)), hrow .base r c (.inl (Ne.symm he))⟩

theorem fix_of_range {s : Records n} {max_rows : ℕ} (hrow : RowsBelow s) (hm : RowsFit s max_rows) {b : ChipLayout n}
    (h : _assign_to_range_chip s max_rows = .ok b) : b.fix = s.inner.fixOf .range := by
  unfold _assign_to_range_chip at h
  by_cases c1 : chunk_size s = 0
  · rw [if_pos c1] at h; cases h
  rw [if_neg c1] at h
  split at h
  · cases h
  · cases h
    funext r c
    show (if r < max_rows ∧ r < s.range_height + 1 then s.inner.range_fix_record r c else none) =
      s.inner.range_fix_record r c
    split
    · rfl
    · rename_i hn
      by_contra he
      exact hn ⟨hm .range r c (.inl (Ne.symm he)), (hrow .range r c (.inl (Ne.symm he))).trans (Nat.lt_succ_self _)⟩

theorem fix_of_select {s : Records n} {max_rows : ℕ} (hrow : RowsBelow s) (hm : RowsFit s max_rows) {b : ChipLayout n}
    (h : _assign_to_select_chip s max_rows = .ok b) : b.fix = s.inner.fixOf .select := by
  unfold _assign_to_select_chip at h
  split at h
  · cases h
  · cases h
    funext r c
    show (if r < max_rows ∧ r < s.select_height + 1 then s.inner.select_fix_record r c else none) =
      s.inner.select_fix_record r c
    split
    · rfl
    · rename_i hn
      by_contra he
      exact hn ⟨hm .select r c (.inl (Ne.symm he)), (hrow .select r c (.inl (Ne.symm he))).trans (Nat.lt_succ_self _)⟩

/-- Whatever synthesis assigns, it assigns every recorded fixed cell and every recorded copy constraint, and no others. -/
theorem constraints_of_assign_all {s : Records n} {max_rows : ℕ} (hrow : RowsBelow s) (hm : RowsFit s max_rows)
    {L : Layout n} (h : assign_all s max_rows = .ok L) : L.fix = s.inner.fixOf ∧ L.copies = s.permutations := by
  unfold assign_all at h
  cases h1 : _assign_to_base_chip s max_rows with
  | error e => rw [h1] at h; cases h
  | ok b =>
    cases h2 : _assign_to_range_chip s max_rows with
    | error e => rw [h1, h2] at h; cases h
    | ok r =>
      cases h3 : _assign_to_select_chip s max_rows with
      | error e => rw [h1, h2, h3] at h; cases h
      | ok c =>
        rw [h1, h2, h3] at h
        simp only [bind, Except.bind] at h
        split at h
        · cases h
        · rename_i l hl
          cases h
          refine ⟨?_, copies_of_assigned hl⟩
          funext chip
          cases chip
          exacts [fix_of_base hrow hm h1, fix_of_range hrow hm h2, fix_of_select hrow hm h3]

theorem constraints_of_assign_all_without_select {s : Records n} {max_rows : ℕ} (hrow : RowsBelow s)
    (hm : RowsFit s max_rows) {L : Layout n} (h : assign_all_without_select s max_rows = .ok L) :
    L.fix = s.inner.fixOf ∧ L.copies = s.permutations := by
  unfold assign_all_without_select at h
  cases h1 : _assign_to_base_chip s max_rows with
  | error e => rw [h1] at h; cases h
  | ok b =>
    cases h2 : _assign_to_range_chip s max_rows with
    | error e => rw [h1, h2] at h; cases h
    | ok r =>
      rw [h1, h2] at h
      simp only [bind, Except.bind] at h
      by_cases h0 : s.select_height = 0
      · rw [if_neg (not_not_intro h0)] at h
        simp only [pure, Except.pure] at h
        split at h
        · cases h
        · rename_i l hl
          cases h
          refine ⟨?_, copies_of_assigned hl⟩
          funext chip
          cases chip
          · exact fix_of_base hrow hm h1
          · exact fix_of_range hrow hm h2
          · funext r c
            show none = _
            by_contra he
            have := hrow .select r c (.inl (Ne.symm he))
            rw [show s.heightOf .select = 0 from h0] at this
            exact absurd this (Nat.not_lt_zero _)
      · rw [if_pos h0] at h; cases h

theorem Layout.circuit_eq {L : Layout n} {t : Context n}
    (h : L.fix = t.records.inner.fixOf ∧ L.copies = t.records.permutations) (usable : ℕ) :
    L.circuit usable = t.circuit usable := by
  unfold Layout.circuit Context.circuit
  rw [h.1, h.2]
  rfl

theorem Layout.witness_eq {L : Layout n} {t : Context n} (h : L.adv = t.records.inner.advOf) :
    L.witness = t.honest := by
  funext ⟨chip, col, row⟩
  show (L.adv chip row col).getD 0 = _
  rw [h]
  cases chip <;> rfl

/-- What a run on a new context leaves below the offsets. -/
theorem rows_of_tidy {α : Type} {m : M n α} (hm : Growing m ∧ Raises m) {a : α} {t : Context n}
    (h : m (.new n) = .ok (a, t)) :
    (∀ chip r c, t.records.inner.fixOf chip r c ≠ none ∨ t.records.inner.advOf chip r c ≠ none → r < t.offs.at chip) ∧
      ∀ chip, t.offs.at chip ≤ t.records.heightOf chip := by
  obtain ⟨hg, hr⟩ := hm
  obtain ⟨f, -⟩ := hg _ _ _ fresh_new h
  have r := hr _ _ _ fresh_new h
  rw [fresh_iff'] at f
  refine ⟨fun chip r c hne => ?_, fun chip => ?_⟩
  · by_contra hlt
    obtain ⟨e1, e2⟩ := f chip r c (by omega)
    rcases hne with h | h
    · exact h e1
    · exact h e2
  · rcases r.top chip with e | e
    · exact e.le.trans ((show (Context.new n).offs.at chip ≤ (Context.new n).records.heightOf chip by
        cases chip <;> exact le_rfl).trans (r.height chip))
    · exact e

theorem circuit_of_synthesize {α : Type} {m : M n α} (hm : Growing m ∧ Raises m) {a : α} {t : Context n}
    (h : m (.new n) = .ok (a, t)) {max_rows : ℕ} (hr : ∀ chip, t.offs.at chip ≤ max_rows) {select : Bool} {L : Layout n}
    (hL : synthesize select t.records max_rows = .ok L) (usable : ℕ) : L.circuit usable = t.circuit usable := by
  obtain ⟨h1, h2⟩ := rows_of_tidy hm h
  have hrow : RowsBelow t.records := fun chip r c hc => lt_of_lt_of_le (h1 chip r c hc) (h2 chip)
  have hfit : RowsFit t.records max_rows := fun chip r c hc => lt_of_lt_of_le (h1 chip r c hc) (hr chip)
  refine Layout.circuit_eq ?_ usable
  cases select
  · exact constraints_of_assign_all_without_select hrow hfit hL
  · exact constraints_of_assign_all hrow hfit hL

/-! ## C63 -/

/-- **C63.** Whatever a client does, if synthesis goes through then the synthesized circuit is the recorded one: no
fixed cell and no copy constraint is lost, added or changed. (What can be lost are values of the witness only, see
`C36_violated_rows_lost`.) -/
theorem C63_constraints_kept (A : Api n) (w : Witness n) (calls : List (Call n)) (pre : Option ℕ) {τ : Store n}
    {t : Context n} (h : runCalls A w calls (.empty n pre) (.new n) = .ok (τ, t)) {max_rows : ℕ}
    (hm : ∀ chip, t.offs.at chip ≤ max_rows) {select : Bool} {L : Layout n}
    (hL : synthesize select t.records max_rows = .ok L) (usable : ℕ) : L.circuit usable = t.circuit usable :=
  circuit_of_synthesize (prog2_runCalls A w calls (.empty n pre)).tidy h hm hL usable

/-! ### Programs -/

theorem prog2_xexec (info : RangeInfo bnR) (order : ℕ) (i : XInstr) (s : XSt) : Prog2 (i.exec info order s) := by
  cases i with
  | tower i => exact .prog (.bind (prog_texec info order i _) fun _ => .pure _)
  | native i => exact .prog (.bind (prog_nexec i _) fun _ => .pure _)
  | encode i => exact .prog (.bind (prog_index _ _) fun _ => .bind (prog_ecc_encode info _) fun _ => .pure _)
  | msm ps ss A L =>
    exact .bind (.prog (prog_getM _ _)) fun _ _ => .bind (.prog (prog_getM _ _)) fun _ _ =>
      .bind (prog2_msm (nativeScalar_prog _) _ _ _ _ _ _ _) fun _ _ => .prog (.pure _)

theorem prog2_xexecAll (info : RangeInfo bnR) (order : ℕ) (prog : List XInstr) (s : XSt) :
    Prog2 (xexecAll info order prog s) := by
  induction prog generalizing s with
  | nil => exact .prog (.pure _)
  | cons i is ih => exact .bind (prog2_xexec info order i s) fun _ _ => ih _

theorem prog2_gexec (info sinfo : RangeInfo bnR) (order : ℕ) (i : GInstr) (s : GSt) :
    Prog2 (i.exec info sinfo order s) := by
  cases i with
  | tower i => exact .prog (.bind (prog_texec info order i _) fun _ => .pure _)
  | native i => exact .prog (.bind (prog_nexec i _) fun _ => .pure _)
  | scalar i => exact .prog (.bind (prog_iexec sinfo i _) fun _ => .pure _)
  | encode i => exact .prog (.bind (prog_index _ _) fun _ => .bind (prog_ecc_encode info _) fun _ => .pure _)
  | msm ps ss A L =>
    exact .bind (.prog (prog_getM _ _)) fun _ _ => .bind (.prog (prog_getM _ _)) fun _ _ =>
      .bind (prog2_msm (generalScalar_prog _) _ _ _ _ _ _ _) fun _ _ => .prog (.pure _)

theorem prog2_gexecAll (info sinfo : RangeInfo bnR) (order : ℕ) (prog : List GInstr) (s : GSt) :
    Prog2 (gexecAll info sinfo order prog s) := by
  induction prog generalizing s with
  | nil => exact .prog (.pure _)
  | cons i is ih => exact .bind (prog2_gexec info sinfo order i s) fun _ _ => ih _

/-- **C63** with **C58**: any assignment that satisfies the circuit that has been synthesized from a program over all chips
for bn256 stands for a run of the reference semantics, in particular if values of the honest witness were lost. -/
theorem C63_sound_bn256 {info : RangeInfo bnR} (E : Env (pairQ .bn256) info) (order : ℕ) (prog : List XInstr)
    (pre : Option ℕ) (hk : ∀ j k, XInstr.tower (.pt (.int (.smallMul j k))) ∈ prog → 1 ≤ k) (s : XSt) (t : Context bnR)
    (hrun : xexecAll info order prog (XSt.empty pre) (Context.new bnR) = .ok (s, t)) (max_rows : ℕ)
    (hm : ∀ chip, t.offs.at chip ≤ max_rows) (select : Bool) (L : Layout bnR)
    (hL : synthesize select t.records max_rows = .ok L) (usable : ℕ) (hf : t.Fits usable)
    (w : Advice bnR) (hw : (L.circuit usable).Sat w)
    (hbits : (∃ i ∈ prog, i.usesBits) → (L.circuit usable).BitRowsConsistent w)
    (hpre : (∃ i ∈ prog, i.isMsm) → pre = some 0 → (L.circuit usable).LookupsCached w ∧ (L.circuit usable).ZeroKeyUnique) :
    ∃ r, XSteps prog XRef.empty r ∧ RepXSt info w s r := by
  rw [circuit_of_synthesize (prog2_xexecAll info order prog _).tidy hrun hm hL usable] at hw hbits hpre
  exact C58_end_to_end E order prog pre hk s t hrun usable hf w hw hbits hpre

/-- **C63** with **C59**, for bls12_381. -/
theorem C63_sound_bls12_381 {info sinfo : RangeInfo bnR} (E : Env (pairQ .bls12_381) info) (F : Env blsR sinfo) (order : ℕ)
    (prog : List GInstr) (pre : Option ℕ)
    (hk : ∀ j k, GInstr.tower (.pt (.int (.smallMul j k))) ∈ prog ∨ GInstr.scalar (.smallMul j k) ∈ prog → 1 ≤ k) (s : GSt)
    (t : Context bnR) (hrun : gexecAll info sinfo order prog (GSt.empty pre) (Context.new bnR) = .ok (s, t)) (max_rows : ℕ)
    (hm : ∀ chip, t.offs.at chip ≤ max_rows) (select : Bool) (L : Layout bnR)
    (hL : synthesize select t.records max_rows = .ok L) (usable : ℕ) (hf : t.Fits usable)
    (w : Advice bnR) (hw : (L.circuit usable).Sat w)
    (hbits : (∃ i ∈ prog, i.usesBits) → (L.circuit usable).BitRowsConsistent w)
    (hpre : (∃ i ∈ prog, i.isMsm) → pre = some 0 → (L.circuit usable).LookupsCached w ∧ (L.circuit usable).ZeroKeyUnique) :
    ∃ r, GSteps prog GRef.empty r ∧ RepGSt info sinfo w s r := by
  rw [circuit_of_synthesize (prog2_gexecAll info sinfo order prog _).tidy hrun hm hL usable] at hw hbits hpre
  exact C59_end_to_end E F order prog pre hk s t hrun usable hf w hw hbits hpre

/-! ### The witness -/

/-- What is needed for synthesis to assign what a run on a new context has recorded. -/
theorem handed_of {α : Type} [HasCells n α] {m : M n α} (hm : Growing m ∧ Raises m)
    (hc : ∀ r, W r m In) {a : α} {t : Context n} (h : m (.new n) = .ok (a, t))
    (hsat : ∀ usable, t.Fits usable → (t.circuit usable).Sat t.honest) (hb : Balanced t) {max_rows : ℕ}
    (hr : ∀ chip, t.offs.at chip ≤ max_rows) {select : Bool} (hsel : select = false → t.records.select_height = 0) :
    Handed select t max_rows := by
  obtain ⟨h1, h2⟩ := rows_of_tidy hm h
  have hrow : RowsBelow t.records := fun chip r c hc => lt_of_lt_of_le (h1 chip r c hc) (h2 chip)
  have hfit : RowsFit t.records max_rows := fun chip r c hc => lt_of_lt_of_le (h1 chip r c hc) (hr chip)
  have hcop : CopiesReady t.records := ((hc _ _ _ _ fresh_new (.rfl _) h).2.1.copies
    fun p hp => absurd (show p ∈ [] from hp) List.not_mem_nil).ready
  have key : ∃ L, synthesize select t.records max_rows = .ok L ∧ L.Is t.records := by
    cases select
    · exact assign_all_without_select_ok hb.1 hrow hfit
        (fun r c hc => lt_of_lt_of_le (h1 .range r c (.inr hc)) hb.2) hcop (hsel rfl)
    · exact assign_all_ok hb.1 hrow hfit (fun r c hc => lt_of_lt_of_le (h1 .range r c (.inr hc)) hb.2) hcop
  obtain ⟨L, hL, e1, e2, e3⟩ := key
  have hw := Layout.witness_eq e1
  exact ⟨L, hL, hw, fun u => ⟨Layout.circuit_eq ⟨e2, e3⟩ u, fun hf => by
    rw [Layout.circuit_eq ⟨e2, e3⟩ u, hw]; exact hsat u hf⟩⟩

/-- **C63** with **C58**: a program over all chips for bn256 whose reference run succeeds is issued without a panic, and
what it has recorded is handed to the constraint system completely and satisfies the circuit, if the rows of the base and
the range chip are balanced (see `C36_exact_partial`), the arrays are large enough, and a select chip is there if it is
needed. -/
theorem C63_complete_bn256_partial {info : RangeInfo bnR} (E : Env (pairQ .bn256) info) (order : ℕ) (ho : order % 2 = 1)
    (prog : List XInstr) (pre : Option ℕ) (r : XRef × Option ℕ) (he : xevalAll prog (XRef.empty, pre) = some r) :
    ∃ s t, xexecAll info order prog (XSt.empty pre) (Context.new bnR) = .ok (s, t) ∧ HRepXSt info s r ∧
      (Balanced t → ∀ max_rows, (∀ chip, t.offs.at chip ≤ max_rows) → Handed true t max_rows ∧
        (t.records.select_height = 0 → Handed false t max_rows)) := by
  obtain ⟨s, t, hrun, hP, hsat⟩ := Accepted.of_C fun c h => C58_program_complete E order ho prog pre r he c h
  have hm := (prog2_xexecAll info order prog (XSt.empty pre)).tidy
  have hc : ∀ r, W r (xexecAll info order prog (XSt.empty pre)) In := fun r => cel_xexecAll info order prog (in_xEmpty pre)
  exact ⟨s, t, hrun, hP, fun hb mr hr => ⟨handed_of hm hc hrun hsat hb hr (fun h => by cases h),
    fun h0 => handed_of hm hc hrun hsat hb hr fun _ => h0⟩⟩

/-- **C63** with **C59**, for bls12_381. -/
theorem C63_complete_bls12_381_partial {info sinfo : RangeInfo bnR} (E : Env (pairQ .bls12_381) info) (F : Env blsR sinfo)
    (order : ℕ) (ho : order % 2 = 1) (prog : List GInstr) (pre : Option ℕ) (r : GRef × Option ℕ)
    (he : gevalAll prog (GRef.empty, pre) = some r) :
    ∃ s t, gexecAll info sinfo order prog (GSt.empty pre) (Context.new bnR) = .ok (s, t) ∧ HRepGSt info sinfo s r ∧
      (Balanced t → ∀ max_rows, (∀ chip, t.offs.at chip ≤ max_rows) → Handed true t max_rows ∧
        (t.records.select_height = 0 → Handed false t max_rows)) := by
  obtain ⟨s, t, hrun, hP, hsat⟩ := Accepted.of_C fun c h => C59_program_complete E F order ho prog pre r he c h
  have hm := (prog2_gexecAll info sinfo order prog (GSt.empty pre)).tidy
  have hc : ∀ r, W r (gexecAll info sinfo order prog (GSt.empty pre)) In :=
    fun r => cel_gexecAll info sinfo order prog (in_gEmpty pre)
  exact ⟨s, t, hrun, hP, fun hb mr hr => ⟨handed_of hm hc hrun hsat hb hr (fun h => by cases h),
    fun h0 => handed_of hm hc hrun hsat hb hr fun _ => h0⟩⟩

end Verif
