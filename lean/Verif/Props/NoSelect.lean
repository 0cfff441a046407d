import Verif.Proof.NoSelectApi
import Verif.Props.Heights

/-!
# C71: circuits without a select chip

A curve context can be made without a select chip (`NativeScalarEccContext::new_without_select_chip`), and a circuit can be
configured without it; `assign_all_with_optional_select_chip` then panics if rows of the select chip are recorded.
-/

namespace Verif
variable {n : ℕ}

/-- **C71**, the rows: a client's run records rows of the select chip if and only if one of the calls caches or selects a
value or a point, or is a multi-scalar multiplication on a context with a select chip. -/
theorem C71_select_rows (A : Api n) (w : Witness n) (calls : List (Call n)) (pre : Option ℕ) {τ : Store n} {t : Context n}
    (h : runCalls A w calls (.empty n pre) (.new n) = .ok (τ, t)) :
    t.records.select_height = 0 ↔ ∀ c ∈ calls, c.UsesSelect pre.isSome = false := by
  rw [(C65_heights A w calls pre h).2.1]
  exact select_runCalls A w calls (.empty n pre) τ (.new n) t fresh_new h

/-- **C71**, the context: without a select chip, the calls that ask the curve context for it panic. -/
theorem C71_unavailable (A : Api n) (w : Witness n) (calls : List (Call n)) (hc : ∃ c ∈ calls, c.AsksSelectChip = true)
    (s : Context n) (r : Store n × Context n) : runCalls A w calls (.empty n none) s ≠ .ok r := by
  have key : ∀ (cs : List (Call n)) (S : Store n) (s : Context n) (r : Store n × Context n), S.msm_prefix = none →
      (∃ c ∈ cs, c.AsksSelectChip = true) → runCalls A w cs S s ≠ .ok r := by
    intro cs
    induction cs with
    | nil => rintro S s r _ ⟨c, hc, -⟩; exact absurd hc List.not_mem_nil
    | cons c cs ih =>
      rintro S s r hS ⟨c', hc', hx⟩ e
      obtain ⟨S1, u, e1, e2⟩ := run_bind_ok.1 e
      rcases List.mem_cons.1 hc' with rfl | hc'
      · have hp : ∀ {β : Type} (k : M n β), (do rassert S.msm_prefix.isSome; k) s = .error .assertion := fun k => by
          rw [hS]; rfl
        cases c'
        case assign_cache_integer => exact absurd ((hp _).symm.trans e1) (nomatch ·)
        case assign_selected_integer => exact absurd ((hp _).symm.trans e1) (nomatch ·)
        case msm_with_select_native =>
          obtain ⟨_, _, _, e1⟩ := run_bind_ok.1 e1
          obtain ⟨_, _, _, e1⟩ := run_bind_ok.1 e1
          rw [hS] at e1
          exact nomatch e1
        case msm_with_select_general =>
          obtain ⟨_, _, _, e1⟩ := run_bind_ok.1 e1
          obtain ⟨_, _, _, e1⟩ := run_bind_ok.1 e1
          rw [hS] at e1
          exact nomatch e1
        case assign_cache_point => exact absurd ((hp _).symm.trans e1) (nomatch ·)
        case assign_selected_point => exact absurd ((hp _).symm.trans e1) (nomatch ·)
        case assign_cache_point_non_zero => exact absurd ((hp _).symm.trans e1) (nomatch ·)
        case assign_selected_point_non_zero => exact absurd ((hp _).symm.trans e1) (nomatch ·)
        all_goals cases hx
      · refine ih S1 u r ?_ ⟨c', hc', hx⟩ e2
        have := prefix_isSome e1
        rw [hS] at this
        exact Option.isNone_iff_eq_none.1 (by rw [← Option.not_isSome, this]; rfl)
  exact key calls _ s r rfl hc

theorem adv_of_assign_all_without_select {s : Records n} {max_rows : ℕ} {L : Layout n}
    (h : assign_all_without_select s max_rows = .ok L) :
    1 ≤ s.base_height ∧
      L.adv .range = fun row col => if visited s max_rows row then s.inner.range_adv_record row col else none := by
  unfold assign_all_without_select at h
  cases h1 : _assign_to_base_chip s max_rows with
  | error e => rw [h1] at h; cases h
  | ok b =>
    cases h2 : _assign_to_range_chip s max_rows with
    | error e => rw [h1, h2] at h; cases h
    | ok r =>
      rw [h1, h2] at h
      simp only [bind, Except.bind] at h
      split at h
      · cases h
      · unfold _assign_to_range_chip at h2
        by_cases c1 : chunk_size s = 0
        · rw [if_pos c1] at h2; cases h2
        refine ⟨?_, ?_⟩
        · by_contra hb
          exact c1 (by unfold chunk_size; rw [show s.base_height = 0 by omega])
        rw [if_neg c1] at h2
        split at h2
        · cases h2
        · cases h2
          split at h
          · cases h
          · cases h; rfl

/-- **C71**, synthesis without a select chip: after a client's run it goes through and assigns exactly what is recorded if
and only if no call has used the select chip, there is a row of the base chip, and there are not too many rows of the range
chip in comparison with the base chip. (The last two conditions should not be there: `C36_violated_empty`,
`C36_violated_rows_lost`.) -/
theorem C71_exact (A : Api n) (w : Witness n) (calls : List (Call n)) (pre : Option ℕ) {τ : Store n} {t : Context n}
    (h : runCalls A w calls (.empty n pre) (.new n) = .ok (τ, t)) {max_rows : ℕ} (hm : ∀ chip, t.offs.at chip ≤ max_rows) :
    (∃ L, assign_all_without_select t.records max_rows = .ok L ∧ L.Is t.records) ↔
      (∀ c ∈ calls, c.UsesSelect pre.isSome = false) ∧ 1 ≤ t.base_offset ∧
        t.range_offset ≤ 16 * ((t.base_offset + 15) / 16) ^ 2 := by
  have hb := (C65_heights A w calls pre h).1
  constructor
  · rintro ⟨L, e, hL⟩
    have h0 : t.records.select_height = 0 := by
      by_contra h0
      exact assign_all_without_select_refuses h0 L e
    obtain ⟨h1, ha⟩ := adv_of_assign_all_without_select e
    rw [hb] at h1
    refine ⟨(C71_select_rows A w calls pre h).1 h0, h1, Nat.le_of_not_lt fun hlt => ?_⟩
    obtain ⟨-, c, -, hc⟩ := C60_rows_filled A w calls fresh_new h .range (t.range_offset - 1) (Nat.zero_le _)
      (show _ < t.range_offset by omega)
    refine hc ?_
    rw [show t.records.inner.advOf = L.adv from hL.1.symm, ha]
    refine if_neg fun hv => ?_
    have := (visited_iff _).1 hv
    rw [hb] at this
    omega
  · rintro ⟨h1, h2, h3⟩
    rw [← hb] at h2 h3
    rcases C36_without_select_partial A w calls pre h h2 hm h3 with h | ⟨h, -⟩
    · exact h.2
    · exact absurd ((C71_select_rows A w calls pre ‹_›).2 h1) h

/-- **C71** with **C64**: on a context without select chip, if the client does not use the operations of the select chip
that the integer context offers, then with at least 208 rows of the base chip and not more than a third as many bare
assignments of range checked values, synthesis without a select chip goes through and assigns exactly what is recorded. -/
theorem C71_client (A : Api n) (h1 : A.info.limbs ≤ 4) (h2 : A.sinfo.limbs ≤ 4) (w : Witness n) (calls : List (Call n))
    {τ : Store n} {t : Context n} (h : runCalls A w calls (.empty n none) (.new n) = .ok (τ, t))
    (hc : ∀ a b c d, Call.assign_cache_value a b c d ∉ calls ∧ Call.assign_selected_value a b c d ∉ calls)
    {max_rows : ℕ} (hm : ∀ chip, t.offs.at chip ≤ max_rows) (hb : 208 ≤ t.base_offset)
    (hs : 3 * calls.countP Call.isBare ≤ t.base_offset) :
    ∃ L, assign_all_without_select t.records max_rows = .ok L ∧ L.Is t.records := by
  have h3 := (C65_heights A w calls none h).1
  have hbal := balanced_of (C64_rows A h1 h2 w calls none h) hs hb h3.ge
  refine (C71_exact A w calls none h hm).2 ⟨fun c hx => ?_, by omega, by rw [← h3]; exact hbal.2⟩
  have hask : ∀ c ∈ calls, c.AsksSelectChip = false := fun c hx => by
    by_contra hq
    exact C71_unavailable A w calls ⟨c, hx, by simpa using hq⟩ _ _ h
  cases c
  case assign_cache_value => exact absurd hx (hc _ _ _ _).1
  case assign_selected_value => exact absurd hx (hc _ _ _ _).2
  case assign_cache_point => exact hask _ hx
  case assign_selected_point => exact hask _ hx
  case assign_cache_point_non_zero => exact hask _ hx
  case assign_selected_point_non_zero => exact hask _ hx
  case assign_cache_integer => exact hask _ hx
  case assign_selected_integer => exact hask _ hx
  case msm_with_select_native => exact hask _ hx
  case msm_with_select_general => exact hask _ hx
  all_goals rfl

/-! ## Programs -/

theorem nsel_xexec (info : RangeInfo bnR) (order : ℕ) (i : XInstr) (s : XSt) (hs : s.pre = none) :
    Ns (i.exec info order s) := by
  cases i with
  | tower i => exact .bind (nsel_texec info order i _) fun _ => .pure _
  | native i => exact .bind (nsel_nexec i _) fun _ => .pure _
  | encode i => exact .bind (nsel_index _ _) fun _ => .bind (nsel_ecc_encode info _) fun _ => .pure _
  | msm ps ss A L =>
    refine .bind (nsel_getM _ _) fun _ => .bind (nsel_getM _ _) fun _ => .bind ?_ fun _ => .pure _
    rw [hs]
    exact nsel_msm (nativeScalar_ns _) _ _ _ _ _ _

theorem keeps_xexec (info : RangeInfo bnR) (order : ℕ) (i : XInstr) (s : XSt) (hs : s.pre = none) :
    Returns (i.exec info order s) fun s' => s'.pre = none := by
  cases i with
  | tower i => exact .next fun _ => .pure hs
  | native i => exact .next fun _ => .pure hs
  | encode i => exact .next fun _ => .next fun _ => .pure hs
  | msm ps ss A L =>
    refine .next fun _ => .next fun _ => .bind (returns_msm _ _ _ _ _ _ _ _ _) fun r hr => .pure ?_
    rw [hs] at hr
    exact hr

theorem select_xexecAll (info : RangeInfo bnR) (order : ℕ) (prog : List XInstr) : ∀ (s s' : XSt) (t t' : Context bnR),
    s.pre = none → xexecAll info order prog s t = .ok (s', t') → t'.select_offset = t.select_offset := by
  induction prog with
  | nil => intro s s' t t' _ e; cases e; rfl
  | cons i is ih =>
    intro s s' t t' hs e
    obtain ⟨s1, u, e1, e2⟩ := run_bind_ok.1 e
    exact (ih s1 s' u t' (keeps_xexec info order i s hs _ _ _ e1) e2).trans
      ((nsel_xexec info order i s hs).out _ _ _ e1)

/-- **C71** with **C58**: a program over all chips for bn256 whose reference run succeeds, on a context without a select
chip, is issued without a panic, synthesized without a select chip and without a loss, and the witness satisfies the
synthesized circuit; if it uses at least 208 rows of the base chip and does not consist of more bare assignments of 18 bit
values than that. -/
theorem C71_complete_bn256 {info : RangeInfo bnR} (E : Env (pairQ .bn256) info) (order : ℕ) (ho : order % 2 = 1)
    (prog : List XInstr) (r : XRef × Option ℕ) (he : xevalAll prog (XRef.empty, none) = some r) :
    ∃ s t, xexecAll info order prog (XSt.empty none) (Context.new bnR) = .ok (s, t) ∧ HRepXSt info s r ∧
      (208 ≤ t.base_offset → prog.countP XInstr.isBare ≤ t.base_offset → ∀ max_rows,
        (∀ chip, t.offs.at chip ≤ max_rows) → Handed false t max_rows) := by
  obtain ⟨s, t, h1, h2, h3⟩ := C64_complete_bn256 E order ho prog none r he
  refine ⟨s, t, h1, h2, fun hb hs mr hm => (h3 hb hs mr hm).2 ?_⟩
  rw [(heights_of (prog2_xexecAll info order prog _) h1).2.1]
  exact select_xexecAll info order prog _ _ _ _ rfl h1

/-! ### Cases -/

/-- Not vacuous: the program of `C58_case` with a multi-scalar multiplication, and some more values, on a context without
select chip. -/
theorem C71_case (k : ℕ) (hk : 208 ≤ k) :
    ∃ (info : RangeInfo bnR) (G A L : BnPt) (s : XSt) (t : Context bnR), Env (pairQ .bn256) info ∧ HasCoords G 1 2 ∧
      xexecAll info bnR (fullProg G A L ++ List.replicate k (.native (.assign 5))) (XSt.empty none) (Context.new bnR) =
        .ok (s, t) ∧
      ∀ max_rows, (∀ chip, t.offs.at chip ≤ max_rows) → Handed false t max_rows := by
  obtain ⟨info, G, A, L, r, E, hG, he, -, -⟩ := C58_case none (fun p hp => nomatch hp)
  obtain ⟨r', he'⟩ := xeval_assigns 5 k r
  obtain ⟨s, t, h1, h2, h3⟩ := C71_complete_bn256 E bnR (by decide +kernel)
    (fullProg G A L ++ List.replicate k (.native (.assign 5))) r' ((xevalAll_append he _).trans he')
  have hb : k ≤ t.base_offset := by
    have := h1
    rw [xexecAll_append] at this
    obtain ⟨a, u, e1, e2⟩ := run_bind_ok.1 this
    rw [base_of_assigns _ _ _ _ _ _ _ _ e2]
    exact Nat.le_add_left _ _
  exact ⟨info, G, A, L, s, t, E, hG, h1, fun mr hm => h3 (hk.trans hb)
    ((bare_fullProg G A L k).le.trans (Nat.zero_le _)) mr hm⟩

/-- Both sides of `C71_select_rows`: a sum uses no row of the select chip; a value cached by way of the integer context
uses one, even if the curve context has no select chip, and then synthesis without select chip does not go through. -/
theorem C71_case_cached (A : Api n) (w : Witness n) : ∃ τ t τ' t',
    runCalls A w [.assign 0, .add 0 0] (.empty n none) (.new n) = .ok (τ, t) ∧ t.records.select_height = 0 ∧
    runCalls A w [.assign 0, .assign_cache_value 0 0 1 0] (.empty n none) (.new n) = .ok (τ', t') ∧
      t'.records.select_height = 1 ∧ ∀ L, assign_all_without_select t'.records 4 ≠ .ok L := by
  have h : ∃ τ' t', runCalls A w [.assign 0, .assign_cache_value 0 0 1 0] (.empty n none) (.new n) = .ok (τ', t') ∧
      t'.records.select_height = 1 := ⟨_, _, rfl, rfl⟩
  obtain ⟨τ', t', h1, h2⟩ := h
  exact ⟨_, _, τ', t', rfl, rfl, h1, h2, assign_all_without_select_refuses (by omega)⟩

end Verif
