import Verif.Props.Configure

/-!
# C66: soundness and completeness in the constraint system that halo2 gets
-/

namespace Verif
variable {n : ℕ}

/-- What a layout needs: synthesis goes through, without a select chip nothing is assigned to it, and the copy constraints
are accepted. -/
theorem select_unassigned {s : Records n} {max_rows : ℕ} {select : Bool} {L : Layout n}
    (hL : synthesize select s max_rows = .ok L) : select = false → ∀ r c, L.fix .select r c = none := by
  rintro rfl
  exact (without_select_of_ok hL).1

/-- Satisfying a circuit only depends on cells that exist. -/
theorem sat_congr {c : Circuit n} {w w' : Advice n} {select : Bool}
    (hw : ∀ x : Cell, x.col < x.region.width → (select = false → x.region ≠ .select) → w' x = w x)
    (hs : select = false → ∀ r < c.usable, c.SelectRow w' r)
    (hc : ∀ p ∈ c.copies, w' p.1 = w p.1 ∧ w' p.2 = w p.2) (h : c.Sat w) : c.Sat w' := by
  have eb : ∀ k r, k < 5 → w' ⟨.base, k, r⟩ = w ⟨.base, k, r⟩ := fun k r hk => hw _ hk fun _ e => by cases e
  have er : ∀ k r, k < 3 → w' ⟨.range, k, r⟩ = w ⟨.range, k, r⟩ := fun k r hk => hw _ hk fun _ e => by cases e
  refine ⟨fun r hr => ?_, fun r hr => ?_, fun r hr => ?_, fun p hp => ?_⟩
  · rw [← h.base r hr]
    unfold Circuit.baseGate
    rw [eb 0 r (by decide), eb 1 r (by decide), eb 2 r (by decide), eb 3 r (by decide), eb 4 r (by decide),
      eb 4 (r + 1) (by decide)]
  · obtain ⟨h1, h2, h3, h4, h5⟩ := h.range r hr
    refine ⟨?_, ?_, ?_, ?_, ?_⟩
    · rw [er 1 r (by decide)]; exact h1
    · rw [er 2 r (by decide)]; exact h2
    · rw [← h3]; unfold Circuit.rangeGate1
      rw [er 0 r (by decide), er 1 r (by decide)]
    · rw [← h4]; unfold Circuit.rangeGate2
      rw [er 0 r (by decide), er 1 r (by decide), er 2 r (by decide), er 1 (r + 1) (by decide), er 2 (r + 1) (by decide)]
    · rw [← h5]; unfold Circuit.rangeGate3
      rw [er 0 r (by decide), er 1 r (by decide), er 2 r (by decide), er 1 (r + 1) (by decide), er 2 (r + 1) (by decide),
        er 1 (r + 2) (by decide), er 2 (r + 2) (by decide)]
  · cases select with
    | false => exact hs rfl r hr
    | true =>
      have es : ∀ k r, k < 2 → w' ⟨.select, k, r⟩ = w ⟨.select, k, r⟩ := fun k r hk => hw _ hk fun e => by cases e
      obtain ⟨t, h1, h2, h3, h4⟩ := h.select r hr
      exact ⟨t, h1, by rw [es 0 r (by decide), es 0 t (by decide)]; exact h2, by rw [es 1 r (by decide)]; exact h3, h4⟩
  · obtain ⟨h1, h2⟩ := hc p hp
    rw [h1, h2]; exact h.copy p hp

/-- **C66**: whoever satisfies the synthesized circuit satisfies the constraint system that halo2 gets: there is an
assignment that agrees with the given one on all cells of the chips. -/
theorem C66_realised (select : Bool) {s : Records n} {max_rows : ℕ} {L : Layout n}
    (hL : synthesize select s max_rows = .ok L) (rows usable : ℕ) (hu : usable + 2 ≤ rows) (ht : 2 ^ 19 - 1 ≤ usable)
    (K : List ((Column × ℕ) × (Column × ℕ)))
    (hK : constrain_all (configure select (.empty n)).1 (configure select (.empty n)).2 L.copies = some K)
    (w : Advice n) (hw : (L.circuit usable).Sat w) :
    ∃ A : Assignment n, Carries (configure select (.empty n)).1 L usable A ∧
      (configure select (.empty n)).2.Satisfied rows usable K A ∧
      ∀ c : Cell, c.col < c.region.width → (select = false → c.region ≠ .select) →
        adviceOf (configure select (.empty n)).1 A c = w c := by
  obtain ⟨A, hA, hc, -, -⟩ := C66_columns select (.empty n) L usable w fun _ _ => 0
  refine ⟨A, hA, (C66_configure select (.empty n) L (select_unassigned hL) rows usable hu ht K hK A hA).2 ⟨?_, ?_⟩, hc⟩
  · exact ⟨fun g hg => absurd (show g ∈ [] from hg) List.not_mem_nil,
      fun l hl => absurd (show l ∈ [] from hl) List.not_mem_nil, fun p hp => by cases hp⟩
  · refine sat_congr hc ?_ (fun p hp => ?_) hw
    · rintro rfl r hr
      rw [configure_cfg]
      exact selectRow_without (select_unassigned hL rfl) A hr
    · have h := place_of_constrain_all hK p hp
      rw [C67_copyable select _ proper_empty, C67_copyable select _ proper_empty] at h
      have hle : ∀ chip : Chip, chip.copyable ≤ chip.width := fun chip => by cases chip <;> decide
      exact ⟨hc _ (h.1.1.trans_le (hle _)) h.1.2, hc _ (h.2.1.trans_le (hle _)) h.2.2⟩

/-- **C66** with **C58**: a program over all chips for bn256 is sound in the constraint system that halo2 gets. Any
assignment that satisfies all gates on all rows, all lookups and all copy constraints, and whose fixed columns are what key
generation puts there, stands for a run of the reference semantics. -/
theorem C66_sound_bn256 {info : RangeInfo bnR} (E : Env (pairQ .bn256) info) (order : ℕ) (prog : List XInstr)
    (pre : Option ℕ) (hk : ∀ j k, XInstr.tower (.pt (.int (.smallMul j k))) ∈ prog → 1 ≤ k) (s : XSt) (t : Context bnR)
    (hrun : xexecAll info order prog (XSt.empty pre) (Context.new bnR) = .ok (s, t)) (max_rows : ℕ)
    (hm : ∀ chip, t.offs.at chip ≤ max_rows) (select : Bool) (L : Layout bnR)
    (hL : synthesize select t.records max_rows = .ok L) (cs : ConstraintSystem bnR) (rows usable : ℕ)
    (hu : usable + 2 ≤ rows) (ht : 2 ^ 19 - 1 ≤ usable) (hf : t.Fits usable) (K : List ((Column × ℕ) × (Column × ℕ)))
    (hK : constrain_all (configure select cs).1 (configure select cs).2 L.copies = some K) (A : Assignment bnR)
    (hA : Carries (configure select cs).1 L usable A) (hsat : (configure select cs).2.Satisfied rows usable K A)
    (hbits : (∃ i ∈ prog, i.usesBits) → (L.circuit usable).BitRowsConsistent (adviceOf (configure select cs).1 A))
    (hpre : (∃ i ∈ prog, i.isMsm) → pre = some 0 →
      (L.circuit usable).LookupsCached (adviceOf (configure select cs).1 A) ∧ (L.circuit usable).ZeroKeyUnique) :
    ∃ r, XSteps prog XRef.empty r ∧ RepXSt info (adviceOf (configure select cs).1 A) s r :=
  C63_sound_bn256 E order prog pre hk s t hrun max_rows hm select L hL usable hf _
    ((C66_configure select cs L (select_unassigned hL) rows usable hu ht K hK A hA).1 hsat).2 hbits hpre

/-- **C66** with **C59**, for bls12_381. -/
theorem C66_sound_bls12_381 {info sinfo : RangeInfo bnR} (E : Env (pairQ .bls12_381) info) (F : Env blsR sinfo) (order : ℕ)
    (prog : List GInstr) (pre : Option ℕ)
    (hk : ∀ j k, GInstr.tower (.pt (.int (.smallMul j k))) ∈ prog ∨ GInstr.scalar (.smallMul j k) ∈ prog → 1 ≤ k) (s : GSt)
    (t : Context bnR) (hrun : gexecAll info sinfo order prog (GSt.empty pre) (Context.new bnR) = .ok (s, t)) (max_rows : ℕ)
    (hm : ∀ chip, t.offs.at chip ≤ max_rows) (select : Bool) (L : Layout bnR)
    (hL : synthesize select t.records max_rows = .ok L) (cs : ConstraintSystem bnR) (rows usable : ℕ)
    (hu : usable + 2 ≤ rows) (ht : 2 ^ 19 - 1 ≤ usable) (hf : t.Fits usable) (K : List ((Column × ℕ) × (Column × ℕ)))
    (hK : constrain_all (configure select cs).1 (configure select cs).2 L.copies = some K) (A : Assignment bnR)
    (hA : Carries (configure select cs).1 L usable A) (hsat : (configure select cs).2.Satisfied rows usable K A)
    (hbits : (∃ i ∈ prog, i.usesBits) → (L.circuit usable).BitRowsConsistent (adviceOf (configure select cs).1 A))
    (hpre : (∃ i ∈ prog, i.isMsm) → pre = some 0 →
      (L.circuit usable).LookupsCached (adviceOf (configure select cs).1 A) ∧ (L.circuit usable).ZeroKeyUnique) :
    ∃ r, GSteps prog GRef.empty r ∧ RepGSt info sinfo (adviceOf (configure select cs).1 A) s r :=
  C63_sound_bls12_381 E F order prog pre hk s t hrun max_rows hm select L hL usable hf _
    ((C66_configure select cs L (select_unassigned hL) rows usable hu ht K hK A hA).1 hsat).2 hbits hpre

/-- The records are accepted by halo2: synthesis goes through, the copy constraints are accepted, and some assignment with
the recorded values and these fixed columns satisfies the constraint system. -/
def AcceptedBy (select : Bool) (t : Context n) (max_rows rows usable : ℕ) : Prop :=
  ∃ (L : Layout n) (K : List ((Column × ℕ) × (Column × ℕ))) (A : Assignment n),
    synthesize select t.records max_rows = .ok L ∧
    constrain_all (configure select (.empty n)).1 (configure select (.empty n)).2 L.copies = some K ∧
    Carries (configure select (.empty n)).1 L usable A ∧ (configure select (.empty n)).2.Satisfied rows usable K A ∧
    ∀ c : Cell, c.col < c.region.width → (select = false → c.region ≠ .select) →
      adviceOf (configure select (.empty n)).1 A c = t.honest c

theorem acceptedBy_of {select : Bool} {t : Context n} {max_rows : ℕ} (hc : CopiesReady t.records)
    (h : Handed select t max_rows) (rows usable : ℕ) (hu : usable + 2 ≤ rows) (ht : 2 ^ 19 - 1 ≤ usable)
    (hf : t.Fits usable) : AcceptedBy select t max_rows rows usable := by
  obtain ⟨L, hL, hw, hcirc⟩ := h
  have hp : L.copies = t.records.permutations := congrArg Circuit.copies (hcirc usable).1
  obtain ⟨K, hK⟩ := constrain_all_ok hc (.empty n) proper_empty hL hp
  obtain ⟨A, h1, h2, h3⟩ := C66_realised select hL rows usable hu ht K hK L.witness ((hcirc usable).2 hf)
  exact ⟨L, K, A, hL, hK, h1, h2, fun c h h' => (h3 c h h').trans (congrFun hw c)⟩

theorem copiesReady_of {α : Type} [HasCells n α] {m : M n α} (hc : ∀ r, W r m In) {a : α} {t : Context n}
    (h : m (.new n) = .ok (a, t)) : CopiesReady t.records :=
  ((hc _ _ _ _ fresh_new (.rfl _) h).2.1.copies fun p hp => absurd (show p ∈ [] from hp) List.not_mem_nil).ready

/-- **C63** with **C66**: a program over all chips for bn256 whose reference run succeeds is issued without a
panic, and halo2 accepts it, under the conditions of `C63_complete_bn256_partial`. -/
theorem C63_accepted_bn256_partial {info : RangeInfo bnR} (E : Env (pairQ .bn256) info) (order : ℕ) (ho : order % 2 = 1)
    (prog : List XInstr) (pre : Option ℕ) (r : XRef × Option ℕ) (he : xevalAll prog (XRef.empty, pre) = some r) :
    ∃ s t, xexecAll info order prog (XSt.empty pre) (Context.new bnR) = .ok (s, t) ∧ HRepXSt info s r ∧
      (Balanced t → ∀ max_rows, (∀ chip, t.offs.at chip ≤ max_rows) → ∀ rows usable, usable + 2 ≤ rows →
        2 ^ 19 - 1 ≤ usable → t.Fits usable → AcceptedBy true t max_rows rows usable ∧
        (t.records.select_height = 0 → AcceptedBy false t max_rows rows usable)) := by
  obtain ⟨s, t, hrun, hP, hh⟩ := C63_complete_bn256_partial E order ho prog pre r he
  have hc := copiesReady_of (fun r => cel_xexecAll info order prog (in_xEmpty pre)) hrun
  exact ⟨s, t, hrun, hP, fun hb mr hm rows usable hu ht hf => ⟨acceptedBy_of hc (hh hb mr hm).1 rows usable hu ht hf,
    fun h0 => acceptedBy_of hc ((hh hb mr hm).2 h0) rows usable hu ht hf⟩⟩

/-- **C63** with **C66**, for bls12_381. -/
theorem C63_accepted_bls12_381_partial {info sinfo : RangeInfo bnR} (E : Env (pairQ .bls12_381) info) (F : Env blsR sinfo)
    (order : ℕ) (ho : order % 2 = 1) (prog : List GInstr) (pre : Option ℕ) (r : GRef × Option ℕ)
    (he : gevalAll prog (GRef.empty, pre) = some r) :
    ∃ s t, gexecAll info sinfo order prog (GSt.empty pre) (Context.new bnR) = .ok (s, t) ∧ HRepGSt info sinfo s r ∧
      (Balanced t → ∀ max_rows, (∀ chip, t.offs.at chip ≤ max_rows) → ∀ rows usable, usable + 2 ≤ rows →
        2 ^ 19 - 1 ≤ usable → t.Fits usable → AcceptedBy true t max_rows rows usable ∧
        (t.records.select_height = 0 → AcceptedBy false t max_rows rows usable)) := by
  obtain ⟨s, t, hrun, hP, hh⟩ := C63_complete_bls12_381_partial E F order ho prog pre r he
  have hc := copiesReady_of (fun r => cel_gexecAll info sinfo order prog (in_gEmpty pre)) hrun
  exact ⟨s, t, hrun, hP, fun hb mr hm rows usable hu ht hf => ⟨acceptedBy_of hc (hh hb mr hm).1 rows usable hu ht hf,
    fun h0 => acceptedBy_of hc ((hh hb mr hm).2 h0) rows usable hu ht hf⟩⟩

/-! ### A case -/

/-- A product of a value and a range checked value. -/
def plonkProg : List XInstr := [.native (.assign 3), .native (.small 5), .native (.mul 0 1)]

theorem plonkProg_run (info : RangeInfo bnR) (order : ℕ) : ∃ s t,
    xexecAll info order plonkProg (XSt.empty none) (Context.new bnR) = .ok (s, t) ∧ t.records.base_height = 2 ∧
      t.offs = ⟨2, 1, 0⟩ ∧ t.range_offset = 1 ∧ t.records.select_height = 0 ∧ t.records.permutations.length = 2 :=
  ⟨_, _, rfl, rfl, rfl, rfl, rfl, rfl⟩

/-- Not vacuous: halo2 accepts the records of a run with rows of the base and of the range chip and copy constraints
between them, in a circuit of `2 ^ 20` rows, with and without a select chip. -/
theorem C66_case : ∃ (info : RangeInfo bnR) (s : XSt) (t : Context bnR), Env (pairQ .bn256) info ∧
    xexecAll info bnR plonkProg (XSt.empty none) (Context.new bnR) = .ok (s, t) ∧ t.records.permutations.length = 2 ∧
    AcceptedBy true t 4 (2 ^ 20) (2 ^ 20 - 6) ∧ AcceptedBy false t 4 (2 ^ 20) (2 ^ 20 - 6) := by
  obtain ⟨info, E⟩ := env_bn256
  have he : ∃ r, xevalAll plonkProg (XRef.empty, none) = some r := ⟨_, rfl⟩
  obtain ⟨r, he⟩ := he
  obtain ⟨s, t, h1, -, h2⟩ := C63_accepted_bn256_partial E bnR (by decide +kernel) plonkProg none r he
  obtain ⟨s', t', k1, k2, k3, k4, k5, k6⟩ := plonkProg_run info bnR
  obtain ⟨rfl, rfl⟩ : s = s' ∧ t = t' := by
    rw [h1] at k1
    cases k1
    exact ⟨rfl, rfl⟩
  have hoff : ∀ chip, t.offs.at chip ≤ 2 := fun chip => by rw [k3]; cases chip <;> decide
  obtain ⟨a1, a2⟩ := h2 ⟨by omega, by rw [k2, k4]; decide⟩ 4 (fun chip => (hoff chip).trans (by decide)) (2 ^ 20) (2 ^ 20 - 6)
    (by decide) (by decide) ⟨(hoff .base).trans (by decide), (hoff .range).trans (by decide), (hoff .select).trans (by decide)⟩
  exact ⟨info, s, t, E, h1, k6, a1, a2 k5⟩

end Verif
