import Verif.Props.Synthesis
import Verif.Spec.Values

/-!
# C53: handed-out values are what is recorded, and the honest witness satisfies the copy constraints
-/

namespace Verif
variable {n : ℕ} {r : RecordsInner n}

theorem all_append {P : AssignedValue n → Prop} {l l' : List (AssignedValue n)} :
    (∀ a ∈ l ++ l', P a) ↔ (∀ a ∈ l, P a) ∧ ∀ a ∈ l', P a := List.forall_mem_append

theorem in_flatMap_iff {α : Type} [HasCells n α] {f : α → List (AssignedValue n)} (h : ∀ a, In r a ↔ In r (f a))
    {l : List α} : In r l ↔ In r (l.flatMap f) := by
  rw [in_list_iff, in_list_iff]
  constructor
  · intro hl b hb
    obtain ⟨a, ha, hb⟩ := List.mem_flatMap.1 hb
    exact in_list_iff.1 ((h a).1 (hl a ha)) b hb
  · intro hl a ha
    exact (h a).2 (in_list_iff.2 fun b hb => hl b (List.mem_flatMap.2 ⟨a, ha, hb⟩))

theorem in_app_iff {l l' : List (AssignedValue n)} : In r (l ++ l') ↔ In r l ∧ In r l' := by
  simp only [in_list_iff, List.mem_append, or_imp, forall_and]
theorem in_one_iff {a : AssignedValue n} : In r [a] ↔ In r a := by simp [in_list_iff]

theorem in_int_iff (a : AssignedInteger n) : In r a ↔ In r a.values := by
  unfold AssignedInteger.values
  rw [in_app_iff, in_one_iff]
  exact in_append_cells
theorem in_point_iff (a : AssignedPoint n) : In r a ↔ In r a.values := by
  unfold AssignedPoint.values
  rw [in_app_iff, in_app_iff, in_one_iff, ← in_int_iff, ← in_int_iff]
  exact in_append_cells.trans (and_congr_left' in_append_cells)
theorem in_nz_iff (a : AssignedNonZeroPoint n) : In r a ↔ In r a.values := by
  unfold AssignedNonZeroPoint.values
  rw [in_app_iff, ← in_int_iff, ← in_int_iff]
  exact in_append_cells
theorem in_curv_iff (a : AssignedCurvature n) : In r a ↔ In r (a.v.values ++ [a.z]) := by
  rw [in_app_iff, in_one_iff, ← in_int_iff]
  exact in_append_cells
theorem in_pc_iff (a : AssignedPointWithCurvature n) : In r a ↔ In r a.values := by
  unfold AssignedPointWithCurvature.values
  rw [in_app_iff, ← in_curv_iff, in_app_iff, in_app_iff, in_one_iff, ← in_int_iff, ← in_int_iff]
  exact in_append_cells.trans (and_congr_left' (in_append_cells.trans (and_congr_left' in_append_cells)))
theorem in_fq2_iff (a : AssignedFq2 n) : In r a ↔ In r (fq2Values a) := by
  unfold fq2Values
  rw [in_app_iff, ← in_int_iff, ← in_int_iff]
  exact in_append_cells
theorem in_f6_iff (a : AssignedFq6 n) : In r a ↔ In r a.values := by
  unfold AssignedFq6.values
  rw [in_app_iff, in_app_iff, ← in_fq2_iff, ← in_fq2_iff, ← in_fq2_iff]
  exact in_append_cells.trans (and_congr_left' in_append_cells)
theorem in_f12_iff (a : AssignedFq12 n) : In r a ↔ In r a.values := by
  unfold AssignedFq12.values
  rw [in_app_iff, ← in_f6_iff, ← in_f6_iff]
  exact in_append_cells
theorem in_g2_iff (a : AssignedG2Affine n) : In r a ↔ In r a.values := by
  unfold AssignedG2Affine.values
  rw [in_app_iff, in_app_iff, ← in_fq2_iff, ← in_fq2_iff, in_one_iff]
  exact in_append_cells.trans (and_congr_left' in_append_cells)
theorem in_line_iff (a : LineCoeffs n) : In r a ↔ In r a.values := by
  unfold LineCoeffs.values
  rw [in_app_iff, in_app_iff, ← in_fq2_iff, ← in_fq2_iff, ← in_fq2_iff]
  exact in_append_cells.trans (and_congr_left' in_append_cells)

theorem in_store_iff (σ : Store n) : In r σ ↔ In r σ.values := by
  rw [storeIn_iff]
  unfold Store.values
  simp only [in_app_iff, ← in_flatMap_iff in_int_iff, ← in_flatMap_iff in_point_iff, ← in_flatMap_iff in_pc_iff,
    ← in_flatMap_iff in_nz_iff, ← in_flatMap_iff in_fq2_iff, ← in_flatMap_iff in_f6_iff, ← in_flatMap_iff in_f12_iff,
    ← in_flatMap_iff in_g2_iff, ← in_flatMap_iff (fun l => in_flatMap_iff in_line_iff (l := l))]
  exact ⟨fun h => ⟨⟨⟨⟨⟨⟨⟨⟨⟨h.v, h.i⟩, h.p⟩, h.c⟩, h.z⟩, h.f2⟩, h.f6⟩, h.f12⟩, h.g2⟩, h.lines⟩,
    fun ⟨⟨⟨⟨⟨⟨⟨⟨⟨h0, h1⟩, h2⟩, h3⟩, h4⟩, h5⟩, h6⟩, h7⟩, h8⟩, h9⟩ => ⟨h0, h1, h2, h3, h4, h5, h6, h7, h8, h9⟩⟩

theorem recorded_iff {t : Context n} {σ : Store n} : In t.records.inner σ ↔ ∀ a ∈ σ.values, Recorded t a := by
  rw [in_store_iff, in_list_iff]
  exact forall₂_congr fun a _ => in_val_iff

/-- **C53**: whatever API calls a client makes, in every object it holds each carried value is the value recorded in its
cell, if this holds of the objects it starts with; values recorded before are not changed. -/
theorem C53_values_recorded (A : Api n) (w : Witness n) (calls : List (Call n)) {σ τ : Store n} {s t : Context n}
    (hs : s.Fresh) (hσ : ∀ a ∈ σ.values, Recorded s a) (h : runCalls A w calls σ s = .ok (τ, t)) :
    (∀ a ∈ τ.values, Recorded t a) ∧ ∀ a, Recorded s a → Recorded t a := by
  obtain ⟨-, k, hτ⟩ := cel_runCalls A w calls (recorded_iff.2 hσ) s τ t hs (.rfl _) h
  exact ⟨recorded_iff.1 hτ, fun a ha => k.le.cells (a.cell, a.val) ha⟩

/-- **C53**: whatever API calls a client makes, the recorded witness satisfies every copy constraint, also those of
assertions that fail. -/
theorem C53_copies_satisfied (A : Api n) (w : Witness n) (calls : List (Call n)) {σ τ : Store n} {s t : Context n}
    (hs : s.Fresh) (hσ : ∀ a ∈ σ.values, Recorded s a) (hc : CopiesHold s.records)
    (h : runCalls A w calls σ s = .ok (τ, t)) : CopiesHold t.records :=
  (cel_runCalls A w calls (recorded_iff.2 hσ) s τ t hs (.rfl _) h).2.1.copies hc

/-- **C53** for a new context. -/
theorem C53_client (A : Api n) (w : Witness n) (calls : List (Call n)) (pre : Option ℕ) {τ : Store n} {t : Context n}
    (h : runCalls A w calls (.empty n pre) (.new n) = .ok (τ, t)) :
    (∀ a ∈ τ.values, t.honest a.cell = a.val) ∧ ∀ p ∈ t.records.permutations, t.honest p.1 = t.honest p.2 := by
  have h0 : ∀ a ∈ (Store.empty n pre).values, Recorded (Context.new n) a := fun a ha => by
    simp [Store.empty, Store.values] at ha
  have hh : ∀ {c : Cell} {v : ZMod n}, t.records.inner.advOf c.region c.row c.col = some v → t.honest c = v := by
    rintro ⟨chip, col, row⟩ v e
    cases chip <;> exact congrArg (fun o => Option.getD o 0) e
  refine ⟨fun a ha => hh ((C53_values_recorded A w calls fresh_new h0 h).1 a ha).2, fun p hp => ?_⟩
  obtain ⟨v, h1, h2⟩ := C53_copies_satisfied A w calls fresh_new h0
    (fun p hp => absurd (show p ∈ [] from hp) List.not_mem_nil) h p hp
  rw [hh h1.2.1, hh h2.2.1]

namespace Example

/-- Not vacuous: a client that asserts equality of two values and goes on; it holds values, and there are copy constraints. -/
theorem values_run (A : Api n) (w : Witness n) : ∃ (τ : Store n) (t : Context n),
    runCalls A w [.assign 0, .assign_common 0, .add 0 1, .assert_equal 0 2] (.empty n none) (.new n) = .ok (τ, t) ∧
    τ.values.length = 3 ∧ t.records.permutations.length = 4 ∧ (∀ a ∈ τ.values, t.honest a.cell = a.val) ∧
    ∀ p ∈ t.records.permutations, t.honest p.1 = t.honest p.2 := by
  obtain ⟨τ, t, h, h1, h2⟩ : ∃ (τ : Store n) (t : Context n),
      runCalls A w [.assign 0, .assign_common 0, .add 0 1, .assert_equal 0 2] (.empty n none) (.new n) = .ok (τ, t) ∧
      τ.values.length = 3 ∧ t.records.permutations.length = 4 := ⟨_, _, rfl, rfl, rfl⟩
  exact ⟨τ, t, h, h1, h2, C53_client A w _ none h⟩

end Example

end Verif
