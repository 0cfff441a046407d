import Verif.Proof.CounterEcc
import Verif.Proof.Raised

/-!
# Work on clones keeps counters small
-/

namespace Verif
variable {n : ℕ} {α : Type} {r : Tag n}

theorem cnt_clone_body [HasCounters n α] (diff : Offsets) {m : M n (Except UnsafeError α)} (h : Safe r m Small)
    (before : Offsets) : Safe r (clone_body diff m before) Small := by
  unfold clone_body
  refine h.bind fun x _ _ hx => ?_
  cases x with
  | error e => exact .ret small_error
  | ok a =>
    refine Safe.bind (P := fun _ _ => True) (fun _ => ⟨(nomatch ·), fun _ _ _ => trivial⟩) fun _ _ _ _ => ?_
    exact (cnt_rassert _).bind fun _ _ _ _ => .ret (small_ok (small_of_ok hx))

theorem cnt_run_clones [HasCounters n α] {s : Context n} {diff : Offsets} {body : ℕ → M n (Except UnsafeError α)}
    (h : ∀ i, Safe r (body i) Small) (is : List ℕ) (inner : RecordsInner n) :
    run_clones s diff body inner is ≠ .error .overflow ∧
    ∀ l inner', run_clones s diff body inner is = .ok (.ok l, inner') → ∀ p ∈ l, Small r p.1 := by
  induction is generalizing inner with
  | nil =>
    refine ⟨(nomatch ·), fun l inner' e => ?_⟩
    cases e
    simp
  | cons i is ih =>
    unfold run_clones
    dsimp only
    obtain ⟨h1, h2⟩ := cnt_clone_body diff (h i) ((s.share inner).clone_with_offset (diff.scale i)).offs
      ((s.share inner).clone_with_offset (diff.scale i))
    split
    · rename_i p e
      rw [e] at h1
      exact ⟨fun e' => h1 (by injection e' with e'; rw [e']), fun _ _ e' => by cases e'⟩
    · exact ⟨(nomatch ·), fun _ _ e' => by cases e'⟩
    · rename_i a t e
      obtain ⟨h3, h4⟩ := ih t.records.inner
      split
      · rename_i p e2
        rw [e2] at h3
        exact ⟨fun e' => h3 (by injection e' with e'; rw [e']), fun _ _ e' => by cases e'⟩
      · exact ⟨(nomatch ·), fun _ _ e' => by cases e'⟩
      · rename_i l inner2 e2
        refine ⟨(nomatch ·), fun l' inner' e' => ?_⟩
        cases e'
        intro p hp
        rcases List.mem_cons.1 hp with rfl | hp
        · exact small_of_ok (h2 _ _ e)
        · exact h4 _ _ e2 p hp

theorem cnt_predict [HasCounters n α] {m : M n (Except UnsafeError α)} (h : Safe r m Small) : Safe r (predict m) Small := by
  intro s
  obtain ⟨h1, h2⟩ := h (s.clone_with_offset ⟨0, 0, 0⟩)
  unfold predict
  split
  · rename_i p e
    rw [e] at h1
    exact ⟨fun e' => h1 (by injection e' with e'; rw [e']), fun _ _ e' => by cases e'⟩
  · refine ⟨(nomatch ·), fun _ _ e' => ?_⟩
    cases e'
    exact small_error
  · rename_i a t e
    refine ⟨(nomatch ·), fun _ _ e' => ?_⟩
    cases e'
    exact small_ok (small_pair (small_of_ok (h2 _ _ e)) (small_none rfl))

theorem cnt_rest_windows [HasCounters n α] (windows : ℕ) (diff : Offsets) {body : ℕ → M n (Except UnsafeError α)}
    (h : ∀ i, Safe r (body i) Small) : Safe r (rest_windows windows diff body) Small := by
  intro s
  obtain ⟨h1, h2⟩ := cnt_run_clones (s := s) (diff := diff) h (List.range' 1 (windows - 1)) s.records.inner
  unfold rest_windows
  split
  · rename_i p e
    rw [e] at h1
    exact ⟨fun e' => h1 (by injection e' with e'; rw [e']), fun _ _ e' => by cases e'⟩
  · refine ⟨(nomatch ·), fun _ _ e' => ?_⟩
    cases e'
    exact small_error
  · rename_i l inner e
    refine ⟨(nomatch ·), fun _ _ e' => ?_⟩
    cases e'
    refine small_ok (small_list_iff.2 fun a ha => ?_)
    obtain ⟨p, hp, rfl⟩ := List.mem_map.1 ha
    exact h2 _ _ e p hp

theorem cnt_windows_parallel [HasCounters n α] {windows : ℕ} {body : ℕ → M n (Except UnsafeError α)}
    (h : ∀ i, Safe r (body i) Small) : Safe r (windows_parallel windows body) Small := by
  unfold windows_parallel
  refine (cnt_predict (h 0)).bind fun x _ _ hx => ?_
  cases x with
  | error e => exact .ret small_error
  | ok x =>
    obtain ⟨a, diff⟩ := x
    refine (cnt_rest_windows windows diff h).bind fun y _ _ hy => ?_
    cases y with
    | error e => exact .ret small_error
    | ok l => exact .ret (small_ok (small_cons (small_fst (small_of_ok hx)) (small_of_ok hy)))

end Verif
