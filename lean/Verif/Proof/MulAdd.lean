import Verif.Proof.Base

/-!
# `mul_add_with_next_line`: sums of products over several rows
-/

namespace Verif

variable {n : ℕ} {c : Circuit n} {w h : Advice n} {H : Prop}

/-- Value of a sum of products under an assignment. -/
def termsW (w : Advice n) (ls : List (MulTerm n)) : ZMod n :=
  (ls.map fun l => w l.a.cell * w l.b.cell + w l.c.cell * l.c_coeff).sum

/-- Value of a sum of products of recorded values. -/
def termsVal (ls : List (MulTerm n)) : ZMod n :=
  (ls.map fun l => l.a.val * l.b.val + l.c.val * l.c_coeff).sum

@[simp] theorem termsW_nil : termsW w [] = 0 := rfl
@[simp] theorem termsW_cons (l : MulTerm n) (ls) :
    termsW w (l :: ls) = w l.a.cell * w l.b.cell + w l.c.cell * l.c_coeff + termsW w ls := by simp [termsW]
@[simp] theorem termsVal_nil : termsVal ([] : List (MulTerm n)) = 0 := rfl
@[simp] theorem termsVal_cons (l : MulTerm n) (ls) :
    termsVal (l :: ls) = l.a.val * l.b.val + l.c.val * l.c_coeff + termsVal ls := by simp [termsVal]

/-- The rows of `mul_add_with_next_line` from some term on, including the final row. -/
def mul_add_rest (first : Bool) (t : ZMod n) (ls : List (MulTerm n)) : M n (AssignedValue n) := do
  let t ← mul_add_lines first t ls
  let cells ← one_line_with_last [] (pairU t 0) none [] none
  pure cells.2

theorem mul_add_rest_cons (first : Bool) (t : ZMod n) (l : MulTerm n) (ls : List (MulTerm n)) :
    mul_add_rest first t (l :: ls) = (do
      let _ ← one_line_with_last [pairA l.a 0, pairA l.b 0, pairA l.c l.c_coeff]
        (if first then pairU t 0 else pairU t 1) none [1] (some (-1))
      mul_add_rest false (l.a.val * l.b.val + l.c.val * l.c_coeff + t) ls) := by
  simp [mul_add_rest, mul_add_lines]

/-- Coefficient of the accumulator cell of the row. -/
def accCoeff (n : ℕ) (first : Bool) : ZMod n := if first then 0 else 1

theorem S_mul_add_rest (hw : c.Sat w) : ∀ (ls : List (MulTerm n)) (first : Bool) (t : ZMod n)
    (s u : Context n) (a : AssignedValue n), (ls = [] → first = false) → s.Fresh →
    mul_add_rest first t ls s = .ok (a, u) → u.Fresh ∧ Grows s u ∧ (u.Embeds c →
      w a.cell = w ⟨.base, 4, s.base_offset⟩ * accCoeff n first + termsW w ls)
  | [], first, t, s, u, a, hne, hs, hrun => by
    simp only [mul_add_rest, mul_add_lines, pure_bind] at hrun
    obtain ⟨cells, s', h1, h2⟩ := run_bind_ok.1 hrun
    obtain ⟨s'', h1', h3⟩ := one_line_with_last_run hs (pairs := []) (last := pairU t 0)
      (constant := none) (mul := []) (next := none) (by simp) (by simp)
    rw [h1'] at h1
    cases h1
    cases h2
    refine ⟨h3.fresh hs, h3.grows, fun _ => ?_⟩
    simp [accCoeff, hne rfl]
  | l :: ls, first, t, s, u, a, _, hs, hrun => by
    rw [mul_add_rest_cons] at hrun
    obtain ⟨cells, s', h1, h2⟩ := run_bind_ok.1 hrun
    obtain ⟨s'', h1', h3⟩ := one_line_with_last_run hs
      (pairs := [pairA l.a 0, pairA l.b 0, pairA l.c l.c_coeff])
      (last := if first then pairU t 0 else pairU t 1)
      (constant := none) (mul := [1]) (next := some (-1)) (by simp) (by simp)
    rw [h1'] at h1
    cases h1
    obtain ⟨fu, g, k⟩ := S_mul_add_rest hw ls false _ s' u a (fun _ => rfl) (h3.fresh hs) h2
    refine ⟨fu, h3.grows.trans g, fun e => ?_⟩
    have f := h3.facts hw (g.embeds e) fun p hp => List.mem_append_left _ hp
    have hg := f.gate
    have c0 := f.copy 0 l.a 0 rfl
    have c1 := f.copy 1 l.b 0 rfl
    have c2 := f.copy 2 l.c l.c_coeff rfl
    have hlast : (if first = true then pairU t 0 else pairU t 1).2 = accCoeff n first := by
      cases first <;> rfl
    simp [gateEq, rowFixL, rowFix, hlast] at hg
    rw [c0, c1, c2] at hg
    rw [k e, h3.baseOff, termsW_cons]
    simp only [accCoeff, Bool.false_eq_true, if_false] at hg ⊢
    linear_combination -hg

theorem C_mul_add_rest : ∀ (ls : List (MulTerm n)) (first : Bool) (t : ZMod n) (s : Context n),
    (H → ∀ l ∈ ls, Ok h l.a ∧ Ok h l.b ∧ Ok h l.c) → (first = true → t = 0) → s.Fresh →
    ∃ a u, mul_add_rest first t ls s = .ok (a, u) ∧ u.Fresh ∧ Grows s u ∧ a.val = t + termsVal ls ∧
      (H → u.Embeds c → Agrees u h → NewOk c h s u ∧ Ok h a ∧ h ⟨.base, 4, s.base_offset⟩ = t)
  | [], first, t, s, _, _, hs => by
    obtain ⟨s', h1, h2, h3, h4, h5⟩ := one_line_with_last_newOk (c := c) (h := h) (H := H) (pairs := [])
      (last := pairU t 0) (constant := none) (mul := []) (next := none) hs (by simp) (by simp)
    refine ⟨⟨⟨.base, 4, s.base_offset⟩, t⟩, s', ?_, h2, h3, by simp, fun hH e ag => ?_⟩
    · simp only [mul_add_rest, mul_add_lines, pure_bind]
      rw [run_bind, h1]; rfl
    · obtain ⟨k1, k2, k3⟩ := h5 hH e ag
      exact ⟨k1 (by row_simp), k3, k3⟩
  | l :: ls, first, t, s, hok, hf, hs => by
    obtain ⟨s', h1, h2, h3, h4, h5⟩ := one_line_with_last_newOk (c := c) (h := h) (H := H)
      (pairs := [pairA l.a 0, pairA l.b 0, pairA l.c l.c_coeff])
      (last := if first then pairU t 0 else pairU t 1)
      (constant := none) (mul := [1]) (next := some (-1)) hs
      (fun hH k v y hk => by
        have hok' := hok hH l (by simp)
        rcases k with _ | _ | _ | _ | k <;> simp at hk
        all_goals (obtain ⟨rfl, -⟩ := hk)
        exacts [hok'.1, hok'.2.1, hok'.2.2])
      (fun _ v hv => by cases first <;> simp at hv)
    obtain ⟨a, u, j1, j2, j3, j4, j5⟩ := C_mul_add_rest ls false
      (l.a.val * l.b.val + l.c.val * l.c_coeff + t) s'
      (fun hH l' hl' => hok hH l' (by simp [hl'])) (by simp) h2
    refine ⟨a, u, ?_, j2, h3.trans j3, ?_, fun hH e ag => ?_⟩
    · rw [mul_add_rest_cons, run_bind, h1]; exact j1
    · rw [j4, termsVal_cons]; ring
    · obtain ⟨k1, k2, k3⟩ := h5 hH (j3.embeds e) (j3.agrees ag)
      obtain ⟨i1, i2, i3⟩ := j5 hH e ag
      rw [h4] at i3
      have hv : (if first = true then pairU t 0 else pairU t 1).1.value = t := by cases first <;> rfl
      rw [hv] at k3
      refine ⟨(k1 ?_).trans i1, i2, k3⟩
      rw [i3]
      cases first
      · row_simp; ring
      · rw [hf rfl]; row_simp

theorem S_mul_add_with_next_line (hw : c.Sat w) (ls : List (MulTerm n)) :
    S c (mul_add_with_next_line ls) (fun r => w r.cell = termsW w ls) := by
  unfold mul_add_with_next_line
  refine S.bind_rassert fun hlen => ?_
  match ls, hlen with
  | [l], _ => exact (S_mul_add hw _ _ _ _ _).mono fun r hr => by rw [hr]; simp
  | l :: l' :: ls, _ =>
    intro s a u hs hrun
    obtain ⟨fu, g, k⟩ := S_mul_add_rest hw (l :: l' :: ls) true 0 s u a (by simp) hs hrun
    refine ⟨fu, g, fun e => ?_⟩
    show w a.cell = _
    rw [k e]; simp [accCoeff]

theorem C_mul_add_with_next_line (ls : List (MulTerm n)) (hne : ls ≠ [])
    (hok : H → ∀ l ∈ ls, Ok h l.a ∧ Ok h l.b ∧ Ok h l.c) :
    C c h H (mul_add_with_next_line ls) (fun r => r.val = termsVal ls) (fun r => Ok h r) := by
  unfold mul_add_with_next_line
  refine C.bind_rassert (by simpa [List.length_pos_iff] using hne) ?_
  match ls, hne, hok with
  | [l], _, hok =>
    exact (C_mul_add fun hH => hok hH l (by simp)).mono (fun r hr => by rw [hr]; simp) fun _ _ _ hq => hq
  | l :: l' :: ls, _, hok =>
    intro s hs
    obtain ⟨a, u, j1, j2, j3, j4, j5⟩ := C_mul_add_rest (c := c) (l :: l' :: ls) true 0 s hok
      (fun _ => rfl) hs
    refine ⟨a, u, j1, j2, j3, j4.trans (zero_add _), fun hH e ag => ?_⟩
    obtain ⟨i1, i2, -⟩ := j5 hH e ag
    exact ⟨i1, i2⟩

end Verif
