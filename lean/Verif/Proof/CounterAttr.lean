import Verif.Proof.Counter
import Verif.Proof.ProgAttr

/-!
# Tactics for "counters are small"
-/

open Lean Elab Tactic Meta

namespace Verif

/-- Introduce a variable or hypothesis; a hypothesis `Later r r'` carries every hypothesis `Small r x` over to `r'`. -/
elab "kintro" : tactic => withMainContext do
  let g ← getMainGoal
  let t ← instantiateMVars (← g.getType)
  unless t.consumeMData.isForall do throwError "no variable to introduce"
  let (fv, g) ← g.intro1P
  g.withContext do
    let ty ← instantiateMVars (← fv.getType)
    match_expr ty with
    | Later _ r _ =>
      let mut g := g
      let mut olds := #[]
      for d in ← getLCtx do
        if d.isImplementationDetail then continue
        let dt ← instantiateMVars d.type
        match_expr dt with
        | Small _ _ _ s _ =>
          if s == r then
            let pf ← mkAppM ``Small.mono #[mkFVar fv, d.toExpr]
            let (_, g') ← g.withContext <| g.note d.userName pf
            g := g'
            olds := olds.push d.fvarId
        | _ => pure ()
      g ← g.tryClearMany (olds.push fv)
      replaceMainGoal [g]
    | _ => replaceMainGoal [g]

theorem small_ite {n : ℕ} {α : Type} [HasCounters n α] {r : Tag n} {p : Prop} [Decidable p] {a b : α} (h : Small r a)
    (h' : Small r b) : Small r (if p then a else b) := by
  split
  · exact h
  · exact h'

theorem small_elems_zip {n : ℕ} {r : Tag n} {l : List (AssignedValue n)} {c : List (ZMod n)} (h : Small r l) :
    Small r (l.zip c) := small_zip h (small_fields c)
theorem small_elems_map {n : ℕ} {r : Tag n} {l : List (AssignedValue n)} {k : ZMod n} (h : Small r l) :
    Small r (l.map fun v => (v, k)) := small_map h fun _ ha => small_pair ha (small_field k)

theorem small_take {n : ℕ} {α : Type} [HasCounters n α] {r : Tag n} {l : List α} {k : ℕ} (h : Small r l) : Small r (l.take k) :=
  small_sublist h fun _ => List.mem_of_mem_take
theorem small_drop {n : ℕ} {α : Type} [HasCounters n α] {r : Tag n} {l : List α} {k : ℕ} (h : Small r l) : Small r (l.drop k) :=
  small_sublist h fun _ => List.mem_of_mem_drop
theorem small_reverse {n : ℕ} {α : Type} [HasCounters n α] {r : Tag n} {l : List α} (h : Small r l) : Small r l.reverse :=
  small_sublist h fun _ => List.mem_reverse.1
theorem small_tail {n : ℕ} {α : Type} [HasCounters n α] {r : Tag n} {l : List α} (h : Small r l) : Small r l.tail :=
  small_sublist h fun _ => List.mem_of_mem_tail
theorem small_replicate {n : ℕ} {α : Type} [HasCounters n α] {r : Tag n} {a : α} {k : ℕ} (h : Small r a) :
    Small r (List.replicate k a) := small_list_iff.2 fun _ hb => List.eq_of_mem_replicate hb ▸ h

theorem small_some {n : ℕ} {α : Type} [HasCounters n α] {r : Tag n} {a : α} (h : Small r a) : Small r (some a) := h
theorem small_of_some {n : ℕ} {α : Type} [HasCounters n α] {r : Tag n} {a : α} (h : Small r (some a)) : Small r a := h
theorem small_none' {n : ℕ} {α : Type} [HasCounters n α] {r : Tag n} : Small r (none : Option α) := small_none rfl
theorem small_opts {n : ℕ} {r : Tag n} (l : List (Option (List (ZMod n)))) : Small r l := small_list_iff.2 fun a _ => by
  cases a
  · exact small_none' (r := r)
  · exact small_fields (r := r) _

theorem small_mapIdx {n : ℕ} {r : Tag n} {α : Type} [HasCounters n α] {l : List α} (h : Small r l) (f : ℕ → ZMod n) : Small r (l.mapIdx fun i x => (x, f i)) :=
  small_list_iff.2 fun a ha => by
    obtain ⟨i, hi, rfl⟩ := List.mem_mapIdx.1 ha
    exact small_pair (small_list_iff.1 h _ (List.getElem_mem hi)) (small_field _)

theorem small_chunks {n : ℕ} {r : Tag n} {α : Type} [HasCounters n α] (k : ℕ) {l : List α} (h : Small r l) : Small r (chunks k l) := by
  induction hl : l.length using Nat.strong_induction_on generalizing l with
  | _ m ih =>
    unfold chunks
    split
    · exact small_nil
    · rename_i hk
      refine small_cons (small_take h) (ih _ ?_ (small_drop h) rfl)
      rw [not_or] at hk
      subst hl
      have := List.length_pos_iff.2 hk.1
      rw [List.length_drop]
      omega

theorem cnt_unwrap_nat {n : ℕ} {r : Tag n} (c : Option (ℕ × ℕ)) : Safe r (unwrap c) Small :=
  (cnt_unwrap c).mono fun _ a _ => small_pair (small_nat a.1) (small_nat a.2)

theorem Safe.panic_bind {n : ℕ} {α β : Type} {r : Tag n} {p : Panic} (hp : p ≠ .overflow) {f : α → M n β} {Q : Tag n → β → Prop} :
    Safe r ((Verif.panic p : M n α) >>= f) Q := Safe.bind (P := fun _ _ => False) (Safe.panic hp) fun _ _ _ h => h.elim

theorem one_le_16 : 1 ≤ 16 := by decide

/-- Close a goal `Small r x`. -/
macro "counters" : tactic => `(tactic|
  repeat' first
    | with_reducible assumption
    | with_reducible exact trivial
    | with_reducible exact small_unit _
    | with_reducible exact small_val _
    | with_reducible exact small_vals _
    | with_reducible exact small_nat _
    | with_reducible exact small_field _
    | with_reducible exact small_nats _
    | with_reducible exact small_fields _
    | with_reducible exact small_U _ _
    | with_reducible exact small_opts _
    | with_reducible exact small_none'
    | with_reducible exact small_nil
    | with_reducible exact small_error
    | with_reducible apply small_cons
    | with_reducible apply small_append
    | with_reducible apply small_A
    | with_reducible apply small_ok
    | with_reducible apply small_limbs
    | with_reducible apply small_native
    | with_reducible apply small_cv
    | with_reducible apply small_cz
    | with_reducible apply small_px
    | with_reducible apply small_py
    | with_reducible apply small_pz
    | with_reducible apply small_nx
    | with_reducible apply small_ny
    | with_reducible apply small_pcx
    | with_reducible apply small_pcy
    | with_reducible apply small_pcz
    | with_reducible apply small_pcc
    | with_reducible apply small_ta
    | with_reducible apply small_tb
    | with_reducible apply small_tc
    | with_reducible apply small_to_point
    | with_reducible apply small_pair
    | with_reducible apply small_int
    | with_reducible exact one_le_16
    | (with_reducible apply small_times; with_reducible assumption)
    | with_reducible apply small_term
    | with_reducible apply small_curv
    | with_reducible apply small_point
    | with_reducible apply small_nz
    | with_reducible apply small_pc
    | with_reducible apply small_elems_zip
    | with_reducible apply small_elems_map
    | with_reducible apply small_ite
    | with_reducible apply small_take
    | with_reducible apply small_drop
    | with_reducible apply small_reverse
    | with_reducible apply small_tail
    | with_reducible apply small_chunks
    | with_reducible apply small_mapIdx
    | with_reducible apply small_replicate
    | (with_reducible apply small_left; with_reducible assumption)
    | (with_reducible apply small_right; with_reducible assumption)
    | with_reducible apply small_fst
    | with_reducible apply small_snd)

/-- Decompose a goal `Safe r m P` along binds, case distinctions and known lemmas. -/
macro "countert" : tactic => `(tactic|
  repeat' first
    | kintro
    | with_reducible assumption
    | with_reducible apply Safe.ret
    | with_reducible exact Safe.any
    | with_reducible exact Safe.panic (by decide)
    | with_reducible exact Safe.panic_bind (by decide)
    | with_reducible apply Safe.bindS
    | with_reducible apply Safe.bind
    | with_reducible apply cnt_tryB
    | with_reducible exact cnt_unwrap_nat _
    | head_lemma cnt
    | with_reducible apply cnt_mapM_same
    | with_reducible apply cnt_mapM
    | with_reducible apply Safe.ite
    | (counters; done)
    | dsimp only)

end Verif
