import Verif.Proof.Cells
import Verif.Proof.ProgAttr

/-!
# Tactics for "handed-out cells have values"
-/

open Lean Elab Tactic Meta

namespace Verif

/-- Introduce a variable or hypothesis; a hypothesis `RLe r r'` carries every hypothesis `In r x` over to `r'`. -/
elab "cintro" : tactic => withMainContext do
  let g ← getMainGoal
  let t ← instantiateMVars (← g.getType)
  unless t.consumeMData.isForall do throwError "no variable to introduce"
  let (fv, g) ← g.intro1P
  g.withContext do
    let ty ← instantiateMVars (← fv.getType)
    match_expr ty with
    | RLe _ r _ =>
      let mut g := g
      let mut olds := #[]
      for d in ← getLCtx do
        if d.isImplementationDetail then continue
        let dt ← instantiateMVars d.type
        match_expr dt with
        | In _ _ _ s _ =>
          if s == r then
            let pf ← mkAppM ``In.mono #[mkFVar fv, d.toExpr]
            let (_, g') ← g.withContext <| g.note d.userName pf
            g := g'
            olds := olds.push d.fvarId
        | _ => pure ()
      g ← g.tryClearMany (olds.push fv)
      replaceMainGoal [g]
    | _ => replaceMainGoal [g]

theorem in_ite {n : ℕ} {α : Type} [HasCells n α] {r : RecordsInner n} {p : Prop} [Decidable p] {a b : α} (h : In r a)
    (h' : In r b) : In r (if p then a else b) := by
  split
  · exact h
  · exact h'

theorem in_elems_zip {n : ℕ} {r : RecordsInner n} {l : List (AssignedValue n)} {c : List (ZMod n)} (h : In r l) :
    In r (l.zip c) := in_zip h (in_fields c)
theorem in_elems_map {n : ℕ} {r : RecordsInner n} {l : List (AssignedValue n)} {k : ZMod n} (h : In r l) :
    In r (l.map fun v => (v, k)) := in_map h fun _ ha => in_pair ha (in_field k)

theorem in_take {n : ℕ} {α : Type} [HasCells n α] {r : RecordsInner n} {l : List α} {k : ℕ} (h : In r l) : In r (l.take k) :=
  in_sublist h fun _ => List.mem_of_mem_take
theorem in_drop {n : ℕ} {α : Type} [HasCells n α] {r : RecordsInner n} {l : List α} {k : ℕ} (h : In r l) : In r (l.drop k) :=
  in_sublist h fun _ => List.mem_of_mem_drop
theorem in_reverse {n : ℕ} {α : Type} [HasCells n α] {r : RecordsInner n} {l : List α} (h : In r l) : In r l.reverse :=
  in_sublist h fun _ => List.mem_reverse.1
theorem in_tail {n : ℕ} {α : Type} [HasCells n α] {r : RecordsInner n} {l : List α} (h : In r l) : In r l.tail :=
  in_sublist h fun _ => List.mem_of_mem_tail
theorem in_replicate {n : ℕ} {α : Type} [HasCells n α] {r : RecordsInner n} {a : α} {k : ℕ} (h : In r a) :
    In r (List.replicate k a) := in_list_iff.2 fun _ hb => List.eq_of_mem_replicate hb ▸ h

theorem in_some {n : ℕ} {α : Type} [HasCells n α] {r : RecordsInner n} {a : α} (h : In r a) : In r (some a) := h
theorem in_of_some {n : ℕ} {α : Type} [HasCells n α] {r : RecordsInner n} {a : α} (h : In r (some a)) : In r a := h
theorem in_none' {n : ℕ} {α : Type} [HasCells n α] {r : RecordsInner n} : In r (none : Option α) := in_none rfl
theorem in_opts {n : ℕ} {r : RecordsInner n} (l : List (Option (List (ZMod n)))) : In r l := in_list_iff.2 fun a _ => by
  cases a
  · exact in_none'
  · exact in_fields _

theorem in_mapIdx {n : ℕ} {r : RecordsInner n} {α : Type} [HasCells n α] {l : List α} (h : In r l) (f : ℕ → ZMod n) : In r (l.mapIdx fun i x => (x, f i)) :=
  in_list_iff.2 fun a ha => by
    obtain ⟨i, hi, rfl⟩ := List.mem_mapIdx.1 ha
    exact in_pair (in_list_iff.1 h _ (List.getElem_mem hi)) (in_field _)

theorem in_chunks {n : ℕ} {r : RecordsInner n} {α : Type} [HasCells n α] (k : ℕ) {l : List α} (h : In r l) : In r (chunks k l) := by
  induction hl : l.length using Nat.strong_induction_on generalizing l with
  | _ m ih =>
    unfold chunks
    split
    · exact in_nil
    · rename_i hk
      refine in_cons (in_take h) (ih _ ?_ (in_drop h) rfl)
      rw [not_or] at hk
      subst hl
      have := List.length_pos_iff.2 hk.1
      rw [List.length_drop]
      omega

theorem cel_unwrap_nat {n : ℕ} {r : RecordsInner n} (c : Option (ℕ × ℕ)) : W r (unwrap c) In :=
  (cel_unwrap c).mono fun _ a _ => in_pair (in_nat a.1) (in_nat a.2)

theorem W.panic_bind {n : ℕ} {α β : Type} {r : RecordsInner n} {p : Panic} {f : α → M n β} {Q : RecordsInner n → β → Prop} :
    W r ((Verif.panic p : M n α) >>= f) Q := W.bind (P := fun _ _ => False) W.panic fun _ _ _ h => h.elim

/-- Close a goal `In r x`. -/
macro "cells" : tactic => `(tactic|
  repeat' first
    | with_reducible assumption
    | with_reducible exact trivial
    | with_reducible exact in_unit _
    | with_reducible exact in_nat _
    | with_reducible exact in_field _
    | with_reducible exact in_nats _
    | with_reducible exact in_fields _
    | with_reducible exact in_U _ _
    | with_reducible exact in_opts _
    | with_reducible exact in_none'
    | with_reducible exact in_nil
    | with_reducible exact in_error
    | with_reducible apply in_cons
    | with_reducible apply in_append
    | with_reducible apply in_A
    | with_reducible apply in_ok
    | with_reducible apply in_limbs
    | with_reducible apply in_native
    | with_reducible apply in_cv
    | with_reducible apply in_cz
    | with_reducible apply in_px
    | with_reducible apply in_py
    | with_reducible apply in_pz
    | with_reducible apply in_nx
    | with_reducible apply in_ny
    | with_reducible apply in_pcx
    | with_reducible apply in_pcy
    | with_reducible apply in_pcz
    | with_reducible apply in_pcc
    | with_reducible apply in_ta
    | with_reducible apply in_tb
    | with_reducible apply in_tc
    | with_reducible apply in_to_point
    | with_reducible apply in_pair
    | with_reducible apply in_int
    | with_reducible apply in_term
    | with_reducible apply in_curv
    | with_reducible apply in_point
    | with_reducible apply in_nz
    | with_reducible apply in_pc
    | with_reducible apply in_elems_zip
    | with_reducible apply in_elems_map
    | with_reducible apply in_ite
    | with_reducible apply in_take
    | with_reducible apply in_drop
    | with_reducible apply in_reverse
    | with_reducible apply in_tail
    | with_reducible apply in_chunks
    | with_reducible apply in_mapIdx
    | with_reducible apply in_replicate
    | (with_reducible apply in_left; with_reducible assumption)
    | (with_reducible apply in_right; with_reducible assumption)
    | with_reducible apply in_fst
    | with_reducible apply in_snd)

/-- Decompose a goal `W r m P` along binds, case distinctions and known lemmas. -/
macro "cellt" : tactic => `(tactic|
  repeat' first
    | cintro
    | with_reducible assumption
    | with_reducible apply W.ret
    | with_reducible exact W.any
    | with_reducible exact W.panic
    | with_reducible exact W.panic_bind
    | with_reducible apply W.bindS
    | with_reducible apply W.bind
    | with_reducible apply cel_tryB
    | with_reducible exact cel_unwrap_nat _
    | head_lemma cel
    | with_reducible apply cel_mapM_same
    | with_reducible apply cel_mapM
    | with_reducible apply W.ite
    | (cells; done)
    | dsimp only)

end Verif
