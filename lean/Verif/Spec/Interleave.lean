import Verif.Spec.Log

/-!
# Schedules

Sequential execution of the work on the windows, and the schedules of work done in parallel.
-/

namespace Verif
variable {n : ℕ} {α ε : Type}

/-- The work on the windows in the list, one after another on one context. -/
def sequential (body : ℕ → M n (Except ε α)) : List ℕ → M n (Except ε (List α))
  | [] => pure (.ok [])
  | i :: is => do
    let r ← body i
    match r with
    | .error e => pure (.error e)
    | .ok a => do
      let r ← sequential body is
      match r with
      | .error e => pure (.error e)
      | .ok l => pure (.ok (a :: l))

/-- `zs` is an interleaving of the lists `ls`: at every step the next element of one of them. -/
inductive Interleaving {β : Type} : List (List β) → List β → Prop
  | done {ls : List (List β)} (h : ∀ l ∈ ls, l = []) : Interleaving ls []
  | step (pre : List (List β)) (x : β) (l : List β) (post : List (List β)) (zs : List β)
      (h : Interleaving (pre ++ l :: post) zs) : Interleaving (pre ++ (x :: l) :: post) (x :: zs)

/-- The effect of a write on the shared arrays; copy constraints and heights are not shared. -/
def Write.applyInner (s : RecordsInner n) : Write n → RecordsInner n
  | .adv .base r c v => { s with base_adv_record := setCell s.base_adv_record r c v }
  | .adv .range r c v => { s with range_adv_record := setCell s.range_adv_record r c v }
  | .adv .select r c v => { s with select_adv_record := setCell s.select_adv_record r c v }
  | .fix .base r c v => { s with base_fix_record := setCell s.base_fix_record r c v }
  | .fix .range r c v => { s with range_fix_record := setCell s.range_fix_record r c v }
  | .fix .select r c v => { s with select_fix_record := setCell s.select_fix_record r c v }
  | .flag cell => { s with permute_flag := fun c => if c = cell then true else s.permute_flag c }
  | .perm _ _ => s
  | .height _ _ => s

end Verif
