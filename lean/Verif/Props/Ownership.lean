import Verif.Model.Ownership
import Mathlib.Tactic.Ring
import Mathlib.Algebra.BigOperators.Group.List.Basic

/-!
# C73: taking a context back
-/

namespace Verif.Owner

/-! ## Specification: no counters, only which live object refers to what -/

/-- The object refers to the context `k`. -/
def Obj.Refers : Obj → ℕ → Prop
  | .rc k, k' | .int k, k' | .native k, k' => k' = k
  | .general a b k, k' => k' = a ∨ k' = b ∨ k' = k

/-- The context that is the object's own: the one it records to and is converted to. -/
def Obj.own : Obj → ℕ
  | .rc k | .int k | .native k | .general _ _ k => k

/-- There is a conversion of the object to a context. -/
def Obj.Convertible : Obj → Prop
  | .rc _ => False
  | _ => True

/-- The object `o` is in slot `i`. -/
def State.Live (s : State) (i : ℕ) (o : Obj) : Prop := s.slots[i]? = some (some o)

/-- Curve contexts of the same kind. -/
def SameKind : Obj → Obj → Prop
  | .native _, .native _ => True
  | .general _ _ _, .general _ _ _ => True
  | _, _ => False

/-! ## Counting -/

/-- The number of references of an object to `k`. -/
def Obj.count (k : ℕ) : Obj → ℕ
  | .rc a | .int a | .native a => if a = k then 1 else 0
  | .general a b c => (if a = k then 1 else 0) + (if b = k then 1 else 0) + (if c = k then 1 else 0)

def slotCount (k : ℕ) : Option Obj → ℕ
  | none => 0
  | some o => o.count k

def total (l : List (Option Obj)) (k : ℕ) : ℕ := (l.map (slotCount k)).sum

theorem total_push (l : List (Option Obj)) (o : Option Obj) (k : ℕ) : total (l ++ [o]) k = total l k + slotCount k o := by
  simp [total]

theorem total_set {x : Option Obj} (y : Option Obj) (k : ℕ) : ∀ {l : List (Option Obj)} {i : ℕ}, l[i]? = some x →
    total (l.set i y) k + slotCount k x = total l k + slotCount k y
  | [], i, h => by simp at h
  | z :: l, 0, h => by
    simp only [List.getElem?_cons_zero, Option.some.injEq] at h
    subst h
    simp only [List.set_cons_zero, total, List.map_cons, List.sum_cons]; omega
  | z :: l, i + 1, h => by
    rw [List.getElem?_cons_succ] at h
    have := total_set y k h
    simp only [List.set_cons_succ, total, List.map_cons, List.sum_cons] at this ⊢; omega

theorem total_zero {k : ℕ} : ∀ {l : List (Option Obj)}, total l k = 0 ↔ ∀ (j : ℕ) (o : Obj), l[j]? = some (some o) → o.count k = 0
  | [] => by simp [total]
  | x :: l => by
    have e : total (x :: l) k = slotCount k x + total l k := by simp [total]
    rw [e, Nat.add_eq_zero_iff, total_zero]
    constructor
    · rintro ⟨h1, h2⟩ (_ | j) o hj
      · simp only [List.getElem?_cons_zero, Option.some.injEq] at hj; subst hj; exact h1
      · exact h2 j o hj
    · intro h
      refine ⟨?_, fun j o hj => h (j + 1) o hj⟩
      cases x with
      | none => rfl
      | some o => exact h 0 o rfl

theorem count_zero {o : Obj} {k : ℕ} : o.count k = 0 ↔ ¬ o.Refers k := by
  have h : ∀ a : ℕ, (if a = k then 1 else 0) = 0 ↔ ¬ k = a := fun a => by
    by_cases e : a = k
    · simp [e]
    · simp [e, Ne.symm e]
  cases o with
  | general a b c =>
    simp only [Obj.count, Obj.Refers, Nat.add_eq_zero_iff, h]; tauto
  | _ => simp only [Obj.count, Obj.Refers, h]

/-- The counts are right, and contexts not allocated yet are not referred to. -/
structure Inv (s : State) : Prop where
  cnt : ∀ k, s.cnt k = total s.slots k
  fresh : ∀ k, s.next ≤ k → s.cnt k = 0

theorem get_ok {s : State} {i : ℕ} {o : Obj} : s.get i = .ok o ↔ s.Live i o := by
  unfold State.get State.Live
  split
  · next h => rw [h]; simp
  · next h =>
    constructor
    · intro e; cases e
    · intro e; exact absurd e (h o)

theorem Inv.le {s : State} (h : Inv s) {i : ℕ} {o : Obj} (hi : s.Live i o) (k : ℕ) : o.count k ≤ s.cnt k := by
  have := total_set none k hi
  rw [h.cnt]; simp only [slotCount] at this; omega

theorem Inv.lt {s : State} (h : Inv s) {i : ℕ} {o : Obj} (hi : s.Live i o) {k : ℕ} (hk : o.Refers k) : k < s.next := by
  by_contra hc
  have h1 := h.fresh k (by omega)
  have h2 := h.le hi k
  exact count_zero.1 (by omega) hk

theorem live_lt {s : State} {i : ℕ} {o : Obj} (h : s.Live i o) : i < s.slots.length := by
  by_contra hc
  rw [State.Live, List.getElem?_eq_none (by omega)] at h
  cases h

/-! ## The counts stay right -/

theorem Inv.replace {s : State} (h : Inv s) {i : ℕ} {o o' : Obj} (hi : s.Live i o) (hc : ∀ k, o'.count k = o.count k) :
    Inv (s.put i (some o')) := by
  refine ⟨fun k => ?_, h.fresh⟩
  have := total_set (some o') k hi
  simp only [slotCount, hc] at this
  show s.cnt k = total (s.slots.set i (some o')) k
  rw [h.cnt]; omega

theorem Inv.more {s : State} (h : Inv s) {k : ℕ} (hk : k < s.next) {o : Obj} (ho : ∀ k', o.count k' = if k = k' then 1 else 0) :
    Inv ((s.inc k).push o) := by
  constructor
  · intro k'
    show Function.update s.cnt k (s.cnt k + 1) k' = total (s.slots ++ [some o]) k'
    rw [total_push, slotCount, ho, Function.update_apply, ← h.cnt]
    by_cases e : k' = k
    · simp [e]
    · simp [e, Ne.symm e]
  · intro k' hk'
    show Function.update s.cnt k (s.cnt k + 1) k' = 0
    have hk' : s.next ≤ k' := hk'
    rw [Function.update_apply, if_neg (by omega)]
    exact h.fresh k' hk'

theorem Inv.alloc {s : State} (h : Inv s) {o : Obj} (ho : ∀ k', o.count k' = if s.next = k' then 1 else 0) :
    Inv (s.alloc.push o) := by
  constructor
  · intro k'
    show Function.update s.cnt s.next 1 k' = total (s.slots ++ [some o]) k'
    rw [total_push, slotCount, ho, Function.update_apply, ← h.cnt]
    by_cases e : k' = s.next
    · simp [e, h.fresh s.next (le_refl _)]
    · simp [e, Ne.symm e]
  · intro k' hk'
    have hk' : s.next + 1 ≤ k' := hk'
    show Function.update s.cnt s.next 1 k' = 0
    rw [Function.update_apply, if_neg (by omega)]
    exact h.fresh k' (by omega)

theorem Inv.allocGeneral {s : State} (h : Inv s) :
    Inv (((((s.alloc.inc s.next).inc s.next).inc s.next).dec s.next).push (.general s.next s.next s.next)) := by
  have e : ∀ k', (((((s.alloc.inc s.next).inc s.next).inc s.next).dec s.next)).cnt k' = if k' = s.next then 3 else s.cnt k' := by
    intro k'
    simp only [State.inc, State.dec, State.alloc, Function.update_apply]
    split <;> simp
  constructor
  · intro k'
    refine (e k').trans ?_
    show _ = total (s.slots ++ [some (Obj.general s.next s.next s.next)]) k'
    rw [total_push, slotCount, ← h.cnt]
    by_cases e : k' = s.next
    · simp [e, h.fresh s.next (le_refl _), Obj.count]
    · simp [e, Ne.symm e, Obj.count]
  · intro k' hk'
    have hk' : s.next + 1 ≤ k' := hk'
    refine (e k').trans ?_
    rw [if_neg (by omega)]
    exact h.fresh k' (by omega)

theorem drop_slots (s : State) (o : Obj) : (s.drop_obj o).slots = s.slots := by cases o <;> rfl
theorem drop_next (s : State) (o : Obj) : (s.drop_obj o).next = s.next := by cases o <;> rfl

theorem drop_cnt (s : State) (o : Obj) (k : ℕ) : (s.drop_obj o).cnt k = s.cnt k - o.count k := by
  cases o with
  | general a b c =>
    simp only [State.drop_obj, State.dec, Function.update_apply, Obj.count]
    split_ifs <;> subst_vars <;> simp_all <;> omega
  | _ =>
    simp only [State.drop_obj, State.dec, Function.update_apply, Obj.count]
    split_ifs <;> subst_vars <;> simp_all

theorem Inv.dropped {s : State} (h : Inv s) {i : ℕ} {o : Obj} (hi : s.Live i o) : Inv ((s.put i none).drop_obj o) := by
  constructor
  · intro k
    have := total_set none k hi
    rw [drop_cnt, drop_slots]
    show s.cnt k - o.count k = total (s.slots.set i none) k
    rw [h.cnt]
    simp only [slotCount] at this
    omega
  · intro k hk
    rw [drop_next] at hk
    rw [drop_cnt]
    have : s.cnt k = 0 := h.fresh k hk
    show s.cnt k - _ = 0
    omega

/-- The conversion of a live object: it drops the object, provided that the count, when the other references of the object
are gone, is 1. -/
theorem take_eq {s : State} {i : ℕ} {o : Obj} (hi : s.Live i o) (hc : o.Convertible) (h : Inv s) :
    step s (.take i) = if s.cnt o.own + 1 = 1 + o.count o.own then .ok ((s.put i none).drop_obj o) else .error (.panic .unwrapNone) := by
  have hle := h.le hi o.own
  rw [step, get_ok.2 hi]
  cases o with
  | rc k => exact hc.elim
  | general a b k =>
    show (if (((s.put i none).dec a).dec b).cnt k = 1 then _ else _) = _
    have e : (((s.put i none).dec a).dec b).cnt k = s.cnt k - ((if a = k then 1 else 0) + if b = k then 1 else 0) := by
      show (((s.dec a).dec b).cnt k) = _
      simp only [State.dec, Function.update_apply]
      split_ifs <;> subst_vars <;> simp_all; omega
    rw [e]
    simp only [Obj.own, Obj.count, if_true] at hle ⊢
    congr 1
    apply propext
    by_cases h1 : a = k <;> by_cases h2 : b = k <;> simp only [h1, h2, if_true, if_false] at hle ⊢ <;> omega
  | int k =>
    show (if s.cnt k = 1 then _ else _) = _
    simp only [Obj.own, Obj.count, if_true] at hle ⊢
    congr 1
    apply propext
    omega
  | native k =>
    show (if s.cnt k = 1 then _ else _) = _
    simp only [Obj.own, Obj.count, if_true] at hle ⊢
    congr 1
    apply propext
    omega

theorem get_cases {s : State} {i : ℕ} {f : Obj → Except Fault State} {t : State} (h : (s.get i >>= f) = .ok t) :
    ∃ o, s.Live i o ∧ f o = .ok t := by
  cases e : s.get i with
  | error x => rw [e] at h; cases h
  | ok o => rw [e] at h; exact ⟨o, get_ok.1 e, h⟩

theorem step_inv {s t : State} (h : Inv s) (op : Op) (hs : step s op = .ok t) : Inv t := by
  cases op with
  | newRc => cases hs; exact h.alloc fun _ => rfl
  | cloneRc i =>
    obtain ⟨o, ho, hs⟩ := get_cases hs
    cases o <;> cases hs
    exact h.more (h.lt ho rfl) fun _ => rfl
  | newInt i =>
    obtain ⟨o, ho, hs⟩ := get_cases hs
    cases o <;> cases hs
    exact h.replace ho fun _ => rfl
  | cloneInt i =>
    obtain ⟨o, ho, hs⟩ := get_cases hs
    cases o <;> cases hs
    exact h.more (h.lt ho rfl) fun _ => rfl
  | newNative i =>
    obtain ⟨o, ho, hs⟩ := get_cases hs
    cases o <;> cases hs
    exact h.replace ho fun _ => rfl
  | unpackNative i =>
    obtain ⟨o, ho, hs⟩ := get_cases hs
    cases o <;> cases hs
    exact h.replace ho fun _ => rfl
  | newGeneral i =>
    obtain ⟨o, ho, hs⟩ := get_cases hs
    cases o with
    | rc k =>
      cases hs
      have hk := h.lt ho rfl
      constructor
      · intro k'
        have := total_set (some (Obj.general k k k)) k' ho
        have e : (((s.inc k).inc k).put i (some (.general k k k))).cnt k' = if k' = k then s.cnt k + 2 else s.cnt k' := by
          simp only [State.inc, State.put, Function.update_apply]
          split <;> simp
        rw [e]
        show _ = total (s.slots.set i _) k'
        have hc := h.cnt k'
        simp only [slotCount, Obj.count] at this
        split
        · next hh => subst hh; simp only [if_true] at this; omega
        · next hh => rw [if_neg (Ne.symm hh)] at this; omega
      · intro k' hk'
        have hk' : s.next ≤ k' := hk'
        have := h.fresh k' hk'
        have hne : k' ≠ k := by omega
        simp only [State.inc, State.put, Function.update_apply, hne, if_false, this]
    | _ => cases hs
  | pack i j k =>
    simp only [step] at hs
    split at hs
    · cases hs
    · next hne =>
      obtain ⟨o1, h1, hs⟩ := get_cases hs
      obtain ⟨o2, h2, hs⟩ := get_cases hs
      obtain ⟨o3, h3, hs⟩ := get_cases hs
      rw [not_or, not_or] at hne
      have hs' : ∃ a b c, o1 = .int a ∧ o2 = .int b ∧ o3 = .rc c ∧
          t = ((s.put i none).put j none).put k (some (.general a b c)) := by
        cases o1 <;> cases o2 <;> cases o3 <;> cases hs
        exact ⟨_, _, _, rfl, rfl, rfl, rfl⟩
      obtain ⟨a, b, c, rfl, rfl, rfl, rfl⟩ := hs'
      refine ⟨fun x => ?_, h.fresh⟩
      have e1 := total_set none x h1
      have h2' : (s.slots.set i none)[j]? = some (some (Obj.int b)) := by
        rw [List.getElem?_set_ne hne.1]; exact h2
      have e2 := total_set none x h2'
      have h3' : ((s.slots.set i none).set j none)[k]? = some (some (Obj.rc c)) := by
        rw [List.getElem?_set_ne hne.2.2, List.getElem?_set_ne hne.2.1]; exact h3
      have e3 := total_set (some (Obj.general a b c)) x h3'
      show s.cnt x = total (((s.slots.set i none).set j none).set k _) x
      rw [h.cnt]
      simp only [slotCount, Obj.count] at e1 e2 e3
      omega
  | unpackGeneral i =>
    obtain ⟨o, ho, hs⟩ := get_cases hs
    cases o <;> cases hs
    rename_i a b c
    refine ⟨fun x => ?_, h.fresh⟩
    have e := total_set (some (Obj.rc c)) x ho
    show s.cnt x = total ((s.slots.set i (some (.rc c)) ++ [some (.int a)]) ++ [some (.int b)]) x
    rw [total_push, total_push, h.cnt]
    simp only [slotCount, Obj.count] at e ⊢
    omega
  | cloneWithOffset i =>
    obtain ⟨o, ho, hs⟩ := get_cases hs
    cases o with
    | native k => cases hs; exact h.alloc fun _ => rfl
    | general a b k => cases hs; exact h.allocGeneral
    | _ => cases hs
  | drop i =>
    obtain ⟨o, ho, hs⟩ := get_cases hs
    cases hs
    exact h.dropped ho
  | merge i j =>
    simp only [step] at hs
    split at hs
    · cases hs
    · obtain ⟨o1, h1, hs⟩ := get_cases hs
      obtain ⟨o2, h2, hs⟩ := get_cases hs
      cases o1 with
      | native k =>
        cases o2 with
        | native k' =>
          change (if k = k' then _ else _) = _ at hs
          split at hs
          · cases hs
          · cases hs; exact h.dropped h2
        | _ => cases hs
      | general a b k =>
        cases o2 with
        | general a' b' k' =>
          change (if k = k' then _ else _) = _ at hs
          split at hs
          · cases hs
          · cases hs; exact h.dropped h2
        | _ => cases hs
      | _ => cases hs
  | take i =>
    have hs' := hs
    obtain ⟨o, ho, hs'⟩ := get_cases hs'
    have hc : o.Convertible := by cases o <;> first | exact True.intro | cases hs'
    rw [take_eq ho hc h] at hs
    split at hs
    · cases hs; exact h.dropped ho
    · cases hs

theorem run_inv (ops : List Op) : ∀ {s t : State}, Inv s → run s ops = .ok t → Inv t := by
  induction ops with
  | nil => intro s t h hs; cases hs; exact h
  | cons op ops ih =>
    intro s t h hs
    rw [run] at hs
    cases e : step s op with
    | error x => rw [e] at hs; cases hs
    | ok s' => rw [e] at hs; exact ih (step_inv h op e) hs

theorem inv_empty : Inv State.empty := ⟨fun _ => rfl, fun _ _ => rfl⟩

theorem Inv.others {s : State} (h : Inv s) {i : ℕ} {o : Obj} (hi : s.Live i o) (k : ℕ) :
    s.cnt k = o.count k ↔ ∀ j o', j ≠ i → s.Live j o' → ¬ o'.Refers k := by
  have e := total_set none k hi
  simp only [slotCount] at e
  have h1 : s.cnt k = o.count k ↔ total (s.slots.set i none) k = 0 := by rw [h.cnt]; omega
  rw [h1, total_zero]
  constructor
  · intro hh j o' hj hl
    exact count_zero.1 (hh j o' (by rw [List.getElem?_set_ne (Ne.symm hj)]; exact hl))
  · intro hh j o' hl
    by_cases hj : j = i
    · subst hj
      rw [List.getElem?_set_self (live_lt hi)] at hl
      cases hl
    · rw [List.getElem?_set_ne (Ne.symm hj)] at hl
      exact count_zero.2 (hh j o' hj hl)

/-! ## Clones and merges of a multi-scalar multiplication -/

theorem clone_step {s : State} {i : ℕ} {o : Obj} (hi : s.Live i o) (ho : SameKind o o) :
    ∃ t c, step s (.cloneWithOffset i) = .ok t ∧ t.slots = s.slots ++ [some c] ∧ t.next = s.next + 1 ∧ SameKind o c ∧
      c.own = s.next := by
  cases o with
  | native k => exact ⟨_, .native s.next, by rw [step, get_ok.2 hi]; rfl, rfl, rfl, True.intro, rfl⟩
  | general a b k => exact ⟨_, .general s.next s.next s.next, by rw [step, get_ok.2 hi]; rfl, rfl, rfl, True.intro, rfl⟩
  | _ => exact ho.elim

theorem run_append (a b : List Op) : ∀ s, run s (a ++ b) = run s a >>= fun t => run t b := by
  induction a with
  | nil => intro s; rfl
  | cons op a ih =>
    intro s
    rw [List.cons_append, run, run]
    cases step s op with
    | error x => rfl
    | ok t => exact ih t

theorem live_append {s t : State} {i : ℕ} {o : Obj} {l : List (Option Obj)} (hi : s.Live i o) (ht : t.slots = s.slots ++ l) :
    t.Live i o := by
  rw [State.Live, ht, List.getElem?_append_left (live_lt hi)]
  exact hi

theorem clones {i : ℕ} {o : Obj} (ho : SameKind o o) : ∀ (w : ℕ) {s : State}, s.Live i o →
    ∃ (t : State) (l : List Obj), run s ((List.range w).map fun _ => Op.cloneWithOffset i) = .ok t ∧ t.slots = s.slots ++ l.map some ∧
      l.length = w ∧ ∀ c ∈ l, SameKind o c ∧ s.next ≤ c.own
  | 0, s, hi => ⟨s, [], rfl, by simp, rfl, by simp⟩
  | w + 1, s, hi => by
    obtain ⟨t, c, e1, e2, e3, e4, e5⟩ := clone_step hi ho
    obtain ⟨u, l, f1, f2, f3, f4⟩ := clones ho w (live_append hi e2)
    refine ⟨u, c :: l, ?_, by rw [f2, e2]; simp, by simp [f3], ?_⟩
    · have : (List.range (w + 1)).map (fun _ => Op.cloneWithOffset i) =
          Op.cloneWithOffset i :: (List.range w).map fun _ => Op.cloneWithOffset i := by
        rw [List.range_succ_eq_map]; simp [Function.comp_def]
      rw [this, run, e1]
      exact f1
    · intro d hd
      rcases List.mem_cons.1 hd with rfl | hd
      · exact ⟨e4, by omega⟩
      · exact ⟨(f4 d hd).1, by have := (f4 d hd).2; omega⟩

theorem merge_ok {s : State} {i j : ℕ} {o o' : Obj} (hij : i ≠ j) (hi : s.Live i o) (hj : s.Live j o') (hk : SameKind o o')
    (hne : o.own ≠ o'.own) : ∃ t, step s (.merge i j) = .ok t ∧ t.slots = s.slots.set j none := by
  have e : step s (.merge i j) = s.merge_step j o.own o'.own o' := by
    simp only [step, if_neg hij, get_ok.2 hi, get_ok.2 hj]
    cases o <;> cases o' <;> first | exact hk.elim | rfl
  rw [e, State.merge_step, if_neg hne]
  exact ⟨_, rfl, by rw [drop_slots]; rfl⟩

theorem merges {i : ℕ} {o : Obj} : ∀ (l : List Obj) {s : State} {A : List (Option Obj)}, A[i]? = some (some o) →
    s.slots = A ++ l.map some → (∀ c ∈ l, SameKind o c ∧ o.own ≠ c.own) →
    ∃ t, run s ((List.range l.length).map fun k => Op.merge i (A.length + k)) = .ok t ∧
      t.slots = A ++ List.replicate l.length none
  | [], s, A, _, hs, _ => ⟨s, rfl, by simp [hs]⟩
  | c :: l, s, A, hA, hs, hl => by
    have hlt : i < A.length := by
      by_contra hc
      rw [List.getElem?_eq_none (by omega)] at hA
      cases hA
    have hi : s.Live i o := by rw [State.Live, hs, List.getElem?_append_left hlt]; exact hA
    have hj : s.Live A.length c := by rw [State.Live, hs]; simp
    obtain ⟨t, e1, e2⟩ := merge_ok (by omega) hi hj (hl c (by simp)).1 (hl c (by simp)).2
    have e3 : t.slots = (A ++ [none]) ++ l.map some := by rw [e2, hs]; simp
    obtain ⟨u, f1, f2⟩ := merges l (s := t) (A := A ++ [none]) (by rw [List.getElem?_append_left hlt]; exact hA) e3
      (fun d hd => hl d (by simp [hd]))
    refine ⟨u, ?_, by rw [f2]; simp [List.replicate_succ]⟩
    have : (List.range (c :: l).length).map (fun k => Op.merge i (A.length + k)) =
        Op.merge i A.length :: (List.range l.length).map fun k => Op.merge i ((A ++ [none]).length + k) := by
      rw [List.length_cons, List.range_succ_eq_map]
      simp only [List.map_cons, List.map_map, Nat.add_zero, List.length_append, List.length_singleton]
      congr 1
      apply List.map_congr_left
      intro k _
      show Op.merge i (A.length + (k + 1)) = _
      congr 1
      omega
    rw [this, run, e1]
    exact f1

end Verif.Owner

namespace Verif

open Owner

/-! ## C73 -/

/-- C73: after any history of makings, clones, moves, merges, conversions and drops, converting an object back to its context
goes through if no other live object refers to the context, and panics otherwise. -/
theorem C73_take {ops : List Op} {s : State} (hr : run .empty ops = .ok s) {i : ℕ} {o : Obj} (hi : s.Live i o)
    (hc : o.Convertible) :
    ((∀ j o', j ≠ i → s.Live j o' → ¬ o'.Refers o.own) → ∃ t, step s (.take i) = .ok t) ∧
    ((∃ j o', j ≠ i ∧ s.Live j o' ∧ o'.Refers o.own) → ∃ p, step s (.take i) = .error (.panic p)) := by
  have h := run_inv ops inv_empty hr
  have ho := h.others hi o.own
  rw [take_eq hi hc h]
  constructor
  · intro hh
    rw [if_pos (by rw [ho.2 hh]; omega)]
    exact ⟨_, rfl⟩
  · rintro ⟨j, o', hj, hl, hk⟩
    have : s.cnt o.own ≠ o.count o.own := fun e => ho.1 e j o' hj hl hk
    rw [if_neg (by omega)]
    exact ⟨_, rfl⟩

/-- C73: in a program that compiles, nothing but a conversion and a merge can panic, and a merge panics exactly if the two
curve contexts record to the same context. -/
theorem C73_merge {s : State} {i j : ℕ} {o o' : Obj} (hij : i ≠ j) (hi : s.Live i o) (hj : s.Live j o') (hk : SameKind o o') :
    (o.own = o'.own → ∃ p, step s (.merge i j) = .error (.panic p)) ∧ (o.own ≠ o'.own → ∃ t, step s (.merge i j) = .ok t) := by
  have e : step s (.merge i j) = s.merge_step j o.own o'.own o' := by
    simp only [step, if_neg hij, get_ok.2 hi, get_ok.2 hj]
    cases o <;> cases o' <;> first | exact hk.elim | rfl
  rw [e, State.merge_step]
  exact ⟨fun h => ⟨_, if_pos h⟩, fun h => ⟨_, if_neg h⟩⟩

theorem C73_only {s : State} {op : Op} {p : Panic} (h : step s op = .error (.panic p)) :
    (∃ i, op = .take i) ∨ ∃ i j, op = .merge i j := by
  have hg : ∀ {i : ℕ} {f : Obj → Except Fault State}, (s.get i >>= f) = .error (.panic p) → ∃ o, f o = .error (.panic p) := by
    intro i f h
    cases e : s.get i with
    | error x =>
      rw [e] at h
      have hx : x = .panic p := by injection h
      subst hx
      unfold State.get at e
      split at e <;> cases e
    | ok o => rw [e] at h; exact ⟨o, h⟩
  cases op with
  | take i => exact .inl ⟨i, rfl⟩
  | merge i j => exact .inr ⟨i, j, rfl⟩
  | newRc => cases h
  | pack i j k =>
    simp only [step] at h
    split at h
    · cases h
    · obtain ⟨o1, h⟩ := hg h
      obtain ⟨o2, h⟩ := hg h
      obtain ⟨o3, h⟩ := hg h
      cases o1 <;> cases o2 <;> cases o3 <;> cases h
  | drop i => obtain ⟨o, h⟩ := hg h; cases h
  | _ =>
    obtain ⟨o, h⟩ := hg h
    cases o <;> cases h

/-- C73: a multi-scalar multiplication on a curve context, whatever the number of its windows, makes its clones and takes them
back without a panic, and leaves no reference behind: the objects alive afterwards are those alive before. -/
theorem C73_msm {ops : List Op} {s : State} (hr : run .empty ops = .ok s) {i : ℕ} {o : Obj} (hi : s.Live i o)
    (ho : SameKind o o) (w : ℕ) :
    ∃ t, run .empty (ops ++ msmOps i s.slots.length w) = .ok t ∧ ∀ j o', t.Live j o' ↔ s.Live j o' := by
  have h := run_inv ops inv_empty hr
  have hown : o.own < s.next := h.lt hi (by
    cases o <;> first | exact ho.elim | exact rfl | exact .inr (.inr rfl))
  obtain ⟨t1, c, e1, e2, e3, e4, e5⟩ := clone_step hi ho
  have hj : t1.Live s.slots.length c := by rw [State.Live, e2]; simp
  have hlt := live_lt hi
  obtain ⟨t2, f1, f2⟩ := merge_ok (by omega) (live_append hi e2) hj e4 (by omega)
  have f3 : t2.slots = s.slots ++ [none] := by rw [f2, e2]; simp
  have f4 : s.next ≤ t2.next := by
    have : t2.next = t1.next := by
      have hx := f1
      simp only [step, if_neg (show i ≠ s.slots.length by omega), get_ok.2 (live_append hi e2), get_ok.2 hj] at hx
      cases o <;> cases c <;> first | exact e4.elim | skip
      all_goals
        change State.merge_step _ _ _ _ _ = _ at hx
        rw [State.merge_step] at hx
        split at hx
        · cases hx
        · cases hx
          rfl
    omega
  obtain ⟨t3, l, g1, g2, g3, g4⟩ := clones ho w (live_append hi f3)
  obtain ⟨t4, k1, k2⟩ := merges (i := i) (o := o) l (s := t3) (A := t2.slots) (live_append hi f3) g2
    (fun d hd => ⟨(g4 d hd).1, by have := (g4 d hd).2; omega⟩)
  refine ⟨t4, ?_, ?_⟩
  · rw [run_append, hr]
    show run s (msmOps i s.slots.length w) = _
    rw [msmOps, List.cons_append, run, e1]
    show run t1 (_ :: _) = _
    rw [run, f1]
    show run t2 ((List.range w).map (fun _ => Op.cloneWithOffset i) ++
      (List.range w).map fun t => Op.merge i (s.slots.length + 1 + t)) = _
    rw [run_append, g1]
    show run t3 _ = _
    rw [← k1, g3, f3]
    simp
  · intro j o'
    rw [State.Live, State.Live, k2, f3, List.append_assoc]
    by_cases hjl : j < s.slots.length
    · rw [List.getElem?_append_left hjl]
    · constructor
      · intro hh
        rw [List.getElem?_append_right (by omega)] at hh
        have hm := List.mem_of_getElem? hh
        simp at hm
      · intro hh
        rw [List.getElem?_eq_none (by omega)] at hh
        cases hh

/-! ## Concrete cases -/

/-- The tests of the repository: a curve context is made, a multi-scalar multiplication with 64 windows runs, and the context
is taken back. -/
example : ∃ t, run .empty ([.newRc, .newGeneral 0] ++ msmOps 0 1 64 ++ [.take 0]) = .ok t := by
  obtain ⟨s, hs, hl⟩ : ∃ s, run .empty [.newRc, .newGeneral 0] = .ok s ∧ s.slots = [some (.general 0 0 0)] := ⟨_, rfl, rfl⟩
  have hi : s.Live 0 (.general 0 0 0) := by rw [State.Live, hl]; rfl
  obtain ⟨t, ht, hlive⟩ := C73_msm hs hi True.intro 64
  rw [hl] at ht
  obtain ⟨u, hu⟩ := (C73_take ht ((hlive _ _).2 hi) True.intro).1 (fun j o' hj hl' => by
    have := live_lt ((hlive _ _).1 hl')
    rw [hl] at this
    simp at this
    omega)
  refine ⟨u, ?_⟩
  have ht' : run .empty ([.newRc, .newGeneral 0] ++ msmOps 0 1 64) = .ok t := ht
  rw [run_append, ht']
  show run t [.take 0] = _
  rw [run, hu]
  rfl

/-- A client that keeps a clone of the reference, or of the integer context, cannot take the context back. -/
example : run .empty [.newRc, .cloneRc 0, .newGeneral 0, .take 0] = .error (.panic .unwrapNone) := rfl
example : run .empty [.newRc, .newInt 0, .cloneInt 0, .newNative 0, .take 0] = .error (.panic .unwrapNone) := rfl
/-- After the clone is dropped, they can. -/
example : ∃ t, run .empty [.newRc, .newInt 0, .cloneInt 0, .newNative 0, .drop 1, .take 0] = .ok t := ⟨_, rfl⟩
/-- Two curve contexts on the same context cannot be merged. -/
example : run .empty [.newRc, .newInt 0, .cloneInt 0, .newNative 0, .newNative 1, .merge 0 1] = .error (.panic .assertion) := rfl

end Verif
