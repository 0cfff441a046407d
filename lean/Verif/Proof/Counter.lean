import Verif.Proof.Logic
import Verif.Model.EccChip
import Verif.Model.Pairing
import Verif.Model.Keccak

/-!
# Overflow counters are small, and their arithmetic does not overflow

The rules follow those of `Verif.Proof.Cells`, with counters in place of cells; the index `r : Tag n` plays no role and only
keeps the two developments parallel.
-/

namespace Verif
variable {n : ℕ} {α β γ : Type}

/-- The set-up reduces integers whose counter exceeds 16. -/
class Six (info : RangeInfo n) : Prop where
  bits : info.overflow_bits = 6

/-- The index of the rules. -/
structure Tag (n : ℕ) where

/-- Nothing is demanded. -/
structure Later (r r' : Tag n) : Prop where
theorem Later.rfl (r : Tag n) : Later r r := ⟨⟩
theorem Later.trans {r r' r'' : Tag n} (_ : Later r r') (_ : Later r' r'') : Later r r'' := ⟨⟩

/-- A value of an overflow counter. -/
structure Counter (n : ℕ) where
  val : ℕ

/-- The overflow counters inside an object. -/
class HasCounters (n : ℕ) (α : Type) where
  counters : α → List (Counter n)

export HasCounters (counters)

instance : HasCounters n (AssignedValue n) := ⟨fun _ => []⟩
instance : HasCounters n Unit := ⟨fun _ => []⟩
instance : HasCounters n ℕ := ⟨fun _ => []⟩
instance : HasCounters n (ZMod n) := ⟨fun _ => []⟩
instance : HasCounters n Offsets := ⟨fun _ => []⟩
instance [HasCounters n α] : HasCounters n (Option α) := ⟨fun o => o.elim [] counters⟩
instance [HasCounters n α] : HasCounters n (List α) := ⟨fun l => l.flatMap counters⟩
instance [HasCounters n α] [HasCounters n β] : HasCounters n (α × β) := ⟨fun x => counters x.1 ++ counters x.2⟩
instance : HasCounters n (ValueSchema n) := ⟨fun _ => []⟩
instance : HasCounters n (AssignedInteger n) := ⟨fun a => [⟨a.times⟩]⟩
instance : HasCounters n (AssignedCurvature n) := ⟨fun a => counters a.v ++ counters a.z⟩
instance : HasCounters n (AssignedPoint n) := ⟨fun a => counters a.x ++ counters a.y ++ counters a.z⟩
instance : HasCounters n (AssignedNonZeroPoint n) := ⟨fun a => counters a.x ++ counters a.y⟩
instance : HasCounters n (AssignedPointWithCurvature n) := ⟨fun a => counters a.x ++ counters a.y ++ counters a.z ++ counters a.curvature⟩
instance : HasCounters n (MulTerm n) := ⟨fun _ => []⟩
instance [HasCounters n α] : HasCounters n (Except UnsafeError α) := ⟨fun x => match x with | .ok a => counters a | .error _ => []⟩

/-- All counters are at most 16. -/
def Small [HasCounters n α] (_ : Tag n) (a : α) : Prop := ∀ c ∈ counters (n := n) a, c.val ≤ 16

theorem Small.mono [HasCounters n α] {r r' : Tag n} (_ : Later r r') {a : α} (ha : Small r a) : Small r' a := ha

section
variable {r : Tag n}
theorem small_none {a : α} [HasCounters n α] (h : counters (n := n) a = []) : Small r a := fun c hc => by rw [h] at hc; cases hc
theorem small_unit (a : Unit) : Small r a := small_none rfl
theorem small_nat (a : ℕ) : Small r a := small_none rfl
theorem small_field (a : ZMod n) : Small r a := small_none rfl
theorem small_nil [HasCounters n α] : Small r ([] : List α) := small_none rfl
theorem small_append_counters {l l' : List (Counter n)} : (∀ c ∈ l ++ l', c.val ≤ 16) ↔ (∀ c ∈ l, c.val ≤ 16) ∧ ∀ c ∈ l', c.val ≤ 16 :=
  List.forall_mem_append
theorem small_cons_iff [HasCounters n α] {a : α} {l : List α} : Small r (a :: l) ↔ Small r a ∧ Small r l := by
  unfold Small
  show (∀ c ∈ (a :: l).flatMap (counters (n := n)), _) ↔ _
  rw [List.flatMap_cons]
  exact small_append_counters
theorem small_list_iff [HasCounters n α] {l : List α} : Small r l ↔ ∀ a ∈ l, Small r a := by
  induction l with
  | nil => exact ⟨fun _ a h => (by cases h), fun _ => small_nil⟩
  | cons a l ih => rw [small_cons_iff, ih, List.forall_mem_cons]
theorem small_val (a : AssignedValue n) : Small r a := small_none rfl
theorem small_vals (l : List (AssignedValue n)) : Small r l := small_list_iff.2 fun a _ => small_val a
theorem small_cons [HasCounters n α] {a : α} {l : List α} (h : Small r a) (hl : Small r l) : Small r (a :: l) := small_cons_iff.2 ⟨h, hl⟩
theorem small_append [HasCounters n α] {l l' : List α} (h : Small r l) (h' : Small r l') : Small r (l ++ l') :=
  small_list_iff.2 fun a ha => (List.mem_append.1 ha).elim (small_list_iff.1 h a) (small_list_iff.1 h' a)
theorem small_pair [HasCounters n α] [HasCounters n β] {a : α} {b : β} (h : Small r a) (h' : Small r b) : Small r (a, b) :=
  small_append_counters.2 ⟨h, h'⟩
theorem small_fst [HasCounters n α] [HasCounters n β] {x : α × β} (h : Small r x) : Small r x.1 := (small_append_counters.1 h).1
theorem small_snd [HasCounters n α] [HasCounters n β] {x : α × β} (h : Small r x) : Small r x.2 := (small_append_counters.1 h).2
theorem small_left [HasCounters n α] [HasCounters n β] {a : α} {b : β} (h : Small r (a, b)) : Small r a := small_fst h
theorem small_right [HasCounters n α] [HasCounters n β] {a : α} {b : β} (h : Small r (a, b)) : Small r b := small_snd h
theorem small_ok [HasCounters n α] {a : α} (h : Small r a) : Small r (.ok a : Except UnsafeError α) := h
theorem small_of_ok [HasCounters n α] {a : α} (h : Small r (.ok a : Except UnsafeError α)) : Small r a := h
theorem small_error [HasCounters n α] {e : UnsafeError} : Small r (.error e : Except UnsafeError α) := small_none rfl
theorem small_U (v k : ZMod n) : Small r (pairU v k) := small_none rfl
theorem small_A {a : AssignedValue n} (_ : Small r a) (k : ZMod n) : Small r (pairA a k) := small_none rfl
theorem small_int {l : List (AssignedValue n)} {v : AssignedValue n} {k : ℕ} (h : k ≤ 16) :
    Small r (⟨l, v, k⟩ : AssignedInteger n) := fun c hc => by rw [List.mem_singleton.1 hc]; exact h
theorem small_times {a : AssignedInteger n} (h : Small r a) : a.times ≤ 16 := h _ (List.mem_singleton.2 rfl)
theorem small_of_times {a : AssignedInteger n} (h : a.times ≤ 16) : Small r a := small_int h
theorem small_limbs {a : AssignedInteger n} (_ : Small r a) : Small r a.limbs_le := small_vals _
theorem small_native {a : AssignedInteger n} (_ : Small r a) : Small r a.native := small_none rfl
theorem small_curv {v : AssignedInteger n} {z : AssignedValue n} (h : Small r v) (h' : Small r z) :
    Small r (⟨v, z⟩ : AssignedCurvature n) := small_append_counters.2 ⟨h, h'⟩
theorem small_cv {a : AssignedCurvature n} (h : Small r a) : Small r a.v := (small_append_counters.1 h).1
theorem small_cz {a : AssignedCurvature n} (h : Small r a) : Small r a.z := (small_append_counters.1 h).2
theorem small_point {x y : AssignedInteger n} {z : AssignedValue n} (h : Small r x) (h' : Small r y) (h'' : Small r z) :
    Small r (⟨x, y, z⟩ : AssignedPoint n) := small_append_counters.2 ⟨small_append_counters.2 ⟨h, h'⟩, h''⟩
theorem small_px {a : AssignedPoint n} (h : Small r a) : Small r a.x := (small_append_counters.1 (small_append_counters.1 h).1).1
theorem small_py {a : AssignedPoint n} (h : Small r a) : Small r a.y := (small_append_counters.1 (small_append_counters.1 h).1).2
theorem small_pz {a : AssignedPoint n} (h : Small r a) : Small r a.z := (small_append_counters.1 h).2
theorem small_nz {x y : AssignedInteger n} (h : Small r x) (h' : Small r y) : Small r (⟨x, y⟩ : AssignedNonZeroPoint n) :=
  small_append_counters.2 ⟨h, h'⟩
theorem small_nx {a : AssignedNonZeroPoint n} (h : Small r a) : Small r a.x := (small_append_counters.1 h).1
theorem small_ny {a : AssignedNonZeroPoint n} (h : Small r a) : Small r a.y := (small_append_counters.1 h).2
theorem small_pc {x y : AssignedInteger n} {z : AssignedValue n} {c : AssignedCurvature n} (h : Small r x) (h' : Small r y)
    (h'' : Small r z) (hc : Small r c) : Small r (⟨x, y, z, c⟩ : AssignedPointWithCurvature n) :=
  small_append_counters.2 ⟨small_append_counters.2 ⟨small_append_counters.2 ⟨h, h'⟩, h''⟩, hc⟩
theorem small_pcc {a : AssignedPointWithCurvature n} (h : Small r a) : Small r a.curvature := (small_append_counters.1 h).2
theorem small_pcz {a : AssignedPointWithCurvature n} (h : Small r a) : Small r a.z := (small_append_counters.1 (small_append_counters.1 h).1).2
theorem small_pcx {a : AssignedPointWithCurvature n} (h : Small r a) : Small r a.x :=
  (small_append_counters.1 (small_append_counters.1 (small_append_counters.1 h).1).1).1
theorem small_pcy {a : AssignedPointWithCurvature n} (h : Small r a) : Small r a.y :=
  (small_append_counters.1 (small_append_counters.1 (small_append_counters.1 h).1).1).2
theorem small_to_point {a : AssignedPointWithCurvature n} (h : Small r a) : Small r a.to_point :=
  small_point (small_pcx h) (small_pcy h) (small_pcz h)
theorem small_term {a b c : AssignedValue n} {k : ZMod n} (_ : Small r a) (_ : Small r b) (_ : Small r c) :
    Small r (⟨a, b, c, k⟩ : MulTerm n) := small_none rfl
theorem small_ta {l : MulTerm n} (_ : Small r l) : Small r l.a := small_none rfl
theorem small_tb {l : MulTerm n} (_ : Small r l) : Small r l.b := small_none rfl
theorem small_tc {l : MulTerm n} (_ : Small r l) : Small r l.c := small_none rfl
theorem small_zip [HasCounters n α] [HasCounters n β] {l : List α} {k : List β} (h : Small r l) (h' : Small r k) : Small r (l.zip k) :=
  small_list_iff.2 fun p hp => small_pair (small_list_iff.1 h _ (List.of_mem_zip hp).1) (small_list_iff.1 h' _ (List.of_mem_zip hp).2)
theorem small_fields (l : List (ZMod n)) : Small r l := small_list_iff.2 fun a _ => small_field a
theorem small_nats (l : List ℕ) : Small r l := small_list_iff.2 fun a _ => small_nat a
theorem small_map [HasCounters n α] [HasCounters n β] {f : α → β} {l : List α} (h : Small r l) (hf : ∀ a, Small r a → Small r (f a)) :
    Small r (l.map f) := small_list_iff.2 fun b hb => by
  obtain ⟨a, ha, rfl⟩ := List.mem_map.1 hb
  exact hf a (small_list_iff.1 h a ha)
theorem small_sublist [HasCounters n α] {l l' : List α} (h : Small r l) (hs : ∀ a ∈ l', a ∈ l) : Small r l' :=
  small_list_iff.2 fun a ha => small_list_iff.1 h a (hs a ha)
theorem small_getElem? [HasCounters n α] {l : List α} (h : Small r l) {i : ℕ} {a : α} (e : l[i]? = some a) : Small r a :=
  small_list_iff.1 h a (List.mem_of_getElem? e)
end


/-! ## Rules -/

/-- No run of `m` panics with an overflow, and the result of every run has `P`. -/
def Safe (r : Tag n) (m : M n α) (P : Tag n → α → Prop) : Prop :=
  ∀ s, m s ≠ .error .overflow ∧ ∀ a t, m s = .ok (a, t) → P r a

section
variable {r : Tag n} {P : Tag n → α → Prop} {Q : Tag n → β → Prop}

theorem tag_eq (r r' : Tag n) : r = r' := rfl

theorem Safe.le {r r' : Tag n} (_ : Later r r') {m : M n α} (hm : Safe r m P) : Safe r' m P := hm

theorem Safe.mono {P' : Tag n → α → Prop} {m : M n α} (hm : Safe r m P) (h : ∀ r a, P r a → P' r a) : Safe r m P' :=
  fun s => ⟨(hm s).1, fun a t e => h _ _ ((hm s).2 a t e)⟩

theorem Safe.pure {a : α} (h : ∀ r', Later r r' → P r' a) : Safe r (Pure.pure a) P := fun s =>
  ⟨(nomatch ·), fun b t e => by cases e; exact h r ⟨⟩⟩

theorem Safe.ret [HasCounters n α] {a : α} (h : Small r a) : Safe r (Pure.pure a) Small := .pure fun _ hr => h.mono hr

theorem Safe.any {a : α} : Safe r (Pure.pure a) fun _ _ => True := .pure fun _ _ => trivial

theorem Safe.panic {p : Panic} (hp : p ≠ .overflow) : Safe r (Verif.panic p : M n α) P := fun _ =>
  ⟨fun e => hp (by injection e), fun _ _ e => by cases e⟩

theorem Safe.bindR {m : M n α} {f : α → M n β} (hm : Safe r m P)
    (hf : ∀ a r', (∃ s t, m s = .ok (a, t)) → Later r r' → P r' a → Safe r' (f a) Q) : Safe r (m >>= f) Q := by
  intro s
  obtain ⟨h1, h2⟩ := hm s
  cases e : m s with
  | error p =>
    have e' : (m >>= f) s = .error p := by rw [run_bind, e]
    rw [e']
    exact ⟨fun h => h1 (by rw [e]; exact congrArg _ (by injection h)), fun _ _ h => by cases h⟩
  | ok x =>
    obtain ⟨a, u⟩ := x
    have e' : (m >>= f) s = f a u := by rw [run_bind, e]
    rw [e']
    exact hf a r ⟨s, u, e⟩ ⟨⟩ (h2 a u e) u

theorem Safe.bind {m : M n α} {f : α → M n β} (hm : Safe r m P) (hf : ∀ a r', Later r r' → P r' a → Safe r' (f a) Q) :
    Safe r (m >>= f) Q := hm.bindR fun a r' _ h h' => hf a r' h h'

theorem Safe.bindS [HasCounters n α] [HasCounters n γ] {m : M n (α × γ)} {f : α × γ → M n β} (hm : Safe r m Small)
    (hf : ∀ a b r', Later r r' → Small r' a → Small r' b → Safe r' (f (a, b)) Q) : Safe r (m >>= f) Q :=
  hm.bind fun x r' hr hx => hf x.1 x.2 r' hr (small_fst hx) (small_snd hx)

theorem Safe.ite {p : Prop} [Decidable p] {m m' : M n α} (h : Safe r m P) (h' : Safe r m' P) : Safe r (if p then m else m') P := by
  split
  · exact h
  · exact h'

theorem cnt_rassert (b : Bool) : Safe r (rassert b) Small := by
  unfold rassert
  cases b
  · exact .panic (by decide)
  · exact .ret (small_unit _)

theorem cnt_fits_u64 {x : ℕ} (h : x < 2 ^ 64) : Safe r (fits_u64 x) Small := by
  unfold fits_u64
  rw [if_pos h]
  exact .ret (small_unit _)

theorem cnt_unwrap (o : Option α) : Safe r (unwrap o) fun _ _ => True := by
  cases o
  · exact .panic (by decide)
  · exact .any

theorem cnt_index [HasCounters n α] {l : List α} (h : Small r l) (i : ℕ) : Safe r (index l i) Small := by
  unfold index
  cases e : l[i]? with
  | none => exact .panic (by decide)
  | some a => exact .ret (small_getElem? h e)

theorem cnt_index_any (l : List α) (i : ℕ) : Safe r (index l i) fun _ _ => True := by
  unfold index
  cases l[i]?
  · exact .panic (by decide)
  · exact .any

theorem cnt_mapM_gen [HasCounters n β] {f : α → M n β} (l : List α) (hf : ∀ a ∈ l, ∀ r', Later r r' → Safe r' (f a) Small) :
    Safe r (l.mapM f) Small := by
  induction l generalizing r with
  | nil => exact .ret small_nil
  | cons a l ih =>
    rw [List.mapM_cons]
    refine (hf a List.mem_cons_self _ (.rfl _)).bind fun b r1 h1 hb => ?_
    refine (ih (r := r1) fun a ha r' hr => hf a (List.mem_cons_of_mem _ ha) _ (h1.trans hr)).bind fun l r2 h2 hl => ?_
    exact .ret (small_cons (hb.mono h2) hl)

theorem cnt_mapM_same [HasCounters n β] {f : α → M n β} (l : List α) (hf : ∀ a r', Later r r' → Safe r' (f a) Small) :
    Safe r (l.mapM f) Small := cnt_mapM_gen l fun a _ => hf a

theorem cnt_mapM [HasCounters n α] [HasCounters n β] {f : α → M n β} {l : List α} (hl : Small r l)
    (hf : ∀ a r', Later r r' → Small r' a → Safe r' (f a) Small) : Safe r (l.mapM f) Small :=
  cnt_mapM_gen l fun a ha r' hr => hf a r' hr ((small_list_iff.1 hl a ha).mono hr)

theorem cnt_tryB [HasCounters n α] {m : M n (Except UnsafeError α)} {k : α → M n (Except UnsafeError β)}
    {Q : Tag n → Except UnsafeError β → Prop} (he : ∀ r e, Q r (.error e)) (h : Safe r m Small)
    (hk : ∀ a r', Later r r' → Small r' a → Safe r' (k a) Q) : Safe r (tryB m k) Q := by
  unfold tryB
  refine h.bind fun x r' hr hx => ?_
  cases x with
  | ok a => exact hk a r' hr hx
  | error e => exact .pure fun _ _ => he _ _
end


/-! ## The primitive writers -/

section
variable {r : Tag n}

theorem no_one_line (s : Records n) (o : ℕ) (l : List (ValueSchema n × ZMod n)) (c : Option (ZMod n)) (mul : List (ZMod n))
    (next : Option (ZMod n)) : s.one_line o l c mul next ≠ .error .overflow := by
  unfold Records.one_line
  dsimp only [bind, Except.bind, pure, Except.pure, throw, throwThe, MonadExceptOf.throw]
  cases next <;> cases c <;> dsimp only <;> repeat' split
  all_goals intro h; cases h

theorem no_one_line_with_last (s : Records n) (o : ℕ) (l : List (ValueSchema n × ZMod n)) (x : ValueSchema n × ZMod n)
    (c : Option (ZMod n)) (mul : List (ZMod n)) (next : Option (ZMod n)) :
    s.one_line_with_last o l x c mul next ≠ .error .overflow := by
  unfold Records.one_line_with_last
  have h := no_one_line s o l c mul next
  cases e : s.one_line o l c mul next with
  | error p =>
    rw [e] at h
    dsimp only [bind, Except.bind, pure, Except.pure, throw, throwThe, MonadExceptOf.throw]
    split
    · intro h; cases h
    · exact h
  | ok t =>
    dsimp only [bind, Except.bind, pure, Except.pure, throw, throwThe, MonadExceptOf.throw]
    split <;> (intro h; cases h)

theorem no_range_one (s : Records n) (o : ℕ) (v : List (ZMod n)) (x : ZMod n) (bits : ℕ) :
    s.assign_one_line_range_value o v x bits ≠ .error .overflow := by
  unfold Records.assign_one_line_range_value
  cases v <;> dsimp only [bind, Except.bind, pure, Except.pure, throw, throwThe, MonadExceptOf.throw, List.getElem?_nil,
    List.getElem?_cons_zero] <;> repeat' split
  all_goals intro h; cases h

theorem no_range_two (s : Records n) (o : ℕ) (v : List (ZMod n)) (x : ZMod n) (bits : ℕ) :
    s.assign_two_line_range_value o v x bits ≠ .error .overflow := by
  unfold Records.assign_two_line_range_value
  dsimp only [bind, Except.bind, pure, Except.pure, throw, throwThe, MonadExceptOf.throw]
  repeat' split
  all_goals intro h; cases h

theorem no_range_three (s : Records n) (o : ℕ) (v : List (ZMod n)) (x : ZMod n) (bits : ℕ) :
    s.assign_three_line_range_value o v x bits ≠ .error .overflow := by
  unfold Records.assign_three_line_range_value
  dsimp only [bind, Except.bind, pure, Except.pure, throw, throwThe, MonadExceptOf.throw]
  repeat' split
  all_goals intro h; cases h

theorem no_bind {α β : Type} {m : Except Panic α} {f : α → Except Panic β} (h : m ≠ .error .overflow)
    (hf : ∀ a, f a ≠ .error .overflow) : (m >>= f) ≠ .error .overflow := by
  cases m with
  | error p => exact fun e => h (by injection e with e; rw [e])
  | ok a => exact hf a

theorem no_range (s : Records n) (o : ℕ) (v : List (ZMod n)) (x : ZMod n) (bits : ℕ) :
    s.assign_range_value o v x bits ≠ .error .overflow := by
  unfold Records.assign_range_value
  split
  · exact no_bind (no_range_one _ _ _ _ _) fun _ => (nomatch ·)
  split
  · exact (nomatch ·)
  split
  · exact no_bind (no_range_two _ _ _ _ _) fun _ => (nomatch ·)
  split
  · exact no_bind (no_range_three _ _ _ _ _) fun _ => (nomatch ·)
  · exact (nomatch ·)

theorem cnt_one_line {l : List (ValueSchema n × ZMod n)} (_ : Small r l) (c : Option (ZMod n)) (mul : List (ZMod n))
    (next : Option (ZMod n)) : Safe r (one_line l c mul next) Small := by
  intro s
  refine ⟨fun e => ?_, fun _ _ _ => small_vals _⟩
  unfold one_line at e
  split at e
  · rename_i p h
    cases e
    exact no_one_line _ _ _ _ _ _ h
  · cases e

theorem cnt_one_line_with_last {l : List (ValueSchema n × ZMod n)} {x : ValueSchema n × ZMod n} (_ : Small r l) (_ : Small r x)
    (c : Option (ZMod n)) (mul : List (ZMod n)) (next : Option (ZMod n)) :
    Safe r (one_line_with_last l x c mul next) Small := by
  intro s
  refine ⟨fun e => ?_, fun _ _ _ => small_pair (small_vals _) (small_val _)⟩
  unfold one_line_with_last at e
  split at e
  · rename_i p h
    cases e
    exact no_one_line_with_last _ _ _ _ _ _ _ h
  · cases e

theorem cnt_assign_range (v : ZMod n × List (ZMod n)) (bits : ℕ) : Safe r (assign_range v bits) Small := by
  intro s
  refine ⟨fun e => ?_, fun _ _ _ => small_val _⟩
  unfold assign_range at e
  split at e
  · rename_i p h
    cases e
    exact no_range _ _ _ _ _ h
  · cases e

theorem cnt_assign_common (bn : ℕ) : Safe r (assign_common bn) Small := by
  intro s
  refine ⟨fun e => ?_, fun _ _ _ => small_val _⟩
  unfold assign_common at e
  split at e
  · rename_i p h
    cases e
    exact no_range_one _ _ _ _ _ h
  · cases e

theorem cnt_assign_cache_value {v : AssignedValue n} (_ : Small r v) (offset g sel : ℕ) :
    Safe r (assign_cache_value v offset g sel) Small := fun _ =>
  ⟨(nomatch ·), fun _ _ _ => small_unit _⟩

theorem cnt_assign_selected_value (v : AssignedValue n) (offset g : ℕ) {sel : AssignedValue n} (_ : Small r sel) :
    Safe r (assign_selected_value v offset g sel) Small := fun _ =>
  ⟨(nomatch ·), fun _ _ _ => small_val _⟩
end

end Verif
