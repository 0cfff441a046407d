import Verif.Spec.Tower
import Verif.Props.Integer
import Verif.Proof.ProgAttr

/-!
# A combined judgement for straight-line programs on foreign-field values

`J md L m f`: given the facts `L` about the inputs, the facts `f r` hold of the result `r` of `m`. In the mode
`sound` facts are about a satisfying assignment; in the mode `honest` they are about the recorded witness, and `J`
also says that `m` does not panic and that what it records holds. One derivation serves both.
-/

namespace Verif
variable {n wm : ℕ} {info : RangeInfo n} {α β : Type}

/-- A fact about an assigned value. -/
inductive Atom (n wm : ℕ) where
  /-- The integer represents `x`. -/
  | int (a : AssignedInteger n) (x : ZMod wm)
  /-- The cell carries `b`. -/
  | cell (a : AssignedValue n) (b : ZMod n)
  /-- A fact not about the assignment. -/
  | fact (p : Prop)

/-- The fact holds in the assignment `w`. -/
def Atom.In (info : RangeInfo n) (w : Advice n) : Atom n wm → Prop
  | .int a x => Rep wm info w a x
  | .cell a b => w a.cell = b
  | .fact p => p

/-- The fact holds of the recorded witness. -/
def Atom.Rec (info : RangeInfo n) : Atom n wm → Prop
  | .int a x => HRep1 wm info a x
  | .cell a b => a.val = b
  | .fact p => p

/-- The honest assignment carries the recorded values. -/
def Atom.Okay (h : Advice n) : Atom n wm → Prop
  | .int a _ => OkI h a
  | .cell a _ => Ok h a
  | .fact _ => True

/-- Which side is being proved. -/
inductive Mode (n : ℕ) where
  | sound (c : Circuit n) (w : Advice n) (hw : c.Sat w)
  | honest (c : Circuit n) (h : Advice n)

/-- The completeness side, where inputs must avoid the exceptional cases. -/
def Mode.Honest : Mode n → Prop
  | .sound .. => False
  | .honest .. => True

/-- The combined judgement. -/
def J (info : RangeInfo n) (md : Mode n) (L : List (Atom n wm)) (m : M n α) (f : α → List (Atom n wm)) : Prop :=
  match md with
  | .sound c w _ => S c m (fun r => (∀ A ∈ L, A.In info w) → ∀ A ∈ f r, A.In info w)
  | .honest c h => (∀ A ∈ L, A.Rec info) → C c h (∀ A ∈ L, A.Okay h) m
      (fun r => ∀ A ∈ f r, A.Rec info) (fun r => ∀ A ∈ f r, A.Okay h)

/-- What is assumed about the parameters. -/
structure Env (wm : ℕ) (info : RangeInfo n) : Prop where
  range : RangeInfo.new wm n 18 6 = .ok info
  prime_n : n.Prime
  prime_w : wm.Prime
  dbits : info.d_bits % 108 ≠ 0

section rules
variable {md : Mode n} {L : List (Atom n wm)}

theorem J.bind {m : M n α} {k : α → M n β} {f : α → List (Atom n wm)} {g : β → List (Atom n wm)}
    (hm : J info md L m f) (hk : ∀ a, J info md (f a ++ L) (k a) g) : J info md L (m >>= k) g := by
  cases md with
  | sound c w hw =>
    exact (S.bind hm fun a => (hk a).mono fun b hb hf hL => hb fun A hA =>
      (List.mem_append.1 hA).elim (hf hL A) (hL A))
  | honest c h =>
    intro hL
    refine (C.bind (hm hL) fun a ha => ?_)
    refine (hk a fun A hA => (List.mem_append.1 hA).elim (ha A) (hL A)).weaken ?_
    exact fun hH A hA => (List.mem_append.1 hA).elim (hH.2 A) (hH.1 A)

theorem J.pure {r : α} {f : α → List (Atom n wm)} (h : f r ⊆ L) : J info md L (pure r : M n α) f := by
  cases md with
  | sound c w hw => exact S.pure fun hL A hA => hL A (h hA)
  | honest c k => exact fun hL => C.pure (fun A hA => hL A (h hA)) fun hH A hA => hH A (h hA)

theorem J.mono {m : M n α} {f g : α → List (Atom n wm)} (hm : J info md L m f) (h : ∀ r, g r ⊆ f r) :
    J info md L m g := by
  cases md with
  | sound c w hw => exact hm.mono fun r hr hL A hA => hr hL A (h r hA)
  | honest c k => exact fun hL => (hm hL).mono (fun r hr A hA => hr A (h r hA)) fun r _ _ hr A hA => hr A (h r hA)

/-- A single fact not about the assignment. -/
def fct (p : Prop) : List (Atom n wm) := [.fact p]

/-- A single cell. -/
def atc (a : AssignedValue n) (b : ZMod n) : List (Atom n wm) := [.cell a b]

/-- Facts not about the assignment may be used to derive further ones. -/
theorem J.facts {m : M n α} {f : α → List (Atom n wm)} {p q : Prop} (hp : fct p ⊆ L) (hpq : p → q)
    (hm : J info md (.fact q :: L) m f) : J info md L m f := by
  cases md with
  | sound c w hw =>
    refine S.mono hm fun r hr hL => hr fun A hA => ?_
    rcases List.mem_cons.1 hA with rfl | hA
    · exact hpq (hL _ (hp (List.mem_singleton.2 rfl)))
    · exact hL A hA
  | honest c k =>
    intro hL
    refine C.weaken (hm fun A hA => ?_) fun hH A hA => ?_
    · rcases List.mem_cons.1 hA with rfl | hA
      · exact hpq (hL _ (hp (List.mem_singleton.2 rfl)))
      · exact hL A hA
    · rcases List.mem_cons.1 hA with rfl | hA
      · trivial
      · exact hH A hA

/-- Facts not about the assignment may be combined. -/
theorem J.post₂ {m : M n α} {p q r : Prop} (hm : J info md L m (fun _ => fct q)) (hp : fct p ⊆ L) (h : p → q → r) :
    J info md L m (fun _ => fct r) := by
  have hp' : Atom.fact p ∈ L := hp (List.mem_singleton.2 rfl)
  cases md with
  | sound c w hw =>
    refine S.mono hm fun _ hr hL A hA => ?_
    cases List.mem_singleton.1 hA
    exact h (hL _ hp') (hr hL _ (List.mem_singleton.2 rfl))
  | honest c k =>
    intro hL
    refine (hm hL).mono ?_ ?_
    · intro _ hr A hA; cases List.mem_singleton.1 hA
      exact h (hL _ hp') (hr _ (List.mem_singleton.2 rfl))
    · intro _ _ _ hr A hA; cases List.mem_singleton.1 hA; trivial

/-- A fact in the list may be assumed. -/
theorem J.assume {m : M n α} {f : α → List (Atom n wm)} {p : Prop} (hp : fct p ⊆ L)
    (hm : p → J info md L m f) (hn : md.Honest ∨ ∀ c, S c m fun _ => True) : J info md L m f := by
  cases md with
  | sound c w hw =>
    intro s a t hs h
    rcases hn with hn | hn
    · exact hn.elim
    obtain ⟨h1, h2, -⟩ := hn c s a t hs h
    refine ⟨h1, h2, fun he hL => ?_⟩
    exact (hm (hL _ (hp (List.mem_singleton.2 rfl))) s a t hs h).2.2 he hL
  | honest c k =>
    intro hL
    exact hm (hL _ (hp (List.mem_singleton.2 rfl))) hL

/-- A single integer fact. -/
def at1 (a : AssignedInteger n) (x : ZMod wm) : List (Atom n wm) := [.int a x]

theorem at1_congr {a : AssignedInteger n} {x y : ZMod wm} (h : at1 a x ⊆ L) (e : x = y) : at1 a y ⊆ L := e ▸ h

theorem sub_right {A B C : List (Atom n wm)} (h : A ⊆ C) : A ⊆ B ++ C := fun _ hx => List.mem_append_right _ (h hx)

theorem sub_left {A B C : List (Atom n wm)} (h : A ⊆ B) : A ⊆ B ++ C :=
  fun _ hx => List.mem_append_left _ (h hx)

theorem sub_cons {A : List (Atom n wm)} {B : Atom n wm} {C : List (Atom n wm)} (h : A ⊆ C) : A ⊆ B :: C :=
  fun _ hx => List.mem_cons_of_mem _ (h hx)

theorem at1_in {a : AssignedInteger n} {x : ZMod wm} (h : at1 a x ⊆ L) : .int a x ∈ L := h (List.mem_singleton.2 rfl)

/-! ## Integer operations -/

theorem J.int2 {m : M n (AssignedInteger n)} {a b : AssignedInteger n} {x y z : ZMod wm}
    (hs : Sound m (fun w r => Rep wm info w a x → Rep wm info w b y → Rep wm info w r z))
    (hc : HRep1 wm info a x → HRep1 wm info b y →
      Complete m (fun h => OkI h a ∧ OkI h b) (fun r => HRep1 wm info r z) OkI)
    (ha : at1 a x ⊆ L) (hb : at1 b y ⊆ L) : J info md L m (fun r => at1 r z) := by
  cases md with
  | sound c w hw =>
    refine (hs c w hw).mono fun r hr hL A hA => ?_
    cases List.mem_singleton.1 hA
    exact hr (hL _ (at1_in ha)) (hL _ (at1_in hb))
  | honest c h =>
    intro hL
    refine C.mono ((hc (hL _ (at1_in ha)) (hL _ (at1_in hb)) c h).weaken
      (fun hH : ∀ A ∈ L, A.Okay h => ⟨hH _ (at1_in ha), hH _ (at1_in hb)⟩)) ?_ ?_
    · intro r hr A hA; cases List.mem_singleton.1 hA; exact hr
    · intro r _ _ hr A hA; cases List.mem_singleton.1 hA; exact hr

theorem J.int1 {m : M n (AssignedInteger n)} {a : AssignedInteger n} {x z : ZMod wm}
    (hs : Sound m (fun w r => Rep wm info w a x → Rep wm info w r z))
    (hc : HRep1 wm info a x → Complete m (fun h => OkI h a) (fun r => HRep1 wm info r z) OkI)
    (ha : at1 a x ⊆ L) : J info md L m (fun r => at1 r z) :=
  J.int2 (a := a) (b := a) (x := x) (y := x)
    (fun c w hw => (hs c w hw).mono fun _ hr h _ => hr h)
    (fun h _ c k => (hc h c k).weaken fun hH => hH.1) ha ha

variable (E : Env wm info)
include E

theorem J_int_add {a b : AssignedInteger n} {x y : ZMod wm} (ha : at1 a x ⊆ L) (hb : at1 b y ⊆ L) :
    J info md L (int_add info a b) (fun r => at1 r (x + y)) := by
  haveI := Fact.mk E.prime_n
  refine J.int2 (fun c w hw => (C12_add_sound E.range a b c w hw).mono fun r hr ha hb => (hr x y ha hb).1)
    (fun ha hb c h => ?_) ha hb
  exact (C12_add_complete E.range a b x y ha.rep hb.rep (by have := ha.times; have := hb.times; omega) c h).mono
    (fun r hr => ⟨hr.1, hr.2⟩) fun _ _ _ q => q

theorem J_int_sub {a b : AssignedInteger n} {x y : ZMod wm} (ha : at1 a x ⊆ L) (hb : at1 b y ⊆ L) :
    J info md L (int_sub info a b) (fun r => at1 r (x - y)) := by
  haveI := Fact.mk E.prime_n
  refine J.int2 (fun c w hw => (C12_sub_sound E.range a b c w hw).mono fun r hr ha hb => (hr x y ha hb).1)
    (fun ha hb c h => ?_) ha hb
  exact (C12_sub_complete E.range a b x y ha.rep hb.rep (by have := ha.times; have := hb.times; omega) c h).mono
    (fun r hr => ⟨hr.1, hr.2⟩) fun _ _ _ q => q

theorem J_int_mul {a b : AssignedInteger n} {x y : ZMod wm} (ha : at1 a x ⊆ L) (hb : at1 b y ⊆ L) :
    J info md L (int_mul info a b) (fun r => at1 r (x * y)) := by
  haveI := Fact.mk E.prime_n
  refine J.int2 (fun c w hw => (C14_mul_sound E.range a b c w hw).mono fun r hr ha hb => (hr x y ha hb).1)
    (fun ha hb c h => ?_) ha hb
  exact (C14_mul_complete E.range E.dbits a b x y ha.rep hb.rep c h).mono
    (fun r hr => ⟨hr.1, by omega⟩) fun _ _ _ q => q

theorem J_int_neg {a : AssignedInteger n} {x : ZMod wm} (ha : at1 a x ⊆ L) :
    J info md L (int_neg info a) (fun r => at1 r (-x)) := by
  haveI := Fact.mk E.prime_n
  refine J.int1 (fun c w hw => (C12_neg_sound E.range a c w hw).mono fun r hr ha => (hr x ha).1)
    (fun ha c h => ?_) ha
  exact (C12_neg_complete E.range a x ha.rep (by have := ha.times; omega) c h).mono
    (fun r hr => ⟨hr.1, hr.2⟩) fun _ _ _ q => q

theorem J_int_square {a : AssignedInteger n} {x : ZMod wm} (ha : at1 a x ⊆ L) :
    J info md L (int_square info a) (fun r => at1 r (x ^ 2)) := by
  haveI := Fact.mk E.prime_n
  refine J.int1 (fun c w hw => (C14_square_sound E.range a c w hw).mono fun r hr ha => (hr x ha).1)
    (fun ha c h => ?_) ha
  exact (C14_square_complete E.range E.dbits a x ha.rep c h).mono
    (fun r hr => ⟨hr.1, by omega⟩) fun _ _ _ q => q

theorem J_reduce {a : AssignedInteger n} {x : ZMod wm} (ha : at1 a x ⊆ L) :
    J info md L (reduce info a) (fun r => at1 r x) := by
  haveI := Fact.mk E.prime_n
  refine J.int1 (fun c w hw => (C13_reduce_sound E.range a c w hw).mono fun r hr ha => (hr x ha).1)
    (fun ha c h => ?_) ha
  exact (C13_reduce_complete E.range a x ha.rep c h).mono
    (fun r hr => ⟨hr.1, by omega⟩) fun _ _ _ q => q

theorem J_assign_int_constant {k : ℕ} (hk : k < wm) :
    J info md L (assign_int_constant info k) (fun r => at1 r (k : ZMod wm)) := by
  haveI := Fact.mk E.prime_n
  cases md with
  | sound c w hw =>
    refine (C17_constant_sound E.range k hk c w hw).mono fun r hr _ A hA => ?_
    cases List.mem_singleton.1 hA
    exact hr.1
  | honest c h =>
    intro hL
    refine C.mono ((C17_constant_complete E.range k hk c h).weaken fun _ => trivial) ?_ ?_
    · intro r hr A hA; cases List.mem_singleton.1 hA; exact ⟨hr.1, by omega⟩
    · intro r _ _ hr A hA; cases List.mem_singleton.1 hA; exact hr

theorem J_int_unsafe_invert {a : AssignedInteger n} {x : ZMod wm} (ha : at1 a x ⊆ L) (hx : md.Honest → x ≠ 0) :
    J info md L (int_unsafe_invert info a) (fun r => fct (x ≠ 0) ++ at1 r (x⁻¹)) := by
  haveI := Fact.mk E.prime_n
  haveI := Fact.mk E.prime_w
  cases md with
  | sound c w hw =>
    refine (C15_unsafe_invert_sound E.range a c w hw).mono fun r hr hL A hA => ?_
    obtain ⟨h1, h2, -⟩ := hr x (hL _ (at1_in ha))
    rcases List.mem_append.1 hA with hA | hA <;> cases List.mem_singleton.1 hA
    exacts [h1, h2]
  | honest c h =>
    intro hL
    refine C.mono ((C15_unsafe_invert_complete E.range E.dbits a x (hL _ (at1_in ha)).rep (hx trivial) c h).weaken
      (fun hH : ∀ A ∈ L, A.Okay h => hH _ (at1_in ha))) ?_ ?_
    · intro r hr A hA
      rcases List.mem_append.1 hA with hA | hA <;> cases List.mem_singleton.1 hA
      exacts [hx trivial, ⟨hr.1, by omega⟩]
    · intro r _ _ hr A hA
      rcases List.mem_append.1 hA with hA | hA <;> cases List.mem_singleton.1 hA
      exacts [trivial, hr]

theorem J_assert_int_equal {a b : AssignedInteger n} {x y : ZMod wm} (ha : at1 a x ⊆ L) (hb : at1 b y ⊆ L)
    (hx : md.Honest → x = y) : J info md L (assert_int_equal info a b) (fun _ => fct (x = y)) := by
  haveI := Fact.mk E.prime_n
  cases md with
  | sound c w hw =>
    refine (C16_assert_int_equal_sound E.range a b c w hw).mono fun r hr hL A hA => ?_
    cases List.mem_singleton.1 hA
    exact hr x y (hL _ (at1_in ha)) (hL _ (at1_in hb))
  | honest c h =>
    intro hL
    obtain ⟨ha1, ha2⟩ := hL _ (at1_in ha)
    obtain ⟨hb1, hb2⟩ := hL _ (at1_in hb)
    obtain rfl := hx trivial
    refine C.mono ((C16_assert_int_equal_complete E.range a b x ha1 hb1 (by omega) c h).weaken
      (fun hH : ∀ A ∈ L, A.Okay h => ⟨hH _ (at1_in ha), hH _ (at1_in hb)⟩)) ?_ ?_
    · intro r hr A hA; cases List.mem_singleton.1 hA; exact rfl
    · intro r _ _ hr A hA; cases List.mem_singleton.1 hA; trivial

omit E in
theorem J_assert_false {a : AssignedValue n} {b : ZMod n} (ha : atc a b ⊆ L) (hb : md.Honest → b = 0) :
    J info md L (assert_false a) (fun _ => fct (b = 0)) := by
  have ha' : Atom.cell a b ∈ L := ha (List.mem_singleton.2 rfl)
  cases md with
  | sound c w hw =>
    refine S.mono (S_assert_false hw a) fun r hr hL A hA => ?_
    cases List.mem_singleton.1 hA
    exact (hL _ ha').symm.trans hr
  | honest c h =>
    intro hL
    refine C.mono (C_assert_false (H := ∀ A ∈ L, A.Okay h) ((hL _ ha').trans (hb trivial)) fun hH => hH _ ha') ?_ ?_
    · intro r hr A hA; cases List.mem_singleton.1 hA; exact hb trivial
    · intro r _ _ hr A hA; cases List.mem_singleton.1 hA; trivial

end rules
end Verif
