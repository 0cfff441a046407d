import Verif.Spec.IntProg
import Verif.Props.Integer
import Verif.Props.Base

/-!
# C18 - C20: arbitrary programs over the integer chip
-/

namespace Verif
variable {n wm : ℕ} {info : RangeInfo n}

section forall2
variable {α β : Type} {R : α → β → Prop}

theorem forall2_get {l : List α} {m : List β} (h : List.Forall₂ R l m) : ∀ {i : ℕ} {a : α}, l[i]? = some a →
    ∃ b, m[i]? = some b ∧ R a b := by
  induction h with
  | nil => intro i a h; simp at h
  | cons r _ ih =>
    intro i a h
    cases i with
    | zero => simp at h; exact ⟨_, rfl, h ▸ r⟩
    | succ i => simpa using ih (by simpa using h)

theorem forall2_get' {l : List α} {m : List β} (h : List.Forall₂ R l m) : ∀ {i : ℕ} {b : β}, m[i]? = some b →
    ∃ a, l[i]? = some a ∧ R a b := by
  induction h with
  | nil => intro i a h; simp at h
  | cons r _ ih =>
    intro i a h
    cases i with
    | zero => simp at h; exact ⟨_, rfl, h ▸ r⟩
    | succ i => simpa using ih (by simpa using h)

theorem forall2_snoc {l : List α} {m : List β} (h : List.Forall₂ R l m) {a : α} {b : β} (hr : R a b) :
    List.Forall₂ R (l ++ [a]) (m ++ [b]) := List.rel_append h (.cons hr .nil)
end forall2

theorem RepSt.pushI {w : Advice n} {s : St n} {r : Ref wm} (h : RepSt wm info w s r) {a : AssignedInteger n}
    {x : ZMod wm} (ha : Rep wm info w a x) : RepSt wm info w (s.pushI a) (r.pushV x) :=
  ⟨forall2_snoc h.ints ha, h.conds⟩

theorem RepSt.pushC {w : Advice n} {s : St n} {r : Ref wm} (h : RepSt wm info w s r) {a : AssignedCondition n}
    {b : Bool} (ha : Holds w a b) : RepSt wm info w (s.pushC a) (r.pushF b) :=
  ⟨h.ints, forall2_snoc h.conds ha⟩

theorem exec_sound [Fact n.Prime] [Fact wm.Prime] (h : RangeInfo.new wm n 18 6 = .ok info) {c : Circuit n}
    {w : Advice n} (hw : c.Sat w) (i : Instr wm) (s : St n)
    (hk : ∀ j k, i = .smallMul j k → 1 ≤ k) :
    S c (i.exec info s) (fun s' => ∀ r, RepSt wm info w s r → ∃ r', Step i r r' ∧ RepSt wm info w s' r') := by
  have hwm : NeZero wm := ⟨(Fact.out : wm.Prime).ne_zero⟩
  cases i with
  | assign x =>
    refine S.bind (C11_assign_w_sound h _ c w hw) fun a => S.pure fun ha r hr => ?_
    exact ⟨_, .assign _ _, hr.pushI ⟨ha.1, rfl⟩⟩
  | const x =>
    refine S.bind (C17_constant_sound h _ (ZMod.val_lt x) c w hw) fun a => S.pure fun ha r hr => ?_
    refine ⟨_, .const x, hr.pushI ?_⟩
    have := ha.1
    rwa [ZMod.natCast_zmod_val] at this
  | add i j =>
    refine S.bind_index fun a ha => S.bind_index fun b hb => S.bind (C12_add_sound h a b c w hw) fun t =>
      S.pure fun ht r hr => ?_
    obtain ⟨x, hx, rx⟩ := forall2_get hr.ints ha
    obtain ⟨y, hy, ry⟩ := forall2_get hr.ints hb
    exact ⟨_, .add hx hy, hr.pushI (ht x y rx ry).1⟩
  | sub i j =>
    refine S.bind_index fun a ha => S.bind_index fun b hb => S.bind (C12_sub_sound h a b c w hw) fun t =>
      S.pure fun ht r hr => ?_
    obtain ⟨x, hx, rx⟩ := forall2_get hr.ints ha
    obtain ⟨y, hy, ry⟩ := forall2_get hr.ints hb
    exact ⟨_, .sub hx hy, hr.pushI (ht x y rx ry).1⟩
  | neg i =>
    refine S.bind_index fun a ha => S.bind (C12_neg_sound h a c w hw) fun t => S.pure fun ht r hr => ?_
    obtain ⟨x, hx, rx⟩ := forall2_get hr.ints ha
    exact ⟨_, .neg hx, hr.pushI (ht x rx).1⟩
  | mul i j =>
    refine S.bind_index fun a ha => S.bind_index fun b hb => S.bind (C14_mul_sound h a b c w hw) fun t =>
      S.pure fun ht r hr => ?_
    obtain ⟨x, hx, rx⟩ := forall2_get hr.ints ha
    obtain ⟨y, hy, ry⟩ := forall2_get hr.ints hb
    exact ⟨_, .mul hx hy, hr.pushI (ht x y rx ry).1⟩
  | square i =>
    refine S.bind_index fun a ha => S.bind (C14_square_sound h a c w hw) fun t => S.pure fun ht r hr => ?_
    obtain ⟨x, hx, rx⟩ := forall2_get hr.ints ha
    exact ⟨_, .square hx, hr.pushI (ht x rx).1⟩
  | smallMul i k =>
    refine S.bind_index fun a ha => S.bind (C12_small_mul_sound h a k (hk _ _ rfl) c w hw) fun t =>
      S.pure fun ht r hr => ?_
    obtain ⟨x, hx, rx⟩ := forall2_get hr.ints ha
    exact ⟨_, .smallMul hx, hr.pushI (ht x rx).1⟩
  | div i j =>
    refine S.bind_index fun a ha => S.bind_index fun b hb => S.bind (C15_div_sound h a b c w hw) fun t =>
      S.pure fun ht r hr => ?_
    obtain ⟨x, hx, rx⟩ := forall2_get hr.ints ha
    obtain ⟨y, hy, ry⟩ := forall2_get hr.ints hb
    obtain ⟨h1, h2, h3, -⟩ := ht x y rx ry
    refine ⟨_, .div (q := V (cv w) t.2) hx hy fun hy => ((h2 hy).2.eq), (hr.pushI ⟨h3, rfl⟩).pushC ?_⟩
    unfold Holds
    by_cases hy : y = 0
    · simpa [hy] using h1 hy
    · simpa [hy] using (h2 hy).1
  | reduce i =>
    refine S.bind_index fun a ha => S.bind (C13_reduce_sound h a c w hw) fun t => S.pure fun ht r hr => ?_
    obtain ⟨x, hx, rx⟩ := forall2_get hr.ints ha
    exact ⟨_, .reduce hx, hr.pushI (ht x rx).1⟩
  | isZero i =>
    refine S.bind_index fun a ha => S.bind (C16_is_int_zero_sound h a c w hw) fun t => S.pure fun ht r hr => ?_
    obtain ⟨x, hx, rx⟩ := forall2_get hr.ints ha
    refine ⟨_, .isZero hx, hr.pushC ?_⟩
    unfold Holds
    by_cases h0 : x = 0
    · simpa [h0] using (ht x rx).1 h0
    · simpa [h0] using (ht x rx).2 h0
  | isEqual i j =>
    refine S.bind_index fun a ha => S.bind_index fun b hb => S.bind (C16_is_int_equal_sound h a b c w hw) fun t =>
      S.pure fun ht r hr => ?_
    obtain ⟨x, hx, rx⟩ := forall2_get hr.ints ha
    obtain ⟨y, hy, ry⟩ := forall2_get hr.ints hb
    refine ⟨_, .isEqual hx hy, hr.pushC ?_⟩
    unfold Holds
    by_cases h0 : x = y
    · simpa [h0] using (ht x y rx ry).1 h0
    · simpa [h0] using (ht x y rx ry).2 h0
  | not b =>
    refine S.bind_index fun a ha => S.bind (C04_not_sound a c w hw) fun t => S.pure fun ht r hr => ?_
    obtain ⟨x, hx, rx⟩ := forall2_get hr.conds ha
    exact ⟨_, .not hx, hr.pushC (ht x rx)⟩
  | and b b' =>
    refine S.bind_index fun a ha => S.bind_index fun b hb => S.bind (C04_and_sound a b c w hw) fun t =>
      S.pure fun ht r hr => ?_
    obtain ⟨x, hx, rx⟩ := forall2_get hr.conds ha
    obtain ⟨y, hy, ry⟩ := forall2_get hr.conds hb
    exact ⟨_, .and hx hy, hr.pushC (ht x y rx ry)⟩
  | or b b' =>
    refine S.bind_index fun a ha => S.bind_index fun b hb => S.bind (C04_or_sound a b c w hw) fun t =>
      S.pure fun ht r hr => ?_
    obtain ⟨x, hx, rx⟩ := forall2_get hr.conds ha
    obtain ⟨y, hy, ry⟩ := forall2_get hr.conds hb
    exact ⟨_, .or hx hy, hr.pushC (ht x y rx ry)⟩
  | select b i j =>
    refine S.bind_index fun d hd => S.bind_index fun a ha => S.bind_index fun b hb =>
      S.bind (C17_bisec_int_sound h d a b c w hw) fun t => S.pure fun ht r hr => ?_
    obtain ⟨f, hf, rf⟩ := forall2_get hr.conds hd
    obtain ⟨x, hx, rx⟩ := forall2_get hr.ints ha
    obtain ⟨y, hy, ry⟩ := forall2_get hr.ints hb
    obtain ⟨h1, h2, -⟩ := ht x y rx ry
    refine ⟨_, .select hf hx hy, hr.pushI ?_⟩
    cases f
    · exact h2 rf
    · exact h1 rf
  | assertEqual i j =>
    refine S.bind_index fun a ha => S.bind_index fun b hb =>
      S.bind (C16_assert_int_equal_sound h a b c w hw) fun t => S.pure fun ht r hr => ?_
    obtain ⟨x, hx, rx⟩ := forall2_get hr.ints ha
    obtain ⟨y, hy, ry⟩ := forall2_get hr.ints hb
    obtain rfl := ht x y rx ry
    exact ⟨_, .assertEqual hx hy, hr⟩
  | assertTrue b =>
    refine S.bind_index fun a ha => S.bind (C05_assert_true_sound a c w hw) fun t => S.pure fun ht r hr => ?_
    obtain ⟨x, hx, rx⟩ := forall2_get hr.conds ha
    have : x = true := by
      cases x
      · unfold Holds at rx
        rw [ht] at rx
        simp at rx
      · rfl
    exact ⟨_, .assertTrue (this ▸ hx), hr⟩

/-- C20: for every program (with multipliers at least 1) and every advice assignment satisfying the final
circuit, the produced integers and conditions stand for the results of running the same program in the field
`ZMod wm`, on the inputs the prover assigned. -/
theorem C20_program_sound [Fact n.Prime] [Fact wm.Prime] (h : RangeInfo.new wm n 18 6 = .ok info)
    (prog : List (Instr wm)) (hk : ∀ j k, Instr.smallMul j k ∈ prog → 1 ≤ k) :
    Sound (execAll info prog ⟨[], []⟩) (fun w s => ∃ r, Steps prog ⟨[], []⟩ r ∧ RepSt wm info w s r) := by
  intro c w hw
  have key : ∀ (prog : List (Instr wm)) (s : St n), (∀ j k, Instr.smallMul j k ∈ prog → 1 ≤ k) →
      S c (execAll info prog s) (fun s' => ∀ r, RepSt wm info w s r →
        ∃ r', Steps prog r r' ∧ RepSt wm info w s' r') := by
    intro prog
    induction prog with
    | nil => intro s _; exact S.pure fun r hr => ⟨r, .nil, hr⟩
    | cons i is ih =>
      intro s hk
      refine S.bind (exec_sound h hw i s fun j k e => hk j k (by simp [e])) fun s' => ?_
      refine (ih s' fun j k e => hk j k (by simp [e])).mono fun s'' h2 h1 r hr => ?_
      obtain ⟨r', k1, k2⟩ := h1 r hr
      obtain ⟨r'', k3, k4⟩ := h2 r' k2
      exact ⟨r'', .cons k1 k3, k4⟩
  exact (key prog _ hk).mono fun s hs => hs _ ⟨.nil, .nil⟩

/-- C20, end to end: run a program on an empty context; any advice assignment satisfying the resulting circuit
agrees with the reference semantics. -/
theorem C20_end_to_end [Fact n.Prime] [Fact wm.Prime] (h : RangeInfo.new wm n 18 6 = .ok info)
    (prog : List (Instr wm)) (hk : ∀ j k, Instr.smallMul j k ∈ prog → 1 ≤ k) (s : St n) (t : Context n)
    (hrun : execAll info prog ⟨[], []⟩ (Context.new n) = .ok (s, t)) (usable : ℕ) (hf : t.Fits usable)
    (w : Advice n) (hw : (t.circuit usable).Sat w) :
    ∃ r, Steps prog ⟨[], []⟩ r ∧ RepSt wm info w s r :=
  S.run (C20_program_sound h prog hk) Context.new_fresh hrun hf hw

theorem HRepSt.pushI {s : St n} {r : Ref wm} (h : HRepSt wm info s r) {a : AssignedInteger n}
    {x : ZMod wm} (ha : HRep wm info a x) (ht : a.times ≤ 16) : HRepSt wm info (s.pushI a) (r.pushV x) :=
  ⟨forall2_snoc h.ints ⟨ha, ha.honest.wf.times_pos, ht⟩, h.conds⟩

theorem HRepSt.pushC {s : St n} {r : Ref wm} (h : HRepSt wm info s r) {a : AssignedCondition n}
    {b : Bool} (ha : a.val = if b then 1 else 0) : HRepSt wm info (s.pushC a) (r.pushF b) :=
  ⟨h.ints, forall2_snoc h.conds ha⟩

theorem OkSt.pushI {h : Advice n} {s : St n} (hs : OkSt h s) {a : AssignedInteger n} (ha : OkI h a) :
    OkSt h (s.pushI a) :=
  ⟨fun x hx => by
    rcases List.mem_append.1 hx with hx | hx
    · exact hs.ints x hx
    · rw [List.mem_singleton.1 hx]; exact ha, hs.conds⟩

theorem OkSt.pushC {h : Advice n} {s : St n} (hs : OkSt h s) {a : AssignedCondition n} (ha : Ok h a) :
    OkSt h (s.pushC a) :=
  ⟨hs.ints, fun x hx => by
    rcases List.mem_append.1 hx with hx | hx
    · exact hs.conds x hx
    · rw [List.mem_singleton.1 hx]; exact ha⟩

theorem exec_complete [Fact n.Prime] [Fact wm.Prime] (hi : RangeInfo.new wm n 18 6 = .ok info)
    (hd : info.d_bits % 108 ≠ 0) {c : Circuit n} {h : Advice n} {H : Prop} (i : Instr wm) {s : St n} {r r' : Ref wm}
    (hr : HRepSt wm info s r) (hok : H → OkSt h s) (he : i.eval r = some r') :
    C c h H (i.exec info s) (fun s' => HRepSt wm info s' r') (fun s' => OkSt h s') := by
  have hwm : NeZero wm := ⟨(Fact.out : wm.Prime).ne_zero⟩
  have mI : ∀ {i a}, s.ints[i]? = some a → H → OkI h a := fun hg hH =>
    (hok hH).ints _ (List.mem_of_getElem? hg)
  have mC : ∀ {i a}, s.conds[i]? = some a → H → Ok h a := fun hg hH =>
    (hok hH).conds _ (List.mem_of_getElem? hg)
  cases i with
  | assign x =>
    cases he
    refine C.bind ((C11_assign_w_complete hi _ (ZMod.val_lt x) c h).weaken fun _ => trivial) fun a ha =>
      C.pure (hr.pushI ?_ (by omega)) fun hH => (hok hH.1).pushI hH.2
    have := ha.1
    rwa [ZMod.natCast_zmod_val] at this
  | const x =>
    cases he
    refine C.bind ((C17_constant_complete hi _ (ZMod.val_lt x) c h).weaken fun _ => trivial) fun a ha =>
      C.pure (hr.pushI ?_ (by omega)) fun hH => (hok hH.1).pushI hH.2
    have := ha.1
    rwa [ZMod.natCast_zmod_val] at this
  | add i j =>
    simp only [Instr.eval, Option.bind_eq_bind, Option.bind_eq_some_iff, Option.some.injEq] at he
    obtain ⟨x, hx, y, hy, rfl⟩ := he
    obtain ⟨a, ha, ra⟩ := forall2_get' hr.ints hx
    obtain ⟨b, hb, rb⟩ := forall2_get' hr.ints hy
    refine C.bind_index ha <| C.bind_index hb <| C.bind ((C12_add_complete hi a b x y ra.1 rb.1 (by omega) c h).weaken
      fun hH => ⟨mI ha hH, mI hb hH⟩) fun t ht => C.pure (hr.pushI ht.1 ht.2) fun hH => (hok hH.1).pushI hH.2
  | sub i j =>
    simp only [Instr.eval, Option.bind_eq_bind, Option.bind_eq_some_iff, Option.some.injEq] at he
    obtain ⟨x, hx, y, hy, rfl⟩ := he
    obtain ⟨a, ha, ra⟩ := forall2_get' hr.ints hx
    obtain ⟨b, hb, rb⟩ := forall2_get' hr.ints hy
    refine C.bind_index ha <| C.bind_index hb <| C.bind ((C12_sub_complete hi a b x y ra.1 rb.1 (by omega) c h).weaken
      fun hH => ⟨mI ha hH, mI hb hH⟩) fun t ht => C.pure (hr.pushI ht.1 ht.2) fun hH => (hok hH.1).pushI hH.2
  | neg i =>
    simp only [Instr.eval, Option.bind_eq_bind, Option.bind_eq_some_iff, Option.some.injEq] at he
    obtain ⟨x, hx, rfl⟩ := he
    obtain ⟨a, ha, ra⟩ := forall2_get' hr.ints hx
    refine C.bind_index ha <| C.bind ((C12_neg_complete hi a x ra.1 (by omega) c h).weaken
      (mI ha)) fun t ht => C.pure (hr.pushI ht.1 ht.2) fun hH => (hok hH.1).pushI hH.2
  | mul i j =>
    simp only [Instr.eval, Option.bind_eq_bind, Option.bind_eq_some_iff, Option.some.injEq] at he
    obtain ⟨x, hx, y, hy, rfl⟩ := he
    obtain ⟨a, ha, ra⟩ := forall2_get' hr.ints hx
    obtain ⟨b, hb, rb⟩ := forall2_get' hr.ints hy
    refine C.bind_index ha <| C.bind_index hb <| C.bind ((C14_mul_complete hi hd a b x y ra.1 rb.1 c h).weaken
      fun hH => ⟨mI ha hH, mI hb hH⟩) fun t ht => C.pure (hr.pushI ht.1 (by omega)) fun hH =>
        (hok hH.1).pushI hH.2
  | square i =>
    simp only [Instr.eval, Option.bind_eq_bind, Option.bind_eq_some_iff, Option.some.injEq] at he
    obtain ⟨x, hx, rfl⟩ := he
    obtain ⟨a, ha, ra⟩ := forall2_get' hr.ints hx
    refine C.bind_index ha <| C.bind ((C14_square_complete hi hd a x ra.1 c h).weaken
      (mI ha)) fun t ht => C.pure (hr.pushI ht.1 (by omega)) fun hH => (hok hH.1).pushI hH.2
  | smallMul i k =>
    simp only [Instr.eval, Option.bind_eq_bind, Option.bind_eq_some_iff] at he
    obtain ⟨x, hx, he⟩ := he
    split at he
    · rename_i hk
      cases he
      obtain ⟨a, ha, ra⟩ := forall2_get' hr.ints hx
      refine C.bind_index ha <| C.bind ((C12_small_mul_complete hi a k hk.1 hk.2 x ra.1 c h).weaken
        (mI ha)) fun t ht => C.pure (hr.pushI ht.1 ht.2) fun hH => (hok hH.1).pushI hH.2
    · cases he
  | div i j =>
    simp only [Instr.eval, Option.bind_eq_bind, Option.bind_eq_some_iff, Option.some.injEq] at he
    obtain ⟨x, hx, y, hy, rfl⟩ := he
    obtain ⟨a, ha, ra⟩ := forall2_get' hr.ints hx
    obtain ⟨b, hb, rb⟩ := forall2_get' hr.ints hy
    refine C.bind_index ha <| C.bind_index hb <| C.bind ((C15_div_complete hi hd a b x y ra.1 rb.1 c h).weaken
      fun hH => ⟨mI ha hH, mI hb hH⟩) fun t ht =>
        C.pure ((hr.pushI ht.2.1 (by omega)).pushC (by rw [ht.1]; simp)) fun hH =>
        ((hok hH.1).pushI hH.2.2).pushC hH.2.1
  | reduce i =>
    simp only [Instr.eval, Option.bind_eq_bind, Option.bind_eq_some_iff, Option.some.injEq] at he
    obtain ⟨x, hx, rfl⟩ := he
    obtain ⟨a, ha, ra⟩ := forall2_get' hr.ints hx
    refine C.bind_index ha <| C.bind ((C13_reduce_complete hi a x ra.1 c h).weaken
      (mI ha)) fun t ht => C.pure (hr.pushI ht.1 (by omega)) fun hH => (hok hH.1).pushI hH.2
  | isZero i =>
    simp only [Instr.eval, Option.bind_eq_bind, Option.bind_eq_some_iff, Option.some.injEq] at he
    obtain ⟨x, hx, rfl⟩ := he
    obtain ⟨a, ha, ra⟩ := forall2_get' hr.ints hx
    refine C.bind_index ha <| C.bind ((C16_is_int_zero_complete hi a x ra.1 c h).weaken
      (mI ha)) fun t ht => C.pure (hr.pushC (by rw [ht]; simp)) fun hH => (hok hH.1).pushC hH.2
  | isEqual i j =>
    simp only [Instr.eval, Option.bind_eq_bind, Option.bind_eq_some_iff, Option.some.injEq] at he
    obtain ⟨x, hx, y, hy, rfl⟩ := he
    obtain ⟨a, ha, ra⟩ := forall2_get' hr.ints hx
    obtain ⟨b, hb, rb⟩ := forall2_get' hr.ints hy
    refine C.bind_index ha <| C.bind_index hb <| C.bind ((C16_is_int_equal_complete hi a b x y ra.1 rb.1
      (by omega) c h).weaken
      fun hH => ⟨mI ha hH, mI hb hH⟩) fun t ht => C.pure (hr.pushC (by rw [ht]; simp)) fun hH =>
        (hok hH.1).pushC hH.2
  | not b =>
    simp only [Instr.eval, Option.bind_eq_bind, Option.bind_eq_some_iff, Option.some.injEq] at he
    obtain ⟨x, hx, rfl⟩ := he
    obtain ⟨a, ha, ra⟩ := forall2_get' hr.conds hx
    refine C.bind_index ha <| C.bind (C_not (mC ha)) fun t ht =>
      C.pure (hr.pushC (by rw [ht, ra]; cases x <;> simp)) fun hH => (hok hH.1).pushC hH.2
  | and b b' =>
    simp only [Instr.eval, Option.bind_eq_bind, Option.bind_eq_some_iff, Option.some.injEq] at he
    obtain ⟨x, hx, y, hy, rfl⟩ := he
    obtain ⟨a, ha, ra⟩ := forall2_get' hr.conds hx
    obtain ⟨b, hb, rb⟩ := forall2_get' hr.conds hy
    refine C.bind_index ha <| C.bind_index hb <| C.bind (C_and fun hH => ⟨mC ha hH, mC hb hH⟩) fun t ht =>
      C.pure (hr.pushC (by rw [ht, ra, rb]; cases x <;> cases y <;> simp)) fun hH => (hok hH.1).pushC hH.2
  | or b b' =>
    simp only [Instr.eval, Option.bind_eq_bind, Option.bind_eq_some_iff, Option.some.injEq] at he
    obtain ⟨x, hx, y, hy, rfl⟩ := he
    obtain ⟨a, ha, ra⟩ := forall2_get' hr.conds hx
    obtain ⟨b, hb, rb⟩ := forall2_get' hr.conds hy
    refine C.bind_index ha <| C.bind_index hb <| C.bind (C_or fun hH => ⟨mC ha hH, mC hb hH⟩) fun t ht =>
      C.pure (hr.pushC (by rw [ht, ra, rb]; cases x <;> cases y <;> simp)) fun hH => (hok hH.1).pushC hH.2
  | select b i j =>
    simp only [Instr.eval, Option.bind_eq_bind, Option.bind_eq_some_iff, Option.some.injEq] at he
    obtain ⟨f, hf, x, hx, y, hy, rfl⟩ := he
    obtain ⟨d, hd', rd⟩ := forall2_get' hr.conds hf
    obtain ⟨a, ha, ra⟩ := forall2_get' hr.ints hx
    obtain ⟨b, hb, rb⟩ := forall2_get' hr.ints hy
    refine C.bind_index hd' <| C.bind_index ha <| C.bind_index hb <| C.bind ((C17_bisec_int_complete hi d a b x y
      ra.1 rb.1 (by rw [rd]; cases f <;> simp) c h).weaken fun hH => ⟨mC hd' hH, mI ha hH, mI hb hH⟩) fun t ht =>
      C.pure (hr.pushI ?_ (by omega)) fun hH => (hok hH.1).pushI hH.2
    have := ht.1
    rw [rd] at this
    cases f <;> simpa using this
  | assertEqual i j =>
    simp only [Instr.eval, Option.bind_eq_bind, Option.bind_eq_some_iff] at he
    obtain ⟨x, hx, y, hy, he⟩ := he
    split at he
    · rename_i hxy
      subst hxy
      cases he
      obtain ⟨a, ha, ra⟩ := forall2_get' hr.ints hx
      obtain ⟨b, hb, rb⟩ := forall2_get' hr.ints hy
      exact C.bind_index ha <| C.bind_index hb <| C.bind ((C16_assert_int_equal_complete hi a b x ra.1 rb.1
        (by omega) c h).weaken fun hH => ⟨mI ha hH, mI hb hH⟩) fun t ht => C.pure hr fun hH => hok hH.1
    · cases he
  | assertTrue b =>
    simp only [Instr.eval, Option.bind_eq_bind, Option.bind_eq_some_iff] at he
    obtain ⟨x, hx, he⟩ := he
    split at he
    · rename_i hxt
      cases he
      obtain ⟨a, ha, ra⟩ := forall2_get' hr.conds hx
      exact C.bind_index ha <| C.bind (C_assert_true (by rw [ra, hxt]; simp) (mC ha)) fun _ _ =>
        C.pure hr fun hH => hok hH.1
    · cases he

/-- C19 (with C18): every program whose honest run is defined (indices known, multipliers in 1..15, assertions
true) is accepted: no panic; all results are the honest ones with overflow counters between 1 and 16; and the
recorded witness satisfies the recorded circuit. It holds from any context reached so far, and so in the
middle of a larger circuit. -/
theorem C19_program_complete [Fact n.Prime] [Fact wm.Prime] (hi : RangeInfo.new wm n 18 6 = .ok info)
    (hd : info.d_bits % 108 ≠ 0) (prog : List (Instr wm)) (r : Ref wm) (he : evalAll prog ⟨[], []⟩ = some r) :
    Complete (execAll info prog ⟨[], []⟩) (fun _ => True) (fun s => HRepSt wm info s r) OkSt := by
  intro c h
  have key : ∀ (prog : List (Instr wm)) (s : St n) (r r' : Ref wm) (H : Prop), HRepSt wm info s r →
      (H → OkSt h s) → evalAll prog r = some r' →
      C c h H (execAll info prog s) (fun s' => HRepSt wm info s' r') (fun s' => OkSt h s') := by
    intro prog
    induction prog with
    | nil => intro s r r' H hr hok he; cases he; exact C.pure hr hok
    | cons i is ih =>
      intro s r r' H hr hok he
      simp only [evalAll, Option.bind_eq_bind, Option.bind_eq_some_iff] at he
      obtain ⟨r1, h1, h2⟩ := he
      exact C.bind (exec_complete hi hd i hr hok h1) fun s' hs' => ih s' r1 r' _ hs' (fun hH => hH.2) h2
  exact key prog _ _ r _ ⟨.nil, .nil⟩ (fun _ => ⟨by simp, by simp⟩) he

/-- C18: in every honest history, started from nothing, no overflow assertion fires (the run does not panic)
and every produced counter is between 1 and 16. -/
theorem C18_counters [Fact n.Prime] [Fact wm.Prime] (hi : RangeInfo.new wm n 18 6 = .ok info)
    (hd : info.d_bits % 108 ≠ 0) (prog : List (Instr wm)) (r : Ref wm) (he : evalAll prog ⟨[], []⟩ = some r) :
    ∃ s t, execAll info prog ⟨[], []⟩ (Context.new n) = .ok (s, t) ∧
      ∀ a ∈ s.ints, 1 ≤ a.times ∧ a.times ≤ 16 := by
  obtain ⟨s, t, h1, -, h2, -⟩ := C.run_new (C19_program_complete hi hd prog r he)
  refine ⟨s, t, h1, fun a ha => ?_⟩
  obtain ⟨i, hi, rfl⟩ := List.getElem_of_mem ha
  obtain ⟨x, -, hx⟩ := forall2_get h2.ints (List.getElem?_eq_getElem hi)
  exact hx.2

/-- The honest run is one of the runs the reference semantics allows. -/
theorem evalAll_steps {prog : List (Instr wm)} : ∀ {r r' : Ref wm}, evalAll prog r = some r' → Steps prog r r' := by
  induction prog with
  | nil => intro r r' h; cases h; exact .nil
  | cons i is ih =>
    intro r r' he
    simp only [evalAll, Option.bind_eq_bind, Option.bind_eq_some_iff] at he
    obtain ⟨r1, h1, h2⟩ := he
    refine .cons ?_ (ih h2)
    cases i <;> simp only [Instr.eval, Option.bind_eq_bind, Option.bind_eq_some_iff, Option.some.injEq] at h1
    case assign => subst h1; exact .assign _ _
    case const => subst h1; exact .const _
    case add => obtain ⟨x, hx, y, hy, rfl⟩ := h1; exact .add hx hy
    case sub => obtain ⟨x, hx, y, hy, rfl⟩ := h1; exact .sub hx hy
    case neg => obtain ⟨x, hx, rfl⟩ := h1; exact .neg hx
    case mul => obtain ⟨x, hx, y, hy, rfl⟩ := h1; exact .mul hx hy
    case square => obtain ⟨x, hx, rfl⟩ := h1; exact .square hx
    case smallMul =>
      obtain ⟨x, hx, h1⟩ := h1
      split at h1
      · cases h1; exact .smallMul hx
      · cases h1
    case div => obtain ⟨x, hx, y, hy, rfl⟩ := h1; exact .div hx hy fun _ => rfl
    case reduce => obtain ⟨x, hx, rfl⟩ := h1; exact .reduce hx
    case isZero => obtain ⟨x, hx, rfl⟩ := h1; exact .isZero hx
    case isEqual => obtain ⟨x, hx, y, hy, rfl⟩ := h1; exact .isEqual hx hy
    case not => obtain ⟨x, hx, rfl⟩ := h1; exact .not hx
    case and => obtain ⟨x, hx, y, hy, rfl⟩ := h1; exact .and hx hy
    case or => obtain ⟨x, hx, y, hy, rfl⟩ := h1; exact .or hx hy
    case select => obtain ⟨f, hf, x, hx, y, hy, rfl⟩ := h1; exact .select hf hx hy
    case assertEqual =>
      obtain ⟨x, hx, y, hy, h1⟩ := h1
      split at h1
      · rename_i e; subst e; cases h1; exact .assertEqual hx hy
      · cases h1
    case assertTrue =>
      obtain ⟨x, hx, h1⟩ := h1
      split at h1
      · rename_i e; cases h1; exact .assertTrue (e ▸ hx)
      · cases h1

/-- A program that uses every kind of call: `a = 3, b = 5; p = a*b; q = p/a; assert q = b; ...`. -/
def demoProg (wm : ℕ) : List (Instr wm) :=
  [.assign 3, .assign 5, .mul 0 1, .div 2 0, .assertEqual 3 1, .const 7, .sub 0 1, .neg 5, .smallMul 6 15,
    .add 7 7, .square 8, .reduce 9, .isZero 9, .isEqual 3 1, .not 1, .and 2 3, .or 4 2, .assertTrue 5,
    .select 3 0 4]

/-- Non-vacuity of C18-C20 for the bn256 base field: parameters exist, the demonstration program has an honest
run, and it is accepted. -/
theorem demo_accepted : ∃ info : RangeInfo bnR, RangeInfo.new bnQ bnR 18 6 = .ok info ∧ ∃ r : Ref bnQ,
    evalAll (demoProg bnQ) ⟨[], []⟩ = some r ∧
    Accepted (execAll info (demoProg bnQ) ⟨[], []⟩) (fun s => HRepSt bnQ info s r) := by
  obtain ⟨info, hs⟩ := Setup.of_summary summary_bnQ
  have hd : info.d_bits % 108 ≠ 0 := by
    have := hs.summary
    simp only [List.cons.injEq] at this
    omega
  have he : (evalAll (demoProg bnQ) ⟨[], []⟩).isSome := by decide +kernel
  obtain ⟨r, hr⟩ := Option.isSome_iff_exists.1 he
  exact ⟨info, hs.new, r, hr, Accepted.of_C (C19_program_complete hs.new hd _ r hr)⟩

/-- Non-vacuity of the soundness side: the recorded witness of the demonstration program satisfies its circuit
and stands for a run of the reference semantics. -/
theorem demo_sound : ∃ info : RangeInfo bnR, RangeInfo.new bnQ bnR 18 6 = .ok info ∧
    ∃ s t usable, execAll info (demoProg bnQ) ⟨[], []⟩ (Context.new bnR) = .ok (s, t) ∧
      (t.circuit usable).Sat t.honest ∧
      ∃ r, Steps (demoProg bnQ) ⟨[], []⟩ r ∧ RepSt bnQ info t.honest s r := by
  obtain ⟨info, hi, r, -, s, t, h1, -, h2⟩ := demo_accepted
  have hf : t.Fits (max t.base_offset (max t.range_offset t.select_offset)) := by
    constructor <;> omega
  refine ⟨info, hi, s, t, _, h1, h2 _ hf, ?_⟩
  refine C20_end_to_end hi _ ?_ s t h1 _ hf _ (h2 _ hf)
  intro j k hk
  simp [demoProg] at hk
  omega

end Verif
