import Verif.Spec.NativeProg
import Verif.Props.Base
import Verif.Props.IntProg
import Verif.Props.EccProg
import Verif.Props.Keccak

/-!
# C57: arbitrary programs over the base chip, with the Keccak hash
-/

namespace Verif
variable {n : ℕ}

/-! ## Operands -/

section fetch
variable {c : Circuit n} {h : Advice n} {H : Prop} {A B X : Type} {P Q : B → Prop} {l : List A}

/-- The results at the given indices. -/
def Got (l : List A) : List A → List ℕ → Prop := List.Forall₂ fun a i => l[i]? = some a

theorem S.bind_get {is : List ℕ} : ∀ {k : List A → M n B},
    (∀ as, Got l as is → S c (k as) P) → S c (getM l is >>= k) P := by
  induction is with
  | nil => intro k hk; exact hk [] .nil
  | cons i is ih =>
    intro k hk
    rw [getM, bind_assoc]
    refine S.bind_index fun x hx => ?_
    rw [bind_assoc]
    exact ih fun xs hxs => hk (x :: xs) (.cons hx hxs)

theorem C.bind_get {is : List ℕ} : ∀ {k : List A → M n B} {as},
    Got l as is → C c h H (k as) P Q → C c h H (getM l is >>= k) P Q := by
  induction is with
  | nil => intro k as ha hk; cases ha; exact hk
  | cons i is ih =>
    intro k as ha hk
    cases ha with | cons ha has => ?_
    rw [getM, bind_assoc]
    refine C.bind_index ha ?_
    rw [bind_assoc]
    exact ih has hk

theorem got_rel {R : A → X → Prop} {m : List X} (hr : List.Forall₂ R l m) {is : List ℕ} : ∀ {as}, Got l as is →
    ∃ xs, getAll m is = some xs ∧ List.Forall₂ R as xs := by
  induction is with
  | nil => intro as h; cases h; exact ⟨[], rfl, .nil⟩
  | cons i is ih =>
    intro as h
    cases h with | cons ha has => ?_
    obtain ⟨x, hx, rx⟩ := forall2_get hr ha
    obtain ⟨xs, hxs, rxs⟩ := ih has
    exact ⟨x :: xs, by rw [getAll, hx]; show getAll m is >>= _ = _; rw [hxs]; rfl, .cons rx rxs⟩

theorem got_rel' {R : A → X → Prop} {m : List X} (hr : List.Forall₂ R l m) {is : List ℕ} : ∀ {xs}, getAll m is = some xs →
    ∃ as, Got l as is ∧ List.Forall₂ R as xs := by
  induction is with
  | nil => intro xs h; cases h; exact ⟨[], .nil, .nil⟩
  | cons i is ih =>
    intro xs h
    simp only [getAll, Option.bind_eq_bind, Option.bind_eq_some_iff, Option.some.injEq] at h
    obtain ⟨x, hx, xs, hxs, rfl⟩ := h
    obtain ⟨a, ha, ra⟩ := forall2_get' hr hx
    obtain ⟨as, has, ras⟩ := ih hxs
    exact ⟨a :: as, .cons ha has, .cons ra ras⟩

theorem got_mem {is : List ℕ} {as : List A} (hg : Got l as is) : ∀ a ∈ as, a ∈ l := by
  induction hg with
  | nil => intro a ha; cases ha
  | cons h _ ih =>
    intro a ha
    rcases List.mem_cons.1 ha with rfl | ha
    exacts [List.mem_of_getElem? h, ih a ha]

end fetch

section terms
variable {c : Circuit n} {h w : Advice n} {H : Prop} {B : Type} {P Q : B → Prop} {l : List (AssignedValue n)}

/-- The operands of a linear combination. -/
def GotE (l : List (AssignedValue n)) : List (AssignedValue n × ZMod n) → List (ℕ × ZMod n) → Prop :=
  List.Forall₂ fun a e => l[e.1]? = some a.1 ∧ a.2 = e.2

/-- The operands of a sum of products. -/
def GotT (l : List (AssignedValue n)) : List (MulTerm n) → List (ℕ × ℕ × ℕ × ZMod n) → Prop :=
  List.Forall₂ fun m t => l[t.1]? = some m.a ∧ l[t.2.1]? = some m.b ∧ l[t.2.2.1]? = some m.c ∧ m.c_coeff = t.2.2.2

theorem S.bind_elems {es : List (ℕ × ZMod n)} : ∀ {k : List (AssignedValue n × ZMod n) → M n B},
    (∀ as, GotE l as es → S c (k as) P) → S c (elemsM l es >>= k) P := by
  induction es with
  | nil => intro k hk; exact hk [] .nil
  | cons i is ih =>
    intro k hk
    rw [elemsM, bind_assoc]
    refine S.bind_index fun x hx => ?_
    rw [bind_assoc]
    exact ih fun xs hxs => hk ((x, i.2) :: xs) (.cons ⟨hx, rfl⟩ hxs)

theorem C.bind_elems {es : List (ℕ × ZMod n)} : ∀ {k : List (AssignedValue n × ZMod n) → M n B} {as},
    GotE l as es → C c h H (k as) P Q → C c h H (elemsM l es >>= k) P Q := by
  induction es with
  | nil => intro k as ha hk; cases ha; exact hk
  | cons i is ih =>
    intro k as ha hk
    cases ha with | @cons a _ _ _ ha has => ?_
    rw [elemsM, bind_assoc]
    refine C.bind_index ha.1 ?_
    rw [bind_assoc]
    obtain ⟨a1, a2⟩ := a
    obtain ⟨-, rfl⟩ := ha
    exact ih has hk

theorem S.bind_terms {ts : List (ℕ × ℕ × ℕ × ZMod n)} : ∀ {k : List (MulTerm n) → M n B},
    (∀ as, GotT l as ts → S c (k as) P) → S c (termsM l ts >>= k) P := by
  induction ts with
  | nil => intro k hk; exact hk [] .nil
  | cons i is ih =>
    intro k hk
    rw [termsM, bind_assoc]
    refine S.bind_index fun x hx => ?_
    rw [bind_assoc]
    refine S.bind_index fun y hy => ?_
    rw [bind_assoc]
    refine S.bind_index fun z hz => ?_
    rw [bind_assoc]
    exact ih fun xs hxs => hk (⟨x, y, z, i.2.2.2⟩ :: xs) (.cons ⟨hx, hy, hz, rfl⟩ hxs)

theorem C.bind_terms {ts : List (ℕ × ℕ × ℕ × ZMod n)} : ∀ {k : List (MulTerm n) → M n B} {as},
    GotT l as ts → C c h H (k as) P Q → C c h H (termsM l ts >>= k) P Q := by
  induction ts with
  | nil => intro k as ha hk; cases ha; exact hk
  | cons i is ih =>
    intro k as ha hk
    cases ha with | @cons a _ _ _ ha has => ?_
    obtain ⟨a1, a2, a3, a4⟩ := a
    obtain ⟨h1, h2, h3, h4⟩ := ha
    dsimp only at h1 h2 h3 h4
    subst h4
    rw [termsM, bind_assoc]
    refine C.bind_index h1 ?_
    rw [bind_assoc]
    refine C.bind_index h2 ?_
    rw [bind_assoc]
    refine C.bind_index h3 ?_
    rw [bind_assoc]
    exact ih has hk

/-- A linear combination of the operands, by whatever the operands stand for. -/
theorem gotE_sum {f : AssignedValue n → ZMod n} {m : List (ZMod n)} (hr : List.Forall₂ (fun a x => f a = x) l m)
    {es : List (ℕ × ZMod n)} {as} (hg : GotE l as es) : linComb m es = some ((as.map fun e => f e.1 * e.2).sum) := by
  induction hg with
  | nil => rfl
  | cons ha _ ih =>
    obtain ⟨x, hx, rfl⟩ := forall2_get hr ha.1
    rw [linComb, hx]
    show linComb m _ >>= _ = _
    rw [ih, List.map_cons, List.sum_cons, ha.2]
    rfl

theorem gotE_ex {f : AssignedValue n → ZMod n} {m : List (ZMod n)} (hr : List.Forall₂ (fun a x => f a = x) l m)
    {es : List (ℕ × ZMod n)} : ∀ {x}, linComb m es = some x → ∃ as, GotE l as es := by
  induction es with
  | nil => intro x _; exact ⟨[], .nil⟩
  | cons e es ih =>
    intro x h
    simp only [linComb, Option.bind_eq_bind, Option.bind_eq_some_iff] at h
    obtain ⟨y, hy, z, hz, -⟩ := h
    obtain ⟨a, ha, -⟩ := forall2_get' hr hy
    obtain ⟨as, has⟩ := ih hz
    exact ⟨(a, e.2) :: as, .cons ⟨ha, rfl⟩ has⟩

theorem gotT_sum {f : AssignedValue n → ZMod n} {m : List (ZMod n)} (hr : List.Forall₂ (fun a x => f a = x) l m)
    {ts : List (ℕ × ℕ × ℕ × ZMod n)} {as} (hg : GotT l as ts) :
    mulSum m ts = some ((as.map fun t => f t.a * f t.b + f t.c * t.c_coeff).sum) := by
  induction hg with
  | nil => rfl
  | cons ha _ ih =>
    obtain ⟨x, hx, rfl⟩ := forall2_get hr ha.1
    obtain ⟨y, hy, rfl⟩ := forall2_get hr ha.2.1
    obtain ⟨z, hz, rfl⟩ := forall2_get hr ha.2.2.1
    rw [mulSum, hx]
    show m[_]? >>= _ = _
    rw [hy]
    show m[_]? >>= _ = _
    rw [hz]
    show mulSum m _ >>= _ = _
    rw [ih, List.map_cons, List.sum_cons, ha.2.2.2]
    rfl

theorem gotT_ex {f : AssignedValue n → ZMod n} {m : List (ZMod n)} (hr : List.Forall₂ (fun a x => f a = x) l m)
    {ts : List (ℕ × ℕ × ℕ × ZMod n)} : ∀ {x}, mulSum m ts = some x → ∃ as, GotT l as ts := by
  induction ts with
  | nil => intro x _; exact ⟨[], .nil⟩
  | cons e es ih =>
    intro x h
    simp only [mulSum, Option.bind_eq_bind, Option.bind_eq_some_iff] at h
    obtain ⟨y1, h1, y2, h2, y3, h3, z, hz, -⟩ := h
    obtain ⟨a, ha, -⟩ := forall2_get' hr h1
    obtain ⟨b, hb, -⟩ := forall2_get' hr h2
    obtain ⟨d, hd, -⟩ := forall2_get' hr h3
    obtain ⟨as, has⟩ := ih hz
    exact ⟨⟨a, b, d, e.2.2.2⟩ :: as, .cons ⟨ha, hb, hd, rfl⟩ has⟩

theorem gotE_mem {es : List (ℕ × ZMod n)} {as} (hg : GotE l as es) : ∀ a ∈ as, a.1 ∈ l := by
  induction hg with
  | nil => intro a ha; cases ha
  | cons h _ ih =>
    intro a ha
    rcases List.mem_cons.1 ha with rfl | ha
    exacts [List.mem_of_getElem? h.1, ih a ha]

theorem gotT_mem {ts : List (ℕ × ℕ × ℕ × ZMod n)} {as} (hg : GotT l as ts) : ∀ a ∈ as, a.a ∈ l ∧ a.b ∈ l ∧ a.c ∈ l := by
  induction hg with
  | nil => intro a ha; cases ha
  | cons h _ ih =>
    intro a ha
    rcases List.mem_cons.1 ha with rfl | ha
    exacts [⟨List.mem_of_getElem? h.1, List.mem_of_getElem? h.2.1, List.mem_of_getElem? h.2.2.1⟩, ih a ha]

end terms

/-! ## Soundness -/

section sound
variable {w : Advice n} {s : NSt n} {r : NRef n}

theorem RepNSt.pushV (h : RepNSt w s r) {a : AssignedValue n} {x : ZMod n} (ha : w a.cell = x) :
    RepNSt w (s.pushV a) (r.pushV x) := ⟨forall2_snoc h.vals ha, h.conds⟩

theorem RepNSt.pushC (h : RepNSt w s r) {a : AssignedValue n} {x : Bool} (ha : Holds w a x) :
    RepNSt w (s.pushC a) (r.pushF x) := ⟨h.vals, forall2_snoc h.conds ha⟩

theorem holds_decide [Fact n.Prime] {a z : AssignedValue n} (h : (w z.cell = 1 ↔ w a.cell = 0) ∧ (w z.cell = 0 ↔ w a.cell ≠ 0)) :
    Holds w z (decide (w a.cell = 0)) := by
  unfold Holds
  by_cases e : w a.cell = 0
  · rw [h.1.2 e]; simp [e]
  · rw [h.2.2 e]; simp [e]

theorem nexec_sound [Fact n.Prime] (hn : 2 ^ 108 < n) {c : Circuit n} (hw : c.Sat w) (i : NInstr n) (s : NSt n)
    (hbits : i.usesBits → c.BitRowsConsistent w) :
    S c (i.exec s) (fun s' => ∀ r : NRef n, RepNSt w s r → ∃ r', NStep i r r' ∧ RepNSt w s' r') := by
  have hz : NeZero n := ⟨(Fact.out : n.Prime).ne_zero⟩
  cases i with
  | assign x =>
    exact S.bind (S_assign hw x) fun a => S.pure fun _ r hr => ⟨_, .assign x _, hr.pushV rfl⟩
  | const x =>
    exact S.bind (S_assign_constant hw x) fun a => S.pure fun ha r hr => ⟨_, .const x, hr.pushV ha⟩
  | small x =>
    exact S.bind (C08_common_sound hn x c w hw) fun a => S.pure fun ha r hr =>
      ⟨_, .small x _ ha, hr.pushV (ZMod.natCast_zmod_val _).symm⟩
  | sum es k =>
    exact S.bind_elems fun as has => S.bind (S_sum hw as k) fun a => S.pure fun ha r hr =>
      ⟨_, .sum (gotE_sum (f := fun a => w a.cell) hr.vals has), hr.pushV ha⟩
  | add i j =>
    refine S.bind_index fun a ha => S.bind_index fun b hb => S.bind (S_add hw a b) fun t => S.pure fun ht r hr => ?_
    obtain ⟨x, hx, rfl⟩ := forall2_get hr.vals ha
    obtain ⟨y, hy, rfl⟩ := forall2_get hr.vals hb
    exact ⟨_, .add hx hy, hr.pushV ht⟩
  | addConst i k =>
    refine S.bind_index fun a ha => S.bind (S_add_constant hw a k) fun t => S.pure fun ht r hr => ?_
    obtain ⟨x, hx, rfl⟩ := forall2_get hr.vals ha
    exact ⟨_, .addConst hx, hr.pushV ht⟩
  | sub i j =>
    refine S.bind_index fun a ha => S.bind_index fun b hb => S.bind (S_sub hw a b) fun t => S.pure fun ht r hr => ?_
    obtain ⟨x, hx, rfl⟩ := forall2_get hr.vals ha
    obtain ⟨y, hy, rfl⟩ := forall2_get hr.vals hb
    exact ⟨_, .sub hx hy, hr.pushV ht⟩
  | mul i j =>
    refine S.bind_index fun a ha => S.bind_index fun b hb => S.bind (S_mul hw a b) fun t => S.pure fun ht r hr => ?_
    obtain ⟨x, hx, rfl⟩ := forall2_get hr.vals ha
    obtain ⟨y, hy, rfl⟩ := forall2_get hr.vals hb
    exact ⟨_, .mul hx hy, hr.pushV ht⟩
  | mulAddConst i j k =>
    refine S.bind_index fun a ha => S.bind_index fun b hb => S.bind (S_mul_add_constant hw a b k) fun t =>
      S.pure fun ht r hr => ?_
    obtain ⟨x, hx, rfl⟩ := forall2_get hr.vals ha
    obtain ⟨y, hy, rfl⟩ := forall2_get hr.vals hb
    exact ⟨_, .mulAddConst hx hy, hr.pushV ht⟩
  | mulAdd i j k d l =>
    refine S.bind_index fun a ha => S.bind_index fun b hb => S.bind_index fun e he =>
      S.bind (S_mul_add hw a b k e l) fun t => S.pure fun ht r hr => ?_
    obtain ⟨x, hx, rfl⟩ := forall2_get hr.vals ha
    obtain ⟨y, hy, rfl⟩ := forall2_get hr.vals hb
    obtain ⟨z, hz, rfl⟩ := forall2_get hr.vals he
    exact ⟨_, .mulAdd hx hy hz, hr.pushV ht⟩
  | mulAdds ts =>
    exact S.bind_terms fun as has => S.bind (S_mul_add_with_next_line hw as) fun a => S.pure fun ha r hr =>
      ⟨_, .mulAdds (gotT_sum (f := fun a => w a.cell) hr.vals has), hr.pushV ha⟩
  | invUnsafe i =>
    refine S.bind_index fun a ha => S.bind (S_invert_unsafe hw a) fun t => S.pure fun ht r hr => ?_
    obtain ⟨x, hx, rfl⟩ := forall2_get hr.vals ha
    exact ⟨_, .invUnsafe hx ht, hr.pushV rfl⟩
  | divUnsafe i j =>
    refine S.bind_index fun a ha => S.bind_index fun b hb => S.bind (S_div_unsafe hw a b) fun t => S.pure fun ht r hr => ?_
    obtain ⟨x, hx, rfl⟩ := forall2_get hr.vals ha
    obtain ⟨y, hy, rfl⟩ := forall2_get hr.vals hb
    exact ⟨_, .divUnsafe hx hy ht, hr.pushV rfl⟩
  | invert i =>
    refine S.bind_index fun a ha => S.bind (C03_invert_sound a c w hw) fun t => S.pure fun ht r hr => ?_
    obtain ⟨x, hx, rfl⟩ := forall2_get hr.vals ha
    refine ⟨_, .invert hx fun h0 => ?_, (hr.pushV rfl).pushC ?_⟩
    · rw [(ht.2 h0).2]; exact mul_inv_cancel₀ h0
    · unfold Holds
      by_cases e : w a.cell = 0
      · rw [ht.1 e]; simp [e]
      · rw [(ht.2 e).1]; simp [e]
  | isZero i =>
    refine S.bind_index fun a ha => S.bind (C03_is_zero_sound a c w hw) fun t => S.pure fun ht r hr => ?_
    obtain ⟨x, hx, rfl⟩ := forall2_get hr.vals ha
    exact ⟨_, .isZero hx, hr.pushC (by convert holds_decide ht)⟩
  | bit f =>
    refine S.bind (C06_partial _ c w hw (hbits trivial)) fun a => S.pure fun ha r hr => ?_
    rcases ha with ha | ha
    · exact ⟨_, .bit f false, hr.pushC (by rw [Holds, ha]; rfl)⟩
    · exact ⟨_, .bit f true, hr.pushC (by rw [Holds, ha]; rfl)⟩
  | assertBit i =>
    refine S.bind_index fun a ha => S.bind (S_assert_bit hw a) fun _ => S.pure fun ht r hr => ?_
    obtain ⟨x, hx, rfl⟩ := forall2_get hr.vals ha
    rcases ht with ht | ht
    · exact ⟨_, .assertBit (f := false) (by rw [hx, ht]; rfl), hr.pushC (by rw [Holds, ht]; rfl)⟩
    · exact ⟨_, .assertBit (f := true) (by rw [hx, ht]; rfl), hr.pushC (by rw [Holds, ht]; rfl)⟩
  | value b =>
    refine S.bind_index fun a ha => S.pure fun r hr => ?_
    obtain ⟨x, hx, rx⟩ := forall2_get hr.conds ha
    exact ⟨_, .value hx, hr.pushV rx⟩
  | not b =>
    refine S.bind_index fun a ha => S.bind (C04_not_sound a c w hw) fun t => S.pure fun ht r hr => ?_
    obtain ⟨x, hx, rx⟩ := forall2_get hr.conds ha
    exact ⟨_, .not hx, hr.pushC (ht _ rx)⟩
  | and b b' =>
    refine S.bind_index fun a ha => S.bind_index fun b hb => S.bind (C04_and_sound a b c w hw) fun t =>
      S.pure fun ht r hr => ?_
    obtain ⟨x, hx, rx⟩ := forall2_get hr.conds ha
    obtain ⟨y, hy, ry⟩ := forall2_get hr.conds hb
    exact ⟨_, .and hx hy, hr.pushC (ht _ _ rx ry)⟩
  | or b b' =>
    refine S.bind_index fun a ha => S.bind_index fun b hb => S.bind (C04_or_sound a b c w hw) fun t =>
      S.pure fun ht r hr => ?_
    obtain ⟨x, hx, rx⟩ := forall2_get hr.conds ha
    obtain ⟨y, hy, ry⟩ := forall2_get hr.conds hb
    exact ⟨_, .or hx hy, hr.pushC (ht _ _ rx ry)⟩
  | notAnd b b' =>
    refine S.bind_index fun a ha => S.bind_index fun b hb => S.bind (C04_not_and_sound a b c w hw) fun t =>
      S.pure fun ht r hr => ?_
    obtain ⟨x, hx, rx⟩ := forall2_get hr.conds ha
    obtain ⟨y, hy, ry⟩ := forall2_get hr.conds hb
    exact ⟨_, .notAnd hx hy, hr.pushC (ht _ _ rx ry)⟩
  | xor b b' =>
    refine S.bind_index fun a ha => S.bind_index fun b hb => S.bind (C04_xor_sound a b c w hw) fun t =>
      S.pure fun ht r hr => ?_
    obtain ⟨x, hx, rx⟩ := forall2_get hr.conds ha
    obtain ⟨y, hy, ry⟩ := forall2_get hr.conds hb
    exact ⟨_, .xor hx hy, hr.pushC (ht _ _ rx ry)⟩
  | xnor b b' =>
    refine S.bind_index fun a ha => S.bind_index fun b hb => S.bind (C04_xnor_sound a b c w hw) fun t =>
      S.pure fun ht r hr => ?_
    obtain ⟨x, hx, rx⟩ := forall2_get hr.conds ha
    obtain ⟨y, hy, ry⟩ := forall2_get hr.conds hb
    exact ⟨_, .xnor hx hy, hr.pushC (ht _ _ rx ry)⟩
  | select b i j =>
    refine S.bind_index fun d hd => S.bind_index fun a ha => S.bind_index fun b hb =>
      S.bind (C04_bisec_sound d a b c w hw) fun t => S.pure fun ht r hr => ?_
    obtain ⟨f, hf, rf⟩ := forall2_get hr.conds hd
    obtain ⟨x, hx, rfl⟩ := forall2_get hr.vals ha
    obtain ⟨y, hy, rfl⟩ := forall2_get hr.vals hb
    exact ⟨_, .select hf hx hy, hr.pushV (ht _ rf)⟩
  | selectCond b i j =>
    refine S.bind_index fun d hd => S.bind_index fun a ha => S.bind_index fun b hb =>
      S.bind (C04_bisec_sound d a b c w hw) fun t => S.pure fun ht r hr => ?_
    obtain ⟨f, hf, rf⟩ := forall2_get hr.conds hd
    obtain ⟨x, hx, rx⟩ := forall2_get hr.conds ha
    obtain ⟨y, hy, ry⟩ := forall2_get hr.conds hb
    refine ⟨_, .selectCond hf hx hy, hr.pushC ?_⟩
    rw [Holds, ht _ rf]
    cases f
    · exact ry
    · exact rx
  | assertEqual i j =>
    refine S.bind_index fun a ha => S.bind_index fun b hb => S.bind (S_assert_equal hw a b) fun t => S.pure fun ht r hr => ?_
    obtain ⟨x, hx, rfl⟩ := forall2_get hr.vals ha
    obtain ⟨y, hy, rfl⟩ := forall2_get hr.vals hb
    exact ⟨_, .assertEqual hx (by rw [ht]; exact hy), hr⟩
  | assertConst i k =>
    refine S.bind_index fun a ha => S.bind (S_assert_constant hw a k) fun t => S.pure fun ht r hr => ?_
    obtain ⟨x, hx, rfl⟩ := forall2_get hr.vals ha
    exact ⟨_, .assertConst (by rw [← ht]; exact hx), hr⟩
  | assertTrue b =>
    refine S.bind_index fun a ha => S.bind (S_assert_true hw a) fun t => S.pure fun ht r hr => ?_
    obtain ⟨x, hx, rx⟩ := forall2_get hr.conds ha
    cases x
    · rw [Holds, ht] at rx; exact absurd rx one_ne_zero
    · exact ⟨_, .assertTrue hx, hr⟩
  | assertFalse b =>
    refine S.bind_index fun a ha => S.bind (S_assert_false hw a) fun t => S.pure fun ht r hr => ?_
    obtain ⟨x, hx, rx⟩ := forall2_get hr.conds ha
    cases x
    · exact ⟨_, .assertFalse hx, hr⟩
    · rw [Holds, ht] at rx; exact absurd rx zero_ne_one
  | hash is =>
    refine S.bind_get fun as has => S.bind (C45_partial as c w hw (hbits trivial)) fun a => S.pure fun ha r hr => ?_
    obtain ⟨xs, hxs, rxs⟩ := got_rel hr.vals has
    obtain ⟨Ws, h1, h2⟩ := ha
    refine ⟨_, .hash hxs ?_, hr.pushV h2⟩
    clear has h2 hxs
    induction h1 generalizing xs with
    | nil => cases rxs; exact .nil
    | cons h _ ih =>
      cases rxs with | cons e es => ?_
      exact .cons ⟨h.1, h.2.trans e⟩ (ih _ es)

/-- C57 (soundness): for every program of base-chip calls and hashes and every satisfying assignment of a circuit that
contains what the program records, all results stand for the state reached by a run of the reference semantics. -/
theorem C57_program_sound [Fact n.Prime] (hn : 2 ^ 108 < n) (prog : List (NInstr n)) (c : Circuit n) (w : Advice n)
    (hw : c.Sat w) (hbits : (∃ i ∈ prog, i.usesBits) → c.BitRowsConsistent w) :
    S c (nexecAll prog ⟨[], []⟩) (fun s => ∃ r : NRef n, NSteps prog ⟨[], []⟩ r ∧ RepNSt w s r) := by
  have key : ∀ (prog : List (NInstr n)) (s : NSt n), ((∃ i ∈ prog, i.usesBits) → c.BitRowsConsistent w) →
      S c (nexecAll prog s) (fun s' => ∀ r : NRef n, RepNSt w s r → ∃ r', NSteps prog r r' ∧ RepNSt w s' r') := by
    intro prog
    induction prog with
    | nil => intro s _; exact S.pure fun r hr => ⟨r, .nil, hr⟩
    | cons i is ih =>
      intro s hbits
      refine S.bind (nexec_sound hn hw i s fun e => hbits ⟨i, List.mem_cons_self, e⟩) fun s' => ?_
      refine (ih s' fun ⟨j, hj, e⟩ => hbits ⟨j, List.mem_cons_of_mem _ hj, e⟩).mono fun s'' h2 h1 r hr => ?_
      obtain ⟨r', k1, k2⟩ := h1 r hr
      obtain ⟨r'', k3, k4⟩ := h2 r' k2
      exact ⟨r'', .cons k1 k3, k4⟩
  exact (key prog _ hbits).mono fun s hs => hs _ ⟨.nil, .nil⟩

/-- C57, end to end: a satisfying assignment of exactly the circuit recorded by a program without bits is a run of the
program. -/
theorem C57_end_to_end [Fact n.Prime] (hn : 2 ^ 108 < n) (prog : List (NInstr n)) (hb : ∀ i ∈ prog, ¬ i.usesBits)
    (s : NSt n) (t : Context n) (hrun : nexecAll prog ⟨[], []⟩ (Context.new n) = .ok (s, t)) (usable : ℕ)
    (hf : t.Fits usable) (w : Advice n) (hw : (t.circuit usable).Sat w) :
    ∃ r : NRef n, NSteps prog ⟨[], []⟩ r ∧ RepNSt w s r :=
  S.run (fun c w hw => C57_program_sound hn prog c w hw fun ⟨i, hi, e⟩ => absurd e (hb i hi))
    Context.new_fresh hrun hf hw

end sound

/-! ## Completeness -/

section complete
variable {s : NSt n} {r : NRef n} {h : Advice n}

theorem HRepNSt.pushV (hs : HRepNSt s r) {a : AssignedValue n} {x : ZMod n} (ha : a.val = x) :
    HRepNSt (s.pushV a) (r.pushV x) := ⟨forall2_snoc hs.vals ha, hs.conds⟩

theorem HRepNSt.pushC (hs : HRepNSt s r) {a : AssignedValue n} {x : Bool} (ha : a.val = if x then 1 else 0) :
    HRepNSt (s.pushC a) (r.pushF x) := ⟨hs.vals, forall2_snoc hs.conds ha⟩

theorem OkNSt.pushV (hs : OkNSt h s) {a : AssignedValue n} (ha : Ok h a) : OkNSt h (s.pushV a) :=
  ⟨mem_snoc hs.vals ha, hs.conds⟩

theorem OkNSt.pushC (hs : OkNSt h s) {a : AssignedValue n} (ha : Ok h a) : OkNSt h (s.pushC a) :=
  ⟨hs.vals, mem_snoc hs.conds ha⟩

theorem nexec_complete [Fact n.Prime] (hn : n ≤ 2 ^ 256) {c : Circuit n} {H : Prop} (i : NInstr n) {r' : NRef n}
    (hr : HRepNSt s r) (hok : H → OkNSt h s) (he : i.eval r = some r') :
    C c h H (i.exec s) (fun s' => HRepNSt s' r') (fun s' => OkNSt h s') := by
  have mV : ∀ {i a}, s.vals[i]? = some a → H → Ok h a := fun hg hH => (hok hH).vals _ (List.mem_of_getElem? hg)
  have mC : ∀ {i a}, s.conds[i]? = some a → H → Ok h a := fun hg hH => (hok hH).conds _ (List.mem_of_getElem? hg)
  cases i with
  | assign x =>
    cases he
    exact C.bind C_assign fun a ha => C.pure (hr.pushV ha) fun hH => (hok hH.1).pushV hH.2
  | const x =>
    cases he
    exact C.bind C_assign_constant fun a ha => C.pure (hr.pushV ha) fun hH => (hok hH.1).pushV hH.2
  | small x =>
    simp only [NInstr.eval] at he
    split at he
    · rename_i hx
      cases he
      exact C.bind (C_assign_common hx) fun a ha => C.pure (hr.pushV ha) fun hH => (hok hH.1).pushV hH.2
    · cases he
  | sum es k =>
    simp only [NInstr.eval, Option.bind_eq_bind, Option.bind_eq_some_iff] at he
    obtain ⟨x, hx, he⟩ := he
    split at he
    · cases he
    rename_i hne
    cases he
    obtain ⟨as, has⟩ := gotE_ex (f := AssignedValue.val) hr.vals hx
    have e := gotE_sum (f := AssignedValue.val) hr.vals has
    rw [hx, Option.some.injEq] at e
    have hne' : as ≠ [] := by rintro rfl; cases has; exact hne rfl
    refine C.bind_elems has <| C.bind (C_sum as k hne' fun hH a ha => (hok hH).vals _ (gotE_mem has a ha)) fun a ha =>
      C.pure (hr.pushV ?_) fun hH => (hok hH.1).pushV hH.2
    rw [ha, e]; rfl
  | add i j =>
    simp only [NInstr.eval, Option.bind_eq_bind, Option.bind_eq_some_iff, Option.some.injEq] at he
    obtain ⟨x, hx, y, hy, rfl⟩ := he
    obtain ⟨a, ha, rfl⟩ := forall2_get' hr.vals hx
    obtain ⟨b, hb, rfl⟩ := forall2_get' hr.vals hy
    exact C.bind_index ha <| C.bind_index hb <| C.bind (C_add fun hH => ⟨mV ha hH, mV hb hH⟩) fun t ht =>
      C.pure (hr.pushV ht) fun hH => (hok hH.1).pushV hH.2
  | addConst i k =>
    simp only [NInstr.eval, Option.bind_eq_bind, Option.bind_eq_some_iff, Option.some.injEq] at he
    obtain ⟨x, hx, rfl⟩ := he
    obtain ⟨a, ha, rfl⟩ := forall2_get' hr.vals hx
    exact C.bind_index ha <| C.bind (C_add_constant (mV ha)) fun t ht =>
      C.pure (hr.pushV ht) fun hH => (hok hH.1).pushV hH.2
  | sub i j =>
    simp only [NInstr.eval, Option.bind_eq_bind, Option.bind_eq_some_iff, Option.some.injEq] at he
    obtain ⟨x, hx, y, hy, rfl⟩ := he
    obtain ⟨a, ha, rfl⟩ := forall2_get' hr.vals hx
    obtain ⟨b, hb, rfl⟩ := forall2_get' hr.vals hy
    exact C.bind_index ha <| C.bind_index hb <| C.bind (C_sub fun hH => ⟨mV ha hH, mV hb hH⟩) fun t ht =>
      C.pure (hr.pushV ht) fun hH => (hok hH.1).pushV hH.2
  | mul i j =>
    simp only [NInstr.eval, Option.bind_eq_bind, Option.bind_eq_some_iff, Option.some.injEq] at he
    obtain ⟨x, hx, y, hy, rfl⟩ := he
    obtain ⟨a, ha, rfl⟩ := forall2_get' hr.vals hx
    obtain ⟨b, hb, rfl⟩ := forall2_get' hr.vals hy
    exact C.bind_index ha <| C.bind_index hb <| C.bind (C_mul fun hH => ⟨mV ha hH, mV hb hH⟩) fun t ht =>
      C.pure (hr.pushV ht) fun hH => (hok hH.1).pushV hH.2
  | mulAddConst i j k =>
    simp only [NInstr.eval, Option.bind_eq_bind, Option.bind_eq_some_iff, Option.some.injEq] at he
    obtain ⟨x, hx, y, hy, rfl⟩ := he
    obtain ⟨a, ha, rfl⟩ := forall2_get' hr.vals hx
    obtain ⟨b, hb, rfl⟩ := forall2_get' hr.vals hy
    exact C.bind_index ha <| C.bind_index hb <| C.bind (C_mul_add_constant fun hH => ⟨mV ha hH, mV hb hH⟩) fun t ht =>
      C.pure (hr.pushV ht) fun hH => (hok hH.1).pushV hH.2
  | mulAdd i j k d l =>
    simp only [NInstr.eval, Option.bind_eq_bind, Option.bind_eq_some_iff, Option.some.injEq] at he
    obtain ⟨x, hx, y, hy, z, hz, rfl⟩ := he
    obtain ⟨a, ha, rfl⟩ := forall2_get' hr.vals hx
    obtain ⟨b, hb, rfl⟩ := forall2_get' hr.vals hy
    obtain ⟨e, he, rfl⟩ := forall2_get' hr.vals hz
    exact C.bind_index ha <| C.bind_index hb <| C.bind_index he <|
      C.bind (C_mul_add fun hH => ⟨mV ha hH, mV hb hH, mV he hH⟩) fun t ht =>
      C.pure (hr.pushV ht) fun hH => (hok hH.1).pushV hH.2
  | mulAdds ts =>
    simp only [NInstr.eval, Option.bind_eq_bind, Option.bind_eq_some_iff] at he
    obtain ⟨x, hx, he⟩ := he
    split at he
    · cases he
    rename_i hne
    cases he
    obtain ⟨as, has⟩ := gotT_ex (f := AssignedValue.val) hr.vals hx
    have e := gotT_sum (f := AssignedValue.val) hr.vals has
    rw [hx, Option.some.injEq] at e
    have hne' : as ≠ [] := by rintro rfl; cases has; exact hne rfl
    refine C.bind_terms has <| C.bind (C_mul_add_with_next_line as hne' fun hH a ha => ?_) fun a ha =>
      C.pure (hr.pushV (ha.trans e.symm)) fun hH => (hok hH.1).pushV hH.2
    obtain ⟨m1, m2, m3⟩ := gotT_mem has a ha
    exact ⟨(hok hH).vals _ m1, (hok hH).vals _ m2, (hok hH).vals _ m3⟩
  | invUnsafe i =>
    simp only [NInstr.eval, Option.bind_eq_bind, Option.bind_eq_some_iff] at he
    obtain ⟨x, hx, he⟩ := he
    split at he
    · cases he
    rename_i hne
    cases he
    obtain ⟨a, ha, rfl⟩ := forall2_get' hr.vals hx
    exact C.bind_index ha <| C.bind (C_invert_unsafe hne (mV ha)) fun t ht =>
      C.pure (hr.pushV ht) fun hH => (hok hH.1).pushV hH.2
  | divUnsafe i j =>
    simp only [NInstr.eval, Option.bind_eq_bind, Option.bind_eq_some_iff] at he
    obtain ⟨x, hx, y, hy, he⟩ := he
    split at he
    · cases he
    rename_i hne
    cases he
    obtain ⟨a, ha, rfl⟩ := forall2_get' hr.vals hx
    obtain ⟨b, hb, rfl⟩ := forall2_get' hr.vals hy
    exact C.bind_index ha <| C.bind_index hb <| C.bind (C_div_unsafe hne fun hH => ⟨mV hb hH, mV ha hH⟩) fun t ht =>
      C.pure (hr.pushV (ht.trans (div_eq_mul_inv _ _))) fun hH => (hok hH.1).pushV hH.2
  | invert i =>
    simp only [NInstr.eval, Option.bind_eq_bind, Option.bind_eq_some_iff, Option.some.injEq] at he
    obtain ⟨x, hx, rfl⟩ := he
    obtain ⟨a, ha, rfl⟩ := forall2_get' hr.vals hx
    exact C.bind_index ha <| C.bind (C_invert (mV ha)) fun t ht =>
      C.pure ((hr.pushV ht.2).pushC (by rw [ht.1]; simp)) fun hH => ((hok hH.1).pushV hH.2.2).pushC hH.2.1
  | isZero i =>
    simp only [NInstr.eval, Option.bind_eq_bind, Option.bind_eq_some_iff, Option.some.injEq] at he
    obtain ⟨x, hx, rfl⟩ := he
    obtain ⟨a, ha, rfl⟩ := forall2_get' hr.vals hx
    exact C.bind_index ha <| C.bind (C_is_zero (mV ha)) fun t ht =>
      C.pure (hr.pushC (by rw [ht]; simp)) fun hH => (hok hH.1).pushC hH.2
  | bit f =>
    cases he
    exact C.bind (C_assign_bit (by cases f <;> simp)) fun a ha => C.pure (hr.pushC ha) fun hH => (hok hH.1).pushC hH.2
  | assertBit i =>
    simp only [NInstr.eval, Option.bind_eq_bind, Option.bind_eq_some_iff] at he
    obtain ⟨x, hx, he⟩ := he
    obtain ⟨a, ha, rfl⟩ := forall2_get' hr.vals hx
    split at he
    · rename_i e
      cases he
      exact C.bind_index ha <| C.bind (C_assert_bit (.inr e) (mV ha)) fun t ht =>
        C.pure (hr.pushC (by rw [e]; rfl)) fun hH => (hok hH.1).pushC (mV ha hH.1)
    split at he
    · rename_i e
      cases he
      exact C.bind_index ha <| C.bind (C_assert_bit (.inl e) (mV ha)) fun t ht =>
        C.pure (hr.pushC (by rw [e]; rfl)) fun hH => (hok hH.1).pushC (mV ha hH.1)
    · cases he
  | value b =>
    simp only [NInstr.eval, Option.bind_eq_bind, Option.bind_eq_some_iff, Option.some.injEq] at he
    obtain ⟨x, hx, rfl⟩ := he
    obtain ⟨a, ha, ra⟩ := forall2_get' hr.conds hx
    exact C.bind_index ha <| C.pure (hr.pushV ra) fun hH => (hok hH).pushV (mC ha hH)
  | not b =>
    simp only [NInstr.eval, Option.bind_eq_bind, Option.bind_eq_some_iff, Option.some.injEq] at he
    obtain ⟨x, hx, rfl⟩ := he
    obtain ⟨a, ha, ra⟩ := forall2_get' hr.conds hx
    exact C.bind_index ha <| C.bind (C_not (mC ha)) fun t ht =>
      C.pure (hr.pushC (by rw [ht, ra]; cases x <;> simp)) fun hH => (hok hH.1).pushC hH.2
  | and b b' =>
    simp only [NInstr.eval, Option.bind_eq_bind, Option.bind_eq_some_iff, Option.some.injEq] at he
    obtain ⟨x, hx, y, hy, rfl⟩ := he
    obtain ⟨a, ha, ra⟩ := forall2_get' hr.conds hx
    obtain ⟨b, hb, rb⟩ := forall2_get' hr.conds hy
    exact C.bind_index ha <| C.bind_index hb <| C.bind (C_and fun hH => ⟨mC ha hH, mC hb hH⟩) fun t ht =>
      C.pure (hr.pushC (by rw [ht, ra, rb]; cases x <;> cases y <;> simp)) fun hH => (hok hH.1).pushC hH.2
  | or b b' =>
    simp only [NInstr.eval, Option.bind_eq_bind, Option.bind_eq_some_iff, Option.some.injEq] at he
    obtain ⟨x, hx, y, hy, rfl⟩ := he
    obtain ⟨a, ha, ra⟩ := forall2_get' hr.conds hx
    obtain ⟨b, hb, rb⟩ := forall2_get' hr.conds hy
    exact C.bind_index ha <| C.bind_index hb <| C.bind (C_or fun hH => ⟨mC ha hH, mC hb hH⟩) fun t ht =>
      C.pure (hr.pushC (by rw [ht, ra, rb]; cases x <;> cases y <;> simp)) fun hH => (hok hH.1).pushC hH.2
  | notAnd b b' =>
    simp only [NInstr.eval, Option.bind_eq_bind, Option.bind_eq_some_iff, Option.some.injEq] at he
    obtain ⟨x, hx, y, hy, rfl⟩ := he
    obtain ⟨a, ha, ra⟩ := forall2_get' hr.conds hx
    obtain ⟨b, hb, rb⟩ := forall2_get' hr.conds hy
    exact C.bind_index ha <| C.bind_index hb <| C.bind (C_not_and fun hH => ⟨mC ha hH, mC hb hH⟩) fun t ht =>
      C.pure (hr.pushC (by rw [ht, ra, rb]; cases x <;> cases y <;> simp)) fun hH => (hok hH.1).pushC hH.2
  | xor b b' =>
    simp only [NInstr.eval, Option.bind_eq_bind, Option.bind_eq_some_iff, Option.some.injEq] at he
    obtain ⟨x, hx, y, hy, rfl⟩ := he
    obtain ⟨a, ha, ra⟩ := forall2_get' hr.conds hx
    obtain ⟨b, hb, rb⟩ := forall2_get' hr.conds hy
    exact C.bind_index ha <| C.bind_index hb <| C.bind (C_xor fun hH => ⟨mC ha hH, mC hb hH⟩) fun t ht =>
      C.pure (hr.pushC (by rw [ht, ra, rb]; cases x <;> cases y <;> simp <;> ring)) fun hH => (hok hH.1).pushC hH.2
  | xnor b b' =>
    simp only [NInstr.eval, Option.bind_eq_bind, Option.bind_eq_some_iff, Option.some.injEq] at he
    obtain ⟨x, hx, y, hy, rfl⟩ := he
    obtain ⟨a, ha, ra⟩ := forall2_get' hr.conds hx
    obtain ⟨b, hb, rb⟩ := forall2_get' hr.conds hy
    exact C.bind_index ha <| C.bind_index hb <| C.bind (C_xnor fun hH => ⟨mC ha hH, mC hb hH⟩) fun t ht =>
      C.pure (hr.pushC (by rw [ht, ra, rb]; cases x <;> cases y <;> simp <;> ring)) fun hH => (hok hH.1).pushC hH.2
  | select b i j =>
    simp only [NInstr.eval, Option.bind_eq_bind, Option.bind_eq_some_iff, Option.some.injEq] at he
    obtain ⟨f, hf, x, hx, y, hy, rfl⟩ := he
    obtain ⟨d, hd, rd⟩ := forall2_get' hr.conds hf
    obtain ⟨a, ha, rfl⟩ := forall2_get' hr.vals hx
    obtain ⟨b, hb, rfl⟩ := forall2_get' hr.vals hy
    exact C.bind_index hd <| C.bind_index ha <| C.bind_index hb <|
      C.bind (C_bisec fun hH => ⟨mC hd hH, mV ha hH, mV hb hH⟩) fun t ht =>
      C.pure (hr.pushV (by rw [ht, rd]; cases f <;> simp)) fun hH => (hok hH.1).pushV hH.2
  | selectCond b i j =>
    simp only [NInstr.eval, Option.bind_eq_bind, Option.bind_eq_some_iff, Option.some.injEq] at he
    obtain ⟨f, hf, x, hx, y, hy, rfl⟩ := he
    obtain ⟨d, hd, rd⟩ := forall2_get' hr.conds hf
    obtain ⟨a, ha, ra⟩ := forall2_get' hr.conds hx
    obtain ⟨b, hb, rb⟩ := forall2_get' hr.conds hy
    exact C.bind_index hd <| C.bind_index ha <| C.bind_index hb <|
      C.bind (C_bisec fun hH => ⟨mC hd hH, mC ha hH, mC hb hH⟩) fun t ht =>
      C.pure (hr.pushC (by rw [ht, rd, ra, rb]; cases f <;> simp)) fun hH => (hok hH.1).pushC hH.2
  | assertEqual i j =>
    simp only [NInstr.eval, Option.bind_eq_bind, Option.bind_eq_some_iff] at he
    obtain ⟨x, hx, y, hy, he⟩ := he
    split at he
    · rename_i e
      cases he
      obtain ⟨a, ha, rfl⟩ := forall2_get' hr.vals hx
      obtain ⟨b, hb, rfl⟩ := forall2_get' hr.vals hy
      exact C.bind_index ha <| C.bind_index hb <| C.bind (C_assert_equal e fun hH => ⟨mV ha hH, mV hb hH⟩) fun t ht =>
        C.pure hr fun hH => hok hH.1
    · cases he
  | assertConst i k =>
    simp only [NInstr.eval, Option.bind_eq_bind, Option.bind_eq_some_iff] at he
    obtain ⟨x, hx, he⟩ := he
    split at he
    · rename_i e
      cases he
      obtain ⟨a, ha, rfl⟩ := forall2_get' hr.vals hx
      exact C.bind_index ha <| C.bind (C_assert_constant e (mV ha)) fun t ht => C.pure hr fun hH => hok hH.1
    · cases he
  | assertTrue b =>
    simp only [NInstr.eval, Option.bind_eq_bind, Option.bind_eq_some_iff] at he
    obtain ⟨x, hx, he⟩ := he
    cases x
    · simp at he
    cases he
    obtain ⟨a, ha, ra⟩ := forall2_get' hr.conds hx
    exact C.bind_index ha <| C.bind (C_assert_true ra (mC ha)) fun t ht => C.pure hr fun hH => hok hH.1
  | assertFalse b =>
    simp only [NInstr.eval, Option.bind_eq_bind, Option.bind_eq_some_iff] at he
    obtain ⟨x, hx, he⟩ := he
    cases x
    · cases he
      obtain ⟨a, ha, ra⟩ := forall2_get' hr.conds hx
      exact C.bind_index ha <| C.bind (C_assert_false ra (mC ha)) fun t ht => C.pure hr fun hH => hok hH.1
    · simp at he
  | hash is =>
    simp only [NInstr.eval, Option.bind_eq_bind, Option.bind_eq_some_iff, Option.some.injEq] at he
    obtain ⟨xs, hxs, rfl⟩ := he
    obtain ⟨as, has, ras⟩ := got_rel' hr.vals hxs
    refine C.bind_get has <| C.bind ((C44_hash_complete hn as c h).weaken fun hH a ha => (hok hH).vals _ (got_mem has a ha))
      fun t ht => C.pure (hr.pushV ?_) fun hH => (hok hH.1).pushV hH.2
    have e : as.map AssignedValue.val = xs := by
      clear ht hxs has
      induction ras with
      | nil => rfl
      | cons e _ ih => rw [List.map_cons, e, ih]
    rw [ht, ← e, List.map_map]
    rfl

/-- C57 (completeness): a program whose reference run succeeds is issued without a panic, the results are those of the
reference run, and the recorded circuit is satisfied by the recorded witness. -/
theorem C57_program_complete [Fact n.Prime] (hn : n ≤ 2 ^ 256) (prog : List (NInstr n)) (r : NRef n)
    (he : nevalAll prog ⟨[], []⟩ = some r) :
    Complete (nexecAll prog ⟨[], []⟩) (fun _ => True) (fun s => HRepNSt s r) (fun h s => OkNSt h s) := by
  intro c h
  have key : ∀ (prog : List (NInstr n)) (s : NSt n) (r r' : NRef n) (H : Prop), HRepNSt s r → (H → OkNSt h s) →
      nevalAll prog r = some r' →
      C c h H (nexecAll prog s) (fun s' => HRepNSt s' r') (fun s' => OkNSt h s') := by
    intro prog
    induction prog with
    | nil => intro s r r' H hr hok he; cases he; exact C.pure hr hok
    | cons i is ih =>
      intro s r r' H hr hok he
      simp only [nevalAll, Option.bind_eq_bind, Option.bind_eq_some_iff] at he
      obtain ⟨r1, h1, h2⟩ := he
      exact C.bind (nexec_complete hn i hr hok h1) fun s' hs' => ih s' r1 r' _ hs' (fun hH => hH.2) h2
  exact key prog _ _ _ _ ⟨.nil, .nil⟩ (fun _ => ⟨fun _ h => (nomatch h), fun _ h => (nomatch h)⟩) he

end complete

/-- The honest run is a run. -/
theorem neval_step [Fact n.Prime] (hn : n ≤ 2 ^ 256) {i : NInstr n} {r r' : NRef n} (h : i.eval r = some r') :
    NStep i r r' := by
  have hz : NeZero n := ⟨(Fact.out : n.Prime).ne_zero⟩
  cases i <;> simp only [NInstr.eval, Option.bind_eq_bind, Option.bind_eq_some_iff, Option.some.injEq] at h
  case assign x => exact h ▸ .assign x x
  case const x => exact h ▸ .const x
  case small x =>
    split at h
    · cases h; exact .small x x ‹_›
    · cases h
  case sum es k =>
    obtain ⟨x, hx, h⟩ := h
    split at h
    · cases h
    · cases h; exact .sum hx
  case add => obtain ⟨x, hx, y, hy, rfl⟩ := h; exact .add hx hy
  case addConst => obtain ⟨x, hx, rfl⟩ := h; exact .addConst hx
  case sub => obtain ⟨x, hx, y, hy, rfl⟩ := h; exact .sub hx hy
  case mul => obtain ⟨x, hx, y, hy, rfl⟩ := h; exact .mul hx hy
  case mulAddConst => obtain ⟨x, hx, y, hy, rfl⟩ := h; exact .mulAddConst hx hy
  case mulAdd => obtain ⟨x, hx, y, hy, z, hz, rfl⟩ := h; exact .mulAdd hx hy hz
  case mulAdds ts =>
    obtain ⟨x, hx, h⟩ := h
    split at h
    · cases h
    · cases h; exact .mulAdds hx
  case invUnsafe =>
    obtain ⟨x, hx, h⟩ := h
    split at h
    · cases h
    · cases h; exact .invUnsafe hx (mul_inv_cancel₀ ‹_›)
  case divUnsafe =>
    obtain ⟨x, hx, y, hy, h⟩ := h
    split at h
    · cases h
    · rename_i e
      cases h
      refine .divUnsafe hx hy ?_
      rw [mul_comm, mul_assoc, inv_mul_cancel₀ e, mul_one]
  case invert => obtain ⟨x, hx, rfl⟩ := h; exact .invert hx fun e => mul_inv_cancel₀ e
  case isZero => obtain ⟨x, hx, rfl⟩ := h; exact .isZero hx
  case bit f => exact h ▸ .bit f f
  case assertBit =>
    obtain ⟨x, hx, h⟩ := h
    split at h
    · rename_i e; cases h; exact .assertBit (f := true) (by rw [hx, e]; rfl)
    split at h
    · rename_i e; cases h; exact .assertBit (f := false) (by rw [hx, e]; rfl)
    · cases h
  case value => obtain ⟨x, hx, rfl⟩ := h; exact .value hx
  case not => obtain ⟨x, hx, rfl⟩ := h; exact .not hx
  case and => obtain ⟨x, hx, y, hy, rfl⟩ := h; exact .and hx hy
  case or => obtain ⟨x, hx, y, hy, rfl⟩ := h; exact .or hx hy
  case notAnd => obtain ⟨x, hx, y, hy, rfl⟩ := h; exact .notAnd hx hy
  case xor => obtain ⟨x, hx, y, hy, rfl⟩ := h; exact .xor hx hy
  case xnor => obtain ⟨x, hx, y, hy, rfl⟩ := h; exact .xnor hx hy
  case select => obtain ⟨f, hf, x, hx, y, hy, rfl⟩ := h; exact .select hf hx hy
  case selectCond => obtain ⟨f, hf, x, hx, y, hy, rfl⟩ := h; exact .selectCond hf hx hy
  case assertEqual =>
    obtain ⟨x, hx, y, hy, h⟩ := h
    split at h
    · rename_i e; cases h; exact .assertEqual hx (e ▸ hy)
    · cases h
  case assertConst =>
    obtain ⟨x, hx, h⟩ := h
    split at h
    · rename_i e; cases h; exact .assertConst (e ▸ hx)
    · cases h
  case assertTrue =>
    obtain ⟨x, hx, h⟩ := h
    cases x
    · simp at h
    · cases h; exact .assertTrue hx
  case assertFalse =>
    obtain ⟨x, hx, h⟩ := h
    cases x
    · cases h; exact .assertFalse hx
    · simp at h
  case hash is =>
    obtain ⟨xs, hxs, rfl⟩ := h
    refine .hash hxs ?_
    rw [List.forall₂_map_right_iff]
    exact List.forall₂_same.2 fun x _ => ⟨lt_of_lt_of_le (ZMod.val_lt _) hn, ZMod.natCast_zmod_val x⟩

theorem nevalAll_steps [Fact n.Prime] (hn : n ≤ 2 ^ 256) : ∀ {prog : List (NInstr n)} {r r' : NRef n},
    nevalAll prog r = some r' → NSteps prog r r' := by
  intro prog
  induction prog with
  | nil => intro r r' h; cases h; exact .nil
  | cons i is ih =>
    intro r r' h
    simp only [nevalAll, Option.bind_eq_bind, Option.bind_eq_some_iff] at h
    obtain ⟨r1, h1, h2⟩ := h
    exact .cons (neval_step hn h1) (ih h2)

/-- A program that uses most of the calls: is `x = 3` a root of `X² - X - 6`, and is `7 / 7 = 1`? -/
def baseProg : List (NInstr bnR) :=
  [.assign 3, .const 7, .small 9, .mul 0 0, .sub 3 0, .addConst 4 (-6), .isZero 5, .assertTrue 0,
   .divUnsafe 1 1, .assertBit 6, .and 0 1, .xor 0 1, .select 2 0 1, .assertEqual 7 0,
   .mulAdds [(0, 0, 1, 1), (1, 1, 0, -1)], .sum [(0, 1), (1, 2), (2, 3), (3, 4), (4, 5), (5, 6)] (some 1),
   .assertFalse 3, .invert 5, .invert 1, .selectCond 3 4 5, .assertFalse 6, .value 1, .assertConst 12 1]

theorem C57_case : (∃ r : NRef bnR, nevalAll baseProg ⟨[], []⟩ = some r) ∧ ∀ i ∈ baseProg, ¬ i.usesBits := by
  refine ⟨?_, by simp [baseProg, NInstr.usesBits]⟩
  apply Option.isSome_iff_exists.1
  decide +kernel

/-- … and a program with bits and a hash. -/
example : ∃ r : NRef bnR, nevalAll [.assign 3, .bit true, .assign 5, .select 0 0 1, .hash [0, 1, 2], .isZero 2, .assertFalse 1]
    ⟨[], []⟩ = some r := by
  apply Option.isSome_iff_exists.1
  decide +kernel

/-- Both are issued without a panic and accepted. -/
example (prog : List (NInstr bnR)) (r : NRef bnR) (h : nevalAll prog ⟨[], []⟩ = some r) :
    Accepted (nexecAll prog ⟨[], []⟩) (fun s => HRepNSt s r) :=
  haveI : Fact bnR.Prime := ⟨bnR_prime⟩
  Accepted.of_C fun c k => (C57_program_complete (by decide +kernel) prog r h c k).weaken fun _ => trivial

end Verif
