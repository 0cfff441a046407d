import Verif.Spec.Judgement

/-!
# Rules of the program logics
-/

namespace Verif

variable {n : ℕ} {α β : Type}

theorem Grows.refl (s : Context n) : Grows s s where
  baseOff := le_rfl
  rangeOff := le_rfl
  selOff := le_rfl
  baseFix _ _ _ := rfl
  baseAdv _ _ _ := rfl
  rangeFix _ _ _ := rfl
  rangeAdv _ _ _ := rfl
  selFix _ _ _ := rfl
  selAdv _ _ _ := rfl
  perms := ⟨[], by simp⟩

theorem Grows.trans {s t u : Context n} (h : Grows s t) (h' : Grows t u) : Grows s u where
  baseOff := h.baseOff.trans h'.baseOff
  rangeOff := h.rangeOff.trans h'.rangeOff
  selOff := h.selOff.trans h'.selOff
  baseFix r k hr := (h'.baseFix r k (hr.trans_le h.baseOff)).trans (h.baseFix r k hr)
  baseAdv r k hr := (h'.baseAdv r k (hr.trans_le h.baseOff)).trans (h.baseAdv r k hr)
  rangeFix r k hr := (h'.rangeFix r k (hr.trans_le h.rangeOff)).trans (h.rangeFix r k hr)
  rangeAdv r k hr := (h'.rangeAdv r k (hr.trans_le h.rangeOff)).trans (h.rangeAdv r k hr)
  selFix r k hr := (h'.selFix r k (hr.trans_le h.selOff)).trans (h.selFix r k hr)
  selAdv r k hr := (h'.selAdv r k (hr.trans_le h.selOff)).trans (h.selAdv r k hr)
  perms := by
    obtain ⟨e, he⟩ := h.perms
    obtain ⟨e', he'⟩ := h'.perms
    exact ⟨e ++ e', by rw [he', he, List.append_assoc]⟩

theorem Grows.embeds {s t : Context n} (h : Grows s t) {c : Circuit n} (e : t.Embeds c) :
    s.Embeds c where
  fits := ⟨h.baseOff.trans e.fits.base, h.rangeOff.trans e.fits.range, h.selOff.trans e.fits.select⟩
  base r k hr := by rw [e.base r k (hr.trans_le h.baseOff), h.baseFix r k hr]
  range r k hr := by rw [e.range r k (hr.trans_le h.rangeOff), h.rangeFix r k hr]
  select r k hr := by rw [e.select r k (hr.trans_le h.selOff), h.selFix r k hr]
  copies p hp := by
    obtain ⟨x, hx⟩ := h.perms
    exact e.copies p (by rw [hx]; exact List.mem_append_left _ hp)

theorem Grows.agrees {s t : Context n} (g : Grows s t) {h : Advice n} (a : Agrees t h) : Agrees s h where
  base r k hr := by rw [a.base r k (hr.trans_le g.baseOff), g.baseAdv r k hr]
  range r k hr := by rw [a.range r k (hr.trans_le g.rangeOff), g.rangeAdv r k hr]
  select r k hr := by rw [a.select r k (hr.trans_le g.selOff), g.selAdv r k hr]

theorem NewOk.refl (c : Circuit n) (h : Advice n) (s : Context n) : NewOk c h s s where
  base _ h1 h2 := absurd h2 (not_lt.2 h1)
  range _ h1 h2 := absurd h2 (not_lt.2 h1)
  select _ h1 h2 := absurd h2 (not_lt.2 h1)
  copies := ⟨[], by simp, by simp⟩

theorem NewOk.trans {c : Circuit n} {h : Advice n} {s t u : Context n} (a : NewOk c h s t)
    (b : NewOk c h t u) : NewOk c h s u where
  base r h1 h2 := if hr : r < t.base_offset then a.base r h1 hr else b.base r (not_lt.1 hr) h2
  range r h1 h2 := if hr : r < t.range_offset then a.range r h1 hr else b.range r (not_lt.1 hr) h2
  select r h1 h2 := if hr : r < t.select_offset then a.select r h1 hr else b.select r (not_lt.1 hr) h2
  copies := by
    obtain ⟨x, hx, hx'⟩ := a.copies
    obtain ⟨y, hy, hy'⟩ := b.copies
    refine ⟨x ++ y, by rw [hy, hx, List.append_assoc], ?_⟩
    intro p hp
    rcases List.mem_append.1 hp with hp | hp
    · exact hx' p hp
    · exact hy' p hp

/-! ## Running -/

theorem run_bind (m : M n α) (f : α → M n β) (s : Context n) :
    (m >>= f) s = match m s with
      | .ok (a, t) => f a t
      | .error e => .error e := by
  show (do let x ← m s; f x.1 x.2 : Except Panic (β × Context n)) = _
  rcases m s with e | ⟨a, t⟩ <;> rfl

@[simp] theorem run_pure (a : α) (s : Context n) : (pure a : M n α) s = .ok (a, s) := rfl

@[simp] theorem run_panic (p : Panic) (s : Context n) : (panic p : M n α) s = .error p := rfl

theorem run_bind_ok {m : M n α} {f : α → M n β} {s : Context n} {b : β} {u : Context n} :
    (m >>= f) s = .ok (b, u) ↔ ∃ a t, m s = .ok (a, t) ∧ f a t = .ok (b, u) := by
  rw [run_bind]
  rcases m s with e | ⟨a, t⟩
  · simp
  · simp only [Except.ok.injEq, Prod.mk.injEq]
    constructor
    · intro h; exact ⟨a, t, ⟨rfl, rfl⟩, h⟩
    · rintro ⟨a', t', ⟨rfl, rfl⟩, h⟩; exact h

/-! ## Rules for `S` -/

namespace S
variable {c : Circuit n} {m : M n α} {f : α → M n β} {P P' : α → Prop} {Q : β → Prop}

theorem mono (h : S c m P) (hp : ∀ a, P a → P' a) : S c m P' := fun s a t hs hm =>
  let ⟨h1, h2, h3⟩ := h s a t hs hm
  ⟨h1, h2, fun e => hp a (h3 e)⟩

theorem pure {a : α} (h : P a) : S c (pure a : M n α) P := by
  intro s a' t hs hm
  cases hm
  exact ⟨hs, Grows.refl _, fun _ => h⟩

theorem panic {p : Panic} : S c (Verif.panic p : M n α) P := by
  intro s a t hs hm
  cases hm

theorem bind (hm : S c m P) (hf : ∀ a, S c (f a) (fun b => P a → Q b)) : S c (m >>= f) Q := by
  intro s b u hs h
  obtain ⟨a, t, h1, h2⟩ := run_bind_ok.1 h
  obtain ⟨ft, g1, p1⟩ := hm s a t hs h1
  obtain ⟨fu, g2, p2⟩ := hf a t b u ft h2
  exact ⟨fu, g1.trans g2, fun e => p2 e (p1 (g2.embeds e))⟩

theorem trivial_of (h : S c m P) : S c m (fun _ => True) := h.mono (fun _ _ => True.intro)

theorem and (h : S c m P) (h' : S c m P') : S c m (fun a => P a ∧ P' a) := fun s a t hs hm =>
  let ⟨h1, h2, h3⟩ := h s a t hs hm
  let ⟨_, _, h3'⟩ := h' s a t hs hm
  ⟨h1, h2, fun e => ⟨h3 e, h3' e⟩⟩

/-- A precondition may be assumed when it is also part of the goal. -/
theorem imp {A : Prop} (h : A → S c m P) (h0 : S c m (fun _ => True)) : S c m (fun a => A → P a) :=
  fun s a t hs hm =>
    let ⟨h1, h2, _⟩ := h0 s a t hs hm
    ⟨h1, h2, fun e ha => (h ha s a t hs hm).2.2 e⟩

theorem rassert {b : Bool} : S c (Verif.rassert b : M n Unit) (fun _ => b = true) := by
  unfold Verif.rassert
  split
  · exact pure ‹_›
  · exact panic

theorem unwrap {o : Option α} : S c (Verif.unwrap o : M n α) (fun a => o = some a) := by
  unfold Verif.unwrap
  split
  · exact pure rfl
  · exact panic

theorem index {l : List α} {i : ℕ} : S c (Verif.index l i : M n α) (fun a => l[i]? = some a) := by
  unfold Verif.index
  split
  · exact pure ‹_›
  · exact panic

theorem ite {b : Prop} [Decidable b] {m m' : M n α} (h : b → S c m P) (h' : ¬ b → S c m' P) :
    S c (if b then m else m') P := by
  split
  · exact h ‹_›
  · exact h' ‹_›

theorem mapM {f : α → M n β} {P : α → β → Prop} :
    ∀ {l : List α}, (∀ x ∈ l, S c (f x) (P x)) → S c (l.mapM f) (fun ys => List.Forall₂ P l ys)
  | [], _ => by rw [List.mapM_nil]; exact pure List.Forall₂.nil
  | x :: l, h => by
    rw [List.mapM_cons]
    refine bind (h x (by simp)) fun y => bind (mapM (l := l) fun x hx => h x (by simp [hx])) fun ys => ?_
    exact pure fun h1 h2 => List.Forall₂.cons h2 h1

theorem bind_panic {p : Panic} : S c (Verif.panic p >>= f) Q := by
  intro s b u hs h
  rw [run_bind] at h
  cases h

theorem bind_rassert {b : Bool} {f : Unit → M n β} (h : b = true → S c (f ()) Q) :
    S c (Verif.rassert b >>= f) Q := by
  unfold Verif.rassert
  split
  · rw [pure_bind]; exact h ‹_›
  · exact bind_panic

theorem bind_fits_u64 {x : ℕ} {f : Unit → M n β} (h : x < 2 ^ 64 → S c (f ()) Q) :
    S c (Verif.fits_u64 x >>= f) Q := by
  unfold Verif.fits_u64
  split
  · rw [pure_bind]; exact h ‹_›
  · exact bind_panic

theorem bind_unwrap {o : Option α} (h : ∀ a, o = some a → S c (f a) Q) :
    S c (Verif.unwrap o >>= f) Q := by
  unfold Verif.unwrap
  split
  · rw [pure_bind]; exact h _ rfl
  · exact bind_panic

theorem bind_index {l : List α} {i : ℕ} (h : ∀ a, l[i]? = some a → S c (f a) Q) :
    S c (Verif.index l i >>= f) Q := by
  unfold Verif.index
  split
  · rw [pure_bind]; exact h _ ‹_›
  · exact bind_panic

end S

/-! ## Rules for `C` -/

namespace C
variable {c : Circuit n} {h : Advice n} {H H' : Prop} {m : M n α} {f : α → M n β}
  {P P' Q Q' : α → Prop} {R T : β → Prop}

theorem mono (hm : C c h H m P Q) (hp : ∀ a, P a → P' a) (hq : ∀ a, H → P a → Q a → Q' a) :
    C c h H m P' Q' := fun s hs =>
  let ⟨a, t, h1, h2, h3, h4, h5⟩ := hm s hs
  ⟨a, t, h1, h2, h3, hp a h4, fun hH e g => let ⟨o, q⟩ := h5 hH e g; ⟨o, hq a hH h4 q⟩⟩

theorem weaken (hm : C c h H m P Q) (hH : H' → H) : C c h H' m P Q := fun s hs =>
  let ⟨a, t, h1, h2, h3, h4, h5⟩ := hm s hs
  ⟨a, t, h1, h2, h3, h4, fun hH' => h5 (hH hH')⟩

theorem pure {a : α} (hp : P a) (hq : H → Q a) : C c h H (pure a : M n α) P Q := fun s hs =>
  ⟨a, s, rfl, hs, Grows.refl _, hp, fun hH _ _ => ⟨NewOk.refl _ _ _, hq hH⟩⟩

theorem bind (hm : C c h H m P Q) (hf : ∀ a, P a → C c h (H ∧ Q a) (f a) R T) :
    C c h H (m >>= f) R T := by
  intro s hs
  obtain ⟨a, t, h1, ft, g1, pa, k1⟩ := hm s hs
  obtain ⟨b, u, h2, fu, g2, rb, k2⟩ := hf a pa t ft
  refine ⟨b, u, ?_, fu, g1.trans g2, rb, ?_⟩
  · rw [run_bind, h1]; exact h2
  · intro hH e ag
    obtain ⟨o1, qa⟩ := k1 hH (g2.embeds e) (g2.agrees ag)
    obtain ⟨o2, tb⟩ := k2 ⟨hH, qa⟩ e ag
    exact ⟨o1.trans o2, tb⟩

theorem rassert {b : Bool} (hb : b = true) :
    C c h H (Verif.rassert b : M n Unit) (fun _ => True) (fun _ => True) := by
  subst hb; exact pure trivial fun _ => trivial

theorem unwrap {o : Option α} {a : α} (ho : o = some a) :
    C c h H (Verif.unwrap o : M n α) (fun x => x = a) (fun _ => True) := by
  subst ho; exact pure rfl fun _ => trivial

theorem index {l : List α} {i : ℕ} {a : α} (hi : l[i]? = some a) :
    C c h H (Verif.index l i : M n α) (fun x => x = a) (fun _ => True) := by
  unfold Verif.index
  rw [hi]
  exact pure rfl fun _ => trivial

theorem mapM {f : α → M n β} {P Q : α → β → Prop} :
    ∀ {l : List α}, (∀ x ∈ l, C c h H (f x) (P x) (Q x)) →
      C c h H (l.mapM f) (fun ys => List.Forall₂ P l ys) (fun ys => List.Forall₂ Q l ys)
  | [], _ => by rw [List.mapM_nil]; exact pure List.Forall₂.nil fun _ => List.Forall₂.nil
  | x :: l, hf => by
    rw [List.mapM_cons]
    refine bind (hf x (by simp)) fun y hy =>
      bind ((mapM (l := l) fun x hx => hf x (by simp [hx])).weaken fun hH => hH.1) fun ys hys => ?_
    exact pure (List.Forall₂.cons hy hys) fun hH => List.Forall₂.cons hH.1.2 hH.2

theorem bind_rassert {b : Bool} {f : Unit → M n β} (hb : b = true) (hf : C c h H (f ()) R T) :
    C c h H (Verif.rassert b >>= f) R T := by
  subst hb; exact hf

theorem bind_fits_u64 {x : ℕ} {f : Unit → M n β} (hx : x < 2 ^ 64) (hf : C c h H (f ()) R T) :
    C c h H (Verif.fits_u64 x >>= f) R T := by
  unfold Verif.fits_u64
  rw [if_pos hx]
  exact hf

theorem bind_unwrap {o : Option α} {a : α} (ho : o = some a) (hf : C c h H (f a) R T) :
    C c h H (Verif.unwrap o >>= f) R T := by
  subst ho; exact hf

theorem bind_index {l : List α} {i : ℕ} {a : α} (hi : l[i]? = some a) (hf : C c h H (f a) R T) :
    C c h H (Verif.index l i >>= f) R T := by
  unfold Verif.index
  rw [hi]
  exact hf

end C

/-! ## What the judgements say about whole programs -/

theorem Context.new_fresh : (Context.new n).Fresh where
  baseFix _ _ _ := rfl
  baseAdv _ _ _ := rfl
  rangeFix _ _ _ := rfl
  rangeAdv _ _ _ := rfl
  selFix _ _ _ := rfl
  selAdv _ _ _ := rfl

theorem Context.embeds_circuit {s : Context n} {usable : ℕ} (h : s.Fits usable) :
    s.Embeds (s.circuit usable) where
  fits := h
  base _ _ _ := rfl
  range _ _ _ := rfl
  select _ _ _ := rfl
  copies _ hp := hp

theorem Context.agrees_honest (s : Context n) : Agrees s s.honest where
  base _ _ _ := rfl
  range _ _ _ := rfl
  select _ _ _ := rfl

/-- A sound operation run in any fresh context: every assignment satisfying the recorded circuit satisfies
the postcondition. -/
theorem S.run {m : M n α} {P : Advice n → α → Prop}
    (hm : ∀ (c : Circuit n) (w : Advice n), c.Sat w → S c m (P w)) {s t : Context n} {a : α}
    (hs : s.Fresh) (h : m s = .ok (a, t)) {usable : ℕ} (hf : t.Fits usable) {w : Advice n}
    (hw : (t.circuit usable).Sat w) : P w a :=
  (hm _ w hw s a t hs h).2.2 (Context.embeds_circuit hf)

/-- A complete operation run as a whole program: it does not panic, and the recorded witness satisfies the
recorded circuit. -/
theorem C.run_new {m : M n α} {P : α → Prop} {Q : Advice n → α → Prop}
    (hm : ∀ (c : Circuit n) (h : Advice n), C c h True m P (Q h)) :
    ∃ a t, m (Context.new n) = .ok (a, t) ∧ t.Fresh ∧ P a ∧ ∀ usable, t.Fits usable →
      (t.circuit usable).Sat t.honest ∧ Q t.honest a := by
  obtain ⟨a, t, h1, h2, -, h4, -⟩ := hm ⟨0, fun _ _ => 0, fun _ _ => 0, fun _ _ => 0, []⟩ (fun _ => 0) _
    Context.new_fresh
  refine ⟨a, t, h1, h2, h4, fun usable hf => ?_⟩
  obtain ⟨a', t', h1', -, -, -, h5⟩ := hm (t.circuit usable) t.honest _ Context.new_fresh
  rw [h1] at h1'
  cases h1'
  obtain ⟨no, q⟩ := h5 trivial (Context.embeds_circuit hf) t.agrees_honest
  refine ⟨⟨fun r hr => ?_, fun r hr => ?_, fun r hr => ?_, fun p hp => ?_⟩, q⟩
  · by_cases h : r < t.base_offset
    · exact no.base r (Nat.zero_le _) h
    · have : ∀ k, (t.circuit usable).baseFix r k = 0 := fun k => by
        show (t.records.inner.base_fix_record r k).getD 0 = 0
        rw [h2.baseFix r k (not_lt.1 h)]; rfl
      simp [Circuit.baseGate, this]
  · by_cases h : r < t.range_offset
    · exact no.range r (Nat.zero_le _) h
    · have hf : ∀ k, (t.circuit usable).rangeFix r k = 0 := fun k => by
        show (t.records.inner.range_fix_record r k).getD 0 = 0
        rw [h2.rangeFix r k (not_lt.1 h)]; rfl
      have ha : ∀ k, t.honest ⟨.range, k, r⟩ = 0 := fun k => by
        show (t.records.inner.range_adv_record r k).getD 0 = 0
        rw [h2.rangeAdv r k (not_lt.1 h)]; rfl
      exact ⟨⟨0, 0, by simp, by simp, by simp [hf], by simp [ha]⟩,
        ⟨18, 0, by simp, by simp, by simp, by simp [ha]⟩,
        by simp [Circuit.rangeGate1, hf], by simp [Circuit.rangeGate2, hf], by simp [Circuit.rangeGate3, hf]⟩
  · by_cases h : r < t.select_offset
    · exact no.select r (Nat.zero_le _) h
    · have hf : ∀ k, (t.circuit usable).selFix r k = 0 := fun k => by
        show (t.records.inner.select_fix_record r k).getD 0 = 0
        rw [h2.selFix r k (not_lt.1 h)]; rfl
      have ha : ∀ k, t.honest ⟨.select, k, r⟩ = 0 := fun k => by
        show (t.records.inner.select_adv_record r k).getD 0 = 0
        rw [h2.selAdv r k (not_lt.1 h)]; rfl
      exact ⟨r, hr, rfl, by simp [hf, ha], by simp [hf]⟩
  · obtain ⟨extra, e1, e2⟩ := no.copies
    have : p ∈ extra := by
      have hp' : p ∈ t.records.permutations := hp
      rw [e1] at hp'
      simpa [Context.new] using hp'
    exact e2 p this

theorem Accepted.of_C {m : M n α} {P : α → Prop} {Q : Advice n → α → Prop}
    (hm : ∀ (c : Circuit n) (h : Advice n), C c h True m P (Q h)) : Accepted m P :=
  let ⟨a, t, h1, _, h3, h4⟩ := C.run_new hm
  ⟨a, t, h1, h3, fun u hu => (h4 u hu).1⟩

end Verif
