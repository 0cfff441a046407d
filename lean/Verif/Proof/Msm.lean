import Verif.Proof.EccAffine
import Verif.Proof.Parallel

/-!
# Multi-scalar multiplication, soundness
-/

namespace Verif
variable {cc : Prop}
variable {n wm : ℕ} {info : RangeInfo n} {b : ZMod wm} {σ : Type}

/-! ## Structure -/

section
variable {α β : Type}

theorem Growing.pure (a : α) : Growing (Pure.pure a : M n α) := (Built.pure (cc := True) a).growing

theorem Growing.bind {m : M n α} {k : α → M n β} (hm : Growing m) (hk : ∀ a, Growing (k a)) : Growing (m >>= k) := by
  intro s r t hs e
  obtain ⟨a, u, h1, h2⟩ := run_bind_ok.1 e
  obtain ⟨f1, g1⟩ := hm _ _ _ hs h1
  obtain ⟨f2, g2⟩ := hk a _ _ _ f1 h2
  exact ⟨f2, g1.trans g2⟩

theorem Growing.bind_index {l : List α} {i : ℕ} {k : α → M n β} (hk : ∀ a, l[i]? = some a → Growing (k a)) :
    Growing (index l i >>= k) := by
  unfold index
  split
  · rw [pure_bind]; exact hk _ ‹_›
  · intro s r t hs e; cases e

theorem Growing.tryB {m : M n (Except UnsafeError α)} {k : α → M n (Except UnsafeError β)} (hm : Growing m)
    (hk : ∀ a, Growing (k a)) : Growing (Verif.tryB m k) := by
  refine Growing.bind hm fun r => ?_
  cases r with
  | ok a => exact hk a
  | error e => exact .pure _

theorem S.bindG {c : Circuit n} {m : M n α} {k : α → M n β} {P : α → Prop} {Q : β → Prop} (h : S c m P)
    (hg : ∀ a, Growing (k a)) (hk : ∀ a, P a → S c (k a) Q) : S c (m >>= k) Q :=
  S.bind h fun a => S.imp (hk a) ((hg a).trivial c)

theorem S.tryG {c : Circuit n} {m : M n (Except UnsafeError α)} {k : α → M n (Except UnsafeError β)}
    {P : α → Prop} {Q : Except UnsafeError β → Prop} (h : S c m (fun r => ∃ a, r = .ok a ∧ P a))
    (hg : ∀ a, Growing (k a)) (hk : ∀ a, P a → S c (k a) Q) : S c (Verif.tryB m k) Q := by
  unfold Verif.tryB
  refine S.bindG h (fun r => ?_) ?_
  · cases r with
    | ok a => exact hg a
    | error e => exact .pure _
  · rintro _ ⟨a, rfl, ha⟩
    exact hk a ha

theorem NeverErr.tryB {m : M n (Except UnsafeError α)} {k : α → M n (Except UnsafeError β)} (hm : NeverErr m)
    (hk : ∀ a, NeverErr (k a)) : NeverErr (Verif.tryB m k) := by
  intro s r t e
  obtain ⟨r', u, h1, h2⟩ := run_bind_ok.1 e
  obtain ⟨a, rfl⟩ := hm _ _ _ h1
  exact hk a _ _ _ h2

theorem NeverErr.bind {ε : Type} {m : M n α} {k : α → M n (Except ε β)} (hk : ∀ a, NeverErr (k a)) :
    NeverErr (m >>= k) := by
  intro s r t e
  obtain ⟨a, u, h1, h2⟩ := run_bind_ok.1 e
  exact hk a _ _ _ h2

theorem NeverErr.pure {ε : Type} (a : α) : NeverErr (Pure.pure (.ok a) : M n (Except ε α)) := by
  intro s r t e
  cases e
  exact ⟨a, rfl⟩

end

/-- `ecc_add_unsafe` never returns an `Err` (`C25_violated_never_err`). -/
theorem neverErr_add (info : RangeInfo n) (a q : AssignedNonZeroPoint n) : NeverErr (ecc_add_unsafe info a q) := by
  intro s r t h
  unfold ecc_add_unsafe at h
  obtain ⟨dx, _, -, h⟩ := run_bind_ok.1 h
  obtain ⟨dy, _, -, h⟩ := run_bind_ok.1 h
  obtain ⟨⟨xeq, tan⟩, _, -, h⟩ := run_bind_ok.1 h
  obtain ⟨su, _, h1, h⟩ := run_bind_ok.1 h
  obtain ⟨p, _, -, h⟩ := run_bind_ok.1 h
  have : su = true := by
    unfold try_assert_false assert_constant at h1
    by_cases ha : xeq.val = 0
    · obtain ⟨_, _, _, h2⟩ := run_bind_ok.1 h1
      cases h2
      simpa using ha
    · rw [bind_assoc] at h1
      obtain ⟨_, _, h1, -⟩ := run_bind_ok.1 h1
      rw [show decide (xeq.val = 0) = false by simpa using ha] at h1
      cases h1
  subst this
  cases h
  exact ⟨p, rfl⟩

theorem prog_fill_candidates {cache : AssignedNonZeroPoint n → ℕ → M n Unit} (hc : ∀ p i, Built cc (cache p i))
    (chunk : List (AssignedNonZeroPoint n)) (is : List ℕ) :
    ∀ cl, Built cc (fill_candidates info cache chunk cl is) := by
  induction is with
  | nil => intro cl; unfold fill_candidates; exact .pure _
  | cons i is ih => intro cl; unfold fill_candidates; prog

theorem prog_group_candidates {cache : ℕ → AssignedNonZeroPoint n → ℕ → M n Unit} (hc : ∀ g p i, Built cc (cache g p i))
    (line line_neg : AssignedNonZeroPoint n) (l : List (List (AssignedNonZeroPoint n))) :
    ∀ g, Built cc (group_candidates info cache line line_neg g l) := by
  induction l with
  | nil => intro g; unfold group_candidates; exact .pure _
  | cons x l ih =>
    intro g
    unfold group_candidates
    exact .bind (hc _ _ _) fun _ => prog_tryB (prog_fill_candidates (hc g) _ _ _) fun _ =>
      prog_tryB (ih _) fun _ => .pure _

theorem prog_group_bits (wi : ℕ) (group : List (List (List (AssignedCondition n)))) :
    Built cc (group_bits wi group) := by unfold group_bits; prog

theorem prog_window_acc {pick : ℕ → List (AssignedCondition n) → M n (AssignedNonZeroPoint n)}
    (hp : ∀ g l, Built cc (pick g l)) (wi : ℕ) (l : List (List (List (List (AssignedCondition n))))) :
    ∀ g acc, Built cc (window_acc info pick wi g l acc) := by
  induction l with
  | nil => intro g acc; unfold window_acc; exact .pure _
  | cons x l ih =>
    intro g acc
    unfold window_acc
    exact .bind (prog_group_bits _ _) fun _ => .bind (hp _ _) fun _ => prog_tryB (prog_ecc_add_unsafe _ _ _) fun _ => ih _ _

theorem neverErr_window_acc {pick : ℕ → List (AssignedCondition n) → M n (AssignedNonZeroPoint n)}
    (wi : ℕ) (l : List (List (List (List (AssignedCondition n))))) :
    ∀ g acc, NeverErr (window_acc info pick wi g l acc) := by
  induction l with
  | nil => intro g acc; unfold window_acc; exact .pure _
  | cons x l ih =>
    intro g acc
    unfold window_acc
    exact .bind fun _ => .bind fun _ => .tryB (neverErr_add _ _ _) fun _ => ih _ _

theorem prog_pick_bisec (candidates : List (List (AssignedNonZeroPoint n))) (g : ℕ)
    (bits : List (AssignedCondition n)) : Built cc (pick_bisec info candidates g bits) := by unfold pick_bisec; prog

theorem prog_pick_select (group_prefix : ℕ) (candidates : List (List (AssignedNonZeroPoint n))) (g : ℕ)
    (bits : List (AssignedCondition n)) : Built cc (pick_select info group_prefix candidates g bits) := by
  unfold pick_select; prog

theorem prog_windows_acc (odd : Bool) (line_neg : AssignedNonZeroPoint n) (l : List (AssignedNonZeroPoint n)) :
    ∀ acc, Built cc (windows_acc info odd line_neg l acc) := by
  induction l with
  | nil => intro acc; unfold windows_acc; exact .pure _
  | cons x l ih => intro acc; unfold windows_acc; prog

/-! ## Soundness of the parts -/

/-- What is known of a list of candidates: candidate `i` stands for `Q i` and is cached (`K`). -/
def Cands (info : RangeInfo n) (w : Advice n) (K : ℕ → AssignedNonZeroPoint n → Prop)
    (cl : List (AssignedNonZeroPoint n)) (Q : ℕ → Pt b) : Prop :=
  ∀ i p, cl[i]? = some p → NRep info w p (Q i) ∧ K i p

theorem Cands.snoc {w : Advice n} {K : ℕ → AssignedNonZeroPoint n → Prop} {cl : List (AssignedNonZeroPoint n)}
    {Q : ℕ → Pt b} (h : Cands info w K cl Q) {p : AssignedNonZeroPoint n} (hp : NRep info w p (Q cl.length))
    (hk : K cl.length p) : Cands info w K (cl ++ [p]) Q := by
  intro i q hq
  rcases Nat.lt_trichotomy i cl.length with hi | hi | hi
  · rw [List.getElem?_append_left hi] at hq
    exact h i q hq
  · subst hi
    simp at hq
    subst hq
    exact ⟨hp, hk⟩
  · rw [List.getElem?_eq_none (by simp; omega)] at hq
    cases hq

section
variable [Fact n.Prime] [Fact wm.Prime] (h : RangeInfo.new wm n 18 6 = .ok info) {c : Circuit n} {w : Advice n}
  (hw : c.Sat w)
include h hw

theorem S_add_nz {a q : AssignedNonZeroPoint n} {P Q : Pt b} (ha : NRep info w a P) (hq : NRep info w q Q) :
    S c (ecc_add_unsafe info a q) (fun r => ∃ p, r = .ok p ∧ NRep info w p (P + Q)) :=
  (S_ecc_add_unsafe h hw a q).mono fun _ hr => (hr P Q ha hq).2.2

theorem S_double_nz (hb : GoodCurve b) {a : AssignedNonZeroPoint n} {P : Pt b} (ha : NRep info w a P) :
    S c (ecc_double_unsafe info a) (fun r => ∃ p, r = .ok p ∧ NRep info w p (P + P)) :=
  (S_ecc_double_unsafe h hw hb a).mono fun _ hr => (hr P ha).2

theorem S_fill {cache : AssignedNonZeroPoint n → ℕ → M n Unit} (hc : ∀ p i, Prog (cache p i))
    {K : ℕ → AssignedNonZeroPoint n → Prop} (hK : ∀ p i, S c (cache p i) (fun _ => K i p))
    {chunk : List (AssignedNonZeroPoint n)} {Ps : List (Pt b)} (hP : List.Forall₂ (NRep info w) chunk Ps) (I : Pt b) :
    ∀ (m i : ℕ) (cl : List (AssignedNonZeroPoint n)), cl.length = i → 1 ≤ i → i + m ≤ 2 ^ 32 →
      Cands info w K cl (fun j => I + subsetSum Ps j) →
      S c (fill_candidates info cache chunk cl (List.range' i m)) (fun r => ∃ cl', r = .ok cl' ∧
        cl'.length = i + m ∧ Cands info w K cl' (fun j => I + subsetSum Ps j)) := by
  intro m
  induction m with
  | zero =>
    intro i cl hl _ _ hcl
    exact S.pure ⟨cl, rfl, hl, hcl⟩
  | succ m ih =>
    intro i cl hl h1 h2 hcl
    rw [List.range'_succ]
    unfold fill_candidates
    refine S.bind_index fun a ha => S.bind_index fun q hq => ?_
    have hq' : trailing_zeros 32 i < Ps.length := by
      rw [← hP.length_eq]; exact (List.getElem?_eq_some_iff.1 hq).1
    have hPq : Ps[trailing_zeros 32 i]? = some Ps[trailing_zeros 32 i] := List.getElem?_eq_getElem hq'
    have hNq : NRep info w q Ps[trailing_zeros 32 i] := by
      obtain ⟨hlt, e⟩ := List.getElem?_eq_some_iff.1 hq
      rw [← e]
      exact hP.get hlt hq'
    have e : I + subsetSum Ps i = I + subsetSum Ps (i - 2 ^ trailing_zeros 32 i) + Ps[trailing_zeros 32 i] := by
      rw [subsetSum_step 32 i Ps _ (by omega) (by omega) hPq, add_assoc]
    refine S.tryB (S_add_nz h hw (hcl _ _ ha).1 hNq) ?_ fun p hp => ?_
    · intro p
      exact .bind (prog_ecc_reduce_non_zero _ _) fun _ => .bind (hc _ _) fun _ => prog_fill_candidates hc _ _ _
    · refine S.bindP ((S_reduce_nz (b := b) h hw p).mono fun r hr => hr _ hp) ?_ fun r hr => ?_
      · intro p
        exact .bind (hc _ _) fun _ => prog_fill_candidates hc _ _ _
      · refine S.bindP (hK r i) (fun _ => prog_fill_candidates hc _ _ _) fun _ hk => ?_
        refine (ih (i + 1) (cl ++ [r]) (by simp [hl]) (by omega) (by omega) ?_).mono ?_
        · refine hcl.snoc ?_ (hl ▸ hk)
          show NRep info w r (I + subsetSum Ps cl.length)
          rw [hl, e]
          exact hr.1
        · rintro r ⟨cl', e1, e2, e3⟩
          exact ⟨cl', e1, by omega, e3⟩

/-- What is known of the candidates of the groups from `g` on. -/
def GroupCands (info : RangeInfo n) (w : Advice n) (K : ℕ → ℕ → AssignedNonZeroPoint n → Prop) (L : Pt b) (g : ℕ)
    (cs : List (List (AssignedNonZeroPoint n))) (Pss : List (List (Pt b))) : Prop :=
  ∀ j cl Ps, cs[j]? = some cl → Pss[j]? = some Ps → cl.length = 2 ^ Ps.length ∧
    Cands info w (K (g + j)) cl (fun i => signed L (g + j) + subsetSum Ps i)

theorem S_group_candidates {cache : ℕ → AssignedNonZeroPoint n → ℕ → M n Unit} (hc : ∀ g p i, Prog (cache g p i))
    {K : ℕ → ℕ → AssignedNonZeroPoint n → Prop} (hK : ∀ g p i, S c (cache g p i) (fun _ => K g i p))
    {line line_neg : AssignedNonZeroPoint n} {L : Pt b} (hL : NRep info w line L) (hL' : NRep info w line_neg (-L))
    {l : List (List (AssignedNonZeroPoint n))} {Pss : List (List (Pt b))}
    (hP : List.Forall₂ (List.Forall₂ (NRep info w)) l Pss) (hlen : ∀ x ∈ l, x.length ≤ 31) :
    ∀ g, S c (group_candidates info cache line line_neg g l) (fun r => ∃ cs, r = .ok cs ∧
      GroupCands info w K L g cs Pss) := by
  induction hP with
  | nil =>
    intro g
    unfold group_candidates
    exact S.pure ⟨[], rfl, fun j cl Ps h _ => by simp at h⟩
  | @cons chunk Ps l Pss hx _ ih =>
    intro g
    have ih := ih fun x hx => hlen x (by simp [hx])
    have hlx := hlen chunk (by simp)
    unfold group_candidates
    have hinit : NRep info w (if g % 2 = 0 then line else line_neg) (signed L g) := by
      unfold signed
      split
      exacts [hL, hL']
    refine S.bindP (hK g _ 0) ?_ fun _ hk => ?_
    · intro _
      exact prog_tryB (prog_fill_candidates (hc g) _ _ _) fun _ => prog_tryB (prog_group_candidates hc _ _ _ _) fun _ =>
        .pure _
    have h2 : 2 ^ chunk.length ≤ 2 ^ 31 := Nat.pow_le_pow_right (by norm_num) hlx
    have h1 : 1 ≤ 2 ^ chunk.length := Nat.one_le_two_pow
    refine S.tryB (S_fill h hw (hc g) (hK g) hx (signed L g) _ 1 [_] rfl le_rfl (by omega) ?_) ?_ fun cl hcl => ?_
    · intro i p hp
      rcases i with _ | i
      · simp at hp
        subst hp
        simp only [subsetSum_zero, add_zero]
        exact ⟨hinit, hk⟩
      · simp at hp
    · intro _
      exact prog_tryB (prog_group_candidates hc _ _ _ _) fun _ => .pure _
    · refine S.tryB (ih (g + 1)) (fun _ => .pure _) fun cs hcs => S.pure ⟨_, rfl, ?_⟩
      rintro (_ | j) cl' Ps' e1 e2
      · simp at e1 e2
        subst e1
        subst e2
        refine ⟨?_, hcl.2⟩
        rw [← hx.length_eq]
        omega
      · simp at e1 e2
        have := hcs j cl' Ps' e1 e2
        rwa [show g + 1 + j = g + (j + 1) by ring] at this

omit h hw [Fact wm.Prime] [Fact n.Prime] in
theorem S_group_bits (wi : ℕ) (group : List (List (List (AssignedCondition n)))) :
    S c (group_bits wi group) (fun r =>
      List.Forall₂ (fun bs x => ∃ win, bs[wi]? = some win ∧ win[0]? = some x) group r) := by
  unfold group_bits
  refine S.mapM fun bs _ => S.bind_index fun win h1 => S.index.mono fun x h2 => ⟨win, h1, h2⟩

/-- What the choice of a candidate has to satisfy, for up to `G` groups of up to `B` points. -/
def PickSound (c : Circuit n) (info : RangeInfo n) (w : Advice n) (b : ZMod wm) (G B : ℕ)
    (K : ℕ → ℕ → AssignedNonZeroPoint n → Prop)
    (pick : List (List (AssignedNonZeroPoint n)) → ℕ → List (AssignedCondition n) → M n (AssignedNonZeroPoint n)) :
    Prop :=
  ∀ cs g bits, S c (pick cs g bits) (fun r => ∃ cl, cs[g]? = some cl ∧ ∀ Q : ℕ → Pt b, Cands info w (K g) cl Q →
    cl.length = 2 ^ bits.length → g < G → bits.length ≤ B → (∀ x ∈ bits, cv w x = 0 ∨ cv w x = 1) →
    NRep info w r (Q (binVal (cv w) bits)))

theorem S_window_acc {G B : ℕ} {K : ℕ → ℕ → AssignedNonZeroPoint n → Prop}
    {pick : List (List (AssignedNonZeroPoint n)) → ℕ → List (AssignedCondition n) → M n (AssignedNonZeroPoint n)}
    (hprog : ∀ cs g l, Prog (pick cs g l)) (hpick : PickSound c info w b G B K pick) {L : Pt b}
    {cs : List (List (AssignedNonZeroPoint n))} (wi : ℕ)
    {groups : List (List (List (List (AssignedCondition n))))} {Pss : List (List (Pt b))}
    (hl : List.Forall₂ (fun grp Ps => grp.length = Ps.length) groups Pss)
    (hbits : ∀ grp ∈ groups, ∀ bs ∈ grp, ∀ win ∈ bs, ∀ x ∈ win, cv w x = 0 ∨ cv w x = 1)
    (hB : ∀ grp ∈ groups, grp.length ≤ B) :
    ∀ g acc (Q : Pt b), g + groups.length ≤ G → (∀ j cl Ps, cs[g + j]? = some cl → Pss[j]? = some Ps → cl.length = 2 ^ Ps.length ∧
      Cands info w (K (g + j)) cl (fun i => signed L (g + j) + subsetSum Ps i)) → NRep info w acc Q →
      S c (window_acc info (pick cs) wi g groups acc) (fun r => ∃ p, r = .ok p ∧
        NRep info w p (Q + gsum (cv w) wi L g groups Pss)) := by
  induction hl with
  | nil =>
    intro g acc Q _ _ ha
    unfold window_acc
    refine S.pure ⟨acc, rfl, ?_⟩
    simpa [gsum] using ha
  | @cons grp Ps groups Pss hx _ ih =>
    intro g acc Q hG hcs ha
    rw [List.length_cons] at hG
    unfold window_acc
    have ih := ih (fun grp hg => hbits grp (by simp [hg])) fun grp hg => hB grp (by simp [hg])
    refine S.bindP (S_group_bits wi grp) ?_ fun bits hbs => ?_
    · intro _
      exact .bind (hprog _ _ _) fun _ => prog_tryB (prog_ecc_add_unsafe _ _ _) fun _ => prog_window_acc (hprog _) _ _ _ _
    have hbit : ∀ x ∈ bits, cv w x = 0 ∨ cv w x = 1 := by
      intro x hx
      obtain ⟨i, hi, rfl⟩ := List.getElem_of_mem hx
      have hi' : i < grp.length := by rw [hbs.length_eq]; exact hi
      obtain ⟨win, h1, h2⟩ := hbs.get hi' hi
      exact hbits grp (by simp) _ (List.getElem_mem hi') win (List.mem_of_getElem? h1) _ (List.mem_of_getElem? h2)
    refine S.bindP (hpick cs g bits) ?_ fun ci hci => ?_
    · intro _
      exact prog_tryB (prog_ecc_add_unsafe _ _ _) fun _ => prog_window_acc (hprog _) _ _ _ _
    obtain ⟨cl, hcl, hci⟩ := hci
    obtain ⟨k1, k2⟩ := hcs 0 cl Ps hcl rfl
    have hci := hci _ k2 (by rw [k1, ← hx, hbs.length_eq]) (by omega) (by rw [← hbs.length_eq]; exact hB grp (by simp)) hbit
    rw [subsetSum_binVal hbs hx hbit] at hci
    refine S.tryB (S_add_nz h hw hci ha) (fun _ => prog_window_acc (hprog _) _ _ _ _) fun p hp => ?_
    refine (ih (g + 1) p _ (by omega) (fun j cl' Ps' e1 e2 => ?_) hp).mono ?_
    · rw [show g + 1 + j = g + (j + 1) by ring] at e1 ⊢
      exact hcs (j + 1) cl' Ps' e1 e2
    · rintro r ⟨p, rfl, hp⟩
      refine ⟨p, rfl, ?_⟩
      have e : Q + gsum (cv w) wi L g (grp :: groups) (Ps :: Pss) =
          signed L (g + 0) + wsum (cv w) wi grp Ps + Q + gsum (cv w) wi L (g + 1) groups Pss := by
        simp only [gsum, add_zero]
        abel
      rwa [e]

theorem S_windows_acc (hb : GoodCurve b) {line_neg : AssignedNonZeroPoint n} {L A : Pt b}
    (hL : NRep info w line_neg (-L)) {bits : List (List (List (AssignedCondition n)))} {Ps : List (Pt b)}
    {W : ℕ} (hW : ∀ bs ∈ bits, bs.length = W) (odd : Bool) :
    ∀ (l : List (AssignedNonZeroPoint n)) (t : ℕ) acc, t + l.length ≤ W →
      (∀ j p, l[j]? = some p → NRep info w p (-A + (if odd then L else 0) + wsum (cv w) (t + j) bits Ps)) →
      NRep info w acc (A + vsum (cv w) t bits Ps) →
      S c (windows_acc info odd line_neg l acc) (fun r => ∃ p, r = .ok p ∧
        NRep info w p (A + vsum (cv w) (t + l.length) bits Ps)) := by
  intro l
  induction l with
  | nil =>
    intro t acc _ _ ha
    unfold windows_acc
    exact S.pure ⟨acc, rfl, ha⟩
  | cons x l ih =>
    intro t acc ht hl ha
    simp only [List.length_cons] at ht
    unfold windows_acc
    have hx := hl 0 x rfl
    have hv : vsum (cv w) (t + 1) bits Ps = _ := vsum_succ (cv w) bits Ps fun bs hbs => by rw [hW bs hbs]; omega
    refine S.tryB (S_double_nz h hw hb ha) ?_ fun a1 h1 => ?_
    · intro _
      exact prog_tryB (prog_ecc_add_unsafe _ _ _) fun _ => prog_tryB (by prog) fun _ => prog_windows_acc _ _ _ _
    refine S.tryB (S_add_nz h hw hx h1) ?_ fun a2 h2 => ?_
    · intro _
      exact prog_tryB (by prog) fun _ => prog_windows_acc _ _ _ _
    refine S.tryB (P := fun p => NRep info w p (A + vsum (cv w) (t + 1) bits Ps)) ?_
      (fun _ => prog_windows_acc _ _ _ _) fun a3 h3 => ?_
    · cases odd with
      | true =>
        refine (S_add_nz h hw h2 hL).mono ?_
        rintro r ⟨p, rfl, hp⟩
        refine ⟨p, rfl, ?_⟩
        have e : A + vsum (cv w) (t + 1) bits Ps = -A + (if true = true then L else 0) + wsum (cv w) (t + 0) bits Ps +
            (A + vsum (cv w) t bits Ps + (A + vsum (cv w) t bits Ps)) + -L := by
          rw [hv, if_pos rfl, add_zero]; abel
        rwa [e]
      | false =>
        refine S.pure ⟨a2, rfl, ?_⟩
        have e : A + vsum (cv w) (t + 1) bits Ps = -A + (if false = true then L else 0) + wsum (cv w) (t + 0) bits Ps +
            (A + vsum (cv w) t bits Ps + (A + vsum (cv w) t bits Ps)) := by
          rw [hv, if_neg (by simp), add_zero, add_zero]; abel
        rwa [e]
    · refine (ih (t + 1) a3 (by omega) (fun j p hp => ?_) h3).mono ?_
      · have := hl (j + 1) p (by simpa using hp)
        rwa [show t + (j + 1) = t + 1 + j by ring] at this
      · rintro r ⟨p, e, hp⟩
        refine ⟨p, e, ?_⟩
        rwa [List.length_cons, show t + (l.length + 1) = t + 1 + l.length by ring]

end

end Verif
