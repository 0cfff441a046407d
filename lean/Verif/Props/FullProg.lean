import Verif.Props.TowerProg
import Verif.Props.NativeProg
import Verif.Props.MsmCalls
import Verif.Props.Encode
import Verif.Props.MsmComplete
import Verif.Spec.FullProg

/-!
# C58: programs over all chips

For the curve bn256 over its own scalar field: whatever sequence of public calls is issued, in every satisfying
assignment all results stand for the run of the same sequence in the curve's group, the fields and the tower; and every
sequence whose honest run is defined is accepted. On a new context nothing has to be assumed about the keys of cached
points.
-/

namespace Verif

/-! ## Which calls cache values -/

section keys
variable {n : ℕ} {cc : Prop}

theorem prog_getM {A : Type} (l : List A) (is : List ℕ) : Built cc (getM l is : M n (List A)) := by
  induction is with
  | nil => exact .pure _
  | cons i is ih => exact .bind (prog_index _ _) fun _ => .bind ih fun _ => .pure _

theorem prog_elemsM (l : List (AssignedValue n)) (es : List (ℕ × ZMod n)) : Built cc (elemsM l es) := by
  induction es with
  | nil => exact .pure _
  | cons i is ih => exact .bind (prog_index _ _) fun _ => .bind ih fun _ => .pure _

theorem prog_termsM (l : List (AssignedValue n)) (ts : List (ℕ × ℕ × ℕ × ZMod n)) : Built cc (termsM l ts) := by
  induction ts with
  | nil => exact .pure _
  | cons i is ih =>
    exact .bind (prog_index _ _) fun _ => .bind (prog_index _ _) fun _ => .bind (prog_index _ _) fun _ =>
      .bind ih fun _ => .pure _

theorem prog_nexec (i : NInstr n) (s : NSt n) : Built cc (i.exec s) := by
  cases i <;> unfold NInstr.exec <;> prog

variable {crv : PairingCurve}

theorem prog_fetchM (regs : (l : Lv) → List (l.T n)) : ∀ (ls : List Lv) (a : Args ls), Built cc (fetchM regs ls a)
  | [], _ => .pure _
  | _ :: ls, a => .bind (prog_index _ _) fun _ => .bind (prog_fetchM regs ls a.2) fun _ => .pure _

theorem prog_inputsM (pts : List (AssignedPoint n)) (g2s : List (AssignedG2Affine n)) (ts : List (ℕ × ℕ)) :
    Built cc (inputsM pts g2s ts) := by
  induction ts with
  | nil => exact .pure _
  | cons i is ih => exact .bind (prog_index _ _) fun _ => .bind (prog_index _ _) fun _ => .bind ih fun _ => .pure _

theorem prog_top (info : RangeInfo n) {ls : List Lv} {l : Lv} (o : TOp crv ls l) (a : Tup (Lv.T n) ls) :
    Built cc (o.run info a) := by
  cases o
  all_goals
    simp only [TOp.run]
    first
      | tprog; done
      | cases l <;> simp only [Lv.zero, Lv.one, Lv.const, Lv.neg, Lv.double, Lv.square, Lv.reduce, Lv.inv, Lv.add, Lv.sub, Lv.mul,
          Lv.frob] <;> tprog

theorem prog_iexec (info : RangeInfo n) {wm : ℕ} (i : Instr wm) (s : St n) : Built cc (i.exec info s) := by
  cases i <;> unfold Instr.exec <;> prog

theorem prog_pexec (info : RangeInfo n) (order : ℕ) {wm : ℕ} {b : ZMod wm} (i : PInstr b) (s : PSt n) :
    Built cc (i.exec info order s) := by
  cases i
  case int i => exact .bind (prog_iexec info i _) fun _ => .pure _
  all_goals unfold PInstr.exec; prog

theorem prog_texec (info : RangeInfo n) (order : ℕ) (i : TInstr crv) (s : TSt n) :
    Built cc (i.exec info order s) := by
  cases i
  case pt i => exact .bind (prog_pexec info order i _) fun _ => .pure _
  case op o args => exact .bind (prog_fetchM _ _ _) fun _ => .bind (prog_top _ _ _) fun _ => .pure _
  case assertEq l i j =>
    refine .bind (prog_index _ _) fun _ => .bind (prog_index _ _) fun _ => .bind ?_ fun _ => .pure _
    cases l <;> simp only [Lv.assertEq] <;> tprog
  all_goals unfold TInstr.exec; tprog

end keys

/-! ## Soundness -/

local instance : Fact bnR.Prime := ⟨bnR_prime⟩

theorem bn_order' (P : BnPt) : bnR • P = 0 := by
  have e : pairBq .bn256 = (3 : ZMod bnQ) := by show ((3 : ℕ) : ZMod bnQ) = 3; norm_num
  have := bn_order
  rw [← e] at this
  exact this P

section sound
variable {info : RangeInfo bnR} {w : Advice bnR}

theorem limbs_bn (E : Env (pairQ .bn256) info) : info.limbs = 3 ∧ info.w_ceil_bits = 254 ∧ info.d_bits % 108 ≠ 0 := by
  obtain ⟨info', hs⟩ := Setup.of_summary summary_bnQ
  obtain rfl : info' = info := by have := hs.new.symm.trans E.range; injection this
  have := hs.summary
  simp only [List.cons.injEq] at this
  omega

/-- What is needed of the select chip for calls from group `pre` on (see C29, C30). -/
def SelectPre (c : Circuit bnR) (w : Advice bnR) (pre : Option ℕ) : Prop :=
  ∀ p, pre = some p → c.KeysUnique ∧ (0 < p ∨ (c.LookupsCached w ∧ c.ZeroKeyUnique))

theorem SelectPre.next {c : Circuit bnR} {pre : Option ℕ} (h : SelectPre c w pre) :
    SelectPre c w (pre.map (· + MSM_PREFIX_OFFSET)) := by
  intro p hp
  cases pre with
  | none => cases hp
  | some q => cases hp; exact ⟨(h q rfl).1, (h q rfl).2.imp_left fun h => Nat.add_pos_left h _⟩

theorem returns_xexec (order : ℕ) (i : XInstr) (s : XSt) : Returns (i.exec info order s) fun s' =>
    (i.isMsm → s'.pre = s.pre.map (· + MSM_PREFIX_OFFSET)) ∧ (¬ i.isMsm → s'.pre = s.pre) := by
  cases i with
  | tower i => exact .next fun _ => .pure ⟨False.elim, fun _ => rfl⟩
  | native i => exact .next fun _ => .pure ⟨False.elim, fun _ => rfl⟩
  | encode i => exact .next fun _ => .next fun _ => .pure ⟨False.elim, fun _ => rfl⟩
  | msm ps ss A L =>
    exact .next fun _ => .next fun _ => .bind (returns_msm _ _ _ _ _ _ _ _ _) fun r hr =>
      .pure ⟨fun _ => hr, fun h => absurd trivial h⟩

theorem S.bind_returns {n : ℕ} {A B : Type} {c : Circuit n} {m : M n A} {f : A → M n B} {P : A → Prop} {Q : B → Prop}
    {R : A → Prop} (hm : S c m P) (hr : Returns m R) (hf : ∀ a, R a → S c (f a) fun b => P a → Q b) : S c (m >>= f) Q := by
  intro s b t hs e
  obtain ⟨a, u, h1, h2⟩ := run_bind_ok.1 e
  obtain ⟨f1, g1, k1⟩ := hm _ _ _ hs h1
  obtain ⟨f2, g2, k2⟩ := hf a (hr _ _ _ h1) _ _ _ f1 h2
  exact ⟨f2, g1.trans g2, fun he => k2 he (k1 (g2.embeds he))⟩

theorem RepXSt.native {s : XSt} {r : XRef} (h : RepXSt info w s r) : RepNSt w s.native r.native :=
  ⟨h.vals, h.base.base.base.conds⟩

theorem xexec_sound (E : Env (pairQ .bn256) info) (order : ℕ) {c : Circuit bnR} (hw : c.Sat w) (i : XInstr) (s : XSt)
    (hk : ∀ j k, i = .tower (.pt (.int (.smallMul j k))) → 1 ≤ k) (hbits : i.usesBits → c.BitRowsConsistent w)
    (hpre : i.isMsm → SelectPre c w s.pre) :
    S c (i.exec info order s) (fun s' => ∀ r, RepXSt info w s r → ∃ r', XStep i r r' ∧ RepXSt info w s' r') := by
  cases i with
  | tower i =>
    refine S.bind (texec_sound E order hw i s.base (fun j k e => hk j k (by rw [e])) fun ⟨P, e⟩ => hbits (by rw [e]; trivial))
      fun t => S.pure fun ht r hr => ?_
    obtain ⟨r', k1, k2⟩ := ht _ hr.base
    exact ⟨_, .tower k1, k2, hr.vals⟩
  | native i =>
    refine S.bind (nexec_sound (by decide +kernel) hw i s.native hbits) fun t => S.pure fun ht r hr => ?_
    obtain ⟨r', k1, k2⟩ := ht _ hr.native
    refine ⟨_, .native k1, ⟨⟨⟨hr.base.base.base.ints, k2.conds⟩, hr.base.base.pts, hr.base.base.crvs, hr.base.base.affs⟩,
      hr.base.regs, hr.base.g2s⟩, k2.vals⟩
  | encode i =>
    refine S.bind_index fun p hp => S.bind (C37_encode_sound_partial (b := pairBq .bn256) E.range p c w hw) fun l =>
      S.pure fun hl r hr => ?_
    obtain ⟨P, hP, hrep⟩ := forall2_get hr.base.base.pts hp
    obtain ⟨X, Y, hX, hY, he, hc⟩ := hl P hrep
    rw [(limbs_bn E).2.1] at hX hY
    refine ⟨_, .encode hP hX hY hc, hr.base, ?_⟩
    refine List.rel_append hr.vals ?_
    rw [← he, List.forall₂_map_right_iff]
    exact List.forall₂_same.2 fun _ _ => rfl
  | msm ps ss A L =>
    refine S.bind_get fun points hpts => S.bind_get fun scalars hss => ?_
    have hg : S c (do
        let r ← Verif.msm info (pairB .bn256) (nativeScalar 254) (1, 2) A.coords L.coords s.pre points scalars
        pure (s.pushP r.1 r.2)) fun _ => True := fun s1 a t hs he => by
      obtain ⟨h1, h2⟩ := (Growing.bind (prog2_msm (nativeScalar_prog _) _ _ _ _ _ _ _).tidy.1 fun _ => .pure _) s1 a t hs he
      exact ⟨h1, h2, fun _ => trivial⟩
    have : Nonempty XRef := ⟨.empty⟩
    refine S.forall fun r => ?_
    by_cases hr : RepXSt info w s r
    · obtain ⟨Ps, hPs, rPs⟩ := got_rel hr.base.base.pts hpts
      obtain ⟨xs, hxs, rxs⟩ := got_rel hr.vals hss
      refine S.bind (S_msm E.range hw (nativeScalar_sound hw (hbits trivial) (by norm_num)) (nativeScalar_prog _)
        (good_pair .bn256) (by decide +kernel) rfl rPs rxs (fun P _ => bn_order' P) (nativeScalar_zero fun _ => bn_order') (1, 2)
        A.coords L.coords fun p hp => ?_) fun res => S.pure fun hres _ => ?_
      · obtain ⟨h1, h2⟩ := hpre trivial p hp
        refine ⟨h1, h2.imp_left fun h => ⟨h, by decide +kernel, ?_⟩⟩
        rw [(limbs_bn E).1]
        norm_num
      · exact ⟨_, .msm hPs hxs, ⟨⟨hr.base.base.base, forall2_snoc hr.base.base.pts hres, hr.base.base.crvs,
          hr.base.base.affs⟩, hr.base.regs, hr.base.g2s⟩, hr.vals⟩
    · exact hg.mono fun _ _ h => absurd h hr

/-- C58 (soundness): for every program of public calls and every satisfying assignment of a circuit that contains what the
program records, all results stand for the state reached by a run of the reference semantics. `hbits` and `hpre` are the
constraints that the code lacks (C06, C30); the first is needed only for programs that record bits, the second only for
multi-scalar multiplications on the select chip. -/
theorem C58_program_sound (E : Env (pairQ .bn256) info) (order : ℕ) (prog : List XInstr) (pre : Option ℕ)
    (hk : ∀ j k, XInstr.tower (.pt (.int (.smallMul j k))) ∈ prog → 1 ≤ k) (c : Circuit bnR) (w : Advice bnR)
    (hw : c.Sat w) (hbits : (∃ i ∈ prog, i.usesBits) → c.BitRowsConsistent w)
    (hpre : (∃ i ∈ prog, i.isMsm) → SelectPre c w pre) :
    S c (xexecAll info order prog (XSt.empty pre)) (fun s => ∃ r, XSteps prog XRef.empty r ∧ RepXSt info w s r) := by
  have key : ∀ (prog : List XInstr) (s : XSt), (∀ j k, XInstr.tower (.pt (.int (.smallMul j k))) ∈ prog → 1 ≤ k) →
      ((∃ i ∈ prog, i.usesBits) → c.BitRowsConsistent w) → ((∃ i ∈ prog, i.isMsm) → SelectPre c w s.pre) →
      S c (xexecAll info order prog s) (fun s' => ∀ r, RepXSt info w s r →
        ∃ r', XSteps prog r r' ∧ RepXSt info w s' r') := by
    intro prog
    induction prog with
    | nil => intro s _ _ _; exact S.pure fun r hr => ⟨r, .nil, hr⟩
    | cons i is ih =>
      intro s hk hbits hpre
      refine S.bind_returns (xexec_sound E order hw i s (fun j k e => hk j k (by rw [e]; exact List.mem_cons_self))
        (fun e => hbits ⟨i, List.mem_cons_self, e⟩) fun e => hpre ⟨i, List.mem_cons_self, e⟩) (returns_xexec order i s)
        fun s' hs' => ?_
      refine (ih s' (fun j k hm => hk j k (List.mem_cons_of_mem _ hm))
        (fun ⟨j, hj, e⟩ => hbits ⟨j, List.mem_cons_of_mem _ hj, e⟩) fun ⟨j, hj, e⟩ => ?_).mono fun s'' h2 h1 r hr => ?_
      · have hp := hpre ⟨j, List.mem_cons_of_mem _ hj, e⟩
        by_cases hm : i.isMsm
        · rw [hs'.1 hm]; exact hp.next
        · rw [hs'.2 hm]; exact hp
      · obtain ⟨r', k1, k2⟩ := h1 r hr
        obtain ⟨r'', k3, k4⟩ := h2 r' k2
        exact ⟨r'', .cons k1 k3, k4⟩
  refine (key prog _ hk hbits hpre).mono fun s h => h _ ⟨⟨⟨⟨.nil, .nil⟩, .nil, .nil, .nil⟩, fun l => ?_, .nil⟩, .nil⟩
  exact .nil

/-! ### Keys -/

theorem emits_xexec (hl : info.limbs ≤ 2 ^ 32) (order : ℕ) (i : XInstr) (s : XSt) :
    Emits (fun k => i.isMsm ∧ CallKeys s.pre k) (i.exec info order s) := by
  have : Nontrivial (ZMod bnR) := nontrivial_of_large (by decide +kernel)
  cases i with
  | tower i => exact (Built.quiet (.bind (prog_texec info order i _) fun _ => .pure _)).emits
  | native i => exact (Built.quiet (.bind (prog_nexec i _) fun _ => .pure _)).emits
  | encode i => exact (Built.quiet (.bind (prog_index _ _) fun _ => .bind (prog_ecc_encode _ _) fun _ => .pure _)).emits
  | msm ps ss A L =>
    exact Emits.after (prog_getM _ _).quiet fun _ _ => Emits.after (prog_getM _ _).quiet fun _ _ =>
      Emits.then ((emits_msm (by decide +kernel) hl (nativeScalar_prog _) _ _ _ _ _ _ _).mono fun k hk => ⟨trivial, hk⟩)
        fun _ _ => .pure _

theorem xexecAll_keys (hl : info.limbs ≤ 2 ^ 32) (order : ℕ) : ∀ (prog : List XInstr) (s s' : XSt) (t t' : Context bnR),
    xexecAll info order prog s t = .ok (s', t') → (∀ r k, t.records.inner.KeyRow r k → UsedKeys s.pre k) →
    t.records.inner.KeysDistinct → t'.records.inner.KeysDistinct := by
  have : Nontrivial (ZMod bnR) := nontrivial_of_large (by decide +kernel)
  intro prog
  induction prog with
  | nil => intro s s' t t' h _ h2; cases h; exact h2
  | cons i is ih =>
    intro s s' t t' h h1 h2
    obtain ⟨s1, u, e1, e2⟩ := run_bind_ok.1 h
    obtain ⟨p1, p2⟩ := emits_xexec hl order i s _ _ _ e1
    have hp := returns_xexec order i s _ _ _ e1
    refine ih _ _ _ _ e2 (fun r k hk => ?_) (p2 (fun r k hk hcall => ?_) h2)
    · rcases p1 r k hk with h | ⟨hm, p, e, h3, g, h4, h5, h6⟩
      · obtain ⟨p, e, g, h3, h4, h5⟩ := h1 r k h
        by_cases hm : i.isMsm
        · have hp := hp.1 hm
          rw [e] at hp
          exact ⟨p + MSM_PREFIX_OFFSET, hp, g, h3, by omega, h5⟩
        · have hp := hp.2 hm
          rw [e] at hp
          exact ⟨_, hp, g, h3, h4, h5⟩
      · have hp := hp.1 hm
        rw [e] at hp
        refine ⟨_, hp, g, Nat.zero_le _, ?_, h6⟩
        have : p < 2 ^ 28 := h3
        have : g < p + 2 ^ 20 := h5
        have : g < p + MSM_PREFIX_OFFSET := h5
        dsimp only
        omega
    · obtain ⟨hm, p, e, h3, h4⟩ := hcall
      obtain ⟨p', e', h5⟩ := h1 r k hk
      rw [e] at e'
      cases e'
      have : p < 2 ^ 28 := h3
      exact KeysGroup.disjoint (by decide +kernel) (by omega) (by unfold MSM_PREFIX_OFFSET; omega) (min_le_left _ _) h5 h4

/-- C58 for the circuit of a whole run on a new context: nothing is assumed about the keys of cached points, and nothing
about the select chip unless the first group has the number 0 (which is what the library does, see C30). -/
theorem C58_end_to_end (E : Env (pairQ .bn256) info) (order : ℕ) (prog : List XInstr) (pre : Option ℕ)
    (hk : ∀ j k, XInstr.tower (.pt (.int (.smallMul j k))) ∈ prog → 1 ≤ k) (s : XSt) (t : Context bnR)
    (hrun : xexecAll info order prog (XSt.empty pre) (Context.new bnR) = .ok (s, t)) (usable : ℕ) (hf : t.Fits usable)
    (w : Advice bnR) (hw : (t.circuit usable).Sat w)
    (hbits : (∃ i ∈ prog, i.usesBits) → (t.circuit usable).BitRowsConsistent w)
    (hpre : (∃ i ∈ prog, i.isMsm) → pre = some 0 → (t.circuit usable).LookupsCached w ∧ (t.circuit usable).ZeroKeyUnique) :
    ∃ r, XSteps prog XRef.empty r ∧ RepXSt info w s r := by
  refine (C58_program_sound E order prog pre hk _ w hw hbits (fun hm p hp => ⟨?_, ?_⟩) _ _ _ Context.new_fresh hrun).2.2
    (Context.embeds_circuit hf)
  · refine keysUnique_of_distinct (xexecAll_keys ?_ order prog _ _ _ _ hrun (fun r k hk => by cases hk.2)
      fun r r' k hk => by cases hk.2) _
    rw [(limbs_bn E).1]
    norm_num
  · rcases Nat.eq_zero_or_pos p with rfl | h
    exacts [.inr (hpre hm hp), .inl h]

end sound

/-! ## Completeness -/

section complete
variable {info : RangeInfo bnR} {h : Advice bnR}

theorem xexec_complete (E : Env (pairQ .bn256) info) {order : ℕ} (ho : order % 2 = 1) {c : Circuit bnR} {H : Prop}
    (i : XInstr) {s : XSt} {r r' : XRef × Option ℕ} (hr : HRepXSt info s r) (hok : H → OkXSt info h s)
    (he : i.eval r = some r') :
    C c h H (i.exec info order s) (fun s' => HRepXSt info s' r') (fun s' => OkXSt info h s') := by
  cases i with
  | tower i =>
    simp only [XInstr.eval, Option.bind_eq_bind, Option.bind_eq_some_iff, Option.some.injEq] at he
    obtain ⟨t, ht, rfl⟩ := he
    exact C.bind (texec_complete E ho i hr.base (fun hH => (hok hH).base) ht) fun s' hs' =>
      C.pure ⟨hs', hr.vals, hr.pre⟩ fun hH => ⟨hH.2, (hok hH.1).vals⟩
  | native i =>
    simp only [XInstr.eval, Option.bind_eq_bind, Option.bind_eq_some_iff, Option.some.injEq] at he
    obtain ⟨t, ht, rfl⟩ := he
    refine C.bind (nexec_complete (by decide +kernel) i (s := s.native) (r := r.1.native) ⟨hr.vals, hr.base.base.base.conds⟩
      (fun hH => ⟨(hok hH).vals, (hok hH).base.base.base.conds⟩) ht) fun s' hs' => C.pure ?_ fun hH => ?_
    · exact ⟨⟨⟨⟨hr.base.base.base.ints, hs'.conds⟩, hr.base.base.pts, hr.base.base.crvs, hr.base.base.affs⟩, hr.base.regs,
        hr.base.g2s⟩, hs'.vals, hr.pre⟩
    · have k := hok hH.1
      exact ⟨⟨⟨⟨k.base.base.base.ints, hH.2.conds⟩, k.base.base.pts, k.base.base.crvs, k.base.base.affs⟩, k.base.regs,
        k.base.g2s⟩, hH.2.vals⟩
  | encode i =>
    simp only [XInstr.eval, Option.bind_eq_bind, Option.bind_eq_some_iff, Option.some.injEq] at he
    obtain ⟨P, hP, rfl⟩ := he
    obtain ⟨p, hp, hrep⟩ := forall2_get' hr.base.base.pts hP
    refine C.bind_index hp <| C.bind ((C37_encode_complete E.range p P hrep c h).weaken fun hH =>
      (hok hH).base.base.pts _ (List.mem_of_getElem? hp)) fun l hl => C.pure ⟨hr.base, ?_, hr.pre⟩ fun hH => ⟨(hok hH.1).base, ?_⟩
    · refine List.rel_append hr.vals ?_
      have e : l.map AssignedValue.val = encTriple bnR (P.coords.getD (0, 0)).1 (P.coords.getD (0, 0)).2 := by
        cases P with
        | zero => exact hl.1 rfl
        | some x y h => exact hl.2 x y ⟨h, rfl⟩
      rw [← e, List.forall₂_map_right_iff]
      exact List.forall₂_same.2 fun _ _ => rfl
    · intro a ha
      rcases List.mem_append.1 ha with ha | ha
      exacts [(hok hH.1).vals a ha, hH.2 a ha]
  | msm ps ss A L =>
    simp only [XInstr.eval, Option.bind_eq_bind, Option.bind_eq_some_iff] at he
    obtain ⟨Ps, hPs, xs, hxs, he⟩ := he
    split at he
    case isFalse => cases he
    case isTrue hdom =>
    cases he
    obtain ⟨hlen, hne, hA, hL, hlim, Gn, hG, hpos⟩ := hdom
    obtain ⟨points, hpts, rpts⟩ := got_rel' hr.base.base.pts hPs
    obtain ⟨scalars, hss, rss⟩ := got_rel' hr.vals hxs
    have ex : scalars.map AssignedValue.val = xs := by
      clear hss hxs hlen hpos
      induction rss with
      | nil => rfl
      | cons e _ ih => rw [List.map_cons, e, ih]
    have coords : ∀ {P : BnPt}, P ≠ 0 → ∃ v, P.coords = some v ∧ ConstCoords (some v) P := by
      intro P hP
      cases P with
      | zero => exact absurd rfl hP
      | some x y h => exact ⟨_, rfl, Pt.coords_const (.some x y h)⟩
    obtain ⟨r1, eA, cA⟩ := coords hA
    obtain ⟨r2, eL, cL⟩ := coords hL
    have hl1 := rpts.length_eq
    have hl2 := rss.length_eq
    show C c h H (getM s.base.base.pts ps >>= fun points => getM s.vals ss >>= fun scalars =>
      Verif.msm info (pairB .bn256) (nativeScalar 254) (1, 2) A.coords L.coords s.pre points scalars >>= fun r =>
        pure (s.pushP r.1 r.2)) _ _
    rw [eA, eL, hr.pre]
    refine C.bind_get hpts <| C.bind_get hss <| C.bind ((C49_native_complete E.range (limbs_bn E).2.2 (good_pair .bn256)
      (pairB .bn256) (by decide +kernel) rfl 254 (by decide +kernel) points scalars Ps rpts (by omega) ?_ (1, 2) r1 r2 Gn A L
      (.inr ⟨1, 2, rfl, by decide +kernel, by decide +kernel, by simpa using hG⟩) cA cL r.2 ?_ ?_ c h).weaken fun hH =>
        ⟨fun p hp => (hok hH).base.base.pts _ (got_mem hpts p hp), fun p hp => (hok hH).vals _ (got_mem hss p hp)⟩)
      fun res hres => C.pure ?_ fun hH => ?_
    · rintro rfl
      cases rpts
      exact hne rfl
    · intro p hp
      exact ⟨by decide +kernel, (hlim p hp).1, hl1.trans_le (hlim p hp).2⟩
    · rw [← ex, List.map_map] at hpos
      exact hpos
    · rw [ex] at hres
      exact ⟨⟨⟨hr.base.base.base, forall2_snoc hr.base.base.pts hres.1, hr.base.base.crvs, hr.base.base.affs⟩, hr.base.regs,
        hr.base.g2s⟩, hr.vals, hres.2⟩
    · have k := hok hH.1
      refine ⟨⟨⟨k.base.base.base, ?_, k.base.base.crvs, k.base.base.affs⟩, k.base.regs, k.base.g2s⟩, k.vals⟩
      exact mem_snoc k.base.base.pts hH.2

/-- C58 (completeness): a program whose reference run succeeds is issued without a panic, the results are those of the
reference run, and the recorded witness satisfies every circuit that contains what the program records. -/
theorem C58_program_complete (E : Env (pairQ .bn256) info) (order : ℕ) (ho : order % 2 = 1) (prog : List XInstr)
    (pre : Option ℕ) (r : XRef × Option ℕ) (he : xevalAll prog (XRef.empty, pre) = some r) :
    Complete (xexecAll info order prog (XSt.empty pre)) (fun _ => True) (fun s => HRepXSt info s r) (OkXSt info) := by
  intro c h
  have key : ∀ (prog : List XInstr) (s : XSt) (r r' : XRef × Option ℕ) (H : Prop), HRepXSt info s r →
      (H → OkXSt info h s) → xevalAll prog r = some r' →
      C c h H (xexecAll info order prog s) (fun s' => HRepXSt info s' r') (fun s' => OkXSt info h s') := by
    intro prog
    induction prog with
    | nil => intro s r r' H hr hok he; cases he; exact C.pure hr hok
    | cons i is ih =>
      intro s r r' H hr hok he
      simp only [xevalAll, Option.bind_eq_bind, Option.bind_eq_some_iff] at he
      obtain ⟨r1, h1, h2⟩ := he
      exact C.bind (xexec_complete E ho i hr hok h1) fun s' hs' => ih s' r1 r' _ hs' (fun hH => hH.2) h2
  refine key prog _ _ r _ ⟨⟨⟨⟨.nil, .nil⟩, .nil, .nil, .nil⟩, fun _ => .nil, .nil⟩, .nil, rfl⟩
    (fun _ => ⟨⟨⟨⟨?_, ?_⟩, ?_, ?_, ?_⟩, ?_, ?_⟩, ?_⟩) he
  all_goals simp [XSt.empty, TSt.empty]

/-- The honest run is one of the runs the reference semantics allows. -/
theorem xeval_step {i : XInstr} {r r' : XRef × Option ℕ} (he : i.eval r = some r') : XStep i r.1 r'.1 := by
  cases i with
  | tower i =>
    simp only [XInstr.eval, Option.bind_eq_bind, Option.bind_eq_some_iff, Option.some.injEq] at he
    obtain ⟨t, ht, rfl⟩ := he
    exact .tower (teval_step ht)
  | native i =>
    simp only [XInstr.eval, Option.bind_eq_bind, Option.bind_eq_some_iff, Option.some.injEq] at he
    obtain ⟨t, ht, rfl⟩ := he
    exact .native (neval_step (by decide +kernel) ht)
  | encode i =>
    simp only [XInstr.eval, Option.bind_eq_bind, Option.bind_eq_some_iff, Option.some.injEq] at he
    obtain ⟨P, hP, rfl⟩ := he
    have hlt : ∀ x : ZMod (pairQ .bn256), x.val < 2 ^ 254 := fun x => (ZMod.val_lt x).trans (by decide +kernel)
    cases P with
    | zero => exact .encode hP (by decide) (by decide) (.inl ⟨rfl, rfl, rfl⟩)
    | some x y h =>
      refine .encode hP (hlt x) (hlt y) (.inr ?_)
      show HasCoords (.some x y h) ((x.val : ℕ) : ZMod (pairQ .bn256)) ((y.val : ℕ) : ZMod (pairQ .bn256))
      rw [ZMod.natCast_zmod_val, ZMod.natCast_zmod_val]
      exact ⟨h, rfl⟩
  | msm ps ss A L =>
    simp only [XInstr.eval, Option.bind_eq_bind, Option.bind_eq_some_iff] at he
    obtain ⟨Ps, hPs, xs, hxs, he⟩ := he
    split at he
    · cases he; exact .msm hPs hxs
    · cases he

theorem xevalAll_steps {prog : List XInstr} : ∀ {r r' : XRef × Option ℕ}, xevalAll prog r = some r' →
    XSteps prog r.1 r'.1 := by
  induction prog with
  | nil => intro r r' h; cases h; exact .nil
  | cons i is ih =>
    intro r r' he
    simp only [xevalAll, Option.bind_eq_bind, Option.bind_eq_some_iff] at he
    obtain ⟨r1, h1, h2⟩ := he
    exact .cons (xeval_step h1) (ih h2)

end complete

/-! ### A case meeting the hypotheses -/

/-- There are random points for every multi-scalar multiplication (and by C49 almost all are fit). -/
theorem msmDomain_exists (pre : Option ℕ) (Ps : List BnPt) (xs : List (ZMod bnR)) (hlen : Ps.length = xs.length)
    (hne : Ps ≠ []) (hmax : Ps.length ≤ 2 ^ 240) (hpre : ∀ p, pre = some p → p < 2 ^ 28 ∧ Ps.length ≤ 2 ^ 20) :
    ∃ A L, MsmDomain pre Ps xs A L := by
  have key : ∀ b : ZMod bnQ, b = 3 → ∀ Ps : List (Pt b), Ps.length = xs.length → Ps ≠ [] → Ps.length ≤ 2 ^ 240 →
      ∃ A L Gn : Pt b, A ≠ 0 ∧ L ≠ 0 ∧ HasCoords Gn 1 2 ∧
        GeneralPosition 254 (groupSize (if pre.isSome then 5 else 2) Ps.length) (cleanScalars Ps (xs.map ZMod.val))
          (cleanPoints Gn Ps) A L := by
    intro b hb
    subst hb
    intro Ps hlen hne hmax
    obtain ⟨Gn, hG⟩ := bn_generator
    have hcl : (cleanPoints Gn Ps).length = Ps.length := by simp [cleanPoints]
    have hN : 1 ≤ Ps.length := List.length_pos_iff.2 hne
    have hbest : 1 ≤ (if pre.isSome then 5 else 2) ∧ (if pre.isSome then 5 else 2) ≤ 5 := by split <;> omega
    obtain ⟨hs1, hs2⟩ := groupSize_le hbest.1 hN
    have hg := groupCount_le hs2 hN
    have hp : 2 ^ groupSize (if pre.isSome then 5 else 2) Ps.length ≤ 2 ^ 5 :=
      Nat.pow_le_pow_right (by norm_num) (hs1.trans hbest.2)
    have hr := C49_random_points (⊤ : AddSubgroup (Pt (3 : ZMod bnQ))) (fun P _ => (bn_no_small P).1)
      (fun P _ => (bn_no_small P).2) 254 _ hs2 (cleanScalars Ps (xs.map ZMod.val)) (cleanPoints Gn Ps)
    rw [hcl] at hr
    have : Finite (Pt (3 : ZMod bnQ)) := Nat.finite_of_card_ne_zero (by rw [bn_card]; decide +kernel)
    have hcard : 2 ^ 253 < Nat.card (Pt (3 : ZMod bnQ)) := by rw [bn_card]; decide +kernel
    have h0 : AtMost 1 fun P : Pt (3 : ZMod bnQ) => P = 0 := AtMost.one fun A B hA hB => hA.trans hB.symm
    have hr := hr.mono (l := 64 * Ps.length) (q := fun L => ¬ AtMost (254 * (2 * Ps.length + 5)) fun A =>
      ¬ GeneralPosition 254 (groupSize (if pre.isSome then 5 else 2) Ps.length) (cleanScalars Ps (xs.map ZMod.val))
          (cleanPoints Gn Ps) A L) (by
        rw [Nat.mul_comm 64]
        exact Nat.mul_le_mul hg (by omega)) fun L hL hc => hL (hc.mono (Nat.mul_le_mul_left _ (by omega)) fun A hA => ⟨trivial, hA⟩)
    obtain ⟨L, hL⟩ := (hr.or h0).exists_not (by omega)
    rw [not_or, not_not] at hL
    obtain ⟨A, hA⟩ := (hL.1.or h0).exists_not (by omega)
    rw [not_or, not_not] at hA
    exact ⟨A, L, Gn, hA.2, hL.2, by simpa using hG, hA.1⟩
  obtain ⟨A, L, Gn, h1, h2, h3, h4⟩ := key (pairBq .bn256) (by show ((3 : ℕ) : ZMod bnQ) = 3; norm_num) Ps hlen hne hmax
  exact ⟨A, L, hlen, hne, h1, h2, hpre, Gn, h3, h4⟩

/-- A program with all chips: `Q = 5 G + 7 G` by a multi-scalar multiplication, `Q` as native values and their hash, and
`e(Q, H) e(-Q, H) = 1` for the generator `H` of the second group, its identity flag taken from a test of a native value. -/
noncomputable def fullProg (G A L : BnPt) : List XInstr :=
  [.tower (.pt (.const G)), .native (.assign 5), .native (.const 7), .msm [0, 0] [0, 1] A L, .encode 1,
    .native (.hash [2, 3, 4]), .native (.isZero 0), .tower (.pt (.neg 1)), .tower (.op (.const .f2 (genQ .bn256).1) ()),
    .tower (.op (.const .f2 (genQ .bn256).2) ()), .tower (.g2 0 1 0), .tower (.checkPairing [(1, 0), (2, 0)])]

section eval
variable {r r' r'' : XRef × Option ℕ}

theorem xev_cons {is : List XInstr} {i : XInstr} (h : i.eval r = some r') (h' : xevalAll is r' = some r'') :
    xevalAll (i :: is) r = some r'' := by rw [xevalAll, h]; exact h'

theorem xev_tower {i : TInstr .bn256} {t} (h : i.eval r.1.base = some t) :
    (XInstr.tower i).eval r = some ({ r.1 with base := t }, r.2) := by rw [XInstr.eval, h]; rfl

theorem xev_native {i : NInstr bnR} {t} (h : i.eval r.1.native = some t) :
    (XInstr.native i).eval r = some (r.1.setNative t, r.2) := by rw [XInstr.eval, h]; rfl

theorem xev_msm {ps ss A L Ps xs} (h : getAll r.1.base.base.pts ps = some Ps) (h' : getAll r.1.vals ss = some xs)
    (hd : MsmDomain r.2 Ps xs A L) :
    (XInstr.msm ps ss A L).eval r = some (r.1.pushP (msmSum xs Ps), r.2.map (· + 2 ^ 20)) := by
  rw [XInstr.eval, h, Option.bind_eq_bind, Option.bind_some, h', Option.bind_eq_bind, Option.bind_some, if_pos hd]

/-- The honest run of `fullProg`. -/
theorem fullProg_eval (pre : Option ℕ) (hpre : ∀ p, pre = some p → p < 2 ^ 28) {G : BnPt} (h0 : G ≠ 0) :
    ∃ A L r, xevalAll (fullProg G A L) (XRef.empty, pre) = some r ∧ r.1.base.base.pts[1]? = some (12 • G) := by
  obtain ⟨A, L, hd⟩ := msmDomain_exists pre [G, G] [5, 7] rfl (by simp) (by simp) fun p hp => ⟨hpre p hp, by simp⟩
  have e : msmSum [(5 : ZMod bnR), 7] [G, G] = 12 • G := by
    have h5 : (5 : ZMod bnR).val = 5 := by decide +kernel
    have h7 : (7 : ZMod bnR).val = 7 := by decide +kernel
    simp only [msmSum, List.zipWith_cons_cons, List.zipWith_nil_left, List.sum_cons, List.sum_nil, h5, h7]
    rw [add_zero, ← add_nsmul]
  have hQ0 : 12 • G ≠ 0 := by
    intro hc
    have h1 : addOrderOf G ∣ Nat.gcd bnR 12 :=
      Nat.dvd_gcd (addOrderOf_dvd_of_nsmul_eq_zero (bn_order' G)) (addOrderOf_dvd_of_nsmul_eq_zero hc)
    have h2 : Nat.gcd bnR 12 = 1 := by decide +kernel
    rw [h2, Nat.dvd_one] at h1
    exact h0 (AddMonoid.addOrderOf_eq_one_iff.1 h1)
  obtain ⟨x, y, hQ⟩ : ∃ x y, HasCoords (12 • G) x y := by
    rcases hq : (12 • G : BnPt) with _ | ⟨x, y, h⟩
    · exact absurd hq hQ0
    · exact ⟨x, y, h, rfl⟩
  have h1 : (12 • G).xy = some (x, y) := Pt.xy_iff.2 hQ
  have h2 : (-(12 • G)).xy = some (x, -y) := Pt.xy_iff.2 hQ.neg
  have hy : y ≠ 0 := fun h0 => no_two_torsion .bn256 x (by rw [← hQ.eqn, h0]; ring)
  have hin : ∀ us : List ((ZMod (pairQ .bn256) × ZMod (pairQ .bn256)) × (Fq2 (pairQ .bn256) × Fq2 (pairQ .bn256))),
      (∀ u ∈ us, u.2 = genQ .bn256) → InSecond us := fun us h v hv => by rw [h v hv]; exact gen_inG2 .bn256
  have hprod := ate_neg (gen_at .bn256) (gen_inG2 .bn256) x y hy
  rw [← e] at h1 h2
  refine ⟨A, L, _, xev_cons (xev_tower (tev_pt rfl)) <| xev_cons (xev_native rfl) <| xev_cons (xev_native rfl) <|
    xev_cons (xev_msm rfl rfl hd) <| xev_cons rfl <| xev_cons (xev_native rfl) <|
    xev_cons (xev_native rfl) <| xev_cons (xev_tower (tev_pt rfl)) <|
    xev_cons (xev_tower (tev_op rfl _ fun _ => Iff.rfl)) <| xev_cons (xev_tower (tev_op rfl _ fun _ => Iff.rfl)) <|
    xev_cons (xev_tower rfl) <|
    xev_cons (xev_tower (tev_check (us := [((x, y), genQ .bn256), ((x, -y), genQ .bn256)])
      (inputs_cons (q := genQ .bn256) rfl h1 ?_ <| inputs_cons (q := genQ .bn256) rfl h2 ?_ rfl) (hin _ (by simp))
      (by rw [ateProd]; simpa using hprod))) rfl, congrArg some e⟩
  all_goals exact congrArg (fun b => some (b, genQ .bn256)) (decide_eq_false (by decide +kernel))

end eval

/-- C58: the hypotheses of the theorems above are met by `fullProg` on a generator, with and without the select chip; so
the program runs, its witness is accepted, and the recorded result of the multi-scalar multiplication is `12 G`. -/
theorem C58_case (pre : Option ℕ) (hpre : ∀ p, pre = some p → p < 2 ^ 28) :
    ∃ (info : RangeInfo bnR) (G A L : BnPt) (r : XRef × Option ℕ), Env (pairQ .bn256) info ∧ HasCoords G 1 2 ∧
      xevalAll (fullProg G A L) (XRef.empty, pre) = some r ∧ r.1.base.base.pts[1]? = some (12 • G) ∧
      Accepted (xexecAll info bnR (fullProg G A L) (XSt.empty pre)) (fun s => HRepXSt info s r) := by
  obtain ⟨info, E⟩ := env_bn256
  obtain ⟨G, hG⟩ := HasCoords.of_eqn (good_pair .bn256) (x := 1) (y := 2) (by decide +kernel)
  obtain ⟨A, L, r, h1, h2⟩ := fullProg_eval pre hpre hG.ne_zero
  exact ⟨info, G, A, L, r, E, hG, h1, h2, Accepted.of_C fun c h =>
    C58_program_complete E bnR (by decide +kernel) _ pre r h1 c h⟩

end Verif
