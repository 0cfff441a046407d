import Verif.Props.FullProg
import Verif.Spec.GeneralProg

/-!
# C59: programs over all chips, scalars in a field of their own

For the curve bls12_381 over the scalar field of bn256: whatever sequence of public calls is issued, in every satisfying
assignment all results stand for the run of the same sequence in the curve's group, the fields and the tower; and every
sequence whose honest run is defined is accepted. On a new context nothing has to be assumed about the keys of cached
points. Nothing is assumed about the order of points.
-/

namespace Verif

/-! ## Soundness -/

local instance : Fact bnR.Prime := ⟨bnR_prime⟩

local instance : Fact blsR.Prime := ⟨blsR_prime⟩

section sound
variable {info sinfo : RangeInfo bnR} {w : Advice bnR}

theorem limbs_bls (E : Env (pairQ .bls12_381) info) : info.limbs = 4 ∧ info.w_ceil_bits = 381 := by
  obtain ⟨info', hs⟩ := Setup.of_summary summary_blsQ
  obtain rfl : info' = info := by have := hs.new.symm.trans E.range; injection this
  have := hs.summary
  simp only [List.cons.injEq] at this
  omega

theorem limbs_blsR (F : Env blsR sinfo) : sinfo.limbs = 3 := by
  obtain ⟨info', hs⟩ := Setup.of_summary summary_blsR
  obtain rfl : info' = sinfo := by have := hs.new.symm.trans F.range; injection this
  have := hs.summary
  simp only [List.cons.injEq] at this
  omega

theorem env_blsR : ∃ sinfo : RangeInfo bnR, Env blsR sinfo :=
  let ⟨i, h⟩ := Setup.of_summary summary_blsR
  ⟨i, h.new, Fact.out, Fact.out, by have := congrArg (fun l => l.getD 2 0) h.summary; simp at this; omega⟩

theorem returns_gexec (order : ℕ) (i : GInstr) (s : GSt) : Returns (i.exec info sinfo order s) fun s' =>
    (i.isMsm → s'.pre = s.pre.map (· + MSM_PREFIX_OFFSET)) ∧ (¬ i.isMsm → s'.pre = s.pre) := by
  cases i with
  | tower i => exact .next fun _ => .pure ⟨False.elim, fun _ => rfl⟩
  | native i => exact .next fun _ => .pure ⟨False.elim, fun _ => rfl⟩
  | scalar i => exact .next fun _ => .pure ⟨False.elim, fun _ => rfl⟩
  | encode i => exact .next fun _ => .next fun _ => .pure ⟨False.elim, fun _ => rfl⟩
  | msm ps ss A L =>
    exact .next fun _ => .next fun _ => .bind (returns_msm _ _ _ _ _ _ _ _ _) fun r hr =>
      .pure ⟨fun _ => hr, fun h => absurd trivial h⟩

theorem RepGSt.native {s : GSt} {r : GRef} (h : RepGSt info sinfo w s r) : RepNSt w s.native r.native :=
  ⟨h.vals, h.base.base.base.conds⟩

theorem RepGSt.scalar {s : GSt} {r : GRef} (h : RepGSt info sinfo w s r) : RepSt blsR sinfo w s.scalar r.scalar :=
  ⟨h.scalars, h.base.base.base.conds⟩

theorem gexec_sound (E : Env (pairQ .bls12_381) info) (F : Env blsR sinfo) (order : ℕ) {c : Circuit bnR} (hw : c.Sat w) (i : GInstr) (s : GSt)
    (hk : ∀ j k, i = .tower (.pt (.int (.smallMul j k))) ∨ i = .scalar (.smallMul j k) → 1 ≤ k) (hbits : i.usesBits → c.BitRowsConsistent w)
    (hpre : i.isMsm → SelectPre c w s.pre) :
    S c (i.exec info sinfo order s) (fun s' => ∀ r, RepGSt info sinfo w s r → ∃ r', GStep i r r' ∧ RepGSt info sinfo w s' r') := by
  cases i with
  | tower i =>
    refine S.bind (texec_sound E order hw i s.base (fun j k e => hk j k (.inl (by rw [e]))) fun ⟨P, e⟩ => hbits (by rw [e]; trivial))
      fun t => S.pure fun ht r hr => ?_
    obtain ⟨r', k1, k2⟩ := ht _ hr.base
    exact ⟨_, .tower k1, k2, hr.vals, hr.scalars⟩
  | native i =>
    refine S.bind (nexec_sound (by decide +kernel) hw i s.native hbits) fun t => S.pure fun ht r hr => ?_
    obtain ⟨r', k1, k2⟩ := ht _ hr.native
    refine ⟨_, .native k1, ⟨⟨⟨hr.base.base.base.ints, k2.conds⟩, hr.base.base.pts, hr.base.base.crvs, hr.base.base.affs⟩,
      hr.base.regs, hr.base.g2s⟩, k2.vals, hr.scalars⟩
  | scalar i =>
    refine S.bind (exec_sound F.range hw i s.scalar fun j k e => hk j k (.inr (by rw [e]))) fun t => S.pure fun ht r hr => ?_
    obtain ⟨r', k1, k2⟩ := ht _ hr.scalar
    refine ⟨_, .scalar k1, ⟨⟨⟨hr.base.base.base.ints, k2.conds⟩, hr.base.base.pts, hr.base.base.crvs, hr.base.base.affs⟩,
      hr.base.regs, hr.base.g2s⟩, hr.vals, k2.ints⟩
  | encode i =>
    refine S.bind_index fun p hp => S.bind (C37_encode_sound_partial (b := pairBq .bls12_381) E.range p c w hw) fun l =>
      S.pure fun hl r hr => ?_
    obtain ⟨P, hP, hrep⟩ := forall2_get hr.base.base.pts hp
    obtain ⟨X, Y, hX, hY, he, hc⟩ := hl P hrep
    rw [(limbs_bls E).2] at hX hY
    refine ⟨_, .encode hP hX hY hc, hr.base, ?_, hr.scalars⟩
    refine List.rel_append hr.vals ?_
    rw [← he, List.forall₂_map_right_iff]
    exact List.forall₂_same.2 fun _ _ => rfl
  | msm ps ss A L =>
    refine S.bind_get fun points hpts => S.bind_get fun scalars hss => ?_
    have hg : S c (do
        let r ← Verif.msm info (pairB .bls12_381) (generalScalar sinfo) blsGen A.coords L.coords s.pre points scalars
        pure (s.pushP r.1 r.2)) fun _ => True := fun s1 a t hs he => by
      obtain ⟨h1, h2⟩ := (Growing.bind (prog2_msm (generalScalar_prog _) _ _ _ _ _ _ _).tidy.1 fun _ => .pure _) s1 a t hs he
      exact ⟨h1, h2, fun _ => trivial⟩
    have : Nonempty GRef := ⟨.empty⟩
    refine S.forall fun r => ?_
    by_cases hr : RepGSt info sinfo w s r
    · obtain ⟨Ps, hPs, rPs⟩ := got_rel hr.base.base.pts hpts
      obtain ⟨xs, hxs, rxs⟩ := got_rel hr.scalars hss
      refine S.bind (S_msm_nat E.range hw (generalScalar_sound F.range hw (hbits trivial)) (generalScalar_prog _)
        (good_pair .bls12_381) (by decide +kernel) rfl rPs rxs (generalScalar_zero _) blsGen
        A.coords L.coords fun p hp => ?_) fun res => S.pure fun hres _ => ?_
      · obtain ⟨h1, h2⟩ := hpre trivial p hp
        refine ⟨h1, h2.imp_left fun h => ⟨h, by decide +kernel, ?_⟩⟩
        rw [(limbs_bls E).1]
        norm_num
      · obtain ⟨ks, hks, hres⟩ := hres
        exact ⟨_, .msm hPs hxs hks, ⟨⟨hr.base.base.base, forall2_snoc hr.base.base.pts hres, hr.base.base.crvs,
          hr.base.base.affs⟩, hr.base.regs, hr.base.g2s⟩, hr.vals, hr.scalars⟩
    · exact hg.mono fun _ _ h => absurd h hr

/-- C59 (soundness): for every program of public calls and every satisfying assignment of a circuit that contains what the
program records, all results stand for the state reached by a run of the reference semantics. `hbits` and `hpre` are the
constraints that the code lacks (C06, C30); the first is needed only for programs that record bits, the second only for
multi-scalar multiplications on the select chip. -/
theorem C59_program_sound (E : Env (pairQ .bls12_381) info) (F : Env blsR sinfo) (order : ℕ) (prog : List GInstr) (pre : Option ℕ)
    (hk : ∀ j k, GInstr.tower (.pt (.int (.smallMul j k))) ∈ prog ∨ GInstr.scalar (.smallMul j k) ∈ prog → 1 ≤ k) (c : Circuit bnR) (w : Advice bnR)
    (hw : c.Sat w) (hbits : (∃ i ∈ prog, i.usesBits) → c.BitRowsConsistent w)
    (hpre : (∃ i ∈ prog, i.isMsm) → SelectPre c w pre) :
    S c (gexecAll info sinfo order prog (GSt.empty pre)) (fun s => ∃ r, GSteps prog GRef.empty r ∧ RepGSt info sinfo w s r) := by
  have key : ∀ (prog : List GInstr) (s : GSt), (∀ j k, GInstr.tower (.pt (.int (.smallMul j k))) ∈ prog ∨ GInstr.scalar (.smallMul j k) ∈ prog → 1 ≤ k) →
      ((∃ i ∈ prog, i.usesBits) → c.BitRowsConsistent w) → ((∃ i ∈ prog, i.isMsm) → SelectPre c w s.pre) →
      S c (gexecAll info sinfo order prog s) (fun s' => ∀ r, RepGSt info sinfo w s r →
        ∃ r', GSteps prog r r' ∧ RepGSt info sinfo w s' r') := by
    intro prog
    induction prog with
    | nil => intro s _ _ _; exact S.pure fun r hr => ⟨r, .nil, hr⟩
    | cons i is ih =>
      intro s hk hbits hpre
      refine S.bind_returns (gexec_sound E F order hw i s (fun j k e => hk j k (e.imp (fun e => by rw [e]; exact List.mem_cons_self) fun e => by rw [e]; exact List.mem_cons_self))
        (fun e => hbits ⟨i, List.mem_cons_self, e⟩) fun e => hpre ⟨i, List.mem_cons_self, e⟩) (returns_gexec order i s)
        fun s' hs' => ?_
      refine (ih s' (fun j k hm => hk j k (hm.imp (List.mem_cons_of_mem _) (List.mem_cons_of_mem _)))
        (fun ⟨j, hj, e⟩ => hbits ⟨j, List.mem_cons_of_mem _ hj, e⟩) fun ⟨j, hj, e⟩ => ?_).mono fun s'' h2 h1 r hr => ?_
      · have hp := hpre ⟨j, List.mem_cons_of_mem _ hj, e⟩
        by_cases hm : i.isMsm
        · rw [hs'.1 hm]; exact hp.next
        · rw [hs'.2 hm]; exact hp
      · obtain ⟨r', k1, k2⟩ := h1 r hr
        obtain ⟨r'', k3, k4⟩ := h2 r' k2
        exact ⟨r'', .cons k1 k3, k4⟩
  refine (key prog _ hk hbits hpre).mono fun s h => h _ ⟨⟨⟨⟨.nil, .nil⟩, .nil, .nil, .nil⟩, fun l => ?_, .nil⟩, .nil, .nil⟩
  exact .nil

/-- C59: for points of the subgroup of order `blsR` a multi-scalar multiplication has only one meaning, whatever numbers
the prover chooses for the scalars. -/
theorem C59_subgroup {r r' : GRef} {ps ss : List ℕ} {A L : BlsPt} {Ps : List BlsPt} {xs : List (ZMod blsR)}
    (h : GStep (.msm ps ss A L) r r') (hP : getAll r.base.base.pts ps = some Ps) (hx : getAll r.scalars ss = some xs)
    (ho : ∀ P ∈ Ps, blsR • P = 0) : r' = r.pushP (msmSum xs Ps) := by
  cases h with
  | msm h1 h2 hk =>
    rw [hP] at h1
    rw [hx] at h2
    cases h1
    cases h2
    rw [natSum_residue hk ho]

/-! ### Keys -/

theorem emits_gexec (hl : info.limbs ≤ 2 ^ 32) (order : ℕ) (i : GInstr) (s : GSt) :
    Emits (fun k => i.isMsm ∧ CallKeys s.pre k) (i.exec info sinfo order s) := by
  have : Nontrivial (ZMod bnR) := nontrivial_of_large (by decide +kernel)
  cases i with
  | tower i => exact (Built.quiet (.bind (prog_texec info order i _) fun _ => .pure _)).emits
  | native i => exact (Built.quiet (.bind (prog_nexec i _) fun _ => .pure _)).emits
  | scalar i => exact (Built.quiet (.bind (prog_iexec sinfo i _) fun _ => .pure _)).emits
  | encode i => exact (Built.quiet (.bind (prog_index _ _) fun _ => .bind (prog_ecc_encode _ _) fun _ => .pure _)).emits
  | msm ps ss A L =>
    exact Emits.after (prog_getM _ _).quiet fun _ _ => Emits.after (prog_getM _ _).quiet fun _ _ =>
      Emits.then ((emits_msm (by decide +kernel) hl (generalScalar_prog _) _ _ _ _ _ _ _).mono fun k hk => ⟨trivial, hk⟩)
        fun _ _ => .pure _

theorem gexecAll_keys (hl : info.limbs ≤ 2 ^ 32) (order : ℕ) : ∀ (prog : List GInstr) (s s' : GSt) (t t' : Context bnR),
    gexecAll info sinfo order prog s t = .ok (s', t') → (∀ r k, t.records.inner.KeyRow r k → UsedKeys s.pre k) →
    t.records.inner.KeysDistinct → t'.records.inner.KeysDistinct := by
  have : Nontrivial (ZMod bnR) := nontrivial_of_large (by decide +kernel)
  intro prog
  induction prog with
  | nil => intro s s' t t' h _ h2; cases h; exact h2
  | cons i is ih =>
    intro s s' t t' h h1 h2
    obtain ⟨s1, u, e1, e2⟩ := run_bind_ok.1 h
    obtain ⟨p1, p2⟩ := emits_gexec hl order i s _ _ _ e1
    have hp := returns_gexec order i s _ _ _ e1
    refine ih _ _ _ _ e2 (fun r k hk => ?_) (p2 (fun r k hk hcall => ?_) h2)
    · rcases p1 r k hk with h | ⟨hm, p, e, h3, g, h4, h5, h6⟩
      · obtain ⟨p, e, g, h3, h4, h5⟩ := h1 r k h
        by_cases hm : i.isMsm
        · have hp := hp.1 hm
          rw [e] at hp
          exact ⟨p + MSM_PREFIX_OFFSET, hp, g, h3, by omega, h5⟩
        · have hp := hp.2 hm
          rw [e] at hp
          exact ⟨_, hp, g, h3, h4, h5⟩
      · have hp := hp.1 hm
        rw [e] at hp
        refine ⟨_, hp, g, Nat.zero_le _, ?_, h6⟩
        have : p < 2 ^ 28 := h3
        have : g < p + 2 ^ 20 := h5
        have : g < p + MSM_PREFIX_OFFSET := h5
        dsimp only
        omega
    · obtain ⟨hm, p, e, h3, h4⟩ := hcall
      obtain ⟨p', e', h5⟩ := h1 r k hk
      rw [e] at e'
      cases e'
      have : p < 2 ^ 28 := h3
      exact KeysGroup.disjoint (by decide +kernel) (by omega) (by unfold MSM_PREFIX_OFFSET; omega) (min_le_left _ _) h5 h4

/-- C59 for the circuit of a whole run on a new context: nothing is assumed about the keys of cached points, and nothing
about the select chip unless the first group has the number 0 (which is what the library does, see C30). -/
theorem C59_end_to_end (E : Env (pairQ .bls12_381) info) (F : Env blsR sinfo) (order : ℕ) (prog : List GInstr) (pre : Option ℕ)
    (hk : ∀ j k, GInstr.tower (.pt (.int (.smallMul j k))) ∈ prog ∨ GInstr.scalar (.smallMul j k) ∈ prog → 1 ≤ k) (s : GSt) (t : Context bnR)
    (hrun : gexecAll info sinfo order prog (GSt.empty pre) (Context.new bnR) = .ok (s, t)) (usable : ℕ) (hf : t.Fits usable)
    (w : Advice bnR) (hw : (t.circuit usable).Sat w)
    (hbits : (∃ i ∈ prog, i.usesBits) → (t.circuit usable).BitRowsConsistent w)
    (hpre : (∃ i ∈ prog, i.isMsm) → pre = some 0 → (t.circuit usable).LookupsCached w ∧ (t.circuit usable).ZeroKeyUnique) :
    ∃ r, GSteps prog GRef.empty r ∧ RepGSt info sinfo w s r := by
  refine (C59_program_sound E F order prog pre hk _ w hw hbits (fun hm p hp => ⟨?_, ?_⟩) _ _ _ Context.new_fresh hrun).2.2
    (Context.embeds_circuit hf)
  · refine keysUnique_of_distinct (gexecAll_keys ?_ order prog _ _ _ _ hrun (fun r k hk => by cases hk.2)
      fun r r' k hk => by cases hk.2) _
    rw [(limbs_bls E).1]
    norm_num
  · rcases Nat.eq_zero_or_pos p with rfl | h
    exacts [.inr (hpre hm hp), .inl h]

end sound

/-! ## Completeness -/

section complete
variable {info sinfo : RangeInfo bnR} {h : Advice bnR}

theorem gexec_complete (E : Env (pairQ .bls12_381) info) (F : Env blsR sinfo) {order : ℕ} (ho : order % 2 = 1) {c : Circuit bnR} {H : Prop}
    (i : GInstr) {s : GSt} {r r' : GRef × Option ℕ} (hr : HRepGSt info sinfo s r) (hok : H → OkGSt info h s)
    (he : i.eval r = some r') :
    C c h H (i.exec info sinfo order s) (fun s' => HRepGSt info sinfo s' r') (fun s' => OkGSt info h s') := by
  cases i with
  | tower i =>
    simp only [GInstr.eval, Option.bind_eq_bind, Option.bind_eq_some_iff, Option.some.injEq] at he
    obtain ⟨t, ht, rfl⟩ := he
    exact C.bind (texec_complete E ho i hr.base (fun hH => (hok hH).base) ht) fun s' hs' =>
      C.pure ⟨hs', hr.vals, hr.scalars, hr.pre⟩ fun hH => ⟨hH.2, (hok hH.1).vals, (hok hH.1).scalars⟩
  | native i =>
    simp only [GInstr.eval, Option.bind_eq_bind, Option.bind_eq_some_iff, Option.some.injEq] at he
    obtain ⟨t, ht, rfl⟩ := he
    refine C.bind (nexec_complete (by decide +kernel) i (s := s.native) (r := r.1.native) ⟨hr.vals, hr.base.base.base.conds⟩
      (fun hH => ⟨(hok hH).vals, (hok hH).base.base.base.conds⟩) ht) fun s' hs' => C.pure ?_ fun hH => ?_
    · exact ⟨⟨⟨⟨hr.base.base.base.ints, hs'.conds⟩, hr.base.base.pts, hr.base.base.crvs, hr.base.base.affs⟩, hr.base.regs,
        hr.base.g2s⟩, hs'.vals, hr.scalars, hr.pre⟩
    · have k := hok hH.1
      exact ⟨⟨⟨⟨k.base.base.base.ints, hH.2.conds⟩, k.base.base.pts, k.base.base.crvs, k.base.base.affs⟩, k.base.regs,
        k.base.g2s⟩, hH.2.vals, k.scalars⟩
  | scalar i =>
    simp only [GInstr.eval, Option.bind_eq_bind, Option.bind_eq_some_iff, Option.some.injEq] at he
    obtain ⟨t, ht, rfl⟩ := he
    refine C.bind (exec_complete F.range F.dbits i (s := s.scalar) (r := r.1.scalar) ⟨hr.scalars, hr.base.base.base.conds⟩
      (fun hH => ⟨(hok hH).scalars, (hok hH).base.base.base.conds⟩) ht) fun s' hs' => C.pure ?_ fun hH => ?_
    · exact ⟨⟨⟨⟨hr.base.base.base.ints, hs'.conds⟩, hr.base.base.pts, hr.base.base.crvs, hr.base.base.affs⟩, hr.base.regs,
        hr.base.g2s⟩, hr.vals, hs'.ints, hr.pre⟩
    · have k := hok hH.1
      exact ⟨⟨⟨⟨k.base.base.base.ints, hH.2.conds⟩, k.base.base.pts, k.base.base.crvs, k.base.base.affs⟩, k.base.regs,
        k.base.g2s⟩, k.vals, hH.2.ints⟩
  | encode i =>
    simp only [GInstr.eval, Option.bind_eq_bind, Option.bind_eq_some_iff, Option.some.injEq] at he
    obtain ⟨P, hP, rfl⟩ := he
    obtain ⟨p, hp, hrep⟩ := forall2_get' hr.base.base.pts hP
    refine C.bind_index hp <| C.bind ((C37_encode_complete E.range p P hrep c h).weaken fun hH =>
      (hok hH).base.base.pts _ (List.mem_of_getElem? hp)) fun l hl => C.pure ⟨hr.base, ?_, hr.scalars, hr.pre⟩ fun hH =>
        ⟨(hok hH.1).base, ?_, (hok hH.1).scalars⟩
    · refine List.rel_append hr.vals ?_
      have e : l.map AssignedValue.val = encTriple bnR (P.coords.getD (0, 0)).1 (P.coords.getD (0, 0)).2 := by
        cases P with
        | zero => exact hl.1 rfl
        | some x y h => exact hl.2 x y ⟨h, rfl⟩
      rw [← e, List.forall₂_map_right_iff]
      exact List.forall₂_same.2 fun _ _ => rfl
    · intro a ha
      rcases List.mem_append.1 ha with ha | ha
      exacts [(hok hH.1).vals a ha, hH.2 a ha]
  | msm ps ss A L =>
    simp only [GInstr.eval, Option.bind_eq_bind, Option.bind_eq_some_iff] at he
    obtain ⟨Ps, hPs, xs, hxs, he⟩ := he
    split at he
    case isFalse => cases he
    case isTrue hdom =>
    cases he
    obtain ⟨hlen, hne, hA, hL, hlim, Gn, hG, hpos⟩ := hdom
    obtain ⟨points, hpts, rpts⟩ := got_rel' hr.base.base.pts hPs
    obtain ⟨scalars, hss, rss⟩ := got_rel' hr.scalars hxs
    have coords : ∀ {P : BlsPt}, P ≠ 0 → ∃ v, P.coords = some v ∧ ConstCoords (some v) P := by
      intro P hP
      cases P with
      | zero => exact absurd rfl hP
      | some x y h => exact ⟨_, rfl, Pt.coords_const (.some x y h)⟩
    obtain ⟨r1, eA, cA⟩ := coords hA
    obtain ⟨r2, eL, cL⟩ := coords hL
    have hl1 := rpts.length_eq
    have hl2 := rss.length_eq
    show C c h H (getM s.base.base.pts ps >>= fun points => getM s.scalars ss >>= fun scalars =>
      Verif.msm info (pairB .bls12_381) (generalScalar sinfo) blsGen A.coords L.coords s.pre points scalars >>= fun r =>
        pure (s.pushP r.1 r.2)) _ _
    rw [eA, eL, hr.pre]
    refine C.bind_get hpts <| C.bind_get hss <| C.bind ((C49_general_complete E.range E.dbits (good_pair .bls12_381)
      (pairB .bls12_381) (by decide +kernel) rfl F.range points scalars Ps xs rpts (rss.imp fun _ _ h => h.1) (by omega) ?_
      blsGen r1 r2 Gn A L (.inr ⟨_, _, rfl, by decide +kernel, by decide +kernel, hG⟩) cA cL r.2 ?_ ?_ c h).weaken fun hH =>
        ⟨fun p hp => (hok hH).base.base.pts _ (got_mem hpts p hp), fun p hp => (hok hH).scalars _ (got_mem hss p hp)⟩)
      fun res hres => C.pure ?_ fun hH => ?_
    · rintro rfl
      cases rpts
      exact hne rfl
    · intro p hp
      exact ⟨by decide +kernel, (hlim p hp).1, hl1.trans_le (hlim p hp).2⟩
    · rw [limbs_blsR F]
      exact hpos
    · exact ⟨⟨⟨hr.base.base.base, forall2_snoc hr.base.base.pts hres.1, hr.base.base.crvs, hr.base.base.affs⟩, hr.base.regs,
        hr.base.g2s⟩, hr.vals, hr.scalars, hres.2⟩
    · have k := hok hH.1
      refine ⟨⟨⟨k.base.base.base, ?_, k.base.base.crvs, k.base.base.affs⟩, k.base.regs, k.base.g2s⟩, k.vals, k.scalars⟩
      exact mem_snoc k.base.base.pts hH.2

/-- C59 (completeness): a program whose reference run succeeds is issued without a panic, the results are those of the
reference run, and the recorded witness satisfies every circuit that contains what the program records. -/
theorem C59_program_complete (E : Env (pairQ .bls12_381) info) (F : Env blsR sinfo) (order : ℕ) (ho : order % 2 = 1) (prog : List GInstr)
    (pre : Option ℕ) (r : GRef × Option ℕ) (he : gevalAll prog (GRef.empty, pre) = some r) :
    Complete (gexecAll info sinfo order prog (GSt.empty pre)) (fun _ => True) (fun s => HRepGSt info sinfo s r) (OkGSt info) := by
  intro c h
  have key : ∀ (prog : List GInstr) (s : GSt) (r r' : GRef × Option ℕ) (H : Prop), HRepGSt info sinfo s r →
      (H → OkGSt info h s) → gevalAll prog r = some r' →
      C c h H (gexecAll info sinfo order prog s) (fun s' => HRepGSt info sinfo s' r') (fun s' => OkGSt info h s') := by
    intro prog
    induction prog with
    | nil => intro s r r' H hr hok he; cases he; exact C.pure hr hok
    | cons i is ih =>
      intro s r r' H hr hok he
      simp only [gevalAll, Option.bind_eq_bind, Option.bind_eq_some_iff] at he
      obtain ⟨r1, h1, h2⟩ := he
      exact C.bind (gexec_complete E F ho i hr hok h1) fun s' hs' => ih s' r1 r' _ hs' (fun hH => hH.2) h2
  refine key prog _ _ r _ ⟨⟨⟨⟨.nil, .nil⟩, .nil, .nil, .nil⟩, fun _ => .nil, .nil⟩, .nil, .nil, rfl⟩
    (fun _ => ⟨⟨⟨⟨?_, ?_⟩, ?_, ?_, ?_⟩, ?_, ?_⟩, ?_, ?_⟩) he
  all_goals simp [GSt.empty, TSt.empty]

/-- The honest run is one of the runs the reference semantics allows. -/
theorem geval_step {i : GInstr} {r r' : GRef × Option ℕ} (he : i.eval r = some r') : GStep i r.1 r'.1 := by
  cases i with
  | tower i =>
    simp only [GInstr.eval, Option.bind_eq_bind, Option.bind_eq_some_iff, Option.some.injEq] at he
    obtain ⟨t, ht, rfl⟩ := he
    exact .tower (teval_step ht)
  | native i =>
    simp only [GInstr.eval, Option.bind_eq_bind, Option.bind_eq_some_iff, Option.some.injEq] at he
    obtain ⟨t, ht, rfl⟩ := he
    exact .native (neval_step (by decide +kernel) ht)
  | scalar i =>
    simp only [GInstr.eval, Option.bind_eq_bind, Option.bind_eq_some_iff, Option.some.injEq] at he
    obtain ⟨t, ht, rfl⟩ := he
    have : Steps [i] r.1.scalar t := evalAll_steps (by simp [evalAll, ht])
    cases this with
    | cons h h' => cases h'; exact .scalar h
  | encode i =>
    simp only [GInstr.eval, Option.bind_eq_bind, Option.bind_eq_some_iff, Option.some.injEq] at he
    obtain ⟨P, hP, rfl⟩ := he
    have hlt : ∀ x : ZMod (pairQ .bls12_381), x.val < 2 ^ 381 := fun x => (ZMod.val_lt x).trans (by decide +kernel)
    cases P with
    | zero => exact .encode hP (by decide) (by decide) (.inl ⟨rfl, rfl, rfl⟩)
    | some x y h =>
      refine .encode hP (hlt x) (hlt y) (.inr ?_)
      show HasCoords (.some x y h) ((x.val : ℕ) : ZMod (pairQ .bls12_381)) ((y.val : ℕ) : ZMod (pairQ .bls12_381))
      rw [ZMod.natCast_zmod_val, ZMod.natCast_zmod_val]
      exact ⟨h, rfl⟩
  | msm ps ss A L =>
    simp only [GInstr.eval, Option.bind_eq_bind, Option.bind_eq_some_iff] at he
    obtain ⟨Ps, hPs, xs, hxs, he⟩ := he
    split at he
    · cases he
      have := GStep.msm (r := r.1) (A := A) (L := L) (ks := xs.map ZMod.val) hPs hxs ?_
      · rw [natSum, zipWith_val] at this
        exact this
      · rw [List.forall₂_map_left_iff]
        exact List.forall₂_same.2 fun x _ => ZMod.natCast_zmod_val x
    · cases he

theorem gevalAll_steps {prog : List GInstr} : ∀ {r r' : GRef × Option ℕ}, gevalAll prog r = some r' →
    GSteps prog r.1 r'.1 := by
  induction prog with
  | nil => intro r r' h; cases h; exact .nil
  | cons i is ih =>
    intro r r' he
    simp only [gevalAll, Option.bind_eq_bind, Option.bind_eq_some_iff] at he
    obtain ⟨r1, h1, h2⟩ := he
    exact .cons (geval_step h1) (ih h2)

end complete

/-! ### A case meeting the hypotheses -/

/-- A number of elements of a subset is a number of elements of a subgroup. -/
theorem AtMost.exists_mem_not {G : Type} [AddGroup G] {T : AddSubgroup G} [Finite T] {k : ℕ} {p : G → Prop}
    (h : AtMost k fun A => A ∈ T ∧ p A) (hk : k < Nat.card T) : ∃ A ∈ T, ¬ p A := by
  classical
  obtain ⟨F, h1, h2⟩ := h
  have h' : AtMost k fun A : T => p A :=
    ⟨F.preimage Subtype.val Subtype.val_injective.injOn,
      (Finset.card_le_card_of_injOn Subtype.val (fun a ha => by simpa using ha) Subtype.val_injective.injOn).trans h1,
      fun A hA => by simpa using h2 _ ⟨A.2, hA⟩⟩
  obtain ⟨A, hA⟩ := h'.exists_not hk
  exact ⟨A, A.2, hA⟩

theorem bls_gen : ∃ G : BlsPt, HasCoords G (blsGen.1 : ZMod (pairQ .bls12_381)) (blsGen.2 : ZMod (pairQ .bls12_381)) ∧
    addOrderOf G = blsR := by
  have key : ∀ b : ZMod blsQ, b = 4 → ∃ G : Pt b, HasCoords G (blsGen.1 : ZMod blsQ) (blsGen.2 : ZMod blsQ) ∧
      addOrderOf G = blsR := by
    intro b hb
    subst hb
    obtain ⟨G, hG⟩ := bls_generator
    exact ⟨G, hG, addOrderOf_eq_prime (blsG_order hG) hG.ne_zero⟩
  exact key _ (by show ((4 : ℕ) : ZMod blsQ) = 4; norm_num)

/-- There are random points for every multi-scalar multiplication, in the subgroup of order `blsR` (and by C49 almost all
are fit). -/
theorem blsMsmDomain_exists (pre : Option ℕ) (Ps : List BlsPt) (xs : List (ZMod blsR)) (hlen : Ps.length = xs.length)
    (hne : Ps ≠ []) (hmax : Ps.length ≤ 2 ^ 240) (hpre : ∀ p, pre = some p → p < 2 ^ 28 ∧ Ps.length ≤ 2 ^ 20) :
    ∃ A L, BlsMsmDomain pre Ps xs A L := by
  obtain ⟨Gn, hG, ho⟩ := bls_gen
  have hcl : (cleanPoints Gn Ps).length = Ps.length := by simp [cleanPoints]
  have hN : 1 ≤ Ps.length := List.length_pos_iff.2 hne
  have hbest : 1 ≤ (if pre.isSome then 5 else 2) ∧ (if pre.isSome then 5 else 2) ≤ 5 := by split <;> omega
  obtain ⟨hs1, hs2⟩ := groupSize_le hbest.1 hN
  have hg := groupCount_le hs2 hN
  have hp : 2 ^ groupSize (if pre.isSome then 5 else 2) Ps.length ≤ 2 ^ 5 :=
    Nat.pow_le_pow_right (by norm_num) (hs1.trans hbest.2)
  let T := AddSubgroup.zmultiples Gn
  have hcard : Nat.card T = blsR := by rw [← ho]; exact Nat.card_zmultiples Gn
  have hlt : 2 ^ 253 < Nat.card T := by rw [hcard]; decide +kernel
  have : Finite T := Nat.finite_of_card_ne_zero (by omega)
  have key : ∀ k : ℕ, Nat.Coprime blsR k → ∀ P ∈ T, k • P = 0 → P = 0 := by
    intro k hk P hP h0
    have hr : blsR • P = 0 := by
      obtain ⟨m, rfl⟩ := AddSubgroup.mem_zmultiples_iff.1 hP
      rw [smul_comm, ← ho, addOrderOf_nsmul_eq_zero, smul_zero]
    have h1 : addOrderOf P ∣ Nat.gcd blsR k := Nat.dvd_gcd (addOrderOf_dvd_of_nsmul_eq_zero hr)
      (addOrderOf_dvd_of_nsmul_eq_zero h0)
    rw [hk] at h1
    exact AddMonoid.addOrderOf_eq_one_iff.1 (Nat.dvd_one.1 h1)
  have hr := C49_random_points T (fun P hP e => key 2 (by decide +kernel) P hP (by rw [two_nsmul]; exact e))
    (fun P hP e => key 3 (by decide +kernel) P hP (by rw [succ_nsmul, two_nsmul]; exact e)) 324 _ hs2
    (cleanScalars Ps (xs.map ZMod.val)) (cleanPoints Gn Ps)
  rw [hcl] at hr
  have h0 : AtMost 1 fun P : BlsPt => P = 0 := AtMost.one fun A B hA hB => hA.trans hB.symm
  have hr := hr.mono (l := 64 * Ps.length) (q := fun L => ¬ AtMost (324 * (2 * Ps.length + 5)) fun A => A ∈ T ∧
    ¬ GeneralPosition 324 (groupSize (if pre.isSome then 5 else 2) Ps.length) (cleanScalars Ps (xs.map ZMod.val))
        (cleanPoints Gn Ps) A L) (by
      rw [Nat.mul_comm 64]
      exact Nat.mul_le_mul hg (by omega)) fun L hL hc => hL (hc.mono (Nat.mul_le_mul_left _ (by omega)) fun A hA => hA)
  obtain ⟨L, -, hL⟩ := ((hr.or h0).mono le_rfl fun A hA => hA.2).exists_mem_not (T := T) (by omega)
  rw [not_or, not_not] at hL
  obtain ⟨A, -, hA⟩ := ((hL.1.or h0).mono (q := fun A => A ∈ T ∧ (¬ GeneralPosition 324 (groupSize (if pre.isSome then 5 else 2)
    Ps.length) (cleanScalars Ps (xs.map ZMod.val)) (cleanPoints Gn Ps) A L ∨ A = 0)) le_rfl fun A hA =>
      hA.2.imp_left fun h => ⟨hA.1, h⟩).exists_mem_not (by omega)
  rw [not_or, not_not] at hA
  exact ⟨A, L, hlen, hne, hA.2, hL.2, hpre, Gn, hG, hA.1⟩

/-- A program with all chips: `Q = 5 G + 7 G` by a multi-scalar multiplication, `Q` as native values and their hash, and
`e(Q, H) e(-Q, H) = 1` for the generator `H` of the second group, its identity flag taken from a test of a scalar. -/
noncomputable def generalProg (G A L : BlsPt) : List GInstr :=
  [.tower (.pt (.const G)), .scalar (.assign 5), .scalar (.const 7), .msm [0, 0] [0, 1] A L, .encode 1,
    .native (.hash [0, 1, 2]), .scalar (.isZero 0), .tower (.pt (.neg 1)), .tower (.op (.const .f2 (genQ .bls12_381).1) ()),
    .tower (.op (.const .f2 (genQ .bls12_381).2) ()), .tower (.g2 0 1 0), .tower (.checkPairing [(1, 0), (2, 0)])]

section eval
variable {r r' r'' : GRef × Option ℕ}

theorem gev_cons {is : List GInstr} {i : GInstr} (h : i.eval r = some r') (h' : gevalAll is r' = some r'') :
    gevalAll (i :: is) r = some r'' := by rw [gevalAll, h]; exact h'

theorem gev_tower {i : TInstr .bls12_381} {t} (h : i.eval r.1.base = some t) :
    (GInstr.tower i).eval r = some ({ r.1 with base := t }, r.2) := by rw [GInstr.eval, h]; rfl

theorem gev_native {i : NInstr bnR} {t} (h : i.eval r.1.native = some t) :
    (GInstr.native i).eval r = some ({ r.1.setFlags t.flags with vals := t.vals }, r.2) := by rw [GInstr.eval, h]; rfl

theorem gev_scalar {i : Instr blsR} {t} (h : i.eval r.1.scalar = some t) :
    (GInstr.scalar i).eval r = some ({ r.1.setFlags t.flags with scalars := t.vals }, r.2) := by rw [GInstr.eval, h]; rfl

theorem gev_msm {ps ss A L Ps xs} (h : getAll r.1.base.base.pts ps = some Ps) (h' : getAll r.1.scalars ss = some xs)
    (hd : BlsMsmDomain r.2 Ps xs A L) :
    (GInstr.msm ps ss A L).eval r = some (r.1.pushP (msmSum xs Ps), r.2.map (· + 2 ^ 20)) := by
  rw [GInstr.eval, h, Option.bind_eq_bind, Option.bind_some, h', Option.bind_eq_bind, Option.bind_some, if_pos hd]

/-- The honest run of `generalProg`. -/
theorem generalProg_eval (pre : Option ℕ) (hpre : ∀ p, pre = some p → p < 2 ^ 28) {G : BlsPt} (h0 : G ≠ 0) (ho : blsR • G = 0) :
    ∃ A L r, gevalAll (generalProg G A L) (GRef.empty, pre) = some r ∧ r.1.base.base.pts[1]? = some (12 • G) := by
  obtain ⟨A, L, hd⟩ := blsMsmDomain_exists pre [G, G] [5, 7] rfl (by simp) (by simp) fun p hp => ⟨hpre p hp, by simp⟩
  have e : msmSum [(5 : ZMod blsR), 7] [G, G] = 12 • G := by
    have h5 : (5 : ZMod blsR).val = 5 := by decide +kernel
    have h7 : (7 : ZMod blsR).val = 7 := by decide +kernel
    simp only [msmSum, List.zipWith_cons_cons, List.zipWith_nil_left, List.sum_cons, List.sum_nil, h5, h7]
    rw [add_zero, ← add_nsmul]
  have hQ0 : 12 • G ≠ 0 := by
    intro hc
    have h1 : addOrderOf G ∣ Nat.gcd blsR 12 :=
      Nat.dvd_gcd (addOrderOf_dvd_of_nsmul_eq_zero ho) (addOrderOf_dvd_of_nsmul_eq_zero hc)
    have h2 : Nat.gcd blsR 12 = 1 := by decide +kernel
    rw [h2, Nat.dvd_one] at h1
    exact h0 (AddMonoid.addOrderOf_eq_one_iff.1 h1)
  obtain ⟨x, y, hQ⟩ : ∃ x y, HasCoords (12 • G) x y := by
    rcases hq : (12 • G : BlsPt) with _ | ⟨x, y, h⟩
    · exact absurd hq hQ0
    · exact ⟨x, y, h, rfl⟩
  have h1 : (12 • G).xy = some (x, y) := Pt.xy_iff.2 hQ
  have h2 : (-(12 • G)).xy = some (x, -y) := Pt.xy_iff.2 hQ.neg
  have hy : y ≠ 0 := fun h0 => no_two_torsion .bls12_381 x (by rw [← hQ.eqn, h0]; ring)
  have hin : ∀ us : List ((ZMod (pairQ .bls12_381) × ZMod (pairQ .bls12_381)) × (Fq2 (pairQ .bls12_381) × Fq2 (pairQ .bls12_381))),
      (∀ u ∈ us, u.2 = genQ .bls12_381) → InSecond us := fun us h v hv => by rw [h v hv]; exact gen_inG2 .bls12_381
  have hprod := ate_neg (gen_at .bls12_381) (gen_inG2 .bls12_381) x y hy
  rw [← e] at h1 h2
  refine ⟨A, L, _, gev_cons (gev_tower (tev_pt rfl)) <| gev_cons (gev_scalar rfl) <| gev_cons (gev_scalar rfl) <|
    gev_cons (gev_msm rfl rfl hd) <| gev_cons rfl <| gev_cons (gev_native rfl) <|
    gev_cons (gev_scalar rfl) <| gev_cons (gev_tower (tev_pt rfl)) <|
    gev_cons (gev_tower (tev_op rfl _ fun _ => Iff.rfl)) <| gev_cons (gev_tower (tev_op rfl _ fun _ => Iff.rfl)) <|
    gev_cons (gev_tower rfl) <|
    gev_cons (gev_tower (tev_check (us := [((x, y), genQ .bls12_381), ((x, -y), genQ .bls12_381)])
      (inputs_cons (q := genQ .bls12_381) rfl h1 ?_ <| inputs_cons (q := genQ .bls12_381) rfl h2 ?_ rfl) (hin _ (by simp))
      (by rw [ateProd]; simpa using hprod))) rfl, congrArg some e⟩
  all_goals exact congrArg (fun b => some (b, genQ .bls12_381)) (decide_eq_false (by decide +kernel))

end eval

/-- C59: the hypotheses of the theorems above are met by `generalProg` on a generator, with and without the select chip; so
the program runs, its witness is accepted, and the recorded result of the multi-scalar multiplication is `12 G`. -/
theorem C59_case (pre : Option ℕ) (hpre : ∀ p, pre = some p → p < 2 ^ 28) :
    ∃ (info sinfo : RangeInfo bnR) (G A L : BlsPt) (r : GRef × Option ℕ), Env (pairQ .bls12_381) info ∧ Env blsR sinfo ∧
      HasCoords G blsGen.1 blsGen.2 ∧ addOrderOf G = blsR ∧
      gevalAll (generalProg G A L) (GRef.empty, pre) = some r ∧ r.1.base.base.pts[1]? = some (12 • G) ∧
      Accepted (gexecAll info sinfo blsR (generalProg G A L) (GSt.empty pre)) (fun s => HRepGSt info sinfo s r) := by
  obtain ⟨info, E⟩ := env_bls12_381
  obtain ⟨sinfo, F⟩ := env_blsR
  obtain ⟨G, hG, ho⟩ := bls_gen
  obtain ⟨A, L, r, h1, h2⟩ := generalProg_eval pre hpre hG.ne_zero (by rw [← ho]; exact addOrderOf_nsmul_eq_zero G)
  exact ⟨info, sinfo, G, A, L, r, E, F, hG, ho, h1, h2, Accepted.of_C fun c h =>
    C59_program_complete E F blsR (by decide +kernel) _ pre r h1 c h⟩

end Verif
