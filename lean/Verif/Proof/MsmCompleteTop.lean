import Verif.Proof.MsmPosition

/-!
# Multi-scalar multiplication, completeness
-/

namespace Verif
variable {n wm : ℕ} {info : RangeInfo n} {b : ZMod wm} {c : Circuit n} {h : Advice n} {H : Prop} {σ : Type}

theorem C.mapM₂ {α β γ : Type} {R : α → γ → Prop} {f : α → M n β} {P : γ → β → Prop} {Q : β → Prop} {l : List α}
    {l' : List γ} (hl : List.Forall₂ R l l') : ∀ {H : Prop},
    (∀ {H' : Prop}, (H' → H) → ∀ x y, x ∈ l → R x y → C c h H' (f x) (P y) Q) →
    C c h H (l.mapM f) (fun ys => List.Forall₂ (fun b y => P y b) ys l') (fun ys => ∀ b ∈ ys, Q b) := by
  induction hl with
  | nil =>
    intro H _
    rw [List.mapM_nil]
    exact C.pure .nil fun _ b hb => absurd hb (by simp)
  | @cons x y l l' hx _ ih =>
    intro H hf
    rw [List.mapM_cons]
    refine C.bind (hf id x y (by simp) hx) fun r hr => C.bind (ih fun hH x y hxl hxy => hf (fun h' => (hH h').1) x y
      (by simp [hxl]) hxy) fun rs hrs => C.pure (.cons hr hrs) fun hH b hb => ?_
    rcases List.mem_cons.1 hb with rfl | hb
    exacts [hH.1.2, hH.2 b hb]

/-! ### All windows do the same -/

theorem sh_false_refl (p : AssignedNonZeroPoint n) : sh False p p := by
  have hl : ∀ l : List (AssignedValue n), sh False l l := fun l => by
    induction l with
    | nil => exact .nil
    | cons x l ih => exact .cons (fun h => h.elim) ih
  exact ⟨⟨hl _, fun h => h.elim, rfl⟩, ⟨hl _, fun h => h.elim, rfl⟩⟩

theorem sh_false_list : ∀ l l' : List (AssignedNonZeroPoint n), l = l' → sh False l l'
  | [], _, rfl => .nil
  | x :: l, _, rfl => .cons (sh_false_refl x) (sh_false_list l l rfl)

theorem sh_false_lists : ∀ l l' : List (List (AssignedNonZeroPoint n)), l = l' → sh False l l'
  | [], _, rfl => .nil
  | x :: l, _, rfl => .cons (sh_false_list x x rfl) (sh_false_lists l l rfl)

theorem rel_group_bits_any (wi wi' : ℕ) (group : List (List (List (AssignedCondition n)))) :
    Runs2 False (group_bits wi group) (group_bits wi' group) (sh False) := by
  unfold group_bits
  exact rel_mapM_gen (R := fun a a' => a = a') (List.forall₂_same.2 fun _ _ => rfl) fun _ _ _ =>
    (rel_index_any _ _ _ _).bind fun _ _ _ => (rel_index_any _ _ _ _).mono fun _ _ _ h => h.elim

theorem rel_windows (info : RangeInfo n) {pick : ℕ → List (AssignedCondition n) → M n (AssignedNonZeroPoint n)}
    (hp : ∀ g b b', sh False b b' → Runs2 False (pick g b) (pick g b') (sh False)) (wi wi' : ℕ)
    (l : List (List (List (List (AssignedCondition n))))) : ∀ (g : ℕ) {acc acc' : AssignedNonZeroPoint n},
    sh False acc acc' → Runs2 False (window_acc info pick wi g l acc) (window_acc info pick wi' g l acc') (sh False) := by
  induction l with
  | nil => intro g acc acc' h_acc; exact Runs2.pure (sh_ok h_acc)
  | cons x l ih =>
    intro g acc acc' h_acc
    unfold window_acc
    refine (rel_group_bits_any wi wi' x).bind fun _ _ hb => (hp _ _ _ hb).bind fun _ _ hc => ?_
    exact rel_tryB (rel_ecc_add_unsafe info hc h_acc) fun _ _ ha => ih _ ha

/-! ### The batch -/

/-- What the operations of a scalar context have to satisfy: `R s k` says which number `s` honestly stands for. -/
structure ScalarComplete (c : Circuit n) (h : Advice n) (R : σ → ℕ → Prop) (OkS : σ → Prop) (W : ℕ)
    (ops : ScalarOps n σ) : Prop where
  pos : 1 ≤ W
  decompose : ∀ (H : Prop) s k, R s k → (H → OkS s) → C c h H (ops.decompose s)
    (fun res => Windows AssignedValue.val 1 res k ∧ res.length = W) (fun res => ∀ win ∈ res, ∀ x ∈ win, Ok h x)
  bisec : ∀ (H : Prop) (d : AssignedCondition n) s s' k k', d.val = 1 ∨ d.val = 0 → R s k → R s' k' →
    (H → Ok h d ∧ OkS s ∧ OkS s') → C c h H (ops.bisec d s s') (fun r => R r (if d.val = 1 then k else k')) OkS
  zero : ∀ H : Prop, C c h H ops.zero (fun r => R r 0) OkS

theorem nativeScalar_complete [Fact n.Prime] {num_bits : ℕ} (hn : n ≤ 2 ^ num_bits) :
    ScalarComplete c h (fun s k => s.val.val = k) (Ok h) num_bits (nativeScalar num_bits) where
  pos := by
    have := (Fact.out : n.Prime).one_lt
    rcases Nat.eq_zero_or_pos num_bits with e | e
    · subst e; simp at hn; omega
    · exact e
  decompose H s k hk hok := (C_decompose_scalar_native one_ne_zero hn hok).mono (fun r hr => by
    rw [← hk]; exact ⟨hr.1, by rw [hr.2]; omega⟩) fun _ _ _ q => q
  bisec H d s s' k k' hd hk hk' hok := (C_bisec hok).mono (fun r hr => by
    rw [hr]
    rcases hd with e | e <;> rw [e]
    · rw [if_pos rfl, ← hk]; simp
    · rw [if_neg zero_ne_one, ← hk']; simp) fun _ _ _ q => q
  zero H := C_assign_constant.mono (fun r hr => by
    show r.val.val = 0
    rw [hr]; simp) fun _ _ _ q => q

theorem generalScalar_complete [Fact n.Prime] {sm : ℕ} {sinfo : RangeInfo n} (hm : 1 ≤ sm)
    (hi : RangeInfo.new sm n 18 6 = .ok sinfo) :
    ScalarComplete c h (fun s k => HRep sm sinfo s (k : ZMod sm) ∧ k < sm) (OkI h) (108 * sinfo.limbs)
      (generalScalar sinfo) where
  pos := by have := (RangeInfo.new_valid hi).limbs_ge; omega
  decompose H s k hk hok := (C_decompose_scalar_general (RangeInfo.new_valid hi) one_ne_zero hk.1.honest hok).mono
    (fun r hr => by
      have e : V AssignedValue.val s % sm = k := by
        have := (ZMod.natCast_eq_natCast_iff' _ _ _).1 hk.1.eq
        rwa [Nat.mod_eq_of_lt hk.2] at this
      rw [e] at hr
      exact ⟨hr.1, by rw [hr.2]; omega⟩) fun _ _ _ q => q
  bisec H d s s' k k' hd hk hk' hok := ((C17_bisec_int_complete hi d s s' _ _ hk.1 hk'.1 hd c h).weaken hok).mono
    (fun r hr => by
      split
      · rename_i e
        rw [if_pos e] at hr
        exact ⟨hr.1, hk.2⟩
      · rename_i e
        rw [if_neg e] at hr
        exact ⟨hr.1, hk'.2⟩) fun _ _ _ q => q
  zero H := ((C17_constant_complete hi 0 (by omega) c h).weaken fun _ => trivial).mono
    (fun r hr => ⟨hr.1, by omega⟩) fun _ _ _ q => q

section
variable [Fact n.Prime] [Fact wm.Prime] (hi : RangeInfo.new wm n 18 6 = .ok info) (hd : info.d_bits % 108 ≠ 0)
  (hb : GoodCurve b)
include hi hd hb

theorem C_msm_finish {line_neg acc acc_neg : AssignedNonZeroPoint n} {L A : Pt b}
    (hL : HNRep info line_neg (-L)) (hA : HNRep info acc A) (hA' : HNRep info acc_neg (-A))
    {V X : ℕ → Pt b} {W : ℕ} (hV0 : V 0 = 0) (hV : ∀ t < W, V (t + 1) = V t + V t + X t) (odd : Bool)
    (hpos : ∀ t < W, AccPos odd L A (V t) (X t)
      (V (t + 1))) {l : List (AssignedNonZeroPoint n)} (hl : l.length = W)
    (hl' : ∀ j p, l[j]? = some p → HNRep info p (-A + (if odd then L else 0) + X j))
    (hok : H → OkN h line_neg ∧ OkN h acc ∧ OkN h acc_neg ∧ ∀ (j : ℕ) p, l[j]? = some p → OkN h p) :
    C c h H (msm_finish info odd line_neg acc acc_neg l) (fun r => ∃ p, r = .ok p ∧
      HPRep info p (V W)) (fun r => ∀ p, r = .ok p → OkP h p) := by
  unfold msm_finish
  refine C.tryB (C_windows_acc hi hd hb hL hV odd hpos l 0 acc (by omega) (by simpa using hl') ?_ fun hH =>
    ⟨(hok hH).1, (hok hH).2.2.2, (hok hH).2.1⟩) fun acc hacc => ?_
  · rw [hV0, add_zero]; exact hA
  · rw [hl, zero_add] at hacc
    refine C.bind (C_downgrade hacc fun hH => hH.2) fun a ha =>
      C.bind (C_to_point_with_curvature hi hd hb ha fun hH => hH.2) fun a ha =>
      C.bind (C_downgrade hA' fun hH => (hok hH.1.1.1).2.2.1) fun q hq =>
      C.bind (C_ecc_add hi hd hb ha.1 hq fun hH => ⟨hH.1.2, hH.2⟩) fun r hr =>
      C.pure ⟨r, rfl, ?_⟩ fun hH p e => ?_
    · have e : V W = A + V W + -A := by abel
      rw [e]
      exact hr
    · cases e
      exact hH.2

variable {ops : ScalarOps n σ} {best : ℕ} {before : M n Unit} {cache : ℕ → AssignedNonZeroPoint n → ℕ → M n Unit}
  {pick : List (List (AssignedNonZeroPoint n)) → ℕ → List (AssignedCondition n) → M n (AssignedNonZeroPoint n)}
  {R : σ → ℕ → Prop} {OkS : σ → Prop} {W : ℕ} (hs : ScalarComplete c h R OkS W ops)
include hs

theorem C_msm_after {B : ℕ} {K : ℕ → ℕ → AssignedNonZeroPoint n → Prop} (hp : ∀ cs g l, Prog (pick cs g l))
    (hpr : ∀ cs g b b', sh False b b' → Runs2 False (pick cs g b) (pick cs g b') (sh False))
    (hpick : PickComplete c info h b B K pick) {scalars : List σ} {ks : List ℕ} (hx : List.Forall₂ R scalars ks)
    {size : ℕ} (hk : size ≠ 0) (hkB : size ≤ B) {line_neg acc acc_neg : AssignedNonZeroPoint n} {L A : Pt b}
    (hL : HNRep info line_neg (-L)) (hA : HNRep info acc A) (hA' : HNRep info acc_neg (-A))
    {candidates : List (List (AssignedNonZeroPoint n))} {Ps : List (Pt b)} (hlen : scalars.length = Ps.length)
    (hne : Ps ≠ []) (hcl : candidates.length = (chunks size Ps).length)
    (hcs : ∀ j cl Qs, candidates[j]? = some cl → (chunks size Ps)[j]? = some Qs → cl.length = 2 ^ Qs.length ∧
      HCands info cl (fun i => signed L j + subsetSum Qs i))
    (hpos : GeneralPosition W size ks Ps A L)
    (hok : H → OkN h line_neg ∧ OkN h acc ∧ OkN h acc_neg ∧ (∀ s ∈ scalars, OkS s) ∧
      ∀ (j : ℕ) cl, candidates[j]? = some cl → OkCands h (K j) cl) :
    C c h H (msm_after info ops pick scalars size line_neg acc acc_neg candidates) (fun res => ∃ p, res = .ok p ∧
      HPRep info p (prefixSum W W ks Ps)) (fun r => ∀ p, r = .ok p → OkP h p) := by
  unfold msm_after
  refine C.bind (C.mapM₂ hx fun hH s k hsl hsk => hs.decompose _ s k hsk fun h' => (hok (hH h')).2.2.2.1 s hsl)
    fun bits hbits => ?_
  have hbits : ScalarBits W bits ks := hbits
  have hlb : bits.length = Ps.length := by rw [hbits.length_eq, ← hx.length_eq, hlen]
  have hWb : ∀ bs ∈ bits, bs.length = W ∧ ∀ win ∈ bs, win.length = 1 ∧ ∀ x ∈ win, x.val = 0 ∨ x.val = 1 := by
    intro bs hbs
    obtain ⟨i, hi, rfl⟩ := List.getElem_of_mem hbs
    obtain ⟨h1, h2⟩ := hbits.get hi (by rw [← hbits.length_eq]; exact hi)
    exact ⟨h2, fun win hw => ⟨h1.len win hw, h1.bit win hw⟩⟩
  have h0 : 0 < bits.length := by rw [hlb]; exact List.length_pos_iff.2 hne
  have hW0 : bits[0].length = W := (hWb _ (List.getElem_mem h0)).1
  refine C.bind_index (List.getElem?_eq_getElem h0) ?_
  rw [hW0]
  have hgl : List.Forall₂ (fun (grp : List (List (List (AssignedCondition n)))) (Ps : List (Pt b)) =>
      grp.length = Ps.length) (chunks size bits) (chunks size Ps) := by
    have : List.Forall₂ (fun (_ : List (List (AssignedCondition n))) (_ : Pt b) => True) bits Ps := by
      rw [List.forall₂_iff_get]
      exact ⟨hlb, fun _ _ _ => trivial⟩
    exact (chunks_forall₂ hk this).imp fun _ _ h => h.length_eq
  refine C.tryB (C_windows_parallel (P := fun wi p => HNRep info p (-A + gsum AssignedValue.val wi L 0 (chunks size bits)
    (chunks size Ps))) (Q := fun _ p => OkN h p) hs.pos (fun i => (prog_window_acc (hp _) i _ _ _).growing)
    (fun i => neverErr_window_acc i _ _ _) (fun wi hwi => ?_) fun i _ => ?_) fun l hl => ?_
  · refine C_window_acc hi hd hpick wi hgl 0 acc_neg (-A) ?_ ?_ ?_ ?_ hA'
      (windowPos_of hk hwi hbits hlb fun g hg => hpos.windows wi g hwi hg) ?_
    · intro grp hg bs hbs
      obtain ⟨h1, h2⟩ := hWb bs ((chunks_mem hk bits hg).2 bs hbs)
      exact ⟨by omega, h2⟩
    · intro grp hg
      refine ⟨?_, (chunks_mem hk bits hg).1.trans hkB⟩
      obtain ⟨i, hi⟩ := List.mem_iff_getElem?.1 hg
      have e := chunks_getElem?_some hk hi
      have h1 := (List.getElem?_eq_some_iff.1 hi).1
      rw [Verif.chunks_length hk] at h1
      have h2 : (i + 1) * size ≤ (bits.length + size - 1) / size * size := Nat.mul_le_mul_right _ h1
      have h3 := Nat.div_mul_le_self (bits.length + size - 1) size
      rw [Nat.add_mul, Nat.one_mul] at h2
      rw [e]
      intro e0
      have h4 := congrArg List.length e0
      simp only [groupOf, List.length_take, List.length_drop, List.length_nil] at h4
      omega
    · rw [hcl, zero_add, Verif.chunks_length hk, Verif.chunks_length hk, hlb]
    · intro j cl Qs e1 e2
      rw [zero_add] at e1 ⊢
      exact hcs j cl Qs e1 e2
    · intro hH
      refine ⟨fun grp hg bs hbs => hH.2 bs ((chunks_mem hk bits hg).2 bs hbs), fun j cl e => ?_, (hok hH.1).2.2.1⟩
      rw [zero_add] at e ⊢
      exact (hok hH.1).2.2.2.2 j cl e
  · exact (rel_windows info (hpr _) 0 i _ 0 (sh_false_refl _)).mono fun _ _ _ => trivial
  · obtain ⟨hl1, hl2⟩ := hl
    rw [← vsum_eq le_rfl Ps hbits]
    have hodd : (if decide ((chunks size bits).length % 2 = 1) = true then L else 0) = lineRest L (groupCount size Ps.length) := by
      rw [Verif.chunks_length hk, hlb]
      simp only [decide_eq_true_eq]
      rfl
    refine C_msm_finish hi hd hb hL hA hA' (V := fun t => vsum AssignedValue.val t bits Ps)
      (X := fun t => wsum AssignedValue.val t bits Ps) (vsum_zero _ _ _) (fun t ht =>
        vsum_succ AssignedValue.val bits Ps fun bs hbs => by rw [(hWb bs hbs).1]; exact ht) _ (fun t ht => ?_) hl1 (fun j p hp => ?_)
      fun hH => ⟨(hok hH.1.1).1, (hok hH.1.1).2.1, (hok hH.1.1).2.2.1, hH.2⟩
    · rw [vsum_eq ht.le Ps hbits, vsum_eq ht Ps hbits, wsum_eq ht Ps hbits]
      have hline : decide ((chunks size bits).length % 2 = 1) = true → groupCount size Ps.length % 2 = 1 := fun h => by
        rw [Verif.chunks_length hk, hlb] at h
        unfold groupCount
        simpa using h
      refine ⟨hpos.double t ht, ?_, ?_, fun ho => ?_, fun ho => ?_⟩
      · rw [hodd]; exact (hpos.add t ht).1
      · rw [hodd]; exact (hpos.add t ht).2
      · have := (hpos.line (hline ho) t ht).2
        rwa [neg_neg] at this
      · exact (hpos.line (hline ho) t ht).1
    · have := hl2 j p hp
      rw [gsum_chunks AssignedValue.val j L hk _ bits Ps 0 rfl hlb, altSum_eq] at this
      rw [add_assoc]
      simpa [signed] using this

omit hb hs in
/-- What happens before the scalars are decomposed; the rest is a hypothesis. -/
theorem C_msm_prepare (hbest : 1 ≤ best) (hbest' : best ≤ 31)
    (hbef : ∀ H : Prop, C c h H before (fun _ => True) (fun _ => True))
    {K : ℕ → ℕ → AssignedNonZeroPoint n → Prop}
    (hK : ∀ g, CacheComplete c info h b (K g) (cache g)) {bb : ℕ} (hbb : bb < wm) (hbe : (bb : ZMod wm) = b)
    {points : List (AssignedNonZeroPoint n)} {scalars : List σ} {Ps : List (Pt b)}
    (hP : List.Forall₂ (HNRep info) points Ps) 
    (hne : points ≠ []) {ax ay lx ly : ℕ} {A L : Pt b} (hax : ax < wm) (hay : ay < wm) (hlx : lx < wm) (hly : ly < wm)
    (hA : HasCoords A (ax : ZMod wm) (ay : ZMod wm)) (hL : HasCoords L (lx : ZMod wm) (ly : ZMod wm))
    (hpos : ∀ g (before : List (Pt b)) (P : Pt b) (after S : List (Pt b)),
      groupOf (groupSize best Ps.length) g Ps = before ++ P :: after → S.Sublist after →
      Addable (lineSign L g + S.sum) P)
    (hok : H → ∀ p ∈ points, OkN h p) {P Q : Except UnsafeError (AssignedPoint n) → Prop}
    (hafter : ∀ (H' : Prop) line_neg acc acc_neg cs, groupSize best Ps.length ≠ 0 → groupSize best Ps.length ≤ best →
      HNRep info line_neg (-L) → HNRep info acc A → HNRep info acc_neg (-A) →
      cs.length = (chunks (groupSize best Ps.length) Ps).length →
      (∀ j cl Qs, cs[j]? = some cl → (chunks (groupSize best Ps.length) Ps)[j]? = some Qs → cl.length = 2 ^ Qs.length ∧
        HCands info cl (fun i => signed L j + subsetSum Qs i)) →
      (H' → H ∧ OkN h line_neg ∧ OkN h acc ∧ OkN h acc_neg ∧ ∀ (j : ℕ) cl, cs[j]? = some cl → OkCands h (K j) cl) →
      C c h H' (msm_after info ops pick scalars (groupSize best Ps.length) line_neg acc acc_neg cs) P Q) :
    C c h H (msm_batch info bb ops best before cache pick points scalars (some (ax, ay)) (some (lx, ly)))
      P Q := by
  rw [msm_batch_eq]
  refine C.bind (C.mapM₂ (P := fun P p => HRed info p P) (Q := OkN h) hP fun hH p P hpl hpP => C_reduce_nz hi hpP fun h' =>
    hok (hH h') p hpl) fun points' hP' => ?_
  have hlen' : points'.length = points.length := by rw [hP'.length_eq, ← hP.length_eq]
  have hP' : List.Forall₂ (HNRep info) points' Ps := hP'.imp fun _ _ h => h.1
  have hlP : points.length = Ps.length := hP.length_eq
  have hpos1 := List.length_pos_iff.2 hne
  refine C.bind (C_assign_non_zero_point hi hd hbb hbe hax hay hA) fun acc hacc =>
    C.bind (C_assign_non_zero_point hi hd hbb hbe hlx hly hL) fun line hline =>
    C.bind (C_neg_nz hi hacc.1 fun hH => hH.1.2) fun acc_neg hAn =>
    C.bind (C_reduce_nz hi hAn fun hH => hH.2) fun acc_neg hAn =>
    C.bind (C_neg_nz hi hline.1 fun hH => hH.1.1.2) fun line_neg hLn =>
    C.bind (C_reduce_nz hi hLn fun hH => hH.2) fun line_neg hLn => ?_
  have hng : (points'.length + best - 1) / best ≠ 0 := by
    rw [hlen', Nat.div_ne_zero_iff]
    omega
  obtain ⟨gs1, gs2⟩ := group_size_bounds hbest hng
  unfold div_rem
  rw [if_neg hng, pure_bind]
  have hgs : (points'.length + (points'.length + best - 1) / best - 1) / ((points'.length + best - 1) / best) =
      groupSize best Ps.length := by
    unfold groupSize groupCount
    rw [hlen', hlP]
  rw [hgs] at gs1 gs2 ⊢
  have hgs0 : groupSize best Ps.length ≠ 0 := by omega
  refine C.bind (hbef _) fun _ _ => C.tryB (C_group_candidates hi hd hK hline ⟨hLn.1, hLn.2⟩ (chunks_forall₂ hgs0 hP') 0
    (fun x hx => ((chunks_mem hgs0 _ hx).1.trans gs2).trans hbest') (fun j Qs e => ?_) fun hH =>
      ⟨hH.1.1.1.1.1.2, hH.1.2, fun x hx p hp => ?_⟩) fun cs hcs => ?_
  · rw [zero_add]
    have e' := chunks_getElem?_some hgs0 e
    rw [e']
    refine candPos_of ?_ fun bf P af S e1 e2 => hpos j bf P af S e1 e2
    rw [← e']
    exact ((chunks_mem hgs0 _ (List.mem_of_getElem? e)).1.trans gs2).trans hbest'
  · exact hH.1.1.1.1.1.1.1.2 p ((chunks_mem hgs0 _ hx).2 p hp)
  · have hcl := hcs.1
    refine hafter _ line_neg acc acc_neg cs hgs0 gs2 hLn.1 hacc.1 hAn.1 hcl (fun j cl Qs e1 e2 => ?_)
      fun hH => ⟨hH.1.1.1.1.1.1.1.1.1, hH.1.1.2, hH.1.1.1.1.1.1.1.2, hH.1.1.1.1.2, fun j cl e => ?_⟩
    · have := hcs.2 j cl Qs e1 e2
      rwa [zero_add] at this
    · have := hH.2 j cl e
      rwa [zero_add] at this

theorem C_msm_batch (hbest : 1 ≤ best) (hbest' : best ≤ 31)
    (hbef : ∀ H : Prop, C c h H before (fun _ => True) (fun _ => True))
    {K : ℕ → ℕ → AssignedNonZeroPoint n → Prop}
    (hK : ∀ g, CacheComplete c info h b (K g) (cache g)) (hp : ∀ cs g l, Prog (pick cs g l))
    (hpr : ∀ cs g b b', sh False b b' → Runs2 False (pick cs g b) (pick cs g b') (sh False))
    (hpick : PickComplete c info h b best K pick) {bb : ℕ} (hbb : bb < wm) (hbe : (bb : ZMod wm) = b)
    {points : List (AssignedNonZeroPoint n)} {scalars : List σ} {Ps : List (Pt b)} {ks : List ℕ}
    (hP : List.Forall₂ (HNRep info) points Ps) (hx : List.Forall₂ R scalars ks) (hlen : points.length = scalars.length)
    (hne : points ≠ []) {ax ay lx ly : ℕ} {A L : Pt b} (hax : ax < wm) (hay : ay < wm) (hlx : lx < wm) (hly : ly < wm)
    (hA : HasCoords A (ax : ZMod wm) (ay : ZMod wm)) (hL : HasCoords L (lx : ZMod wm) (ly : ZMod wm))
    (hpos : GeneralPosition W (groupSize best Ps.length) ks Ps A L)
    (hok : H → (∀ p ∈ points, OkN h p) ∧ ∀ s ∈ scalars, OkS s) :
    C c h H (msm_batch info bb ops best before cache pick points scalars (some (ax, ay)) (some (lx, ly)))
      (fun res => ∃ p, res = .ok p ∧ HPRep info p (prefixSum W W ks Ps)) (fun r => ∀ p, r = .ok p → OkP h p) :=
  C_msm_prepare hi hd hbest hbest' hbef hK hbb hbe hP hne hax hay hlx hly hA hL hpos.candidates (fun hH => (hok hH).1)
    fun H' line_neg acc acc_neg cs hgs0 gs2 hLn hacc hAn hcl hcs hok' =>
    C_msm_after hi hd hb hs hp hpr hpick hx hgs0 gs2 hLn hacc hAn (by rw [← hlen]; exact hP.length_eq)
      (fun e => hne (List.length_eq_zero_iff.1 (by rw [hP.length_eq, e]; rfl))) hcl hcs hpos
      fun hH => ⟨(hok' hH).2.1, (hok' hH).2.2.1, (hok' hH).2.2.2.1, (hok (hok' hH).1).2, (hok' hH).2.2.2.2⟩

/-! ### The two batch routines -/

theorem C_msm_batch_without_select {bb : ℕ} (hbb : bb < wm) (hbe : (bb : ZMod wm) = b)
    {points : List (AssignedNonZeroPoint n)} {scalars : List σ} {Ps : List (Pt b)} {ks : List ℕ}
    (hP : List.Forall₂ (HNRep info) points Ps) (hx : List.Forall₂ R scalars ks) (hlen : points.length = scalars.length)
    (hne : points ≠ []) {ax ay lx ly : ℕ} {A L : Pt b} (hax : ax < wm) (hay : ay < wm) (hlx : lx < wm) (hly : ly < wm)
    (hA : HasCoords A (ax : ZMod wm) (ay : ZMod wm)) (hL : HasCoords L (lx : ZMod wm) (ly : ZMod wm))
    (hpos : GeneralPosition W (groupSize 2 Ps.length) ks Ps A L)
    (hok : H → (∀ p ∈ points, OkN h p) ∧ ∀ s ∈ scalars, OkS s) :
    C c h H (msm_batch_without_select info bb ops points scalars (some (ax, ay)) (some (lx, ly)))
      (fun res => ∃ p, res = .ok p ∧ HPRep info p (prefixSum W W ks Ps)) (fun r => ∀ p, r = .ok p → OkP h p) :=
  C_msm_batch hi hd hb hs (by norm_num) (by norm_num) (fun _ => C.pure trivial fun _ => trivial)
    (K := fun _ _ _ => True) (fun _ _ _ _ _ _ _ => C.pure trivial fun _ => trivial) prog_pick_bisec
    (fun cs g _ _ hb => rel_pick_bisec info (sh_false_lists cs cs rfl) g hb) (pickComplete_bisec hi 2) hbb hbe hP hx hlen hne
    hax hay hlx hly hA hL hpos hok

theorem C_msm_batch_with_select (hn : 256 ≤ n) {pre : ℕ} (hpre : pre < MSM_LIMIT) {bb : ℕ} (hbb : bb < wm)
    (hbe : (bb : ZMod wm) = b) {points : List (AssignedNonZeroPoint n)} {scalars : List σ} {Ps : List (Pt b)} {ks : List ℕ}
    (hlim : points.length ≤ MSM_PREFIX_OFFSET)
    (hP : List.Forall₂ (HNRep info) points Ps) (hx : List.Forall₂ R scalars ks) (hlen : points.length = scalars.length)
    (hne : points ≠ []) {ax ay lx ly : ℕ} {A L : Pt b} (hax : ax < wm) (hay : ay < wm) (hlx : lx < wm) (hly : ly < wm)
    (hA : HasCoords A (ax : ZMod wm) (ay : ZMod wm)) (hL : HasCoords L (lx : ZMod wm) (ly : ZMod wm))
    (hpos : GeneralPosition W (groupSize 5 Ps.length) ks Ps A L)
    (hok : H → (∀ p ∈ points, OkN h p) ∧ ∀ s ∈ scalars, OkS s) :
    C c h H (msm_batch_with_select info bb ops pre points scalars (some (ax, ay)) (some (lx, ly)))
      (fun res => ∃ p, res = .ok p ∧ HPRep info p (prefixSum W W ks Ps)) (fun r => ∀ p, r = .ok p → OkP h p) := by
  unfold msm_batch_with_select
  refine C.bind_rassert (by simpa using hlim) ?_
  refine C_msm_batch hi hd hb hs (by norm_num) (by norm_num) (fun _ => ?_)
    (K := fun g i p => CachedPoint c info h (g + pre) i p) (fun g _ p i P hp hok => ?_) (prog_pick_select _)
    (fun cs g _ _ hb => rel_pick_select info pre cs cs g hb) (pickComplete_select pre (by norm_num) hn) hbb hbe hP hx hlen hne
    hax hay hlx hly hA hL hpos hok
  · rw [decide_eq_true hpre]
    exact C.pure trivial fun _ => trivial
  · rw [Nat.add_comm pre g]
    exact C_assign_cache_point _ _ hp.1 hp.2.1 hp.2.2 hok

/-! ### Normalisation -/

open Classical in
omit hd hb in
theorem C_normalize {s_zero : σ} (hz : R s_zero 0) {q : AssignedNonZeroPoint n} {Gn : Pt b} (hq : HNRep info q Gn)
    {points : List (AssignedPoint n)} {Ps : List (Pt b)} (hP : List.Forall₂ (HPRep info) points Ps) :
    ∀ (scalars : List σ) (ks : List ℕ) {H : Prop}, List.Forall₂ R scalars ks → points.length = scalars.length →
    (H → OkS s_zero ∧ OkN h q ∧ (∀ p ∈ points, OkP h p) ∧ ∀ s ∈ scalars, OkS s) →
    C c h H (normalize info ops s_zero q (points.zip scalars)) (fun l =>
      List.Forall₂ (HNRep info) (l.map Prod.fst) (cleanPoints Gn Ps) ∧
      List.Forall₂ R (l.map Prod.snd) (cleanScalars Ps ks))
      (fun l => (∀ p ∈ l.map Prod.fst, OkN h p) ∧ ∀ s ∈ l.map Prod.snd, OkS s) := by
  induction hP with
  | nil =>
    intro scalars ks H hx hl hok
    cases hx with
    | nil => exact C.pure ⟨.nil, .nil⟩ fun _ => ⟨by simp, by simp⟩
    | cons => simp at hl
  | @cons p P points Ps hp1 _ ih =>
    intro scalars ks H hx hl hok
    cases hx with
    | nil => simp at hl
    | @cons s k scalars ks hsk hx =>
      rw [List.zip_cons_cons]
      unfold normalize
      have hzP : (p.z.val = 1 ∨ p.z.val = 0) ∧ (p.z.val = 1 ↔ P = 0) := by
        obtain ⟨⟨x, y, -, -, hP⟩, -⟩ := hp1
        rcases hP with ⟨h1, h2⟩ | ⟨h1, h2⟩
        · exact ⟨.inl h1, by simp [h1, h2]⟩
        · refine ⟨.inr h1, ?_⟩
          rw [h1]
          exact ⟨fun e => absurd e zero_ne_one, fun e => absurd e h2.ne_zero⟩
      refine C.bind (hs.bisec _ p.z s_zero s 0 k hzP.1 hz hsk fun hH => ⟨((hok hH).2.2.1 p (by simp)).z, (hok hH).1,
          (hok hH).2.2.2 s (by simp)⟩) fun s' hs' =>
        C.bind (C_bisec_to_nz hi hp1 hq fun hH => ⟨(hok hH.1).2.2.1 p (by simp), (hok hH.1).2.1⟩) fun p' hp' =>
        C.bind (ih scalars ks hx (by simpa using hl) fun hH => ⟨(hok hH.1.1).1, (hok hH.1.1).2.1,
          fun p hp => (hok hH.1.1).2.2.1 p (by simp [hp]), fun s hs => (hok hH.1.1).2.2.2 s (by simp [hs])⟩) fun l hl' =>
        C.pure ⟨.cons ?_ hl'.1, .cons ?_ hl'.2⟩ fun hH => ⟨?_, ?_⟩
      · simp only [hzP.2] at hp'
        convert hp'
      · simp only [hzP.2] at hs'
        convert hs'
      · intro p0 hp0
        rcases List.mem_cons.1 hp0 with rfl | hp0
        exacts [hH.1.2, hH.2.1 p0 hp0]
      · intro s0 hs0
        rcases List.mem_cons.1 hs0 with rfl | hs0
        exacts [hH.1.1.2, hH.2.2 s0 hs0]

omit hi hd hb hs [Fact n.Prime] in
theorem prefixSum_clean {Gn : Pt b} : ∀ (Ps : List (Pt b)) (ks : List ℕ),
    prefixSum W W (cleanScalars Ps ks) (cleanPoints Gn Ps) = (List.zipWith (fun k (P : Pt b) => k • P) ks Ps).sum
  | [], ks => by cases ks <;> simp [prefixSum, cleanScalars, cleanPoints]
  | P :: Ps, [] => by simp [prefixSum, cleanScalars, cleanPoints]
  | P :: Ps, k :: ks => by
    have ih := prefixSum_clean (Gn := Gn) Ps ks
    unfold prefixSum cleanScalars cleanPoints at ih ⊢
    simp only [List.zipWith_cons_cons, List.map_cons, List.sum_cons]
    rw [ih, Nat.sub_self, pow_zero, Nat.div_one]
    congr 1
    split
    · rename_i e
      rw [e, zero_nsmul]
      exact (nsmul_zero k).symm
    · rfl

/-- The preferred size of the groups. -/
def bestSize (msm_prefix : Option ℕ) : ℕ := if msm_prefix.isSome then 5 else 2

theorem C_msm {bb : ℕ} (hbb : bb < wm) (hbe : (bb : ZMod wm) = b)
    {points : List (AssignedPoint n)} {scalars : List σ} {Ps : List (Pt b)} {ks : List ℕ}
    (hP : List.Forall₂ (HPRep info) points Ps) (hx : List.Forall₂ R scalars ks) (hlen : points.length = scalars.length)
    (hne : points ≠ []) {gx gy ax ay lx ly : ℕ} {Gn A L : Pt b} (hgx : gx < wm) (hgy : gy < wm) (hax : ax < wm)
    (hay : ay < wm) (hlx : lx < wm) (hly : ly < wm) (hG : HasCoords Gn (gx : ZMod wm) (gy : ZMod wm))
    (hA : HasCoords A (ax : ZMod wm) (ay : ZMod wm)) (hL : HasCoords L (lx : ZMod wm) (ly : ZMod wm))
    {msm_prefix : Option ℕ} (hpre : ∀ pre, msm_prefix = some pre → 256 ≤ n ∧ pre < MSM_LIMIT ∧
      points.length ≤ MSM_PREFIX_OFFSET)
    (hpos : GeneralPosition W (groupSize (bestSize msm_prefix) Ps.length) (cleanScalars Ps ks) (cleanPoints Gn Ps) A L)
    (hok : H → (∀ p ∈ points, OkP h p) ∧ ∀ s ∈ scalars, OkS s) :
    C c h H (msm info bb ops (gx, gy) (some (ax, ay)) (some (lx, ly)) msm_prefix points scalars)
      (fun r => HPRep info r.1 (List.zipWith (fun k (P : Pt b) => k • P) ks Ps).sum ∧
        r.2 = msm_prefix.map (· + MSM_PREFIX_OFFSET)) (fun r => OkP h r.1) := by
  unfold msm
  refine C.bind (P := fun r => ∃ p, r = (.ok p, msm_prefix.map (· + MSM_PREFIX_OFFSET)) ∧
    HPRep info p (List.zipWith (fun k (P : Pt b) => k • P) ks Ps).sum) (Q := fun r => ∀ p, r.1 = .ok p → OkP h p) ?_ ?_
  · unfold msm_unsafe
    refine C.bind (C_assign_non_zero_point hi hd hbb hbe hgx hgy hG) fun q hq => C.bind (hs.zero _) fun s0 h0 =>
      C.bind (C_normalize hi hs h0 hq.1 hP scalars ks hx hlen fun hH => ⟨hH.2, hH.1.2, (hok hH.1.1).1, (hok hH.1.1).2⟩)
      fun l ⟨hl1, hl2⟩ => ?_
    rw [← prefixSum_clean (W := W) (Gn := Gn)]
    have e1 : (cleanPoints Gn Ps).length = Ps.length := by simp [cleanPoints]
    have e2 : (l.map Prod.fst).length = points.length := by rw [hl1.length_eq, e1, hP.length_eq]
    have hne' : l.map Prod.fst ≠ [] := by
      intro e
      rw [e] at e2
      exact hne (List.length_eq_zero_iff.1 e2.symm)
    rw [← e1] at hpos
    cases hm : msm_prefix with
    | some pre =>
      subst hm
      obtain ⟨h1, h2, h3⟩ := hpre pre rfl
      refine C.bind (C_msm_batch_with_select hi hd hb hs h1 h2 hbb hbe (by rw [e2]; exact h3) hl1 hl2 (by simp) hne'
        hax hay hlx hly hA hL hpos fun hH => hH.2) fun r ⟨p, e, hp⟩ => ?_
      subst e
      exact C.pure ⟨p, rfl, hp⟩ fun hH p' e => hH.2 p' e
    | none =>
      subst hm
      refine C.bind (C_msm_batch_without_select hi hd hb hs hbb hbe hl1 hl2 (by simp) hne'
        hax hay hlx hly hA hL hpos fun hH => hH.2) fun r ⟨p, e, hp⟩ => ?_
      subst e
      exact C.pure ⟨p, rfl, hp⟩ fun hH p' e => hH.2 p' e
  · rintro r ⟨p, rfl, hp⟩
    exact C.pure ⟨hp, rfl⟩ fun hH => hH.2 p rfl

end
end Verif
