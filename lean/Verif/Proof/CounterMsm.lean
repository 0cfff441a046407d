import Verif.Proof.CounterPar
import Verif.Proof.MsmTop

/-!
# Multi-scalar multiplication keeps counters small
-/

set_option linter.unusedVariables false

namespace Verif
variable {n : ℕ} {σ : Type} {r : Tag n}

theorem cnt_fill_candidates (info : RangeInfo n) [Six info] {cache : AssignedNonZeroPoint n → ℕ → M n Unit}
    (hc : ∀ r p i, Small r p → Safe r (cache p i) Small)
    {chunk : List (AssignedNonZeroPoint n)} (h_chunk : Small r chunk) (is : List ℕ)
    {cl : List (AssignedNonZeroPoint n)} (h_cl : Small r cl) :
    Safe r (fill_candidates info cache chunk cl is) Small := by
  induction is generalizing cl r with
  | nil => exact .ret (small_ok h_cl)
  | cons i is ih =>
    unfold fill_candidates
    refine (cnt_index h_cl _).bind fun a r1 h1 ha => (cnt_index (h_chunk.mono h1) _).bind fun q r2 h2 hq => ?_
    refine cnt_tryB (fun _ _ => small_error) (cnt_ecc_add_unsafe info (ha.mono h2) hq) fun p r3 h3 hp => ?_
    refine (cnt_ecc_reduce_non_zero info hp).bind fun p r4 h4 hp => (hc _ _ _ hp).bind fun _ r5 h5 _ => ?_
    have h : Later r r5 := (((h1.trans h2).trans h3).trans h4).trans h5
    exact ih (h_chunk.mono h) (small_append (h_cl.mono h) (small_cons (hp.mono h5) small_nil))

theorem cnt_group_candidates (info : RangeInfo n) [Six info] {cache : ℕ → AssignedNonZeroPoint n → ℕ → M n Unit}
    (hc : ∀ r g p i, Small r p → Safe r (cache g p i) Small) {line : AssignedNonZeroPoint n} (h_line : Small r line)
    {line_neg : AssignedNonZeroPoint n} (h_neg : Small r line_neg) (g : ℕ) {l : List (List (AssignedNonZeroPoint n))}
    (h_l : Small r l) : Safe r (group_candidates info cache line line_neg g l) Small := by
  induction l generalizing g r with
  | nil => exact .ret (small_ok small_nil)
  | cons chunk l ih =>
    have h1 := (small_cons_iff.1 h_l).1
    have h2 := (small_cons_iff.1 h_l).2
    unfold group_candidates
    dsimp only
    have hi : Small r (if g % 2 = 0 then line else line_neg) := small_ite h_line h_neg
    refine (hc _ _ _ _ hi).bind fun _ r1 l1 _ => ?_
    refine cnt_tryB (fun _ _ => small_error) (cnt_fill_candidates info (fun r => hc r g) (h1.mono l1) _
      (small_cons (hi.mono l1) small_nil)) fun cl r2 l2 hcl => ?_
    have l3 := l1.trans l2
    exact cnt_tryB (fun _ _ => small_error) (ih (h_line.mono l3) (h_neg.mono l3) _ (h2.mono l3)) fun cs r4 l4 hcs =>
      .ret (small_ok (small_cons (hcl.mono l4) hcs))

theorem cnt_group_bits (wi : ℕ) {group : List (List (List (AssignedCondition n)))} (h : Small r group) :
    Safe r (group_bits wi group) Small := by
  unfold group_bits
  exact cnt_mapM h fun _ _ _ hb => (cnt_index hb _).bind fun _ _ _ hw => cnt_index hw _

theorem cnt_window_acc (info : RangeInfo n) [Six info] {pick : ℕ → List (AssignedCondition n) → M n (AssignedNonZeroPoint n)}
    (hp : ∀ r', Later r r' → ∀ g b, Small r' b → Safe r' (pick g b) Small) (wi g : ℕ)
    {l : List (List (List (List (AssignedCondition n))))} (h_l : Small r l) {acc : AssignedNonZeroPoint n}
    (h_acc : Small r acc) : Safe r (window_acc info pick wi g l acc) Small := by
  induction l generalizing g acc r with
  | nil => exact .ret (small_ok h_acc)
  | cons a l ih =>
    have h1 := (small_cons_iff.1 h_l).1
    have h2 := (small_cons_iff.1 h_l).2
    unfold window_acc
    refine (cnt_group_bits wi h1).bind fun _ r1 l1 hb => (hp _ l1 _ _ hb).bind fun _ r2 l2 hc => ?_
    refine cnt_tryB (fun _ _ => small_error) (cnt_ecc_add_unsafe info hc (h_acc.mono (l1.trans l2))) fun _ r3 l3 ha => ?_
    have l4 := (l1.trans l2).trans l3
    exact ih (fun r' h => hp r' (l4.trans h)) _ (h2.mono l4) ha

theorem cnt_pick_bisec (info : RangeInfo n) [Six info] {cand : List (List (AssignedNonZeroPoint n))} (h_c : Small r cand)
    (g : ℕ) {bits : List (AssignedCondition n)} (h_bits : Small r bits) : Safe r (pick_bisec info cand g bits) Small := by
  unfold pick_bisec
  exact (cnt_index h_c g).bind fun _ _ h hcl => cnt_bisec_candidate_non_zero info hcl (h_bits.mono h)

theorem cnt_pick_select (info : RangeInfo n) [Six info] (group_prefix : ℕ) (cand : List (List (AssignedNonZeroPoint n)))
    (g : ℕ) {bits : List (AssignedCondition n)} (h_bits : Small r bits) :
    Safe r (pick_select info group_prefix cand g bits) Small := by
  unfold pick_select
  refine (cnt_index_any cand g).bind fun cl _ h _ => ?_
  exact (cnt_pick_candidate_non_zero cl (h_bits.mono h)).bind fun _ _ _ hi =>
    cnt_assign_selected_point_non_zero info _ hi _

theorem cnt_windows_acc (info : RangeInfo n) [Six info] (odd : Bool) {line_neg : AssignedNonZeroPoint n}
    (h_neg : Small r line_neg) {l : List (AssignedNonZeroPoint n)} (h_l : Small r l) {acc : AssignedNonZeroPoint n}
    (h_acc : Small r acc) : Safe r (windows_acc info odd line_neg l acc) Small := by
  induction l generalizing acc r with
  | nil => exact .ret (small_ok h_acc)
  | cons a l ih =>
    have h1 := (small_cons_iff.1 h_l).1
    have h2 := (small_cons_iff.1 h_l).2
    unfold windows_acc
    refine cnt_tryB (fun _ _ => small_error) (cnt_ecc_double_unsafe info h_acc) fun _ _ l1 h3 => ?_
    refine cnt_tryB (fun _ _ => small_error) (cnt_ecc_add_unsafe info (h1.mono l1) h3) fun _ _ l2 h4 => ?_
    have l3 := l1.trans l2
    refine cnt_tryB (fun _ _ => small_error) ?_ fun _ _ l4 h5 => ih (h_neg.mono (l3.trans l4)) (h2.mono (l3.trans l4)) h5
    exact Safe.ite (cnt_ecc_add_unsafe info h4 (h_neg.mono l3)) (.ret (small_ok h4))

/-- The operations of a scalar context keep counters small. -/
structure CntOps [HasCounters n σ] (ops : ScalarOps n σ) : Prop where
  decompose : ∀ r s, Small r s → Safe r (ops.decompose s) Small
  bisec : ∀ r c a b, Small r c → Small r a → Small r b → Safe r (ops.bisec c a b) Small
  zero : ∀ r, Safe r ops.zero Small

theorem cntOps_native (num_bits : ℕ) : CntOps (nativeScalar (n := n) num_bits) where
  decompose _ _ h := cnt_decompose_scalar_native num_bits 1 h
  bisec _ _ _ _ hc ha hb := cnt_bisec hc ha hb
  zero _ := cnt_assign_constant 0

theorem cntOps_general (sinfo : RangeInfo n) [Six sinfo] : CntOps (generalScalar sinfo) where
  decompose _ _ h := cnt_decompose_scalar_general sinfo 1 h
  bisec _ _ _ _ hc ha hb := cnt_bisec_int sinfo hc ha hb
  zero _ := cnt_assign_int_constant sinfo 0

variable [HasCounters n σ]

theorem cnt_msm_batch (info : RangeInfo n) [Six info] (b : ℕ) {ops : ScalarOps n σ} (ho : CntOps ops) {best : ℕ} (hbest : 1 ≤ best)
    {before : M n Unit} (hb : ∀ r, Safe r before Small) {cache : ℕ → AssignedNonZeroPoint n → ℕ → M n Unit}
    (hc : ∀ r g p i, Small r p → Safe r (cache g p i) Small)
    {pick : List (List (AssignedNonZeroPoint n)) → ℕ → List (AssignedCondition n) → M n (AssignedNonZeroPoint n)}
    (hp : ∀ r c g b, Small r c → Small r b → Safe r (pick c g b) Small) (hpp : ∀ c g b, Prog (pick c g b))
    {points : List (AssignedNonZeroPoint n)} (h_points : Small r points) {scalars : List σ}
    (h_scalars : Small r scalars) (acc_c line_c : Option (ℕ × ℕ)) :
    Safe r (msm_batch info b ops best before cache pick points scalars acc_c line_c) Small := by
  unfold msm_batch
  refine Safe.bind (cnt_mapM h_points fun _ _ _ h => cnt_ecc_reduce_non_zero info h) fun ps _ l1 hps => ?_
  refine Safe.bind (cnt_assign_non_zero_point info b _) fun acc _ l2 hacc => ?_
  refine Safe.bind (cnt_assign_non_zero_point info b _) fun line _ l3 hline => ?_
  refine Safe.bind (cnt_ecc_neg_non_zero info (hacc.mono l3)) fun _ _ l4 hn => ?_
  refine Safe.bind (cnt_ecc_reduce_non_zero info hn) fun accn _ l5 haccn => ?_
  refine Safe.bind (cnt_ecc_neg_non_zero info (hline.mono (l4.trans l5))) fun _ _ l6 hn => ?_
  refine Safe.bind (cnt_ecc_reduce_non_zero info hn) fun linen _ l7 hlinen => ?_
  dsimp only
  refine Safe.bindR (cnt_div_rem _ _) ?_
  rintro ⟨gs, x⟩ _ hgs l8 -
  have hk : gs ≠ 0 := by
    obtain ⟨s, t, hgs⟩ := hgs
    unfold div_rem at hgs
    split at hgs
    · cases hgs
    · rename_i h
      cases hgs
      exact Nat.one_le_iff_ne_zero.1 (group_size_bounds hbest h).1
  dsimp only
  refine Safe.bind (hb _) fun _ r9 l9 _ => ?_
  have hps := hps.mono (((((((l2.trans l3).trans l4).trans l5).trans l6).trans l7).trans l8).trans l9)
  have hsc := h_scalars.mono ((((((((l1.trans l2).trans l3).trans l4).trans l5).trans l6).trans l7).trans l8).trans l9)
  have hacc := hacc.mono ((((((l3.trans l4).trans l5).trans l6).trans l7).trans l8).trans l9)
  have haccn := haccn.mono (((l6.trans l7).trans l8).trans l9)
  have hline := hline.mono (((((l4.trans l5).trans l6).trans l7).trans l8).trans l9)
  have hlinen := hlinen.mono (l8.trans l9)
  clear l1 l2 l3 l4 l5 l6 l7 l8 l9 h_points h_scalars
  refine cnt_tryB (fun _ _ => small_error) (cnt_group_candidates info hc hline hlinen 0 (small_chunks gs hps))
    fun cand _ l1 hcand => ?_
  refine Safe.bind (cnt_mapM (hsc.mono l1) fun _ _ _ h => ho.decompose _ _ h) fun bits _ l2 hbits => ?_
  refine Safe.bindR (cnt_index hbits 0) fun bits0 _ h0 l3 hb0 => ?_
  have hw : bits0.length = 0 → bits[0]? = some [] := by
    intro hw
    obtain ⟨s, t, h0⟩ := h0
    unfold index at h0
    rw [List.length_eq_zero_iff] at hw
    subst hw
    cases e : bits[0]? with
    | none => rw [e] at h0; cases h0
    | some x => rw [e] at h0; cases h0; rfl
  have l4 := (l1.trans l2).trans l3
  refine cnt_tryB (fun _ _ => small_error) (cnt_windows_parallel fun i => cnt_window_acc info
    (fun r' h g b hb => hp _ _ g _ (hcand.mono ((l2.trans l3).trans h)) hb) i 0 (small_chunks gs (hbits.mono l3))
    (haccn.mono l4)) fun la _ l5 hla => ?_
  have l6 := l4.trans l5
  refine cnt_tryB (fun _ _ => small_error) (cnt_windows_acc info _ (hlinen.mono l6) hla (hacc.mono l6)) fun _ _ l7 hr => ?_
  refine Safe.bind (cnt_ecc_non_zero_point_downgrade hr) fun _ _ l8 hr => ?_
  refine Safe.bind (cnt_to_point_with_curvature info hr) fun _ _ l9 hr => ?_
  have l10 := ((l6.trans l7).trans l8).trans l9
  refine Safe.bind (cnt_ecc_non_zero_point_downgrade (haccn.mono l10)) fun _ _ l11 hcy => ?_
  exact Safe.bind (cnt_ecc_add info (hr.mono l11) hcy) fun _ _ _ h => .ret (small_ok h)

theorem cnt_msm_batch_without_select (info : RangeInfo n) [Six info] (b : ℕ) {ops : ScalarOps n σ} (ho : CntOps ops)
    {points : List (AssignedNonZeroPoint n)} (h_points : Small r points) {scalars : List σ}
    (h_scalars : Small r scalars) (acc_c line_c : Option (ℕ × ℕ)) :
    Safe r (msm_batch_without_select info b ops points scalars acc_c line_c) Small := by
  unfold msm_batch_without_select
  exact cnt_msm_batch info b ho (by decide) (fun _ => .ret (small_unit _)) (fun _ _ _ _ _ => .ret (small_unit _))
    (fun _ _ _ _ h h' => cnt_pick_bisec info h _ h') (fun c _ _ => prog_pick_bisec c _ _) h_points h_scalars _ _

theorem cnt_msm_batch_with_select (info : RangeInfo n) [Six info] (b : ℕ) {ops : ScalarOps n σ} (ho : CntOps ops)
    (group_prefix : ℕ) {points : List (AssignedNonZeroPoint n)} (h_points : Small r points) {scalars : List σ}
    (h_scalars : Small r scalars) (acc_c line_c : Option (ℕ × ℕ)) :
    Safe r (msm_batch_with_select info b ops group_prefix points scalars acc_c line_c) Small := by
  unfold msm_batch_with_select
  refine Safe.bind (cnt_rassert _) fun _ _ h _ => ?_
  exact cnt_msm_batch info b ho (by decide) (fun _ => cnt_rassert _) (fun _ _ _ _ h => cnt_assign_cache_point_non_zero info h _ _)
    (fun _ c _ _ _ h' => cnt_pick_select info group_prefix c _ h') (fun c _ _ => prog_pick_select _ c _ _) (h_points.mono h) (h_scalars.mono h) _ _

theorem cnt_normalize (info : RangeInfo n) [Six info] {ops : ScalarOps n σ} (ho : CntOps ops) {z : σ} (h_z : Small r z)
    {p : AssignedNonZeroPoint n} (h_p : Small r p) {l : List (AssignedPoint n × σ)} (h_l : Small r l) :
    Safe r (normalize info ops z p l) Small := by
  induction l generalizing r with
  | nil => exact .ret small_nil
  | cons a l ih =>
    obtain ⟨q, s⟩ := a
    have h1 := (small_cons_iff.1 h_l).1
    have h2 := (small_cons_iff.1 h_l).2
    unfold normalize
    refine (ho.bisec _ _ _ _ (small_pz (small_left h1)) h_z (small_right h1)).bind fun _ _ l1 hs => ?_
    refine (cnt_ecc_bisec_to_non_zero_point info ((small_left h1).mono l1) (h_p.mono l1)).bind fun _ _ l2 hq => ?_
    have l3 := l1.trans l2
    exact (ih (h_z.mono l3) (h_p.mono l3) (h2.mono l3)).bind fun _ _ l4 hr =>
      .ret (small_cons (small_pair (hq.mono l4) (hs.mono (l2.trans l4))) hr)

theorem cnt_msm_unsafe (info : RangeInfo n) [Six info] (b : ℕ) {ops : ScalarOps n σ} (ho : CntOps ops) (generator : ℕ × ℕ)
    (r1 r2 : Option (ℕ × ℕ)) (msm_prefix : Option ℕ) {points : List (AssignedPoint n)}
    (h_points : Small r points) {scalars : List σ} (h_scalars : Small r scalars) :
    Safe r (msm_unsafe info b ops generator r1 r2 msm_prefix points scalars) fun r x => Small r x.1 := by
  unfold msm_unsafe
  refine (cnt_assign_non_zero_point info b _).bind fun _ _ l1 hp => ?_
  refine (ho.zero _).bind fun _ _ l2 hz => ?_
  have l3 := l1.trans l2
  refine (cnt_normalize info ho hz (hp.mono l2) (small_zip (h_points.mono l3) (h_scalars.mono l3))).bind fun l _ l4 hl => ?_
  have h1 := small_map hl (f := Prod.fst) fun _ h => small_fst h
  have h2 := small_map hl (f := Prod.snd) fun _ h => small_snd h
  cases msm_prefix with
  | some pre =>
    exact (cnt_msm_batch_with_select info b ho pre h1 h2 _ _).bind fun _ _ _ hr => .pure fun _ h => hr.mono h
  | none => exact (cnt_msm_batch_without_select info b ho h1 h2 _ _).bind fun _ _ _ hr => .pure fun _ h => hr.mono h

theorem cnt_msm (info : RangeInfo n) [Six info] (b : ℕ) {ops : ScalarOps n σ} (ho : CntOps ops) (generator : ℕ × ℕ)
    (r1 r2 : Option (ℕ × ℕ)) (msm_prefix : Option ℕ) {points : List (AssignedPoint n)}
    (h_points : Small r points) {scalars : List σ} (h_scalars : Small r scalars) :
    Safe r (msm info b ops generator r1 r2 msm_prefix points scalars) fun r x => Small r x.1 := by
  unfold msm
  refine (cnt_msm_unsafe info b ho generator r1 r2 msm_prefix h_points h_scalars).bind ?_
  rintro ⟨x, p⟩ r' - hx
  cases x with
  | ok a => exact .pure fun _ h => (small_of_ok hx).mono h
  | error e => exact .panic (by decide)

theorem cnt_ecc_mul (info : RangeInfo n) [Six info] (b : ℕ) {ops : ScalarOps n σ} (ho : CntOps ops) (generator : ℕ × ℕ)
    (r1 r2 : Option (ℕ × ℕ)) (msm_prefix : Option ℕ) {a : AssignedPoint n} (h_a : Small r a) {s : σ} (h_s : Small r s) :
    Safe r (ecc_mul info b ops generator r1 r2 msm_prefix a s) fun r x => Small r x.1 :=
  cnt_msm info b ho generator r1 r2 msm_prefix (small_cons h_a small_nil) (small_cons h_s small_nil)

end Verif
