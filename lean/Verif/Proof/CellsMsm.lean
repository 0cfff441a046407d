import Verif.Proof.CellsPar
import Verif.Proof.MsmTop

/-!
# Multi-scalar multiplication hands out cells with values
-/

namespace Verif
variable {n : ℕ} {σ : Type} {r : RecordsInner n}

theorem cel_fill_candidates (info : RangeInfo n) {cache : AssignedNonZeroPoint n → ℕ → M n Unit}
    (hc : ∀ r p i, In r p → W r (cache p i) In)
    {chunk : List (AssignedNonZeroPoint n)} (h_chunk : In r chunk) (is : List ℕ)
    {cl : List (AssignedNonZeroPoint n)} (h_cl : In r cl) :
    W r (fill_candidates info cache chunk cl is) In := by
  induction is generalizing cl r with
  | nil => exact .ret (in_ok h_cl)
  | cons i is ih =>
    unfold fill_candidates
    refine (cel_index h_cl _).bind fun a r1 h1 ha => (cel_index (h_chunk.mono h1) _).bind fun q r2 h2 hq => ?_
    refine cel_tryB (fun _ _ => in_error) (cel_ecc_add_unsafe info (ha.mono h2) hq) fun p r3 h3 hp => ?_
    refine (cel_ecc_reduce_non_zero info hp).bind fun p r4 h4 hp => (hc _ _ _ hp).bind fun _ r5 h5 _ => ?_
    have h : RLe r r5 := (((h1.trans h2).trans h3).trans h4).trans h5
    exact ih (h_chunk.mono h) (in_append (h_cl.mono h) (in_cons (hp.mono h5) in_nil))

theorem cel_group_candidates (info : RangeInfo n) {cache : ℕ → AssignedNonZeroPoint n → ℕ → M n Unit}
    (hc : ∀ r g p i, In r p → W r (cache g p i) In) {line : AssignedNonZeroPoint n} (h_line : In r line)
    {line_neg : AssignedNonZeroPoint n} (h_neg : In r line_neg) (g : ℕ) {l : List (List (AssignedNonZeroPoint n))}
    (h_l : In r l) : W r (group_candidates info cache line line_neg g l) In := by
  induction l generalizing g r with
  | nil => exact .ret (in_ok in_nil)
  | cons chunk l ih =>
    have h1 := (in_cons_iff.1 h_l).1
    have h2 := (in_cons_iff.1 h_l).2
    unfold group_candidates
    dsimp only
    have hi : In r (if g % 2 = 0 then line else line_neg) := in_ite h_line h_neg
    refine (hc _ _ _ _ hi).bind fun _ r1 l1 _ => ?_
    refine cel_tryB (fun _ _ => in_error) (cel_fill_candidates info (fun r => hc r g) (h1.mono l1) _
      (in_cons (hi.mono l1) in_nil)) fun cl r2 l2 hcl => ?_
    have l3 := l1.trans l2
    exact cel_tryB (fun _ _ => in_error) (ih (h_line.mono l3) (h_neg.mono l3) _ (h2.mono l3)) fun cs r4 l4 hcs =>
      .ret (in_ok (in_cons (hcl.mono l4) hcs))

theorem cel_group_bits (wi : ℕ) {group : List (List (List (AssignedCondition n)))} (h : In r group) :
    W r (group_bits wi group) In := by
  unfold group_bits
  exact cel_mapM h fun _ _ _ hb => (cel_index hb _).bind fun _ _ _ hw => cel_index hw _

theorem cel_window_acc (info : RangeInfo n) {pick : ℕ → List (AssignedCondition n) → M n (AssignedNonZeroPoint n)}
    (hp : ∀ r', RLe r r' → ∀ g b, In r' b → W r' (pick g b) In) (wi g : ℕ)
    {l : List (List (List (List (AssignedCondition n))))} (h_l : In r l) {acc : AssignedNonZeroPoint n}
    (h_acc : In r acc) : W r (window_acc info pick wi g l acc) In := by
  induction l generalizing g acc r with
  | nil => exact .ret (in_ok h_acc)
  | cons a l ih =>
    have h1 := (in_cons_iff.1 h_l).1
    have h2 := (in_cons_iff.1 h_l).2
    unfold window_acc
    refine (cel_group_bits wi h1).bind fun _ r1 l1 hb => (hp _ l1 _ _ hb).bind fun _ r2 l2 hc => ?_
    refine cel_tryB (fun _ _ => in_error) (cel_ecc_add_unsafe info hc (h_acc.mono (l1.trans l2))) fun _ r3 l3 ha => ?_
    have l4 := (l1.trans l2).trans l3
    exact ih (fun r' h => hp r' (l4.trans h)) _ (h2.mono l4) ha

theorem cel_pick_bisec (info : RangeInfo n) {cand : List (List (AssignedNonZeroPoint n))} (h_c : In r cand)
    (g : ℕ) {bits : List (AssignedCondition n)} (h_bits : In r bits) : W r (pick_bisec info cand g bits) In := by
  unfold pick_bisec
  exact (cel_index h_c g).bind fun _ _ h hcl => cel_bisec_candidate_non_zero info hcl (h_bits.mono h)

theorem cel_pick_select (info : RangeInfo n) (group_prefix : ℕ) (cand : List (List (AssignedNonZeroPoint n)))
    (g : ℕ) {bits : List (AssignedCondition n)} (h_bits : In r bits) :
    W r (pick_select info group_prefix cand g bits) In := by
  unfold pick_select
  refine (cel_index_any cand g).bind fun cl _ h _ => ?_
  exact (cel_pick_candidate_non_zero cl (h_bits.mono h)).bind fun _ _ _ hi =>
    cel_assign_selected_point_non_zero info _ hi _

theorem cel_windows_acc (info : RangeInfo n) (odd : Bool) {line_neg : AssignedNonZeroPoint n}
    (h_neg : In r line_neg) {l : List (AssignedNonZeroPoint n)} (h_l : In r l) {acc : AssignedNonZeroPoint n}
    (h_acc : In r acc) : W r (windows_acc info odd line_neg l acc) In := by
  induction l generalizing acc r with
  | nil => exact .ret (in_ok h_acc)
  | cons a l ih =>
    have h1 := (in_cons_iff.1 h_l).1
    have h2 := (in_cons_iff.1 h_l).2
    unfold windows_acc
    refine cel_tryB (fun _ _ => in_error) (cel_ecc_double_unsafe info h_acc) fun _ _ l1 h3 => ?_
    refine cel_tryB (fun _ _ => in_error) (cel_ecc_add_unsafe info (h1.mono l1) h3) fun _ _ l2 h4 => ?_
    have l3 := l1.trans l2
    refine cel_tryB (fun _ _ => in_error) ?_ fun _ _ l4 h5 => ih (h_neg.mono (l3.trans l4)) (h2.mono (l3.trans l4)) h5
    exact W.ite (cel_ecc_add_unsafe info h4 (h_neg.mono l3)) (.ret (in_ok h4))

/-- The operations of a scalar context hand out cells with values. -/
structure CelOps [HasCells n σ] (ops : ScalarOps n σ) : Prop where
  decompose : ∀ r s, In r s → W r (ops.decompose s) In
  bisec : ∀ r c a b, In r c → In r a → In r b → W r (ops.bisec c a b) In
  zero : ∀ r, W r ops.zero In

theorem celOps_native (num_bits : ℕ) : CelOps (nativeScalar (n := n) num_bits) where
  decompose _ _ h := cel_decompose_scalar_native num_bits 1 h
  bisec _ _ _ _ hc ha hb := cel_bisec hc ha hb
  zero _ := cel_assign_constant 0

theorem celOps_general (sinfo : RangeInfo n) : CelOps (generalScalar sinfo) where
  decompose _ _ h := cel_decompose_scalar_general sinfo 1 h
  bisec _ _ _ _ hc ha hb := cel_bisec_int sinfo hc ha hb
  zero _ := cel_assign_int_constant sinfo 0

variable [HasCells n σ]

theorem cel_msm_batch (info : RangeInfo n) (b : ℕ) {ops : ScalarOps n σ} (ho : CelOps ops) {best : ℕ} (hbest : 1 ≤ best)
    {before : M n Unit} (hb : ∀ r, W r before In) {cache : ℕ → AssignedNonZeroPoint n → ℕ → M n Unit}
    (hc : ∀ r g p i, In r p → W r (cache g p i) In)
    {pick : List (List (AssignedNonZeroPoint n)) → ℕ → List (AssignedCondition n) → M n (AssignedNonZeroPoint n)}
    (hp : ∀ r c g b, In r c → In r b → W r (pick c g b) In) (hpp : ∀ c g b, Prog (pick c g b))
    {points : List (AssignedNonZeroPoint n)} (h_points : In r points) {scalars : List σ}
    (h_scalars : In r scalars) (acc_c line_c : Option (ℕ × ℕ)) :
    W r (msm_batch info b ops best before cache pick points scalars acc_c line_c) In := by
  unfold msm_batch
  refine W.bind (cel_mapM h_points fun _ _ _ h => cel_ecc_reduce_non_zero info h) fun ps _ l1 hps => ?_
  refine W.bind (cel_assign_non_zero_point info b _) fun acc _ l2 hacc => ?_
  refine W.bind (cel_assign_non_zero_point info b _) fun line _ l3 hline => ?_
  refine W.bind (cel_ecc_neg_non_zero info (hacc.mono l3)) fun _ _ l4 hn => ?_
  refine W.bind (cel_ecc_reduce_non_zero info hn) fun accn _ l5 haccn => ?_
  refine W.bind (cel_ecc_neg_non_zero info (hline.mono (l4.trans l5))) fun _ _ l6 hn => ?_
  refine W.bind (cel_ecc_reduce_non_zero info hn) fun linen _ l7 hlinen => ?_
  dsimp only
  refine W.bindR (cel_div_rem _ _) ?_
  rintro ⟨gs, x⟩ _ hgs l8 -
  have hk : gs ≠ 0 := by
    obtain ⟨s, t, hgs⟩ := hgs
    unfold div_rem at hgs
    split at hgs
    · cases hgs
    · rename_i h
      cases hgs
      exact Nat.one_le_iff_ne_zero.1 (group_size_bounds hbest h).1
  dsimp only
  refine W.bind (hb _) fun _ r9 l9 _ => ?_
  have hps := hps.mono (((((((l2.trans l3).trans l4).trans l5).trans l6).trans l7).trans l8).trans l9)
  have hsc := h_scalars.mono ((((((((l1.trans l2).trans l3).trans l4).trans l5).trans l6).trans l7).trans l8).trans l9)
  have hacc := hacc.mono ((((((l3.trans l4).trans l5).trans l6).trans l7).trans l8).trans l9)
  have haccn := haccn.mono (((l6.trans l7).trans l8).trans l9)
  have hline := hline.mono (((((l4.trans l5).trans l6).trans l7).trans l8).trans l9)
  have hlinen := hlinen.mono (l8.trans l9)
  clear l1 l2 l3 l4 l5 l6 l7 l8 l9 h_points h_scalars
  refine cel_tryB (fun _ _ => in_error) (cel_group_candidates info hc hline hlinen 0 (in_chunks gs hps))
    fun cand _ l1 hcand => ?_
  refine W.bind (cel_mapM (hsc.mono l1) fun _ _ _ h => ho.decompose _ _ h) fun bits _ l2 hbits => ?_
  refine W.bindR (cel_index hbits 0) fun bits0 _ h0 l3 hb0 => ?_
  have hw : bits0.length = 0 → bits[0]? = some [] := by
    intro hw
    obtain ⟨s, t, h0⟩ := h0
    unfold index at h0
    rw [List.length_eq_zero_iff] at hw
    subst hw
    cases e : bits[0]? with
    | none => rw [e] at h0; cases h0
    | some x => rw [e] at h0; cases h0; rfl
  have l4 := (l1.trans l2).trans l3
  refine cel_tryB (fun _ _ => in_error) (cel_windows_parallel
    (fun i => (prog_window_acc (hpp _) i _ _ _).growing) (fun i => neverErr_window_acc i _ _ _)
    (fun h s => windows_zero_panics hk (hw h) _ _) fun i => cel_window_acc info
    (fun r' h g b hb => hp _ _ g _ (hcand.mono ((l2.trans l3).trans h)) hb) i 0 (in_chunks gs (hbits.mono l3))
    (haccn.mono l4)) fun la _ l5 hla => ?_
  have l6 := l4.trans l5
  refine cel_tryB (fun _ _ => in_error) (cel_windows_acc info _ (hlinen.mono l6) hla (hacc.mono l6)) fun _ _ l7 hr => ?_
  refine W.bind (cel_ecc_non_zero_point_downgrade hr) fun _ _ l8 hr => ?_
  refine W.bind (cel_to_point_with_curvature info hr) fun _ _ l9 hr => ?_
  have l10 := ((l6.trans l7).trans l8).trans l9
  refine W.bind (cel_ecc_non_zero_point_downgrade (haccn.mono l10)) fun _ _ l11 hcy => ?_
  exact W.bind (cel_ecc_add info (hr.mono l11) hcy) fun _ _ _ h => .ret (in_ok h)

theorem cel_msm_batch_without_select (info : RangeInfo n) (b : ℕ) {ops : ScalarOps n σ} (ho : CelOps ops)
    {points : List (AssignedNonZeroPoint n)} (h_points : In r points) {scalars : List σ}
    (h_scalars : In r scalars) (acc_c line_c : Option (ℕ × ℕ)) :
    W r (msm_batch_without_select info b ops points scalars acc_c line_c) In := by
  unfold msm_batch_without_select
  exact cel_msm_batch info b ho (by decide) (fun _ => .ret (in_unit _)) (fun _ _ _ _ _ => .ret (in_unit _))
    (fun _ _ _ _ h h' => cel_pick_bisec info h _ h') (fun c _ _ => prog_pick_bisec c _ _) h_points h_scalars _ _

theorem cel_msm_batch_with_select (info : RangeInfo n) (b : ℕ) {ops : ScalarOps n σ} (ho : CelOps ops)
    (group_prefix : ℕ) {points : List (AssignedNonZeroPoint n)} (h_points : In r points) {scalars : List σ}
    (h_scalars : In r scalars) (acc_c line_c : Option (ℕ × ℕ)) :
    W r (msm_batch_with_select info b ops group_prefix points scalars acc_c line_c) In := by
  unfold msm_batch_with_select
  refine W.bind (cel_rassert _) fun _ _ h _ => ?_
  exact cel_msm_batch info b ho (by decide) (fun _ => cel_rassert _) (fun _ _ _ _ h => cel_assign_cache_point_non_zero info h _ _)
    (fun _ c _ _ _ h' => cel_pick_select info group_prefix c _ h') (fun c _ _ => prog_pick_select _ c _ _) (h_points.mono h) (h_scalars.mono h) _ _

theorem cel_normalize (info : RangeInfo n) {ops : ScalarOps n σ} (ho : CelOps ops) {z : σ} (h_z : In r z)
    {p : AssignedNonZeroPoint n} (h_p : In r p) {l : List (AssignedPoint n × σ)} (h_l : In r l) :
    W r (normalize info ops z p l) In := by
  induction l generalizing r with
  | nil => exact .ret in_nil
  | cons a l ih =>
    obtain ⟨q, s⟩ := a
    have h1 := (in_cons_iff.1 h_l).1
    have h2 := (in_cons_iff.1 h_l).2
    unfold normalize
    refine (ho.bisec _ _ _ _ (in_pz (in_left h1)) h_z (in_right h1)).bind fun _ _ l1 hs => ?_
    refine (cel_ecc_bisec_to_non_zero_point info ((in_left h1).mono l1) (h_p.mono l1)).bind fun _ _ l2 hq => ?_
    have l3 := l1.trans l2
    exact (ih (h_z.mono l3) (h_p.mono l3) (h2.mono l3)).bind fun _ _ l4 hr =>
      .ret (in_cons (in_pair (hq.mono l4) (hs.mono (l2.trans l4))) hr)

theorem cel_msm_unsafe (info : RangeInfo n) (b : ℕ) {ops : ScalarOps n σ} (ho : CelOps ops) (generator : ℕ × ℕ)
    (r1 r2 : Option (ℕ × ℕ)) (msm_prefix : Option ℕ) {points : List (AssignedPoint n)}
    (h_points : In r points) {scalars : List σ} (h_scalars : In r scalars) :
    W r (msm_unsafe info b ops generator r1 r2 msm_prefix points scalars) fun r x => In r x.1 := by
  unfold msm_unsafe
  refine (cel_assign_non_zero_point info b _).bind fun _ _ l1 hp => ?_
  refine (ho.zero _).bind fun _ _ l2 hz => ?_
  have l3 := l1.trans l2
  refine (cel_normalize info ho hz (hp.mono l2) (in_zip (h_points.mono l3) (h_scalars.mono l3))).bind fun l _ l4 hl => ?_
  have h1 := in_map hl (f := Prod.fst) fun _ h => in_fst h
  have h2 := in_map hl (f := Prod.snd) fun _ h => in_snd h
  cases msm_prefix with
  | some pre =>
    exact (cel_msm_batch_with_select info b ho pre h1 h2 _ _).bind fun _ _ _ hr => .pure fun _ h => hr.mono h
  | none => exact (cel_msm_batch_without_select info b ho h1 h2 _ _).bind fun _ _ _ hr => .pure fun _ h => hr.mono h

theorem cel_msm (info : RangeInfo n) (b : ℕ) {ops : ScalarOps n σ} (ho : CelOps ops) (generator : ℕ × ℕ)
    (r1 r2 : Option (ℕ × ℕ)) (msm_prefix : Option ℕ) {points : List (AssignedPoint n)}
    (h_points : In r points) {scalars : List σ} (h_scalars : In r scalars) :
    W r (msm info b ops generator r1 r2 msm_prefix points scalars) fun r x => In r x.1 := by
  unfold msm
  refine (cel_msm_unsafe info b ho generator r1 r2 msm_prefix h_points h_scalars).bind ?_
  rintro ⟨x, p⟩ r' - hx
  cases x with
  | ok a => exact .pure fun _ h => (in_of_ok hx).mono h
  | error e => exact .panic

theorem cel_ecc_mul (info : RangeInfo n) (b : ℕ) {ops : ScalarOps n σ} (ho : CelOps ops) (generator : ℕ × ℕ)
    (r1 r2 : Option (ℕ × ℕ)) (msm_prefix : Option ℕ) {a : AssignedPoint n} (h_a : In r a) {s : σ} (h_s : In r s) :
    W r (ecc_mul info b ops generator r1 r2 msm_prefix a s) fun r x => In r x.1 :=
  cel_msm info b ho generator r1 r2 msm_prefix (in_cons h_a in_nil) (in_cons h_s in_nil)

end Verif
