import Verif.Proof.RelEcc
import Verif.Proof.RelPar

/-!
# Multi-scalar multiplication describes the same circuit for all witnesses
-/

namespace Verif
variable {n : ℕ} {σ : Type} {st : Prop}

theorem rel_fill_candidates (info : RangeInfo n) {cache cache' : AssignedNonZeroPoint n → ℕ → M n Unit}
    (hc : ∀ p p' i, sh st p p' → Runs2 st (cache p i) (cache' p' i) (sh st))
    {chunk chunk' : List (AssignedNonZeroPoint n)} (h_chunk : sh st chunk chunk') (is : List ℕ)
    {cl cl' : List (AssignedNonZeroPoint n)} (h_cl : sh st cl cl') :
    Runs2 st (fill_candidates info cache chunk cl is) (fill_candidates info cache' chunk' cl' is) (sh st) := by
  induction is generalizing cl cl' with
  | nil => exact Runs2.pure (sh_ok h_cl)
  | cons i is ih =>
    unfold fill_candidates
    refine (rel_index h_cl _).bind fun _ _ ha => (rel_index h_chunk _).bind fun _ _ hq => ?_
    refine rel_tryB (rel_ecc_add_unsafe info ha hq) fun _ _ hp => ?_
    refine (rel_ecc_reduce_non_zero info hp).bind fun _ _ hp => (hc _ _ _ hp).bind fun _ _ _ => ?_
    exact ih (sh_append h_cl (sh_cons hp sh_nil))

theorem rel_group_candidates (info : RangeInfo n) {cache cache' : ℕ → AssignedNonZeroPoint n → ℕ → M n Unit}
    (hc : ∀ g p p' i, sh st p p' → Runs2 st (cache g p i) (cache' g p' i) (sh st))
    {line line' : AssignedNonZeroPoint n} (h_line : sh st line line')
    {line_neg line_neg' : AssignedNonZeroPoint n} (h_neg : sh st line_neg line_neg') (g : ℕ)
    {l l' : List (List (AssignedNonZeroPoint n))} (h_l : sh st l l') :
    Runs2 st (group_candidates info cache line line_neg g l) (group_candidates info cache' line' line_neg' g l')
      (sh st) := by
  induction h_l generalizing g with
  | nil => exact Runs2.pure (sh_ok sh_nil)
  | @cons chunk chunk' l l' h1 _ ih =>
    unfold group_candidates
    dsimp only
    have hi : sh st (if g % 2 = 0 then line else line_neg) (if g % 2 = 0 then line' else line_neg') := by
      split
      · exact h_line
      · exact h_neg
    refine (hc _ _ _ _ hi).bind fun _ _ _ => ?_
    rw [sh_length h1]
    refine rel_tryB (rel_fill_candidates info (hc g) h1 _ (sh_cons hi sh_nil)) fun _ _ hcl => ?_
    exact rel_tryB (ih _) fun _ _ hcs => Runs2.pure (sh_ok (sh_cons hcl hcs))

theorem rel_group_bits (wi : ℕ) {group group' : List (List (List (AssignedCondition n)))} (h : sh st group group') :
    Runs2 st (group_bits wi group) (group_bits wi group') (sh st) := by
  unfold group_bits
  exact rel_mapM h fun _ _ hb => (rel_index hb _).bind fun _ _ hw => rel_index hw _

theorem rel_window_acc (info : RangeInfo n) {pick pick' : ℕ → List (AssignedCondition n) → M n (AssignedNonZeroPoint n)}
    (hp : ∀ g b b', sh st b b' → Runs2 st (pick g b) (pick' g b') (sh st)) (wi g : ℕ)
    {l l' : List (List (List (List (AssignedCondition n))))} (h_l : sh st l l') {acc acc' : AssignedNonZeroPoint n}
    (h_acc : sh st acc acc') :
    Runs2 st (window_acc info pick wi g l acc) (window_acc info pick' wi g l' acc') (sh st) := by
  induction h_l generalizing g acc acc' with
  | nil => exact Runs2.pure (sh_ok h_acc)
  | cons h1 _ ih =>
    unfold window_acc
    refine (rel_group_bits wi h1).bind fun _ _ hb => (hp _ _ _ hb).bind fun _ _ hc => ?_
    exact rel_tryB (rel_ecc_add_unsafe info hc h_acc) fun _ _ ha => ih _ ha

theorem rel_pick_bisec (info : RangeInfo n) {cand cand' : List (List (AssignedNonZeroPoint n))} (h_c : sh st cand cand')
    (g : ℕ) {bits bits' : List (AssignedCondition n)} (h_bits : sh st bits bits') :
    Runs2 st (pick_bisec info cand g bits) (pick_bisec info cand' g bits') (sh st) := by
  unfold pick_bisec
  exact (rel_index h_c g).bind fun _ _ hcl => rel_bisec_candidate_non_zero info hcl h_bits

theorem rel_pick_select (info : RangeInfo n) (group_prefix : ℕ) (cand cand' : List (List (AssignedNonZeroPoint n)))
    (g : ℕ) {bits bits' : List (AssignedCondition n)} (h_bits : sh st bits bits') :
    Runs2 st (pick_select info group_prefix cand g bits) (pick_select info group_prefix cand' g bits') (sh st) := by
  unfold pick_select
  refine (rel_index_any cand cand' g g).bind fun cl cl' _ => ?_
  refine (rel_pick_candidate_non_zero cl cl' h_bits).bind ?_
  rintro ⟨i, ci⟩ ⟨i', ci'⟩ hi
  exact rel_assign_selected_point_non_zero info ci ci' hi _

theorem rel_windows_acc (info : RangeInfo n) (odd : Bool) {line_neg line_neg' : AssignedNonZeroPoint n}
    (h_neg : sh st line_neg line_neg') {l l' : List (AssignedNonZeroPoint n)} (h_l : sh st l l')
    {acc acc' : AssignedNonZeroPoint n} (h_acc : sh st acc acc') :
    Runs2 st (windows_acc info odd line_neg l acc) (windows_acc info odd line_neg' l' acc') (sh st) := by
  induction h_l generalizing acc acc' with
  | nil => exact Runs2.pure (sh_ok h_acc)
  | cons h1 _ ih =>
    unfold windows_acc
    refine rel_tryB (rel_ecc_double_unsafe info h_acc) fun _ _ h2 => ?_
    refine rel_tryB (rel_ecc_add_unsafe info h1 h2) fun _ _ h3 => ?_
    refine rel_tryB ?_ fun _ _ h4 => ih h4
    exact Runs2.ite (rel_ecc_add_unsafe info h3 h_neg) (Runs2.pure (sh_ok h3))

/-- The operations of two scalar contexts describe the same circuit for all witnesses. -/
structure RelOps₂ [Shaped σ] (st : Prop) (ops ops' : ScalarOps n σ) : Prop where
  decompose : ∀ s s', sh st s s' → Runs2 st (ops.decompose s) (ops'.decompose s') (sh st)
  bisec : ∀ c c' a a' b b', sh st c c' → sh st a a' → sh st b b' → Runs2 st (ops.bisec c a b) (ops'.bisec c' a' b') (sh st)
  zero : Runs2 st ops.zero ops'.zero (sh st)

/-- The operations of a scalar context describe the same circuit for all witnesses. -/
abbrev RelOps [Shaped σ] (st : Prop) (ops : ScalarOps n σ) : Prop := RelOps₂ st ops ops

theorem relOps_native (num_bits : ℕ) : RelOps st (nativeScalar (n := n) num_bits) where
  decompose _ _ h := rel_decompose_scalar_native num_bits 1 h
  bisec _ _ _ _ _ _ hc ha hb := rel_bisec hc ha hb
  zero := rel_assign_constant 0

theorem relOps_general (sinfo : RangeInfo n) : RelOps st (generalScalar sinfo) where
  decompose _ _ h := rel_decompose_scalar_general sinfo 1 h
  bisec _ _ _ _ _ _ hc ha hb := rel_bisec_int sinfo hc ha hb
  zero := rel_assign_int_constant sinfo 0

variable [Shaped σ]

theorem rel_div_rem_same (a b : ℕ) : Runs2 (n := n) st (div_rem a b) (div_rem a b) fun x y => x = y := by
  unfold div_rem
  split
  · exact Runs2.panic (p' := .assertion)
  · exact Runs2.pure rfl

theorem rel_msm_batch (info : RangeInfo n) (b : ℕ) {ops ops' : ScalarOps n σ} (ho : RelOps₂ st ops ops') (best : ℕ)
    {before : M n Unit} (hb : Runs2 st before before (sh st))
    {cache : ℕ → AssignedNonZeroPoint n → ℕ → M n Unit}
    (hc : ∀ g p p' i, sh st p p' → Runs2 st (cache g p i) (cache g p' i) (sh st))
    {pick pick' : List (List (AssignedNonZeroPoint n)) → ℕ → List (AssignedCondition n) → M n (AssignedNonZeroPoint n)}
    (hp : ∀ c c' g b b', sh st c c' → sh st b b' → Runs2 st (pick c g b) (pick' c' g b') (sh st))
    {points points' : List (AssignedNonZeroPoint n)} (h_points : sh st points points') {scalars scalars' : List σ}
    (h_scalars : sh st scalars scalars') (acc_c acc_c' line_c line_c' : Option (ℕ × ℕ)) :
    Runs2 st (msm_batch info b ops best before cache pick points scalars acc_c line_c)
      (msm_batch info b ops' best before cache pick' points' scalars' acc_c' line_c') (sh st) := by
  unfold msm_batch
  refine (rel_mapM h_points fun _ _ h => rel_ecc_reduce_non_zero info h).bind fun ps ps' hps => ?_
  refine (rel_assign_non_zero_point info b _ _).bind fun _ _ hacc => ?_
  refine (rel_assign_non_zero_point info b _ _).bind fun _ _ hline => ?_
  refine (rel_ecc_neg_non_zero info hacc).bind fun _ _ hn => ?_
  refine (rel_ecc_reduce_non_zero info hn).bind fun _ _ haccn => ?_
  refine (rel_ecc_neg_non_zero info hline).bind fun _ _ hn => ?_
  refine (rel_ecc_reduce_non_zero info hn).bind fun _ _ hlinen => ?_
  dsimp only
  rw [sh_length hps]
  refine Runs2.bind (rel_div_rem_same _ _) ?_
  rintro ⟨gs, x⟩ _ rfl
  dsimp only
  refine hb.bind fun _ _ _ => ?_
  refine rel_tryB (rel_group_candidates info hc hline hlinen 0 (sh_chunks gs hps)) fun _ _ hcand => ?_
  refine (rel_mapM h_scalars ho.decompose).bind fun _ _ hbits => ?_
  refine (rel_index hbits 0).bind fun _ _ hb0 => ?_
  rw [sh_length hb0, sh_length (sh_chunks gs hbits)]
  refine rel_tryB (rel_windows_parallel _ fun i => rel_window_acc info (fun g _ _ h => hp _ _ g _ _ hcand h) i 0
    (sh_chunks gs hbits) haccn) fun _ _ hla => ?_
  refine rel_tryB (rel_windows_acc info _ hlinen hla hacc) fun _ _ hr => ?_
  refine (rel_ecc_non_zero_point_downgrade hr).bind fun _ _ hr => ?_
  refine (rel_to_point_with_curvature info hr).bind fun _ _ hr => ?_
  refine (rel_ecc_non_zero_point_downgrade haccn).bind fun _ _ hcy => ?_
  exact (rel_ecc_add info hr hcy).bind fun _ _ h => Runs2.pure (sh_ok h)

theorem rel_msm_batch_without_select (info : RangeInfo n) (b : ℕ) {ops ops' : ScalarOps n σ} (ho : RelOps₂ st ops ops')
    {points points' : List (AssignedNonZeroPoint n)} (h_points : sh st points points') {scalars scalars' : List σ}
    (h_scalars : sh st scalars scalars') (acc_c acc_c' line_c line_c' : Option (ℕ × ℕ)) :
    Runs2 st (msm_batch_without_select info b ops points scalars acc_c line_c)
      (msm_batch_without_select info b ops' points' scalars' acc_c' line_c') (sh st) := by
  unfold msm_batch_without_select
  have hb : Runs2 (n := n) st (pure ()) (pure ()) (sh st) := Runs2.pure (sh_unit _ _)
  exact rel_msm_batch info b ho 2 (before := pure ()) hb (cache := fun _ _ _ => pure ()) (fun _ _ _ _ _ => hb)
    (pick := pick_bisec info)
    (fun _ _ _ _ _ h h' => rel_pick_bisec info h _ h') h_points h_scalars _ _ _ _

theorem rel_msm_batch_with_select (info : RangeInfo n) (b : ℕ) {ops ops' : ScalarOps n σ} (ho : RelOps₂ st ops ops')
    (group_prefix : ℕ)
    {points points' : List (AssignedNonZeroPoint n)} (h_points : sh st points points') {scalars scalars' : List σ}
    (h_scalars : sh st scalars scalars') (acc_c acc_c' line_c line_c' : Option (ℕ × ℕ)) :
    Runs2 st (msm_batch_with_select info b ops group_prefix points scalars acc_c line_c)
      (msm_batch_with_select info b ops' group_prefix points' scalars' acc_c' line_c') (sh st) := by
  unfold msm_batch_with_select
  refine Runs2.bind (rel_rassert _ _) fun _ _ _ => ?_
  have hb : Runs2 (n := n) st (rassert (decide (group_prefix < MSM_LIMIT))) (rassert (decide (group_prefix < MSM_LIMIT)))
    (sh st) := by
    generalize decide (group_prefix < MSM_LIMIT) = x
    exact rel_rassert x x
  exact rel_msm_batch info b ho 5 hb (cache := fun g p i => assign_cache_point_non_zero info p (group_prefix + g) i)
    (pick := pick_select info group_prefix) (fun _ _ _ _ h => rel_assign_cache_point_non_zero info h _ _)
    (fun c c' _ _ _ _ h' => rel_pick_select info group_prefix c c' _ h') h_points h_scalars _ _ _ _

theorem rel_normalize (info : RangeInfo n) {ops ops' : ScalarOps n σ} (ho : RelOps₂ st ops ops') {z z' : σ} (h_z : sh st z z')
    {p p' : AssignedNonZeroPoint n} (h_p : sh st p p') {l l' : List (AssignedPoint n × σ)} (h_l : sh st l l') :
    Runs2 st (normalize info ops z p l) (normalize info ops' z' p' l') (sh st) := by
  induction h_l with
  | nil => exact Runs2.pure sh_nil
  | @cons a a' l l' h1 _ ih =>
    obtain ⟨q, s⟩ := a
    obtain ⟨q', s'⟩ := a'
    unfold normalize
    refine (ho.bisec _ _ _ _ _ _ (sh_pz (sh_left h1)) h_z (sh_right h1)).bind fun _ _ hs => ?_
    refine (rel_ecc_bisec_to_non_zero_point info (sh_left h1) h_p).bind fun _ _ hq => ?_
    exact ih.bind fun _ _ hr => Runs2.pure (sh_cons (sh_pair hq hs) hr)

theorem sh_zip {α β : Type} [Shaped α] [Shaped β] {l l' : List α} {r r' : List β} (h : sh st l l') (h' : sh st r r') :
    sh st (l.zip r) (l'.zip r') := by
  induction h generalizing r r' with
  | nil => exact sh_nil
  | cons h1 _ ih =>
    cases h' with
    | nil => exact sh_nil
    | cons h2 h3 => exact sh_cons (sh_pair h1 h2) (ih h3)

theorem sh_unzip {α β : Type} [Shaped α] [Shaped β] {l l' : List (α × β)} (h : sh st l l') :
    sh st (l.map Prod.fst) (l'.map Prod.fst) ∧ sh st (l.map Prod.snd) (l'.map Prod.snd) := by
  induction h with
  | nil => exact ⟨sh_nil, sh_nil⟩
  | cons h1 _ ih => exact ⟨sh_cons (sh_fst h1) ih.1, sh_cons (sh_snd h1) ih.2⟩

theorem rel_msm_unsafe (info : RangeInfo n) (b : ℕ) {ops ops' : ScalarOps n σ} (ho : RelOps₂ st ops ops') (generator generator' : ℕ × ℕ)
    (r1 r1' r2 r2' : Option (ℕ × ℕ)) (msm_prefix : Option ℕ) {points points' : List (AssignedPoint n)}
    (h_points : sh st points points') {scalars scalars' : List σ} (h_scalars : sh st scalars scalars') :
    Runs2 st (msm_unsafe info b ops generator r1 r2 msm_prefix points scalars)
      (msm_unsafe info b ops' generator' r1' r2' msm_prefix points' scalars')
      fun r r' => sh st r.1 r'.1 ∧ r.2 = r'.2 := by
  unfold msm_unsafe
  refine (rel_assign_non_zero_point info b _ _).bind fun _ _ hp => ?_
  refine ho.zero.bind fun _ _ hz => ?_
  refine (rel_normalize info ho hz hp (sh_zip h_points h_scalars)).bind fun _ _ hl => ?_
  obtain ⟨h1, h2⟩ := sh_unzip hl
  cases msm_prefix with
  | some pre =>
    exact (rel_msm_batch_with_select info b ho pre h1 h2 _ _ _ _).bind fun _ _ hr => Runs2.pure ⟨hr, rfl⟩
  | none => exact (rel_msm_batch_without_select info b ho h1 h2 _ _ _ _).bind fun _ _ hr => Runs2.pure ⟨hr, rfl⟩

theorem rel_msm (info : RangeInfo n) (b : ℕ) {ops ops' : ScalarOps n σ} (ho : RelOps₂ st ops ops') (generator generator' : ℕ × ℕ)
    (r1 r1' r2 r2' : Option (ℕ × ℕ)) (msm_prefix : Option ℕ) {points points' : List (AssignedPoint n)}
    (h_points : sh st points points') {scalars scalars' : List σ} (h_scalars : sh st scalars scalars') :
    Runs2 st (msm info b ops generator r1 r2 msm_prefix points scalars)
      (msm info b ops' generator' r1' r2' msm_prefix points' scalars') fun r r' => sh st r.1 r'.1 ∧ r.2 = r'.2 := by
  unfold msm
  refine (rel_msm_unsafe info b ho generator generator' r1 r1' r2 r2' msm_prefix h_points h_scalars).bind ?_
  rintro ⟨_, p⟩ ⟨_, p'⟩ ⟨⟨a, a', rfl, rfl, ha⟩, hp⟩
  exact Runs2.pure ⟨ha, hp⟩

theorem rel_ecc_mul (info : RangeInfo n) (b : ℕ) {ops ops' : ScalarOps n σ} (ho : RelOps₂ st ops ops') (generator generator' : ℕ × ℕ)
    (r1 r1' r2 r2' : Option (ℕ × ℕ)) (msm_prefix : Option ℕ) {a a' : AssignedPoint n} (h_a : sh st a a')
    {s s' : σ} (h_s : sh st s s') :
    Runs2 st (ecc_mul info b ops generator r1 r2 msm_prefix a s)
      (ecc_mul info b ops' generator' r1' r2' msm_prefix a' s') fun r r' => sh st r.1 r'.1 ∧ r.2 = r'.2 :=
  rel_msm info b ho generator generator' r1 r1' r2 r2' msm_prefix (sh_cons h_a sh_nil) (sh_cons h_s sh_nil)

end Verif
