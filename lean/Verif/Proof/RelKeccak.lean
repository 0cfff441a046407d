import Verif.Proof.Keccak
import Verif.Proof.RelEcc

/-!
# The Keccak chip run twice

Two runs of the hash, with possibly different words behind the same input cells, have the same shape.
-/

namespace Verif
variable {n : ℕ} {α β : Type} {st : Prop}

/-- Cellwise the same shape. -/
def LShape (st : Prop) (a a' : Lane n) : Prop := ∀ z, sh st (a z) (a' z)
def KShape (st : Prop) (s s' : KState n) : Prop := ∀ x y z, sh st (s x y z) (s' x y z)

theorem rel_tabM : ∀ {k : ℕ} {f f' : Fin k → M n α} {R : Fin k → α → α → Prop},
    (∀ i, Runs2 st (f i) (f' i) (R i)) → Runs2 st (tabM f) (tabM f') fun g g' => ∀ i, R i (g i) (g' i)
  | 0, _, _, _, _ => Runs2.pure fun i => i.elim0
  | _ + 1, f, f', R, h => by
    unfold tabM
    refine (h 0).bind fun a a' ha => (rel_tabM fun i => h i.succ).bind fun g g' hg => Runs2.pure fun i => ?_
    refine Fin.cases ?_ (fun i => ?_) i
    · exact ha
    · exact hg i

theorem rel_theta_column {y y' : Fin 5 → Lane n} (h : ∀ i, LShape st (y i) (y' i)) :
    Runs2 st (theta_column y) (theta_column y') (LShape st) := by
  unfold theta_column
  refine (rel_tabM fun z => rel_xor (h 0 z) (h 1 z)).bind fun a a' ha => ?_
  refine (rel_tabM fun z => rel_xor (ha z) (h 2 z)).bind fun a a' ha => ?_
  refine (rel_tabM fun z => rel_xor (ha z) (h 3 z)).bind fun a a' ha => ?_
  exact rel_tabM fun z => rel_xor (ha z) (h 4 z)

theorem rel_theta {s s' : KState n} (h : KShape st s s') : Runs2 st (theta s) (theta s') (KShape st) := by
  unfold theta
  refine (rel_tabM fun x => rel_theta_column (h x)).bind fun c c' hc =>
    rel_tabM (R := fun _ (a a' : Fin 5 → Lane n) => ∀ y z, sh st (a y z) (a' y z)) fun x => ?_
  refine (rel_tabM fun z => rel_xor (hc _ z) (hc (x + 1) (z + Fin.ofNat 64 1))).bind fun d d' hd => ?_
  exact rel_tabM fun y => rel_tabM fun z => rel_xor (h x y z) (hd z)

theorem KShape.rho_and_pi {s s' : KState n} (h : KShape st s s') : KShape st (rho_and_pi s) (rho_and_pi s') := by
  unfold Verif.rho_and_pi
  suffices H : ∀ (l : List ℕ) (p p' : KState n × Lane n), KShape st p.1 p'.1 → LShape st p.2 p'.2 →
      KShape st (l.foldl rho_and_pi_step p).1 (l.foldl rho_and_pi_step p').1 from H _ _ _ h (h 1 0)
  intro l
  induction l with
  | nil => exact fun p p' h1 _ => h1
  | cons i l ih =>
    intro p p' h1 h2
    refine ih _ _ ?_ ?_
    · intro x y z
      simp only [rho_and_pi_step]
      split
      · exact h2 _
      · exact h1 x y z
    · exact fun z => h1 _ _ z

theorem rel_xi {s s' : KState n} (h : KShape st s s') : Runs2 st (keccak_xi s) (keccak_xi s') (KShape st) :=
  rel_tabM fun x => rel_tabM fun y => rel_tabM fun z =>
    (rel_not_and (h (x + 1) y z) (h (x + 2) y z)).bind fun _ _ ht => rel_xor (h x y z) ht

theorem rel_iota {s s' : KState n} (h : KShape st s s') (i : ℕ) : Runs2 st (iota s i) (iota s' i) (KShape st) := by
  unfold iota
  refine (rel_index_eq ROUND_CONSTANTS i).bind fun rc rc' e => ?_
  subst e
  refine (rel_tabM (R := fun _ => sh st) fun z => Runs2.ite (rel_not (h 0 0 z)) (Runs2.pure (h 0 0 z))).bind
    fun l l' hl => Runs2.pure fun x y z => ?_
  show sh st ((if x = 0 ∧ y = 0 then l else s x y) z) ((if x = 0 ∧ y = 0 then l' else s' x y) z)
  by_cases e : x = 0 ∧ y = 0
  · rw [if_pos e, if_pos e]; exact hl z
  · rw [if_neg e, if_neg e]; exact h x y z

theorem rel_permute_rounds (is : List ℕ) {s s' : KState n} (h : KShape st s s') :
    Runs2 st (permute_rounds is s) (permute_rounds is s') (KShape st) := by
  induction is generalizing s s' with
  | nil => exact Runs2.pure h
  | cons i is ih =>
    unfold permute_rounds
    exact (rel_theta h).bind fun _ _ h1 => (rel_xi h1.rho_and_pi).bind fun _ _ h2 =>
      (rel_iota h2 i).bind fun _ _ h3 => ih h3

theorem rel_permute {s s' : KState n} (h : KShape st s s') : Runs2 st (permute s) (permute s') (KShape st) :=
  rel_permute_rounds _ h

theorem rel_absorb {s s' : KState n} (h : KShape st s s') {l l' : List (AssignedCondition n)} (hl : sh st l l') :
    Runs2 st (absorb s l) (absorb s' l') (KShape st) := by
  unfold absorb
  refine (rel_rassert _ _).bind fun _ _ _ => ?_
  have step : ∀ (i : Fin 17) (j k : Fin 8), Runs2 st
      (do let a ← index l (i * 64 + j * 8 + k)
          xor a (s (Fin.ofNat 5 (i % 5)) (Fin.ofNat 5 (i / 5)) (Fin.ofNat 64 ((8 - j - 1) * 8 + k))))
      (do let a ← index l' (i * 64 + j * 8 + k)
          xor a (s' (Fin.ofNat 5 (i % 5)) (Fin.ofNat 5 (i / 5)) (Fin.ofNat 64 ((8 - j - 1) * 8 + k))))
      (sh st) := by
    intro i j k
    refine (rel_index hl _).bind fun _ _ ha => rel_xor ha (h _ _ _)
  refine Runs2.bind (rel_tabM fun i => rel_tabM fun j => rel_tabM fun k => step i j k) fun g g' hg => ?_
  refine rel_permute ?_
  intro x y z
  dsimp only
  by_cases e : 5 * y.val + x.val < 17
  · rw [dif_pos e, dif_pos e]; exact hg _ _ _
  · rw [dif_neg e, dif_neg e]; exact h x y z

theorem rel_foldlM_absorb {ls ls' : List (List (AssignedCondition n))} (hl : List.Forall₂ (sh st) ls ls')
    {s s' : KState n} (h : KShape st s s') : Runs2 st (ls.foldlM absorb s) (ls'.foldlM absorb s') (KShape st) := by
  induction hl generalizing s s' with
  | nil => exact Runs2.pure h
  | cons h0 _ ih =>
    rw [List.foldlM_cons, List.foldlM_cons]
    exact (rel_absorb h h0).bind fun _ _ h1 => ih h1

theorem rel_decompose_u256_with (b b' : ℕ) {v v' : AssignedValue n} (h : sh st v v') :
    Runs2 st (decompose_u256_with b v) (decompose_u256_with b' v') (sh st) := by
  unfold decompose_u256_with
  exact (rel_native_bits _ _ _ h).bind fun _ _ hr => (rel_assert_constant (sh_snd hr) _).bind fun _ _ _ =>
    Runs2.pure (sh_reverse (sh_fst hr))

theorem rel_compose_loop : ∀ (k : ℕ) {l l' : List (AssignedCondition n)}, l.length ≤ k → sh st l l' →
    ∀ {a a' : AssignedValue n}, sh st a a' → Runs2 st (compose_loop l a) (compose_loop l' a') (sh st) := by
  intro k
  induction k with
  | zero =>
    intro l l' hk hl a a' ha
    cases hl with
    | nil => unfold compose_loop; exact Runs2.pure ha
    | cons _ _ => simp at hk
  | succ k ih =>
    intro l l' hk hl a a' ha
    cases hl with
    | nil => unfold compose_loop; exact Runs2.pure ha
    | cons h1 hl =>
      cases hl with
      | nil => unfold compose_loop; exact Runs2.pure ha
      | cons h0 hl =>
        unfold compose_loop
        refine (rel_sum_with_constant ?_ _).bind fun _ _ hr => ih (by simp at hk; omega) hl hr
        shape

theorem rel_compose {l l' : List (AssignedCondition n)} (hl : sh st l l') :
    Runs2 st (compose_to_scalar_be l) (compose_to_scalar_be l') (sh st) := by
  unfold compose_to_scalar_be
  exact (rel_rassert _ _).bind fun _ _ _ => (rel_assign_constant _).bind fun _ _ ha =>
    rel_compose_loop _ le_rfl hl ha

theorem sh_join {l l' : List (List (AssignedCondition n))} (h : sh st l l') :
    sh st l.flatten l'.flatten := by
  induction h with
  | nil => exact sh_nil
  | cons h0 _ ih => rw [List.flatten_cons, List.flatten_cons]; exact sh_append h0 ih

theorem sh_chunks_exact (k : ℕ) {l l' : List (AssignedCondition n)} (h : sh st l l') :
    sh st (chunks_exact k l) (chunks_exact k l') := by
  unfold chunks_exact
  have e : l.length = l'.length := List.Forall₂.length_eq h
  rw [e]
  show List.Forall₂ _ _ _
  rw [List.forall₂_map_left_iff, List.forall₂_map_right_iff]
  exact List.forall₂_same.2 fun i _ => List.forall₂_take _ (List.forall₂_drop _ h)

theorem sh_padding {o o' z z' : AssignedValue n} (ho : sh st o o') (hz : sh st z z') (r : ℕ) :
    sh st (keccak_padding o z r) (keccak_padding o' z' r) := by
  unfold keccak_padding
  have hr : ∀ m, sh st (List.replicate m z) (List.replicate m z') := by
    intro m
    induction m with
    | zero => exact sh_nil
    | succ m ih => exact sh_cons hz ih
  dsimp only
  split
  · shape
  · refine sh_append (sh_append ?_ (hr _)) ?_ <;> shape

theorem sh_ofFn {x x' : Lane n} (h : LShape st x x') : sh st (List.ofFn x) (List.ofFn x') := by
  show List.Forall₂ _ _ _
  rw [List.forall₂_iff_get]
  simp only [List.length_ofFn, true_and]
  intro i h1 h2
  simp only [List.get_eq_getElem, List.getElem_ofFn]
  exact h _

/-- Two runs of the hash with decompositions of the same shape. -/
theorem rel_hash_with {d d' : List (AssignedValue n) → M n (List (List (AssignedCondition n)))}
    {l l' : List (AssignedValue n)} (hl : sh st l l') (hd : Runs2 st (d l) (d' l') (sh st)) :
    Runs2 st (hash_with d l) (hash_with d' l') (sh st) := by
  unfold hash_with
  refine (rel_assign_constant _).bind fun _ _ h1 => (rel_assign_constant _).bind fun _ _ h0 => ?_
  refine Runs2.bind (R := KShape st) ((rel_assign_constant _).bind fun _ _ hz => Runs2.pure fun _ _ _ => hz)
    fun s s' hs => hd.bind fun ws ws' hws => ?_
  have e : l.length = l'.length := List.Forall₂.length_eq hl
  rw [e]
  refine (rel_foldlM_absorb (sh_chunks_exact _ (sh_append (sh_join hws) (sh_padding h1 h0 _))) hs).bind
    fun t t' ht => rel_compose ?_
  have hx : ∀ x, sh st (chunks_exact 8 (List.ofFn (t x 0))).reverse.flatten
      (chunks_exact 8 (List.ofFn (t' x 0))).reverse.flatten := fun x =>
    sh_join (sh_reverse (sh_chunks_exact 8 (sh_ofFn (ht x 0))))
  refine sh_join ?_
  simp only [List.map_cons, List.map_nil]
  exact sh_cons (hx 0) (sh_cons (hx 1) (sh_cons (hx 2) (sh_cons (hx 3) sh_nil)))

theorem rel_decompose_all {Ws Ws' : List ℕ} {l l' : List (AssignedValue n)} (hl : sh st l l')
    (h : Ws.length = l.length) (h' : Ws'.length = l'.length) :
    Runs2 st (decompose_all_with Ws l) (decompose_all_with Ws' l') (sh st) := by
  induction hl generalizing Ws Ws' with
  | nil =>
    obtain rfl := List.length_eq_zero_iff.1 h
    obtain rfl := List.length_eq_zero_iff.1 h'
    exact Runs2.pure sh_nil
  | cons h0 _ ih =>
    match Ws, Ws', h, h' with
    | W :: Ws, W' :: Ws', h, h' =>
      unfold decompose_all_with
      exact (rel_decompose_u256_with _ _ h0).bind fun _ _ ha => (ih (by simpa using h) (by simpa using h')).bind
        fun _ _ hb => Runs2.pure (sh_cons ha hb)

/-- The honest run and a run that decomposes the inputs into other words. -/
theorem rel_hash_words {Ws : List ℕ} {l l' : List (AssignedValue n)} (hl : sh st l l') (h : Ws.length = l.length) :
    Runs2 st (keccak_hash l) (hash_words Ws l') (sh st) := by
  rw [keccak_hash_eq]
  exact rel_hash_with hl (rel_decompose_all hl (by simp) (h.trans (List.Forall₂.length_eq hl)))

end Verif
