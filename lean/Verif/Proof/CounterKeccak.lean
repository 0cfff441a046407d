import Verif.Proof.Keccak
import Verif.Proof.CounterEcc

/-!
# The Keccak chip keeps counters small
-/

set_option linter.unusedVariables false

namespace Verif
variable {n : ℕ} {α : Type} {r : Tag n}

/-- Every cell of a lane, of the state, has a value. -/
def LSmall (r : Tag n) (a : Lane n) : Prop := ∀ z, Small r (a z)
def KSmall (r : Tag n) (s : KState n) : Prop := ∀ x y z, Small r (s x y z)

theorem LSmall.mono {r r' : Tag n} (h : Later r r') {a : Lane n} (ha : LSmall r a) : LSmall r' a := fun z => (ha z).mono h
theorem KSmall.mono {r r' : Tag n} (h : Later r r') {s : KState n} (hs : KSmall r s) : KSmall r' s :=
  fun x y z => (hs x y z).mono h

theorem cnt_tabM : ∀ {k : ℕ} {r : Tag n} {f : Fin k → M n α} {P : Tag n → α → Prop},
    (∀ r r' a, Later r r' → P r a → P r' a) → (∀ i r', Later r r' → Safe r' (f i) P) → Safe r (tabM f) fun r g => ∀ i, P r (g i)
  | 0, _, _, _, _, _ => .pure fun _ _ i => i.elim0
  | _ + 1, r, f, P, hP, h => by
    unfold tabM
    refine (h 0 r (.rfl _)).bind fun a r1 l1 ha => (cnt_tabM hP fun i r' hr => h i.succ r' (l1.trans hr)).bind
      fun g r2 l2 hg => .pure fun r3 l3 i => ?_
    refine Fin.cases ?_ (fun i => ?_) i
    · exact hP _ _ _ (l2.trans l3) ha
    · exact hP _ _ _ l3 (hg i)

theorem cnt_tabI [HasCounters n α] {k : ℕ} {f : Fin k → M n α} (h : ∀ i r', Later r r' → Safe r' (f i) Small) :
    Safe r (tabM f) fun r g => ∀ i, Small r (g i) := cnt_tabM (fun _ _ _ h ha => Small.mono h ha) h

theorem cnt_theta_column {y : Fin 5 → Lane n} (h : ∀ i, LSmall r (y i)) : Safe r (theta_column y) LSmall := by
  unfold theta_column
  refine (cnt_tabI fun z r' l => cnt_xor ((h 0 z).mono l) ((h 1 z).mono l)).bind fun a r1 l1 ha => ?_
  refine (cnt_tabI fun z r' l => cnt_xor ((ha z).mono l) ((h 2 z).mono (l1.trans l))).bind fun a r2 l2 ha => ?_
  have l3 := l1.trans l2
  refine (cnt_tabI fun z r' l => cnt_xor ((ha z).mono l) ((h 3 z).mono (l3.trans l))).bind fun a r4 l4 ha => ?_
  exact cnt_tabI fun z r' l => cnt_xor ((ha z).mono l) ((h 4 z).mono ((l3.trans l4).trans l))

theorem cnt_theta {s : KState n} (h : KSmall r s) : Safe r (theta s) KSmall := by
  unfold theta
  refine (cnt_tabM (P := LSmall) (fun _ _ _ h ha => LSmall.mono h ha) fun x r' l =>
    cnt_theta_column fun i => LSmall.mono l (h x i)).bind fun c r1 l1 hc => ?_
  refine cnt_tabM (P := fun r (a : Fin 5 → Lane n) => ∀ y z, Small r (a y z)) (fun _ _ _ h ha y z => (ha y z).mono h)
    fun x r2 l2 => ?_
  refine (cnt_tabI fun z r' l => cnt_xor ((hc _ z).mono (l2.trans l)) ((hc (x + 1) (z + Fin.ofNat 64 1)).mono
    (l2.trans l))).bind fun d r3 l3 hd => ?_
  refine cnt_tabM (P := LSmall) (fun _ _ _ h ha => LSmall.mono h ha) fun y r4 l4 => cnt_tabI fun z r5 l5 => ?_
  exact cnt_xor ((h x y z).mono ((((l1.trans l2).trans l3).trans l4).trans l5)) ((hd z).mono (l4.trans l5))

theorem KSmall.rho_and_pi {s : KState n} (h : KSmall r s) : KSmall r (rho_and_pi s) := by
  unfold Verif.rho_and_pi
  suffices H : ∀ (l : List ℕ) (p : KState n × Lane n), KSmall r p.1 → LSmall r p.2 →
      KSmall r (l.foldl rho_and_pi_step p).1 from H _ _ h (h 1 0)
  intro l
  induction l with
  | nil => exact fun p h1 _ => h1
  | cons i l ih =>
    intro p h1 h2
    refine ih _ ?_ ?_
    · intro x y z
      simp only [rho_and_pi_step]
      split
      · exact h2 _
      · exact h1 x y z
    · exact fun z => h1 _ _ z

theorem cnt_xi {s : KState n} (h : KSmall r s) : Safe r (keccak_xi s) KSmall := by
  unfold keccak_xi
  refine cnt_tabM (P := fun r (a : Fin 5 → Lane n) => ∀ y z, Small r (a y z)) (fun _ _ _ h ha y z => (ha y z).mono h)
    fun x r1 l1 => ?_
  refine cnt_tabM (P := LSmall) (fun _ _ _ h ha => LSmall.mono h ha) fun y r2 l2 => cnt_tabI fun z r3 l3 => ?_
  have h := h.mono ((l1.trans l2).trans l3)
  exact (cnt_not_and (h (x + 1) y z) (h (x + 2) y z)).bind fun _ _ l ht => cnt_xor ((h x y z).mono l) ht

theorem cnt_iota {s : KState n} (h : KSmall r s) (i : ℕ) : Safe r (iota s i) KSmall := by
  unfold iota
  refine (cnt_index_any ROUND_CONSTANTS i).bind fun rc r1 l1 _ => ?_
  have h := h.mono l1
  refine (cnt_tabI fun z r' l => Safe.ite (cnt_not ((h 0 0 z).mono l)) (.ret ((h 0 0 z).mono l))).bind
    fun l r2 l2 hl => .pure fun r3 l3 x y z => ?_
  show Small r3 ((if x = 0 ∧ y = 0 then l else s x y) z)
  by_cases e : x = 0 ∧ y = 0
  · rw [if_pos e]; exact (hl z).mono l3
  · rw [if_neg e]; exact (h x y z).mono (l2.trans l3)

theorem cnt_permute_rounds (is : List ℕ) {s : KState n} (h : KSmall r s) : Safe r (permute_rounds is s) KSmall := by
  induction is generalizing s r with
  | nil => exact .pure fun _ l => h.mono l
  | cons i is ih =>
    unfold permute_rounds
    exact (cnt_theta h).bind fun _ _ _ h1 => (cnt_xi h1.rho_and_pi).bind fun _ _ _ h2 =>
      (cnt_iota h2 i).bind fun _ _ _ h3 => ih h3

theorem cnt_permute {s : KState n} (h : KSmall r s) : Safe r (permute s) KSmall := cnt_permute_rounds _ h

theorem cnt_absorb {s : KState n} (h : KSmall r s) {l : List (AssignedCondition n)} (hl : Small r l) :
    Safe r (absorb s l) KSmall := by
  unfold absorb
  refine (cnt_rassert _).bind fun _ r0 l0 _ => ?_
  have step : ∀ (i : Fin 17) (j k : Fin 8) (r' : Tag n), Later r0 r' → Safe r'
      (do let a ← index l (i * 64 + j * 8 + k)
          xor a (s (Fin.ofNat 5 (i % 5)) (Fin.ofNat 5 (i / 5)) (Fin.ofNat 64 ((8 - j - 1) * 8 + k)))) Small := by
    intro i j k r' hr
    exact (cnt_index (hl.mono (l0.trans hr)) _).bind fun _ _ h1 ha => cnt_xor ha ((h _ _ _).mono ((l0.trans hr).trans h1))
  refine Safe.bind (cnt_tabM (P := fun r (a : Fin 8 → Fin 8 → AssignedValue n) => ∀ y z, Small r (a y z))
    (fun _ _ _ h ha y z => (ha y z).mono h) fun i r1 l1 =>
    cnt_tabM (P := fun r (a : Fin 8 → AssignedValue n) => ∀ z, Small r (a z)) (fun _ _ _ h ha z => (ha z).mono h)
      fun j r2 l2 => cnt_tabI fun k r3 l3 => step i j k r3 ((l1.trans l2).trans l3)) fun g r1 l1 hg => ?_
  refine cnt_permute ?_
  intro x y z
  dsimp only
  by_cases e : 5 * y.val + x.val < 17
  · rw [dif_pos e]; exact hg _ _ _
  · rw [dif_neg e]; exact (h x y z).mono (l0.trans l1)

theorem cnt_foldlM_absorb (ls : List (List (AssignedCondition n))) (hl : Small r ls) {s : KState n} (h : KSmall r s) :
    Safe r (ls.foldlM absorb s) KSmall := by
  induction ls generalizing s r with
  | nil => exact .pure fun _ l => h.mono l
  | cons a l ih =>
    rw [List.foldlM_cons]
    exact (cnt_absorb h (small_cons_iff.1 hl).1).bind fun _ _ l1 h1 => ih ((small_cons_iff.1 hl).2.mono l1) h1

theorem cnt_decompose_u256_with (b : ℕ) {v : AssignedValue n} (h : Small r v) : Safe r (decompose_u256_with b v) Small := by
  unfold decompose_u256_with
  exact (cnt_native_bits _ _ h).bind fun _ _ _ hr => (cnt_assert_constant (small_snd hr) _).bind fun _ _ l _ =>
    .ret (small_reverse ((small_fst hr).mono l))

theorem cnt_compose_loop : ∀ (k : ℕ) {r : Tag n} {l : List (AssignedCondition n)}, l.length ≤ k → Small r l →
    ∀ {a : AssignedValue n}, Small r a → Safe r (compose_loop l a) Small := by
  intro k
  induction k with
  | zero =>
    intro r l hk hl a ha
    cases l with
    | nil => unfold compose_loop; exact .ret ha
    | cons _ _ => simp at hk
  | succ k ih =>
    intro r l hk hl a ha
    rcases l with _ | ⟨b, _ | ⟨c, l⟩⟩
    · unfold compose_loop; exact .ret ha
    · unfold compose_loop; exact .ret ha
    · unfold compose_loop
      have h1 := (small_cons_iff.1 hl).1
      have h2 := (small_cons_iff.1 (small_cons_iff.1 hl).2).1
      have h3 := (small_cons_iff.1 (small_cons_iff.1 hl).2).2
      refine (cnt_sum_with_constant ?_ _).bind fun _ _ l1 hr => ih (by simp at hk; omega) (h3.mono l1) hr
      counters

theorem cnt_compose_to_scalar_be {l : List (AssignedCondition n)} (hl : Small r l) : Safe r (compose_to_scalar_be l) Small := by
  unfold compose_to_scalar_be
  exact (cnt_rassert _).bind fun _ _ l1 _ => (cnt_assign_constant _).bind fun _ _ l2 ha =>
    cnt_compose_loop _ le_rfl (hl.mono (l1.trans l2)) ha

theorem small_join [HasCounters n α] {l : List (List α)} (h : Small r l) : Small r l.flatten := by
  refine small_list_iff.2 fun a ha => ?_
  obtain ⟨k, hk, hm⟩ := List.mem_flatten.1 ha
  exact small_list_iff.1 (small_list_iff.1 h k hk) a hm

theorem small_chunks_exact (k : ℕ) {l : List (AssignedCondition n)} (h : Small r l) : Small r (chunks_exact k l) := by
  unfold chunks_exact
  refine small_list_iff.2 fun a ha => ?_
  obtain ⟨i, -, rfl⟩ := List.mem_map.1 ha
  exact small_take (small_drop h)

theorem small_padding {o z : AssignedValue n} (ho : Small r o) (hz : Small r z) (k : ℕ) : Small r (keccak_padding o z k) := by
  unfold keccak_padding
  dsimp only
  split <;> counters

theorem small_ofFn {x : Lane n} (h : LSmall r x) : Small r (List.ofFn x) := by
  refine small_list_iff.2 fun a ha => ?_
  obtain ⟨i, rfl⟩ := (List.mem_ofFn' x a).1 ha
  exact h i

theorem cnt_hash_with {d : List (AssignedValue n) → M n (List (List (AssignedCondition n)))}
    {l : List (AssignedValue n)} (hd : ∀ r', Later r r' → Safe r' (d l) Small) : Safe r (hash_with d l) Small := by
  unfold hash_with
  refine (cnt_assign_constant _).bind fun _ _ l1 h1 => (cnt_assign_constant _).bind fun _ _ l2 h0 => ?_
  refine Safe.bind (P := KSmall) ((cnt_assign_constant _).bind fun _ _ _ hz => .pure fun _ l _ _ _ => hz.mono l)
    fun s r3 l3 hs => (hd _ ((l1.trans l2).trans l3)).bind fun ws r4 l4 hws => ?_
  refine (cnt_foldlM_absorb _ (small_chunks_exact _ (small_append (small_join hws) (small_padding
    (h1.mono ((l2.trans l3).trans l4)) (h0.mono (l3.trans l4)) _))) (hs.mono l4)).bind fun t r5 l5 ht =>
    cnt_compose_to_scalar_be ?_
  have hx : ∀ x, Small r5 (chunks_exact 8 (List.ofFn (t x 0))).reverse.flatten := fun x =>
    small_join (small_reverse (small_chunks_exact 8 (small_ofFn (ht x 0))))
  refine small_join ?_
  simp only [List.map_cons, List.map_nil]
  exact small_cons (hx 0) (small_cons (hx 1) (small_cons (hx 2) (small_cons (hx 3) small_nil)))

theorem cnt_decompose_scalar_as_u256_be {a : AssignedValue n} (h : Small r a) :
    Safe r (decompose_scalar_as_u256_be a) Small := cnt_decompose_u256_with _ h

theorem cnt_keccak_hash {l : List (AssignedValue n)} (hl : Small r l) : Safe r (keccak_hash l) Small :=
  cnt_hash_with fun _ h => cnt_mapM (hl.mono h) fun _ _ _ h => cnt_decompose_u256_with _ h

end Verif
