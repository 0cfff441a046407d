import Verif.Proof.Keccak
import Verif.Proof.CellsEcc

/-!
# The Keccak chip hands out cells with values
-/

namespace Verif
variable {n : ℕ} {α : Type} {r : RecordsInner n}

/-- Every cell of a lane, of the state, has a value. -/
def LIn (r : RecordsInner n) (a : Lane n) : Prop := ∀ z, In r (a z)
def KIn (r : RecordsInner n) (s : KState n) : Prop := ∀ x y z, In r (s x y z)

theorem LIn.mono {r r' : RecordsInner n} (h : RLe r r') {a : Lane n} (ha : LIn r a) : LIn r' a := fun z => (ha z).mono h
theorem KIn.mono {r r' : RecordsInner n} (h : RLe r r') {s : KState n} (hs : KIn r s) : KIn r' s :=
  fun x y z => (hs x y z).mono h

theorem cel_tabM : ∀ {k : ℕ} {r : RecordsInner n} {f : Fin k → M n α} {P : RecordsInner n → α → Prop},
    (∀ r r' a, RLe r r' → P r a → P r' a) → (∀ i r', RLe r r' → W r' (f i) P) → W r (tabM f) fun r g => ∀ i, P r (g i)
  | 0, _, _, _, _, _ => .pure fun _ _ i => i.elim0
  | _ + 1, r, f, P, hP, h => by
    unfold tabM
    refine (h 0 r (.rfl _)).bind fun a r1 l1 ha => (cel_tabM hP fun i r' hr => h i.succ r' (l1.trans hr)).bind
      fun g r2 l2 hg => .pure fun r3 l3 i => ?_
    refine Fin.cases ?_ (fun i => ?_) i
    · exact hP _ _ _ (l2.trans l3) ha
    · exact hP _ _ _ l3 (hg i)

theorem cel_tabI [HasCells n α] {k : ℕ} {f : Fin k → M n α} (h : ∀ i r', RLe r r' → W r' (f i) In) :
    W r (tabM f) fun r g => ∀ i, In r (g i) := cel_tabM (fun _ _ _ h ha => In.mono h ha) h

theorem cel_theta_column {y : Fin 5 → Lane n} (h : ∀ i, LIn r (y i)) : W r (theta_column y) LIn := by
  unfold theta_column
  refine (cel_tabI fun z r' l => cel_xor ((h 0 z).mono l) ((h 1 z).mono l)).bind fun a r1 l1 ha => ?_
  refine (cel_tabI fun z r' l => cel_xor ((ha z).mono l) ((h 2 z).mono (l1.trans l))).bind fun a r2 l2 ha => ?_
  have l3 := l1.trans l2
  refine (cel_tabI fun z r' l => cel_xor ((ha z).mono l) ((h 3 z).mono (l3.trans l))).bind fun a r4 l4 ha => ?_
  exact cel_tabI fun z r' l => cel_xor ((ha z).mono l) ((h 4 z).mono ((l3.trans l4).trans l))

theorem cel_theta {s : KState n} (h : KIn r s) : W r (theta s) KIn := by
  unfold theta
  refine (cel_tabM (P := LIn) (fun _ _ _ h ha => LIn.mono h ha) fun x r' l =>
    cel_theta_column fun i => LIn.mono l (h x i)).bind fun c r1 l1 hc => ?_
  refine cel_tabM (P := fun r (a : Fin 5 → Lane n) => ∀ y z, In r (a y z)) (fun _ _ _ h ha y z => (ha y z).mono h)
    fun x r2 l2 => ?_
  refine (cel_tabI fun z r' l => cel_xor ((hc _ z).mono (l2.trans l)) ((hc (x + 1) (z + Fin.ofNat 64 1)).mono
    (l2.trans l))).bind fun d r3 l3 hd => ?_
  refine cel_tabM (P := LIn) (fun _ _ _ h ha => LIn.mono h ha) fun y r4 l4 => cel_tabI fun z r5 l5 => ?_
  exact cel_xor ((h x y z).mono ((((l1.trans l2).trans l3).trans l4).trans l5)) ((hd z).mono (l4.trans l5))

theorem KIn.rho_and_pi {s : KState n} (h : KIn r s) : KIn r (rho_and_pi s) := by
  unfold Verif.rho_and_pi
  suffices H : ∀ (l : List ℕ) (p : KState n × Lane n), KIn r p.1 → LIn r p.2 →
      KIn r (l.foldl rho_and_pi_step p).1 from H _ _ h (h 1 0)
  intro l
  induction l with
  | nil => exact fun p h1 _ => h1
  | cons i l ih =>
    intro p h1 h2
    refine ih _ ?_ ?_
    · intro x y z
      simp only [rho_and_pi_step]
      split
      · exact h2 _
      · exact h1 x y z
    · exact fun z => h1 _ _ z

theorem cel_xi {s : KState n} (h : KIn r s) : W r (keccak_xi s) KIn := by
  unfold keccak_xi
  refine cel_tabM (P := fun r (a : Fin 5 → Lane n) => ∀ y z, In r (a y z)) (fun _ _ _ h ha y z => (ha y z).mono h)
    fun x r1 l1 => ?_
  refine cel_tabM (P := LIn) (fun _ _ _ h ha => LIn.mono h ha) fun y r2 l2 => cel_tabI fun z r3 l3 => ?_
  have h := h.mono ((l1.trans l2).trans l3)
  exact (cel_not_and (h (x + 1) y z) (h (x + 2) y z)).bind fun _ _ l ht => cel_xor ((h x y z).mono l) ht

theorem cel_iota {s : KState n} (h : KIn r s) (i : ℕ) : W r (iota s i) KIn := by
  unfold iota
  refine (cel_index_any ROUND_CONSTANTS i).bind fun rc r1 l1 _ => ?_
  have h := h.mono l1
  refine (cel_tabI fun z r' l => W.ite (cel_not ((h 0 0 z).mono l)) (.ret ((h 0 0 z).mono l))).bind
    fun l r2 l2 hl => .pure fun r3 l3 x y z => ?_
  show In r3 ((if x = 0 ∧ y = 0 then l else s x y) z)
  by_cases e : x = 0 ∧ y = 0
  · rw [if_pos e]; exact (hl z).mono l3
  · rw [if_neg e]; exact (h x y z).mono (l2.trans l3)

theorem cel_permute_rounds (is : List ℕ) {s : KState n} (h : KIn r s) : W r (permute_rounds is s) KIn := by
  induction is generalizing s r with
  | nil => exact .pure fun _ l => h.mono l
  | cons i is ih =>
    unfold permute_rounds
    exact (cel_theta h).bind fun _ _ _ h1 => (cel_xi h1.rho_and_pi).bind fun _ _ _ h2 =>
      (cel_iota h2 i).bind fun _ _ _ h3 => ih h3

theorem cel_permute {s : KState n} (h : KIn r s) : W r (permute s) KIn := cel_permute_rounds _ h

theorem cel_absorb {s : KState n} (h : KIn r s) {l : List (AssignedCondition n)} (hl : In r l) :
    W r (absorb s l) KIn := by
  unfold absorb
  refine (cel_rassert _).bind fun _ r0 l0 _ => ?_
  have step : ∀ (i : Fin 17) (j k : Fin 8) (r' : RecordsInner n), RLe r0 r' → W r'
      (do let a ← index l (i * 64 + j * 8 + k)
          xor a (s (Fin.ofNat 5 (i % 5)) (Fin.ofNat 5 (i / 5)) (Fin.ofNat 64 ((8 - j - 1) * 8 + k)))) In := by
    intro i j k r' hr
    exact (cel_index (hl.mono (l0.trans hr)) _).bind fun _ _ h1 ha => cel_xor ha ((h _ _ _).mono ((l0.trans hr).trans h1))
  refine W.bind (cel_tabM (P := fun r (a : Fin 8 → Fin 8 → AssignedValue n) => ∀ y z, In r (a y z))
    (fun _ _ _ h ha y z => (ha y z).mono h) fun i r1 l1 =>
    cel_tabM (P := fun r (a : Fin 8 → AssignedValue n) => ∀ z, In r (a z)) (fun _ _ _ h ha z => (ha z).mono h)
      fun j r2 l2 => cel_tabI fun k r3 l3 => step i j k r3 ((l1.trans l2).trans l3)) fun g r1 l1 hg => ?_
  refine cel_permute ?_
  intro x y z
  dsimp only
  by_cases e : 5 * y.val + x.val < 17
  · rw [dif_pos e]; exact hg _ _ _
  · rw [dif_neg e]; exact (h x y z).mono (l0.trans l1)

theorem cel_foldlM_absorb (ls : List (List (AssignedCondition n))) (hl : In r ls) {s : KState n} (h : KIn r s) :
    W r (ls.foldlM absorb s) KIn := by
  induction ls generalizing s r with
  | nil => exact .pure fun _ l => h.mono l
  | cons a l ih =>
    rw [List.foldlM_cons]
    exact (cel_absorb h (in_cons_iff.1 hl).1).bind fun _ _ l1 h1 => ih ((in_cons_iff.1 hl).2.mono l1) h1

theorem cel_decompose_u256_with (b : ℕ) {v : AssignedValue n} (h : In r v) : W r (decompose_u256_with b v) In := by
  unfold decompose_u256_with
  exact (cel_native_bits _ _ h).bind fun _ _ _ hr => (cel_assert_constant (in_snd hr) _).bind fun _ _ l _ =>
    .ret (in_reverse ((in_fst hr).mono l))

theorem cel_compose_loop : ∀ (k : ℕ) {r : RecordsInner n} {l : List (AssignedCondition n)}, l.length ≤ k → In r l →
    ∀ {a : AssignedValue n}, In r a → W r (compose_loop l a) In := by
  intro k
  induction k with
  | zero =>
    intro r l hk hl a ha
    cases l with
    | nil => unfold compose_loop; exact .ret ha
    | cons _ _ => simp at hk
  | succ k ih =>
    intro r l hk hl a ha
    rcases l with _ | ⟨b, _ | ⟨c, l⟩⟩
    · unfold compose_loop; exact .ret ha
    · unfold compose_loop; exact .ret ha
    · unfold compose_loop
      have h1 := (in_cons_iff.1 hl).1
      have h2 := (in_cons_iff.1 (in_cons_iff.1 hl).2).1
      have h3 := (in_cons_iff.1 (in_cons_iff.1 hl).2).2
      refine (cel_sum_with_constant ?_ _).bind fun _ _ l1 hr => ih (by simp at hk; omega) (h3.mono l1) hr
      cells

theorem cel_compose_to_scalar_be {l : List (AssignedCondition n)} (hl : In r l) : W r (compose_to_scalar_be l) In := by
  unfold compose_to_scalar_be
  exact (cel_rassert _).bind fun _ _ l1 _ => (cel_assign_constant _).bind fun _ _ l2 ha =>
    cel_compose_loop _ le_rfl (hl.mono (l1.trans l2)) ha

theorem in_join [HasCells n α] {l : List (List α)} (h : In r l) : In r l.flatten := by
  refine in_list_iff.2 fun a ha => ?_
  obtain ⟨k, hk, hm⟩ := List.mem_flatten.1 ha
  exact in_list_iff.1 (in_list_iff.1 h k hk) a hm

theorem in_chunks_exact (k : ℕ) {l : List (AssignedCondition n)} (h : In r l) : In r (chunks_exact k l) := by
  unfold chunks_exact
  refine in_list_iff.2 fun a ha => ?_
  obtain ⟨i, -, rfl⟩ := List.mem_map.1 ha
  exact in_take (in_drop h)

theorem in_padding {o z : AssignedValue n} (ho : In r o) (hz : In r z) (k : ℕ) : In r (keccak_padding o z k) := by
  unfold keccak_padding
  dsimp only
  split <;> cells

theorem in_ofFn {x : Lane n} (h : LIn r x) : In r (List.ofFn x) := by
  refine in_list_iff.2 fun a ha => ?_
  obtain ⟨i, rfl⟩ := (List.mem_ofFn' x a).1 ha
  exact h i

theorem cel_hash_with {d : List (AssignedValue n) → M n (List (List (AssignedCondition n)))}
    {l : List (AssignedValue n)} (hd : ∀ r', RLe r r' → W r' (d l) In) : W r (hash_with d l) In := by
  unfold hash_with
  refine (cel_assign_constant _).bind fun _ _ l1 h1 => (cel_assign_constant _).bind fun _ _ l2 h0 => ?_
  refine W.bind (P := KIn) ((cel_assign_constant _).bind fun _ _ _ hz => .pure fun _ l _ _ _ => hz.mono l)
    fun s r3 l3 hs => (hd _ ((l1.trans l2).trans l3)).bind fun ws r4 l4 hws => ?_
  refine (cel_foldlM_absorb _ (in_chunks_exact _ (in_append (in_join hws) (in_padding
    (h1.mono ((l2.trans l3).trans l4)) (h0.mono (l3.trans l4)) _))) (hs.mono l4)).bind fun t r5 l5 ht =>
    cel_compose_to_scalar_be ?_
  have hx : ∀ x, In r5 (chunks_exact 8 (List.ofFn (t x 0))).reverse.flatten := fun x =>
    in_join (in_reverse (in_chunks_exact 8 (in_ofFn (ht x 0))))
  refine in_join ?_
  simp only [List.map_cons, List.map_nil]
  exact in_cons (hx 0) (in_cons (hx 1) (in_cons (hx 2) (in_cons (hx 3) in_nil)))

theorem cel_decompose_scalar_as_u256_be {a : AssignedValue n} (h : In r a) :
    W r (decompose_scalar_as_u256_be a) In := cel_decompose_u256_with _ h

theorem cel_keccak_hash {l : List (AssignedValue n)} (hl : In r l) : W r (keccak_hash l) In :=
  cel_hash_with fun _ h => cel_mapM (hl.mono h) fun _ _ _ h => cel_decompose_u256_with _ h

end Verif
