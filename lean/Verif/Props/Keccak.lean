import Verif.Proof.RelKeccak
import Verif.Proof.KeccakEval
import Verif.Proof.Forge
import Verif.Proof.Primes

/-!
# C44, C45: the Keccak chip

On 0/1 cells the chip computes Keccak-f[1600] and Keccak-256 (C44). The words it hashes are not determined by the field
elements handed to it: any numbers below `2 ^ 256` congruent to them will do (C45 is violated).
-/

namespace Verif
variable {n : ℕ}

/-- The cells of the chip's state hold the bits of the state array; the chip stores lanes most significant bit first. -/
def HoldsState (f : AssignedValue n → ZMod n) (s : KState n) (A : Keccak.State) : Prop :=
  ∀ x y z, f (s x y z) = if A x y z.rev then 1 else 0

/-- 256 cells holding the bits of a number, most significant first. -/
def HoldsWord (f : AssignedValue n → ZMod n) (l : List (AssignedCondition n)) (W : ℕ) : Prop :=
  l.map f = (List.range 256).map fun k => if W.testBit (255 - k) then 1 else 0

theorem HoldsState.iff {md : Mode n} {s : KState n} {A : Keccak.State} : HoldsState md.val s A ↔ SBits md s A :=
  Iff.rfl

theorem HoldsWord.iff {md : Mode n} {l : List (AssignedValue n)} {W : ℕ} :
    HoldsWord md.val l W ↔ CBits md l (wordBits W) := by
  unfold HoldsWord CBits wordBits
  generalize List.range 256 = ks
  induction ks generalizing l with
  | nil => simp
  | cons k ks ih =>
    cases l with
    | nil => simp
    | cons a l =>
      simp only [List.map_cons, List.cons.injEq, List.forall₂_cons]
      exact and_congr Iff.rfl ih

/-- C44, the permutation: in every satisfying assignment, from cells holding a state array, `permute` returns cells
holding its image under Keccak-f[1600]. -/
theorem C44_permute_sound (s : KState n) :
    Sound (permute s) (fun w r => ∀ A, HoldsState (cv w) s A → HoldsState (cv w) r (Keccak.keccakF A)) := by
  intro c w hw s0 r t hf e
  exact ⟨(K_permute (md := .sound c w hw) (s := s) (A := fun _ _ _ => false) s0 r t hf e).1,
    (K_permute (md := .sound c w hw) (s := s) (A := fun _ _ _ => false) s0 r t hf e).2.1,
    fun he A => (K_permute (md := .sound c w hw) (s := s) (A := A) s0 r t hf e).2.2 he⟩

/-- And the honest prover's witness is accepted. -/
theorem C44_permute_complete (s : KState n) (A : Keccak.State) (hs : HoldsState AssignedValue.val s A) :
    Complete (permute s) (fun h => ∀ x y z, Ok h (s x y z)) (fun r => HoldsState AssignedValue.val r (Keccak.keccakF A))
      (fun h r => ∀ x y z, Ok h (r x y z)) := by
  intro c h
  have := (K_permute (md := .honest c h) (s := s) (A := A) hs)
  refine C.mono (C.weaken this ?_) (fun r hr => hr) fun r _ _ hr x y z => hr _ ⟨x, y, z, rfl⟩
  rintro hH a ⟨x, y, z, rfl⟩
  exact hH x y z

/-- C44, the digest of blocks of 0/1 cells: padding, absorbing and squeezing after the decomposition of the inputs. In
every satisfying assignment, from lists of cells holding 256-bit numbers, `hash` returns Keccak-256 of their big-endian
concatenation. -/
theorem C44_blocks_sound [Fact (1 < n)] (input : List (AssignedValue n)) (words : List (List (AssignedCondition n)))
    (hl : words.length = input.length) :
    Sound (hash_with (fun _ => pure words) input) (fun w r => ∀ Ws, List.Forall₂ (HoldsWord (cv w)) words Ws →
      w r.cell = ((Keccak.hashWords Ws : ℕ) : ZMod n)) := by
  intro c w hw
  have key : ∀ Ws, S c (hash_with (fun _ => pure words) input) (fun r =>
      List.Forall₂ (HoldsWord (cv w)) words Ws → w r.cell = ((Keccak.hashWords Ws : ℕ) : ZMod n)) := by
    intro Ws
    have := K_hash (md := .sound c w hw) (pre := List.Forall₂ (HoldsWord (cv w)) words Ws) (input := input)
      (Q := fun Vs => Vs = Ws) (decompose := fun _ => pure words) (S.pure fun h =>
        ⟨Ws, rfl, h.length_eq ▸ hl, h.imp fun a b hab => (HoldsWord.iff (md := .sound c w hw)).1 hab⟩)
    exact S.mono this fun r hr h => by obtain ⟨_, rfl, -, h⟩ := hr h; exact h
  intro s0 r t hf e
  exact ⟨(key [] s0 r t hf e).1, (key [] s0 r t hf e).2.1, fun he Ws => (key Ws s0 r t hf e).2.2 he⟩

/-- C44, the whole hash: in every satisfying assignment in which the bits of the decomposition are 0/1 (see C06), the
digest is Keccak-256 of 256-bit numbers congruent to the inputs. -/
theorem C44_hash_sound [Fact n.Prime] (input : List (AssignedValue n)) (c : Circuit n) (w : Advice n) (hw : c.Sat w)
    (hb : c.BitRowsConsistent w) :
    S c (keccak_hash input) (fun r => ∃ Ws : List ℕ,
      List.Forall₂ (fun a (W : ℕ) => W < 2 ^ 256 ∧ (W : ZMod n) = w a.cell) input Ws ∧
      w r.cell = ((Keccak.hashWords Ws : ℕ) : ZMod n)) := S_keccak_hash hw hb input

/-- The honest prover's digest is Keccak-256 of the canonical representatives of the inputs. -/
theorem C44_hash_complete [Fact n.Prime] (hn : n ≤ 2 ^ 256) (input : List (AssignedValue n)) :
    Complete (keccak_hash input) (fun h => ∀ a ∈ input, Ok h a)
      (fun r => r.val = ((Keccak.hashWords (input.map fun a => a.val.val) : ℕ) : ZMod n)) (fun h r => Ok h r) := by
  intro c h
  rw [keccak_hash_eq]
  refine C_hash_words ?_
  induction input with
  | nil => exact .nil
  | cons a input ih => exact .cons ⟨lt_of_lt_of_le (ZMod.val_lt _) hn, by simp⟩ ih

/-- C44, the padding on its own, for a message of any number of bytes, also where `hash`, which is given whole words, never
gets to: the bytes of the chip's padding, most significant bit first, are the bytes of `pad10*1`, least significant bit
first. The case of a single byte, `0x81`, is included. -/
theorem C44_padding (len : ℕ) : ∃ B : List ℕ, (∀ b ∈ B, b < 256) ∧
    keccak_padding true false (8 * len) = (B.flatMap fun b => (List.range 8).map fun r => b.testBit (7 - r)) ∧
    Keccak.pad (8 * len) = Keccak.bitsOf B ∧ (8 * len + 8 * B.length) % 1088 = 0 := by
  by_cases h : (8 * len + 8 + 1088 - 1) / 1088 * 1088 - 8 * len = 8
  · refine ⟨[129], by simp, ?_, ?_, ?_⟩
    · unfold keccak_padding
      dsimp only [ABSORB_BITS_RATE]
      rw [if_pos h]
      rfl
    · rw [Keccak.pad, show ((-((8 * len : ℕ) : ℤ) - 2) % 1088).toNat = 6 by omega]
      rfl
    · show (8 * len + 8 * 1) % 1088 = 0
      omega
  · have hz : ∀ f : ℕ → ℕ → Bool, (∀ r, f 0 r = false) → ∀ k, ((List.replicate k 0).flatMap fun b => (List.range 8).map (f b)) =
        List.replicate (8 * k) false := by
      intro f hf k
      rw [← flatMap_replicate_zero (f 0) (fun r _ => hf r) k]
      exact List.flatMap_congr fun b hb => by rw [List.eq_of_mem_replicate hb]
    refine ⟨padBytes len, ?_, ?_, ?_, ?_⟩
    · intro b hb
      simp only [padBytes, List.mem_append, List.mem_singleton, List.mem_replicate] at hb
      omega
    · unfold keccak_padding
      dsimp only [ABSORB_BITS_RATE]
      rw [if_neg h, padBytes, List.flatMap_append, List.flatMap_append, hz (fun b r => b.testBit (7 - r)) (by simp),
        show 8 * (((8 * len + 8 + 1088 - 1) / 1088 * 1088 - 8 * len - 16) / 8) =
          (8 * len + 8 + 1088 - 1) / 1088 * 1088 - 8 * len - 16 by omega]
      rfl
    · rw [Keccak.pad, Keccak.bitsOf, padBytes, List.flatMap_append, List.flatMap_append, hz (fun b r => b.testBit r) (by simp),
        show ((-((8 * len : ℕ) : ℤ) - 2) % 1088).toNat = 7 +
          8 * (((8 * len + 8 + 1088 - 1) / 1088 * 1088 - 8 * len - 16) / 8) + 7 by omega, List.replicate_add, List.replicate_add]
      simp only [List.flatMap_cons, List.flatMap_nil, List.append_nil, List.append_assoc]
      rfl
    · rw [padBytes]
      simp only [List.length_append, List.length_replicate, List.length_singleton]
      omega

/-- A message of 135 bytes is padded with the one byte `0x81`. -/
example : keccak_padding true false (8 * 135) = [true, false, false, false, false, false, false, true] := rfl

/-- Keccak-256 of 32 zero bytes, computed by an accepted circuit over the scalar field of BN254. -/
example : Accepted (n := bnR) (do let a ← assign 0; keccak_hash [a]) (fun r => r.val =
    ((0x290decd9548b62a8d60345a988386fc84ba6bc95484008f6362f93160ef3e563 : ℕ) : ZMod bnR)) := by
  refine Accepted.of_C (Q := fun h r => Ok h r) fun c h => C.bind C_assign fun a ha => ?_
  have := (C44_hash_complete (by decide +kernel) [a] c h).weaken (H' := True ∧ Ok h a) fun hH b hb => by
    rw [List.mem_singleton.1 hb]; exact hH.2
  refine this.mono (fun r hr => ?_) fun _ _ _ hq => hq
  rw [hr, List.map_cons, List.map_nil, ha, ZMod.val_zero, Keccak.hashWords_zero]

/-- The specification on the empty message and on "abc". -/
example : Keccak.ofBeBytes (Keccak.keccak256 []) =
    0xc5d2460186f7233c927e7db2dcc703c0e500b653ca82273b7bfad8045d85a470 :=
  Keccak.keccak256_nil

/-- C45, what holds: the digest is that of 256-bit numbers congruent to the inputs. Missing: which ones
(`C45_violated`). -/
theorem C45_partial [Fact n.Prime] (input : List (AssignedValue n)) (c : Circuit n) (w : Advice n) (hw : c.Sat w)
    (hb : c.BitRowsConsistent w) :
    S c (keccak_hash input) (fun r => ∃ Ws : List ℕ,
      List.Forall₂ (fun a (W : ℕ) => W < 2 ^ 256 ∧ (W : ZMod n) = w a.cell) input Ws ∧
      w r.cell = ((Keccak.hashWords Ws : ℕ) : ZMod n)) := S_keccak_hash hw hb input

/-- Assign the values as witnesses. -/
def assign_values : List (ZMod n) → M n (List (AssignedValue n))
  | [] => pure []
  | v :: vs => do
    let a ← assign v
    let l ← assign_values vs
    pure (a :: l)

theorem rel_assign_values {st : Prop} : ∀ vs : List (ZMod n), Runs2 st (assign_values vs) (assign_values vs)
    (fun l l' => sh st l l' ∧ l.length = vs.length)
  | [] => Runs2.pure ⟨sh_nil, rfl⟩
  | v :: vs => (rel_assign v v).bind fun _ _ ha => (rel_assign_values vs).bind fun _ _ hl =>
      Runs2.pure ⟨sh_cons ha hl.1, by simp [hl.2]⟩

theorem C_assign_values {c : Circuit n} {h : Advice n} {H : Prop} : ∀ vs : List (ZMod n),
    C c h H (assign_values vs) (fun l => l.map AssignedValue.val = vs) (fun l => ∀ a ∈ l, Ok h a)
  | [] => C.pure rfl fun _ a ha => absurd ha (by simp)
  | v :: vs => by
    refine C.bind C_assign fun a ha => C.bind (C_assign_values vs) fun l hl => C.pure (by simp [ha, hl]) fun hH b hb => ?_
    rcases List.mem_cons.1 hb with rfl | hb
    · exact hH.1.2
    · exact hH.2 b hb

/-- C45 violated, in general: the prover may choose the 256-bit numbers to be hashed, among those congruent to the
inputs. One circuit, the same values in the input cells, and the digest of any choice of representatives. -/
theorem C45_violated_representatives [Fact n.Prime] (hn : n ≤ 2 ^ 256) (vs : List (ZMod n)) :
    ∃ l r t, (do let l ← assign_values vs; let r ← keccak_hash l; pure (l, r) : M n _) (.new n) = .ok ((l, r), t) ∧
      ∀ usable, t.Fits usable → ∀ Ws : List ℕ, List.Forall₂ (fun v (W : ℕ) => W < 2 ^ 256 ∧ (W : ZMod n) = v) vs Ws →
        ∃ w, (t.circuit usable).Sat w ∧ l.map (cv w) = vs ∧ w r.cell = ((Keccak.hashWords Ws : ℕ) : ZMod n) := by
  obtain ⟨⟨l, r⟩, t, hrun, -⟩ : Accepted (do let l ← assign_values vs; let r ← keccak_hash l; pure (l, r) : M n _)
      (fun _ => True) :=
    Accepted.of_C (Q := fun _ _ => True) fun c h => C.bind (C_assign_values vs) fun l hl =>
      C.bind ((C44_hash_complete hn l c h).weaken fun hH => hH.2) fun r hr => C.pure trivial fun _ => trivial
  refine ⟨l, r, t, hrun, fun usable hf Ws hWs => ?_⟩
  obtain ⟨⟨l', r'⟩, w, hsh, ⟨hl, hr⟩, hw⟩ := forge (m' := do
      let l ← assign_values vs; let r ← hash_words Ws l; pure (l, r))
    ((rel_assign_values vs).bind fun a a' ha => (rel_hash_words ha.1 (by rw [ha.2, hWs.length_eq])).bind fun _ _ hr =>
        Runs2.pure (sh_pair ha.1 hr)) hrun
    (P := fun r => r.1.map AssignedValue.val = vs ∧ r.2.val = ((Keccak.hashWords Ws : ℕ) : ZMod n))
    (Q := fun w r => (∀ a ∈ r.1, Ok w a) ∧ Ok w r.2) (by
      intro c h
      refine C.bind (C_assign_values vs) fun l hl => C.bind ((C_hash_words (Ws := Ws) ?_).weaken fun hH => hH.2) fun r hr => C.pure ⟨hl, hr⟩
        fun hH => ⟨hH.1.2, hH.2⟩
      rw [← hl, List.forall₂_map_left_iff] at hWs
      exact hWs)
  obtain ⟨h1, h2, h3⟩ := hw usable hf
  refine ⟨w, h1, ?_, ?_⟩
  · have hc : ∀ {l l' : List (AssignedValue n)}, sh True l l' → (∀ a ∈ l', Ok w a) →
        l.map (cv w) = l'.map AssignedValue.val := by
      intro l l' hs hok
      induction hs with
      | nil => rfl
      | cons h0 _ ih =>
        rw [List.map_cons, List.map_cons, ih fun a ha => hok a (List.mem_cons_of_mem _ ha)]
        congr 1
        rw [cv, h0 trivial]
        exact hok _ List.mem_cons_self
    rw [hc hsh.1 h2]
    exact hl
  · have := hsh.2 trivial
    simp only at this hr h3
    rw [this, ← hr]
    exact h3

/-- C45 violated: over the scalar field of BN254, hashing one cell. Two satisfying assignments of the same circuit agree on
the input cell, which is 0 in both, and have different digests. -/
theorem C45_violated :
    ∃ l r t, (do let l ← assign_values [0]; let r ← keccak_hash l; pure (l, r) : M bnR _) (.new bnR) = .ok ((l, r), t) ∧
      ∀ usable, t.Fits usable → ∃ w w', (t.circuit usable).Sat w ∧ (t.circuit usable).Sat w' ∧
        l.map (cv w) = [0] ∧ l.map (cv w') = [0] ∧ w r.cell ≠ w' r.cell := by
  obtain ⟨l, r, t, hrun, H⟩ := C45_violated_representatives (n := bnR) (by decide +kernel) [0]
  refine ⟨l, r, t, hrun, fun usable hf => ?_⟩
  obtain ⟨w, h1, h2, h3⟩ := H usable hf [0] (.cons ⟨by norm_num, by simp⟩ .nil)
  obtain ⟨w', h1', h2', h3'⟩ := H usable hf [bnR] (.cons ⟨by decide +kernel, by simp⟩ .nil)
  refine ⟨w, w', h1, h1', h2, h2', ?_⟩
  rw [h3, h3', Keccak.hashWords_zero]
  have e : Keccak.hashWords [bnR] = _ := Keccak.hashWords_bnR
  rw [e, Ne, ZMod.natCast_eq_natCast_iff]
  decide +kernel

end Verif
