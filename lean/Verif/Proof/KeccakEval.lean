import Verif.Spec.Keccak
import Mathlib.Tactic.IntervalCases
import Mathlib.Tactic.FinCases
import Mathlib.Tactic.Ring
import Mathlib.Tactic.Positivity

/-!
# Evaluating Keccak-256

The specification works bit by bit on functions. To evaluate it on concrete messages, a version on natural numbers: the
state is one number of 1600 bits.
-/

namespace Verif.Keccak

/-- Lane `k` of a state. -/
def lane (S k : ℕ) : ℕ := S >>> (64 * k) % 2 ^ 64

/-- Rotation of a lane to the left by `r ≤ 64`. -/
def rotN (l r : ℕ) : ℕ := (l <<< r ||| l >>> (64 - r)) % 2 ^ 64

/-- Put `k` lanes together. -/
def packN (g : ℕ → ℕ) : ℕ → ℕ
  | 0 => 0
  | k + 1 => packN g k ||| g k <<< (64 * k)

def colN (S x : ℕ) : ℕ := lane S x ^^^ lane S (x + 5) ^^^ lane S (x + 10) ^^^ lane S (x + 15) ^^^ lane S (x + 20)

def thetaN (S : ℕ) : ℕ :=
  packN (fun k => lane S k ^^^ (colN S ((k % 5 + 4) % 5) ^^^ rotN (colN S ((k % 5 + 1) % 5)) 1)) 25

/-- Offsets of ρ, at `5 * y + x`. -/
def offN : List ℕ := [0, 1, 62, 28, 27, 36, 44, 6, 55, 20, 3, 10, 43, 25, 39, 41, 45, 15, 21, 8, 18, 2, 61, 56, 14]

/-- Lane `k` after ρ and π. -/
def rhoPiN (S k : ℕ) : ℕ :=
  let src := 5 * (k % 5) + (k % 5 + 3 * (k / 5)) % 5
  rotN (lane S src) (offN.getD src 0)

def rcN : List ℕ :=
  [0x0000000000000001, 0x0000000000008082, 0x800000000000808A, 0x8000000080008000, 0x000000000000808B,
   0x0000000080000001, 0x8000000080008081, 0x8000000000008009, 0x000000000000008A, 0x0000000000000088,
   0x0000000080008009, 0x000000008000000A, 0x000000008000808B, 0x800000000000008B, 0x8000000000008089,
   0x8000000000008003, 0x8000000000008002, 0x8000000000000080, 0x000000000000800A, 0x800000008000000A,
   0x8000000080008081, 0x8000000000008080, 0x0000000080000001, 0x8000000080008008]

def chiIotaN (S i : ℕ) : ℕ :=
  packN (fun k => rhoPiN S k ^^^ ((rhoPiN S (5 * (k / 5) + (k % 5 + 1) % 5) ^^^ (2 ^ 64 - 1)) &&&
    rhoPiN S (5 * (k / 5) + (k % 5 + 2) % 5)) ^^^ (if k = 0 then rcN.getD i 0 else 0)) 25

def roundN (S i : ℕ) : ℕ := chiIotaN (thetaN S) i

def keccakFN (S : ℕ) : ℕ := (List.range 24).foldl roundN S

theorem testBit_lane (S k z : ℕ) (hz : z < 64) : (lane S k).testBit z = S.testBit (64 * k + z) := by
  rw [lane, Nat.testBit_mod_two_pow, Nat.testBit_shiftRight]; simp [hz]

theorem lane_lt (S k : ℕ) : lane S k < 2 ^ 64 := Nat.mod_lt _ (by norm_num)

theorem rotN_lt (l r : ℕ) : rotN l r < 2 ^ 64 := Nat.mod_lt _ (by norm_num)

theorem testBit_rotN {l r z : ℕ} (hl : l < 2 ^ 64) (hr : r < 64) (hz : z < 64) :
    (rotN l r).testBit z = l.testBit ((z + (64 - r)) % 64) := by
  rw [rotN, Nat.testBit_mod_two_pow, Nat.testBit_or, Nat.testBit_shiftLeft, Nat.testBit_shiftRight]
  have h64 : ∀ k, 64 ≤ k → l.testBit k = false := fun k hk => Nat.testBit_lt_two_pow
    (hl.trans_le (Nat.pow_le_pow_right (by norm_num) hk))
  by_cases h : r ≤ z
  · rw [show (z + (64 - r)) % 64 = z - r by omega, h64 (64 - r + z) (by omega)]
    simp [hz, h]
  · rw [show (z + (64 - r)) % 64 = 64 - r + z by omega]
    simp [hz, h]

theorem packN_lt {g : ℕ → ℕ} (hg : ∀ k, g k < 2 ^ 64) (m : ℕ) : packN g m < 2 ^ (64 * m) := by
  induction m with
  | zero => simp [packN]
  | succ m ih =>
    rw [packN]
    refine Nat.or_lt_two_pow (ih.trans_le (Nat.pow_le_pow_right (by norm_num) (by omega))) ?_
    rw [Nat.shiftLeft_eq, show 64 * (m + 1) = 64 + 64 * m by ring, pow_add]
    exact Nat.mul_lt_mul_of_pos_right (hg m) (by positivity)

theorem testBit_packN {g : ℕ → ℕ} (hg : ∀ k, g k < 2 ^ 64) {m k z : ℕ} (hk : k < m) (hz : z < 64) :
    (packN g m).testBit (64 * k + z) = (g k).testBit z := by
  induction m with
  | zero => omega
  | succ m ih =>
    rw [packN, Nat.testBit_or, Nat.testBit_shiftLeft]
    rcases Nat.lt_succ_iff_lt_or_eq.1 hk with h | rfl
    · rw [ih h, decide_eq_false (show ¬ 64 * k + z ≥ 64 * m by omega)]
      simp
    · rw [Nat.testBit_lt_two_pow ((packN_lt hg k).trans_le (Nat.pow_le_pow_right (by norm_num) (by omega)))]
      simp

/-- The number `S` is the state `A`. -/
def Sim (S : ℕ) (A : State) : Prop := ∀ x y z, A x y z = S.testBit (64 * (5 * y.val + x.val) + z.val)

theorem Sim.lane {S : ℕ} {A : State} (h : Sim S A) (x y : Fin 5) (z : Fin 64) :
    (Keccak.lane S (5 * y.val + x.val)).testBit z.val = A x y z := by
  rw [testBit_lane _ _ _ z.isLt, h]

theorem colN_lt (S x : ℕ) : colN S x < 2 ^ 64 :=
  Nat.xor_lt_two_pow (Nat.xor_lt_two_pow (Nat.xor_lt_two_pow (Nat.xor_lt_two_pow (lane_lt _ _) (lane_lt _ _))
    (lane_lt _ _)) (lane_lt _ _)) (lane_lt _ _)

theorem Sim.col {S : ℕ} {A : State} (h : Sim S A) (x : Fin 5) (z : Fin 64) :
    (colN S x.val).testBit z.val = thetaC A x z := by
  rw [colN, thetaC]
  simp only [Nat.testBit_xor]
  have e := fun y => h.lane x y z
  have e0 := e 0
  have e1 := e 1
  have e2 := e 2
  have e3 := e 3
  have e4 := e 4
  rw [← e0, ← e1, ← e2, ← e3, ← e4]
  simp [add_comm]

theorem Sim.theta {S : ℕ} {A : State} (h : Sim S A) : Sim (thetaN S) (Keccak.theta A) := by
  intro x y z
  rw [thetaN, testBit_packN (fun k => Nat.xor_lt_two_pow (lane_lt _ _) (Nat.xor_lt_two_pow (colN_lt _ _) (rotN_lt _ _)))
    (by omega) z.isLt, Nat.testBit_xor, Nat.testBit_xor, h.lane, testBit_rotN (colN_lt _ _) (by norm_num) z.isLt,
    Keccak.theta]
  have e1 : ((5 * y.val + x.val) % 5 + 4) % 5 = (x - 1).val := by revert x y; decide
  have e2 : ((5 * y.val + x.val) % 5 + 1) % 5 = (x + 1).val := by revert x y; decide
  have e3 : (z.val + (64 - 1)) % 64 = (z - 1).val := by revert z; decide
  rw [e1, e2, e3, h.col, h.col]

theorem offN_lt (k : ℕ) : offN.getD k 0 < 64 := by
  by_cases h : k < 25
  · interval_cases k <;> decide
  · rw [List.getD_eq_default _ _ (by simp [offN]; omega)]; norm_num

theorem rhoPiN_lt (S k : ℕ) : rhoPiN S k < 2 ^ 64 := rotN_lt _ _

theorem offN_eq : ∀ x y : Fin 5, rhoOffset x y % 64 = offN.getD (5 * y.val + x.val) 0 := by decide +kernel

theorem Sim.rhoPi {S : ℕ} {A : State} (h : Sim S A) (x y : Fin 5) (z : Fin 64) :
    (rhoPiN S (5 * y.val + x.val)).testBit z.val = pi (rho A) x y z := by
  rw [rhoPiN, pi, rho]
  have e1 : 5 * ((5 * y.val + x.val) % 5) + ((5 * y.val + x.val) % 5 + 3 * ((5 * y.val + x.val) / 5)) % 5 =
      5 * x.val + (x + 3 * y).val := by revert x y; decide
  rw [e1, testBit_rotN (lane_lt _ _) (offN_lt _) z.isLt, ← offN_eq]
  have e2 : ∀ (z : Fin 64) (r : ℕ), (z.val + (64 - r % 64)) % 64 = (z - Fin.ofNat 64 r).val := by
    intro z r
    rw [Fin.sub_def]
    simp only [Fin.val_ofNat]
    congr 1; omega
  rw [e2, h.lane]

theorem rcN_eq : ∀ i < 24, ∀ z : Fin 64, (rcN.getD i 0).testBit z.val = RC i z := by decide +kernel

theorem rcN_lt : ∀ i < 24, rcN.getD i 0 < 2 ^ 64 := by decide +kernel

theorem Sim.round {S : ℕ} {A : State} (h : Sim S A) {i : ℕ} (hi : i < 24) : Sim (roundN S i) (Keccak.round A i) := by
  have h' := h.theta
  intro x y z
  have hlt : ∀ k, (rhoPiN (thetaN S) k ^^^ ((rhoPiN (thetaN S) (5 * (k / 5) + (k % 5 + 1) % 5) ^^^ (2 ^ 64 - 1)) &&&
    rhoPiN (thetaN S) (5 * (k / 5) + (k % 5 + 2) % 5)) ^^^ (if k = 0 then rcN.getD i 0 else 0)) < 2 ^ 64 := by
    intro k
    refine Nat.xor_lt_two_pow (Nat.xor_lt_two_pow (rhoPiN_lt _ _) (Nat.and_lt_two_pow _ (rhoPiN_lt _ _))) ?_
    split
    · exact rcN_lt i hi
    · norm_num
  rw [roundN, chiIotaN, testBit_packN hlt (by omega) z.isLt]
  simp only [Nat.testBit_xor, Nat.testBit_and]
  have e1 : 5 * ((5 * y.val + x.val) / 5) + ((5 * y.val + x.val) % 5 + 1) % 5 = 5 * y.val + (x + 1).val := by
    revert x y; decide
  have e2 : 5 * ((5 * y.val + x.val) / 5) + ((5 * y.val + x.val) % 5 + 2) % 5 = 5 * y.val + (x + 2).val := by
    revert x y; decide
  rw [e1, e2, h'.rhoPi, h'.rhoPi, h'.rhoPi, Nat.testBit_two_pow_sub_one, decide_eq_true z.isLt, Keccak.round,
    Keccak.iota]
  by_cases hxy : x = 0 ∧ y = 0
  · obtain ⟨rfl, rfl⟩ := hxy
    rw [if_pos ⟨rfl, rfl⟩, if_pos (by simp), rcN_eq i hi]
    rfl
  · rw [if_neg hxy, if_neg (by
      intro e
      exact hxy ⟨Fin.ext (by simp; omega), Fin.ext (by simp; omega)⟩)]
    simp [chi]

theorem Sim.keccakF {S : ℕ} {A : State} (h : Sim S A) : Sim (keccakFN S) (Keccak.keccakF A) := by
  rw [keccakFN, Keccak.keccakF]
  have : ∀ l : List ℕ, (∀ i ∈ l, i < 24) → ∀ S A, Sim S A → Sim (l.foldl roundN S) (l.foldl Keccak.round A) := by
    intro l
    induction l with
    | nil => intro _ S A h; exact h
    | cons i l ih =>
      intro hl S A h
      exact ih (fun j hj => hl j (List.mem_cons_of_mem _ hj)) _ _ (h.round (hl i List.mem_cons_self))
  exact this _ (fun i hi => List.mem_range.1 hi) _ _ h

/-- The number with the given bits, least significant first. -/
def natOfBits : List Bool → ℕ
  | [] => 0
  | b :: l => 2 * natOfBits l + b.toNat

theorem testBit_natOfBits (l : List Bool) (k : ℕ) : (natOfBits l).testBit k = l.getD k false := by
  induction l generalizing k with
  | nil => simp [natOfBits]
  | cons b l ih =>
    cases k with
    | zero => cases b <;> simp [natOfBits]
    | succ k =>
      rw [natOfBits, Nat.testBit_succ, show (2 * natOfBits l + b.toNat) / 2 = natOfBits l by cases b <;> simp; omega, ih]
      simp

theorem natOfBits_lt (l : List Bool) : natOfBits l < 2 ^ l.length := by
  induction l with
  | nil => simp [natOfBits]
  | cons b l ih =>
    rw [natOfBits, List.length_cons, pow_succ]
    have := b.toNat_le
    omega

/-- The digest of a message of one block, computed on numbers: `B` is the padded block. -/
theorem keccak256_one {msg : List ℕ} {B : ℕ}
    (hlen : (bitsOf msg ++ pad (bitsOf msg).length).length = 1088)
    (hbits : natOfBits (bitsOf msg ++ pad (bitsOf msg).length) = B) :
    keccak256 msg = (List.range 32).map fun i => keccakFN B >>> (8 * i) % 256 := by
  have hB : B < 2 ^ 1088 := by rw [← hbits]; exact (natOfBits_lt _).trans_eq (congrArg _ hlen)
  replace hbits : ∀ k < 1088, B.testBit k = (bitsOf msg ++ pad (bitsOf msg).length).getD k false := fun k _ => by
    rw [← hbits, testBit_natOfBits]
  have h0 : sponge (bitsOf msg) = absorbBlock (fun _ _ _ => false)
      fun k => (bitsOf msg ++ pad (bitsOf msg).length).getD (1088 * 0 + k) false := by
    unfold sponge
    dsimp only
    rw [hlen, Nat.div_self (by norm_num), List.range_one, List.foldl_cons, List.foldl_nil]
  have hs : Sim (keccakFN B) (sponge (bitsOf msg)) := by
    rw [h0, absorbBlock]
    refine Sim.keccakF fun x y z => ?_
    by_cases hk : 64 * (5 * y.val + x.val) + z.val < 1088
    · rw [if_pos hk, hbits _ hk, Nat.mul_zero, Nat.zero_add, Bool.false_xor]
    · rw [if_neg hk, Nat.testBit_lt_two_pow (hB.trans_le (Nat.pow_le_pow_right (by norm_num) (by omega)))]
  rw [keccak256]
  refine List.map_congr_left fun i hi => ?_
  have hi := List.mem_range.1 hi
  rw [byteAt]
  have hbit : ∀ r < 8, sponge (bitsOf msg) (Fin.ofNat 5 (i / 8)) 0 (Fin.ofNat 64 (8 * (i % 8) + r)) =
      (keccakFN B >>> (8 * i) % 256).testBit r := by
    intro r hr
    rw [hs, show (256 : ℕ) = 2 ^ 8 by norm_num, Nat.testBit_mod_two_pow, Nat.testBit_shiftRight, decide_eq_true hr,
      Bool.true_and]
    congr 1
    simp only [Fin.val_ofNat, Fin.val_zero]
    omega
  rw [List.map_congr_left (g := fun r => ((keccakFN B >>> (8 * i) % 256).testBit r).toNat * 2 ^ r) fun r hr => by
    rw [hbit r (List.mem_range.1 hr)]]
  have : ∀ v < 256, ((List.range 8).map fun r => (v.testBit r).toNat * 2 ^ r).sum = v := by decide +kernel
  exact this _ (Nat.mod_lt _ (by norm_num))

theorem keccak256_nil_state : keccakFN (1 + 2 ^ 1087) = 0xa3fe1af7779fafd7b7fa22cf622318be6b571b9910726d91163b62b71dcf4521dee8b8eca7b2acba9c3088bdeebb0936fe8734e16471ab9f064146f400e16b721b5d1a6545a611ffeb829c854e19a9493bfed7eb12c7ce09fa0d3cd3b03b15bbba7d9fa73545d2a23bce6a98fe5b72103cf26d5eba2553e8b1d551b7242b765b81babfbcab8046d2820dc6175fa241611f2211c4c0f9ed5ccb9b1161ecb0a2b974a97cd82c9abb3d70a4855d04d8fa7b3b2782ca53b600e5c003c7dcb27d7e923c23f7860146d2c5 := by
  decide +kernel

/-- A known value: Keccak-256 of the empty string. -/
theorem keccak256_nil : ofBeBytes (keccak256 []) =
    0xc5d2460186f7233c927e7db2dcc703c0e500b653ca82273b7bfad8045d85a470 := by
  rw [keccak256_one (B := 1 + 2 ^ 1087) (by decide +kernel) (by decide +kernel), keccak256_nil_state]
  decide +kernel

theorem keccak256_abc_state : keccakFN (97 + 98 * 2 ^ 8 + 99 * 2 ^ 16 + 2 ^ 24 + 2 ^ 1087) = 0xdaff5e6dcd41bd9a891c6dc9e7a9b7ce50866f9f76e840d57ea977f114d5c8d2610a29fa9d47030493d65dcbaec7d1992eb1c10bd6e58d8cd6c478d8dcceddf14287101af69ea11e162ec00c86ec814a93dd9b50f44a2b8b2a9a8bc201255fc01ddf4b907b006066728e60c1558bb1aa84c8b945e8d847842bd18639e5a7aefc582aa0072a9df8cd04f2e524ab2335fe2ca151d9b481c415fc2da5e99f7d606fbba2151eac382c81456c2da18ff544ec36a0643ae3e6d1c067d6c826a87bd4c74fa945ea7a65034e := by
  decide +kernel

/-- A known value: Keccak-256 of the string `abc`. -/
theorem keccak256_abc : ofBeBytes (keccak256 [97, 98, 99]) =
    0x4e03657aea45a94fc7d47ba826c8d667c0d1e6e33a64a036ec44f58fa12d6c45 := by
  rw [keccak256_one (B := 97 + 98 * 2 ^ 8 + 99 * 2 ^ 16 + 2 ^ 24 + 2 ^ 1087) (by decide +kernel) (by decide +kernel), keccak256_abc_state]
  decide +kernel

theorem hashWords_zero_state : keccakFN (2 ^ 256 + 2 ^ 1087) = 0xf9c9b482a9f3f75bdd1ef1fcf2da107b1eb13ecc56c1abc9526fff8c9ab269b5963d7f409cea39a4bf282b042db96bc24c99bb08fd8aafd0825675e9a99a09fe3d9cf5e7821e772c7fc1b88d9a276f2e1160d61d30b9ed7574b8a845d62d714b1160e19395b4db941e1a9b5fc83cb68f0f63cc448d3a5f121a05392cd2b0d9c514464f58dc029732662da9a00c2aec51565a852ae1cb8779013bb9efd5cf03e8dc2019e6746cb25063e5f30e16932f36f608404895bca64bc86f3888a94503d6a8628b54d9ec0d29 := by
  decide +kernel

/-- A known value: Keccak-256 of 32 zero bytes. -/
theorem hashWords_zero : hashWords [0] =
    0x290decd9548b62a8d60345a988386fc84ba6bc95484008f6362f93160ef3e563 := by
  rw [hashWords, show [0].flatMap beBytes = List.replicate 32 0 by decide +kernel,
    keccak256_one (B := 2 ^ 256 + 2 ^ 1087) (by decide +kernel) (by decide +kernel), hashWords_zero_state]
  decide +kernel

theorem hashWords_bnR_state : keccakFN (0x10000f093f5e1439170b97948e833285d588181b64550b829a031e1724e6430 + 2 ^ 256 + 2 ^ 1087) = 0xf44e8ae69c8739b97ed64c1bd4d3532a7caab36a8e90a75bda13fbadc07a0d066b6a79576a0ccfe9a76b30b77f08f3466e6d08da218d7dbe90c278eef222b0913f3dbecf27906fd455f308a1ae788f01985b29d49b27671d1e9b865b37d92d498b495b2a1c24ae561a2a9e1f80db3c805a173e422d519bafde813b425dae91ed06df2420f85bdbeb162f1fa138899c3116814a3a1bda8fe8eaf0496c11f3593396895e16f98c4f86918aa9bc97f67624723a8657e8d4cd529a6f9d09208c5d8dda74c08c33508f84 := by
  decide +kernel

/-- Keccak-256 of the 32 bytes of the scalar modulus of bn256. -/
theorem hashWords_bnR : hashWords [0x30644e72e131a029b85045b68181585d2833e84879b9709143e1f593f0000001] =
    0x848f50338cc074da8d5d8c20099d6f9a52cdd4e857863a722476f697bca98a91 := by
  rw [hashWords, keccak256_one (B := 0x10000f093f5e1439170b97948e833285d588181b64550b829a031e1724e6430 + 2 ^ 256 + 2 ^ 1087) (by decide +kernel) (by decide +kernel), hashWords_bnR_state]
  decide +kernel

end Verif.Keccak
