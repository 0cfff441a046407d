import Verif.Model.Scalar

/-!
# Keccak chip

Model of `src/circuit/keccak_chip.rs`. Fixed-size arrays are functions on `Fin`. A loop in which every iteration
computes one array element from values no other iteration of the loop writes is `tabM`, which runs the iterations in
order; what such a loop stores in place is the array of the results.
-/

namespace Verif
variable {n : ℕ} {α : Type}

/-- A loop computing one array element per iteration, in order. -/
def tabM : {k : ℕ} → (Fin k → M n α) → M n (Fin k → α)
  | 0, _ => pure Fin.elim0
  | _ + 1, f => do
    let a ← f 0
    let g ← tabM fun i => f i.succ
    pure (Fin.cons a g)

/-- A word: `[AssignedCondition<N>; W]`, most significant bit first. -/
abbrev Lane (n : ℕ) := Fin 64 → AssignedCondition n

/-- `AssignedState`, `src/circuit/keccak_chip.rs:14`. -/
abbrev KState (n : ℕ) := Fin 5 → Fin 5 → Lane n

/-- `ABSORB_BITS_RATE`, `src/circuit/keccak_chip.rs:12`. -/
def ABSORB_BITS_RATE : ℕ := 1088

/-- `RHO`, `src/circuit/keccak_chip.rs:16-18`. -/
def RHO : List ℕ := [1, 3, 6, 10, 15, 21, 28, 36, 45, 55, 2, 14, 27, 41, 56, 8, 25, 43, 62, 18, 39, 61, 20, 44]

/-- `PI`, `src/circuit/keccak_chip.rs:20-22`. -/
def PI : List ℕ := [10, 7, 11, 17, 18, 3, 5, 16, 8, 21, 24, 4, 15, 23, 19, 13, 12, 2, 20, 14, 22, 9, 6, 1]

/-- `ROUND_CONSTANTS`, `src/circuit/keccak_chip.rs:26-51`. -/
def ROUND_CONSTANTS : List ℕ :=
  [0x0000000000000001, 0x0000000000008082, 0x800000000000808A, 0x8000000080008000, 0x000000000000808B,
   0x0000000080000001, 0x8000000080008081, 0x8000000000008009, 0x000000000000008A, 0x0000000000000088,
   0x0000000080008009, 0x000000008000000A, 0x000000008000808B, 0x800000000000008B, 0x8000000000008089,
   0x8000000000008003, 0x8000000000008002, 0x8000000000000080, 0x000000000000800A, 0x800000008000000A,
   0x8000000080008081, 0x8000000000008080, 0x0000000080000001, 0x8000000080008008]

/-- `init`, `src/circuit/keccak_chip.rs:55-59`. -/
def keccak_init : M n (KState n) := do
  let zero ← assign_constant 0
  pure fun _ _ _ => zero

/-- `rotate_left` on an array. -/
def rotate_left (a : Fin 64 → α) (k : ℕ) : Fin 64 → α := fun z => a (z + Fin.ofNat 64 k)

/-- `theta`, first loop, body: `src/circuit/keccak_chip.rs:67-75`. -/
def theta_column (y : Fin 5 → Lane n) : M n (Lane n) := do
  let ci := y 0
  let ci ← tabM fun z => xor (ci z) (y 1 z)
  let ci ← tabM fun z => xor (ci z) (y 2 z)
  let ci ← tabM fun z => xor (ci z) (y 3 z)
  let ci ← tabM fun z => xor (ci z) (y 4 z)
  pure ci

/-- `theta`, `src/circuit/keccak_chip.rs:61-88`; `prev x = x + 4` and `next x = x + 1` modulo 5. -/
def theta (state : KState n) : M n (KState n) := do
  let c ← tabM fun x => theta_column (state x)
  tabM fun x => do
    let di := rotate_left (c (x + 1)) 1
    let di ← tabM fun z => xor (c (x + 4) z) (di z)
    tabM fun y => tabM fun z => xor (state x y z) (di z)

/-- The loop body of `rho_and_pi`, `src/circuit/keccak_chip.rs:92-99`, on `(state, last)`. -/
def rho_and_pi_step (s : (Fin 5 → Fin 5 → Fin 64 → α) × (Fin 64 → α)) (i : ℕ) :
    (Fin 5 → Fin 5 → Fin 64 → α) × (Fin 64 → α) :=
  let p := PI.getD i 0
  let pi_x := Fin.ofNat 5 (p % 5)
  let pi_y := Fin.ofNat 5 (p / 5)
  let array := s.1 pi_x pi_y
  let last := rotate_left s.2 (RHO.getD i 0)
  (fun x y => if x = pi_x ∧ y = pi_y then last else s.1 x y, array)

/-- `rho_and_pi`, `src/circuit/keccak_chip.rs:90-100`; it only moves cells. -/
def rho_and_pi (state : Fin 5 → Fin 5 → Fin 64 → α) : Fin 5 → Fin 5 → Fin 64 → α :=
  ((List.range 24).foldl rho_and_pi_step (state, state 1 0)).1

/-- `xi`, `src/circuit/keccak_chip.rs:102-121`. -/
def keccak_xi (state : KState n) : M n (KState n) :=
  tabM fun x => tabM fun y => tabM fun z => do
    let t ← not_and (state (x + 1) y z) (state (x + 2) y z)
    xor (state x y z) t

/-- `iota`, `src/circuit/keccak_chip.rs:123-131`. -/
def iota (state : KState n) (round : ℕ) : M n (KState n) := do
  let rc ← index ROUND_CONSTANTS round
  let lane ← tabM fun z : Fin 64 =>
    if rc.testBit (64 - z - 1) then not (state 0 0 z) else pure (state 0 0 z)
  pure fun x y => if x = 0 ∧ y = 0 then lane else state x y

/-- The loop of `permute`, `src/circuit/keccak_chip.rs:134-139`, over the remaining rounds. -/
def permute_rounds : List ℕ → KState n → M n (KState n)
  | [], state => pure state
  | i :: is, state => do
    let state ← theta state
    let state := rho_and_pi state
    let state ← keccak_xi state
    let state ← iota state i
    permute_rounds is state

/-- `permute`, `src/circuit/keccak_chip.rs:133-140`. -/
def permute (state : KState n) : M n (KState n) := permute_rounds (List.range 24) state

/-- `absorb`, `src/circuit/keccak_chip.rs:142-165`. The lane of iteration `i` is `x = i % 5`, `y = i / 5`; the bit of
iterations `j`, `k` is `permuted_z = (7 - j) * 8 + k`. Each bit of the state is read and written at most once. -/
def absorb (state : KState n) (input : List (AssignedCondition n)) : M n (KState n) := do
  rassert (input.length = ABSORB_BITS_RATE)
  let g ← tabM fun i : Fin 17 => tabM fun j : Fin 8 => tabM fun k : Fin 8 => do
    let a ← index input (i * 64 + j * 8 + k)
    xor a (state (Fin.ofNat 5 (i % 5)) (Fin.ofNat 5 (i / 5)) (Fin.ofNat 64 ((8 - j - 1) * 8 + k)))
  permute fun x y z =>
    if h : 5 * y.val + x.val < 17 then
      g ⟨5 * y.val + x.val, h⟩ (Fin.ofNat 8 (7 - z.val / 8)) (Fin.ofNat 8 (z.val % 8))
    else state x y z

/-- `decompose_scalar_as_u256_be`, `src/circuit/keccak_chip.rs:168-211`, with `field_to_bn(&s.val)` as a parameter. The
loop is the one of `decompose_scalar` of the native scalar chip. -/
def decompose_u256_with (s_bn : ℕ) (s : AssignedValue n) : M n (List (AssignedCondition n)) := do
  let r ← native_bits s_bn (List.range (256 / 2)) s
  assert_constant r.2 0
  pure r.1.reverse

/-- `decompose_scalar_as_u256_be`, `src/circuit/keccak_chip.rs:168-211`. -/
def decompose_scalar_as_u256_be (s : AssignedValue n) : M n (List (AssignedCondition n)) :=
  decompose_u256_with s.val.val s

/-- The loop of `compose_to_scalar_be`, `src/circuit/keccak_chip.rs:221-228`. -/
def compose_loop : List (AssignedCondition n) → AssignedValue n → M n (AssignedValue n)
  | b1 :: b0 :: s, acc => do
    let acc ← sum_with_constant [(b0, 1), (b1, 2), (acc, 4)] none
    compose_loop s acc
  | _, acc => pure acc

/-- `compose_to_scalar_be`, `src/circuit/keccak_chip.rs:213-231`. -/
def compose_to_scalar_be (s : List (AssignedCondition n)) : M n (AssignedValue n) := do
  rassert (s.length % 2 = 0)
  let acc ← assign_constant 0
  compose_loop s acc

/-- Rust's `slice::chunks_exact`. -/
def chunks_exact (k : ℕ) (l : List α) : List (List α) :=
  (List.range (l.length / k)).map fun i => (l.drop (k * i)).take k

/-- The padding of `hash`, `src/circuit/keccak_chip.rs:244-283`. -/
def keccak_padding (one zero : α) (raw_len : ℕ) : List α :=
  let aligned_len := (raw_len + 8 + ABSORB_BITS_RATE - 1) / ABSORB_BITS_RATE * ABSORB_BITS_RATE
  let padding_len := aligned_len - raw_len
  if padding_len = 8 then
    [one, zero, zero, zero, zero, zero, zero, one]
  else
    [zero, zero, zero, zero, zero, zero, zero, one] ++ List.replicate (padding_len - 16) zero ++
      [one, zero, zero, zero, zero, zero, zero, zero]

/-- `hash`, `src/circuit/keccak_chip.rs:233-300`, with the decomposition of the inputs as a parameter. -/
def hash_with (decompose : List (AssignedValue n) → M n (List (List (AssignedCondition n))))
    (input : List (AssignedValue n)) : M n (AssignedValue n) := do
  let one ← assign_constant 1
  let zero ← assign_constant 0
  let state ← keccak_init
  let raw_len := input.length * 256
  let words ← decompose input
  let input_bits := words.flatten ++ keccak_padding one zero raw_len
  let state ← (chunks_exact ABSORB_BITS_RATE input_bits).foldlM absorb state
  let res_bits := ([state 0 0, state 1 0, state 2 0, state 3 0].map fun x =>
    (chunks_exact 8 (List.ofFn x)).reverse.flatten).flatten
  compose_to_scalar_be res_bits

/-- `hash`, `src/circuit/keccak_chip.rs:233-300`. -/
def keccak_hash (input : List (AssignedValue n)) : M n (AssignedValue n) :=
  hash_with (fun l => l.mapM decompose_scalar_as_u256_be) input

end Verif
