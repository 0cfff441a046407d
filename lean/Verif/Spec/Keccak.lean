import Mathlib.Data.Nat.Bitwise
import Mathlib.Data.Fin.Basic

/-!
# Keccak-256

Keccak-f[1600] and the sponge, after FIPS 202 (section 3, with `w = 64`, `l = 6`), and Keccak-256: rate 1088,
capacity 512, output 256 bits, padding `pad10*1` directly after the message. Nothing here refers to the chip; its
tables of rotations, lane positions and round constants do not occur.
-/

namespace Verif.Keccak

/-- A state array: `A x y z`, `z` the position of the bit in the lane, least significant first. -/
abbrev State := Fin 5 → Fin 5 → Fin 64 → Bool

/-- θ (3.2.1). -/
def thetaC (A : State) (x : Fin 5) (z : Fin 64) : Bool :=
  Bool.xor (Bool.xor (Bool.xor (Bool.xor (A x 0 z) (A x 1 z)) (A x 2 z)) (A x 3 z)) (A x 4 z)

def theta (A : State) : State := fun x y z =>
  Bool.xor (A x y z) (Bool.xor (thetaC A (x - 1) z) (thetaC A (x + 1) (z - 1)))

/-- The walk of ρ (3.2.2): from `(1, 0)`, each time `(x, y) ↦ (y, 2x + 3y)`. -/
def rhoWalk : ℕ → Fin 5 × Fin 5
  | 0 => (1, 0)
  | t + 1 => ((rhoWalk t).2, 2 * (rhoWalk t).1 + 3 * (rhoWalk t).2)

/-- The offset of a lane in ρ: `(t + 1)(t + 2)/2` at the lane of step `t < 24`, and 0 at `(0, 0)`. -/
def rhoOffset (x y : Fin 5) : ℕ :=
  match (List.range 24).find? fun t => rhoWalk t = (x, y) with
  | some t => (t + 1) * (t + 2) / 2
  | none => 0

/-- ρ (3.2.2). -/
def rho (A : State) : State := fun x y z => A x y (z - Fin.ofNat 64 (rhoOffset x y))

/-- π (3.2.3). -/
def pi (A : State) : State := fun x y z => A (x + 3 * y) x z

/-- χ (3.2.4). -/
def chi (A : State) : State := fun x y z =>
  Bool.xor (A x y z) (Bool.xor (A (x + 1) y z) true && A (x + 2) y z)

/-- One step of the register of Algorithm 5 (3.2.5), the bits `R[0], …, R[7]`. -/
def rcStep : List Bool → List Bool
  | [r0, r1, r2, r3, r4, r5, r6, r7] =>
    -- `R = 0 ‖ R`, then `R[0] ^= R[8]`, `R[4] ^= R[8]`, `R[5] ^= R[8]`, `R[6] ^= R[8]`, truncated to 8 bits
    [r7, r0, r1, r2, Bool.xor r3 r7, Bool.xor r4 r7, Bool.xor r5 r7, r6]
  | r => r

/-- `rc(t)` (Algorithm 5). -/
def rc (t : ℕ) : Bool :=
  ((rcStep^[t % 255]) [true, false, false, false, false, false, false, false]).headD false

/-- The round constant of round `i` (Algorithm 6): `RC[2^j - 1] = rc(j + 7i)` for `j ≤ 6`, other bits 0. -/
def RC (i : ℕ) (z : Fin 64) : Bool :=
  (List.range 7).any fun j => z.val == 2 ^ j - 1 && rc (j + 7 * i)

/-- ι (3.2.5). -/
def iota (i : ℕ) (A : State) : State := fun x y z =>
  if x = 0 ∧ y = 0 then Bool.xor (A x y z) (RC i z) else A x y z

/-- A round (3.3). -/
def round (A : State) (i : ℕ) : State := iota i (chi (pi (rho (theta A))))

/-- Keccak-f[1600]: 24 rounds. -/
def keccakF (A : State) : State := (List.range 24).foldl round A

/-- The bit string of a byte string: least significant bit of each byte first (B.1). -/
def bitsOf (bytes : List ℕ) : List Bool := bytes.flatMap fun b => (List.range 8).map fun r => b.testBit r

/-- `pad10*1(1088, m)` (5.1): `1`, then `j = (- m - 2) mod 1088` zeros, then `1`. -/
def pad (m : ℕ) : List Bool :=
  [true] ++ List.replicate ((-(m : ℤ) - 2) % 1088).toNat false ++ [true]

/-- Xor a block of 1088 bits into the state and permute. Bit `64 (5y + x) + z` of the string is `A x y z` (3.1.2). -/
def absorbBlock (A : State) (block : ℕ → Bool) : State :=
  keccakF fun x y z =>
    if 64 * (5 * y.val + x.val) + z.val < 1088 then
      Bool.xor (A x y z) (block (64 * (5 * y.val + x.val) + z.val))
    else A x y z

/-- The sponge (4): absorb all blocks of the padded message. -/
def sponge (msg : List Bool) : State :=
  let P := msg ++ pad msg.length
  (List.range (P.length / 1088)).foldl (fun A i => absorbBlock A fun k => P.getD (1088 * i + k) false)
    (fun _ _ _ => false)

/-- Byte `i` of the state string, for `i < 40` (the lanes with `y = 0`). -/
def byteAt (A : State) (i : ℕ) : ℕ :=
  ((List.range 8).map fun r => (A (Fin.ofNat 5 (i / 8)) 0 (Fin.ofNat 64 (8 * (i % 8) + r))).toNat * 2 ^ r).sum

/-- Keccak-256 of a byte string. -/
def keccak256 (msg : List ℕ) : List ℕ := (List.range 32).map (byteAt (sponge (bitsOf msg)))

/-- The 32 bytes of a 256-bit number, most significant first. -/
def beBytes (x : ℕ) : List ℕ := (List.range 32).map fun i => x / 256 ^ (31 - i) % 256

/-- The number with the given bytes, most significant first. -/
def ofBeBytes (bytes : List ℕ) : ℕ := bytes.foldl (fun acc b => 256 * acc + b) 0

/-- The digest of a list of 256-bit numbers, as a number. -/
def hashWords (ws : List ℕ) : ℕ := ofBeBytes (keccak256 (ws.flatMap beBytes))

end Verif.Keccak
