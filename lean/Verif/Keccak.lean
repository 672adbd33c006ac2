import Verif.Basic
/-
# Keccak-256

The hash function the code calls as `alloy_primitives::keccak256` (external crate; use sites
`crates/vapp/src/merkle.rs:551-562`, `crates/vapp/src/state.rs:84,101`), written from its published definition
(FIPS 202, section 3, with the padding byte `0x01` of the original Keccak submission, which is the one Ethereum uses).

No theorem about the code needs this file: they all hold for every function in its place. It serves to evaluate the
model on the values the real code has produced. Lanes are natural numbers below `2 ^ 64`, lane `(x, y)` of the
standard being number `5 * y + x`, so that the kernel computes with its own natural numbers.
-/

namespace Verif.Keccak

/-- The largest lane. -/
def ones : Nat := 0xffffffffffffffff

/-- A lane rotated to the left. -/
def rotl (x n : Nat) : Nat :=
  Nat.land (Nat.lor (Nat.shiftLeft x n) (Nat.shiftRight x (Nat.sub 64 n))) ones

/-- `k x`; a kernel that evaluates it reduces `x` to a numeral first. -/
def force {α : Type} (x : Nat) (k : Nat → α) : α :=
  match x with
  | 0 => k 0
  | x + 1 => k (Nat.succ x)

/-- The five lanes with the same `y`, by `x`. -/
structure Row where
  a : Nat
  b : Nat
  c : Nat
  d : Nat
  e : Nat

/-- The five rows, by `y`. -/
structure State where
  a : Row
  b : Row
  c : Row
  d : Row
  e : Row

/-- A row with its lanes evaluated. -/
def Row.of (a b c d e : Nat) : Row :=
  force a fun a => force b fun b => force c fun c => force d fun d => force e fun e => ⟨a, b, c, d, e⟩

/-- The lane-wise sum of two rows. -/
def Row.xor (r s : Row) : Row :=
  Row.of (Nat.xor r.a s.a) (Nat.xor r.b s.b) (Nat.xor r.c s.c) (Nat.xor r.d s.d) (Nat.xor r.e s.e)

/-- Apply a function to an evaluated row. -/
def Row.then {α : Type} (r : Row) (k : Row → α) : α :=
  match r with
  | ⟨a, b, c, d, e⟩ => k ⟨a, b, c, d, e⟩

/-- What step θ adds to every row: lane `x` is the parity of column `x - 1` and the parity of column `x + 1` rotated. -/
def parities (s : State) : Row :=
  ((((s.a.xor s.b).xor s.c).xor s.d).xor s.e).then fun c =>
    Row.of (Nat.xor c.e (rotl c.b 1)) (Nat.xor c.a (rotl c.c 1)) (Nat.xor c.b (rotl c.d 1)) (Nat.xor c.c (rotl c.e 1))
      (Nat.xor c.d (rotl c.a 1))

/-- Step θ. -/
def theta (s : State) : State :=
  (parities s).then fun p =>
    (s.a.xor p).then fun a => (s.b.xor p).then fun b => (s.c.xor p).then fun c => (s.d.xor p).then fun d =>
      (s.e.xor p).then fun e => ⟨a, b, c, d, e⟩

/-- Steps ρ and π: lane `(x, y)` is rotated and becomes lane `(y, 2 * x + 3 * y)`. -/
def rhoPi (s : State) : State :=
  (Row.of (rotl s.a.a 0) (rotl s.b.b 44) (rotl s.c.c 43) (rotl s.d.d 21) (rotl s.e.e 14)).then fun a =>
  (Row.of (rotl s.a.d 28) (rotl s.b.e 20) (rotl s.c.a 3) (rotl s.d.b 45) (rotl s.e.c 61)).then fun b =>
  (Row.of (rotl s.a.b 1) (rotl s.b.c 6) (rotl s.c.d 25) (rotl s.d.e 8) (rotl s.e.a 18)).then fun c =>
  (Row.of (rotl s.a.e 27) (rotl s.b.a 36) (rotl s.c.b 10) (rotl s.d.c 15) (rotl s.e.d 56)).then fun d =>
  (Row.of (rotl s.a.c 62) (rotl s.b.d 55) (rotl s.c.e 39) (rotl s.d.a 41) (rotl s.e.b 2)).then fun e =>
    ⟨a, b, c, d, e⟩

/-- Step χ on a row. -/
def Row.chi (r : Row) : Row :=
  Row.of (Nat.xor r.a (Nat.land (Nat.xor r.b ones) r.c)) (Nat.xor r.b (Nat.land (Nat.xor r.c ones) r.d))
    (Nat.xor r.c (Nat.land (Nat.xor r.d ones) r.e)) (Nat.xor r.d (Nat.land (Nat.xor r.e ones) r.a))
    (Nat.xor r.e (Nat.land (Nat.xor r.a ones) r.b))

/-- Step χ. -/
def chi (s : State) : State :=
  s.a.chi.then fun a => s.b.chi.then fun b => s.c.chi.then fun c => s.d.chi.then fun d => s.e.chi.then fun e =>
    ⟨a, b, c, d, e⟩

/-- The constants of step ι. -/
def roundConstants : List Nat :=
  [
    0x0000000000000001, 0x0000000000008082, 0x800000000000808a, 0x8000000080008000,
    0x000000000000808b, 0x0000000080000001, 0x8000000080008081, 0x8000000000008009,
    0x000000000000008a, 0x0000000000000088, 0x0000000080008009, 0x000000008000000a,
    0x000000008000808b, 0x800000000000008b, 0x8000000000008089, 0x8000000000008003,
    0x8000000000008002, 0x8000000000000080, 0x000000000000800a, 0x800000008000000a,
    0x8000000080008081, 0x8000000000008080, 0x0000000080000001, 0x8000000080008008]

/-- Step ι. -/
def iota (rc : Nat) (s : State) : State :=
  (Row.of (Nat.xor s.a.a rc) s.a.b s.a.c s.a.d s.a.e).then fun a => ⟨a, s.b, s.c, s.d, s.e⟩

/-- Apply a function to an evaluated state. -/
def State.then {α : Type} (s : State) (k : State → α) : α :=
  match s with
  | ⟨a, b, c, d, e⟩ => k ⟨a, b, c, d, e⟩

/-- Rounds with the given constants. -/
def rounds : List Nat → State → State
  | [], s => s
  | rc :: rest, s => (theta s).then fun s => (rhoPi s).then fun s => (chi s).then fun s => (iota rc s).then fun s =>
    rounds rest s

/-- The permutation Keccak-f[1600]. -/
def permute (s : State) : State := rounds roundConstants s

/-- The value of little-endian bytes. -/
def leNat (bs : Bytes) : Nat := bs.foldr (fun b n => Nat.add (Nat.mul n 256) b.toNat) 0

/-- The lanes of a byte string. -/
def lanes : Bytes → List Nat
  | a :: b :: c :: d :: e :: f :: g :: h :: t => leNat [a, b, c, d, e, f, g, h] :: lanes t
  | _ => []

/-- The padding: a byte `0x01`, zeros, and the highest bit of the last byte of the block set. -/
def padding (n : Nat) : Bytes :=
  match 135 - n % 136 with
  | 0 => [0x81]
  | k + 1 => 0x01 :: List.replicate k 0 ++ [0x80]

/-- The state before the first block. -/
def initial : State := ⟨⟨0, 0, 0, 0, 0⟩, ⟨0, 0, 0, 0, 0⟩, ⟨0, 0, 0, 0, 0⟩, ⟨0, 0, 0, 0, 0⟩, ⟨0, 0, 0, 0, 0⟩⟩

/-- Absorbs blocks of seventeen lanes. -/
def absorb (s : State) : List Nat → State
  | a :: b :: c :: d :: e :: f :: g :: h :: i :: j :: k :: l :: m :: n :: o :: p :: q :: rest =>
    (permute ⟨s.a.xor ⟨a, b, c, d, e⟩, s.b.xor ⟨f, g, h, i, j⟩, s.c.xor ⟨k, l, m, n, o⟩, s.d.xor ⟨p, q, 0, 0, 0⟩, s.e⟩).then
      fun s => absorb s rest
  | _ => s

/-- The bytes of a lane in the opposite order. -/
def swap : Nat → Nat → Nat
  | 0, _ => 0
  | k + 1, n => Nat.add (Nat.mul (Nat.mod n 256) (Nat.pow 256 k)) (swap k (Nat.div n 256))

/-- The first four lanes as a big-endian number of 32 bytes. -/
def squeeze (s : State) : Nat :=
  [s.a.a, s.a.b, s.a.c, s.a.d].foldl (fun n l => Nat.add (Nat.mul n 0x10000000000000000) (swap 8 l)) 0

/-- `keccak256`. -/
def keccak256 (bs : Bytes) : B256 :=
  BitVec.ofNat 256 (squeeze (absorb initial (lanes (bs ++ padding bs.length))))

end Verif.Keccak
