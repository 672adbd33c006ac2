import Verif.Keccak
import Verif.Json
/-
# Recovering the signer of a message

The function the code calls as `alloy_primitives::Signature::from_raw` and `recover_address_from_msg`
(`eth_sign_verify`, `crates/vapp/src/signing.rs:50-57`), written from the published definitions: the curve secp256k1
(SEC 2), public key recovery (SEC 1, section 4.1.6), the text prefix of EIP-191 and the Ethereum address of a key.

As with `Verif/Keccak.lean`, no theorem about the code needs this file; it serves to evaluate the model on signatures
that exist. Field elements are natural numbers below `p`; points are in Jacobian coordinates, `(x, y, z)` standing for
the affine point `(x / z ^ 2, y / z ^ 3)` and `z = 0` for the point at infinity.
-/

namespace Verif.Secp

open Keccak (force)

/-- The order of the field, `2 ^ 256 - 2 ^ 32 - 977`. -/
def p : Nat := 0xfffffffffffffffffffffffffffffffffffffffffffffffffffffffefffffc2f

/-- The order of the group. -/
def n : Nat := 0xfffffffffffffffffffffffffffffffebaaedce6af48a03bbfd25e8cd0364141

/-- Multiplication modulo `m`. -/
def mulMod (m a b : Nat) : Nat := Nat.mod (Nat.mul a b) m

/-- Subtraction modulo `m` of numbers below `m`. -/
def subMod (m a b : Nat) : Nat := Nat.mod (Nat.sub (Nat.add a m) b) m

/-- `acc * b ^ e` modulo `m`, for `e < 2 ^ fuel`. -/
def powMod (m : Nat) : Nat → Nat → Nat → Nat → Nat
  | 0, _, _, acc => acc
  | fuel + 1, b, e, acc =>
    force (mulMod m b b) fun b' => force (Nat.div e 2) fun e' =>
      match Nat.beq (Nat.mod e 2) 1 with
      | true => force (mulMod m acc b) fun acc' => powMod m fuel b' e' acc'
      | false => powMod m fuel b' e' acc

/-- The inverse modulo a prime below `2 ^ 256` (Fermat). -/
def invMod (m a : Nat) : Nat := powMod m 256 a (Nat.sub m 2) 1

/-- A point in Jacobian coordinates. -/
structure Pt where
  x : Nat
  y : Nat
  z : Nat

/-- A point with its coordinates evaluated. -/
def Pt.of (x y z : Nat) : Pt := force x fun x => force y fun y => force z fun z => ⟨x, y, z⟩

/-- The double of a point. -/
def Pt.double (a : Pt) : Pt :=
  force (mulMod p a.y a.y) fun yy =>
  force (mulMod p 4 (mulMod p a.x yy)) fun s =>
  force (mulMod p 3 (mulMod p a.x a.x)) fun m =>
  force (subMod p (mulMod p m m) (mulMod p 2 s)) fun x =>
  Pt.of x (subMod p (mulMod p m (subMod p s x)) (mulMod p 8 (mulMod p yy yy))) (mulMod p 2 (mulMod p a.y a.z))

/-- The sum of two points. -/
def Pt.add (a b : Pt) : Pt :=
  match Nat.beq a.z 0, Nat.beq b.z 0 with
  | true, _ => b
  | false, true => a
  | false, false =>
    force (mulMod p a.z a.z) fun za =>
    force (mulMod p b.z b.z) fun zb =>
    force (mulMod p a.x zb) fun u1 =>
    force (mulMod p b.x za) fun u2 =>
    force (mulMod p a.y (mulMod p zb b.z)) fun s1 =>
    force (mulMod p b.y (mulMod p za a.z)) fun s2 =>
    match Nat.beq u1 u2, Nat.beq s1 s2 with
    | true, true => a.double
    | true, false => ⟨1, 1, 0⟩
    | false, _ =>
      force (subMod p u2 u1) fun h =>
      force (subMod p s2 s1) fun r =>
      force (mulMod p h h) fun hh =>
      force (mulMod p hh h) fun hhh =>
      force (mulMod p u1 hh) fun v =>
      force (subMod p (subMod p (mulMod p r r) hhh) (mulMod p 2 v)) fun x =>
      Pt.of x (subMod p (mulMod p r (subMod p v x)) (mulMod p s1 hhh)) (mulMod p h (mulMod p a.z b.z))

/-- `acc + k * a`, for `k < 2 ^ fuel`. -/
def Pt.mulAdd : Nat → Nat → Pt → Pt → Pt
  | 0, _, _, acc => acc
  | fuel + 1, k, a, acc =>
    force (Nat.div k 2) fun k' =>
      match a.double with
      | ⟨x, y, z⟩ =>
        match Nat.beq (Nat.mod k 2) 1 with
        | true =>
          match acc.add a with
          | ⟨u, v, w⟩ => Pt.mulAdd fuel k' ⟨x, y, z⟩ ⟨u, v, w⟩
        | false => Pt.mulAdd fuel k' ⟨x, y, z⟩ acc

/-- The base point. -/
def G : Pt :=
  ⟨0x79be667ef9dcbbac55a06295ce870b07029bfcdb2dce28d959f2815b16f81798,
    0x483ada7726a3c4655da4fbfc0e1108a8fd17b448a68554199c47d08ffb10d4b8, 1⟩

/-- The ordinate with the given parity of the point with abscissa `x`; `none` if there is none. -/
def lift (x : Nat) (odd : Bool) : Option Nat :=
  force (Nat.mod (Nat.add (mulMod p x (mulMod p x x)) 7) p) fun c =>
  force (powMod p 256 c (Nat.div (Nat.add p 1) 4) 1) fun y =>
    match Nat.beq (mulMod p y y) c, Nat.beq (Nat.mod y 2) 1 == odd with
    | true, true => some y
    | true, false => some (Nat.sub p y)
    | false, _ => none

/-- The affine coordinates of the key that signed the hash `z`; `none` if the signature has none. -/
def recoverKey (z r s : Nat) (odd : Bool) : Option (Nat × Nat) :=
  if r = 0 ∨ s = 0 ∨ n ≤ r ∨ n ≤ s then none
  else
    match lift r odd with
    | none => none
    | some y =>
      force (invMod n r) fun ri =>
      force (mulMod n s ri) fun u2 =>
      force (mulMod n (Nat.sub n (Nat.mod z n)) ri) fun u1 =>
      match Pt.mulAdd 256 u1 G (Pt.mulAdd 256 u2 ⟨r, y, 1⟩ ⟨1, 1, 0⟩) with
      | ⟨x, y, z⟩ =>
        match Nat.beq z 0 with
        | true => none
        | false =>
          force (invMod p z) fun zi =>
          force (mulMod p zi zi) fun zz =>
          some (mulMod p x zz, mulMod p y (mulMod p zz zi))

/-- The parity in the last byte of a signature: 0 or 1, with 27 added or as in EIP-155. -/
def parity (v : Nat) : Option Bool :=
  if v = 0 ∨ v = 27 then some false
  else if v = 1 ∨ v = 28 then some true
  else if 35 ≤ v then some (v % 2 == 0)
  else none

/-- The Ethereum address of a key: the last 20 bytes of the hash of its coordinates. -/
def keyAddress (q : Nat × Nat) : Address :=
  (Keccak.keccak256 (beBytes 32 q.1 ++ beBytes 32 q.2)).truncate 160

/-- `eth_sign_verify`, `crates/vapp/src/signing.rs:50-57`; `none` stands for every error. -/
def recover (msg sig : Bytes) : Option Address :=
  if sig.length = 65 then
    match parity (beNat (sig.drop 64)) with
    | none => none
    | some odd =>
      force (Keccak.keccak256 (Json.personal msg)).toNat fun z =>
      (recoverKey z (beNat (sig.take 32)) (beNat ((sig.drop 32).take 32)) odd).map keyAddress
  else none

end Verif.Secp
