import Verif.PropsNodeTime
import Verif.PropsGenesis
/-
# The set-up script

Models the part of `prove.sh` that asks for the prover's address and key and starts the node, and how
`bin/node/src/main.rs` turns the arguments into the configuration of the node.

Simplifications: installing Docker and drivers is left out. The key is taken to have no white space and no pattern
characters, as the shell would split or expand it (`prove.sh:251` does not quote it). clap is taken as documented: each
flag's text is handed to `from_str` of its type, and a text that is refused ends the program.
-/

namespace Verif.Setup

/-- The value of a digit in `[a-fA-F0-9]`. -/
def hexDigit (c : Char) : Option Nat :=
  if 48 ≤ c.toNat ∧ c.toNat ≤ 57 then some (c.toNat - 48)
  else if 97 ≤ c.toNat ∧ c.toNat ≤ 102 then some (c.toNat - 97 + 10)
  else if 65 ≤ c.toNat ∧ c.toNat ≤ 70 then some (c.toNat - 65 + 10)
  else none

/-- `[[ $PROVER_ADDRESS =~ ^0x[a-fA-F0-9]{40}$ ]]`, `prove.sh:210`. -/
def addressOk : List Char → Bool
  | '0' :: 'x' :: ds => ds.length == 40 && ds.all fun c => (hexDigit c).isSome
  | _ => false

/-- The texts of the flags that the node is started with. -/
structure Flags where
  rpcUrl : List Char
  throughput : List Char
  bid : List Char
  privateKey : List Char
  prover : List Char

/-- `prove.sh:191-252`, for the answers to the two questions (or the two variables): checks them and starts the node
with these flags, or ends. -/
def script (proverAddress privateKey : List Char) : Option Flags :=
  if addressOk proverAddress then
    if privateKey.isEmpty then none
    else some ⟨"https://rpc.sepolia.succinct.xyz".toList, "10485606".toList, "1.01".toList, privateKey, proverAddress⟩
  else none

/-- The digits of a hexadecimal text from the left. -/
def hexFold : List Char → Nat → Option Nat
  | [], n => some n
  | c :: cs, n => match hexDigit c with
    | none => none
    | some d => hexFold cs (16 * n + d)

/-- `Address::from_str` (alloy-primitives, external crate, as we read it): an optional `0x`, then 40 hexadecimal digits
of either case; the mixed-case checksum is not checked. -/
def parseAddress (t : List Char) : Option Address :=
  let ds := match t with
    | '0' :: 'x' :: ds => ds
    | ds => ds
  if ds.length = 40 then (hexFold ds 0).map (BitVec.ofNat 160) else none

/-- `main`, `bin/node/src/main.rs:48-66,174-190`: the configuration of the node from the flags. `keyOf` is
`PrivateKeySigner::from_str` with the address and the signatures of the key. The domain is the constant used at
`crates/node/core/src/serial.rs:236,720`, whatever the RPC URL. -/
def config (kc : Bytes → B256) (lower : Retry.Str → Retry.Str) (keyOf : List Char → Option (Address × (Bytes → Bytes)))
    (f : Flags) : Option Node.Config :=
  match F64.fromStr f.throughput, Cli.bidArg f.bid, parseAddress f.prover, keyOf f.privateKey with
  | some throughput, some bid, some prover, some (signer, sign) =>
    some { signer, sign, price := bid, prover, requiredTime := Node.estimate throughput
           mainnetDomain := Domain.mainnet kc, lower }
  | _, _, _, _ => none

end Verif.Setup
