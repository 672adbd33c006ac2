import Verif.Observe
/-
# A concrete environment and concrete transactions

Used only to show that the hypotheses of the theorems are met by non-trivial executions.
-/

namespace Verif.Toy

open Verif

/-- A toy environment: the "hash" is the big-endian value modulo 2^256 after a polynomial mix, the
"signature" of a message is the signer's address, numbers are big-endian bytes. -/
def env : Env where
  keccak bs := BitVec.ofNat 256 (bs.foldl (fun n b => (n * 1000003 + b.toNat + 1) % 2 ^ 256) 7 * 2 ^ 13)
  recover _ sig := Address.ofBytes? sig
  json _ := none
  parseU256 bs := if bs.length ≤ 32 then some (BitVec.ofNat 256 (beNat bs)) else none
  verify _ _ := true

def dom : B256 := 77
def alice : Address := 0xa11ce
def bob : Address := 0xb0b
def carol : Address := 0xca401
def prover : Address := 0x9999
def owner : Address := 0x8888
def auctioneer : Address := 0x4444
def executor : Address := 0x5555
def treasury : Address := 0x6666
def verifier : Address := 0x7777

def num (n : Nat) : Bytes := beBytes 4 n

/-- Deposit of 1000 to Alice. -/
def deposit1 : Tx := .deposit ⟨10, 3, 1, ⟨alice, 1000⟩⟩
/-- Creation of a prover with a 25 percent staker fee. -/
def create2 : Tx := .createProver ⟨10, 4, 2, ⟨prover, owner, 2500⟩⟩
/-- Alice pays Bob 100 and the auctioneer 7. -/
def transfer (to : Address) (n fee : Nat) : Tx := .transfer
  { format := 1, signature := Address.bytes alice,
    body := some { nonce := 5, to := Address.bytes to, amount := num n, domain := B256.bytes dom,
                   variant := 6, auctioneer := Address.bytes auctioneer, fee := num fee } }
/-- A withdrawal from `account` signed by `signer`. -/
def withdraw (account signer : Address) (n fee : Nat) : Tx := .withdraw
  { format := 1, signature := Address.bytes signer,
    body := some { nonce := 6, account := Address.bytes account, amount := num n,
                   domain := B256.bytes dom, variant := 7, auctioneer := Address.bytes auctioneer,
                   fee := num fee } }
/-- A delegation signed by `signer`. -/
def delegate (signer : Address) (fee : Nat) : Tx := .delegate
  { format := 1, signature := Address.bytes signer,
    body := some { nonce := 6, delegate := Address.bytes carol, prover := Address.bytes prover,
                   domain := B256.bytes dom, variant := 5, auctioneer := Address.bytes auctioneer,
                   fee := num fee } }

/-- The request Alice signs. -/
def request : RequestBody :=
  { nonce := 9, vkHash := List.replicate 32 1, version := primaryVersionPrefix ++ [46], mode := 2,
    gasLimit := 100, domain := B256.bytes dom, auctioneer := Address.bytes auctioneer,
    executor := Address.bytes executor, verifier := Address.bytes verifier, baseFee := num 10,
    maxPricePerPgu := num 3, variant := 0, treasury := Address.bytes treasury,
    whitelist := [Address.bytes prover] }

/-- The same request for a mode settled by the verifier's signature. -/
def requestGroth16 : RequestBody := { request with mode := 4, nonce := 10 }

def requestId (r : RequestBody) : B256 := hashWithSigner env alice (.request r)

/-- A clear of `r` with the given execution status; the settlement names `winner`, the fulfilment is
signed by `fulfiller`. -/
def clear (r : RequestBody) (status : I32) (winner fulfiller : Address) : ClearTx :=
  { request := ⟨1, Address.bytes alice, some r⟩
    bid := ⟨1, Address.bytes owner, some
      { requestId := B256.bytes (requestId r), amount := num 2, domain := B256.bytes dom,
        prover := Address.bytes prover, variant := 1 }⟩
    settle := ⟨1, Address.bytes auctioneer, some
      { requestId := B256.bytes (requestId r), winner := Address.bytes winner,
        domain := B256.bytes dom, variant := 2 }⟩
    execute := ⟨1, Address.bytes executor, some
      { requestId := B256.bytes (requestId r), executionStatus := status,
        publicValuesHash := some (List.replicate 32 9), pgus := some 50, domain := B256.bytes dom,
        punishment := some (num 40), variant := 3 }⟩
    fulfill := some ⟨1, Address.bytes fulfiller, some
      { requestId := B256.bytes (requestId r), proof := [1, 2, 3], domain := B256.bytes dom,
        variant := 4 }⟩
    verify := some (Address.bytes verifier) }

/-- State after the two on-chain transactions. -/
def s0 : Ledger := Ledger.new dom
def s1 : Ledger := (Ledger.execute env deposit1 s0).2
def s2 : Ledger := (Ledger.execute env create2 s1).2

end Verif.Toy
