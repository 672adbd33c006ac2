import Verif.Observe
import Verif.Json
import Verif.Amount
/-
# The repository's own tests of the ledger, set up on the model

The scenarios of `crates/vapp/tests` are executed on the model in `ConformVapp` with the results that the tests expect.
They are tests of the model against the code's documented behaviour, not proofs. Only signatures and hashes are toys:
a signature is the signer's address masked with the hash of the message, so that, as with ECDSA, a signature of another
message or a changed signature recovers some other address.
-/

namespace Verif.Conform

/-- The toy hash. -/
def keccak (bs : Bytes) : B256 := BitVec.ofNat 256 (bs.foldl (fun n b => (n * 1000003 + b.toNat + 1) % 2 ^ 256) 7)

/-- The mask of a message. -/
def mask (m : Bytes) : Nat := (keccak m).toNat % 2 ^ 160

/-- `MockVerifier`, `crates/vapp/src/verifier.rs:25-37`: every proof verifies. -/
def env : Env where
  keccak := keccak
  recover m sig := if sig.length = 20 then some (BitVec.ofNat 160 (beNat sig ^^^ mask m)) else none
  json b := some (Json.body (fun _ => []) b)
  parseU256 := Amount.parse
  verify _ _ := true

/-- `RejectVerifier`, `crates/vapp/src/verifier.rs:39-51`: no proof verifies. -/
def rejecting : Env := { env with verify := fun _ _ => false }

/-- `sign_message_sync`. -/
def sign (a : Address) (m : Bytes) : Bytes := beBytes 20 (a.toNat ^^^ mask m)

/-- `proto_sign`, `crates/vapp/tests/common/mod.rs:38-42`. -/
def protoSign (a : Address) (b : Body) : Bytes := sign a b.encode

/-- `signature[0] ^= 0xFF`. -/
def flip : Bytes → Bytes
  | [] => []
  | b :: bs => (b ^^^ 255) :: bs

def text (n : Nat) : Bytes := Node.decimal n
def ascii (s : String) : Bytes := s.toList.map fun c => UInt8.ofNat c.toNat

/-- `10^18` units. -/
def prove (n : Nat) : Nat := n * 10 ^ 18

/-- An arbitrary word in place of `SPN_MAINNET_V1_DOMAIN`, whose real value is a Keccak hash (see `Domain`). -/
def domain : B256 := 0x5b43fbd7a2a8dbbf6a5f6b1d1a4b22fcd46eb1fcd2d4b7f5a90ad1ad8a2ac6b1
/-! Arbitrary distinct addresses in place of those of the test keys. -/
def requester : Address := 0x1000000000000000000000000000000000000001
def fulfiller : Address := 0x1000000000000000000000000000000000000002
def auctioneer : Address := 0x1000000000000000000000000000000000000003
def executor : Address := 0x1000000000000000000000000000000000000004
def verifier : Address := 0x1000000000000000000000000000000000000005
def treasury : Address := 0x1000000000000000000000000000000000000006
/-- `signer(name)` for names that the tests make up. -/
def other (n : Nat) : Address := BitVec.ofNat 160 (0x3000000000000000000000000000000000000000 + n)
/-- `test.signers[n]`. -/
def signer (n : Nat) : Address := BitVec.ofNat 160 (0x2000000000000000000000000000000000000000 + n)

/-- `deposit_tx`, `crates/vapp/tests/common/mod.rs:101-114`. -/
def depositTx (account : Address) (amount : Nat) (block logIndex onchainTx : U64) : Tx :=
  .deposit ⟨block, logIndex, onchainTx, ⟨account, BitVec.ofNat 256 amount⟩⟩

/-- `create_prover_tx`, `crates/vapp/tests/common/mod.rs:117-132`. -/
def createProverTx (prover owner : Address) (bips : Nat) (block logIndex onchainTx : U64) : Tx :=
  .createProver ⟨block, logIndex, onchainTx, ⟨prover, owner, BitVec.ofNat 256 bips⟩⟩

/-- `withdraw_tx`, `crates/vapp/tests/common/mod.rs:135-158`. -/
def withdrawTx (a account : Address) (amount : Nat) (nonce : U64) : Tx :=
  let body : WithdrawBody :=
    { nonce, account := Address.bytes account, amount := text amount, domain := B256.bytes domain, variant := 7,
      auctioneer := Address.bytes auctioneer, fee := ascii "1000000000000000000" }
  .withdraw ⟨1, protoSign a (.withdraw body), some body⟩

/-- `delegate_tx`, `crates/vapp/tests/common/mod.rs:161-184`: the body. -/
def delegateBody (prover delegate : Address) (nonce : U64) : DelegateBody :=
  { nonce, delegate := Address.bytes delegate, prover := Address.bytes prover, domain := B256.bytes domain, variant := 5,
    auctioneer := Address.bytes auctioneer, fee := ascii "1000000000000000000" }
def signedDelegate (a : Address) (body : DelegateBody) : Tx := .delegate ⟨1, protoSign a (.delegate body), some body⟩
/-- `delegate_tx`. -/
def delegateTx (a prover delegate : Address) (nonce : U64) : Tx := signedDelegate a (delegateBody prover delegate nonce)

/-- `transfer_tx`, `crates/vapp/tests/common/mod.rs:187-215`: the body. -/
def transferBody (to : Address) (amount : Nat) (nonce : U64) (auctioneer : Address) (fee : Nat) : TransferBody :=
  { nonce, to := Address.bytes to, amount := text amount, domain := B256.bytes domain, variant := 6,
    auctioneer := Address.bytes auctioneer, fee := text fee }
def signedTransfer (a : Address) (body : TransferBody) : Tx := .transfer ⟨1, protoSign a (.transfer body), some body⟩
/-- `transfer_tx`. -/
def transferTx (a to : Address) (amount : Nat) (nonce : U64) (auctioneer : Address) (fee : Nat) : Tx :=
  signedTransfer a (transferBody to amount nonce auctioneer fee)

/-- `request_body` of `create_clear_tx_with_options`, `crates/vapp/tests/common/mod.rs:570-597`. -/
def requestBody (nonce : U64) (mode : I32) : RequestBody :=
  { nonce, vkHash := beBytes 32 0x005b97bb81b9ed64f9321049013a56d9633c115b076ae4144f2622d0da13d683,
    version := ascii "sp1-v6.0.0", mode, strategy := 3,
    stdinUri := ascii "s3://spn-artifacts-production3/stdins/artifact_01jqcgtjr7es883amkx30sqkg9",
    deadline := 1000, cycleLimit := 1000, gasLimit := 10000, minAuctionPeriod := 0, whitelist := [],
    domain := B256.bytes domain, auctioneer := Address.bytes auctioneer, executor := Address.bytes executor,
    verifier := Address.bytes verifier, publicValuesHash := none, baseFee := ascii "0", maxPricePerPgu := ascii "100000",
    variant := 0, treasury := Address.bytes treasury, stdinPrivate := false }

/-- The parameters of `create_clear_tx_with_options` that the tests vary. -/
structure Options where
  bidder : Address := fulfiller
  mode : I32 := 2
  status : I32 := 2
  verified : Bool := false
  requestNonce : U64 := 1
  nonces : U64 := 1
  price : Nat := 50000

/-- `create_clear_tx` and its variants, `crates/vapp/tests/common/mod.rs:507-1200`, with changes of the bodies made
before they are signed. The proof is cut to four bytes: the mock verifiers do not look at it. -/
def clearTx (o : Options) (request : RequestBody → RequestBody := id) (bid : BidBody → BidBody := id)
    (settle : SettleBody → SettleBody := id) (execute : ExecuteBody → ExecuteBody := id)
    (fulfill : FulfillBody → FulfillBody := id) : ClearTx :=
  let r := requestBody o.requestNonce o.mode
  let r := request r
  let id := B256.bytes (hashWithSigner env requester (.request r))
  let b := bid { nonce := o.nonces, requestId := id, amount := text o.price, domain := B256.bytes domain,
                 prover := Address.bytes o.bidder, variant := 1 }
  let s := settle { nonce := o.nonces, requestId := id, winner := Address.bytes o.bidder, domain := B256.bytes domain, variant := 2 }
  let e := execute { nonce := o.nonces, requestId := id, executionStatus := o.status, publicValuesHash := some (beBytes 32 0),
                     cycles := some 1000, pgus := some 1000, domain := B256.bytes domain, variant := 3 }
  let f := fulfill { nonce := o.nonces, requestId := id, proof := [17, 182, 160, 157], domain := B256.bytes domain, variant := 4 }
  { request := ⟨1, protoSign requester (.request r), some r⟩
    bid := ⟨1, protoSign o.bidder (.bid b), some b⟩
    settle := ⟨1, protoSign auctioneer (.settle s), some s⟩
    execute := ⟨1, protoSign executor (.execute e), some e⟩
    fulfill := if o.status = 2 then some ⟨1, protoSign fulfiller (.fulfill f), some f⟩ else none
    verify := if o.verified then some (sign verifier (B256.bytes (hashWithSigner env fulfiller (.fulfill f)))) else none }

/-- What a test does and expects. -/
inductive Step where
  /-- `execute(..).unwrap()` with this receipt. -/
  | ok (tx : Tx) (r : Option Receipt)
  /-- `Err(VAppError::Revert(..))` that matches. -/
  | reverts (tx : Tx) (p : Revert → Bool)
  /-- `Err(VAppError::Panic(..))` that matches. -/
  | panics (tx : Tx) (p : Panic → Bool)
  /-- The same under `RejectVerifier`. -/
  | rejected (tx : Tx) (p : Panic → Bool)
  /-- `assert_account_balance`. -/
  | balance (a : Address) (n : Nat)
  /-- `assert_prover_account`. -/
  | prover (a owner signer : Address) (bips : Nat)
  /-- `assert_prover_signer`. -/
  | signs (a signer : Address)
  /-- `assert_state_counters`. -/
  | counters (tx onchainTx block logIndex : U64)

/-- The test passes. -/
def passes : List Step → Ledger → Bool
  | [], _ => true
  | .ok tx r :: rest, s =>
    match Ledger.execute env tx s with
    | (.ok r', s') => decide (r = r') && passes rest s'
    | _ => false
  | .reverts tx p :: rest, s =>
    match Ledger.execute env tx s with
    | (.revert r, s') => p r && passes rest s'
    | _ => false
  | .panics tx p :: rest, s =>
    match Ledger.execute env tx s with
    | (.panic r, s') => p r && passes rest s'
    | _ => false
  | .rejected tx p :: rest, s =>
    match Ledger.execute rejecting tx s with
    | (.panic r, s') => p r && passes rest s'
    | _ => false
  | .balance a n :: rest, s => decide (s.bal a = n) && passes rest s
  | .prover a o g n :: rest, s =>
    decide (s.owner a = o ∧ s.signer a = g ∧ (s.bips a).toNat = n ∧ (s.acct a).isSome) && passes rest s
  | .signs a g :: rest, s => decide (s.signer a = g ∧ (s.acct a).isSome) && passes rest s
  | .counters t o b l :: rest, s =>
    decide (s.sc.txId = t ∧ s.sc.onchainTxId = o ∧ s.sc.onchainBlock = b ∧ s.sc.onchainLogIndex = l) && passes rest s

/-- From `setup()`, `crates/vapp/tests/common/mod.rs:72-98`. -/
def test (steps : List Step) : Bool := passes steps (Ledger.new domain)

def depositReceipt (account : Address) (amount : Nat) (onchainTx : U64) : Option Receipt :=
  some (.deposit onchainTx .completed ⟨account, BitVec.ofNat 256 amount⟩)
def createReceipt (prover owner : Address) (bips : Nat) (onchainTx : U64) : Option Receipt :=
  some (.createProver onchainTx .completed ⟨prover, owner, BitVec.ofNat 256 bips⟩)
def withdrawReceipt (account : Address) (amount : Nat) : Option Receipt :=
  some (.withdraw .completed ⟨account, BitVec.ofNat 256 amount⟩)

/-- A deposit with the receipt that goes with it. -/
def deposited (account : Address) (amount : Nat) (block logIndex onchainTx : U64) : Step :=
  .ok (depositTx account amount block logIndex onchainTx) (depositReceipt account amount onchainTx)
/-- A creation with the receipt that goes with it. -/
def created (prover owner : Address) (bips : Nat) (block logIndex onchainTx : U64) : Step :=
  .ok (createProverTx prover owner bips block logIndex onchainTx) (createReceipt prover owner bips onchainTx)

/-- The usual start of `clear.rs`. -/
def funded (amount : Nat) : List Step :=
  [deposited requester amount 0 1 1, created fulfiller fulfiller 0 1 2 2]

end Verif.Conform
