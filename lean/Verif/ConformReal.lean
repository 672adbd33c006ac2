import Verif.Secp
import Verif.Decode
import Verif.Abi
import Verif.Aggregation
import Verif.ConformClear
import Verif.GenesisRoot
/-
# The model on values the real code has produced

Everything here evaluates the model with the real hash function and the real signature recovery (`Verif/Keccak.lean`,
`Verif/Secp.lean`) and compares the result with a value from the repository that the real code computed or accepted:
the signed messages in the tests of `signing.rs`, the public values in the proof fixtures, and the tests of `clear.rs` that depend on actual ECDSA. These are tests of the model, not proofs.
-/

namespace Verif.Conform.Real

/-- A hash of nothing, of `abc`, and of inputs just below, at and above the block length. Published values; the last
three were computed with an independent implementation. -/
example : Keccak.keccak256 [] = 0xc5d2460186f7233c927e7db2dcc703c0e500b653ca82273b7bfad8045d85a470 := by decide +kernel
example : Keccak.keccak256 (ascii "abc") = 0x4e03657aea45a94fc7d47ba826c8d667c0d1e6e33a64a036ec44f58fa12d6c45 := by decide +kernel
example : Keccak.keccak256 (List.replicate 135 7) = 0x316ef5fac392334013c099d269106bf60e177aa75b6b3e0ccefc0cd19ef6adb2 := by decide +kernel
example : Keccak.keccak256 (List.replicate 136 7) = 0xfe7b19f0a766c96fdae42d45fa0de3423bfe68a710492afee13853eb6004d9c4 := by decide +kernel
example : Keccak.keccak256 (List.replicate 300 7) = 0x4d8e06a2ea36a409a5388896fd1535153f4d61f2eb6601ae357e34e1bd73692a := by decide +kernel

/-! ## The tests of `crates/vapp/src/signing.rs` -/

/-- The functions that the code runs with, apart from proof verification, which always succeeds here
(`MockVerifier`, `crates/vapp/src/verifier.rs:25-37`), and the text of floating point numbers, which no message here has. -/
def env : Env where
  keccak := Keccak.keccak256
  recover := Secp.recover
  json b := some (Json.body (fun _ => []) b)
  parseU256 := Amount.parse
  verify _ _ := true

/-- The message decodes to a body whose signature in the given format is the sender's. -/
def verifies (k : Variant) (message signature : Bytes) (sender : Address) : Bool :=
  match Body.decode k message with
  | some b => decide ((verifySigned env b signature .binary).toOption = some sender)
  | none => false

/-- `test_verify_request_proof_signature`. -/
def requestMessage : Bytes := beBytes 136
  0x0801122000000000000000000000000000000000000000000000000000000000000000001a0a7370312d76332e302e3020022803324973333a2f2f73706e2d6172746966616374732d70726f64756374696f6e332f737464696e732f61727469666163745f30316a716367746a72376573383833616d6b78333073716b673938e80740e80748904e
example : (Body.decode .request requestMessage).map Body.encode = some requestMessage := by decide +kernel
example : verifies .request requestMessage
    (beBytes 65 0x0861fc247bbb6ab7aa9fd9b8e199bca8fea2e448103d8995ce2f4c3bd1bbe9035b17c7655f8d1b8e6256f12a4e9f45289d8ffc55b66d0c5982489502801cb8611c)
    0x31f8dc299e8e473f6562be20c047efbb93b8f3b3 := by decide +kernel

/-- `test_verify_bid_request_signature`. -/
example : verifies .bid
    (beBytes 34 0x1220a3ac34d4d49db9984ec3e96578503591eb414edcd9c4f6fb865a8f6f8d81937a)
    (beBytes 65 0x87c923b7a44f7768fa2ab1b8ed821be5fd2339fed6694ea788d335a4968719db3bd5334d74d15861364a947dd11642bc0550774f063fed3a59cc331ddf95531e1b)
    0xd7cfc5088b9ad010bffa295ff89bc472a7e8ddee := by decide +kernel

/-- `test_verify_settle_request_signature`. -/
example : verifies .settle
    (beBytes 34 0x1220a3ac34d4d49db9984ec3e96578503591eb414edcd9c4f6fb865a8f6f8d81937a)
    (beBytes 65 0xa80cb93068cd2aaa521ac84a3b0bb1b53fa313954bee9ca8b5ad4a7fa1f940806d45c115be493e185301db1d311ef3071b57375dffb02a16bf9c37a3059541701b)
    0x190c45613465c349bae30f8eb5fb7d3ee2ad698c := by decide +kernel

/-- `test_verify_execute_proof_request_signature`. -/
example : verifies .execute
    (beBytes 84 0x089b0212203ad3bb08bb53eaa7227e55c99311b61f570a201ff19e985512d1213db0f7d4e918022220c0a9dffe36892d12d9516056f57883abf69985dc29efda572714c61b184aca7b28c4a4fe6d30f3d9ca9f01)
    (beBytes 65 0xc8a00ba5a55e4b248f0165e4a28f4cb80366078e66a7e17417542c8edc1644155e5c0a720cf73e2ffcd559d52b2511494831101d70fdc7aeaa5a63c47daaba6a1b)
    0x29cf94C0809Bac6DFC837B5DA92D0c7F088E7Da1 := by decide +kernel

/-- `test_verify_fulfill_proof_request_signature`. -/
example : verifies .fulfill
    (beBytes 138 0x08011220a3ac34d4d49db9984ec3e96578503591eb414edcd9c4f6fb865a8f6f8d81937a1a6400000000000000000000000000000000000000000000000000000000000000000000000000000000000000000000000000000000000000000000000000000000000000000000000000000000000000000000000000000000000000000000000000000000)
    (beBytes 65 0x4df69585c0f084482af1f477289e3ae38158d42ba43886085696f2f28dbad84e34bc763d4278f006d55ecd56e750772b3e1d7b7756159c1dbbcaa760d80ce7231c)
    0xb58e45afb431fa82de4d3f6e963bd805f96141ab := by decide +kernel

/-- `test_verify_proto_with_json_format`: the signature is valid for the JSON text of the body only if the text is the
one `serde_json` writes. -/
def delegation : DelegateBody where
  nonce := 524
  delegate := [203, 60, 102, 176, 10, 2, 114, 121, 98, 139, 21, 162, 123, 62, 10, 137, 159, 99, 238, 130]
  prover := [199, 244, 214, 54, 63, 3, 106, 30, 80, 153, 73, 52, 192, 192, 215, 153, 252, 101, 110, 170]
  domain := [65, 246, 90, 2, 79, 53, 248, 227, 102, 65, 194, 159, 182, 207, 20, 26, 117, 17, 9, 160, 44, 25, 168, 249,
    81, 195, 1, 159, 160, 150, 14, 155]
  variant := 5
  auctioneer := beBytes 20 0xcb3c66b00a027279628b15a27b3e0a899f63ee82
  fee := ascii "1000000000000000000"
def delegationSignature : Bytes :=
  beBytes 65 0x0d4b962e356dd54b2e2b0712ed3299fbb497ded75b7668d60c97e03cbd8a6a5b53671c66e63b7d1f7aad17080b9f1d2f0a16ff569f6a29f5f0c9daab4edb68121c
example : (verifySigned env (.delegate delegation) delegationSignature .json).toOption =
    some 0x2edfdc3c360452eccba1d0b94079ec83f56c1e3c := by decide +kernel
/-- The same signature is not one of the binary form. -/
example : (verifySigned env (.delegate delegation) delegationSignature .binary).toOption ≠
    some 0x2edfdc3c360452eccba1d0b94079ec83f56c1e3c := by decide +kernel

/-- `test_verify_proto_with_unspecified_format`. -/
def unsignedBid : BidBody :=
  { nonce := 1, requestId := List.replicate 32 0x20, amount := ascii "1000", domain := List.replicate 32 0,
    prover := List.replicate 20 0, variant := 1 }
example : (match verifySigned env (.bid unsignedBid) (List.replicate 65 0) .unspecified with
    | .error e => e == .invalidMessageFormat
    | .ok _ => false) = true := by decide +kernel

/-! ## The domains -/

/-- `SPN_SEPOLIA_V1_DOMAIN`: the domain in the signed message of `signing.rs`, an actual message on Sepolia. -/
example : B256.bytes (Domain.sepolia Keccak.keccak256) = delegation.domain := by decide +kernel

/-! The genesis roots of `contracts/deployments` are C95. -/

/-! ## The proof fixtures, `contracts/fixtures/groth16-fixture.json:3` and `plonk-fixture.json:3`

Both have the same public values: what the aggregation program committed for a proof that the on-chain verifier accepts. -/

def fixturePublicValues : Bytes := beBytes 192
  0x0000000000000000000000000000000000000000000000000000000000000020d0d33dd33e505b5ac87c3d8b39bd21266151a8c61ed7d1c55fd3fda9a628f54fd0d33dd33e505b5ac87c3d8b39bd21266151a8c61ed7d1c55fd3fda9a628f54f000000000000000000000000000000000000000000000000000000000000000000000000000000000000000000000000000000000000000000000000000000800000000000000000000000000000000000000000000000000000000000000000
def fixtureRoot : B256 := 0xd0d33dd33e505b5ac87c3d8b39bd21266151a8c61ed7d1c55fd3fda9a628f54f
example : StepValues.decode fixturePublicValues = some ⟨fixtureRoot, fixtureRoot, 0, []⟩ := by decide +kernel
example : (⟨fixtureRoot, fixtureRoot, 0, []⟩ : StepValues).encode = fixturePublicValues := by decide +kernel

/-! ## Tests of `crates/vapp/tests/clear.rs` with actual signatures

The keys are those of the tests, the Keccak-256 hashes of the names (`crates/vapp/tests/common/mod.rs:31-33`); the signatures, in the
deterministic form of RFC 6979 that `alloy` uses, were computed outside Lean. -/

def auctioneer : Address := 0x8a26777b5bc7849f58716378d97a544802df3b1b
def executor : Address := 0x4aff9da56bee9417ae4be3933b24f77b3e29ca30
def verifier : Address := 0x85d901fa99f2c211f80818b00078c8d8f9847147
def requester : Address := 0x5e23ecff53fc9d493fd07cec190106e44c4a536a
def fulfiller : Address := 0x79d91b679ded1b5e48d095d2f6af98fb2d32cd47
def treasury : Address := 0xf43bca55e8091977223fa5b776e23528d205dca8
def domain : B256 := GenesisRoot.mainnetDomain

/-- The bodies that `create_clear_tx` makes, `crates/vapp/tests/common/mod.rs:570-690`. -/
def request : RequestBody :=
  { requestBody 1 2 with
    domain := B256.bytes domain, auctioneer := Address.bytes auctioneer, executor := Address.bytes executor,
    verifier := Address.bytes verifier, treasury := Address.bytes treasury }
def requestId : Bytes := beBytes 32 0x10e69d57707718421b4e700f7d49830d2a7b1a5c1ef0b161bfcad53bb0d8b5fd
/-- The request identifier is the hash of the requester and the request. -/
example : B256.bytes (hashWithSigner env requester (.request request)) = requestId := by decide +kernel
def bid : BidBody :=
  { nonce := 1, requestId, amount := text 50000, domain := B256.bytes domain, prover := Address.bytes fulfiller, variant := 1 }
def settle : SettleBody := { nonce := 1, requestId, winner := Address.bytes fulfiller, domain := B256.bytes domain, variant := 2 }
def execute : ExecuteBody :=
  { nonce := 1, requestId, executionStatus := 2, publicValuesHash := some (beBytes 32 0), cycles := some 1000,
    pgus := some 1000, domain := B256.bytes domain, variant := 3 }
/-- The proof in the test, `crates/vapp/tests/common/mod.rs:668-684`. -/
def proof : Bytes := [
    17, 182, 160, 157, 40, 242, 129, 34, 129, 204, 131, 191, 247, 169, 187, 69, 119, 90, 227, 82, 88, 207, 116,
    44, 34, 113, 109, 48, 85, 75, 45, 95, 111, 205, 161, 129, 18, 175, 110, 238, 88, 46, 229, 251, 208, 212,
    65, 200, 159, 144, 27, 252, 203, 116, 11, 243, 245, 60, 193, 115, 19, 186, 8, 52, 108, 195, 11, 30, 31, 12,
    176, 52, 162, 22, 135, 115, 165, 161, 191, 161, 111, 60, 246, 104, 207, 32, 178, 36, 15, 23, 97, 222, 253,
    16, 81, 231, 255, 67, 0, 59, 15, 140, 83, 36, 88, 90, 163, 253, 245, 233, 211, 239, 210, 154, 16, 4, 68,
    40, 3, 4, 146, 9, 82, 199, 52, 237, 208, 4, 31, 61, 16, 233, 26, 211, 199, 211, 213, 71, 232, 95, 36, 28,
    213, 124, 207, 120, 62, 150, 161, 119, 224, 89, 221, 37, 165, 134, 252, 213, 37, 150, 44, 153, 59, 188, 35,
    232, 251, 106, 5, 232, 17, 110, 39, 254, 70, 27, 250, 124, 44, 184, 109, 168, 69, 19, 165, 122, 114, 91,
    114, 83, 16, 10, 189, 128, 253, 33, 43, 212, 183, 241, 164, 29, 248, 49, 41, 241, 24, 30, 169, 213, 223,
    96, 237, 22, 30, 28, 84, 199, 234, 131, 201, 201, 249, 192, 192, 77, 227, 62, 45, 12, 12, 93, 125, 238,
    122, 154, 204, 35, 9, 170, 231, 68, 120, 183, 29, 140, 40, 165, 151, 14, 252, 76, 87, 38, 216, 68, 14, 33,
    176, 17]
def fulfill : FulfillBody := { nonce := 1, requestId, proof, domain := B256.bytes domain, variant := 4 }

def requestSignature : Bytes := beBytes 65
  0xa76753b0889b11dfde8e8b6f09531d4c4715683e7dbcf5880c2c89c8e27a7a636efd43c300cf89ebd8ebf64ea7eb4f701fc76f40c47d39025a2f2776255fd6c41b
def bidSignature : Bytes := beBytes 65
  0x52384cd1d87447ff19a77804c7073f8a3964534f1a609403196484fd9b9c7ead7f8531a6d157a947f5b7e90cf1bcb4546b93c86fa8f594a33848f334a4fb1bb31c
def settleSignature : Bytes := beBytes 65
  0x3ab6d73677c1055c1b64a8b85a6ffb1f7bb3a5cfc161b50f08a3e81b1c2a98c0582176a5240efdbb46d400bb40fcc6df16ae27b0193d3f5ad418c87370b47d6b1b
def executeSignature : Bytes := beBytes 65
  0xdf4f3d12918e6a47049041c3f13ed3e248785c3bff393ec102f868da25475349249474eb14b8fc9874106a8299af1404c76ffbef22c2351766101036f29530891c
def fulfillSignature : Bytes := beBytes 65
  0xab503c3cda386b4048e603043167acec1b795157ec8f7c4aebd7f327d1b7353d4007d57b033e68afed14817f76d220483c6399e14fc8ba901e046444750f88c81b

def clear : ClearTx where
  request := ⟨1, requestSignature, some request⟩
  bid := ⟨1, bidSignature, some bid⟩
  settle := ⟨1, settleSignature, some settle⟩
  execute := ⟨1, executeSignature, some execute⟩
  fulfill := some ⟨1, fulfillSignature, some fulfill⟩
  verify := none

/-- After the deposit and the creation with which the tests start. -/
def start : Ledger :=
  (Ledger.execute env (createProverTx fulfiller fulfiller 0 1 2 2)
    (Ledger.execute env (depositTx requester 100000000 0 1 1) (Ledger.new domain)).2).2

/-- `test_clear_basic_compressed`. -/
example : (match Ledger.execute env (.clear clear) start with
    | (.ok none, s) => s.bal requester == 50000000 && s.bal fulfiller == 50000000
    | _ => false) = true := by decide +kernel

/-- The clear fails with this. -/
def failsWith (c : ClearTx) (p : Panic → Bool) : Bool :=
  match Ledger.execute env (.clear c) start with
  | (.panic e, _) => p e
  | _ => false

/-- `test_clear_invalid_request_signature`. -/
example : failsWith { clear with request := ⟨1, flip requestSignature, some request⟩ } mismatchedId := by decide +kernel
/-- `test_clear_invalid_settle_signature`. -/
example : failsWith { clear with settle := ⟨1, flip settleSignature, some settle⟩ } otherAuctioneer := by decide +kernel
/-- `test_clear_invalid_execute_signature`. -/
example : failsWith { clear with execute := ⟨1, flip executeSignature, some execute⟩ } otherExecutor := by decide +kernel
/-- `test_clear_invalid_fulfill_signature`. -/
example : failsWith { clear with fulfill := some ⟨1, flip fulfillSignature, some fulfill⟩ } (· == .invalidSignature) := by
  decide +kernel

end Verif.Conform.Real
