import Verif.ConformVapp
/-
# The scenarios of `crates/vapp/tests/clear.rs` on the model

One `example` for each test, in the order of the file. Where a test changes a body and signs it again the change is made
before signing; where it does not sign again the change is made in the finished transaction.
-/

namespace Verif.Conform

def tx (c : ClearTx) : Tx := .clear c
def mismatchedId : Panic → Bool
  | .requestIdMismatch .. => true
  | _ => false
def noProver : Panic → Bool
  | .proverDoesNotExist _ => true
  | _ => false
def otherSigner : Panic → Bool
  | .proverDelegatedSignerMismatch .. => true
  | _ => false
def otherAuctioneer : Panic → Bool
  | .auctioneerMismatch .. => true
  | _ => false
def otherExecutor : Panic → Bool
  | .executorMismatch .. => true
  | _ => false
/-- Sign the settlement or the execution as somebody else. -/
def settledBy (a : Address) (c : ClearTx) : ClearTx :=
  { c with settle := { c.settle with signature := (c.settle.body.map fun b => protoSign a (.settle b)).getD [] } }
def executedBy (a : Address) (c : ClearTx) : ClearTx :=
  { c with execute := { c.execute with signature := (c.execute.body.map fun b => protoSign a (.execute b)).getD [] } }
/-- The usual start, a clear without receipt, and the balances after it. -/
def clears (amount : Nat) (c : ClearTx) (cost : Nat) : Bool :=
  test (funded amount ++ [.ok (tx c) none, .balance requester (amount - cost), .balance fulfiller cost])
/-- The usual start, and a panic. -/
def fails (c : ClearTx) (p : Panic → Bool) : Bool := test (funded 100000000 ++ [.panics (tx c) p])
/-- The same under `RejectVerifier`. -/
def failsRejected (c : ClearTx) (p : Panic → Bool) : Bool := test (funded 100000000 ++ [.rejected (tx c) p])
def ones : Bytes := List.replicate 32 255


/-- `test_clear_basic_compressed`. -/
example : test (funded 100000000 ++ [.balance requester 100000000, .balance fulfiller 0, .ok (tx (clearTx {})) none,
    .balance requester 50000000, .balance fulfiller 50000000]) := by decide +kernel
/-- `test_clear_groth16_mode`. -/
example : clears 100000000 (clearTx { mode := 4, verified := true }) 50000000 := by decide +kernel
/-- `test_clear_plonk_mode`. -/
example : clears 100000000 (clearTx { mode := 3, verified := true }) 50000000 := by decide +kernel
/-- `test_clear_with_whitelist`. -/
example : clears 100000000 (clearTx {} (request := fun r => { r with whitelist := [Address.bytes fulfiller] })) 50000000 := by decide +kernel
/-- `test_clear_empty_whitelist`. -/
example : clears 100000000 (clearTx {} (request := fun r => { r with whitelist := [] })) 50000000 := by decide +kernel
/-- `test_clear_missing_request_body`. -/
example : fails { clearTx {} with request := { (clearTx {}).request with body := none } } (· == .missingProtoBody) := by decide +kernel
/-- `test_clear_missing_bid_body`. -/
example : fails { clearTx {} with bid := { (clearTx {}).bid with body := none } } (· == .missingProtoBody) := by decide +kernel
/-- `test_clear_missing_settle_body`. -/
example : fails { clearTx {} with settle := { (clearTx {}).settle with body := none } } (· == .missingProtoBody) := by decide +kernel
/-- `test_clear_missing_execute_body`. -/
example : fails { clearTx {} with execute := { (clearTx {}).execute with body := none } } (· == .missingProtoBody) := by decide +kernel
/-- `test_clear_missing_fulfill_body`. -/
example : fails { clearTx {} with fulfill := (clearTx {}).fulfill.map fun f => { f with body := none } } (· == .missingProtoBody) := by decide +kernel
/-- `test_clear_request_id_mismatch_bid`. -/
example : fails (clearTx {} (bid := fun b => { b with requestId := ones })) mismatchedId := by decide +kernel
/-- `test_clear_request_id_mismatch_settle`. -/
example : fails (clearTx {} (settle := fun b => { b with requestId := ones })) mismatchedId := by decide +kernel
/-- `test_clear_request_id_mismatch_execute`. -/
example : fails (clearTx {} (execute := fun b => { b with requestId := ones })) mismatchedId := by decide +kernel
/-- `test_clear_request_id_mismatch_fulfill`. -/
example : fails (clearTx {} (fulfill := fun b => { b with requestId := ones })) mismatchedId := by decide +kernel
/-- `test_clear_already_fulfilled_request`. -/
example : test (funded 200000000 ++ [.ok (tx (clearTx {})) none, .panics (tx (clearTx { nonces := 2 })) processed]) := by decide +kernel
/-- `test_clear_prover_does_not_exist`. -/
example : test [deposited requester 100000000 0 1 1, .panics (tx (clearTx {})) noProver] := by decide +kernel
/-- `test_clear_delegated_signer_mismatch`. -/
example : fails (clearTx { bidder := other 0 }) noProver := by decide +kernel
/-- `test_clear_delegated_signer_mismatch_with_real_delegation`. -/
example : test [created fulfiller (signer 0) 0 0 1 1, deposited (signer 0) (prove 1) 0 2 2,
    .ok (delegateTx (signer 0) fulfiller (signer 2) 1) none, .panics (tx (clearTx { price := 100 })) otherSigner] := by decide +kernel
/-- `test_clear_prover_not_in_whitelist`. -/
example : fails (clearTx {} (request := fun r => { r with whitelist := [Address.bytes auctioneer] }))
    fun | .proverNotInWhitelist _ => true | _ => false := by decide +kernel
/-- `test_clear_max_price_exceeded`. -/
example : fails (clearTx { price := 150000 }) fun | .maxPricePerPguExceeded .. => true | _ => false := by decide +kernel
/-- `test_clear_gas_limit_exceeded`. -/
example : fails (clearTx {} (execute := fun e => { e with pgus := some 15000 })) fun | .gasLimitExceeded .. => true | _ => false := by decide +kernel
/-- `test_clear_insufficient_requester_balance`. -/
example : test (funded 1000000 ++ [.reverts (tx (clearTx {})) (fun | .insufficientClearBalance .. => true | _ => false),
    .balance requester 1000000, .balance fulfiller 0, .panics (tx (clearTx {})) processed]) := by decide +kernel
/-- `test_clear_invalid_bid_amount_parsing`. The bid is not signed again, so its signer is somebody else. -/
example : fails { clearTx {} with bid := { (clearTx {}).bid with
    body := (clearTx {}).bid.body.map fun b => { b with amount := ascii "invalid_amount" } } } otherSigner := by decide +kernel
/-- `test_clear_invalid_base_fee_parsing`. -/
example : fails (clearTx {} (request := fun r => { r with baseFee := ascii "invalid_base_fee" })) (· == .u256ParseError) := by decide +kernel
/-- `test_clear_invalid_max_price_parsing`. -/
example : fails (clearTx {} (request := fun r => { r with maxPricePerPgu := ascii "invalid_max_price" })) (· == .u256ParseError) := by decide +kernel
/-- `test_clear_various_fee_combinations`. -/
example : test [deposited requester 500000000 0 1 1, created fulfiller fulfiller 1000 1 2 2,
    .ok (tx (clearTx {} (request := fun r => { r with baseFee := ascii "10000" }))) none, .balance requester (500000000 - 50010000),
    .balance fulfiller 50010000, .balance treasury 0] := by decide +kernel
/-- `test_clear_gas_limit_boundary`. -/
example : clears 1000000000 (clearTx {} (execute := fun e => { e with pgus := some 10000 })) 500000000 := by decide +kernel
/-- `test_clear_with_public_values_hash`. -/
example : clears 100000000 (clearTx {} (request := fun r => { r with publicValuesHash := some (List.replicate 32 1) })
    (execute := fun e => { e with publicValuesHash := some (List.replicate 32 1) })) 50000000 := by decide +kernel
/-- `test_clear_without_public_values_hash`. -/
example : clears 100000000 (clearTx {}) 50000000 := by decide +kernel
/-- `test_clear_invalid_request_signature`. -/
example : fails { clearTx {} with request := { (clearTx {}).request with signature := flip (clearTx {}).request.signature } }
    fun | .invalidSignature => true | .requestIdMismatch .. => true | _ => false := by decide +kernel
/-- `test_clear_invalid_settle_signature`. -/
example : fails { clearTx {} with settle := { (clearTx {}).settle with signature := flip (clearTx {}).settle.signature } } otherAuctioneer := by decide +kernel
/-- `test_clear_invalid_execute_signature`. -/
example : fails { clearTx {} with execute := { (clearTx {}).execute with signature := flip (clearTx {}).execute.signature } } otherExecutor := by decide +kernel
/-- `test_clear_invalid_fulfill_signature`. Not quite the same scenario: the test changes one byte of the signature and
relies on recovery failing for the result. A toy signature always recovers somebody, so here it is one that recovers
nobody; `ConformReal` has the scenario with the actual signature. -/
example : fails { clearTx {} with fulfill := (clearTx {}).fulfill.map fun f => { f with signature := [] } } (· == .invalidSignature) := by
  decide +kernel

/-- `test_clear_domain_mismatch_request`. -/
example : fails { clearTx {} with request := { (clearTx {}).request with
    body := (clearTx {}).request.body.map fun b => { b with domain := ones } } } otherDomain := by decide +kernel
/-- `test_clear_domain_mismatch_bid`. -/
example : fails { clearTx {} with bid := { (clearTx {}).bid with
    body := (clearTx {}).bid.body.map fun b => { b with domain := ones } } } otherDomain := by decide +kernel
/-- `test_clear_domain_mismatch_settle`. -/
example : fails { clearTx {} with settle := { (clearTx {}).settle with
    body := (clearTx {}).settle.body.map fun b => { b with domain := ones } } } otherDomain := by decide +kernel
/-- `test_clear_domain_mismatch_execute`. -/
example : fails { clearTx {} with execute := { (clearTx {}).execute with
    body := (clearTx {}).execute.body.map fun b => { b with domain := ones } } } otherDomain := by decide +kernel
/-- `test_clear_domain_mismatch_fulfill`. -/
example : fails { clearTx {} with fulfill := (clearTx {}).fulfill.map fun f =>
    { f with body := f.body.map fun b => { b with domain := ones } } } otherDomain := by decide +kernel
/-- `test_clear_auctioneer_mismatch_request`. -/
example : fails (settledBy (other 1) (clearTx {})) otherAuctioneer := by decide +kernel
/-- `test_clear_auctioneer_mismatch_global`. -/
example : fails (settledBy (other 2) (clearTx {})) otherAuctioneer := by decide +kernel
/-- `test_clear_executor_mismatch_request`. -/
example : fails (executedBy (other 3) (clearTx {})) otherExecutor := by decide +kernel
/-- `test_clear_executor_mismatch_global`. -/
example : fails (executedBy (other 4) (clearTx {})) otherExecutor := by decide +kernel
/-- `test_clear_unexecutable_with_punishment`. -/
example : test (funded 100000000 ++ [.ok (tx (clearTx { status := 3 } (execute := fun e => { e with punishment := some (ascii "25000000") }))) none,
    .balance fulfiller 0, .balance requester (100000000 - 25000000)]) := by decide +kernel
/-- `test_clear_unexecutable_insufficient_punishment_balance`. -/
example : test (funded 1000000 ++ [
    .reverts (tx (clearTx { status := 3 } (execute := fun e => { e with punishment := some (ascii "500000000") })))
      (fun | .insufficientPunishmentBalance .. => true | _ => false), .balance requester 1000000, .balance fulfiller 0,
    .panics (tx (clearTx { status := 3 } (execute := fun e => { e with punishment := some (ascii "500000000") }))) processed]) := by decide +kernel
/-- `test_clear_unexecutable_missing_punishment`. -/
example : fails (clearTx { status := 3 }) (· == .missingPunishment) := by decide +kernel
/-- `test_clear_punishment_exceeds_max_cost`. -/
example : fails (clearTx { status := 3 } (execute := fun e => { e with punishment := some (ascii "2000000000") }))
    fun | .punishmentExceedsMaxCost .. => true | _ => false := by decide +kernel
/-- `test_clear_invalid_execution_status`. -/
example : fails (clearTx {} (execute := fun e => { e with executionStatus := 99 })) fun | .executionFailed _ => true | _ => false := by decide +kernel
/-- `test_clear_missing_verifier_signature_groth16`. -/
example : fails (clearTx { mode := 4 }) (· == .missingVerifierSignature) := by decide +kernel
/-- `test_clear_missing_verifier_signature_plonk`. -/
example : fails (clearTx { mode := 3 }) (· == .missingVerifierSignature) := by decide +kernel
/-- `test_clear_invalid_verifier_signature`. -/
example : fails { clearTx { mode := 4, verified := true } with verify := (clearTx { mode := 4, verified := true }).verify.map flip }
    (· == .invalidVerifierSignature) := by decide +kernel
/-- `test_clear_verifier_address_mismatch`. -/
example : fails { clearTx { mode := 4, verified := true } with verify :=
    ((clearTx { mode := 4, verified := true }).fulfill.bind (·.body)).map fun b => protoSign (other 5) (.fulfill b) }
    (· == .invalidVerifierSignature) := by decide +kernel
/-- `test_clear_public_values_hash_mismatch`. -/
example : fails (clearTx {} (request := fun r => { r with publicValuesHash := some (List.replicate 32 9) })
    (execute := fun e => { e with publicValuesHash := some (List.replicate 32 2) })) (· == .publicValuesHashMismatch) := by decide +kernel
/-- `test_clear_missing_execute_public_values_hash`. -/
example : fails (clearTx {} (execute := fun e => { e with publicValuesHash := none })) (· == .missingPublicValuesHash) := by decide +kernel
/-- `test_clear_missing_fulfill_field`. -/
example : fails { clearTx {} with fulfill := none } (· == .missingFulfill) := by decide +kernel
/-- `test_clear_missing_pgus_value`. -/
example : fails (clearTx {} (execute := fun e => { e with pgus := none })) (· == .missingPgusUsed) := by decide +kernel
/-- `test_clear_invalid_proof_compressed`. -/
example : failsRejected (clearTx {} (fulfill := fun f => { f with proof := ones })) (· == .invalidProof) := by decide +kernel
/-- `test_clear_invalid_request_variant`. -/
example : failsRejected { clearTx {} with request := { (clearTx {}).request with
    body := (clearTx {}).request.body.map fun b => { b with variant := 4 }
    signature := ((clearTx {}).request.body.map fun b => protoSign requester (.request { b with variant := 4 })).getD [] } }
    (· == .invalidTransactionVariant) := by decide +kernel
/-- `test_clear_invalid_bid_variant`. -/
example : failsRejected (clearTx {} (bid := fun b => { b with variant := 4 })) (· == .invalidTransactionVariant) := by decide +kernel
/-- `test_clear_invalid_settle_variant`. The test changes the bid, despite its name. -/
example : failsRejected (clearTx {} (bid := fun b => { b with variant := 4 })) (· == .invalidTransactionVariant) := by decide +kernel
/-- `test_clear_invalid_execute_variant`. -/
example : failsRejected (clearTx {} (execute := fun e => { e with variant := 4 })) (· == .invalidTransactionVariant) := by decide +kernel
/-- `test_clear_invalid_fulfill_variant`. -/
example : failsRejected (clearTx {} (fulfill := fun f => { f with variant := 0 })) (· == .invalidTransactionVariant) := by decide +kernel
/-- `test_clear_v5_compressed_uses_signature_verification`. -/
example : clears 100000000 (clearTx { verified := true } (request := fun r => { r with version := ascii "sp1-v5.0.0" }) (fulfill := fun f => { f with proof := [] })) 50000000 := by decide +kernel
/-- `test_clear_v5_compressed_without_signature_fails`. -/
example : fails (clearTx {} (request := fun r => { r with version := ascii "sp1-v5.0.0" }) (fulfill := fun f => { f with proof := [] }))
    (· == .missingVerifierSignature) := by decide +kernel
/-- `test_clear_unsupported_proof_mode_core`. -/
example : fails (clearTx { mode := 1 }) fun | .unsupportedProofMode _ => true | _ => false := by decide +kernel

/-! ## Not in the repository -/

/-- What `test_clear_invalid_settle_variant` is named after. -/
example : fails (clearTx {} (settle := fun s => { s with variant := 4 })) (· == .invalidTransactionVariant) := by decide +kernel
/-- A proof signed by somebody else than the winner is paid for: the signer is not compared with the prover (C15). -/
example : clears 100000000 { clearTx {} with fulfill := (clearTx {}).fulfill.map fun f => { f with signature := flip f.signature } }
    50000000 := by decide +kernel
/-- Scenarios can fail. -/
example : clears 100000000 (clearTx {}) 50000001 = false := by decide +kernel
example : fails (clearTx {}) (fun _ => true) = false := by decide +kernel

end Verif.Conform
