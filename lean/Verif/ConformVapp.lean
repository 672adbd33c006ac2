import Verif.Conform
/-
# The scenarios of `crates/vapp/tests` on the model

One `example` for each test, in the order of the files, named in its comment.
-/

namespace Verif.Conform

/-! ## `crates/vapp/tests/deposit.rs` -/

/-- `test_deposit_basic`. -/
example : test [deposited requester 100 0 1 1, .balance requester 100, .counters 2 2 0 1] := by decide +kernel
/-- `test_deposit_multiple_same_account`. -/
example : test [deposited requester 100 0 1 1, .balance requester 100, deposited requester 200 0 2 2, .balance requester 300,
    deposited requester 50 1 1 3, .balance requester 350] := by decide +kernel
/-- `test_deposit_multiple_different_accounts`. -/
example : test [deposited requester 100 0 1 1, .balance requester 100, deposited fulfiller 200 0 2 2, .balance fulfiller 200,
    deposited auctioneer 300 1 1 3, .balance auctioneer 300, .balance requester 100, .balance fulfiller 200,
    .balance auctioneer 300] := by decide +kernel
/-- `test_deposit_large_amounts`. -/
example : test [deposited requester (2 ^ 256 - 1) 0 1 1, .balance requester (2 ^ 256 - 1)] := by decide +kernel
/-- `test_deposit_zero_amount`. -/
example : test [deposited requester 0 0 1 1, .balance requester 0] := by decide +kernel
/-- `test_deposit_onchain_tx_out_of_order`. -/
example : test [deposited requester 100 0 1 1, .panics (depositTx requester 100 0 2 3) (· == .onchainTxOutOfOrder 2 3),
    .balance requester 100, .counters 2 2 0 1] := by decide +kernel
/-- `test_deposit_block_number_regression`. -/
example : test [deposited requester 100 5 1 1, .panics (depositTx requester 100 3 1 2) (· == .blockNumberOutOfOrder 5 3),
    .balance requester 100, .counters 2 2 5 1] := by decide +kernel
/-- `test_deposit_log_index_out_of_order`. -/
example : test [deposited requester 100 0 5 1, .panics (depositTx requester 100 0 5 2) (· == .logIndexOutOfOrder 5 5),
    .panics (depositTx requester 100 0 3 2) (· == .logIndexOutOfOrder 5 3), .balance requester 100,
    .counters 2 2 0 5] := by decide +kernel
/-- `test_deposit_log_index_valid_progression`. -/
example : test [deposited requester 100 0 5 1, deposited requester 100 0 6 2, .balance requester 200, .counters 3 3 0 6,
    deposited requester 100 1 1 3, .balance requester 300, .counters 4 4 1 1] := by decide +kernel

/-! ## `crates/vapp/tests/create_prover.rs` -/

/-- `test_create_prover_basic`. -/
example : test [created fulfiller requester 500 0 1 1, .prover fulfiller requester requester 500, .counters 2 2 0 1] := by
  decide +kernel
/-- `test_create_prover_self_delegated`. -/
example : test [created fulfiller fulfiller 1000 0 1 1, .prover fulfiller fulfiller fulfiller 1000] := by decide +kernel
/-- `test_create_prover_different_owner`. -/
example : test [created (signer 0) (signer 1) 250 0 1 1, .prover (signer 0) (signer 1) (signer 1) 250] := by decide +kernel
/-- `test_create_prover_various_staker_fees`. -/
example : test [created (signer 0) (signer 1) 0 0 1 1, .prover (signer 0) (signer 1) (signer 1) 0,
    created (signer 2) (signer 3) 500 0 2 2, .prover (signer 2) (signer 3) (signer 3) 500,
    created (signer 4) (signer 5) 1000 1 1 3, .prover (signer 4) (signer 5) (signer 5) 1000,
    created (signer 6) (signer 7) 5000 1 2 4, .prover (signer 6) (signer 7) (signer 7) 5000, .counters 5 5 1 2] := by decide +kernel
/-- `test_create_prover_max_staker_fee`. -/
example : test [created fulfiller requester 10000 0 1 1, .prover fulfiller requester requester 10000] := by decide +kernel
/-- `test_create_prover_multiple_provers`. -/
example : test [created (signer 0) (signer 1) 100 0 1 1, created (signer 2) (signer 3) 200 0 2 2,
    created (signer 4) (signer 5) 300 1 1 3, .prover (signer 0) (signer 1) (signer 1) 100,
    .prover (signer 2) (signer 3) (signer 3) 200, .prover (signer 4) (signer 5) (signer 5) 300, .counters 4 4 1 1] := by
  decide +kernel
/-- `test_create_prover_onchain_tx_out_of_order`. -/
example : test [created fulfiller requester 500 0 1 1,
    .panics (createProverTx (signer 0) (signer 1) 500 0 2 4) (· == .onchainTxOutOfOrder 2 4),
    .prover fulfiller requester requester 500, .counters 2 2 0 1] := by decide +kernel
/-- `test_create_prover_block_number_regression`. -/
example : test [created fulfiller requester 500 15 1 1,
    .panics (createProverTx (signer 0) (signer 1) 500 10 1 2) (· == .blockNumberOutOfOrder 15 10),
    .prover fulfiller requester requester 500, .counters 2 2 15 1] := by decide +kernel
/-- `test_create_prover_log_index_out_of_order`. -/
example : test [created fulfiller requester 500 0 20 1,
    .panics (createProverTx (signer 0) (signer 1) 500 0 20 2) (· == .logIndexOutOfOrder 20 20),
    .panics (createProverTx (signer 0) (signer 1) 500 0 15 2) (· == .logIndexOutOfOrder 20 15),
    .prover fulfiller requester requester 500, .counters 2 2 0 20] := by decide +kernel
/-- `test_create_prover_log_index_valid_progression`. -/
example : test [created fulfiller requester 500 0 10 1, created (signer 0) (signer 1) 750 0 11 2,
    .prover fulfiller requester requester 500, .prover (signer 0) (signer 1) (signer 1) 750, .counters 3 3 0 11,
    created (signer 2) (signer 3) 1000 1 1 3, .prover (signer 2) (signer 3) (signer 3) 1000, .counters 4 4 1 1] := by decide +kernel

/-! ## `crates/vapp/tests/withdraw.rs` -/

def withdrew (a account : Address) (amount : Nat) (nonce : U64) : Step :=
  .ok (withdrawTx a account amount nonce) (withdrawReceipt account amount)
def noFunds : Revert → Bool
  | .insufficientWithdrawBalance .. => true
  | _ => false
def processed : Panic → Bool
  | .transactionAlreadyProcessed _ => true
  | _ => false

/-- `test_withdraw_basic`. -/
example : test [deposited requester (prove 101) 0 1 1, .balance requester (prove 101), withdrew requester requester (prove 60) 0,
    .balance requester (prove 40), .balance auctioneer (prove 1), .counters 3 2 0 1] := by decide +kernel
/-- `test_withdraw_partial`. -/
example : test [deposited requester (prove 503) 0 1 1, withdrew requester requester (prove 100) 0, .balance requester (prove 402),
    .balance auctioneer (prove 1), withdrew requester requester (prove 200) 0, .balance requester (prove 201),
    .balance auctioneer (prove 2), withdrew requester requester (prove 50) 0, .balance requester (prove 150),
    .balance auctioneer (prove 3)] := by decide +kernel
/-- `test_withdraw_exact_balance`. -/
example : test [deposited requester (prove 790) 0 1 1, withdrew requester requester (prove 789) 0, .balance requester 0,
    .balance auctioneer (prove 1)] := by decide +kernel
/-- `test_withdraw_insufficient_balance`. -/
example : test [deposited requester (prove 100) 0 1 1, .reverts (withdrawTx requester requester (prove 100) 0) noFunds] := by
  decide +kernel
/-- `test_withdraw_insufficient_balance_retires_request`. -/
example : test [.reverts (withdrawTx requester requester (prove 1) 0) noFunds,
    .panics (withdrawTx requester requester (prove 1) 0) processed] := by decide +kernel
/-- `test_withdraw_zero_balance_account`. -/
example : test [.reverts (withdrawTx requester requester (prove 1) 0) noFunds] := by decide +kernel
/-- `test_withdraw_insufficient_for_auctioneer_fee`. -/
example : test [deposited requester (prove 1) 0 1 1, .reverts (withdrawTx requester requester (prove 1) 0) noFunds] := by
  decide +kernel
/-- `test_withdraw_prover_self_withdraw`. -/
example : test [created fulfiller requester 500 0 1 1, deposited fulfiller (prove 200) 0 2 2, .balance fulfiller (prove 200),
    deposited requester (prove 10) 0 3 3, withdrew requester fulfiller (prove 100) 0, .balance fulfiller (prove 100),
    .balance requester (prove 9), .balance auctioneer (prove 1)] := by decide +kernel
/-- `test_withdraw_third_party_for_prover`. -/
example : test [created fulfiller requester 500 0 1 1, deposited fulfiller (prove 150) 0 2 2, deposited (signer 0) (prove 10) 0 3 3,
    withdrew (signer 0) fulfiller (prove 100) 0, .balance fulfiller (prove 50), .balance (signer 0) (prove 9),
    .balance auctioneer (prove 1)] := by decide +kernel
/-- `test_withdraw_third_party_insufficient_prover_balance`. -/
example : test [created fulfiller requester 500 0 1 1, deposited fulfiller (prove 50) 0 2 2, deposited (signer 0) (prove 10) 0 3 3,
    .reverts (withdrawTx (signer 0) fulfiller (prove 100) 0)
      (· == .insufficientWithdrawBalance fulfiller (BitVec.ofNat 256 (prove 100)) (BitVec.ofNat 256 (prove 50)))] := by decide +kernel
/-- `test_withdraw_third_party_insufficient_fee_balance`. -/
example : test [created fulfiller requester 500 0 1 1, deposited fulfiller (prove 150) 0 2 2,
    deposited (signer 0) (5 * 10 ^ 17) 0 3 3,
    .reverts (withdrawTx (signer 0) fulfiller (prove 100) 0)
      (· == .insufficientWithdrawBalance (signer 0) (BitVec.ofNat 256 (prove 1)) (BitVec.ofNat 256 (5 * 10 ^ 17)))] := by
  decide +kernel
/-- `test_withdraw_non_prover_only_self_can_withdraw`. -/
example : test [deposited requester (prove 100) 0 1 1, deposited (signer 0) (prove 10) 0 2 2,
    .panics (withdrawTx (signer 0) requester (prove 50) 0) (· == .onlyAccountCanWithdraw)] := by decide +kernel

/-! ## `crates/vapp/tests/delegate.rs` -/

def noDelegateFunds : Revert → Bool
  | .insufficientDelegateBalance .. => true
  | _ => false
def otherDomain : Panic → Bool
  | .domainMismatch .. => true
  | _ => false
/-- A prover of `signers[0]`, and a deposit to its owner. -/
def ownedProver (amount : Nat) : List Step := [created (signer 1) (signer 0) 500 0 1 1, deposited (signer 0) amount 0 2 2]

/-- `test_delegate_basic`. -/
example : test (ownedProver (prove 1) ++ [.balance (signer 0) (prove 1), .signs (signer 1) (signer 0),
    .ok (delegateTx (signer 0) (signer 1) (signer 2) 1) none, .signs (signer 1) (signer 2), .balance (signer 0) 0,
    .balance auctioneer (prove 1), .counters 4 3 0 2]) := by decide +kernel
/-- `test_delegate_self_delegation`. -/
example : test (ownedProver (prove 1) ++ [.ok (delegateTx (signer 0) (signer 1) (signer 0) 1) none,
    .signs (signer 1) (signer 0)]) := by decide +kernel
/-- `test_delegate_multiple_delegations`. -/
example : test (ownedProver (prove 3) ++ [.ok (delegateTx (signer 0) (signer 1) (signer 2) 1) none, .signs (signer 1) (signer 2),
    .balance (signer 0) (prove 2), .balance auctioneer (prove 1), .ok (delegateTx (signer 0) (signer 1) (signer 3) 2) none,
    .signs (signer 1) (signer 3), .balance (signer 0) (prove 1), .balance auctioneer (prove 2),
    .ok (delegateTx (signer 0) (signer 1) (signer 4) 3) none, .signs (signer 1) (signer 4), .balance (signer 0) 0,
    .balance auctioneer (prove 3), .counters 6 3 0 2]) := by decide +kernel
/-- `test_delegate_multiple_provers`. -/
example : test [created (signer 2) (signer 0) 500 0 1 1, created (signer 3) (signer 1) 750 0 2 2,
    deposited (signer 0) (prove 1) 0 3 3, deposited (signer 1) (prove 1) 0 4 4,
    .ok (delegateTx (signer 0) (signer 2) (signer 4) 1) none, .ok (delegateTx (signer 1) (signer 3) (signer 5) 1) none,
    .signs (signer 2) (signer 4), .signs (signer 3) (signer 5)] := by decide +kernel
/-- `test_delegate_non_existent_prover`. -/
example : test [.panics (delegateTx (signer 0) (signer 1) (signer 2) 1) (· == .proverDoesNotExist (signer 1)),
    .counters 1 1 0 0] := by decide +kernel
/-- `test_delegate_only_owner_can_delegate`. -/
example : test [created (signer 2) (signer 0) 500 0 1 1, deposited (signer 1) (prove 1) 0 2 2,
    .panics (delegateTx (signer 1) (signer 2) (signer 3) 1) (· == .onlyOwnerCanDelegate), .signs (signer 2) (signer 0),
    .counters 3 3 0 2] := by decide +kernel
/-- `test_delegate_domain_mismatch`. -/
example : test (ownedProver (prove 1) ++ [.panics (signedDelegate (signer 0)
      { delegateBody (signer 1) (signer 2) 1 with domain := List.replicate 32 1 }) otherDomain, .signs (signer 1) (signer 0)]) := by
  decide +kernel
/-- `test_delegate_missing_body`. -/
example : test [.panics (.delegate ⟨1, [], none⟩) (· == .missingProtoBody), .counters 1 1 0 0] := by decide +kernel
/-- `test_delegate_invalid_prover_address`. -/
example : test [deposited (signer 0) (prove 1) 0 1 1, .panics (signedDelegate (signer 0)
    { delegateBody (signer 1) (signer 1) 1 with prover := [0x12, 0x34] }) (· == .addressDeserializationFailed)] := by decide +kernel
/-- `test_delegate_invalid_delegate_address`. -/
example : test (ownedProver (prove 1) ++ [.panics (signedDelegate (signer 0)
    { delegateBody (signer 1) (signer 2) 1 with delegate := [0x56, 0x78] }) (· == .addressDeserializationFailed),
    .signs (signer 1) (signer 0)]) := by decide +kernel
/-- `test_delegate_replay_protection`. -/
example : test (ownedProver (prove 1) ++ [.ok (delegateTx (signer 0) (signer 1) (signer 2) 1) none, .signs (signer 1) (signer 2),
    deposited (signer 0) (prove 1) 0 3 3, .panics (delegateTx (signer 0) (signer 1) (signer 2) 1) processed,
    .signs (signer 1) (signer 2), .counters 5 4 0 3]) := by decide +kernel
/-- `test_delegate_invalid_transaction_variant`. -/
example : test (ownedProver (prove 1) ++ [.panics (signedDelegate (signer 0)
    { delegateBody (signer 1) (signer 2) 1 with variant := 6 }) (· == .invalidTransactionVariant),
    .signs (signer 1) (signer 0)]) := by decide +kernel
/-- `test_delegate_exact_balance`. -/
example : test (ownedProver (prove 1) ++ [.balance (signer 0) (prove 1), .ok (delegateTx (signer 0) (signer 1) (signer 2) 1) none,
    .signs (signer 1) (signer 2), .balance (signer 0) 0, .balance auctioneer (prove 1)]) := by decide +kernel
/-- `test_delegate_insufficient_balance`. -/
example : test (ownedProver (5 * 10 ^ 17) ++ [.reverts (delegateTx (signer 0) (signer 1) (signer 2) 1) noDelegateFunds,
    .signs (signer 1) (signer 0), .balance (signer 0) (5 * 10 ^ 17)]) := by decide +kernel
/-- `test_delegate_insufficient_balance_retires_request`. -/
example : test [created (signer 1) (signer 0) 500 0 1 1, .reverts (delegateTx (signer 0) (signer 1) (signer 2) 1) noDelegateFunds,
    .panics (delegateTx (signer 0) (signer 1) (signer 2) 1) processed] := by decide +kernel
/-- `test_delegate_zero_balance_owner`. -/
example : test [created (signer 1) (signer 0) 500 0 1 1, .reverts (delegateTx (signer 0) (signer 1) (signer 2) 1) noDelegateFunds,
    .signs (signer 1) (signer 0)] := by decide +kernel

/-! ## `crates/vapp/tests/transfer.rs` -/

def noTransferFunds (account : Address) (required balance : Nat) (r : Revert) : Bool :=
  r == .insufficientTransferBalance account (BitVec.ofNat 256 required) (BitVec.ofNat 256 balance)

/-- `test_transfer_basic`. -/
example : test [deposited (signer 0) (prove 10) 0 1 1, .balance (signer 0) (prove 10),
    .ok (transferTx (signer 0) (signer 1) (prove 2) 1 auctioneer (prove 1)) none, .balance (signer 0) (prove 7),
    .balance (signer 1) (prove 2), .balance auctioneer (prove 1), .counters 3 2 0 1] := by decide +kernel
/-- `test_transfer_self_transfer`. -/
example : test [deposited (signer 0) (prove 10) 0 1 1, .ok (transferTx (signer 0) (signer 0) (prove 2) 1 auctioneer (prove 1)) none,
    .balance (signer 0) (prove 9), .balance auctioneer (prove 1)] := by decide +kernel
/-- `test_transfer_multiple_transfers`. -/
example : test [deposited (signer 0) (prove 20) 0 1 1, .ok (transferTx (signer 0) (signer 1) (prove 3) 1 auctioneer (prove 1)) none,
    .balance (signer 0) (prove 16), .balance (signer 1) (prove 3),
    .ok (transferTx (signer 0) (signer 2) (prove 5) 2 auctioneer (prove 1)) none, .balance (signer 0) (prove 10),
    .balance (signer 2) (prove 5), .ok (transferTx (signer 0) (signer 3) (prove 2) 3 auctioneer (prove 1)) none,
    .balance (signer 0) (prove 7), .balance (signer 3) (prove 2), .balance auctioneer (prove 3), .counters 5 2 0 1] := by decide +kernel
/-- `test_transfer_to_new_account`. -/
example : test [deposited (signer 0) (prove 10) 0 1 1, .balance (signer 1) 0,
    .ok (transferTx (signer 0) (signer 1) (prove 3) 1 auctioneer (prove 1)) none, .balance (signer 0) (prove 6),
    .balance (signer 1) (prove 3), .balance auctioneer (prove 1)] := by decide +kernel
/-- `test_transfer_exact_balance`. -/
example : test [deposited (signer 0) (prove 6) 0 1 1, .ok (transferTx (signer 0) (signer 1) (prove 5) 1 auctioneer (prove 1)) none,
    .balance (signer 0) 0, .balance (signer 1) (prove 5), .balance auctioneer (prove 1)] := by decide +kernel
/-- `test_transfer_zero_amount`. -/
example : test [deposited (signer 0) (prove 5) 0 1 1, .ok (transferTx (signer 0) (signer 1) 0 1 auctioneer (prove 1)) none,
    .balance (signer 0) (prove 4), .balance (signer 1) 0, .balance auctioneer (prove 1)] := by decide +kernel
/-- `test_transfer_insufficient_balance`. -/
example : test [deposited (signer 0) (prove 2) 0 1 1,
    .reverts (transferTx (signer 0) (signer 1) (prove 2) 1 auctioneer (prove 1)) (noTransferFunds (signer 0) (prove 3) (prove 2)),
    .balance (signer 0) (prove 2), .balance (signer 1) 0, .balance auctioneer 0, .counters 3 2 0 1] := by decide +kernel
/-- `test_transfer_from_zero_balance_account`. -/
example : test [.reverts (transferTx (signer 0) (signer 1) (prove 1) 1 auctioneer (prove 1)) (noTransferFunds (signer 0) (prove 2) 0),
    .counters 2 1 0 0] := by decide +kernel
/-- `test_transfer_insufficient_balance_retires_request`. -/
example : test [.reverts (transferTx (signer 0) (signer 1) (prove 1) 1 auctioneer (prove 1)) (noTransferFunds (signer 0) (prove 2) 0),
    .panics (transferTx (signer 0) (signer 1) (prove 1) 1 auctioneer (prove 1)) processed] := by decide +kernel
/-- `test_transfer_from_signer_without_balance`. -/
example : test [deposited (signer 0) 500 0 1 1,
    .reverts (transferTx (signer 1) (signer 2) 100 1 auctioneer (prove 1)) (noTransferFunds (signer 1) (100 + prove 1) 0),
    .balance (signer 0) 500, .balance (signer 1) 0, .balance (signer 2) 0, .balance auctioneer 0] := by decide +kernel
/-- `test_transfer_domain_mismatch`. -/
example : test [deposited (signer 0) 500 0 1 1,
    .panics (signedTransfer (signer 0) { transferBody (signer 1) 100 1 auctioneer (prove 1) with domain := List.replicate 32 1 }) otherDomain,
    .balance (signer 0) 500, .balance (signer 1) 0, .balance auctioneer 0] := by decide +kernel
/-- `test_transfer_missing_body`. -/
example : test [.panics (.transfer ⟨1, [], none⟩) (· == .missingProtoBody), .counters 1 1 0 0] := by decide +kernel
/-- `test_transfer_invalid_amount_parsing`. -/
example : test [deposited (signer 0) 500 0 1 1,
    .panics (signedTransfer (signer 0) { transferBody (signer 1) 100 1 auctioneer (prove 1) with amount := ascii "invalid_amount" })
      (· == .invalidTransferAmount (ascii "invalid_amount")),
    .balance (signer 0) 500, .balance (signer 1) 0, .balance auctioneer 0] := by decide +kernel
/-- `test_transfer_invalid_to_address`. -/
example : test [deposited (signer 0) 500 0 1 1,
    .panics (signedTransfer (signer 0) { transferBody (signer 1) 100 1 auctioneer (prove 1) with to := [0x12, 0x34] })
      (· == .addressDeserializationFailed), .balance (signer 0) 500, .balance auctioneer 0] := by decide +kernel
/-- `test_transfer_replay_protection`. -/
example : test [deposited (signer 0) (prove 10) 0 1 1, .balance (signer 0) (prove 10),
    .ok (transferTx (signer 0) (signer 1) (prove 2) 1 auctioneer (prove 1)) none, .balance (signer 0) (prove 7),
    .balance (signer 1) (prove 2), .balance auctioneer (prove 1),
    .panics (transferTx (signer 0) (signer 1) (prove 2) 1 auctioneer (prove 1)) processed, .balance (signer 0) (prove 7),
    .balance (signer 1) (prove 2), .balance auctioneer (prove 1), .counters 3 2 0 1] := by decide +kernel
/-- `test_transfer_invalid_fee_parsing`. -/
example : test [deposited (signer 0) 500 0 1 1,
    .panics (signedTransfer (signer 0) { transferBody (signer 1) 100 1 auctioneer 0 with fee := ascii "not_a_number" })
      (· == .invalidU256Amount (ascii "not_a_number")),
    .balance (signer 0) 500, .balance (signer 1) 0, .balance auctioneer 0] := by decide +kernel
/-- `test_transfer_invalid_auctioneer_address`. -/
example : test [deposited (signer 0) 500 0 1 1,
    .panics (signedTransfer (signer 0) { transferBody (signer 1) 100 1 auctioneer (prove 1) with auctioneer := [0xAA, 0xBB] })
      (· == .addressDeserializationFailed), .balance (signer 0) 500, .balance (signer 1) 0] := by decide +kernel
/-- `test_transfer_different_fee_amounts`. -/
example : test [deposited (signer 0) (prove 20) 0 1 1, .ok (transferTx (signer 0) (signer 1) (prove 3) 1 auctioneer (prove 2)) none,
    .balance (signer 0) (prove 15), .balance (signer 1) (prove 3), .balance auctioneer (prove 2),
    .ok (transferTx (signer 0) (signer 1) (prove 4) 2 auctioneer (10 ^ 18 / 2)) none,
    .balance (signer 0) (prove 15 - prove 4 - 10 ^ 18 / 2), .balance (signer 1) (prove 7),
    .balance auctioneer (prove 2 + 10 ^ 18 / 2)] := by decide +kernel
/-- `test_transfer_different_auctioneers`. -/
example : test [deposited (signer 0) (prove 15) 0 1 1, .ok (transferTx (signer 0) (signer 1) (prove 4) 1 auctioneer (prove 1)) none,
    .ok (transferTx (signer 0) (signer 1) (prove 3) 2 (signer 2) (prove 1)) none, .balance (signer 0) (prove 6),
    .balance (signer 1) (prove 7), .balance auctioneer (prove 1), .balance (signer 2) (prove 1)] := by decide +kernel
/-- `test_transfer_exact_fee_balance`. -/
example : test [deposited (signer 0) (prove 1) 0 1 1, .ok (transferTx (signer 0) (signer 1) 0 1 auctioneer (prove 1)) none,
    .balance (signer 0) 0, .balance (signer 1) 0, .balance auctioneer (prove 1)] := by decide +kernel

end Verif.Conform
