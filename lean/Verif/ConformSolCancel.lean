import Verif.ConformL1
/-
# The tests of `contracts/test/SuccinctStaking.cancelslash.t.sol` on the contract model

Transcribed statement by statement; see `Verif/ConformL1.lean` for what stands for what. These are tests, not proofs.
-/

namespace Verif.ConformL1.ConformSolCancel
open Verif

set_option linter.unusedVariables false

/-- `setUp`, `contracts/test/SuccinctStaking.cancelslash.t.sol:10`. -/
def ownSetUp : T Unit := do
  let _ ← _stake STAKER_1 ALICE_PROVER STAKER_PROVE_AMOUNT
  let _ ← _stake STAKER_2 BOB_PROVER STAKER_PROVE_AMOUNT

/-- `test_CancelSlash_WhenAfterDeadline`, `contracts/test/SuccinctStaking.cancelslash.t.sol:18`. -/
def test_CancelSlash_WhenAfterDeadline : T Unit := do
  let mut index : Nat := (← _requestSlash ALICE_PROVER (STAKER_PROVE_AMOUNT / 2))
  let mut votingDelay : Nat := VOTING_DELAY
  let mut votingPeriod : Nat := VOTING_PERIOD
  let mut totalWaitTime : Nat := ((SLASH_CANCELLATION_PERIOD + votingDelay) + votingPeriod)
  skip totalWaitTime
  let _ ← cancelSlash_ OWNER ALICE_PROVER index
  let mut slashRequests : List SlashClaim := (← slashRequests_ ALICE_PROVER)
  check (((← at_ slashRequests index)).resolved = true)

/-- `test_RevertCancelSlash_WhenNonOwnerCancelsEarly`, `contracts/test/SuccinctStaking.cancelslash.t.sol:42`. -/
def test_RevertCancelSlash_WhenNonOwnerCancelsEarly : T Unit := do
  let mut index : Nat := (← _requestSlash ALICE_PROVER (STAKER_PROVE_AMOUNT / 2))
  let mut votingDelay : Nat := VOTING_DELAY
  let mut votingPeriod : Nat := VOTING_PERIOD
  let mut totalWaitTime : Nat := ((SLASH_CANCELLATION_PERIOD + votingDelay) + votingPeriod)
  skip (← csub totalWaitTime 1)
  expectRevert (some .slashRequestNotReadyToCancel) do
      let _ ← cancelSlash_ STAKER_1 ALICE_PROVER index

/-- `test_CancelSlash_WhenNonOwnerCancelsAfterDeadline`, `contracts/test/SuccinctStaking.cancelslash.t.sol:62`. -/
def test_CancelSlash_WhenNonOwnerCancelsAfterDeadline : T Unit := do
  let mut index : Nat := (← _requestSlash ALICE_PROVER (STAKER_PROVE_AMOUNT / 2))
  let mut votingDelay : Nat := VOTING_DELAY
  let mut votingPeriod : Nat := VOTING_PERIOD
  let mut totalWaitTime : Nat := ((SLASH_CANCELLATION_PERIOD + votingDelay) + votingPeriod)
  skip totalWaitTime
  let _ ← cancelSlash_ STAKER_1 ALICE_PROVER index
  let mut slashRequests : List SlashClaim := (← slashRequests_ ALICE_PROVER)
  check (((← at_ slashRequests index)).resolved = true)

/-- `test_RevertCancelSlash_WhenAlreadyResolved`, `contracts/test/SuccinctStaking.cancelslash.t.sol:86`. -/
def test_RevertCancelSlash_WhenAlreadyResolved : T Unit := do
  let mut index : Nat := (← _requestSlash ALICE_PROVER (STAKER_PROVE_AMOUNT / 2))
  let mut votingDelay : Nat := VOTING_DELAY
  let mut votingPeriod : Nat := VOTING_PERIOD
  let mut totalWaitTime : Nat := ((SLASH_CANCELLATION_PERIOD + votingDelay) + votingPeriod)
  skip totalWaitTime
  let _ ← cancelSlash_ OWNER ALICE_PROVER index
  expectRevert (some .slashRequestAlreadyResolved) do
      let _ ← cancelSlash_ OWNER ALICE_PROVER index

/-- `test_CancelSlash_WhenGovernanceCanFinishImmediately`, `contracts/test/SuccinctStaking.cancelslash.t.sol:108`. -/
def test_CancelSlash_WhenGovernanceCanFinishImmediately : T Unit := do
  let mut index : Nat := (← _requestSlash ALICE_PROVER (STAKER_PROVE_AMOUNT / 2))
  let mut slashed : Nat := (← finishSlash_ OWNER ALICE_PROVER index)
  check (slashed > 0)
  let mut slashRequests : List SlashClaim := (← slashRequests_ ALICE_PROVER)
  check (((← at_ slashRequests index)).resolved = true)

/-- `test_CancelSlash_WhenStakersCanUnstakeAfterCancellation`, `contracts/test/SuccinctStaking.cancelslash.t.sol:125`. -/
def test_CancelSlash_WhenStakersCanUnstakeAfterCancellation : T Unit := do
  let _ ← _requestUnstake STAKER_1 (STAKER_PROVE_AMOUNT / 4)
  let mut index : Nat := (← _requestSlash ALICE_PROVER (STAKER_PROVE_AMOUNT / 2))
  expectRevert (some .proverHasSlashRequest) do
      let _ ← _finishUnstake STAKER_1
  let mut votingDelay : Nat := VOTING_DELAY
  let mut votingPeriod : Nat := VOTING_PERIOD
  let mut totalWaitTime : Nat := ((SLASH_CANCELLATION_PERIOD + votingDelay) + votingPeriod)
  skip totalWaitTime
  let _ ← cancelSlash_ (named 1) ALICE_PROVER index
  skip UNSTAKE_PERIOD
  let mut unstaked : Nat := (← _finishUnstake STAKER_1)
  check (unstaked > 0)

/-- `test_CancelSlash_WhenExactBoundaryTiming`, `contracts/test/SuccinctStaking.cancelslash.t.sol:156`. -/
def test_CancelSlash_WhenExactBoundaryTiming : T Unit := do
  let mut index : Nat := (← _requestSlash ALICE_PROVER (STAKER_PROVE_AMOUNT / 2))
  let mut votingDelay : Nat := VOTING_DELAY
  let mut votingPeriod : Nat := VOTING_PERIOD
  let mut totalWaitTime : Nat := ((SLASH_CANCELLATION_PERIOD + votingDelay) + votingPeriod)
  skip (← csub totalWaitTime 1)
  expectRevert (some .slashRequestNotReadyToCancel) do
      let _ ← cancelSlash_ STAKER_1 ALICE_PROVER index
  skip 1
  let _ ← cancelSlash_ STAKER_1 ALICE_PROVER index

/-- `test_CancelSlash_WhenMultipleSlashesCanBeCancelledIndependently`, `contracts/test/SuccinctStaking.cancelslash.t.sol:183`. -/
def test_CancelSlash_WhenMultipleSlashesCanBeCancelledIndependently : T Unit := do
  let mut index1 : Nat := (← _requestSlash ALICE_PROVER (STAKER_PROVE_AMOUNT / 4))
  skip 86400
  let mut index2 : Nat := (← _requestSlash ALICE_PROVER (STAKER_PROVE_AMOUNT / 4))
  let mut votingDelay : Nat := VOTING_DELAY
  let mut votingPeriod : Nat := VOTING_PERIOD
  let mut totalWaitTime : Nat := ((SLASH_CANCELLATION_PERIOD + votingDelay) + votingPeriod)
  skip (← csub totalWaitTime 86400)
  let _ ← cancelSlash_ STAKER_1 ALICE_PROVER index1
  expectRevert (some .slashRequestNotReadyToCancel) do
      let _ ← cancelSlash_ STAKER_1 ALICE_PROVER index2
  skip 86400
  let _ ← cancelSlash_ STAKER_1 ALICE_PROVER index2

example : passes test_CancelSlash_WhenAfterDeadline ownSetUp = true := by decide +kernel
example : passes test_RevertCancelSlash_WhenNonOwnerCancelsEarly ownSetUp = true := by decide +kernel
example : passes test_CancelSlash_WhenNonOwnerCancelsAfterDeadline ownSetUp = true := by decide +kernel
example : passes test_RevertCancelSlash_WhenAlreadyResolved ownSetUp = true := by decide +kernel
example : passes test_CancelSlash_WhenGovernanceCanFinishImmediately ownSetUp = true := by decide +kernel
example : passes test_CancelSlash_WhenStakersCanUnstakeAfterCancellation ownSetUp = true := by decide +kernel
example : passes test_CancelSlash_WhenExactBoundaryTiming ownSetUp = true := by decide +kernel
example : passes test_CancelSlash_WhenMultipleSlashesCanBeCancelledIndependently ownSetUp = true := by decide +kernel

end Verif.ConformL1.ConformSolCancel
