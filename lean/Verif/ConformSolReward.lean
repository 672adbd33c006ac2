import Verif.ConformL1
/-
# The tests of `contracts/test/SuccinctStaking.fulfillment.t.sol` on the contract model

Transcribed statement by statement; see `Verif/ConformL1.lean` for what stands for what. These are tests, not proofs.
-/

namespace Verif.ConformL1.ConformSolReward
open Verif

set_option linter.unusedVariables false

/-- `BalanceSnapshot` of `contracts/test/SuccinctStaking.fulfillment.t.sol`. -/
structure BalanceSnapshot where
  staker1Balance : Nat
  staker2Balance : Nat
  aliceBalance : Nat
  bobBalance : Nat
  staker1Staked : Nat
  staker2Staked : Nat
  feeVaultBalance : Nat
  vappBalance : Nat

/-- `_takeSnapshot`, `contracts/test/SuccinctStaking.fulfillment.t.sol:23`. -/
def _takeSnapshot : T BalanceSnapshot := do
  return ({ staker1Balance := (← balanceOf PROVE STAKER_1), staker2Balance := (← balanceOf PROVE STAKER_2), aliceBalance := (← balanceOf PROVE ALICE), bobBalance := (← balanceOf PROVE BOB), staker1Staked := (← staked_ STAKER_1), staker2Staked := (← staked_ STAKER_2), feeVaultBalance := (← balanceOf PROVE TREASURY), vappBalance := (← balanceOf PROVE VAPP) } : BalanceSnapshot)

/-- `test_Reward_WhenValid`, `contracts/test/SuccinctStaking.fulfillment.t.sol:37`. -/
def test_Reward_WhenValid : T Unit := do
  let mut stakeAmount : Nat := STAKER_PROVE_AMOUNT
  let mut rewardAmount : Nat := STAKER_PROVE_AMOUNT
  let _ ← _permitAndStake STAKER_1 STAKER_1_PK ALICE_PROVER stakeAmount
  let mut before_ : BalanceSnapshot := (← _takeSnapshot)
  let _ ← _calculateFullRewardSplit rewardAmount
  let _ ← processFulfillment ALICE_PROVER rewardAmount
  let mut actualProtocolFee : Nat := (← _withdrawFullBalanceFromVApp TREASURY)
  let mut actualOwnerReward : Nat := (← _withdrawFullBalanceFromVApp ALICE)
  let mut actualStakerReward : Nat := (← _withdrawFullBalanceFromVApp ALICE_PROVER)
  check (near (← staked_ STAKER_1) ((before_).staker1Staked + actualStakerReward) 1)
  check ((← balanceOf PROVE ALICE) = ((before_).aliceBalance + actualOwnerReward))
  check ((← balanceOf PROVE TREASURY) = ((before_).feeVaultBalance + actualProtocolFee))
  check ((← balanceOf PROVE STAKER_1) = 0)
  check (near (← balanceOf PROVE I_PROVE) (stakeAmount + actualStakerReward) 1)
  check (near (← balanceOf I_PROVE ALICE_PROVER) (stakeAmount + actualStakerReward) 1)
  check ((← balanceOf ALICE_PROVER STAKING) = stakeAmount)
  check ((← balanceOf STAKING STAKER_1) = stakeAmount)

/-- `test_Reward_WhenUnstaked`, `contracts/test/SuccinctStaking.fulfillment.t.sol:80`. -/
def test_Reward_WhenUnstaked : T Unit := do
  let mut stakeAmount : Nat := STAKER_PROVE_AMOUNT
  let mut rewardAmount : Nat := STAKER_PROVE_AMOUNT
  let _ ← _permitAndStake STAKER_1 STAKER_1_PK ALICE_PROVER stakeAmount
  let mut before_ : BalanceSnapshot := (← _takeSnapshot)
  let (expectedProtocolFee, expectedStakerReward, expectedOwnerReward) := (← _calculateFullRewardSplit rewardAmount)
  let _ ← processFulfillment ALICE_PROVER rewardAmount
  let _ ← _withdrawFromVApp TREASURY expectedProtocolFee
  let _ ← _withdrawFromVApp ALICE expectedOwnerReward
  let _ ← _withdrawFromVApp ALICE_PROVER expectedStakerReward
  check ((← staked_ STAKER_1) = (← csub ((before_).staker1Staked + expectedStakerReward) 1))
  check ((← balanceOf PROVE ALICE) = ((before_).aliceBalance + expectedOwnerReward))
  check ((← balanceOf PROVE TREASURY) = ((before_).feeVaultBalance + expectedProtocolFee))
  let _ ← _completeUnstake STAKER_1 stakeAmount
  check ((← balanceOf PROVE STAKER_1) = (← csub (stakeAmount + expectedStakerReward) 1))
  check ((← balanceOf PROVE I_PROVE) = 1)
  check ((← balanceOf I_PROVE ALICE_PROVER) = 1)
  check ((← balanceOf ALICE_PROVER STAKING) = 0)
  check ((← balanceOf STAKING STAKER_1) = 0)

/-- `test_Reward_WhenPartialUnstake`, `contracts/test/SuccinctStaking.fulfillment.t.sol:125`. -/
def test_Reward_WhenPartialUnstake : T Unit := do
  let mut stakeAmount : Nat := STAKER_PROVE_AMOUNT
  let mut rewardAmount : Nat := STAKER_PROVE_AMOUNT
  let mut unstakeAmount : Nat := (stakeAmount / 2)
  let _ ← _permitAndStake STAKER_1 STAKER_1_PK ALICE_PROVER stakeAmount
  let mut before_ : BalanceSnapshot := (← _takeSnapshot)
  let (expectedProtocolFee, expectedStakerReward, expectedOwnerReward) := (← _calculateFullRewardSplit rewardAmount)
  let _ ← processFulfillment ALICE_PROVER rewardAmount
  let _ ← _withdrawFromVApp TREASURY expectedProtocolFee
  let _ ← _withdrawFromVApp ALICE expectedOwnerReward
  let _ ← _withdrawFromVApp ALICE_PROVER expectedStakerReward
  check ((← staked_ STAKER_1) = (← csub ((before_).staker1Staked + expectedStakerReward) 1))
  check ((← balanceOf PROVE ALICE) = ((before_).aliceBalance + expectedOwnerReward))
  check ((← balanceOf PROVE TREASURY) = ((before_).feeVaultBalance + expectedProtocolFee))
  let _ ← _completeUnstake STAKER_1 unstakeAmount
  let mut expectedProveReceived : Nat := (← csub (unstakeAmount + (expectedStakerReward / 2)) 1)
  check ((← balanceOf PROVE STAKER_1) = expectedProveReceived)
  let _ ← _completeUnstake STAKER_1 unstakeAmount
  check ((← balanceOf PROVE STAKER_1) = (← csub (stakeAmount + expectedStakerReward) 1))
  check ((← balanceOf STAKING STAKER_1) = 0)

/-- `test_Reward_WhenTwoStakersTwoProversOneRewarded`, `contracts/test/SuccinctStaking.fulfillment.t.sol:175`. -/
def test_Reward_WhenTwoStakersTwoProversOneRewarded : T Unit := do
  let mut stakeAmount1 : Nat := (STAKER_PROVE_AMOUNT / 2)
  let mut stakeAmount2 : Nat := (STAKER_PROVE_AMOUNT / 4)
  let mut rewardAmount : Nat := STAKER_PROVE_AMOUNT
  let _ ← _permitAndStake STAKER_1 STAKER_1_PK ALICE_PROVER stakeAmount1
  let _ ← _permitAndStake STAKER_2 STAKER_2_PK BOB_PROVER stakeAmount2
  let mut before_ : BalanceSnapshot := (← _takeSnapshot)
  let (expectedProtocolFee, expectedStakerReward, expectedOwnerReward) := (← _calculateFullRewardSplit rewardAmount)
  let _ ← processFulfillment ALICE_PROVER rewardAmount
  let _ ← _withdrawFromVApp TREASURY expectedProtocolFee
  let _ ← _withdrawFromVApp ALICE expectedOwnerReward
  let _ ← _withdrawFromVApp ALICE_PROVER expectedStakerReward
  check ((← staked_ STAKER_1) = (← csub ((before_).staker1Staked + expectedStakerReward) 1))
  check ((← staked_ STAKER_2) = (before_).staker2Staked)
  check ((← balanceOf PROVE ALICE) = ((before_).aliceBalance + expectedOwnerReward))
  check ((← balanceOf PROVE TREASURY) = ((before_).feeVaultBalance + expectedProtocolFee))
  let _ ← _completeUnstake STAKER_1 stakeAmount1
  let _ ← _completeUnstake STAKER_2 stakeAmount2
  check ((← balanceOf PROVE STAKER_1) = (← csub (((before_).staker1Balance + stakeAmount1) + expectedStakerReward) 1))
  check ((← balanceOf PROVE STAKER_2) = ((before_).staker2Balance + stakeAmount2))
  check ((← balanceOf ALICE_PROVER STAKING) = 0)
  check ((← balanceOf BOB_PROVER STAKER_2) = 0)

/-- `test_Reward_WhenTwoStakersOneProverRewardOnlyDistributedAfterFirstStake`, `contracts/test/SuccinctStaking.fulfillment.t.sol:226`. -/
def test_Reward_WhenTwoStakersOneProverRewardOnlyDistributedAfterFirstStake : T Unit := do
  let mut stakeAmount1 : Nat := (STAKER_PROVE_AMOUNT / 2)
  let mut stakeAmount2 : Nat := (STAKER_PROVE_AMOUNT / 4)
  let mut rewardAmount : Nat := STAKER_PROVE_AMOUNT
  let _ ← _permitAndStake STAKER_1 STAKER_1_PK ALICE_PROVER stakeAmount1
  let mut beforeReward : BalanceSnapshot := (← _takeSnapshot)
  let (expectedProtocolFee, expectedStakerReward, expectedOwnerReward) := (← _calculateFullRewardSplit rewardAmount)
  let _ ← processFulfillment ALICE_PROVER rewardAmount
  let _ ← _withdrawFromVApp TREASURY expectedProtocolFee
  let _ ← _withdrawFromVApp ALICE expectedOwnerReward
  let _ ← _withdrawFromVApp ALICE_PROVER expectedStakerReward
  check ((← staked_ STAKER_1) = (← csub ((beforeReward).staker1Staked + expectedStakerReward) 1))
  check ((← balanceOf PROVE ALICE) = ((beforeReward).aliceBalance + expectedOwnerReward))
  check ((← balanceOf PROVE TREASURY) = ((beforeReward).feeVaultBalance + expectedProtocolFee))
  let _ ← _permitAndStake STAKER_2 STAKER_2_PK ALICE_PROVER stakeAmount2
  let mut afterStake2 : BalanceSnapshot := (← _takeSnapshot)
  let _ ← _completeUnstake STAKER_1 (← balanceOf STAKING STAKER_1)
  let _ ← _completeUnstake STAKER_2 (← balanceOf STAKING STAKER_2)
  let mut actualBalance1 : Nat := (← balanceOf PROVE STAKER_1)
  let mut expectedBalance1 : Nat := (((beforeReward).staker1Balance + stakeAmount1) + expectedStakerReward)
  check ((actualBalance1 ≥ (← csub expectedBalance1 1)) ∧ (actualBalance1 ≤ expectedBalance1))
  check ((← balanceOf PROVE STAKER_2) = (← csub ((afterStake2).staker2Balance + stakeAmount2) 1))
  check ((← balanceOf ALICE_PROVER STAKING) = 0)
  check ((← balanceOf ALICE_PROVER STAKER_2) = 0)

/-- `test_Reward_WhenTwoStakersOneProverRewardDistributedAfterBothStake`, `contracts/test/SuccinctStaking.fulfillment.t.sol:284`. -/
def test_Reward_WhenTwoStakersOneProverRewardDistributedAfterBothStake : T Unit := do
  let mut stakeAmount1 : Nat := (STAKER_PROVE_AMOUNT / 2)
  let mut stakeAmount2 : Nat := (STAKER_PROVE_AMOUNT / 4)
  let mut rewardAmount : Nat := STAKER_PROVE_AMOUNT
  let _ ← _permitAndStake STAKER_1 STAKER_1_PK ALICE_PROVER stakeAmount1
  let _ ← _permitAndStake STAKER_2 STAKER_2_PK ALICE_PROVER stakeAmount2
  let mut before_ : BalanceSnapshot := (← _takeSnapshot)
  let (expectedProtocolFee, expectedStakerReward, expectedOwnerReward) := (← _calculateFullRewardSplit rewardAmount)
  let _ ← processFulfillment ALICE_PROVER rewardAmount
  let _ ← _withdrawFromVApp TREASURY expectedProtocolFee
  let _ ← _withdrawFromVApp ALICE expectedOwnerReward
  let _ ← _withdrawFromVApp ALICE_PROVER expectedStakerReward
  check ((← balanceOf PROVE ALICE) = ((before_).aliceBalance + expectedOwnerReward))
  check ((← balanceOf PROVE TREASURY) = ((before_).feeVaultBalance + expectedProtocolFee))
  let mut staked1 : Nat := (← balanceOf STAKING STAKER_1)
  let mut staked2 : Nat := (← balanceOf STAKING STAKER_2)
  let _ ← _completeUnstake STAKER_1 staked1
  let _ ← _completeUnstake STAKER_2 staked2
  let mut totalStake : Nat := (stakeAmount1 + stakeAmount2)
  let mut expectedReward1 : Nat := ((expectedStakerReward * stakeAmount1) / totalStake)
  let mut expectedReward2 : Nat := ((expectedStakerReward * stakeAmount2) / totalStake)
  let mut actualBalance1 : Nat := (← balanceOf PROVE STAKER_1)
  let mut expectedBalance1 : Nat := (((before_).staker1Balance + stakeAmount1) + expectedReward1)
  check ((actualBalance1 ≥ (← csub expectedBalance1 1)) ∧ (actualBalance1 ≤ expectedBalance1))
  let mut actualBalance2 : Nat := (← balanceOf PROVE STAKER_2)
  let mut expectedBalance2 : Nat := (((before_).staker2Balance + stakeAmount2) + expectedReward2)
  check ((actualBalance2 ≥ (← csub expectedBalance2 1)) ∧ (actualBalance2 ≤ expectedBalance2))
  check ((← balanceOf ALICE_PROVER STAKING) = 0)
  check ((← balanceOf ALICE_PROVER STAKER_2) = 0)

/-- `test_Reward_WhenTwoStakersTwoProversBothRewarded`, `contracts/test/SuccinctStaking.fulfillment.t.sol:339`. -/
def test_Reward_WhenTwoStakersTwoProversBothRewarded : T Unit := do
  let mut stakeAmount1 : Nat := (STAKER_PROVE_AMOUNT / 2)
  let mut stakeAmount2 : Nat := (STAKER_PROVE_AMOUNT / 4)
  let mut rewardAmount1 : Nat := (STAKER_PROVE_AMOUNT / 2)
  let mut rewardAmount2 : Nat := (STAKER_PROVE_AMOUNT / 4)
  let _ ← _permitAndStake STAKER_1 STAKER_1_PK ALICE_PROVER stakeAmount1
  let _ ← _permitAndStake STAKER_2 STAKER_2_PK BOB_PROVER stakeAmount2
  let mut before_ : BalanceSnapshot := (← _takeSnapshot)
  let (expectedProtocolFee1, expectedStakerReward1, expectedOwnerReward1) := (← _calculateFullRewardSplit rewardAmount1)
  let (expectedProtocolFee2, expectedStakerReward2, expectedOwnerReward2) := (← _calculateFullRewardSplit rewardAmount2)
  let _ ← processFulfillment ALICE_PROVER rewardAmount1
  let _ ← processFulfillment BOB_PROVER rewardAmount2
  let _ ← _withdrawFromVApp TREASURY (expectedProtocolFee1 + expectedProtocolFee2)
  let _ ← _withdrawFromVApp ALICE expectedOwnerReward1
  let _ ← _withdrawFromVApp BOB expectedOwnerReward2
  let _ ← _withdrawFromVApp ALICE_PROVER expectedStakerReward1
  let _ ← _withdrawFromVApp BOB_PROVER expectedStakerReward2
  check ((← staked_ STAKER_1) = (← csub ((before_).staker1Staked + expectedStakerReward1) 1))
  check ((← staked_ STAKER_2) = (← csub ((before_).staker2Staked + expectedStakerReward2) 1))
  check ((← balanceOf PROVE ALICE) = ((before_).aliceBalance + expectedOwnerReward1))
  check ((← balanceOf PROVE BOB) = ((before_).bobBalance + expectedOwnerReward2))
  check ((← balanceOf PROVE TREASURY) = (((before_).feeVaultBalance + expectedProtocolFee1) + expectedProtocolFee2))
  let _ ← _completeUnstake STAKER_1 (← balanceOf STAKING STAKER_1)
  let _ ← _completeUnstake STAKER_2 (← balanceOf STAKING STAKER_2)
  check ((← balanceOf PROVE STAKER_1) = (← csub (((before_).staker1Balance + stakeAmount1) + expectedStakerReward1) 1))
  check ((← balanceOf PROVE STAKER_2) = (← csub (((before_).staker2Balance + stakeAmount2) + expectedStakerReward2) 1))
  check ((← balanceOf ALICE_PROVER STAKING) = 0)
  check ((← balanceOf BOB_PROVER STAKING) = 0)

/-- `test_RevertReward_WhenProverNotFound`, `contracts/test/SuccinctStaking.fulfillment.t.sol:411`. -/
def test_RevertReward_WhenProverNotFound : T Unit := do
  let mut rewardAmount : Nat := STAKER_PROVE_AMOUNT
  let mut unknownProver : Address := (named 0)
  expectRevert none do
      let _ ← processFulfillment unknownProver rewardAmount

/-- `testFuzz_Reward_WhenVariableAmounts`, `contracts/test/SuccinctStaking.fulfillment.t.sol:423`. -/
def testFuzz_Reward_WhenVariableAmounts (_rewardAmount : Nat) : T Unit := do
  let mut _rewardAmount := _rewardAmount
  let mut stakeAmount : Nat := STAKER_PROVE_AMOUNT
  let mut rewardAmount : Nat := (bound _rewardAmount 1000 REQUESTER_PROVE_AMOUNT)
  let _ ← _stake STAKER_1 ALICE_PROVER stakeAmount
  let _ ← processFulfillment ALICE_PROVER rewardAmount
  let (protocolFee, stakerReward, ownerReward) := (← _calculateFullRewardSplit rewardAmount)
  if (protocolFee > 0) then
    let _ ← _withdrawFromVApp TREASURY protocolFee
  if (ownerReward > 0) then
    let _ ← _withdrawFromVApp ALICE ownerReward
  if (stakerReward > 0) then
    let _ ← _withdrawFromVApp ALICE_PROVER stakerReward
  check (near (← staked_ STAKER_1) (stakeAmount + stakerReward) 1)

/-- `testFuzz_Reward_WhenMultipleStakers`, `contracts/test/SuccinctStaking.fulfillment.t.sol:447`. -/
def testFuzz_Reward_WhenMultipleStakers (_stakeAmounts : List Nat) (_rewardAmount : Nat) : T Unit := do
  let mut _stakeAmounts := _stakeAmounts
  let mut _rewardAmount := _rewardAmount
  let mut stakers : List Address := [STAKER_1, STAKER_2, (named 3)]
  let mut totalStaked : Nat := 0
  for i in List.range' 0 ((stakers).length - 0) do
    _stakeAmounts := _stakeAmounts.set i (bound (← at_ _stakeAmounts i) MIN_STAKE_AMOUNT (STAKER_PROVE_AMOUNT / 3))
    deal PROVE (← at_ stakers i) (← at_ _stakeAmounts i)
    let _ ← _stake (← at_ stakers i) ALICE_PROVER (← at_ _stakeAmounts i)
    totalStaked := totalStaked + (← at_ _stakeAmounts i)
  let mut rewardAmount : Nat := (bound _rewardAmount 1000 (REQUESTER_PROVE_AMOUNT / 2))
  let _ ← processFulfillment ALICE_PROVER rewardAmount
  let (protocolFee, stakerReward, ownerReward) := (← _calculateFullRewardSplit rewardAmount)
  let _ ← _withdrawFromVApp TREASURY protocolFee
  let _ ← _withdrawFromVApp ALICE ownerReward
  let _ ← _withdrawFromVApp ALICE_PROVER stakerReward
  for i in List.range' 0 ((stakers).length - 0) do
    let mut expectedReward : Nat := ((stakerReward * (← at_ _stakeAmounts i)) / totalStaked)
    let mut actualStaked : Nat := (← staked_ (← at_ stakers i))
    let mut expectedStaked : Nat := ((← at_ _stakeAmounts i) + expectedReward)
    let mut tolerance : Nat := ((expectedStaked / 10000) + 1)
    check (near actualStaked expectedStaked tolerance)

/-- `testFuzz_Reward_WhenWithPartialUnstake`, `contracts/test/SuccinctStaking.fulfillment.t.sol:488`. -/
def testFuzz_Reward_WhenWithPartialUnstake (_unstakePercent : Nat) (_rewardAmount : Nat) : T Unit := do
  let mut _unstakePercent := _unstakePercent
  let mut _rewardAmount := _rewardAmount
  let mut stakeAmount : Nat := STAKER_PROVE_AMOUNT
  let mut unstakePercent : Nat := (bound _unstakePercent 10 90)
  let mut unstakeAmount : Nat := ((stakeAmount * unstakePercent) / 100)
  let mut rewardAmount : Nat := (bound _rewardAmount 1000 (REQUESTER_PROVE_AMOUNT / 4))
  let _ ← _stake STAKER_1 ALICE_PROVER stakeAmount
  let _ ← _requestUnstake STAKER_1 unstakeAmount
  let _ ← processFulfillment ALICE_PROVER rewardAmount
  let (protocolFee, stakerReward, ownerReward) := (← _calculateFullRewardSplit rewardAmount)
  let _ ← _withdrawFromVApp TREASURY protocolFee
  let _ ← _withdrawFromVApp ALICE ownerReward
  let _ ← _withdrawFromVApp ALICE_PROVER stakerReward
  skip UNSTAKE_PERIOD
  let mut receivedAmount : Nat := (← _finishUnstake STAKER_1)
  check (near receivedAmount unstakeAmount 1)
  let mut remainingStake : Nat := (← csub stakeAmount unstakeAmount)
  let mut expectedRemainingWithReward : Nat := (remainingStake + stakerReward)
  check (near (← staked_ STAKER_1) expectedRemainingWithReward 3)

/-- `testFuzz_Reward_WhenFeeCalculations`, `contracts/test/SuccinctStaking.fulfillment.t.sol:529`. -/
def testFuzz_Reward_WhenFeeCalculations (_stakerFeeBips : Nat) : T Unit := do
  let mut _stakerFeeBips := _stakerFeeBips
  let mut stakerFeeBips : Nat := (bound _stakerFeeBips 0 5000)
  let mut customProver : Address := (← createProver_ TEST stakerFeeBips)
  let mut customProverOwner : Address := (← prover_owner customProver)
  let mut stakeAmount : Nat := STAKER_PROVE_AMOUNT
  let _ ← _stake STAKER_1 customProver stakeAmount
  let mut rewardAmount : Nat := (STAKER_PROVE_AMOUNT / 2)
  let _ ← processFulfillment customProver rewardAmount
  let mut expectedProtocolFee : Nat := ((rewardAmount * PROTOCOL_FEE_BIPS) / FEE_UNIT)
  let mut afterProtocolFee : Nat := (← csub rewardAmount expectedProtocolFee)
  let mut expectedStakerReward : Nat := ((afterProtocolFee * stakerFeeBips) / FEE_UNIT)
  let mut expectedOwnerReward : Nat := (← csub afterProtocolFee expectedStakerReward)
  if (expectedProtocolFee > 0) then
    let _ ← _withdrawFromVApp TREASURY expectedProtocolFee
  if (expectedOwnerReward > 0) then
    let _ ← _withdrawFromVApp customProverOwner expectedOwnerReward
  if (expectedStakerReward > 0) then
    let _ ← _withdrawFromVApp customProver expectedStakerReward
  check (near (← staked_ STAKER_1) (stakeAmount + expectedStakerReward) 1)

/-- `testFuzz_Reward_WhenMultipleProvers`, `contracts/test/SuccinctStaking.fulfillment.t.sol:566`. -/
def testFuzz_Reward_WhenMultipleProvers (_numProvers : Nat) (_rewardSeed : Nat) : T Unit := do
  let mut _numProvers := _numProvers
  let mut _rewardSeed := _rewardSeed
  let mut numProvers : Nat := (bound _numProvers 2 5)
  let mut provers : List Address := List.replicate numProvers 0
  for i in List.range' 0 (numProvers - 0) do
    let mut proverOwner : Address := (namedN 4 i)
    provers := provers.set i (← createProver_ proverOwner STAKER_FEE_BIPS)
    let mut staker : Address := (namedN 5 i)
    deal PROVE staker MIN_STAKE_AMOUNT
    let _ ← approve staker PROVE STAKING MIN_STAKE_AMOUNT
    let _ ← stake_ staker (← at_ provers i) MIN_STAKE_AMOUNT
  for i in List.range' 0 (numProvers - 0) do
    if (((mix [_rewardSeed, i]) % 2) = 0) then
      let mut rewardAmount : Nat := (((mix [_rewardSeed, i, 0]) % 1000000000000000000000) + 1)
      let _ ← processFulfillment (← at_ provers i) rewardAmount
  for i in List.range' 0 (numProvers - 0) do
    let mut proverStake : Nat := (← proverStaked_ (← at_ provers i))
    check (proverStake ≥ MIN_STAKE_AMOUNT)

example : passes test_Reward_WhenValid = true := by decide +kernel
example : passes test_Reward_WhenUnstaked = true := by decide +kernel
example : passes test_Reward_WhenPartialUnstake = true := by decide +kernel
example : passes test_Reward_WhenTwoStakersTwoProversOneRewarded = true := by decide +kernel
example : passes test_Reward_WhenTwoStakersOneProverRewardOnlyDistributedAfterFirstStake = true := by decide +kernel
example : passes test_Reward_WhenTwoStakersOneProverRewardDistributedAfterBothStake = true := by decide +kernel
example : passes test_Reward_WhenTwoStakersTwoProversBothRewarded = true := by decide +kernel
example : passes test_RevertReward_WhenProverNotFound = true := by decide +kernel
example : passes (testFuzz_Reward_WhenVariableAmounts 0) = true := by decide +kernel
example : passes (testFuzz_Reward_WhenVariableAmounts 57896044618658097711785492504343953926634992332820282019728792003956564832313) = true := by decide +kernel
example : passes (testFuzz_Reward_WhenVariableAmounts 123456789012345678901234567890) = true := by decide +kernel
example : passes (testFuzz_Reward_WhenMultipleStakers [0, 123456789012345678901234567890, 7] 115792089237316195423570985008687907853269984665640564039457584007913129639935) = true := by decide +kernel
example : passes (testFuzz_Reward_WhenMultipleStakers [57896044618658097711785492504343953926634992332820282019728792003956564832313, 115792089237316195423570985008687907853269984665640564039457584007913129639935, 31415926535897932384626433832795028841] 7) = true := by decide +kernel
example : passes (testFuzz_Reward_WhenMultipleStakers [123456789012345678901234567890, 7, 0] 31415926535897932384626433832795028841) = true := by decide +kernel
example : passes (testFuzz_Reward_WhenWithPartialUnstake 0 115792089237316195423570985008687907853269984665640564039457584007913129639935) = true := by decide +kernel
example : passes (testFuzz_Reward_WhenWithPartialUnstake 57896044618658097711785492504343953926634992332820282019728792003956564832313 7) = true := by decide +kernel
example : passes (testFuzz_Reward_WhenWithPartialUnstake 123456789012345678901234567890 31415926535897932384626433832795028841) = true := by decide +kernel
example : passes (testFuzz_Reward_WhenFeeCalculations 0) = true := by decide +kernel
example : passes (testFuzz_Reward_WhenFeeCalculations 57896044618658097711785492504343953926634992332820282019728792003956564832313) = true := by decide +kernel
example : passes (testFuzz_Reward_WhenFeeCalculations 123456789012345678901234567890) = true := by decide +kernel
example : passes (testFuzz_Reward_WhenMultipleProvers 0 115792089237316195423570985008687907853269984665640564039457584007913129639935) = true := by decide +kernel
example : passes (testFuzz_Reward_WhenMultipleProvers 57 7) = true := by decide +kernel
example : passes (testFuzz_Reward_WhenMultipleProvers 210 31415926535897932384626433832795028841) = true := by decide +kernel

end Verif.ConformL1.ConformSolReward
