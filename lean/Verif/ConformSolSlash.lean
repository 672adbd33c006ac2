import Verif.ConformL1
/-
# The tests of `contracts/test/SuccinctStaking.slash.t.sol` on the contract model

Transcribed statement by statement; see `Verif/ConformL1.lean` for what stands for what. These are tests, not proofs.
`test_Slash_Events` and `test_Slash_Events_WhenDeactivated` are in `ConformEvents.lean`.
-/

namespace Verif.ConformL1.ConformSolSlash
open Verif

set_option linter.unusedVariables false

/-- `test_Slash_WhenFullAmount`, `contracts/test/SuccinctStaking.slash.t.sol:21`. -/
def test_Slash_WhenFullAmount : T Unit := do
  let mut stakeAmount : Nat := STAKER_PROVE_AMOUNT
  let _ ← _permitAndStake STAKER_1 STAKER_1_PK ALICE_PROVER stakeAmount
  check ((← balanceOf STAKING STAKER_1) = stakeAmount)
  check ((← staked_ STAKER_1) = stakeAmount)
  let mut slashAmount : Nat := (← proverStaked_ ALICE_PROVER)
  let _ ← _completeSlash ALICE_PROVER slashAmount
  check ((← balanceOf STAKING STAKER_1) = stakeAmount)
  check ((← staked_ STAKER_1) = (← csub stakeAmount slashAmount))
  check ((← balanceOf PROVE I_PROVE) = 0)
  check ((← balanceOf I_PROVE ALICE_PROVER) = 0)
  check ((← balanceOf STAKING STAKER_1) = stakeAmount)
  check ((← previewRedeem ALICE_PROVER stakeAmount) = 0)
  let _ ← _completeUnstake STAKER_1 stakeAmount
  check ((← balanceOf STAKING STAKER_1) = 0)
  check ((← staked_ STAKER_1) = 0)
  check ((← balanceOf PROVE STAKER_1) = 0)
  check ((← balanceOf I_PROVE ALICE_PROVER) = 0)
  check ((← balanceOf PROVE I_PROVE) = 0)

/-- `test_Slash_WhenPartialAmount`, `contracts/test/SuccinctStaking.slash.t.sol:55`. -/
def test_Slash_WhenPartialAmount : T Unit := do
  let mut stakeAmount : Nat := STAKER_PROVE_AMOUNT
  let _ ← _permitAndStake STAKER_1 STAKER_1_PK ALICE_PROVER stakeAmount
  check ((← balanceOf STAKING STAKER_1) = stakeAmount)
  check ((← staked_ STAKER_1) = stakeAmount)
  let mut slashAmount : Nat := ((← totalAssets ALICE_PROVER) / 2)
  let _ ← _completeSlash ALICE_PROVER slashAmount
  check ((← balanceOf STAKING STAKER_1) = stakeAmount)
  check ((← staked_ STAKER_1) = (← csub stakeAmount slashAmount))
  check ((← balanceOf PROVE I_PROVE) = slashAmount)
  check ((← balanceOf I_PROVE ALICE_PROVER) = slashAmount)
  check ((← balanceOf STAKING STAKER_1) = stakeAmount)
  check ((← previewRedeem ALICE_PROVER stakeAmount) = (← csub stakeAmount slashAmount))
  let _ ← _completeUnstake STAKER_1 stakeAmount
  check ((← balanceOf STAKING STAKER_1) = 0)
  check ((← staked_ STAKER_1) = 0)
  check ((← balanceOf PROVE STAKER_1) = (← csub stakeAmount slashAmount))
  check ((← balanceOf PROVE I_PROVE) = 0)
  check ((← balanceOf I_PROVE ALICE_PROVER) = 0)

/-- `test_Slash_WhenTwoStakersFullSlash`, `contracts/test/SuccinctStaking.slash.t.sol:91`. -/
def test_Slash_WhenTwoStakersFullSlash : T Unit := do
  let mut stakeAmount : Nat := STAKER_PROVE_AMOUNT
  let _ ← _permitAndStake STAKER_1 STAKER_1_PK ALICE_PROVER stakeAmount
  let _ ← _permitAndStake STAKER_2 STAKER_2_PK ALICE_PROVER stakeAmount
  let mut slashAmount : Nat := (← totalAssets ALICE_PROVER)
  let _ ← _completeSlash ALICE_PROVER slashAmount
  check ((← balanceOf STAKING STAKER_1) = stakeAmount)
  check ((← balanceOf STAKING STAKER_2) = stakeAmount)
  check ((← staked_ STAKER_1) = 0)
  check ((← staked_ STAKER_2) = 0)
  check ((← balanceOf PROVE STAKER_1) = 0)
  check ((← balanceOf I_PROVE ALICE_PROVER) = 0)
  check ((← balanceOf PROVE I_PROVE) = 0)
  let _ ← _completeUnstake STAKER_1 stakeAmount
  let _ ← _completeUnstake STAKER_2 stakeAmount
  check ((← balanceOf STAKING STAKER_1) = 0)
  check ((← balanceOf STAKING STAKER_2) = 0)
  check ((← staked_ STAKER_1) = 0)
  check ((← staked_ STAKER_2) = 0)
  check ((← balanceOf PROVE STAKER_1) = 0)
  check ((← balanceOf PROVE STAKER_2) = 0)

/-- `test_Slash_WhenDispenseBeforeFullSlash`, `contracts/test/SuccinctStaking.slash.t.sol:125`. -/
def test_Slash_WhenDispenseBeforeFullSlash : T Unit := do
  let mut stakeAmount : Nat := STAKER_PROVE_AMOUNT
  let mut multiplier : Nat := 10
  let mut dispenseAmount : Nat := (stakeAmount * multiplier)
  let _ ← _permitAndStake STAKER_1 STAKER_1_PK ALICE_PROVER stakeAmount
  let _ ← _dispense dispenseAmount
  let mut slashAmount : Nat := (← totalAssets ALICE_PROVER)
  let _ ← _completeSlash ALICE_PROVER slashAmount
  check ((← balanceOf STAKING STAKER_1) = stakeAmount)
  check ((← staked_ STAKER_1) = 0)
  check ((← balanceOf PROVE STAKER_1) = 0)
  check ((← balanceOf I_PROVE ALICE_PROVER) = 0)
  check ((← balanceOf PROVE I_PROVE) = multiplier)
  let _ ← _completeUnstake STAKER_1 stakeAmount
  check ((← balanceOf STAKING STAKER_1) = 0)
  check ((← staked_ STAKER_1) = 0)
  check ((← balanceOf PROVE STAKER_1) = 0)
  check ((← balanceOf I_PROVE ALICE_PROVER) = 0)
  check ((← balanceOf PROVE I_PROVE) = multiplier)

/-- `test_Slash_WhenTwoStakersDispenseBeforeFullSlash`, `contracts/test/SuccinctStaking.slash.t.sol:159`. -/
def test_Slash_WhenTwoStakersDispenseBeforeFullSlash : T Unit := do
  let mut stakeAmount : Nat := STAKER_PROVE_AMOUNT
  let mut multiplier : Nat := 10
  let mut dispenseAmount : Nat := (stakeAmount * multiplier)
  let _ ← _permitAndStake STAKER_1 STAKER_1_PK ALICE_PROVER stakeAmount
  let _ ← _permitAndStake STAKER_2 STAKER_2_PK ALICE_PROVER stakeAmount
  let _ ← _dispense dispenseAmount
  let mut slashAmount : Nat := (← totalAssets ALICE_PROVER)
  let _ ← _completeSlash ALICE_PROVER slashAmount
  check ((← balanceOf STAKING STAKER_1) = stakeAmount)
  check ((← balanceOf STAKING STAKER_2) = stakeAmount)
  check ((← staked_ STAKER_1) = 0)
  check ((← staked_ STAKER_2) = 0)
  check ((← balanceOf PROVE STAKER_1) = 0)
  check ((← balanceOf I_PROVE ALICE_PROVER) = 0)
  check ((← balanceOf PROVE I_PROVE) = (multiplier / 2))
  let _ ← _completeUnstake STAKER_1 stakeAmount
  let _ ← _completeUnstake STAKER_2 stakeAmount
  check ((← balanceOf STAKING STAKER_1) = 0)
  check ((← balanceOf STAKING STAKER_2) = 0)
  check ((← staked_ STAKER_1) = 0)
  check ((← staked_ STAKER_2) = 0)
  check ((← balanceOf PROVE STAKER_1) = 0)
  check ((← balanceOf I_PROVE ALICE_PROVER) = 0)
  check ((← balanceOf PROVE I_PROVE) = (multiplier / 2))

/-- `test_Slash_WhenDispenseAfterFullSlash`, `contracts/test/SuccinctStaking.slash.t.sol:199`. -/
def test_Slash_WhenDispenseAfterFullSlash : T Unit := do
  let mut stakeAmount : Nat := STAKER_PROVE_AMOUNT
  let mut dispenseAmount : Nat := stakeAmount
  let _ ← _permitAndStake STAKER_1 STAKER_1_PK ALICE_PROVER stakeAmount
  let mut slashAmount : Nat := (← totalAssets ALICE_PROVER)
  let _ ← _completeSlash ALICE_PROVER slashAmount
  let _ ← _dispense dispenseAmount
  check ((← balanceOf STAKING STAKER_1) = stakeAmount)
  check ((← staked_ STAKER_1) = 0)
  check ((← balanceOf PROVE STAKER_1) = 0)
  check ((← balanceOf I_PROVE ALICE_PROVER) = 0)
  check ((← balanceOf PROVE I_PROVE) = dispenseAmount)
  let _ ← _completeUnstake STAKER_1 stakeAmount
  check ((← balanceOf STAKING STAKER_1) = 0)
  check ((← staked_ STAKER_1) = 0)
  check ((← balanceOf PROVE STAKER_1) = 0)
  check ((← balanceOf I_PROVE ALICE_PROVER) = 0)
  check ((← balanceOf PROVE I_PROVE) = dispenseAmount)

/-- `test_Slash_WhenTwoProversDispenseAfterOneFullSlash`, `contracts/test/SuccinctStaking.slash.t.sol:233`. -/
def test_Slash_WhenTwoProversDispenseAfterOneFullSlash : T Unit := do
  let mut stakeAmount : Nat := STAKER_PROVE_AMOUNT
  let mut dispenseAmount : Nat := stakeAmount
  let _ ← _permitAndStake STAKER_1 STAKER_1_PK ALICE_PROVER stakeAmount
  let _ ← _permitAndStake STAKER_2 STAKER_2_PK BOB_PROVER stakeAmount
  let mut slashAmount : Nat := (← totalAssets ALICE_PROVER)
  let _ ← _completeSlash ALICE_PROVER slashAmount
  let _ ← _dispense dispenseAmount
  check ((← balanceOf STAKING STAKER_1) = stakeAmount)
  check ((← balanceOf STAKING STAKER_2) = stakeAmount)
  check ((← staked_ STAKER_1) = 0)
  check ((← staked_ STAKER_2) = (← csub (stakeAmount + stakeAmount) 1))
  check ((← balanceOf PROVE STAKER_1) = 0)
  check ((← balanceOf I_PROVE ALICE_PROVER) = 0)
  check ((← balanceOf PROVE I_PROVE) = (stakeAmount + dispenseAmount))
  let _ ← _completeUnstake STAKER_1 stakeAmount
  let _ ← _completeUnstake STAKER_2 stakeAmount
  check ((← balanceOf STAKING STAKER_1) = 0)
  check ((← balanceOf STAKING STAKER_2) = 0)
  check ((← staked_ STAKER_1) = 0)
  check ((← staked_ STAKER_2) = 0)
  check ((← balanceOf PROVE STAKER_1) = 0)
  check ((← balanceOf PROVE STAKER_2) = (← csub (stakeAmount + dispenseAmount) 1))

/-- `test_Slash_WhenCancelled`, `contracts/test/SuccinctStaking.slash.t.sol:270`. -/
def test_Slash_WhenCancelled : T Unit := do
  let mut stakeAmount : Nat := STAKER_PROVE_AMOUNT
  let _ ← _permitAndStake STAKER_1 STAKER_1_PK ALICE_PROVER stakeAmount
  let mut slashAmount : Nat := (← totalAssets ALICE_PROVER)
  let _ ← processSlash ALICE_PROVER slashAmount
  let mut slashIndex : Nat := 0
  expectRevert (some .proverHasSlashRequest) do
      let _ ← requestUnstake_ STAKER_1 stakeAmount
  let mut votingDelay : Nat := VOTING_DELAY
  let mut votingPeriod : Nat := VOTING_PERIOD
  let mut cancelDeadline : Nat := ((SLASH_CANCELLATION_PERIOD + votingDelay) + votingPeriod)
  skip cancelDeadline
  let _ ← cancelSlash_ OWNER ALICE_PROVER slashIndex
  let _ ← requestUnstake_ STAKER_1 stakeAmount
  skip UNSTAKE_PERIOD
  let _ ← finishUnstake_ STAKER_1 STAKER_1
  check ((← balanceOf PROVE STAKER_1) = stakeAmount)
  check ((← balanceOf STAKING STAKER_1) = 0)
  check ((← staked_ STAKER_1) = 0)

/-- `test_RevertSlash_WhenProverNotFound`, `contracts/test/SuccinctStaking.slash.t.sol:315`. -/
def test_RevertSlash_WhenProverNotFound : T Unit := do
  let mut stakeAmount : Nat := STAKER_PROVE_AMOUNT
  let mut slashAmount : Nat := 0
  let mut unknownProver : Address := (named 0)
  let _ ← _permitAndStake STAKER_1 STAKER_1_PK ALICE_PROVER stakeAmount
  expectRevert (some .proverNotFound) do
      let _ ← processSlash unknownProver slashAmount

/-- `test_Slash_WhenRequestingWhenProverHasNoStake`, `contracts/test/SuccinctStaking.slash.t.sol:327`. -/
def test_Slash_WhenRequestingWhenProverHasNoStake : T Unit := do
  let mut slashAmount : Nat := STAKER_PROVE_AMOUNT
  let mut index : Nat := (← processSlash ALICE_PROVER slashAmount)
  let mut claims : List SlashClaim := (← slashRequests_ ALICE_PROVER)
  check (index = 0)
  check ((claims).length = 1)
  check (((← at_ claims 0)).iPROVE = slashAmount)
  let _ ← _finishSlash ALICE_PROVER index

/-- `test_Slash_WhenRewardAfterFullSlash`, `contracts/test/SuccinctStaking.slash.t.sol:345`. -/
def test_Slash_WhenRewardAfterFullSlash : T Unit := do
  let mut stakeAmount : Nat := STAKER_PROVE_AMOUNT
  let mut rewardAmount : Nat := stakeAmount
  let _ ← _permitAndStake STAKER_1 STAKER_1_PK ALICE_PROVER stakeAmount
  let mut slashAmount : Nat := (← totalAssets ALICE_PROVER)
  let _ ← _completeSlash ALICE_PROVER slashAmount
  check ((← balanceOf PROVE I_PROVE) = 0)
  check ((← balanceOf I_PROVE ALICE_PROVER) = 0)
  let mut feeVaultBalanceBefore : Nat := (← balances TREASURY)
  let mut proverBalanceBefore : Nat := (← balances ALICE_PROVER)
  let mut aliceBalanceBefore : Nat := (← balances ALICE)
  let (expectedProtocolFee, expectedStakerReward, expectedOwnerReward) := (← _calculateFullRewardSplit rewardAmount)
  let _ ← processFulfillment ALICE_PROVER rewardAmount
  check ((← balances TREASURY) = (feeVaultBalanceBefore + expectedProtocolFee))
  check ((← balances ALICE_PROVER) = (proverBalanceBefore + expectedStakerReward))
  check ((← balances ALICE) = (aliceBalanceBefore + expectedOwnerReward))

/-- `test_Slash_WhenSingleSlashAmountExceedsBalance`, `contracts/test/SuccinctStaking.slash.t.sol:391`. -/
def test_Slash_WhenSingleSlashAmountExceedsBalance : T Unit := do
  let mut stakeAmount : Nat := STAKER_PROVE_AMOUNT
  let _ ← _permitAndStake STAKER_1 STAKER_1_PK ALICE_PROVER stakeAmount
  let mut totalAssets : Nat := (← totalAssets ALICE_PROVER)
  let mut excessiveSlash : Nat := (totalAssets * 2)
  let mut index0 : Nat := (← _requestSlash ALICE_PROVER excessiveSlash)
  let mut claims : List SlashClaim := (← slashRequests_ ALICE_PROVER)
  check ((claims).length = 1)
  check (((← at_ claims index0)).iPROVE = excessiveSlash)
  let _ ← _finishSlash ALICE_PROVER index0
  check ((← balanceOf STAKING STAKER_1) = stakeAmount)
  check ((← staked_ STAKER_1) = 0)
  check ((← balanceOf I_PROVE ALICE_PROVER) = 0)
  check ((← balanceOf PROVE I_PROVE) = 0)
  let _ ← _completeUnstake STAKER_1 stakeAmount
  check ((← balanceOf STAKING STAKER_1) = 0)
  check ((← staked_ STAKER_1) = 0)
  check ((← balanceOf PROVE STAKER_1) = 0)

/-- `test_Slash_WhenCumulativeSlashAmountExceedsBalance`, `contracts/test/SuccinctStaking.slash.t.sol:432`. -/
def test_Slash_WhenCumulativeSlashAmountExceedsBalance : T Unit := do
  let mut stakeAmount : Nat := STAKER_PROVE_AMOUNT
  let _ ← _permitAndStake STAKER_1 STAKER_1_PK ALICE_PROVER stakeAmount
  let mut totalAssets : Nat := (← totalAssets ALICE_PROVER)
  let mut firstSlash : Nat := (totalAssets / 2)
  let mut index0 : Nat := (← _requestSlash ALICE_PROVER firstSlash)
  let mut excessiveSlash : Nat := totalAssets
  let mut index1 : Nat := (← _requestSlash ALICE_PROVER excessiveSlash)
  let mut claims : List SlashClaim := (← slashRequests_ ALICE_PROVER)
  check ((claims).length = 2)
  check (((← at_ claims index0)).iPROVE = firstSlash)
  check (((← at_ claims index1)).iPROVE = excessiveSlash)
  let _ ← _finishSlash ALICE_PROVER index1
  let _ ← _finishSlash ALICE_PROVER index0
  check ((← balanceOf STAKING STAKER_1) = stakeAmount)
  check ((← staked_ STAKER_1) = 0)
  check ((← balanceOf I_PROVE ALICE_PROVER) = 0)
  check ((← balanceOf PROVE I_PROVE) = 0)
  let _ ← _completeUnstake STAKER_1 stakeAmount
  check ((← balanceOf STAKING STAKER_1) = 0)
  check ((← staked_ STAKER_1) = 0)
  check ((← balanceOf PROVE STAKER_1) = 0)

/-- `test_Slash_WhenSlashExceedsVaultButNotTotal`, `contracts/test/SuccinctStaking.slash.t.sol:479`. -/
def test_Slash_WhenSlashExceedsVaultButNotTotal : T Unit := do
  let mut stakeAmount : Nat := STAKER_PROVE_AMOUNT
  let _ ← _stake STAKER_1 ALICE_PROVER stakeAmount
  let _ ← _stake STAKER_2 ALICE_PROVER stakeAmount
  let _ ← _requestUnstake STAKER_1 stakeAmount
  let mut vaultBalance : Nat := (← balanceOf I_PROVE ALICE_PROVER)
  let mut pool : EscrowPool := (← escrowPool_ ALICE_PROVER)
  check (vaultBalance = stakeAmount)
  check ((pool).iPROVEEscrow = stakeAmount)
  let mut slashAmount : Nat := ((stakeAmount * 3) / 2)
  let _ ← _requestSlash ALICE_PROVER slashAmount
  let mut iPROVEBurned : Nat := (← finishSlash_ OWNER ALICE_PROVER 0)
  check (iPROVEBurned = slashAmount)
  let mut expectedVaultSlash : Nat := (slashAmount / 2)
  let mut expectedEscrowSlash : Nat := (slashAmount / 2)
  let mut vaultAfter : Nat := (← balanceOf I_PROVE ALICE_PROVER)
  let mut poolAfter : EscrowPool := (← escrowPool_ ALICE_PROVER)
  check (vaultAfter = (← csub stakeAmount expectedVaultSlash))
  check ((poolAfter).iPROVEEscrow = (← csub stakeAmount expectedEscrowSlash))
  skip UNSTAKE_PERIOD
  let mut staker1Received : Nat := (← _finishUnstake STAKER_1)
  check (near staker1Received (← csub stakeAmount expectedEscrowSlash) 2)
  check (near (← staked_ STAKER_2) (← csub stakeAmount expectedVaultSlash) 2)

/-- `test_Slash_WhenMultipleSlashesBeforeUnstakeFinish`, `contracts/test/SuccinctStaking.slash.t.sol:555`. -/
def test_Slash_WhenMultipleSlashesBeforeUnstakeFinish : T Unit := do
  let mut stakeAmount : Nat := (STAKER_PROVE_AMOUNT / 2)
  let mut totalInitial : Nat := (stakeAmount * 2)
  let mut firstSlashAmount : Nat := (totalInitial / 4)
  let mut secondSlashAmount : Nat := ((← csub totalInitial firstSlashAmount) / 2)
  let _ ← _stake STAKER_1 ALICE_PROVER stakeAmount
  let _ ← _stake STAKER_2 ALICE_PROVER stakeAmount
  let _ ← _requestUnstake STAKER_1 stakeAmount
  check ((← balanceOf I_PROVE ALICE_PROVER) = stakeAmount)
  check (((← escrowPool_ ALICE_PROVER)).iPROVEEscrow = stakeAmount)
  check (((← escrowPool_ ALICE_PROVER)).slashFactor = 1000000000000000000000000000)
  let _ ← _completeSlash ALICE_PROVER firstSlashAmount
  check ((← balanceOf I_PROVE ALICE_PROVER) = ((stakeAmount * 3) / 4))
  check (((← escrowPool_ ALICE_PROVER)).iPROVEEscrow = ((stakeAmount * 3) / 4))
  let _ ← _completeSlash ALICE_PROVER secondSlashAmount
  let mut expectedFinal : Nat := ((stakeAmount * 3) / 8)
  check ((← balanceOf I_PROVE ALICE_PROVER) = expectedFinal)
  check (((← escrowPool_ ALICE_PROVER)).iPROVEEscrow = expectedFinal)
  skip UNSTAKE_PERIOD
  let mut balanceBefore : Nat := (← balanceOf PROVE STAKER_1)
  let _ ← _finishUnstake STAKER_1
  check ((← csub (← balanceOf PROVE STAKER_1) balanceBefore) = expectedFinal)
  check (((← escrowPool_ ALICE_PROVER)).iPROVEEscrow = 0)
  check ((← staked_ STAKER_2) = expectedFinal)

/-- `test_Slash_WhenVaultDrainedToZero`, `contracts/test/SuccinctStaking.slash.t.sol:645`. -/
def test_Slash_WhenVaultDrainedToZero : T Unit := do
  let mut stakeAmount : Nat := (STAKER_PROVE_AMOUNT / 2)
  let mut slashPercent : Nat := 50
  let mut slashAmount : Nat := ((stakeAmount * slashPercent) / 100)
  let mut expectedRemaining : Nat := (← csub stakeAmount slashAmount)
  let _ ← _stake STAKER_1 ALICE_PROVER stakeAmount
  let _ ← _requestUnstake STAKER_1 stakeAmount
  let mut vaultBalance : Nat := (← balanceOf I_PROVE ALICE_PROVER)
  let mut pool : EscrowPool := (← escrowPool_ ALICE_PROVER)
  check (vaultBalance = 0)
  check ((pool).iPROVEEscrow = stakeAmount)
  let _ ← _completeSlash ALICE_PROVER slashAmount
  let mut vaultAfter : Nat := (← balanceOf I_PROVE ALICE_PROVER)
  let mut poolAfter : EscrowPool := (← escrowPool_ ALICE_PROVER)
  check (vaultAfter = 0)
  check ((poolAfter).iPROVEEscrow = expectedRemaining)
  let mut expectedFactor : Nat := ((SCALAR * (← csub 100 slashPercent)) / 100)
  check ((poolAfter).slashFactor = expectedFactor)
  skip UNSTAKE_PERIOD
  let mut balanceBefore : Nat := (← balanceOf PROVE STAKER_1)
  let _ ← _finishUnstake STAKER_1
  let mut received : Nat := (← csub (← balanceOf PROVE STAKER_1) balanceBefore)
  check (received = expectedRemaining)

/-- `test_Slash_WhenFactorZeroResetWithDeactivation`, `contracts/test/SuccinctStaking.slash.t.sol:690`. -/
def test_Slash_WhenFactorZeroResetWithDeactivation : T Unit := do
  let mut stakeAmount : Nat := (STAKER_PROVE_AMOUNT / 2)
  let _ ← _stake STAKER_1 ALICE_PROVER stakeAmount
  let mut initialPool : EscrowPool := (← escrowPool_ ALICE_PROVER)
  check ((← staked_ STAKER_1) = stakeAmount)
  check (¬ ((← isDeactivatedProver_ ALICE_PROVER) = true))
  check ((initialPool).slashFactor = 0)
  let mut fullSlashAmount : Nat := (← totalAssets ALICE_PROVER)
  let _ ← _completeSlash ALICE_PROVER fullSlashAmount
  let mut slashedPool : EscrowPool := (← escrowPool_ ALICE_PROVER)
  check ((slashedPool).slashFactor = 0)
  check ((← staked_ STAKER_1) = 0)
  check ((← balanceOf I_PROVE ALICE_PROVER) = 0)
  check ((← isDeactivatedProver_ ALICE_PROVER) = true)
  let _ ← approve STAKER_2 PROVE STAKING stakeAmount
  expectRevert (some .proverNotActive) do
      let _ ← stake_ STAKER_2 ALICE_PROVER stakeAmount
  check ((← balanceOf STAKING STAKER_2) = 0)
  check ((← balanceOf PROVE STAKER_2) = STAKER_PROVE_AMOUNT)
  if ((← balanceOf STAKING STAKER_1) > 0) then
    let _ ← _completeUnstake STAKER_1 (← balanceOf STAKING STAKER_1)
  check ((← balanceOf PROVE STAKER_1) = (← csub STAKER_PROVE_AMOUNT stakeAmount))

/-- `test_Slash_WhenFullSlashDeactivatesProver`, `contracts/test/SuccinctStaking.slash.t.sol:736`. -/
def test_Slash_WhenFullSlashDeactivatesProver : T Unit := do
  let mut stakeAmount : Nat := STAKER_PROVE_AMOUNT
  let _ ← _stake STAKER_1 ALICE_PROVER stakeAmount
  check (¬ ((← isDeactivatedProver_ ALICE_PROVER) = true))
  let mut slashAmount : Nat := (← proverStaked_ ALICE_PROVER)
  let _ ← _completeSlash ALICE_PROVER slashAmount
  check ((← isDeactivatedProver_ ALICE_PROVER) = true)
  check ((← balanceOf I_PROVE ALICE_PROVER) = 0)
  let mut pricePerShare : Nat := (← _getProverPricePerShare ALICE_PROVER)
  check (pricePerShare < MIN_PROVER_PRICE_PER_SHARE)

/-- `test_Slash_WhenStakeBlockedAfterDeactivation`, `contracts/test/SuccinctStaking.slash.t.sol:761`. -/
def test_Slash_WhenStakeBlockedAfterDeactivation : T Unit := do
  let mut stakeAmount : Nat := STAKER_PROVE_AMOUNT
  let _ ← _stake STAKER_1 ALICE_PROVER stakeAmount
  let mut slashAmount : Nat := (← proverStaked_ ALICE_PROVER)
  let _ ← _completeSlash ALICE_PROVER slashAmount
  check ((← isDeactivatedProver_ ALICE_PROVER) = true)
  let _ ← approve STAKER_2 PROVE STAKING stakeAmount
  expectRevert (some .proverNotActive) do
      let _ ← stake_ STAKER_2 ALICE_PROVER stakeAmount
  check ((← balanceOf STAKING STAKER_2) = 0)
  check ((← balanceOf PROVE STAKER_2) = STAKER_PROVE_AMOUNT)

/-- `test_Slash_WhenPartialSlashEventuallyDeactivates`, `contracts/test/SuccinctStaking.slash.t.sol:789`. -/
def test_Slash_WhenPartialSlashEventuallyDeactivates : T Unit := do
  let mut stakeAmount : Nat := STAKER_PROVE_AMOUNT
  let _ ← _stake STAKER_1 ALICE_PROVER stakeAmount
  check (¬ ((← isDeactivatedProver_ ALICE_PROVER) = true))
  let mut firstSlash : Nat := ((← proverStaked_ ALICE_PROVER) / 2)
  let _ ← _completeSlash ALICE_PROVER firstSlash
  check (¬ ((← isDeactivatedProver_ ALICE_PROVER) = true))
  let _ ← _stake STAKER_2 ALICE_PROVER stakeAmount
  let mut secondSlash : Nat := (((← proverStaked_ ALICE_PROVER) * 999999999999999999) / 1000000000000000000)
  let _ ← _completeSlash ALICE_PROVER secondSlash
  check ((← isDeactivatedProver_ ALICE_PROVER) = true)
  let mut pricePerShare : Nat := (← _getProverPricePerShare ALICE_PROVER)
  check (pricePerShare < MIN_PROVER_PRICE_PER_SHARE)

/-- `testFuzz_Slash_ExtremelySmallFactor`, `contracts/test/SuccinctStaking.slash.t.sol:822`. -/
def testFuzz_Slash_ExtremelySmallFactor (_seed : Nat) : T Unit := do
  let mut _seed := _seed
  if ¬ (_seed > 0) then return ()
  let mut initialStake : Nat := 1000000000000000000000
  let _ ← _stake STAKER_1 ALICE_PROVER initialStake
  let mut totalIPROVEBurned : Nat := 0
  let mut remaining : Nat := initialStake
  for i in List.range' 0 (20 - 0) do
    if ¬ (remaining > 10) then break
    let mut slashPercent : Nat := (((_seed / 2 ^ (i * 8)) % 50) + 1)
    let mut currentVaultBalance : Nat := (← balanceOf I_PROVE ALICE_PROVER)
    if (currentVaultBalance > 0) then
      let mut slashAmount : Nat := ((currentVaultBalance * slashPercent) / 100)
      if (slashAmount > 0) then
        let mut actualBurned : Nat := (← _completeSlash ALICE_PROVER slashAmount)
        totalIPROVEBurned := totalIPROVEBurned + actualBurned
        remaining := (← csub currentVaultBalance actualBurned)
  let mut finalPool : EscrowPool := (← escrowPool_ ALICE_PROVER)
  let mut finalFactor : Nat := (finalPool).slashFactor
  check (finalFactor ≥ 0)
  check (finalFactor ≤ 1000000000000000000000000000)
  let mut finalVault : Nat := (← balanceOf I_PROVE ALICE_PROVER)
  let mut pool : EscrowPool := (← escrowPool_ ALICE_PROVER)
  let mut finalEscrow : Nat := (pool).iPROVEEscrow
  check (near ((finalVault + finalEscrow) + totalIPROVEBurned) initialStake 20)
  if (finalFactor < 10000000000000000000000000) then
    let mut stakedAmount : Nat := (← staked_ STAKER_1)
    check (stakedAmount ≤ (initialStake / 100))
  let mut stakerBalance : Nat := (← balanceOf STAKING STAKER_1)
  if (stakerBalance > 0) then
    let mut preview : Nat := (← previewUnstake_ ALICE_PROVER stakerBalance)
    check (preview ≤ ((finalVault + finalEscrow) + 1))

/-- `testFuzz_Slash_WhenVariableAmounts`, `contracts/test/SuccinctStaking.slash.t.sol:890`. -/
def testFuzz_Slash_WhenVariableAmounts (_slashAmount : Nat) : T Unit := do
  let mut _slashAmount := _slashAmount
  let mut stakeAmount : Nat := STAKER_PROVE_AMOUNT
  let mut slashAmount : Nat := (bound _slashAmount 1 (stakeAmount * 2))
  let _ ← _stake STAKER_1 ALICE_PROVER stakeAmount
  let mut slashIndex : Nat := (← _requestSlash ALICE_PROVER slashAmount)
  let _ ← _finishSlash ALICE_PROVER slashIndex
  let mut actualSlashAmount : Nat := (tern (decide (slashAmount > stakeAmount)) stakeAmount slashAmount)
  check ((← proverStaked_ ALICE_PROVER) = (← csub stakeAmount actualSlashAmount))
  check ((← staked_ STAKER_1) = (← csub stakeAmount actualSlashAmount))

/-- `testFuzz_Slash_WhenMultipleStakers`, `contracts/test/SuccinctStaking.slash.t.sol:911`. -/
def testFuzz_Slash_WhenMultipleStakers (_stakeAmounts : List Nat) (_slashAmount : Nat) : T Unit := do
  let mut _stakeAmounts := _stakeAmounts
  let mut _slashAmount := _slashAmount
  let mut stakers : List Address := [STAKER_1, STAKER_2, (named 3)]
  let mut totalStaked : Nat := 0
  for i in List.range' 0 ((stakers).length - 0) do
    _stakeAmounts := _stakeAmounts.set i (bound (← at_ _stakeAmounts i) MIN_STAKE_AMOUNT (STAKER_PROVE_AMOUNT / 3))
    deal PROVE (← at_ stakers i) (← at_ _stakeAmounts i)
    let _ ← _stake (← at_ stakers i) ALICE_PROVER (← at_ _stakeAmounts i)
    totalStaked := totalStaked + (← at_ _stakeAmounts i)
  let mut slashAmount : Nat := (bound _slashAmount 1 totalStaked)
  let mut proverStakeBefore : Nat := (← proverStaked_ ALICE_PROVER)
  check (proverStakeBefore = totalStaked)
  let mut slashIndex : Nat := (← _requestSlash ALICE_PROVER slashAmount)
  let _ ← _finishSlash ALICE_PROVER slashIndex
  let mut actualSlashed : Nat := (tern (decide (slashAmount > totalStaked)) totalStaked slashAmount)
  for i in List.range' 0 ((stakers).length - 0) do
    let mut expectedStake : Nat := (← csub (← at_ _stakeAmounts i) (((← at_ _stakeAmounts i) * actualSlashed) / totalStaked))
    check (near (← staked_ (← at_ stakers i)) expectedStake 1)

/-- `testFuzz_Slash_WhenWithDispenseBeforeSlash`, `contracts/test/SuccinctStaking.slash.t.sol:951`. -/
def testFuzz_Slash_WhenWithDispenseBeforeSlash (_dispenseAmount : Nat) (_slashAmount : Nat) : T Unit := do
  let mut _dispenseAmount := _dispenseAmount
  let mut _slashAmount := _slashAmount
  let mut stakeAmount : Nat := STAKER_PROVE_AMOUNT
  let mut dispenseAmount : Nat := (bound _dispenseAmount 1000 1000000000000000000000000)
  let _ ← _stake STAKER_1 ALICE_PROVER stakeAmount
  let _ ← _dispense dispenseAmount
  let mut stakedAfterDispense : Nat := (← staked_ STAKER_1)
  let mut iPROVEBalance : Nat := (← totalAssets ALICE_PROVER)
  let mut slashAmount : Nat := (bound _slashAmount 1 iPROVEBalance)
  let _ ← _completeSlash ALICE_PROVER slashAmount
  let mut actualStaked : Nat := (← staked_ STAKER_1)
  check (actualStaked < stakedAfterDispense)
  if (slashAmount ≥ ((iPROVEBalance * 90) / 100)) then
    check (actualStaked ≤ (stakedAfterDispense / 10))
  else
    let mut minExpected : Nat := (((stakedAfterDispense * (← csub iPROVEBalance slashAmount)) / iPROVEBalance) / 2)
    check (actualStaked ≥ minExpected)

/-- `testFuzz_Slash_WhenMultipleSlashRequests`, `contracts/test/SuccinctStaking.slash.t.sol:997`. -/
def testFuzz_Slash_WhenMultipleSlashRequests (_slashAmounts : List Nat) : T Unit := do
  let mut _slashAmounts := _slashAmounts
  let mut stakeAmount : Nat := STAKER_PROVE_AMOUNT
  let _ ← _stake STAKER_1 ALICE_PROVER stakeAmount
  let mut totalSlash : Nat := 0
  for i in List.range' 0 ((_slashAmounts).length - 0) do
    _slashAmounts := _slashAmounts.set i (bound (← at_ _slashAmounts i) 1 (stakeAmount / 4))
    totalSlash := totalSlash + (← at_ _slashAmounts i)
  if ¬ (totalSlash ≤ stakeAmount) then return ()
  let mut slashIndices : List Nat := List.replicate (_slashAmounts).length 0
  for i in List.range' 0 ((_slashAmounts).length - 0) do
    slashIndices := slashIndices.set i (← _requestSlash ALICE_PROVER (← at_ _slashAmounts i))
    skip 86400
  for i in (List.range' 1 (slashIndices).length).reverse do
    let _ ← _finishSlash ALICE_PROVER (← at_ slashIndices (← csub i 1))
  check ((← staked_ STAKER_1) = (← csub stakeAmount totalSlash))

example : passes test_Slash_WhenFullAmount = true := by decide +kernel
example : passes test_Slash_WhenPartialAmount = true := by decide +kernel
example : passes test_Slash_WhenTwoStakersFullSlash = true := by decide +kernel
example : passes test_Slash_WhenDispenseBeforeFullSlash = true := by decide +kernel
example : passes test_Slash_WhenTwoStakersDispenseBeforeFullSlash = true := by decide +kernel
example : passes test_Slash_WhenDispenseAfterFullSlash = true := by decide +kernel
example : passes test_Slash_WhenTwoProversDispenseAfterOneFullSlash = true := by decide +kernel
example : passes test_Slash_WhenCancelled = true := by decide +kernel
example : passes test_RevertSlash_WhenProverNotFound = true := by decide +kernel
example : passes test_Slash_WhenRequestingWhenProverHasNoStake = true := by decide +kernel
example : passes test_Slash_WhenRewardAfterFullSlash = true := by decide +kernel
example : passes test_Slash_WhenSingleSlashAmountExceedsBalance = true := by decide +kernel
example : passes test_Slash_WhenCumulativeSlashAmountExceedsBalance = true := by decide +kernel
example : passes test_Slash_WhenSlashExceedsVaultButNotTotal = true := by decide +kernel
example : passes test_Slash_WhenMultipleSlashesBeforeUnstakeFinish = true := by decide +kernel
example : passes test_Slash_WhenVaultDrainedToZero = true := by decide +kernel
example : passes test_Slash_WhenFactorZeroResetWithDeactivation = true := by decide +kernel
example : passes test_Slash_WhenFullSlashDeactivatesProver = true := by decide +kernel
example : passes test_Slash_WhenStakeBlockedAfterDeactivation = true := by decide +kernel
example : passes test_Slash_WhenPartialSlashEventuallyDeactivates = true := by decide +kernel
example : passes (testFuzz_Slash_ExtremelySmallFactor 0) = true := by decide +kernel
example : passes (testFuzz_Slash_ExtremelySmallFactor 57896044618658097711785492504343953926634992332820282019728792003956564832313) = true := by decide +kernel
example : passes (testFuzz_Slash_ExtremelySmallFactor 123456789012345678901234567890) = true := by decide +kernel
example : passes (testFuzz_Slash_WhenVariableAmounts 0) = true := by decide +kernel
example : passes (testFuzz_Slash_WhenVariableAmounts 57896044618658097711785492504343953926634992332820282019728792003956564832313) = true := by decide +kernel
example : passes (testFuzz_Slash_WhenVariableAmounts 123456789012345678901234567890) = true := by decide +kernel
example : passes (testFuzz_Slash_WhenMultipleStakers [0, 123456789012345678901234567890, 7] 115792089237316195423570985008687907853269984665640564039457584007913129639935) = true := by decide +kernel
example : passes (testFuzz_Slash_WhenMultipleStakers [57896044618658097711785492504343953926634992332820282019728792003956564832313, 115792089237316195423570985008687907853269984665640564039457584007913129639935, 31415926535897932384626433832795028841] 7) = true := by decide +kernel
example : passes (testFuzz_Slash_WhenMultipleStakers [123456789012345678901234567890, 7, 0] 31415926535897932384626433832795028841) = true := by decide +kernel
example : passes (testFuzz_Slash_WhenWithDispenseBeforeSlash 0 115792089237316195423570985008687907853269984665640564039457584007913129639935) = true := by decide +kernel
example : passes (testFuzz_Slash_WhenWithDispenseBeforeSlash 57896044618658097711785492504343953926634992332820282019728792003956564832313 7) = true := by decide +kernel
example : passes (testFuzz_Slash_WhenWithDispenseBeforeSlash 123456789012345678901234567890 31415926535897932384626433832795028841) = true := by decide +kernel
example : passes (testFuzz_Slash_WhenMultipleSlashRequests [0, 123456789012345678901234567890, 7]) = true := by decide +kernel
example : passes (testFuzz_Slash_WhenMultipleSlashRequests [57896044618658097711785492504343953926634992332820282019728792003956564832313, 115792089237316195423570985008687907853269984665640564039457584007913129639935, 31415926535897932384626433832795028841]) = true := by decide +kernel
example : passes (testFuzz_Slash_WhenMultipleSlashRequests [123456789012345678901234567890, 7, 0]) = true := by decide +kernel

end Verif.ConformL1.ConformSolSlash
