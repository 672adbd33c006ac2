import Verif.ConformL1
/-
# The tests of `contracts/test/SuccinctStaking.unstake.t.sol` on the contract model

Transcribed statement by statement; see `Verif/ConformL1.lean` for what stands for what. These are tests, not proofs.
`testFuzz_UnstakePending_CorrectnessWithMaxRequests` is in `ConformGovSol.lean`.
-/

namespace Verif.ConformL1.ConformSolUnstake
open Verif

set_option linter.unusedVariables false

/-- `test_Unstake_WhenValid`, `contracts/test/SuccinctStaking.unstake.t.sol:13`. -/
def test_Unstake_WhenValid : T Unit := do
  let mut stakeAmount : Nat := STAKER_PROVE_AMOUNT
  check ((← unstakePending_ STAKER_1) = 0)
  check ((← previewUnstake_ ALICE_PROVER stakeAmount) = stakeAmount)
  check ((← previewUnstake_ ALICE_PROVER 0) = 0)
  check ((← proverStaked_ ALICE_PROVER) = 0)
  let _ ← _permitAndStake STAKER_1 STAKER_1_PK ALICE_PROVER stakeAmount
  check ((← balanceOf STAKING STAKER_1) = stakeAmount)
  check ((← staked_ STAKER_1) = stakeAmount)
  check ((← unstakePending_ STAKER_1) = 0)
  check ((← previewUnstake_ ALICE_PROVER stakeAmount) = stakeAmount)
  check ((← proverStaked_ ALICE_PROVER) = stakeAmount)
  let mut poolBefore : EscrowPool := (← escrowPool_ ALICE_PROVER)
  check ((poolBefore).iPROVEEscrow = 0)
  check ((poolBefore).slashFactor = 0)
  let _ ← _requestUnstake STAKER_1 stakeAmount
  check ((← balanceOf STAKING STAKER_1) = 0)
  check ((← staked_ STAKER_1) = 0)
  check ((← balanceOf PROVE STAKER_1) = 0)
  check ((← balanceOf I_PROVE ALICE_PROVER) = 0)
  check ((← unstakePending_ STAKER_1) = stakeAmount)
  check ((← proverStaked_ ALICE_PROVER) = 0)
  let mut poolAfter : EscrowPool := (← escrowPool_ ALICE_PROVER)
  check ((poolAfter).iPROVEEscrow = stakeAmount)
  check ((poolAfter).slashFactor = SCALAR)
  check ((← balanceOf I_PROVE STAKING) = stakeAmount)
  skip UNSTAKE_PERIOD
  let mut proveReceived : Nat := (← _finishUnstake STAKER_1)
  check (proveReceived = stakeAmount)
  check ((← balanceOf PROVE STAKER_1) = stakeAmount)
  check ((← balanceOf STAKING STAKER_1) = 0)
  check ((← staked_ STAKER_1) = 0)
  check ((← balanceOf PROVE I_PROVE) = 0)
  check ((← unstakePending_ STAKER_1) = 0)
  check ((← previewUnstake_ ALICE_PROVER stakeAmount) = stakeAmount)
  check ((← previewUnstake_ ALICE_PROVER 0) = 0)
  check ((← proverStaked_ ALICE_PROVER) = 0)
  let mut poolFinal : EscrowPool := (← escrowPool_ ALICE_PROVER)
  check ((poolFinal).iPROVEEscrow = 0)
  check ((poolFinal).slashFactor = SCALAR)
  check ((← balanceOf I_PROVE STAKING) = 0)

/-- `test_Unstake_WhenSomeoneElseFinishesUnstake`, `contracts/test/SuccinctStaking.unstake.t.sol:98`. -/
def test_Unstake_WhenSomeoneElseFinishesUnstake : T Unit := do
  let mut stakeAmount : Nat := STAKER_PROVE_AMOUNT
  let mut unstakeAmount : Nat := STAKER_PROVE_AMOUNT
  let _ ← _permitAndStake STAKER_1 STAKER_1_PK ALICE_PROVER stakeAmount
  let _ ← _requestUnstake STAKER_1 unstakeAmount
  skip UNSTAKE_PERIOD
  let _ ← finishUnstake_ STAKER_2 STAKER_1
  check ((← balanceOf STAKING STAKER_1) = 0)
  check ((← staked_ STAKER_1) = 0)
  check ((← balanceOf PROVE I_PROVE) = 0)
  check ((← unstakePending_ STAKER_1) = 0)
  check ((← previewUnstake_ ALICE_PROVER stakeAmount) = stakeAmount)
  check ((← previewUnstake_ ALICE_PROVER 0) = 0)
  check ((← proverStaked_ ALICE_PROVER) = 0)

/-- `test_Unstake_WhenTwoStakersOneProverReward`, `contracts/test/SuccinctStaking.unstake.t.sol:126`. -/
def test_Unstake_WhenTwoStakersOneProverReward : T Unit := do
  let mut stakeAmount1 : Nat := (STAKER_PROVE_AMOUNT / 2)
  let mut stakeAmount2 : Nat := (STAKER_PROVE_AMOUNT / 4)
  let mut rewardAmount : Nat := STAKER_PROVE_AMOUNT
  let _ ← _permitAndStake STAKER_1 STAKER_1_PK ALICE_PROVER stakeAmount1
  let _ ← _permitAndStake STAKER_2 STAKER_2_PK ALICE_PROVER stakeAmount2
  let mut initialStaked1 : Nat := (← staked_ STAKER_1)
  let mut initialStaked2 : Nat := (← staked_ STAKER_2)
  check ((← balanceOf STAKING STAKER_1) = stakeAmount1)
  check ((← balanceOf STAKING STAKER_2) = stakeAmount2)
  check ((← proverStaked_ ALICE_PROVER) = (stakeAmount1 + stakeAmount2))
  check ((← balanceOf PROVE STAKER_1) = (← csub STAKER_PROVE_AMOUNT stakeAmount1))
  check ((← balanceOf PROVE STAKER_2) = (← csub STAKER_PROVE_AMOUNT stakeAmount2))
  check ((← balanceOf PROVE I_PROVE) = (stakeAmount1 + stakeAmount2))
  check ((← balanceOf I_PROVE ALICE_PROVER) = (stakeAmount1 + stakeAmount2))
  check ((← balanceOf STAKING STAKER_1) = stakeAmount1)
  check ((← balanceOf STAKING STAKER_2) = stakeAmount2)
  let _ ← processFulfillment ALICE_PROVER rewardAmount
  let (expectedProtocolFee, expectedStakerReward, expectedOwnerReward) := (← _calculateFullRewardSplit rewardAmount)
  let mut expectedReward1 : Nat := ((expectedStakerReward * stakeAmount1) / (stakeAmount1 + stakeAmount2))
  let mut expectedReward2 : Nat := ((expectedStakerReward * stakeAmount2) / (stakeAmount1 + stakeAmount2))
  let _ ← _withdrawFromVApp TREASURY expectedProtocolFee
  let _ ← _withdrawFromVApp ALICE expectedOwnerReward
  let _ ← _withdrawFromVApp ALICE_PROVER expectedStakerReward
  check ((← balanceOf PROVE TREASURY) = expectedProtocolFee)
  check ((← balanceOf PROVE ALICE) = expectedOwnerReward)
  let mut stakedAfterReward1 : Nat := (← staked_ STAKER_1)
  let mut stakedAfterReward2 : Nat := (← staked_ STAKER_2)
  check (near stakedAfterReward1 (initialStaked1 + expectedReward1) 1)
  check (near stakedAfterReward2 (initialStaked2 + expectedReward2) 1)
  let _ ← _completeUnstake STAKER_1 stakeAmount1
  let _ ← _completeUnstake STAKER_2 stakeAmount2
  check ((← balanceOf STAKING STAKER_1) = 0)
  check ((← balanceOf STAKING STAKER_2) = 0)
  check ((← staked_ STAKER_1) = 0)
  check ((← staked_ STAKER_2) = 0)
  check ((← proverStaked_ ALICE_PROVER) ≤ 2)
  check (near (← balanceOf PROVE STAKER_1) (STAKER_PROVE_AMOUNT + expectedReward1) 1)
  check (near (← balanceOf PROVE STAKER_2) (STAKER_PROVE_AMOUNT + expectedReward2) 1)
  check ((← balanceOf ALICE_PROVER STAKING) = 0)
  check ((← balanceOf ALICE_PROVER STAKER_2) = 0)

/-- `test_RevertUnstake_WhenZeroAmount`, `contracts/test/SuccinctStaking.unstake.t.sol:228`. -/
def test_RevertUnstake_WhenZeroAmount : T Unit := do
  let mut stakeAmount : Nat := STAKER_PROVE_AMOUNT
  let mut unstakeAmount : Nat := 0
  let _ ← _permitAndStake STAKER_1 STAKER_1_PK ALICE_PROVER stakeAmount
  expectRevert (some .zeroAmount) do
      let _ ← requestUnstake_ STAKER_1 unstakeAmount

/-- `test_Unstake_WhenOneStakerTwoProversRewardNonDelegated`, `contracts/test/SuccinctStaking.unstake.t.sol:240`. -/
def test_Unstake_WhenOneStakerTwoProversRewardNonDelegated : T Unit := do
  let mut stakeAmount : Nat := (STAKER_PROVE_AMOUNT / 2)
  let mut rewardAmount : Nat := (STAKER_PROVE_AMOUNT / 2)
  let _ ← _permitAndStake STAKER_1 STAKER_1_PK ALICE_PROVER stakeAmount
  let _ ← _permitAndStake STAKER_2 STAKER_2_PK BOB_PROVER stakeAmount
  let _ ← processFulfillment BOB_PROVER rewardAmount
  let _ ← _completeUnstake STAKER_1 stakeAmount
  let _ ← _completeUnstake STAKER_2 stakeAmount
  check ((← balanceOf PROVE STAKER_1) = STAKER_PROVE_AMOUNT)
  check ((← balanceOf ALICE_PROVER STAKING) = 0)
  check ((← balanceOf BOB_PROVER STAKING) = 0)

/-- `test_Unstake_WhenTwoStakersTwoProversDispenseOnly`, `contracts/test/SuccinctStaking.unstake.t.sol:263`. -/
def test_Unstake_WhenTwoStakersTwoProversDispenseOnly : T Unit := do
  let mut stakeAmount1 : Nat := (STAKER_PROVE_AMOUNT / 2)
  let mut stakeAmount2 : Nat := (STAKER_PROVE_AMOUNT / 4)
  let mut dispenseAmount : Nat := STAKER_PROVE_AMOUNT
  let _ ← _permitAndStake STAKER_1 STAKER_1_PK ALICE_PROVER stakeAmount1
  let _ ← _permitAndStake STAKER_2 STAKER_2_PK BOB_PROVER stakeAmount2
  let mut requiredTime : Nat := ((dispenseAmount / DISPENSE_RATE) + 1)
  skip requiredTime
  let _ ← dispense_ DISPENSER dispenseAmount
  let _ ← _completeUnstake STAKER_1 stakeAmount1
  let _ ← _completeUnstake STAKER_2 stakeAmount2
  let mut expectedDispense1 : Nat := ((dispenseAmount * stakeAmount1) / (stakeAmount1 + stakeAmount2))
  let mut expectedDispense2 : Nat := ((dispenseAmount * stakeAmount2) / (stakeAmount1 + stakeAmount2))
  check ((← balanceOf PROVE STAKER_1) = (← csub (STAKER_PROVE_AMOUNT + expectedDispense1) 1))
  check ((← balanceOf PROVE STAKER_2) = (STAKER_PROVE_AMOUNT + expectedDispense2))
  check ((← balanceOf ALICE_PROVER STAKING) = 0)
  check ((← balanceOf BOB_PROVER STAKER_2) = 0)

/-- `test_Unstake_WhenEarlyAttempt`, `contracts/test/SuccinctStaking.unstake.t.sol:296`. -/
def test_Unstake_WhenEarlyAttempt : T Unit := do
  let mut stakeAmount : Nat := STAKER_PROVE_AMOUNT
  let mut partialUnstakePeriod : Nat := (← csub UNSTAKE_PERIOD 86400)
  let _ ← _permitAndStake STAKER_1 STAKER_1_PK ALICE_PROVER stakeAmount
  let _ ← _requestUnstake STAKER_1 stakeAmount
  check ((← balanceOf STAKING STAKER_1) = 0)
  let mut pool : EscrowPool := (← escrowPool_ ALICE_PROVER)
  check ((pool).iPROVEEscrow = stakeAmount)
  skip partialUnstakePeriod
  let mut proveReceived : Nat := (← _finishUnstake STAKER_1)
  check (proveReceived = 0)
  check ((← balanceOf PROVE STAKER_1) = 0)
  skip 86400
  proveReceived := (← _finishUnstake STAKER_1)
  check (proveReceived = stakeAmount)
  check ((← balanceOf PROVE STAKER_1) = stakeAmount)
  pool := (← escrowPool_ ALICE_PROVER)
  check ((pool).iPROVEEscrow = 0)

/-- `test_Unstake_WhenProverFullSlashBeforeEscrow`, `contracts/test/SuccinctStaking.unstake.t.sol:340`. -/
def test_Unstake_WhenProverFullSlashBeforeEscrow : T Unit := do
  let mut stakeAmount : Nat := STAKER_PROVE_AMOUNT
  let mut slashAmount : Nat := stakeAmount
  let _ ← _stake STAKER_1 ALICE_PROVER stakeAmount
  let _ ← _completeSlash ALICE_PROVER slashAmount
  check ((← isDeactivatedProver_ ALICE_PROVER) = true)
  let _ ← _requestUnstake STAKER_1 stakeAmount
  skip UNSTAKE_PERIOD
  let mut proveReceived : Nat := (← _finishUnstake STAKER_1)
  check (proveReceived = 0)
  check ((← balanceOf PROVE STAKER_1) = 0)

/-- `test_Unstake_WhenProverFullSlashAfterEscrow`, `contracts/test/SuccinctStaking.unstake.t.sol:365`. -/
def test_Unstake_WhenProverFullSlashAfterEscrow : T Unit := do
  let mut stakeAmount : Nat := STAKER_PROVE_AMOUNT
  let mut slashAmount : Nat := stakeAmount
  let _ ← _stake STAKER_1 ALICE_PROVER stakeAmount
  let _ ← _requestUnstake STAKER_1 stakeAmount
  let _ ← _completeSlash ALICE_PROVER slashAmount
  check (¬ ((← isDeactivatedProver_ ALICE_PROVER) = true))
  skip UNSTAKE_PERIOD
  let mut proveReceived : Nat := (← _finishUnstake STAKER_1)
  check (proveReceived = 0)
  check ((← balanceOf PROVE STAKER_1) = 0)

/-- `test_Unstake_WhenProverPartialSlashBeforeEscrow`, `contracts/test/SuccinctStaking.unstake.t.sol:391`. -/
def test_Unstake_WhenProverPartialSlashBeforeEscrow : T Unit := do
  let mut stakeAmount : Nat := STAKER_PROVE_AMOUNT
  let mut leftoverAssets : Nat := 1000000000
  let mut slashAmount : Nat := (← csub stakeAmount leftoverAssets)
  let _ ← _stake STAKER_1 ALICE_PROVER stakeAmount
  let _ ← _completeSlash ALICE_PROVER slashAmount
  check ((← isDeactivatedProver_ ALICE_PROVER) = true)
  let _ ← _requestUnstake STAKER_1 stakeAmount
  skip UNSTAKE_PERIOD
  let mut proveReceived : Nat := (← _finishUnstake STAKER_1)
  check (proveReceived = leftoverAssets)
  check ((← balanceOf PROVE STAKER_1) = leftoverAssets)

/-- `test_Unstake_WhenProverPartialSlashAfterEscrow`, `contracts/test/SuccinctStaking.unstake.t.sol:417`. -/
def test_Unstake_WhenProverPartialSlashAfterEscrow : T Unit := do
  let mut stakeAmount : Nat := STAKER_PROVE_AMOUNT
  let mut leftoverAssets : Nat := 1000000000
  let mut slashAmount : Nat := (← csub stakeAmount leftoverAssets)
  let _ ← _stake STAKER_1 ALICE_PROVER stakeAmount
  let _ ← _requestUnstake STAKER_1 stakeAmount
  let _ ← _completeSlash ALICE_PROVER slashAmount
  check (¬ ((← isDeactivatedProver_ ALICE_PROVER) = true))
  skip UNSTAKE_PERIOD
  let mut proveReceived : Nat := (← _finishUnstake STAKER_1)
  check (proveReceived = leftoverAssets)
  check ((← balanceOf PROVE STAKER_1) = leftoverAssets)

/-- `test_Unstake_WhenMultipleUnstakes`, `contracts/test/SuccinctStaking.unstake.t.sol:443`. -/
def test_Unstake_WhenMultipleUnstakes : T Unit := do
  let mut totalStakeAmount : Nat := STAKER_PROVE_AMOUNT
  let mut maxRequests : Nat := (← maxUnstakeRequests_)
  check (maxRequests ≥ 2)
  let _ ← _permitAndStake STAKER_1 STAKER_1_PK ALICE_PROVER totalStakeAmount
  let mut initialProveBalance : Nat := (← balanceOf PROVE STAKER_1)
  let mut firstUnstakeAmount : Nat := (totalStakeAmount / 2)
  let _ ← _requestUnstake STAKER_1 firstUnstakeAmount
  check ((← unstakePending_ STAKER_1) = firstUnstakeAmount)
  check ((← balanceOf STAKING STAKER_1) = (← csub totalStakeAmount firstUnstakeAmount))
  skip UNSTAKE_PERIOD
  let mut firstReceived : Nat := (← _finishUnstake STAKER_1)
  check (firstReceived = firstUnstakeAmount)
  check ((← balanceOf PROVE STAKER_1) = (initialProveBalance + firstUnstakeAmount))
  let mut secondUnstakeAmount : Nat := (← csub totalStakeAmount firstUnstakeAmount)
  let _ ← _requestUnstake STAKER_1 secondUnstakeAmount
  check ((← unstakePending_ STAKER_1) = secondUnstakeAmount)
  check ((← balanceOf STAKING STAKER_1) = 0)
  skip UNSTAKE_PERIOD
  let mut secondReceived : Nat := (← _finishUnstake STAKER_1)
  check (secondReceived = secondUnstakeAmount)
  check ((← balanceOf PROVE STAKER_1) = (initialProveBalance + totalStakeAmount))
  check ((← unstakePending_ STAKER_1) = 0)
  let mut pool : EscrowPool := (← escrowPool_ ALICE_PROVER)
  check ((pool).iPROVEEscrow = 0)

/-- `test_Unstake_WhenMultipleRewards`, `contracts/test/SuccinctStaking.unstake.t.sol:500`. -/
def test_Unstake_WhenMultipleRewards : T Unit := do
  let mut stakeAmount : Nat := STAKER_PROVE_AMOUNT
  let mut rewardAmount : Nat := (STAKER_PROVE_AMOUNT / 4)
  let _ ← _permitAndStake STAKER_1 STAKER_1_PK ALICE_PROVER stakeAmount
  let mut initialStaked : Nat := (← staked_ STAKER_1)
  let _ ← processFulfillment ALICE_PROVER rewardAmount
  let (protocolFee, stakerReward, ownerReward) := (← _calculateFullRewardSplit rewardAmount)
  let _ ← _withdrawFromVApp TREASURY protocolFee
  let _ ← _withdrawFromVApp ALICE ownerReward
  let _ ← _withdrawFromVApp ALICE_PROVER stakerReward
  let mut stakedAfterFirstReward : Nat := (← staked_ STAKER_1)
  check (near stakedAfterFirstReward (initialStaked + stakerReward) 1)
  let mut stPROVEBalance : Nat := (← balanceOf STAKING STAKER_1)
  let _ ← _requestUnstake STAKER_1 stPROVEBalance
  let mut iPROVEEscrowed : Nat := ((← at_ (← unstakeRequests_ STAKER_1) 0)).iPROVEEscrow
  let _ ← processFulfillment ALICE_PROVER rewardAmount
  let (protocolFee2, stakerReward2, ownerReward2) := (← _calculateFullRewardSplit rewardAmount)
  let _ ← _withdrawFromVApp TREASURY protocolFee2
  let _ ← _withdrawFromVApp ALICE ownerReward2
  let _ ← _withdrawFromVApp ALICE_PROVER stakerReward2
  skip UNSTAKE_PERIOD
  let mut claimedAmount : Nat := (← _finishUnstake STAKER_1)
  check (near claimedAmount (← previewRedeem I_PROVE iPROVEEscrowed) 1)
  check (near claimedAmount (stakeAmount + stakerReward) 1)
  check (near (← balanceOf I_PROVE ALICE_PROVER) stakerReward2 1)

/-- `test_Unstake_WhenManySmallUnstakes`, `contracts/test/SuccinctStaking.unstake.t.sol:581`. -/
def test_Unstake_WhenManySmallUnstakes : T Unit := do
  let mut stakeAmount : Nat := STAKER_PROVE_AMOUNT
  let mut totalReceived : Nat := 0
  let mut numCycles : Nat := 3
  for cycle in List.range' 0 (numCycles - 0) do
    let mut cycleStake : Nat := (stakeAmount / numCycles)
    deal PROVE STAKER_1 cycleStake
    let _ ← _stake STAKER_1 ALICE_PROVER cycleStake
    let mut stPROVEBalance : Nat := (← balanceOf STAKING STAKER_1)
    let _ ← _requestUnstake STAKER_1 stPROVEBalance
    check ((← balanceOf STAKING STAKER_1) = 0)
    check ((← unstakePending_ STAKER_1) = stPROVEBalance)
    skip UNSTAKE_PERIOD
    let mut received : Nat := (← _finishUnstake STAKER_1)
    totalReceived := totalReceived + received
    check (received = cycleStake)
    check ((← unstakePending_ STAKER_1) = 0)
  check (near totalReceived stakeAmount numCycles)
  check ((← balanceOf STAKING STAKER_1) = 0)
  let mut pool : EscrowPool := (← escrowPool_ ALICE_PROVER)
  check ((pool).iPROVEEscrow = 0)
  check (((← unstakeRequests_ STAKER_1)).length = 0)

/-- `test_Unstake_WhenManySmallStakesUnstakes`, `contracts/test/SuccinctStaking.unstake.t.sol:636`. -/
def test_Unstake_WhenManySmallStakesUnstakes : T Unit := do
  let mut numStakes : Nat := 10
  let mut stakeAmountPerCall : Nat := (STAKER_PROVE_AMOUNT / numStakes)
  let mut totalStaked : Nat := 0
  for i in List.range' 0 (numStakes - 0) do
    let _ ← _permitAndStake STAKER_1 STAKER_1_PK ALICE_PROVER stakeAmountPerCall
    totalStaked := totalStaked + stakeAmountPerCall
  check ((← balanceOf STAKING STAKER_1) = totalStaked)
  check ((← staked_ STAKER_1) = totalStaked)
  let _ ← _requestUnstake STAKER_1 totalStaked
  check ((← balanceOf STAKING STAKER_1) = 0)
  check ((← unstakePending_ STAKER_1) = totalStaked)
  skip UNSTAKE_PERIOD
  let mut proveReceived : Nat := (← _finishUnstake STAKER_1)
  check (proveReceived = totalStaked)
  check ((← balanceOf PROVE STAKER_1) = totalStaked)
  let mut pool : EscrowPool := (← escrowPool_ ALICE_PROVER)
  check ((pool).iPROVEEscrow = 0)

/-- `test_Unstake_WhenManySmallStakesUnstakesTimeBetween`, `contracts/test/SuccinctStaking.unstake.t.sol:676`. -/
def test_Unstake_WhenManySmallStakesUnstakesTimeBetween : T Unit := do
  let mut numStakes : Nat := 10
  let mut stakeAmountPerCall : Nat := (STAKER_PROVE_AMOUNT / numStakes)
  let mut timeBetweenStakes : Nat := 86400
  let mut totalStaked : Nat := 0
  for i in List.range' 0 (numStakes - 0) do
    let _ ← _permitAndStake STAKER_1 STAKER_1_PK ALICE_PROVER stakeAmountPerCall
    totalStaked := totalStaked + stakeAmountPerCall
    skip timeBetweenStakes
  check ((← balanceOf STAKING STAKER_1) = totalStaked)
  check ((← staked_ STAKER_1) = totalStaked)
  let _ ← _requestUnstake STAKER_1 totalStaked
  check ((← balanceOf STAKING STAKER_1) = 0)
  check ((← unstakePending_ STAKER_1) = totalStaked)
  skip UNSTAKE_PERIOD
  let mut proveReceived : Nat := (← _finishUnstake STAKER_1)
  check (proveReceived = totalStaked)
  check ((← balanceOf PROVE STAKER_1) = totalStaked)
  let mut pool : EscrowPool := (← escrowPool_ ALICE_PROVER)
  check ((pool).iPROVEEscrow = 0)

/-- `test_Unstake_WhenMultipleRequestsSumToFull`, `contracts/test/SuccinctStaking.unstake.t.sol:718`. -/
def test_Unstake_WhenMultipleRequestsSumToFull : T Unit := do
  let mut stakeAmount : Nat := STAKER_PROVE_AMOUNT
  let mut unstakeAmount1 : Nat := ((stakeAmount * 8) / 10)
  let mut unstakeAmount2 : Nat := (← csub stakeAmount unstakeAmount1)
  let _ ← _permitAndStake STAKER_1 STAKER_1_PK ALICE_PROVER stakeAmount
  let _ ← _requestUnstake STAKER_1 unstakeAmount1
  let _ ← requestUnstake_ STAKER_1 unstakeAmount2

/-- `test_RevertUnstake_WhenAmountExceedsBalance`, `contracts/test/SuccinctStaking.unstake.t.sol:734`. -/
def test_RevertUnstake_WhenAmountExceedsBalance : T Unit := do
  let mut stakeAmount : Nat := (STAKER_PROVE_AMOUNT / 2)
  let mut unstakeAmount : Nat := STAKER_PROVE_AMOUNT
  let _ ← _permitAndStake STAKER_1 STAKER_1_PK ALICE_PROVER stakeAmount
  expectRevert (some .insufficientStakeBalance) do
      let _ ← requestUnstake_ STAKER_1 unstakeAmount

/-- `test_RevertUnstake_WhenTooManyUnstakeRequests`, `contracts/test/SuccinctStaking.unstake.t.sol:747`. -/
def test_RevertUnstake_WhenTooManyUnstakeRequests : T Unit := do
  let mut maxRequests : Nat := (← maxUnstakeRequests_)
  let mut stakeAmount : Nat := (STAKER_PROVE_AMOUNT * 10)
  let mut unstakeAmountPerRequest : Nat := MIN_STAKE_AMOUNT
  deal PROVE STAKER_1 stakeAmount
  let _ ← approve STAKER_1 PROVE STAKING stakeAmount
  let _ ← stake_ STAKER_1 ALICE_PROVER stakeAmount
  for i in List.range' 0 (maxRequests - 0) do
    let _ ← requestUnstake_ STAKER_1 unstakeAmountPerRequest
  check (((← unstakeRequests_ STAKER_1)).length = maxRequests)
  expectRevert (some .tooManyUnstakeRequests) do
      let _ ← requestUnstake_ STAKER_1 unstakeAmountPerRequest

/-- `test_RevertUnstake_WhenRequestUnstakeWhileProverHasSlashRequest`, `contracts/test/SuccinctStaking.unstake.t.sol:777`. -/
def test_RevertUnstake_WhenRequestUnstakeWhileProverHasSlashRequest : T Unit := do
  let mut stakeAmount : Nat := STAKER_PROVE_AMOUNT
  let mut slashAmount : Nat := (STAKER_PROVE_AMOUNT / 2)
  let _ ← _permitAndStake STAKER_1 STAKER_1_PK ALICE_PROVER stakeAmount
  let _ ← processSlash ALICE_PROVER slashAmount
  expectRevert (some .proverHasSlashRequest) do
      let _ ← requestUnstake_ STAKER_1 stakeAmount

/-- `test_RevertUnstake_WhenFinishUnstakeWhileProverHasSlashRequest`, `contracts/test/SuccinctStaking.unstake.t.sol:793`. -/
def test_RevertUnstake_WhenFinishUnstakeWhileProverHasSlashRequest : T Unit := do
  let mut stakeAmount : Nat := STAKER_PROVE_AMOUNT
  let mut slashAmount : Nat := (STAKER_PROVE_AMOUNT / 2)
  let _ ← _permitAndStake STAKER_1 STAKER_1_PK ALICE_PROVER stakeAmount
  let _ ← requestUnstake_ STAKER_1 stakeAmount
  let _ ← processSlash ALICE_PROVER slashAmount
  skip UNSTAKE_PERIOD
  expectRevert (some .proverHasSlashRequest) do
      let _ ← finishUnstake_ STAKER_1 STAKER_1

/-- `test_Unstake_WhenSlashDuringUnstakePeriod`, `contracts/test/SuccinctStaking.unstake.t.sol:816`. -/
def test_Unstake_WhenSlashDuringUnstakePeriod : T Unit := do
  let mut stakeAmount : Nat := STAKER_PROVE_AMOUNT
  let _ ← _stake STAKER_1 ALICE_PROVER stakeAmount
  let _ ← _stake STAKER_2 ALICE_PROVER stakeAmount
  let mut staker1Shares : Nat := (← balanceOf STAKING STAKER_1)
  let _ ← requestUnstake_ STAKER_1 staker1Shares
  let mut iPROVEEscrowed : Nat := ((← at_ (← unstakeRequests_ STAKER_1) 0)).iPROVEEscrow
  let mut slashFactor : Nat := ((← at_ (← unstakeRequests_ STAKER_1) 0)).slashFactor
  let mut poolBefore : EscrowPool := (← escrowPool_ ALICE_PROVER)
  check ((poolBefore).iPROVEEscrow = iPROVEEscrowed)
  check ((poolBefore).slashFactor = SCALAR)
  check (slashFactor = SCALAR)
  let mut totalStake : Nat := (stakeAmount * 2)
  let mut slashAmount : Nat := (totalStake / 2)
  let _ ← processSlash ALICE_PROVER slashAmount
  let _ ← finishSlash_ OWNER ALICE_PROVER 0
  let mut poolAfter : EscrowPool := (← escrowPool_ ALICE_PROVER)
  check ((poolAfter).iPROVEEscrow = (iPROVEEscrowed / 2))
  check ((poolAfter).slashFactor = (SCALAR / 2))
  skip UNSTAKE_PERIOD
  let mut proveReceived : Nat := (← finishUnstake_ STAKER_1 STAKER_1)
  check (near proveReceived (stakeAmount / 2) 2)
  let mut poolFinal : EscrowPool := (← escrowPool_ ALICE_PROVER)
  check ((poolFinal).iPROVEEscrow = 0)
  check (near (← staked_ STAKER_2) (stakeAmount / 2) 2)

/-- `test_Unstake_WhenRewardDuringUnstakePeriod`, `contracts/test/SuccinctStaking.unstake.t.sol:880`. -/
def test_Unstake_WhenRewardDuringUnstakePeriod : T Unit := do
  let mut stakeAmount : Nat := STAKER_PROVE_AMOUNT
  let _ ← _stake STAKER_1 ALICE_PROVER stakeAmount
  let _ ← processFulfillment ALICE_PROVER (STAKER_PROVE_AMOUNT / 2)
  let (protocolFee, stakerReward, ownerReward) := (← _calculateFullRewardSplit (STAKER_PROVE_AMOUNT / 2))
  let _ ← _withdrawFromVApp TREASURY protocolFee
  let _ ← _withdrawFromVApp ALICE ownerReward
  let _ ← _withdrawFromVApp ALICE_PROVER stakerReward
  let mut stakedBeforeUnstake : Nat := (← staked_ STAKER_1)
  check (near stakedBeforeUnstake (stakeAmount + stakerReward) 1)
  let mut stPROVEBalance : Nat := (← balanceOf STAKING STAKER_1)
  let _ ← requestUnstake_ STAKER_1 stPROVEBalance
  let mut iPROVEEscrowed : Nat := ((← at_ (← unstakeRequests_ STAKER_1) 0)).iPROVEEscrow
  let mut pool : EscrowPool := (← escrowPool_ ALICE_PROVER)
  check ((pool).iPROVEEscrow = iPROVEEscrowed)
  check ((pool).slashFactor = SCALAR)
  let _ ← processFulfillment ALICE_PROVER (STAKER_PROVE_AMOUNT / 4)
  let (protocolFee2, stakerReward2, ownerReward2) := (← _calculateFullRewardSplit (STAKER_PROVE_AMOUNT / 4))
  let _ ← _withdrawFromVApp TREASURY protocolFee2
  let _ ← _withdrawFromVApp ALICE ownerReward2
  let _ ← _withdrawFromVApp ALICE_PROVER stakerReward2
  skip UNSTAKE_PERIOD
  let mut proveReceived : Nat := (← finishUnstake_ STAKER_1 STAKER_1)
  check (near proveReceived (← previewRedeem I_PROVE iPROVEEscrowed) 1)
  check (near (← balanceOf I_PROVE ALICE_PROVER) stakerReward2 2)
  let mut poolAfter : EscrowPool := (← escrowPool_ ALICE_PROVER)
  check ((poolAfter).iPROVEEscrow = 0)
  check ((← balanceOf I_PROVE STAKING) = 0)

/-- `test_Unstake_WhenRewardDuringOngoingUnstake`, `contracts/test/SuccinctStaking.unstake.t.sol:955`. -/
def test_Unstake_WhenRewardDuringOngoingUnstake : T Unit := do
  let mut stakeAmount : Nat := STAKER_PROVE_AMOUNT
  let _ ← _stake STAKER_1 ALICE_PROVER stakeAmount
  let _ ← _stake STAKER_2 ALICE_PROVER stakeAmount
  let mut staker1Shares : Nat := (← balanceOf STAKING STAKER_1)
  let _ ← requestUnstake_ STAKER_1 staker1Shares
  let mut staker1Escrowed : Nat := ((← at_ (← unstakeRequests_ STAKER_1) 0)).iPROVEEscrow
  let _ ← processFulfillment ALICE_PROVER (STAKER_PROVE_AMOUNT / 2)
  let (_, stakerReward, _) := (← _calculateFullRewardSplit (STAKER_PROVE_AMOUNT / 2))
  let _ ← _withdrawFromVApp ALICE_PROVER stakerReward
  let mut staker2Shares : Nat := (← balanceOf STAKING STAKER_2)
  let _ ← requestUnstake_ STAKER_2 staker2Shares
  let mut staker2Escrowed : Nat := ((← at_ (← unstakeRequests_ STAKER_2) 0)).iPROVEEscrow
  skip UNSTAKE_PERIOD
  let mut proveReceived1 : Nat := (← finishUnstake_ STAKER_1 STAKER_1)
  check (near proveReceived1 (← previewRedeem I_PROVE staker1Escrowed) 1)
  check (near proveReceived1 stakeAmount 1)
  let mut proveReceived2 : Nat := (← finishUnstake_ STAKER_2 STAKER_2)
  check (near proveReceived2 (← previewRedeem I_PROVE staker2Escrowed) 2)
  check (near proveReceived2 (stakeAmount + stakerReward) 2)
  check ((← balanceOf I_PROVE ALICE_PROVER) ≤ 1)
  check ((← balanceOf I_PROVE STAKING) = 0)

/-- `test_Unstake_WhenRewardDuringOngoingUnstakeOutOfOrder`, `contracts/test/SuccinctStaking.unstake.t.sol:1025`. -/
def test_Unstake_WhenRewardDuringOngoingUnstakeOutOfOrder : T Unit := do
  let mut stakeAmount : Nat := STAKER_PROVE_AMOUNT
  let _ ← _stake STAKER_1 ALICE_PROVER stakeAmount
  let _ ← _stake STAKER_2 ALICE_PROVER stakeAmount
  let mut staker1Shares : Nat := (← balanceOf STAKING STAKER_1)
  let _ ← requestUnstake_ STAKER_1 staker1Shares
  let mut staker1Escrowed : Nat := ((← at_ (← unstakeRequests_ STAKER_1) 0)).iPROVEEscrow
  let _ ← processFulfillment ALICE_PROVER (STAKER_PROVE_AMOUNT / 2)
  let (_, stakerReward, _) := (← _calculateFullRewardSplit (STAKER_PROVE_AMOUNT / 2))
  let _ ← _withdrawFromVApp ALICE_PROVER stakerReward
  let mut staker2Shares : Nat := (← balanceOf STAKING STAKER_2)
  let _ ← requestUnstake_ STAKER_2 staker2Shares
  let mut staker2Escrowed : Nat := ((← at_ (← unstakeRequests_ STAKER_2) 0)).iPROVEEscrow
  skip UNSTAKE_PERIOD
  let mut proveReceived2 : Nat := (← finishUnstake_ STAKER_2 STAKER_2)
  check (near proveReceived2 (← previewRedeem I_PROVE staker2Escrowed) 2)
  check (near proveReceived2 (stakeAmount + stakerReward) 2)
  let mut proveReceived1 : Nat := (← finishUnstake_ STAKER_1 STAKER_1)
  check (near proveReceived1 (← previewRedeem I_PROVE staker1Escrowed) 1)
  check (near proveReceived1 stakeAmount 1)
  check ((← balanceOf I_PROVE ALICE_PROVER) ≤ 1)
  check ((← balanceOf I_PROVE STAKING) = 0)

/-- `test_Unstake_WhenRequestAfterSlash`, `contracts/test/SuccinctStaking.unstake.t.sol:1095`. -/
def test_Unstake_WhenRequestAfterSlash : T Unit := do
  let mut stakeAmount : Nat := (STAKER_PROVE_AMOUNT / 2)
  let mut firstSlashAmount : Nat := ((stakeAmount * 60) / 100)
  let mut totalAfterB : Nat := ((← csub stakeAmount firstSlashAmount) + stakeAmount)
  let mut secondSlashAmount : Nat := (totalAfterB / 2)
  let _ ← _stake STAKER_1 ALICE_PROVER stakeAmount
  let _ ← _requestUnstake STAKER_1 stakeAmount
  check (((← unstakeRequests_ STAKER_1)).length = 1)
  check (((← at_ (← unstakeRequests_ STAKER_1) 0)).slashFactor = 1000000000000000000000000000)
  let _ ← _completeSlash ALICE_PROVER firstSlashAmount
  let mut firstFactor : Nat := ((SCALAR * (← csub stakeAmount firstSlashAmount)) / stakeAmount)
  check (((← escrowPool_ ALICE_PROVER)).slashFactor = firstFactor)
  let _ ← _stake STAKER_2 ALICE_PROVER stakeAmount
  let _ ← _requestUnstake STAKER_2 stakeAmount
  check (((← unstakeRequests_ STAKER_2)).length = 1)
  check (((← at_ (← unstakeRequests_ STAKER_2) 0)).slashFactor = firstFactor)
  let _ ← _completeSlash ALICE_PROVER secondSlashAmount
  let mut finalFactor : Nat := ((firstFactor * (← csub totalAfterB secondSlashAmount)) / totalAfterB)
  check (((← escrowPool_ ALICE_PROVER)).slashFactor = finalFactor)
  skip UNSTAKE_PERIOD
  let mut balanceA : Nat := (← balanceOf PROVE STAKER_1)
  let mut balanceB : Nat := (← balanceOf PROVE STAKER_2)
  let mut receivedA : Nat := (← _finishUnstake STAKER_1)
  let mut receivedB : Nat := (← _finishUnstake STAKER_2)
  check (receivedA = ((stakeAmount * finalFactor) / SCALAR))
  check ((← csub (← balanceOf PROVE STAKER_1) balanceA) = receivedA)
  check (receivedB = ((stakeAmount * finalFactor) / firstFactor))
  check ((← csub (← balanceOf PROVE STAKER_2) balanceB) = receivedB)

/-- `test_Unstake_WhenTwoClaimsMixedReady`, `contracts/test/SuccinctStaking.unstake.t.sol:1195`. -/
def test_Unstake_WhenTwoClaimsMixedReady : T Unit := do
  let mut stakeAmount : Nat := STAKER_PROVE_AMOUNT
  let mut firstClaim : Nat := (stakeAmount / 4)
  let mut secondClaim : Nat := (stakeAmount / 4)
  let _ ← _stake STAKER_1 ALICE_PROVER stakeAmount
  let _ ← _requestUnstake STAKER_1 firstClaim
  skip (UNSTAKE_PERIOD / 2)
  let _ ← _requestUnstake STAKER_1 secondClaim
  let mut claimsBefore : List UnstakeClaim := (← unstakeRequests_ STAKER_1)
  check ((claimsBefore).length = 2)
  skip ((UNSTAKE_PERIOD / 2) + 1)
  let mut received : Nat := (← _finishUnstake STAKER_1)
  check (received = firstClaim)
  let mut claimsAfter : List UnstakeClaim := (← unstakeRequests_ STAKER_1)
  check ((claimsAfter).length = 1)
  skip (UNSTAKE_PERIOD / 2)
  let mut receivedSecond : Nat := (← _finishUnstake STAKER_1)
  check (receivedSecond = secondClaim)
  check (((← unstakeRequests_ STAKER_1)).length = 0)

/-- `test_Unstake_WhenSomeClaimsReadyOthersNot`, `contracts/test/SuccinctStaking.unstake.t.sol:1243`. -/
def test_Unstake_WhenSomeClaimsReadyOthersNot : T Unit := do
  let mut stakeAmount : Nat := (STAKER_PROVE_AMOUNT * 2)
  let mut unstakeAmountPerRequest : Nat := MIN_STAKE_AMOUNT
  deal PROVE STAKER_1 stakeAmount
  let _ ← _stake STAKER_1 ALICE_PROVER stakeAmount
  let mut requestTimestamps : List Nat := List.replicate 5 0
  for i in List.range' 0 (5 - 0) do
    let _ ← _requestUnstake STAKER_1 unstakeAmountPerRequest
    requestTimestamps := requestTimestamps.set i (← now)
    if (i < 4) then
      skip (UNSTAKE_PERIOD / 4)
  skip (UNSTAKE_PERIOD / 2)
  let mut claimsBefore : List UnstakeClaim := (← unstakeRequests_ STAKER_1)
  check ((claimsBefore).length = 5)
  let mut balanceBefore : Nat := (← balanceOf PROVE STAKER_1)
  let mut received : Nat := (← _finishUnstake STAKER_1)
  let mut claimsAfter : List UnstakeClaim := (← unstakeRequests_ STAKER_1)
  check ((claimsAfter).length = 2)
  check (received = (unstakeAmountPerRequest * 3))
  check ((← csub (← balanceOf PROVE STAKER_1) balanceBefore) = (unstakeAmountPerRequest * 3))
  check ((← unstakePending_ STAKER_1) = (unstakeAmountPerRequest * 2))
  skip UNSTAKE_PERIOD
  let mut receivedFinal : Nat := (← _finishUnstake STAKER_1)
  check (receivedFinal = (unstakeAmountPerRequest * 2))
  let mut claimsFinal : List UnstakeClaim := (← unstakeRequests_ STAKER_1)
  check ((claimsFinal).length = 0)
  check ((← balanceOf PROVE STAKER_1) = (unstakeAmountPerRequest * 5))

/-- `test_Unstake_WhenMaxRequestsReset`, `contracts/test/SuccinctStaking.unstake.t.sol:1327`. -/
def test_Unstake_WhenMaxRequestsReset : T Unit := do
  let mut maxRequests : Nat := (← maxUnstakeRequests_)
  let mut requestAmount : Nat := MIN_STAKE_AMOUNT
  let mut stakeAmount : Nat := (requestAmount * ((maxRequests * 2) + 10))
  deal PROVE STAKER_1 stakeAmount
  let _ ← _stake STAKER_1 ALICE_PROVER stakeAmount
  for i in List.range' 0 (maxRequests - 0) do
    let _ ← _requestUnstake STAKER_1 requestAmount
  let mut requests : List UnstakeClaim := (← unstakeRequests_ STAKER_1)
  check ((requests).length = maxRequests)
  expectRevert (some .tooManyUnstakeRequests) do
      let _ ← requestUnstake_ STAKER_1 MIN_STAKE_AMOUNT
  skip UNSTAKE_PERIOD
  let _ ← _finishUnstake STAKER_1
  let mut requestsAfter : List UnstakeClaim := (← unstakeRequests_ STAKER_1)
  check ((requestsAfter).length = 0)
  let mut newStakeAmount : Nat := (requestAmount * (maxRequests + 1))
  deal PROVE STAKER_1 newStakeAmount
  let _ ← _stake STAKER_1 ALICE_PROVER newStakeAmount
  let _ ← requestUnstake_ STAKER_1 requestAmount
  let mut newRequests : List UnstakeClaim := (← unstakeRequests_ STAKER_1)
  check ((newRequests).length = 1)
  for i in List.range' 1 (maxRequests - 1) do
    let _ ← requestUnstake_ STAKER_1 requestAmount
  let mut finalRequests : List UnstakeClaim := (← unstakeRequests_ STAKER_1)
  check ((finalRequests).length = maxRequests)
  expectRevert (some .tooManyUnstakeRequests) do
      let _ ← requestUnstake_ STAKER_1 requestAmount

/-- `testFuzz_Unstake_PartialAmount`, `contracts/test/SuccinctStaking.unstake.t.sol:1402`. -/
def testFuzz_Unstake_PartialAmount (_unstakeAmount : Nat) : T Unit := do
  let mut _unstakeAmount := _unstakeAmount
  let mut stakeAmount : Nat := STAKER_PROVE_AMOUNT
  let mut unstakeAmount : Nat := (bound _unstakeAmount 1 stakeAmount)
  let _ ← _stake STAKER_1 ALICE_PROVER stakeAmount
  let mut stPROVEBefore : Nat := (← balanceOf STAKING STAKER_1)
  let _ ← _requestUnstake STAKER_1 unstakeAmount
  check ((← unstakePending_ STAKER_1) = unstakeAmount)
  check ((← balanceOf STAKING STAKER_1) = (← csub stPROVEBefore unstakeAmount))
  check ((← staked_ STAKER_1) = (← csub stakeAmount unstakeAmount))
  let mut pool : EscrowPool := (← escrowPool_ ALICE_PROVER)
  check ((pool).iPROVEEscrow = unstakeAmount)
  skip UNSTAKE_PERIOD
  let mut receivedAmount : Nat := (← _finishUnstake STAKER_1)
  check (receivedAmount = unstakeAmount)
  check ((← balanceOf STAKING STAKER_1) = (← csub stakeAmount unstakeAmount))
  check ((← staked_ STAKER_1) = (← csub stakeAmount unstakeAmount))
  check ((← balanceOf PROVE STAKER_1) = unstakeAmount)
  pool := (← escrowPool_ ALICE_PROVER)
  check ((pool).iPROVEEscrow = 0)

/-- `testFuzz_Unstake_WithDispenseRewards`, `contracts/test/SuccinctStaking.unstake.t.sol:1441`. -/
def testFuzz_Unstake_WithDispenseRewards (_dispenseAmount : Nat) (_unstakeAmount : Nat) : T Unit := do
  let mut _dispenseAmount := _dispenseAmount
  let mut _unstakeAmount := _unstakeAmount
  let mut stakeAmount : Nat := STAKER_PROVE_AMOUNT
  let mut dispenseAmount : Nat := (bound _dispenseAmount 1000 1000000000000000000000000)
  let _ ← _stake STAKER_1 ALICE_PROVER stakeAmount
  let mut stPROVEBalance : Nat := (← balanceOf STAKING STAKER_1)
  check (stPROVEBalance = stakeAmount)
  let _ ← _dispense dispenseAmount
  let mut stakedAfterDispense : Nat := (← staked_ STAKER_1)
  check (near stakedAfterDispense (stakeAmount + dispenseAmount) 10)
  check ((← balanceOf STAKING STAKER_1) = stPROVEBalance)
  let mut unstakeShares : Nat := (bound _unstakeAmount 1 stPROVEBalance)
  let _ ← _requestUnstake STAKER_1 unstakeShares
  skip UNSTAKE_PERIOD
  let mut receivedAmount : Nat := (← _finishUnstake STAKER_1)
  let mut expectedReceived : Nat := ((unstakeShares * stakedAfterDispense) / stPROVEBalance)
  check (near receivedAmount expectedReceived 10)

/-- `testFuzz_Unstake_MultipleRequests`, `contracts/test/SuccinctStaking.unstake.t.sol:1479`. -/
def testFuzz_Unstake_MultipleRequests (_amounts : List Nat) : T Unit := do
  let mut _amounts := _amounts
  let mut stakeAmount : Nat := STAKER_PROVE_AMOUNT
  let mut totalReceived : Nat := 0
  let mut initialBalance : Nat := (← balanceOf PROVE STAKER_1)
  for i in List.range' 0 ((_amounts).length - 0) do
    _amounts := _amounts.set i (bound (← at_ _amounts i) MIN_STAKE_AMOUNT (stakeAmount / 3))
    let mut currentBalance : Nat := (← balanceOf PROVE STAKER_1)
    deal PROVE STAKER_1 (currentBalance + (← at_ _amounts i))
    let _ ← _stake STAKER_1 ALICE_PROVER (← at_ _amounts i)
    let mut balance : Nat := (← balanceOf STAKING STAKER_1)
    let _ ← _requestUnstake STAKER_1 balance
    skip UNSTAKE_PERIOD
    let mut received : Nat := (← _finishUnstake STAKER_1)
    totalReceived := totalReceived + received
    check (received = (← at_ _amounts i))
    check ((← balanceOf STAKING STAKER_1) = 0)
    check ((← unstakePending_ STAKER_1) = 0)
  let mut totalStaked : Nat := (((← at_ _amounts 0) + (← at_ _amounts 1)) + (← at_ _amounts 2))
  check (totalReceived = totalStaked)
  check ((← balanceOf PROVE STAKER_1) = (initialBalance + totalStaked))

/-- `testFuzz_Unstake_WithSlashDuringUnstakePeriod`, `contracts/test/SuccinctStaking.unstake.t.sol:1519`. -/
def testFuzz_Unstake_WithSlashDuringUnstakePeriod (_slashAmount : Nat) : T Unit := do
  let mut _slashAmount := _slashAmount
  let mut stakeAmount : Nat := STAKER_PROVE_AMOUNT
  let _ ← _stake STAKER_1 ALICE_PROVER stakeAmount
  let _ ← _stake STAKER_2 ALICE_PROVER stakeAmount
  let _ ← _requestUnstake STAKER_1 stakeAmount
  let mut totalStake : Nat := (stakeAmount * 2)
  let mut slashAmount : Nat := (bound _slashAmount 1 totalStake)
  let mut actualSlashAmount : Nat := (tern (decide (slashAmount > totalStake)) totalStake slashAmount)
  let _ ← _requestSlash ALICE_PROVER slashAmount
  let _ ← _finishSlash ALICE_PROVER 0
  skip UNSTAKE_PERIOD
  let mut receivedAmount : Nat := (← _finishUnstake STAKER_1)
  let mut escrowSlashed : Nat := (actualSlashAmount * stakeAmount / totalStake)
  let mut expectedAmount : Nat := (← previewRedeem I_PROVE (← csub stakeAmount escrowSlashed))
  check (near receivedAmount expectedAmount 10)

/-- `testFuzz_Unstake_TimingBeforeAndAfterPeriod`, `contracts/test/SuccinctStaking.unstake.t.sol:1558`. -/
def testFuzz_Unstake_TimingBeforeAndAfterPeriod (_waitTime : Nat) : T Unit := do
  let mut _waitTime := _waitTime
  let mut stakeAmount : Nat := STAKER_PROVE_AMOUNT
  let _ ← _stake STAKER_1 ALICE_PROVER stakeAmount
  let _ ← _requestUnstake STAKER_1 stakeAmount
  let mut waitTime : Nat := (bound _waitTime 1 (UNSTAKE_PERIOD * 2))
  skip waitTime
  let mut receivedAmount : Nat := (← _finishUnstake STAKER_1)
  if (waitTime < UNSTAKE_PERIOD) then
    check (receivedAmount = 0)
    check ((← balanceOf PROVE STAKER_1) = 0)
  else
    check (receivedAmount = stakeAmount)
    check ((← balanceOf PROVE STAKER_1) = stakeAmount)

/-- `testFuzz_Unstake_MultipleRequestsSumToFull`, `contracts/test/SuccinctStaking.unstake.t.sol:1662`. -/
def testFuzz_Unstake_MultipleRequestsSumToFull (_seed : Nat) (_numRequests : Nat) (_stakeAmount : Nat) : T Unit := do
  let mut _seed := _seed
  let mut _numRequests := _numRequests
  let mut _stakeAmount := _stakeAmount
  let mut maxUnstakeRequests : Nat := (← maxUnstakeRequests_)
  let mut numRequests : Nat := (bound _numRequests 1 maxUnstakeRequests)
  let mut stakeAmount : Nat := (bound _stakeAmount (MIN_STAKE_AMOUNT * numRequests) 1000000000000000000000000)
  let _ ← _stake STAKER_1 ALICE_PROVER stakeAmount
  let mut stPROVEOriginalBalance : Nat := (← balanceOf STAKING STAKER_1)
  let mut parts : List Nat := List.replicate numRequests 0
  let mut remainingShares : Nat := stPROVEOriginalBalance
  for i in List.range' 0 ((← csub numRequests 1) - 0) do
    let mut minPart : Nat := MIN_STAKE_AMOUNT
    let mut maxPart : Nat := (← csub remainingShares (minPart * (← csub (← csub numRequests 1) i)))
    let mut sliceRaw : Nat := (mix [_seed, i])
    let mut sliceSize : Nat := (minPart + (sliceRaw % ((← csub maxPart minPart) + 1)))
    parts := parts.set i sliceSize
    remainingShares := (← csub remainingShares sliceSize)
  parts := parts.set (← csub numRequests 1) remainingShares
  let mut shuffleKey : Nat := (mix [_seed, 0])
  for i in List.range' 0 (numRequests - 0) do
    let mut j : Nat := ((shuffleKey / 2 ^ (i * 8)) % numRequests)
    let swap_ := ((← at_ parts j), (← at_ parts i))
    parts := parts.set i swap_.1
    parts := parts.set j swap_.2
  let mut requestedUnstakeSum : Nat := 0
  for i in List.range' 0 (numRequests - 0) do
    requestedUnstakeSum := requestedUnstakeSum + (← at_ parts i)
    let _ ← _requestUnstake STAKER_1 (← at_ parts i)
    check ((← balanceOf STAKING STAKER_1) = (← csub stPROVEOriginalBalance requestedUnstakeSum))
  check ((← balanceOf STAKING STAKER_1) = 0)
  check ((← unstakePending_ STAKER_1) = stakeAmount)
  skip UNSTAKE_PERIOD
  let mut received : Nat := (← _finishUnstake STAKER_1)
  check (received = stakeAmount)

/-- `testFuzz_Unstake_MultipleRequestsSumToFullWithTimeBetween`, `contracts/test/SuccinctStaking.unstake.t.sol:1731`. -/
def testFuzz_Unstake_MultipleRequestsSumToFullWithTimeBetween (_seed : Nat) (_numRequests : Nat) (_stakeAmount : Nat) (_maxTimeBetweenRequests : Nat) : T Unit := do
  let mut _seed := _seed
  let mut _numRequests := _numRequests
  let mut _stakeAmount := _stakeAmount
  let mut _maxTimeBetweenRequests := _maxTimeBetweenRequests
  let mut maxUnstakeRequests : Nat := (← maxUnstakeRequests_)
  let mut numRequests : Nat := (bound _numRequests 1 maxUnstakeRequests)
  let mut stakeAmount : Nat := (bound _stakeAmount (MIN_STAKE_AMOUNT * numRequests) 1000000000000000000000000)
  let mut maxTimeBetweenRequests : Nat := (bound _maxTimeBetweenRequests 1 (2 ^ 32 - 1))
  let _ ← _stake STAKER_1 ALICE_PROVER stakeAmount
  let mut stPROVEOriginalBalance : Nat := (← balanceOf STAKING STAKER_1)
  let mut parts : List Nat := List.replicate numRequests 0
  let mut remainingShares : Nat := stPROVEOriginalBalance
  for i in List.range' 0 ((← csub numRequests 1) - 0) do
    let mut minPart : Nat := MIN_STAKE_AMOUNT
    let mut maxPart : Nat := (← csub remainingShares (minPart * (← csub (← csub numRequests 1) i)))
    let mut sliceRaw : Nat := (mix [_seed, i])
    let mut sliceSize : Nat := (minPart + (sliceRaw % ((← csub maxPart minPart) + 1)))
    parts := parts.set i sliceSize
    remainingShares := (← csub remainingShares sliceSize)
  parts := parts.set (← csub numRequests 1) remainingShares
  let mut shuffleKey : Nat := (mix [_seed, 0])
  for i in List.range' 0 (numRequests - 0) do
    let mut j : Nat := ((shuffleKey / 2 ^ (i * 8)) % numRequests)
    let swap_ := ((← at_ parts j), (← at_ parts i))
    parts := parts.set i swap_.1
    parts := parts.set j swap_.2
  let mut requestedUnstakeSum : Nat := 0
  for i in List.range' 0 (numRequests - 0) do
    requestedUnstakeSum := requestedUnstakeSum + (← at_ parts i)
    let _ ← _requestUnstake STAKER_1 (← at_ parts i)
    check ((← balanceOf STAKING STAKER_1) = (← csub stPROVEOriginalBalance requestedUnstakeSum))
    if (i < (← csub numRequests 1)) then
      let mut timeToSkip : Nat := ((mix [_seed, 0, i]) % maxTimeBetweenRequests)
      skip timeToSkip
  check ((← balanceOf STAKING STAKER_1) = 0)
  check ((← unstakePending_ STAKER_1) = stakeAmount)
  skip UNSTAKE_PERIOD
  let mut received : Nat := (← _finishUnstake STAKER_1)
  check (received = stakeAmount)

example : passes test_Unstake_WhenValid = true := by decide +kernel
example : passes test_Unstake_WhenSomeoneElseFinishesUnstake = true := by decide +kernel
example : passes test_Unstake_WhenTwoStakersOneProverReward = true := by decide +kernel
example : passes test_RevertUnstake_WhenZeroAmount = true := by decide +kernel
example : passes test_Unstake_WhenOneStakerTwoProversRewardNonDelegated = true := by decide +kernel
example : passes test_Unstake_WhenTwoStakersTwoProversDispenseOnly = true := by decide +kernel
example : passes test_Unstake_WhenEarlyAttempt = true := by decide +kernel
example : passes test_Unstake_WhenProverFullSlashBeforeEscrow = true := by decide +kernel
example : passes test_Unstake_WhenProverFullSlashAfterEscrow = true := by decide +kernel
example : passes test_Unstake_WhenProverPartialSlashBeforeEscrow = true := by decide +kernel
example : passes test_Unstake_WhenProverPartialSlashAfterEscrow = true := by decide +kernel
example : passes test_Unstake_WhenMultipleUnstakes = true := by decide +kernel
example : passes test_Unstake_WhenMultipleRewards = true := by decide +kernel
example : passes test_Unstake_WhenManySmallUnstakes = true := by decide +kernel
example : passes test_Unstake_WhenManySmallStakesUnstakes = true := by decide +kernel
example : passes test_Unstake_WhenManySmallStakesUnstakesTimeBetween = true := by decide +kernel
example : passes test_Unstake_WhenMultipleRequestsSumToFull = true := by decide +kernel
example : passes test_RevertUnstake_WhenAmountExceedsBalance = true := by decide +kernel
example : passes test_RevertUnstake_WhenTooManyUnstakeRequests = true := by decide +kernel
example : passes test_RevertUnstake_WhenRequestUnstakeWhileProverHasSlashRequest = true := by decide +kernel
example : passes test_RevertUnstake_WhenFinishUnstakeWhileProverHasSlashRequest = true := by decide +kernel
example : passes test_Unstake_WhenSlashDuringUnstakePeriod = true := by decide +kernel
example : passes test_Unstake_WhenRewardDuringUnstakePeriod = true := by decide +kernel
example : passes test_Unstake_WhenRewardDuringOngoingUnstake = true := by decide +kernel
example : passes test_Unstake_WhenRewardDuringOngoingUnstakeOutOfOrder = true := by decide +kernel
example : passes test_Unstake_WhenRequestAfterSlash = true := by decide +kernel
example : passes test_Unstake_WhenTwoClaimsMixedReady = true := by decide +kernel
example : passes test_Unstake_WhenSomeClaimsReadyOthersNot = true := by decide +kernel
example : passes test_Unstake_WhenMaxRequestsReset = true := by decide +kernel
example : passes (testFuzz_Unstake_PartialAmount 0) = true := by decide +kernel
example : passes (testFuzz_Unstake_PartialAmount 57896044618658097711785492504343953926634992332820282019728792003956564832313) = true := by decide +kernel
example : passes (testFuzz_Unstake_PartialAmount 123456789012345678901234567890) = true := by decide +kernel
example : passes (testFuzz_Unstake_WithDispenseRewards 0 115792089237316195423570985008687907853269984665640564039457584007913129639935) = true := by decide +kernel
example : passes (testFuzz_Unstake_WithDispenseRewards 57896044618658097711785492504343953926634992332820282019728792003956564832313 7) = true := by decide +kernel
example : passes (testFuzz_Unstake_WithDispenseRewards 123456789012345678901234567890 31415926535897932384626433832795028841) = true := by decide +kernel
example : passes (testFuzz_Unstake_MultipleRequests [0, 123456789012345678901234567890, 7]) = true := by decide +kernel
example : passes (testFuzz_Unstake_MultipleRequests [57896044618658097711785492504343953926634992332820282019728792003956564832313, 115792089237316195423570985008687907853269984665640564039457584007913129639935, 31415926535897932384626433832795028841]) = true := by decide +kernel
example : passes (testFuzz_Unstake_MultipleRequests [123456789012345678901234567890, 7, 0]) = true := by decide +kernel
example : passes (testFuzz_Unstake_WithSlashDuringUnstakePeriod 0) = true := by decide +kernel
example : passes (testFuzz_Unstake_WithSlashDuringUnstakePeriod 57896044618658097711785492504343953926634992332820282019728792003956564832313) = true := by decide +kernel
example : passes (testFuzz_Unstake_WithSlashDuringUnstakePeriod 123456789012345678901234567890) = true := by decide +kernel
example : passes (testFuzz_Unstake_TimingBeforeAndAfterPeriod 0) = true := by decide +kernel
example : passes (testFuzz_Unstake_TimingBeforeAndAfterPeriod 57896044618658097711785492504343953926634992332820282019728792003956564832313) = true := by decide +kernel
example : passes (testFuzz_Unstake_TimingBeforeAndAfterPeriod 123456789012345678901234567890) = true := by decide +kernel
example : passes (testFuzz_Unstake_MultipleRequestsSumToFull 0 255 0) = true := by decide +kernel
example : passes (testFuzz_Unstake_MultipleRequestsSumToFull 57896044618658097711785492504343953926634992332820282019728792003956564832313 7 57896044618658097711785492504343953926634992332820282019728792003956564832313) = true := by decide +kernel
example : passes (testFuzz_Unstake_MultipleRequestsSumToFull 123456789012345678901234567890 105 123456789012345678901234567890) = true := by decide +kernel
example : passes (testFuzz_Unstake_MultipleRequestsSumToFullWithTimeBetween 0 255 0 115792089237316195423570985008687907853269984665640564039457584007913129639935) = true := by decide +kernel
example : passes (testFuzz_Unstake_MultipleRequestsSumToFullWithTimeBetween 57896044618658097711785492504343953926634992332820282019728792003956564832313 7 57896044618658097711785492504343953926634992332820282019728792003956564832313 7) = true := by decide +kernel
example : passes (testFuzz_Unstake_MultipleRequestsSumToFullWithTimeBetween 123456789012345678901234567890 105 123456789012345678901234567890 31415926535897932384626433832795028841) = true := by decide +kernel

end Verif.ConformL1.ConformSolUnstake
