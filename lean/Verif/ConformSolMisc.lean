import Verif.ConformL1
/-
# The tests of `contracts/test/SuccinctStaking.misc.t.sol` on the contract model

Transcribed statement by statement; see `Verif/ConformL1.lean` for what stands for what. These are tests, not proofs.
Not transcribed: `test_Misc_MaxUint256Operations`.
-/

namespace Verif.ConformL1.ConformSolMisc
open Verif

set_option linter.unusedVariables false

/-- `OperationState` of `contracts/test/SuccinctStaking.misc.t.sol`. -/
structure OperationState where
  opType : Nat
  actorIndex : Nat
  actor : Address
  proveBalance : Nat
  stPROVEBalance : Nat
  amount : Nat

/-- `_checkConservation`, `contracts/test/SuccinctStaking.misc.t.sol:28`. -/
def _checkConservation (_initialStaker1 : Nat) (_initialStaker2 : Nat) (_initialStaking : Nat) : T Unit := do
  let mut _initialStaker1 := _initialStaker1
  let mut _initialStaker2 := _initialStaker2
  let mut _initialStaking := _initialStaking
  let mut currentStaker1 : Nat := (← balanceOf PROVE STAKER_1)
  let mut currentStaker2 : Nat := (← balanceOf PROVE STAKER_2)
  let mut currentStaking : Nat := (← balanceOf PROVE STAKING)
  let mut currentIPROVE : Nat := (← balanceOf PROVE I_PROVE)
  let mut currentFeeVault : Nat := (← balanceOf PROVE TREASURY)
  let mut currentAlice : Nat := (← balanceOf PROVE ALICE)
  let mut currentBob : Nat := (← balanceOf PROVE BOB)
  let mut initialTotal : Nat := ((_initialStaker1 + _initialStaker2) + _initialStaking)
  let mut currentTotal : Nat := ((((((currentStaker1 + currentStaker2) + currentStaking) + currentIPROVE) + currentFeeVault) + currentAlice) + currentBob)
  check (currentTotal ≤ initialTotal)

/-- `_performStakeOperation`, `contracts/test/SuccinctStaking.misc.t.sol:59`. -/
def _performStakeOperation (_actor : Address) (_seed : Nat) (_iteration : Nat) : T Unit := do
  let mut _actor := _actor
  let mut _seed := _seed
  let mut _iteration := _iteration
  let mut proveBalance : Nat := (← balanceOf PROVE _actor)
  if (proveBalance ≥ (MIN_STAKE_AMOUNT * 2)) then
    let mut maxStake : Nat := (proveBalance / 4)
    if (maxStake > MIN_STAKE_AMOUNT) then
      let mut stakeAmount : Nat := (MIN_STAKE_AMOUNT + ((_seed / 2 ^ (_iteration * 8)) % (← csub maxStake MIN_STAKE_AMOUNT)))
      let _ ← approve _actor PROVE STAKING stakeAmount
      let mut currentProver : Address := (← stakedTo_ _actor)
      if ((currentProver = (0 : Address)) ∨ (currentProver = ALICE_PROVER)) then
        let mut iPROVEAmount : Nat := (← previewDeposit I_PROVE stakeAmount)
        if (iPROVEAmount > 0) then
          let mut stPROVEAmount : Nat := (← previewDeposit ALICE_PROVER iPROVEAmount)
          if (stPROVEAmount > 0) then
            let _ ← stake_ _actor ALICE_PROVER stakeAmount

/-- `_performUnstakeOperation`, `contracts/test/SuccinctStaking.misc.t.sol:88`. -/
def _performUnstakeOperation (_actor : Address) (_seed : Nat) (_iteration : Nat) : T Unit := do
  let mut _actor := _actor
  let mut _seed := _seed
  let mut _iteration := _iteration
  let mut stPROVEBalance : Nat := (← balanceOf STAKING _actor)
  if ((stPROVEBalance > 1) ∧ ((← stakedTo_ _actor) ≠ (0 : Address))) then
    let mut maxUnstake : Nat := (stPROVEBalance / 2)
    if (maxUnstake > 0) then
      let mut unstakeAmount : Nat := (1 + ((_seed / 2 ^ (_iteration * 8)) % maxUnstake))
      let _ ← requestUnstake_ _actor unstakeAmount

/-- `_performFinishUnstakeOperation`, `contracts/test/SuccinctStaking.misc.t.sol:102`. -/
def _performFinishUnstakeOperation (_actor : Address) : T Unit := do
  let mut _actor := _actor
  if (((← unstakeRequests_ _actor)).length > 0) then
    let _ ← finishUnstake_ _actor _actor

/-- `_performDispenseOperation`, `contracts/test/SuccinctStaking.misc.t.sol:111`. -/
def _performDispenseOperation (_seed : Nat) (_iteration : Nat) : T Nat := do
  let mut _seed := _seed
  let mut _iteration := _iteration
  let mut burned : Nat := 0
  let mut stakingBalance : Nat := (← balanceOf PROVE STAKING)
  if (stakingBalance > (MIN_STAKE_AMOUNT * 10)) then
    let mut maxFromBalance : Nat := (stakingBalance / 20)
    if (maxFromBalance > MIN_STAKE_AMOUNT) then
      let mut dispenseAmount : Nat := (MIN_STAKE_AMOUNT + ((_seed / 2 ^ (_iteration * 8)) % (← csub maxFromBalance MIN_STAKE_AMOUNT)))
      let mut maxDispense : Nat := (← maxDispense_)
      if (dispenseAmount > maxDispense) then
        dispenseAmount := maxDispense
      if (dispenseAmount > 0) then
        let _ ← dispense_ DISPENSER dispenseAmount
  return 0

/-- `_performSlashOperation`, `contracts/test/SuccinctStaking.misc.t.sol:138`. -/
def _performSlashOperation (_seed : Nat) (_iteration : Nat) : T Nat := do
  let mut _seed := _seed
  let mut _iteration := _iteration
  let mut burned : Nat := 0
  let mut totalStaked : Nat := (← proverStaked_ ALICE_PROVER)
  if (totalStaked > (MIN_STAKE_AMOUNT * 5)) then
    let mut maxSlash : Nat := (totalStaked / 10)
    if (maxSlash > MIN_STAKE_AMOUNT) then
      let mut slashAmount : Nat := (MIN_STAKE_AMOUNT + ((_seed / 2 ^ (_iteration * 8)) % (← csub maxSlash MIN_STAKE_AMOUNT)))
      let mut supplyBefore : Nat := (← totalSupply PROVE)
      let mut slashIndex : Nat := (← processSlash ALICE_PROVER slashAmount)
      let _ ← finishSlash_ OWNER ALICE_PROVER slashIndex
      let mut supplyAfter : Nat := (← totalSupply PROVE)
      burned := (tern (decide (supplyBefore > supplyAfter)) (supplyBefore - supplyAfter) 0)
  return burned

/-- `test_Misc_ExactMinimumStake`, `contracts/test/SuccinctStaking.misc.t.sol:166`. -/
def test_Misc_ExactMinimumStake : T Unit := do
  let mut minStake : Nat := (← minStakeAmount_)
  deal PROVE STAKER_1 minStake
  let _ ← _stake STAKER_1 ALICE_PROVER minStake
  check ((← balanceOf STAKING STAKER_1) = minStake)
  let _ ← _completeUnstake STAKER_1 minStake

/-- `test_Misc_BelowMinimumStake`, `contracts/test/SuccinctStaking.misc.t.sol:180`. -/
def test_Misc_BelowMinimumStake : T Unit := do
  let mut minStake : Nat := (← minStakeAmount_)
  let mut belowMin : Nat := (← csub minStake 1)
  deal PROVE STAKER_1 belowMin
  let _ ← approve STAKER_1 PROVE STAKING belowMin
  expectRevert (some .stakeBelowMinimum) do
      let _ ← stake_ STAKER_1 ALICE_PROVER belowMin

/-- `test_Misc_UnstakeMoreThanBalance`, `contracts/test/SuccinctStaking.misc.t.sol:197`. -/
def test_Misc_UnstakeMoreThanBalance : T Unit := do
  let mut stakeAmount : Nat := STAKER_PROVE_AMOUNT
  let _ ← _stake STAKER_1 ALICE_PROVER stakeAmount
  expectRevert (some .insufficientStakeBalance) do
      let _ ← requestUnstake_ STAKER_1 (stakeAmount + 1)

/-- `test_Misc_MultiplePartialUnstakesExceedBalance`, `contracts/test/SuccinctStaking.misc.t.sol:209`. -/
def test_Misc_MultiplePartialUnstakesExceedBalance : T Unit := do
  let mut stakeAmount : Nat := STAKER_PROVE_AMOUNT
  let _ ← _stake STAKER_1 ALICE_PROVER stakeAmount
  let _ ← _requestUnstake STAKER_1 ((stakeAmount * 60) / 100)
  expectRevert (some .insufficientStakeBalance) do
      let _ ← requestUnstake_ STAKER_1 ((stakeAmount * 60) / 100)

/-- `test_Misc_ExactTimingBoundaries`, `contracts/test/SuccinctStaking.misc.t.sol:224`. -/
def test_Misc_ExactTimingBoundaries : T Unit := do
  let mut stakeAmount : Nat := STAKER_PROVE_AMOUNT
  let _ ← _stake STAKER_1 ALICE_PROVER stakeAmount
  let _ ← _requestUnstake STAKER_1 stakeAmount
  skip (← csub UNSTAKE_PERIOD 1)
  let mut received : Nat := (← _finishUnstake STAKER_1)
  check (received = 0)
  skip 1
  received := (← _finishUnstake STAKER_1)
  check (received > 0)

/-- `test_Misc_SlashExactTimingBoundary`, `contracts/test/SuccinctStaking.misc.t.sol:242`. -/
def test_Misc_SlashExactTimingBoundary : T Unit := do
  let mut stakeAmount : Nat := STAKER_PROVE_AMOUNT
  let _ ← _stake STAKER_1 ALICE_PROVER stakeAmount
  let mut slashIndex : Nat := (← _requestSlash ALICE_PROVER (stakeAmount / 2))
  let _ ← _finishSlash ALICE_PROVER slashIndex
  check ((← staked_ STAKER_1) < stakeAmount)

/-- `test_Misc_DispenseZeroTime`, `contracts/test/SuccinctStaking.misc.t.sol:257`. -/
def test_Misc_DispenseZeroTime : T Unit := do
  skip 86400
  let mut initialAvailable : Nat := (← maxDispense_)
  deal PROVE STAKING initialAvailable
  let _ ← dispense_ DISPENSER initialAvailable
  let mut available : Nat := (← maxDispense_)
  check (available = 0)
  expectRevert (some .amountExceedsAvailableDispense) do
      let _ ← dispense_ DISPENSER 1

/-- `test_Misc_DispenseOneWei`, `contracts/test/SuccinctStaking.misc.t.sol:276`. -/
def test_Misc_DispenseOneWei : T Unit := do
  let mut timeFor1Wei : Nat := ((1 / DISPENSE_RATE) + 1)
  skip timeFor1Wei
  let mut available : Nat := (← maxDispense_)
  check (available ≥ 1)
  deal PROVE STAKING 1
  let _ ← dispense_ DISPENSER 1

/-- `test_Misc_CannotSwitchProvers`, `contracts/test/SuccinctStaking.misc.t.sol:291`. -/
def test_Misc_CannotSwitchProvers : T Unit := do
  let mut stakeAmount : Nat := (STAKER_PROVE_AMOUNT / 2)
  let _ ← _stake STAKER_1 ALICE_PROVER stakeAmount
  deal PROVE STAKER_1 stakeAmount
  let _ ← approve STAKER_1 PROVE STAKING stakeAmount
  expectRevert (some .alreadyStakedWithDifferentProver) do
      let _ ← stake_ STAKER_1 BOB_PROVER stakeAmount

/-- `test_Misc_RestakeAfterFullUnstake`, `contracts/test/SuccinctStaking.misc.t.sol:315`. -/
def test_Misc_RestakeAfterFullUnstake : T Unit := do
  let mut stakeAmount : Nat := (STAKER_PROVE_AMOUNT / 2)
  let _ ← _stake STAKER_1 ALICE_PROVER stakeAmount
  let _ ← _completeUnstake STAKER_1 stakeAmount
  deal PROVE STAKER_1 stakeAmount
  let _ ← _stake STAKER_1 BOB_PROVER stakeAmount
  check ((← stakedTo_ STAKER_1) = BOB_PROVER)

/-- `test_Misc_RewardAndSlashSameBlock`, `contracts/test/SuccinctStaking.misc.t.sol:330`. -/
def test_Misc_RewardAndSlashSameBlock : T Unit := do
  let mut stakeAmount : Nat := STAKER_PROVE_AMOUNT
  let mut rewardAmount : Nat := (stakeAmount / 2)
  let mut slashAmount : Nat := (stakeAmount / 4)
  let _ ← _stake STAKER_1 ALICE_PROVER stakeAmount
  let _ ← processFulfillment ALICE_PROVER rewardAmount
  let mut slashIndex : Nat := (← _requestSlash ALICE_PROVER slashAmount)
  let _ ← _finishSlash ALICE_PROVER slashIndex
  let mut finalStaked : Nat := (← staked_ STAKER_1)
  check (finalStaked > 0)
  check (finalStaked < (stakeAmount + rewardAmount))

/-- `test_Misc_PermitExpiredDeadline`, `contracts/test/SuccinctStaking.misc.t.sol:353`. -/
def test_Misc_PermitExpiredDeadline : T Unit := do
  let mut stakeAmount : Nat := STAKER_PROVE_AMOUNT
  let mut deadline : Nat := (← csub (← now) 1)
  let (v, r, s) := (← signPermit STAKER_1_PK STAKER_1 ALICE_PROVER stakeAmount deadline)
  expectRevert (some .invalidPermit) do
      let _ ← permitAndStake_ ALICE_PROVER STAKER_1 stakeAmount deadline v

/-- `test_Misc_VaultReturnsZero`, `contracts/test/SuccinctStaking.misc.t.sol:369`. -/
def test_Misc_VaultReturnsZero : T Unit := do
  let mut dustAmount : Nat := 1
  let _ ← _stake STAKER_1 ALICE_PROVER STAKER_PROVE_AMOUNT
  deal PROVE STAKER_2 dustAmount
  let _ ← approve STAKER_2 PROVE STAKING dustAmount
  expectRevert (some .stakeBelowMinimum) do
      let _ ← stake_ STAKER_2 ALICE_PROVER dustAmount

/-- `test_Misc_SlashInvalidIndex`, `contracts/test/SuccinctStaking.misc.t.sol:391`. -/
def test_Misc_SlashInvalidIndex : T Unit := do
  let mut stakeAmount : Nat := STAKER_PROVE_AMOUNT
  let _ ← _stake STAKER_1 ALICE_PROVER stakeAmount
  let _ ← _requestSlash ALICE_PROVER (stakeAmount / 2)
  expectRevert (some .indexOutOfBounds) do
      let _ ← finishSlash_ OWNER ALICE_PROVER 999

/-- `test_Misc_FinishUnstakeNoClaims`, `contracts/test/SuccinctStaking.misc.t.sol:406`. -/
def test_Misc_FinishUnstakeNoClaims : T Unit := do
  let mut stakeAmount : Nat := STAKER_PROVE_AMOUNT
  let _ ← _stake STAKER_1 ALICE_PROVER stakeAmount
  expectRevert (some .noUnstakeRequests) do
      let _ ← finishUnstake_ STAKER_1 STAKER_1

/-- `test_Misc_NonOwnerCannotSlash`, `contracts/test/SuccinctStaking.misc.t.sol:418`. -/
def test_Misc_NonOwnerCannotSlash : T Unit := do
  let mut stakeAmount : Nat := STAKER_PROVE_AMOUNT
  let _ ← _stake STAKER_1 ALICE_PROVER stakeAmount
  let mut slashIndex : Nat := (← _requestSlash ALICE_PROVER (stakeAmount / 2))
  expectRevert (some .ownableUnauthorized) do
      let _ ← finishSlash_ STAKER_1 ALICE_PROVER slashIndex

/-- `test_Misc_MultipleUnstakeRequestsCannotDrainFunds`, `contracts/test/SuccinctStaking.misc.t.sol:458`. -/
def test_Misc_MultipleUnstakeRequestsCannotDrainFunds : T Unit := do
  let mut stakeAmount : Nat := STAKER_PROVE_AMOUNT
  let _ ← _stake STAKER_1 ALICE_PROVER stakeAmount
  let mut stPROVEBalance : Nat := (← balanceOf STAKING STAKER_1)
  check (stPROVEBalance = stakeAmount)
  let _ ← _requestUnstake STAKER_1 stakeAmount
  check ((← balanceOf STAKING STAKER_1) = 0)
  expectRevert (some .insufficientStakeBalance) do
      let _ ← requestUnstake_ STAKER_1 1
  let mut pool : EscrowPool := (← escrowPool_ ALICE_PROVER)
  check ((pool).iPROVEEscrow = stakeAmount)
  skip UNSTAKE_PERIOD
  let mut balanceBefore : Nat := (← balanceOf PROVE STAKER_1)
  let _ ← _finishUnstake STAKER_1
  let mut balanceAfter : Nat := (← balanceOf PROVE STAKER_1)
  check ((← csub balanceAfter balanceBefore) = stakeAmount)
  pool := (← escrowPool_ ALICE_PROVER)
  check ((pool).iPROVEEscrow = 0)
  check ((← balanceOf PROVE STAKER_1) = stakeAmount)

/-- `test_Misc_RoundingErrorsDoNotAccumulate`, `contracts/test/SuccinctStaking.misc.t.sol:512`. -/
def test_Misc_RoundingErrorsDoNotAccumulate : T Unit := do
  let mut stakeAmount : Nat := 1000000000000000001
  let mut initialBalance : Nat := (stakeAmount * 20)
  deal PROVE STAKER_1 initialBalance
  let mut balanceBefore : Nat := (← balanceOf PROVE STAKER_1)
  for i in List.range' 0 (10 - 0) do
    let _ ← _stake STAKER_1 ALICE_PROVER stakeAmount
    let _ ← _completeUnstake STAKER_1 stakeAmount
  let mut balanceAfter : Nat := (← balanceOf PROVE STAKER_1)
  let mut loss : Nat := (tern (decide (balanceBefore > balanceAfter)) (balanceBefore - balanceAfter) 0)
  let mut totalVolume : Nat := (stakeAmount * 10)
  check (loss < (totalVolume / 10000))

/-- `test_Misc_DustAmountsCanBeUnstaked`, `contracts/test/SuccinctStaking.misc.t.sol:538`. -/
def test_Misc_DustAmountsCanBeUnstaked : T Unit := do
  let mut minStake : Nat := (← minStakeAmount_)
  deal PROVE STAKER_1 (minStake * 2)
  let _ ← _stake STAKER_1 ALICE_PROVER minStake
  let _ ← _requestUnstake STAKER_1 1
  skip UNSTAKE_PERIOD
  let mut received : Nat := (← _finishUnstake STAKER_1)
  check (received ≥ 0)
  let mut remaining : Nat := (← balanceOf STAKING STAKER_1)
  if (remaining > 0) then
    let _ ← _completeUnstake STAKER_1 remaining

/-- `test_Misc_FrontrunningRewardDistribution`, `contracts/test/SuccinctStaking.misc.t.sol:564`. -/
def test_Misc_FrontrunningRewardDistribution : T Unit := do
  let mut initialStake : Nat := STAKER_PROVE_AMOUNT
  let mut rewardAmount : Nat := STAKER_PROVE_AMOUNT
  let _ ← _stake STAKER_1 ALICE_PROVER initialStake
  deal PROVE STAKER_2 initialStake
  let _ ← _stake STAKER_2 ALICE_PROVER initialStake
  let _ ← processFulfillment ALICE_PROVER rewardAmount
  let mut staker1Share : Nat := (← staked_ STAKER_1)
  let mut staker2Share : Nat := (← staked_ STAKER_2)
  check (near staker1Share staker2Share 100)

/-- `test_Misc_CannotAvoidSlashingByUnstaking`, `contracts/test/SuccinctStaking.misc.t.sol:588`. -/
def test_Misc_CannotAvoidSlashingByUnstaking : T Unit := do
  let mut stakeAmount : Nat := STAKER_PROVE_AMOUNT
  let _ ← _stake STAKER_1 ALICE_PROVER stakeAmount
  let _ ← _stake STAKER_2 ALICE_PROVER stakeAmount
  let _ ← _requestUnstake STAKER_1 stakeAmount
  let mut totalStake : Nat := (stakeAmount * 2)
  let mut slashAmount : Nat := (totalStake / 2)
  let _ ← _requestSlash ALICE_PROVER slashAmount
  skip UNSTAKE_PERIOD
  expectRevert (some .proverHasSlashRequest) do
      let _ ← finishUnstake_ STAKER_1 STAKER_1
  let _ ← _finishSlash ALICE_PROVER 0
  let mut received : Nat := (← _finishUnstake STAKER_1)
  check (received < stakeAmount)
  check (near received (stakeAmount / 2) 2)

/-- `test_Misc_ExchangeRateManipulation`, `contracts/test/SuccinctStaking.misc.t.sol:626`. -/
def test_Misc_ExchangeRateManipulation : T Unit := do
  let mut stakeAmount : Nat := STAKER_PROVE_AMOUNT
  let _ ← _stake STAKER_1 ALICE_PROVER stakeAmount
  deal PROVE TEST stakeAmount
  let mut success : Bool := (← transfer TEST PROVE I_PROVE stakeAmount)
  check (success = true)
  deal PROVE STAKER_2 stakeAmount
  let _ ← _stake STAKER_2 ALICE_PROVER stakeAmount
  let mut staked1 : Nat := (← staked_ STAKER_1)
  let mut staked2 : Nat := (← staked_ STAKER_2)
  check (staked1 ≥ (stakeAmount / 2))
  check (staked2 ≤ (stakeAmount * 2))

/-- `test_Misc_MaximumStakeValues`, `contracts/test/SuccinctStaking.misc.t.sol:651`. -/
def test_Misc_MaximumStakeValues : T Unit := do
  let mut largeAmount : Nat := (1000000000 * 1000000000000000000)
  deal PROVE STAKER_1 largeAmount
  let _ ← _stake STAKER_1 ALICE_PROVER largeAmount
  let _ ← _completeUnstake STAKER_1 largeAmount
  check ((← balanceOf PROVE STAKER_1) ≥ ((largeAmount * 99) / 100))

/-- `test_Misc_UnstakeQueueDoS`, `contracts/test/SuccinctStaking.misc.t.sol:669`. -/
def test_Misc_UnstakeQueueDoS : T Unit := do
  let mut stakeAmount : Nat := STAKER_PROVE_AMOUNT
  let mut numStakers : Nat := 10
  let mut stakePerStaker : Nat := (stakeAmount / numStakers)
  for i in List.range' 0 (numStakers - 0) do
    let mut staker : Address := (namedN 6 i)
    deal PROVE staker stakePerStaker
    let _ ← approve staker PROVE STAKING stakePerStaker
    let _ ← stake_ staker ALICE_PROVER stakePerStaker
    let _ ← requestUnstake_ staker stakePerStaker
  let mut pool : EscrowPool := (← escrowPool_ ALICE_PROVER)
  check ((pool).iPROVEEscrow = stakeAmount)
  skip UNSTAKE_PERIOD
  let mut totalGasUsed : Nat := 0
  for i in List.range' 0 (numStakers - 0) do
    let mut staker : Address := (namedN 6 i)
    let mut gasStart : Nat := 0
    let _ ← finishUnstake_ staker staker
    let mut gasUsed : Nat := (← csub gasStart 0)
    totalGasUsed := totalGasUsed + gasUsed
  let mut avgGasPerUnstake : Nat := (totalGasUsed / numStakers)
  check (avgGasPerUnstake < 200000)
  pool := (← escrowPool_ ALICE_PROVER)
  check ((pool).iPROVEEscrow = 0)

/-- `test_Misc_ZeroProverAddress`, `contracts/test/SuccinctStaking.misc.t.sol:726`. -/
def test_Misc_ZeroProverAddress : T Unit := do
  expectRevert (some .proverNotFound) do
      let _ ← stake_ STAKER_1 (0 : Address) STAKER_PROVE_AMOUNT
  check ((← staked_ STAKER_1) = 0)
  check ((← stakedTo_ STAKER_1) = (0 : Address))

/-- `test_Misc_ConcurrentOperations`, `contracts/test/SuccinctStaking.misc.t.sol:738`. -/
def test_Misc_ConcurrentOperations : T Unit := do
  let mut stakeAmount : Nat := (STAKER_PROVE_AMOUNT / 4)
  deal PROVE STAKER_1 stakeAmount
  deal PROVE STAKER_2 stakeAmount
  let _ ← _stake STAKER_1 ALICE_PROVER stakeAmount
  let _ ← _stake STAKER_2 ALICE_PROVER stakeAmount
  let _ ← _requestUnstake STAKER_1 (stakeAmount / 2)
  let _ ← processFulfillment ALICE_PROVER stakeAmount
  let _ ← _withdrawFullBalanceFromVApp ALICE_PROVER
  let _ ← _requestUnstake STAKER_2 (stakeAmount / 2)
  let _ ← _requestSlash ALICE_PROVER (stakeAmount / 4)
  skip UNSTAKE_PERIOD
  expectRevert (some .proverHasSlashRequest) do
      let _ ← finishUnstake_ STAKER_1 STAKER_1
  let _ ← _finishSlash ALICE_PROVER 0
  let mut received1 : Nat := (← _finishUnstake STAKER_1)
  let mut received2 : Nat := (← _finishUnstake STAKER_2)
  check (received1 > 0)
  check (received2 > 0)

/-- `test_Misc_DispenseOverflow`, `contracts/test/SuccinctStaking.misc.t.sol:779`. -/
def test_Misc_DispenseOverflow : T Unit := do
  let mut hugeAmount : Nat := ((2 ^ 256 - 1) / 2)
  deal PROVE STAKING hugeAmount
  skip 1
  let mut maxDispense : Nat := (← maxDispense_)
  check (maxDispense < hugeAmount)
  let _ ← dispense_ DISPENSER maxDispense

/-- `testFuzz_Misc_InvariantPROVEConservation`, `contracts/test/SuccinctStaking.misc.t.sol:799`. -/
def testFuzz_Misc_InvariantPROVEConservation (_seed : Nat) : T Unit := do
  let mut _seed := _seed
  if ¬ (_seed > 0) then return ()
  _seed := (bound _seed 1 (2 ^ 16 - 1))
  let mut totalPROVEBurned : Nat := 0
  let mut actorAmount : Nat := (STAKER_PROVE_AMOUNT / 50)
  let mut actors : List Address := [STAKER_1, STAKER_2, (named 7)]
  for i in List.range' 0 ((actors).length - 0) do
    deal PROVE (← at_ actors i) actorAmount
  let mut postDealSupply : Nat := (← totalSupply PROVE)
  if (postDealSupply = 0) then
    let mut totalBalance : Nat := 0
    for i in List.range' 0 ((actors).length - 0) do
      totalBalance := totalBalance + (← balanceOf PROVE (← at_ actors i))
    totalBalance := totalBalance + (← balanceOf PROVE STAKING)
    totalBalance := totalBalance + (← balanceOf PROVE I_PROVE)
    postDealSupply := totalBalance
  let mut numOps : Nat := (4 + (_seed % 4))
  for i in List.range' 0 (numOps - 0) do
    let mut state : OperationState := ({ opType := ((_seed / 2 ^ (i * 4)) % 6), actorIndex := ((_seed / 2 ^ ((i * 4) + 2)) % 3), actor := (← at_ actors ((_seed / 2 ^ ((i * 4) + 2)) % 3)), proveBalance := 0, stPROVEBalance := 0, amount := 0 } : OperationState)
    let mut supplyBefore : Nat := (← totalSupply PROVE)
    if ((state).opType = 0) then
      let _ ← _performStakeOperation (state).actor _seed i
    else
      if ((state).opType = 1) then
        let _ ← _performUnstakeOperation (state).actor _seed i
      else
        if ((state).opType = 2) then
          let _ ← _performFinishUnstakeOperation (state).actor
        else
          if ((state).opType = 3) then
            let mut burned : Nat := (← _performDispenseOperation _seed i)
            totalPROVEBurned := totalPROVEBurned + burned
          else
            if ((state).opType = 4) then
              let mut burned : Nat := (← _performSlashOperation _seed i)
              totalPROVEBurned := totalPROVEBurned + burned
            else
              skip ((_seed / 2 ^ (i * 8)) % (UNSTAKE_PERIOD / 4))
    let mut supplyAfter : Nat := (← totalSupply PROVE)
    check (supplyAfter ≤ supplyBefore)
  let mut finalSupply : Nat := (← totalSupply PROVE)
  if (finalSupply = 0) then
    let mut totalBalance : Nat := 0
    for i in List.range' 0 ((actors).length - 0) do
      totalBalance := totalBalance + (← balanceOf PROVE (← at_ actors i))
    totalBalance := totalBalance + (← balanceOf PROVE STAKING)
    totalBalance := totalBalance + (← balanceOf PROVE I_PROVE)
    totalBalance := totalBalance + (← balanceOf PROVE TREASURY)
    finalSupply := totalBalance
  check (finalSupply ≤ postDealSupply)
  check (totalPROVEBurned ≤ postDealSupply)
  let mut actualBurned : Nat := (tern (decide (postDealSupply > finalSupply)) (postDealSupply - finalSupply) 0)
  check (near actualBurned totalPROVEBurned (numOps * 2))

/-- `testFuzz_Misc_ExtremeValueConservation`, `contracts/test/SuccinctStaking.misc.t.sol:912`. -/
def testFuzz_Misc_ExtremeValueConservation (_stakeAmount : Nat) (_seed : Nat) : T Unit := do
  let mut _stakeAmount := _stakeAmount
  let mut _seed := _seed
  if ¬ (_stakeAmount > (MIN_STAKE_AMOUNT * 2)) then return ()
  if ¬ (_seed > 0) then return ()
  let mut safeMax : Nat := 1000000000000000000000000000000
  let mut stakeAmount : Nat := (bound _stakeAmount (MIN_STAKE_AMOUNT * 2) safeMax)
  let mut initialStaking : Nat := (← balanceOf PROVE STAKING)
  deal PROVE STAKER_1 stakeAmount
  let mut staker2DealAmount : Nat := (stakeAmount / 2)
  if (staker2DealAmount < MIN_STAKE_AMOUNT) then
    staker2DealAmount := MIN_STAKE_AMOUNT
  deal PROVE STAKER_2 staker2DealAmount
  let mut iPROVEBurnedTotal : Nat := 0
  let _ ← _stake STAKER_1 ALICE_PROVER stakeAmount
  let mut staker2Amount : Nat := staker2DealAmount
  let _ ← _stake STAKER_2 ALICE_PROVER staker2Amount
  let mut unstakeAmount : Nat := (stakeAmount / 4)
  if (unstakeAmount ≥ MIN_STAKE_AMOUNT) then
    let _ ← _requestUnstake STAKER_1 unstakeAmount
  let mut pool : EscrowPool := (← escrowPool_ ALICE_PROVER)
  let mut totalAvailable : Nat := ((← balanceOf I_PROVE ALICE_PROVER) + (pool).iPROVEEscrow)
  if (totalAvailable > (MIN_STAKE_AMOUNT * 10)) then
    let mut slashAmount : Nat := (totalAvailable / 10)
    iPROVEBurnedTotal := (← _completeSlash ALICE_PROVER slashAmount)
  let mut finalPool : EscrowPool := (← escrowPool_ ALICE_PROVER)
  let mut finalFactor : Nat := (finalPool).slashFactor
  check (finalFactor ≤ 1000000000000000000000000000)
  let _ ← _checkConservation stakeAmount staker2DealAmount initialStaking
  if ((← balanceOf STAKING STAKER_1) > 0) then
    check ((← unstakePending_ STAKER_1) ≥ 0)
    check ((← staked_ STAKER_1) ≥ 0)
  skip UNSTAKE_PERIOD
  if (((← unstakeRequests_ STAKER_1)).length > 0) then
    let mut preview : Nat := (← previewUnstake_ ALICE_PROVER (← balanceOf STAKING STAKER_1))
    check (preview ≥ 0)
    let mut vaultIPROVE : Nat := (← balanceOf I_PROVE ALICE_PROVER)
    let mut escrowIPROVE : Nat := (finalPool).iPROVEEscrow
    let mut totalIPROVE : Nat := (vaultIPROVE + escrowIPROVE)
    let mut expectedMax : Nat := (← previewRedeem I_PROVE totalIPROVE)
    check (preview ≤ expectedMax)

example : passes test_Misc_ExactMinimumStake = true := by decide +kernel
example : passes test_Misc_BelowMinimumStake = true := by decide +kernel
example : passes test_Misc_UnstakeMoreThanBalance = true := by decide +kernel
example : passes test_Misc_MultiplePartialUnstakesExceedBalance = true := by decide +kernel
example : passes test_Misc_ExactTimingBoundaries = true := by decide +kernel
example : passes test_Misc_SlashExactTimingBoundary = true := by decide +kernel
example : passes test_Misc_DispenseZeroTime = true := by decide +kernel
example : passes test_Misc_DispenseOneWei = true := by decide +kernel
example : passes test_Misc_CannotSwitchProvers = true := by decide +kernel
example : passes test_Misc_RestakeAfterFullUnstake = true := by decide +kernel
example : passes test_Misc_RewardAndSlashSameBlock = true := by decide +kernel
example : passes test_Misc_PermitExpiredDeadline = true := by decide +kernel
example : passes test_Misc_VaultReturnsZero = true := by decide +kernel
example : passes test_Misc_SlashInvalidIndex = true := by decide +kernel
example : passes test_Misc_FinishUnstakeNoClaims = true := by decide +kernel
example : passes test_Misc_NonOwnerCannotSlash = true := by decide +kernel
example : passes test_Misc_MultipleUnstakeRequestsCannotDrainFunds = true := by decide +kernel
example : passes test_Misc_RoundingErrorsDoNotAccumulate = true := by decide +kernel
example : passes test_Misc_DustAmountsCanBeUnstaked = true := by decide +kernel
example : passes test_Misc_FrontrunningRewardDistribution = true := by decide +kernel
example : passes test_Misc_CannotAvoidSlashingByUnstaking = true := by decide +kernel
example : passes test_Misc_ExchangeRateManipulation = true := by decide +kernel
example : passes test_Misc_MaximumStakeValues = true := by decide +kernel
example : passes test_Misc_UnstakeQueueDoS = true := by decide +kernel
example : passes test_Misc_ZeroProverAddress = true := by decide +kernel
example : passes test_Misc_ConcurrentOperations = true := by decide +kernel
example : passes test_Misc_DispenseOverflow = true := by decide +kernel
example : passes (testFuzz_Misc_InvariantPROVEConservation 0) = true := by decide +kernel
example : passes (testFuzz_Misc_InvariantPROVEConservation 57896044618658097711785492504343953926634992332820282019728792003956564832313) = true := by decide +kernel
example : passes (testFuzz_Misc_InvariantPROVEConservation 123456789012345678901234567890) = true := by decide +kernel
example : passes (testFuzz_Misc_ExtremeValueConservation 0 115792089237316195423570985008687907853269984665640564039457584007913129639935) = true := by decide +kernel
example : passes (testFuzz_Misc_ExtremeValueConservation 57896044618658097711785492504343953926634992332820282019728792003956564832313 7) = true := by decide +kernel
example : passes (testFuzz_Misc_ExtremeValueConservation 123456789012345678901234567890 31415926535897932384626433832795028841) = true := by decide +kernel

end Verif.ConformL1.ConformSolMisc
