import Verif.ConformL1
/-
# The tests of `contracts/test/SuccinctStaking.dispense.t.sol` on the contract model

Transcribed statement by statement; see `Verif/ConformL1.lean` for what stands for what. These are tests, not proofs.
-/

namespace Verif.ConformL1.ConformSolDispense
open Verif

set_option linter.unusedVariables false

/-- `test_Dispense_WhenValid`, `contracts/test/SuccinctStaking.dispense.t.sol:13`. -/
def test_Dispense_WhenValid : T Unit := do
  let mut stakeAmount : Nat := STAKER_PROVE_AMOUNT
  let mut dispenseAmount : Nat := STAKER_PROVE_AMOUNT
  let _ ← _permitAndStake STAKER_1 STAKER_1_PK ALICE_PROVER stakeAmount
  check ((← balanceOf STAKING STAKER_1) = stakeAmount)
  check ((← staked_ STAKER_1) = stakeAmount)
  let _ ← _dispense dispenseAmount
  check ((← dispenseRate_) = DISPENSE_RATE)
  check ((← dispenseDistributed_) = dispenseAmount)
  check ((← balanceOf STAKING STAKER_1) = stakeAmount)
  let mut expectedStakedAfterDispense : Nat := (stakeAmount + dispenseAmount)
  let mut actualStaked : Nat := (← staked_ STAKER_1)
  check (near actualStaked expectedStakedAfterDispense 10)
  check ((← balanceOf PROVE I_PROVE) = (stakeAmount + dispenseAmount))
  let _ ← _completeUnstake STAKER_1 stakeAmount
  check ((← balanceOf STAKING STAKER_1) = 0)
  check ((← staked_ STAKER_1) = 0)
  check (near (← balanceOf PROVE STAKER_1) (stakeAmount + dispenseAmount) 10)
  check (near (← balanceOf PROVE I_PROVE) 0 10)
  check ((← balanceOf I_PROVE ALICE_PROVER) = 0)

/-- `test_Dispense_WhenNoStake`, `contracts/test/SuccinctStaking.dispense.t.sol:55`. -/
def test_Dispense_WhenNoStake : T Unit := do
  let mut dispenseAmount : Nat := STAKER_PROVE_AMOUNT
  let _ ← _dispense dispenseAmount
  check ((← balanceOf PROVE I_PROVE) = dispenseAmount)
  check ((← dispenseRate_) = DISPENSE_RATE)
  check ((← dispenseDistributed_) = dispenseAmount)

/-- `test_Dispense_WhenRateLimit`, `contracts/test/SuccinctStaking.dispense.t.sol:70`. -/
def test_Dispense_WhenRateLimit : T Unit := do
  let mut stakeAmount : Nat := STAKER_PROVE_AMOUNT
  let _ ← _permitAndStake STAKER_1 STAKER_1_PK ALICE_PROVER stakeAmount
  let mut excessAmount : Nat := (DISPENSE_RATE * 10)
  expectRevert (some .amountExceedsAvailableDispense) do
      let _ ← dispense_ DISPENSER excessAmount
  let mut waitTime : Nat := 432000
  skip waitTime
  let mut maxAmount : Nat := (← maxDispense_)
  check (maxAmount = (waitTime * DISPENSE_RATE))
  deal PROVE STAKING maxAmount
  let mut halfAmount : Nat := (maxAmount / 2)
  let _ ← dispense_ DISPENSER halfAmount
  check ((← maxDispense_) = (← csub maxAmount halfAmount))
  check ((← dispenseDistributed_) = halfAmount)
  let _ ← dispense_ DISPENSER (← csub maxAmount halfAmount)
  check ((← maxDispense_) = 0)
  check ((← dispenseDistributed_) = maxAmount)
  expectRevert (some .amountExceedsAvailableDispense) do
      let _ ← dispense_ DISPENSER 1

/-- `test_Dispense_WhenConsecutiveWithWaiting`, `contracts/test/SuccinctStaking.dispense.t.sol:117`. -/
def test_Dispense_WhenConsecutiveWithWaiting : T Unit := do
  let mut stakeAmount : Nat := STAKER_PROVE_AMOUNT
  let _ ← _permitAndStake STAKER_1 STAKER_1_PK ALICE_PROVER stakeAmount
  let mut firstWaitTime : Nat := 259200
  skip firstWaitTime
  let mut firstAvailable : Nat := (← maxDispense_)
  check (firstAvailable = (firstWaitTime * DISPENSE_RATE))
  let mut firstDispenseAmount : Nat := (firstAvailable / 2)
  deal PROVE STAKING firstDispenseAmount
  let _ ← dispense_ DISPENSER firstDispenseAmount
  check ((← maxDispense_) = (← csub firstAvailable firstDispenseAmount))
  check ((← dispenseDistributed_) = firstDispenseAmount)
  let mut secondWaitTime : Nat := 432000
  skip secondWaitTime
  let mut expectedNewlyAvailable : Nat := ((← csub firstAvailable firstDispenseAmount) + (secondWaitTime * DISPENSE_RATE))
  check ((← maxDispense_) = expectedNewlyAvailable)
  deal PROVE STAKING expectedNewlyAvailable
  let _ ← dispense_ DISPENSER expectedNewlyAvailable
  check ((← maxDispense_) = 0)
  check ((← dispenseDistributed_) = (firstDispenseAmount + expectedNewlyAvailable))

/-- `test_Dispense_WhenExactLimit`, `contracts/test/SuccinctStaking.dispense.t.sol:164`. -/
def test_Dispense_WhenExactLimit : T Unit := do
  let _ ← _permitAndStake STAKER_1 STAKER_1_PK ALICE_PROVER STAKER_PROVE_AMOUNT
  let mut waitTime : Nat := 259200
  skip waitTime
  let mut exactAmount : Nat := (← maxDispense_)
  check (exactAmount = (waitTime * DISPENSE_RATE))
  deal PROVE STAKING exactAmount
  let _ ← dispense_ DISPENSER exactAmount
  check ((← maxDispense_) = 0)
  check ((← dispenseDistributed_) = exactAmount)
  expectRevert (some .amountExceedsAvailableDispense) do
      let _ ← dispense_ DISPENSER 1

/-- `test_Dispense_WhenRateChangeEffects`, `contracts/test/SuccinctStaking.dispense.t.sol:192`. -/
def test_Dispense_WhenRateChangeEffects : T Unit := do
  let _ ← _permitAndStake STAKER_1 STAKER_1_PK ALICE_PROVER STAKER_PROVE_AMOUNT
  let mut initialWaitTime : Nat := 259200
  skip initialWaitTime
  let mut initialAvailable : Nat := (← maxDispense_)
  check (initialAvailable = (initialWaitTime * DISPENSE_RATE))
  let mut halfAmount : Nat := (initialAvailable / 2)
  deal PROVE STAKING halfAmount
  let _ ← dispense_ DISPENSER halfAmount
  let mut newRate : Nat := (DISPENSE_RATE * 2)
  let _ ← updateDispenseRate_ OWNER newRate
  check ((← dispenseRate_) = newRate)
  check ((← dispenseRateTimestamp_) = (← now))
  let mut additionalWaitTime : Nat := 172800
  skip additionalWaitTime
  let mut available : Nat := (← maxDispense_)
  deal PROVE STAKING available
  let _ ← dispense_ DISPENSER available
  check ((← maxDispense_) = 0)
  check ((← dispenseDistributed_) = (halfAmount + available))

/-- `test_Dispense_WhenVeryLargeTimePeriod`, `contracts/test/SuccinctStaking.dispense.t.sol:236`. -/
def test_Dispense_WhenVeryLargeTimePeriod : T Unit := do
  let _ ← _permitAndStake STAKER_1 STAKER_1_PK ALICE_PROVER STAKER_PROVE_AMOUNT
  let mut veryLargeTime : Nat := (31536000 * 5)
  skip veryLargeTime
  let mut expectedMax : Nat := (veryLargeTime * DISPENSE_RATE)
  check ((← maxDispense_) = expectedMax)
  let mut largeDispenseAmount : Nat := (expectedMax / 2)
  deal PROVE STAKING largeDispenseAmount
  let _ ← dispense_ DISPENSER largeDispenseAmount
  check ((← maxDispense_) = (← csub expectedMax largeDispenseAmount))
  deal PROVE STAKING (← csub expectedMax largeDispenseAmount)
  let _ ← dispense_ DISPENSER (← csub expectedMax largeDispenseAmount)
  check ((← maxDispense_) = 0)

/-- `test_Dispense_WhenMaxUint`, `contracts/test/SuccinctStaking.dispense.t.sol:269`. -/
def test_Dispense_WhenMaxUint : T Unit := do
  let _ ← _permitAndStake STAKER_1 STAKER_1_PK ALICE_PROVER STAKER_PROVE_AMOUNT
  let mut waitTime : Nat := 172800
  skip waitTime
  let mut available : Nat := (← maxDispense_)
  check (available = (waitTime * DISPENSE_RATE))
  let mut oldVaultBalance : Nat := (← balanceOf PROVE I_PROVE)
  deal PROVE STAKING available
  let _ ← dispense_ DISPENSER (2 ^ 256 - 1)
  check ((← maxDispense_) = 0)
  let mut newVaultBalance : Nat := (← balanceOf PROVE I_PROVE)
  check (newVaultBalance = (oldVaultBalance + available))

/-- `test_Dispense_WhenMaxUintNoStake`, `contracts/test/SuccinctStaking.dispense.t.sol:300`. -/
def test_Dispense_WhenMaxUintNoStake : T Unit := do
  let mut waitTime : Nat := 86400
  skip waitTime
  let mut available : Nat := (← maxDispense_)
  check (available = (waitTime * DISPENSE_RATE))
  deal PROVE STAKING available
  let _ ← dispense_ DISPENSER (2 ^ 256 - 1)
  check ((← balanceOf PROVE I_PROVE) = available)
  check ((← maxDispense_) = 0)

/-- `test_Dispense_WhenDustPreservesEmissions`, `contracts/test/SuccinctStaking.dispense.t.sol:324`. -/
def test_Dispense_WhenDustPreservesEmissions : T Unit := do
  let _ ← updateDispenseRate_ OWNER 3
  check ((← dispenseRate_) = 3)
  check ((← dispenseRateTimestamp_) = (← now))
  skip 10
  deal PROVE STAKING 30
  for i in List.range' 0 (10 - 0) do
    let _ ← dispense_ DISPENSER 1
  check ((← maxDispense_) = 20)
  check ((← dispenseDistributed_) = 10)

/-- `test_Dispense_WhenRateChangePreservesAccounting`, `contracts/test/SuccinctStaking.dispense.t.sol:351`. -/
def test_Dispense_WhenRateChangePreservesAccounting : T Unit := do
  let _ ← updateDispenseRate_ OWNER 10
  check ((← dispenseRate_) = 10)
  check ((← dispenseRateTimestamp_) = (← now))
  skip 100
  deal PROVE STAKING 2000
  let _ ← dispense_ DISPENSER 500
  check ((← dispenseDistributed_) = 500)
  let _ ← updateDispenseRate_ OWNER 5
  check ((← dispenseRate_) = 5)
  check ((← dispenseRateTimestamp_) = (← now))
  skip 200
  check ((← maxDispense_) = 1500)

/-- `test_Dispense_WhenTotalEarnedEqualsDispensedPlusAvailable`, `contracts/test/SuccinctStaking.dispense.t.sol:387`. -/
def test_Dispense_WhenTotalEarnedEqualsDispensedPlusAvailable : T Unit := do
  let _ ← updateDispenseRate_ OWNER 7
  skip 100
  let mut totalEarned1 : Nat := ((← dispenseEarned_) + ((← csub (← now) (← dispenseRateTimestamp_)) * (← dispenseRate_)))
  let mut totalAccounted1 : Nat := ((← dispenseDistributed_) + (← maxDispense_))
  check (totalEarned1 = totalAccounted1)
  deal PROVE STAKING 350
  let _ ← dispense_ DISPENSER 350
  let mut totalEarned2 : Nat := ((← dispenseEarned_) + ((← csub (← now) (← dispenseRateTimestamp_)) * (← dispenseRate_)))
  let mut totalAccounted2 : Nat := ((← dispenseDistributed_) + (← maxDispense_))
  check (totalEarned2 = totalAccounted2)
  let _ ← updateDispenseRate_ OWNER 13
  let mut totalEarned3 : Nat := ((← dispenseEarned_) + ((← csub (← now) (← dispenseRateTimestamp_)) * (← dispenseRate_)))
  let mut totalAccounted3 : Nat := ((← dispenseDistributed_) + (← maxDispense_))
  check (totalEarned3 = totalAccounted3)
  skip 50
  deal PROVE STAKING 650
  let _ ← dispense_ DISPENSER 650
  let mut totalEarned4 : Nat := ((← dispenseEarned_) + ((← csub (← now) (← dispenseRateTimestamp_)) * (← dispenseRate_)))
  let mut totalAccounted4 : Nat := ((← dispenseDistributed_) + (← maxDispense_))
  check (totalEarned4 = totalAccounted4)

/-- `test_Dispense_WhenNoCeilingDivisionLoss`, `contracts/test/SuccinctStaking.dispense.t.sol:439`. -/
def test_Dispense_WhenNoCeilingDivisionLoss : T Unit := do
  let mut rate : Nat := 7
  let _ ← updateDispenseRate_ OWNER rate
  check ((← dispenseRate_) = rate)
  check ((← dispenseRateTimestamp_) = (← now))
  skip 10
  check ((← maxDispense_) = 70)
  deal PROVE STAKING 70
  let _ ← dispense_ DISPENSER 5
  check ((← maxDispense_) = 65)
  let _ ← dispense_ DISPENSER 3
  check ((← maxDispense_) = 62)
  check ((← dispenseDistributed_) = 8)
  check ((← dispenseRate_) = rate)

/-- `test_Dispense_WhenPartialDispenseNoRateImpact`, `contracts/test/SuccinctStaking.dispense.t.sol:476`. -/
def test_Dispense_WhenPartialDispenseNoRateImpact : T Unit := do
  let mut rate : Nat := 100
  let _ ← updateDispenseRate_ OWNER rate
  check ((← dispenseRate_) = rate)
  check ((← dispenseRateTimestamp_) = (← now))
  skip 10
  deal PROVE STAKING 1000
  let _ ← dispense_ DISPENSER 123
  skip 10
  check ((← maxDispense_) = 1877)
  skip 1
  check ((← maxDispense_) = 1977)

/-- `test_Dispense_WhenRateIsZero`, `contracts/test/SuccinctStaking.dispense.t.sol:507`. -/
def test_Dispense_WhenRateIsZero : T Unit := do
  let _ ← updateDispenseRate_ OWNER 0
  check ((← dispenseRate_) = 0)
  check ((← dispenseRateTimestamp_) = (← now))
  skip 86400
  check ((← maxDispense_) = 0)
  deal PROVE STAKING 1
  expectRevert (some .amountExceedsAvailableDispense) do
      let _ ← dispense_ DISPENSER 1
  expectRevert (some .zeroAmount) do
      let _ ← dispense_ DISPENSER (2 ^ 256 - 1)

/-- `test_Dispense_WhenMultipleRateChangesInSameBlock`, `contracts/test/SuccinctStaking.dispense.t.sol:535`. -/
def test_Dispense_WhenMultipleRateChangesInSameBlock : T Unit := do
  let _ ← updateDispenseRate_ OWNER 100
  check ((← dispenseRate_) = 100)
  check ((← dispenseRateTimestamp_) = (← now))
  let _ ← updateDispenseRate_ OWNER 200
  let _ ← updateDispenseRate_ OWNER 300
  let _ ← updateDispenseRate_ OWNER 400
  check ((← maxDispense_) = 0)
  skip 10
  check ((← maxDispense_) = 4000)

/-- `test_Dispense_WhenMaxUintWithZeroAvailable`, `contracts/test/SuccinctStaking.dispense.t.sol:561`. -/
def test_Dispense_WhenMaxUintWithZeroAvailable : T Unit := do
  check ((← maxDispense_) = 0)
  expectRevert (some .zeroAmount) do
      let _ ← dispense_ DISPENSER (2 ^ 256 - 1)

/-- `test_Dispense_WhenExtremeDustWithHighRate`, `contracts/test/SuccinctStaking.dispense.t.sol:572`. -/
def test_Dispense_WhenExtremeDustWithHighRate : T Unit := do
  let mut highRate : Nat := 1000000000000000000
  let _ ← updateDispenseRate_ OWNER highRate
  check ((← dispenseRate_) = highRate)
  check ((← dispenseRateTimestamp_) = (← now))
  skip 1
  deal PROVE STAKING 1000000000000000000
  let _ ← dispense_ DISPENSER 1
  check ((← maxDispense_) = (← csub 1000000000000000000 1))
  for i in List.range' 0 (100 - 0) do
    let _ ← dispense_ DISPENSER 1
  check ((← maxDispense_) = (← csub 1000000000000000000 101))
  check ((← dispenseDistributed_) = 101)

/-- `test_RevertDispense_WhenNotEnoughPROVE`, `contracts/test/SuccinctStaking.dispense.t.sol:608`. -/
def test_RevertDispense_WhenNotEnoughPROVE : T Unit := do
  let mut proveBalance : Nat := (← balanceOf PROVE STAKING)
  let mut dispenseAmount : Nat := (proveBalance + 1)
  let _ ← _waitRequiredDispenseTime dispenseAmount
  expectRevert (some .erc20InsufficientBalance) do
      let _ ← dispense_ DISPENSER dispenseAmount

/-- `test_SetDispenseRate_WhenValid`, `contracts/test/SuccinctStaking.dispense.t.sol:629`. -/
def test_SetDispenseRate_WhenValid : T Unit := do
  let mut newRate : Nat := (DISPENSE_RATE * 2)
  expectRevert (some .ownableUnauthorized) do
      let _ ← updateDispenseRate_ ALICE newRate
  let _ ← updateDispenseRate_ OWNER newRate
  check ((← dispenseRate_) = newRate)
  check ((← dispenseRateTimestamp_) = (← now))
  let mut waitTime : Nat := 86400
  skip waitTime
  let mut maxAmount : Nat := (← maxDispense_)
  check (maxAmount = (waitTime * newRate))

/-- `test_Revert_WhenSetDispenseRate_WhenNotDispenser`, `contracts/test/SuccinctStaking.dispense.t.sol:654`. -/
def test_Revert_WhenSetDispenseRate_WhenNotDispenser : T Unit := do
  expectRevert (some .ownableUnauthorized) do
      let _ ← updateDispenseRate_ ALICE DISPENSE_RATE

/-- `test_SetDispenser_WhenValid`, `contracts/test/SuccinctStaking.dispense.t.sol:660`. -/
def test_SetDispenser_WhenValid : T Unit := do
  let mut newDispenser : Address := (named 2)
  let _ ← setDispenser_ OWNER newDispenser
  check ((← dispenser_) = newDispenser)

/-- `test_Revert_WhenSetDispenser_WhenNotOwner`, `contracts/test/SuccinctStaking.dispense.t.sol:667`. -/
def test_Revert_WhenSetDispenser_WhenNotOwner : T Unit := do
  expectRevert (some .ownableUnauthorized) do
      let _ ← setDispenser_ ALICE DISPENSER

/-- `testFuzz_Dispense_WhenValid`, `contracts/test/SuccinctStaking.dispense.t.sol:673`. -/
def testFuzz_Dispense_WhenValid (_dispenseAmount : Nat) : T Unit := do
  let mut _dispenseAmount := _dispenseAmount
  let mut stakeAmount : Nat := STAKER_PROVE_AMOUNT
  let mut maxDispenseAmount : Nat := DISPENSE_AMOUNT
  let mut dispenseAmount : Nat := (bound _dispenseAmount 1000 maxDispenseAmount)
  let _ ← _stake STAKER_1 ALICE_PROVER STAKER_PROVE_AMOUNT
  let _ ← _dispense dispenseAmount
  check ((← balanceOf STAKING STAKER_1) = stakeAmount)
  let mut expectedStakedAfterDispense : Nat := (stakeAmount + dispenseAmount)
  let mut stakeTolerance : Nat := (tern (decide ((expectedStakedAfterDispense / 100000) > 50)) (expectedStakedAfterDispense / 100000) 50)
  check (near (← staked_ STAKER_1) expectedStakedAfterDispense stakeTolerance)
  check ((← balanceOf PROVE I_PROVE) = (stakeAmount + dispenseAmount))
  let _ ← _completeUnstake STAKER_1 stakeAmount
  check ((← balanceOf STAKING STAKER_1) = 0)
  check ((← staked_ STAKER_1) = 0)
  let mut finalTolerance : Nat := (tern (decide (((stakeAmount + dispenseAmount) / 100000) > 50)) ((stakeAmount + dispenseAmount) / 100000) 50)
  check (near (← balanceOf PROVE STAKER_1) (stakeAmount + dispenseAmount) finalTolerance)
  check (near (← balanceOf PROVE I_PROVE) 0 100)
  check ((← balanceOf I_PROVE ALICE_PROVER) = 0)

/-- `testFuzz_Dispense_WhenMultipleStakers`, `contracts/test/SuccinctStaking.dispense.t.sol:713`. -/
def testFuzz_Dispense_WhenMultipleStakers (_stakeAmounts : List Nat) (_dispenseAmount : Nat) : T Unit := do
  let mut _stakeAmounts := _stakeAmounts
  let mut _dispenseAmount := _dispenseAmount
  let mut stakers : List Address := [STAKER_1, STAKER_2, (named 3)]
  let mut totalStaked : Nat := 0
  for i in List.range' 0 ((stakers).length - 0) do
    _stakeAmounts := _stakeAmounts.set i (bound (← at_ _stakeAmounts i) MIN_STAKE_AMOUNT (STAKER_PROVE_AMOUNT / 3))
    deal PROVE (← at_ stakers i) (← at_ _stakeAmounts i)
    let _ ← _stake (← at_ stakers i) ALICE_PROVER (← at_ _stakeAmounts i)
    totalStaked := totalStaked + (← at_ _stakeAmounts i)
  let mut dispenseAmount : Nat := (bound _dispenseAmount 1000 DISPENSE_AMOUNT)
  let _ ← _dispense dispenseAmount
  for i in List.range' 0 ((stakers).length - 0) do
    let mut expectedStaked : Nat := ((← at_ _stakeAmounts i) + (((← at_ _stakeAmounts i) * dispenseAmount) / totalStaked))
    let mut tolerance : Nat := (tern (decide ((expectedStaked / 100000) > 10)) (expectedStaked / 100000) 10)
    check (near (← staked_ (← at_ stakers i)) expectedStaked tolerance)

/-- `testFuzz_Dispense_WhenMultipleProvers`, `contracts/test/SuccinctStaking.dispense.t.sol:748`. -/
def testFuzz_Dispense_WhenMultipleProvers (_stakeAmounts : List Nat) (_dispenseAmount : Nat) : T Unit := do
  let mut _stakeAmounts := _stakeAmounts
  let mut _dispenseAmount := _dispenseAmount
  let mut stakeAmount1 : Nat := (bound (← at_ _stakeAmounts 0) MIN_STAKE_AMOUNT (STAKER_PROVE_AMOUNT / 2))
  let mut stakeAmount2 : Nat := (bound (← at_ _stakeAmounts 1) MIN_STAKE_AMOUNT (STAKER_PROVE_AMOUNT / 2))
  let mut dispenseAmount : Nat := (bound _dispenseAmount 1000 DISPENSE_AMOUNT)
  let _ ← _stake STAKER_1 ALICE_PROVER stakeAmount1
  deal PROVE STAKER_2 stakeAmount2
  let _ ← _stake STAKER_2 BOB_PROVER stakeAmount2
  let _ ← _dispense dispenseAmount
  let mut totalStaked : Nat := (stakeAmount1 + stakeAmount2)
  let mut expectedStaked1 : Nat := (stakeAmount1 + ((stakeAmount1 * dispenseAmount) / totalStaked))
  let mut expectedStaked2 : Nat := (stakeAmount2 + ((stakeAmount2 * dispenseAmount) / totalStaked))
  let mut tolerance1 : Nat := (tern (decide ((expectedStaked1 / 100000) > 10)) (expectedStaked1 / 100000) 10)
  let mut tolerance2 : Nat := (tern (decide ((expectedStaked2 / 100000) > 10)) (expectedStaked2 / 100000) 10)
  check (near (← staked_ STAKER_1) expectedStaked1 tolerance1)
  check (near (← staked_ STAKER_2) expectedStaked2 tolerance2)

/-- `testFuzz_Dispense_WithUnstakeRequests`, `contracts/test/SuccinctStaking.dispense.t.sol:779`. -/
def testFuzz_Dispense_WithUnstakeRequests (_dispenseAmount : Nat) (_unstakePercent : Nat) : T Unit := do
  let mut _dispenseAmount := _dispenseAmount
  let mut _unstakePercent := _unstakePercent
  let mut stakeAmount : Nat := STAKER_PROVE_AMOUNT
  let mut maxDispenseIn1Day : Nat := (DISPENSE_RATE * 86400)
  let mut dispenseAmount : Nat := (bound _dispenseAmount 1000 maxDispenseIn1Day)
  let mut unstakePercent : Nat := (bound _unstakePercent 10 90)
  let mut unstakeAmount : Nat := ((stakeAmount * unstakePercent) / 100)
  let _ ← _stake STAKER_1 ALICE_PROVER stakeAmount
  let mut stakedBalanceBefore : Nat := (← staked_ STAKER_1)
  check (stakedBalanceBefore = stakeAmount)
  let _ ← _requestUnstake STAKER_1 unstakeAmount
  let _ ← _dispense dispenseAmount
  skip UNSTAKE_PERIOD
  let mut receivedAmount : Nat := (← _finishUnstake STAKER_1)
  let mut expectedReceived : Nat := (unstakeAmount + ((dispenseAmount * unstakePercent) / 100))
  check (near receivedAmount expectedReceived 1)
  let mut actualRemaining : Nat := (← staked_ STAKER_1)
  let mut expectedRemaining : Nat := ((← csub stakeAmount unstakeAmount) + ((dispenseAmount * (← csub 100 unstakePercent)) / 100))
  check (near actualRemaining expectedRemaining 1)

/-- `testFuzz_Dispense_WhenRateChanges`, `contracts/test/SuccinctStaking.dispense.t.sol:819`. -/
def testFuzz_Dispense_WhenRateChanges (_initialRate : Nat) (_newRate : Nat) (_waitTime : Nat) : T Unit := do
  let mut _initialRate := _initialRate
  let mut _newRate := _newRate
  let mut _waitTime := _waitTime
  let mut initialRate : Nat := (bound _initialRate 1 (DISPENSE_RATE * 2))
  let mut newRate : Nat := (bound _newRate 1 (DISPENSE_RATE * 2))
  let mut waitTime : Nat := (bound _waitTime 86400 2592000)
  let _ ← _stake STAKER_1 ALICE_PROVER STAKER_PROVE_AMOUNT
  let _ ← updateDispenseRate_ OWNER initialRate
  check ((← dispenseRate_) = initialRate)
  check ((← dispenseRateTimestamp_) = (← now))
  skip waitTime
  let mut firstAvailable : Nat := (← maxDispense_)
  let mut firstDispense : Nat := (firstAvailable / 2)
  deal PROVE STAKING firstDispense
  let _ ← dispense_ DISPENSER firstDispense
  let _ ← updateDispenseRate_ OWNER newRate
  check ((← dispenseRate_) = newRate)
  check ((← dispenseRateTimestamp_) = (← now))
  skip waitTime
  let mut secondAvailable : Nat := (← maxDispense_)
  let mut expectedSecondAvailable : Nat := ((← csub firstAvailable firstDispense) + (waitTime * newRate))
  check (secondAvailable = expectedSecondAvailable)

/-- `testFuzz_Dispense_WhenOverflowGuard`, `contracts/test/SuccinctStaking.dispense.t.sol:868`. -/
def testFuzz_Dispense_WhenOverflowGuard (_rate : Nat) (_timeSkip : Nat) : T Unit := do
  let mut _rate := _rate
  let mut _timeSkip := _timeSkip
  let mut rate : Nat := (bound _rate 1 ((2 ^ 256 - 1) / 31536000))
  let mut timeSkip : Nat := (bound _timeSkip 1 31536000)
  let _ ← updateDispenseRate_ OWNER rate
  check ((← dispenseRate_) = rate)
  check ((← dispenseRateTimestamp_) = (← now))
  skip timeSkip
  let mut expected : Nat := (rate * timeSkip)
  let mut available : Nat := (← maxDispense_)
  check (available = expected)
  let mut halfAmount : Nat := (tern (decide (available = 0)) 0 (tern (decide ((available / 2) = 0)) 1 (available / 2)))
  if (halfAmount > 0) then
    deal PROVE STAKING halfAmount
    let _ ← dispense_ DISPENSER halfAmount
    check ((← maxDispense_) = (← csub available halfAmount))
    check ((← dispenseDistributed_) = halfAmount)

/-- `test_Dispense_WhenReentrancyProtection`, `contracts/test/SuccinctStaking.dispense.t.sol:905`. -/
def test_Dispense_WhenReentrancyProtection : T Unit := do
  let _ ← updateDispenseRate_ OWNER 1000
  check ((← dispenseRate_) = 1000)
  check ((← dispenseRateTimestamp_) = (← now))
  skip 100
  let mut available : Nat := (← maxDispense_)
  deal PROVE STAKING available
  let mut distributedBefore : Nat := (← dispenseDistributed_)
  let _ ← dispense_ DISPENSER (available / 2)
  let mut distributedAfter : Nat := (← dispenseDistributed_)
  check (distributedAfter = (distributedBefore + (available / 2)))

example : passes test_Dispense_WhenValid = true := by decide +kernel
example : passes test_Dispense_WhenNoStake = true := by decide +kernel
example : passes test_Dispense_WhenRateLimit = true := by decide +kernel
example : passes test_Dispense_WhenConsecutiveWithWaiting = true := by decide +kernel
example : passes test_Dispense_WhenExactLimit = true := by decide +kernel
example : passes test_Dispense_WhenRateChangeEffects = true := by decide +kernel
example : passes test_Dispense_WhenVeryLargeTimePeriod = true := by decide +kernel
example : passes test_Dispense_WhenMaxUint = true := by decide +kernel
example : passes test_Dispense_WhenMaxUintNoStake = true := by decide +kernel
example : passes test_Dispense_WhenDustPreservesEmissions = true := by decide +kernel
example : passes test_Dispense_WhenRateChangePreservesAccounting = true := by decide +kernel
example : passes test_Dispense_WhenTotalEarnedEqualsDispensedPlusAvailable = true := by decide +kernel
example : passes test_Dispense_WhenNoCeilingDivisionLoss = true := by decide +kernel
example : passes test_Dispense_WhenPartialDispenseNoRateImpact = true := by decide +kernel
example : passes test_Dispense_WhenRateIsZero = true := by decide +kernel
example : passes test_Dispense_WhenMultipleRateChangesInSameBlock = true := by decide +kernel
example : passes test_Dispense_WhenMaxUintWithZeroAvailable = true := by decide +kernel
example : passes test_Dispense_WhenExtremeDustWithHighRate = true := by decide +kernel
example : passes test_RevertDispense_WhenNotEnoughPROVE = true := by decide +kernel
example : passes test_SetDispenseRate_WhenValid = true := by decide +kernel
example : passes test_Revert_WhenSetDispenseRate_WhenNotDispenser = true := by decide +kernel
example : passes test_SetDispenser_WhenValid = true := by decide +kernel
example : passes test_Revert_WhenSetDispenser_WhenNotOwner = true := by decide +kernel
example : passes (testFuzz_Dispense_WhenValid 0) = true := by decide +kernel
example : passes (testFuzz_Dispense_WhenValid 57896044618658097711785492504343953926634992332820282019728792003956564832313) = true := by decide +kernel
example : passes (testFuzz_Dispense_WhenValid 123456789012345678901234567890) = true := by decide +kernel
example : passes (testFuzz_Dispense_WhenMultipleStakers [0, 123456789012345678901234567890, 7] 115792089237316195423570985008687907853269984665640564039457584007913129639935) = true := by decide +kernel
example : passes (testFuzz_Dispense_WhenMultipleStakers [57896044618658097711785492504343953926634992332820282019728792003956564832313, 115792089237316195423570985008687907853269984665640564039457584007913129639935, 31415926535897932384626433832795028841] 7) = true := by decide +kernel
example : passes (testFuzz_Dispense_WhenMultipleStakers [123456789012345678901234567890, 7, 0] 31415926535897932384626433832795028841) = true := by decide +kernel
example : passes (testFuzz_Dispense_WhenMultipleProvers [0, 123456789012345678901234567890] 115792089237316195423570985008687907853269984665640564039457584007913129639935) = true := by decide +kernel
example : passes (testFuzz_Dispense_WhenMultipleProvers [57896044618658097711785492504343953926634992332820282019728792003956564832313, 115792089237316195423570985008687907853269984665640564039457584007913129639935] 7) = true := by decide +kernel
example : passes (testFuzz_Dispense_WhenMultipleProvers [123456789012345678901234567890, 7] 31415926535897932384626433832795028841) = true := by decide +kernel
example : passes (testFuzz_Dispense_WithUnstakeRequests 0 115792089237316195423570985008687907853269984665640564039457584007913129639935) = true := by decide +kernel
example : passes (testFuzz_Dispense_WithUnstakeRequests 57896044618658097711785492504343953926634992332820282019728792003956564832313 7) = true := by decide +kernel
example : passes (testFuzz_Dispense_WithUnstakeRequests 123456789012345678901234567890 31415926535897932384626433832795028841) = true := by decide +kernel
example : passes (testFuzz_Dispense_WhenRateChanges 0 115792089237316195423570985008687907853269984665640564039457584007913129639935 0) = true := by decide +kernel
example : passes (testFuzz_Dispense_WhenRateChanges 57896044618658097711785492504343953926634992332820282019728792003956564832313 7 57896044618658097711785492504343953926634992332820282019728792003956564832313) = true := by decide +kernel
example : passes (testFuzz_Dispense_WhenRateChanges 123456789012345678901234567890 31415926535897932384626433832795028841 123456789012345678901234567890) = true := by decide +kernel
example : passes (testFuzz_Dispense_WhenOverflowGuard 0 115792089237316195423570985008687907853269984665640564039457584007913129639935) = true := by decide +kernel
example : passes (testFuzz_Dispense_WhenOverflowGuard 57896044618658097711785492504343953926634992332820282019728792003956564832313 7) = true := by decide +kernel
example : passes (testFuzz_Dispense_WhenOverflowGuard 123456789012345678901234567890 31415926535897932384626433832795028841) = true := by decide +kernel
example : passes test_Dispense_WhenReentrancyProtection = true := by decide +kernel

end Verif.ConformL1.ConformSolDispense
