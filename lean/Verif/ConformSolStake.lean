import Verif.ConformL1
/-
# The tests of `contracts/test/SuccinctStaking.stake.t.sol` on the contract model

Transcribed statement by statement; see `Verif/ConformL1.lean` for what stands for what. These are tests, not proofs.
-/

namespace Verif.ConformL1.ConformSolStake
open Verif

set_option linter.unusedVariables false

/-- `test_Stake_WhenValid`, `contracts/test/SuccinctStaking.stake.t.sol:14`. -/
def test_Stake_WhenValid : T Unit := do
  let mut stakeAmount : Nat := STAKER_PROVE_AMOUNT
  check ((← balanceOf PROVE STAKER_1) = stakeAmount)
  check ((← balanceOf I_PROVE ALICE_PROVER) = 0)
  check ((← balanceOf ALICE_PROVER STAKING) = 0)
  check ((← balanceOf PROVE I_PROVE) = 0)
  check ((← proverStaked_ ALICE_PROVER) = 0)
  let _ ← approve STAKER_1 PROVE STAKING stakeAmount
  let mut stPROVE : Nat := (← stake_ STAKER_1 ALICE_PROVER stakeAmount)
  check (stPROVE = stakeAmount)
  check ((← stakedTo_ STAKER_1) = ALICE_PROVER)
  check ((← balanceOf STAKING STAKER_1) = stakeAmount)
  check ((← staked_ STAKER_1) = stakeAmount)
  check ((← unstakePending_ STAKER_1) = 0)
  check ((← previewUnstake_ ALICE_PROVER stakeAmount) = stakeAmount)
  check ((← proverStaked_ ALICE_PROVER) = stakeAmount)
  check ((← balanceOf PROVE STAKING) = DISPENSE_AMOUNT)
  check ((← balanceOf I_PROVE ALICE_PROVER) = stakeAmount)
  check ((← balanceOf STAKING STAKER_1) = stakeAmount)
  check ((← balanceOf ALICE_PROVER STAKING) = stakeAmount)
  check ((← balanceOf PROVE I_PROVE) = stakeAmount)

/-- `test_RevertStake_WhenProverNotFound`, `contracts/test/SuccinctStaking.stake.t.sol:51`. -/
def test_RevertStake_WhenProverNotFound : T Unit := do
  let mut stakeAmount : Nat := STAKER_PROVE_AMOUNT
  let mut unknownProver : Address := (named 0)
  let _ ← approve STAKER_1 PROVE STAKING stakeAmount
  expectRevert (some .proverNotFound) do
      let _ ← stake_ STAKER_1 unknownProver stakeAmount

/-- `test_RevertStake_WhenZeroAmount`, `contracts/test/SuccinctStaking.stake.t.sol:64`. -/
def test_RevertStake_WhenZeroAmount : T Unit := do
  let mut stakeAmount : Nat := 0
  let _ ← approve STAKER_1 PROVE STAKING stakeAmount
  expectRevert (some .zeroAmount) do
      let _ ← stake_ STAKER_1 ALICE_PROVER stakeAmount

/-- `test_RevertStake_WhenBelowMinStakeAmount`, `contracts/test/SuccinctStaking.stake.t.sol:76`. -/
def test_RevertStake_WhenBelowMinStakeAmount : T Unit := do
  let mut stakeAmount : Nat := (← csub MIN_STAKE_AMOUNT 1)
  let _ ← approve STAKER_1 PROVE STAKING stakeAmount
  expectRevert (some .stakeBelowMinimum) do
      let _ ← stake_ STAKER_1 ALICE_PROVER stakeAmount

/-- `test_RevertStake_WhenProverDeactivated`, `contracts/test/SuccinctStaking.stake.t.sol:88`. -/
def test_RevertStake_WhenProverDeactivated : T Unit := do
  let mut stakeAmount : Nat := STAKER_PROVE_AMOUNT
  let _ ← _stake STAKER_1 ALICE_PROVER stakeAmount
  let mut slashAmount : Nat := (← proverStaked_ ALICE_PROVER)
  let _ ← _completeSlash ALICE_PROVER slashAmount
  let _ ← approve STAKER_2 PROVE STAKING stakeAmount
  expectRevert (some .proverNotActive) do
      let _ ← stake_ STAKER_2 ALICE_PROVER stakeAmount

/-- `test_RevertStake_WhenStakedToADifferentProver`, `contracts/test/SuccinctStaking.stake.t.sol:107`. -/
def test_RevertStake_WhenStakedToADifferentProver : T Unit := do
  let mut stakeAmount : Nat := (STAKER_PROVE_AMOUNT / 2)
  let _ ← _permitAndStake STAKER_1 STAKER_1_PK ALICE_PROVER stakeAmount
  let _ ← approve STAKER_1 PROVE STAKING stakeAmount
  expectRevert (some .alreadyStakedWithDifferentProver) do
      let _ ← stake_ STAKER_1 BOB_PROVER stakeAmount

/-- `test_RevertStake_WhenProverHasSlashRequest`, `contracts/test/SuccinctStaking.stake.t.sol:126`. -/
def test_RevertStake_WhenProverHasSlashRequest : T Unit := do
  let mut stakeAmount : Nat := STAKER_PROVE_AMOUNT
  let _ ← _requestSlash ALICE_PROVER 1
  let _ ← approve STAKER_1 PROVE STAKING stakeAmount
  expectRevert (some .proverHasSlashRequest) do
      let _ ← stake_ STAKER_1 ALICE_PROVER stakeAmount

/-- `test_RevertStake_WheniPROVEReceiptAmountIsZero`, `contracts/test/SuccinctStaking.stake.t.sol:141`. -/
def test_RevertStake_WheniPROVEReceiptAmountIsZero : T Unit := do
  let mut stakeAmount : Nat := MIN_STAKE_AMOUNT
  let _ ← _stake STAKER_1 ALICE_PROVER stakeAmount
  let mut rewardAmount : Nat := 1000000000000000000000000000000000000000000000
  deal PROVE I_PROVE rewardAmount
  let _ ← approve STAKER_2 PROVE STAKING stakeAmount
  expectRevert (some .zeroReceiptAmount) do
      let _ ← stake_ STAKER_2 ALICE_PROVER stakeAmount

/-- `test_RevertStake_WhenProverNReceiptAmountIsZero`, `contracts/test/SuccinctStaking.stake.t.sol:160`. -/
def test_RevertStake_WhenProverNReceiptAmountIsZero : T Unit := do
  let mut stakeAmount : Nat := MIN_STAKE_AMOUNT
  let _ ← _stake STAKER_1 ALICE_PROVER stakeAmount
  let mut rewardAmount : Nat := 1000000000000000000000000000000000000000000000
  deal I_PROVE ALICE_PROVER rewardAmount
  let _ ← approve STAKER_2 PROVE STAKING stakeAmount
  expectRevert (some .zeroReceiptAmount) do
      let _ ← stake_ STAKER_2 ALICE_PROVER stakeAmount

/-- `test_PermitAndStake_WhenValid`, `contracts/test/SuccinctStaking.stake.t.sol:178`. -/
def test_PermitAndStake_WhenValid : T Unit := do
  let mut stakeAmount : Nat := STAKER_PROVE_AMOUNT
  let mut deadline : Nat := ((← now) + 86400)
  let mut stPROVE : Nat := (← _permitAndStake STAKER_1 STAKER_1_PK ALICE_PROVER stakeAmount (some deadline))
  check (stPROVE = stakeAmount)
  check ((← balanceOf STAKING STAKER_1) = stakeAmount)
  check ((← staked_ STAKER_1) = stakeAmount)
  check ((← balanceOf PROVE STAKER_1) = 0)
  check ((← balanceOf I_PROVE ALICE_PROVER) = stakeAmount)
  check ((← balanceOf PROVE I_PROVE) = stakeAmount)

/-- `test_PermitAndStake_WhenLessThanApproved`, `contracts/test/SuccinctStaking.stake.t.sol:194`. -/
def test_PermitAndStake_WhenLessThanApproved : T Unit := do
  let mut stakeAmount : Nat := (STAKER_PROVE_AMOUNT / 2)
  let mut deadline : Nat := ((← now) + 86400)
  let _ ← _permitAndStake STAKER_1 STAKER_1_PK ALICE_PROVER stakeAmount (some deadline)
  check ((← balanceOf STAKING STAKER_1) = stakeAmount)
  check ((← staked_ STAKER_1) = stakeAmount)
  check ((← balanceOf PROVE STAKER_1) = (← csub STAKER_PROVE_AMOUNT stakeAmount))
  check ((← balanceOf I_PROVE ALICE_PROVER) = stakeAmount)
  check ((← balanceOf PROVE I_PROVE) = stakeAmount)

/-- `test_PermitAndStake_WhenAttackerFrontruns`, `contracts/test/SuccinctStaking.stake.t.sol:211`. -/
def test_PermitAndStake_WhenAttackerFrontruns : T Unit := do
  let mut stakeAmount : Nat := STAKER_PROVE_AMOUNT
  let mut deadline : Nat := ((← now) + 86400)
  let (v, r, s) := (← signPermit STAKER_1_PK STAKER_1 ALICE_PROVER stakeAmount deadline)
  let _ ← permit_ STAKER_1 ALICE_PROVER stakeAmount deadline v
  let _ ← permitAndStake_ ALICE_PROVER STAKER_1 stakeAmount deadline v

/-- `test_RevertPermitAndStake_WhenSignatureInvalid`, `contracts/test/SuccinctStaking.stake.t.sol:229`. -/
def test_RevertPermitAndStake_WhenSignatureInvalid : T Unit := do
  let mut stakeAmount : Nat := STAKER_PROVE_AMOUNT
  let mut deadline : Nat := ((← now) + 86400)
  let mut wrongPK : Nat := 48879
  let (v, r, s) := (← signPermit wrongPK STAKER_1 ALICE_PROVER stakeAmount deadline)
  expectRevert none do
      let _ ← permitAndStake_ ALICE_PROVER STAKER_1 stakeAmount deadline v
  check ((← balanceOf PROVE STAKER_1) = STAKER_PROVE_AMOUNT)
  check ((← balanceOf PROVE I_PROVE) = 0)
  check ((← balanceOf ALICE_PROVER STAKING) = 0)

/-- `test_RevertPermitAndStake_WhenDeadlineExpired`, `contracts/test/SuccinctStaking.stake.t.sol:250`. -/
def test_RevertPermitAndStake_WhenDeadlineExpired : T Unit := do
  let mut stakeAmount : Nat := STAKER_PROVE_AMOUNT
  let mut deadline : Nat := (← csub (← now) 1)
  let (v, r, s) := (← signPermit STAKER_1_PK STAKER_1 ALICE_PROVER stakeAmount deadline)
  expectRevert (some .invalidPermit) do
      let _ ← permitAndStake_ ALICE_PROVER STAKER_1 stakeAmount deadline v
  check ((← balanceOf PROVE STAKING) = DISPENSE_AMOUNT)
  check ((← balanceOf PROVE STAKER_1) = STAKER_PROVE_AMOUNT)

/-- `test_RevertPermitAndStake_WhenNotEnoughApproved`, `contracts/test/SuccinctStaking.stake.t.sol:271`. -/
def test_RevertPermitAndStake_WhenNotEnoughApproved : T Unit := do
  let mut approveAmount : Nat := (STAKER_PROVE_AMOUNT / 2)
  let mut stakeAmount : Nat := STAKER_PROVE_AMOUNT
  let mut deadline : Nat := ((← now) + 86400)
  let (v, r, s) := (← signPermit STAKER_1_PK STAKER_1 ALICE_PROVER approveAmount deadline)
  expectRevert none do
      let _ ← permitAndStake_ ALICE_PROVER STAKER_1 stakeAmount deadline v
  check ((← balanceOf PROVE STAKER_1) = STAKER_PROVE_AMOUNT)
  check ((← balanceOf PROVE I_PROVE) = 0)
  check ((← balanceOf ALICE_PROVER STAKING) = 0)

/-- `testFuzz_Stake_WhenValid`, `contracts/test/SuccinctStaking.stake.t.sol:292`. -/
def testFuzz_Stake_WhenValid (_stakeAmount : Nat) : T Unit := do
  let mut _stakeAmount := _stakeAmount
  let mut stakeAmount : Nat := (bound _stakeAmount MIN_STAKE_AMOUNT STAKER_PROVE_AMOUNT)
  let _ ← _stake STAKER_1 ALICE_PROVER stakeAmount
  check ((← balanceOf STAKING STAKER_1) = stakeAmount)
  check ((← staked_ STAKER_1) = stakeAmount)
  check ((← balanceOf PROVE STAKER_1) = (← csub STAKER_PROVE_AMOUNT stakeAmount))
  check ((← balanceOf I_PROVE ALICE_PROVER) = stakeAmount)
  check ((← balanceOf PROVE I_PROVE) = stakeAmount)

/-- `testFuzz_PermitAndStake_WhenValid`, `contracts/test/SuccinctStaking.stake.t.sol:305`. -/
def testFuzz_PermitAndStake_WhenValid (_stakeAmount : Nat) : T Unit := do
  let mut _stakeAmount := _stakeAmount
  let mut stakeAmount : Nat := (bound _stakeAmount MIN_STAKE_AMOUNT STAKER_PROVE_AMOUNT)
  let _ ← _permitAndStake STAKER_1 STAKER_1_PK ALICE_PROVER stakeAmount
  check ((← balanceOf STAKING STAKER_1) = stakeAmount)
  check ((← staked_ STAKER_1) = stakeAmount)
  check ((← balanceOf PROVE STAKER_1) = (← csub STAKER_PROVE_AMOUNT stakeAmount))
  check ((← balanceOf I_PROVE ALICE_PROVER) = stakeAmount)
  check ((← balanceOf PROVE I_PROVE) = stakeAmount)

/-- `testFuzz_Stake_WhenMultipleStakersSameProver`, `contracts/test/SuccinctStaking.stake.t.sol:318`. -/
def testFuzz_Stake_WhenMultipleStakersSameProver (_stakeAmount1 : Nat) (_stakeAmount2 : Nat) : T Unit := do
  let mut _stakeAmount1 := _stakeAmount1
  let mut _stakeAmount2 := _stakeAmount2
  let mut stakeAmount1 : Nat := (bound _stakeAmount1 MIN_STAKE_AMOUNT STAKER_PROVE_AMOUNT)
  let mut stakeAmount2 : Nat := (bound _stakeAmount2 MIN_STAKE_AMOUNT STAKER_PROVE_AMOUNT)
  let _ ← _stake STAKER_1 ALICE_PROVER stakeAmount1
  let _ ← _stake STAKER_2 ALICE_PROVER stakeAmount2
  check ((← balanceOf STAKING STAKER_1) = stakeAmount1)
  check ((← balanceOf STAKING STAKER_2) = stakeAmount2)
  check ((← staked_ STAKER_1) = stakeAmount1)
  check ((← staked_ STAKER_2) = stakeAmount2)
  check ((← balanceOf PROVE STAKER_1) = (← csub STAKER_PROVE_AMOUNT stakeAmount1))
  check ((← balanceOf PROVE STAKER_2) = (← csub STAKER_PROVE_AMOUNT stakeAmount2))
  check ((← balanceOf I_PROVE ALICE_PROVER) = (stakeAmount1 + stakeAmount2))
  check ((← balanceOf PROVE I_PROVE) = (stakeAmount1 + stakeAmount2))

/-- `testFuzz_PermitAndStake_WhenMultipleStakersDifferentProvers`, `contracts/test/SuccinctStaking.stake.t.sol:339`. -/
def testFuzz_PermitAndStake_WhenMultipleStakersDifferentProvers (_stakeAmount1 : Nat) (_stakeAmount2 : Nat) : T Unit := do
  let mut _stakeAmount1 := _stakeAmount1
  let mut _stakeAmount2 := _stakeAmount2
  let mut stakeAmount1 : Nat := (bound _stakeAmount1 MIN_STAKE_AMOUNT STAKER_PROVE_AMOUNT)
  let mut stakeAmount2 : Nat := (bound _stakeAmount2 MIN_STAKE_AMOUNT STAKER_PROVE_AMOUNT)
  let _ ← _permitAndStake STAKER_1 STAKER_1_PK ALICE_PROVER stakeAmount1
  let _ ← _permitAndStake STAKER_2 STAKER_2_PK BOB_PROVER stakeAmount2
  check ((← balanceOf STAKING STAKER_1) = stakeAmount1)
  check ((← balanceOf STAKING STAKER_2) = stakeAmount2)
  check ((← staked_ STAKER_1) = stakeAmount1)
  check ((← staked_ STAKER_2) = stakeAmount2)
  check ((← balanceOf PROVE STAKER_1) = (← csub STAKER_PROVE_AMOUNT stakeAmount1))
  check ((← balanceOf PROVE STAKER_2) = (← csub STAKER_PROVE_AMOUNT stakeAmount2))
  check ((← balanceOf I_PROVE ALICE_PROVER) = stakeAmount1)
  check ((← balanceOf I_PROVE BOB_PROVER) = stakeAmount2)
  check ((← balanceOf PROVE I_PROVE) = (stakeAmount1 + stakeAmount2))

example : passes test_Stake_WhenValid = true := by decide +kernel
example : passes test_RevertStake_WhenProverNotFound = true := by decide +kernel
example : passes test_RevertStake_WhenZeroAmount = true := by decide +kernel
example : passes test_RevertStake_WhenBelowMinStakeAmount = true := by decide +kernel
example : passes test_RevertStake_WhenProverDeactivated = true := by decide +kernel
example : passes test_RevertStake_WhenStakedToADifferentProver = true := by decide +kernel
example : passes test_RevertStake_WhenProverHasSlashRequest = true := by decide +kernel
example : passes test_RevertStake_WheniPROVEReceiptAmountIsZero = true := by decide +kernel
example : passes test_RevertStake_WhenProverNReceiptAmountIsZero = true := by decide +kernel
example : passes test_PermitAndStake_WhenValid = true := by decide +kernel
example : passes test_PermitAndStake_WhenLessThanApproved = true := by decide +kernel
example : passes test_PermitAndStake_WhenAttackerFrontruns = true := by decide +kernel
example : passes test_RevertPermitAndStake_WhenSignatureInvalid = true := by decide +kernel
example : passes test_RevertPermitAndStake_WhenDeadlineExpired = true := by decide +kernel
example : passes test_RevertPermitAndStake_WhenNotEnoughApproved = true := by decide +kernel
example : passes (testFuzz_Stake_WhenValid 0) = true := by decide +kernel
example : passes (testFuzz_Stake_WhenValid 57896044618658097711785492504343953926634992332820282019728792003956564832313) = true := by decide +kernel
example : passes (testFuzz_Stake_WhenValid 123456789012345678901234567890) = true := by decide +kernel
example : passes (testFuzz_PermitAndStake_WhenValid 0) = true := by decide +kernel
example : passes (testFuzz_PermitAndStake_WhenValid 57896044618658097711785492504343953926634992332820282019728792003956564832313) = true := by decide +kernel
example : passes (testFuzz_PermitAndStake_WhenValid 123456789012345678901234567890) = true := by decide +kernel
example : passes (testFuzz_Stake_WhenMultipleStakersSameProver 0 115792089237316195423570985008687907853269984665640564039457584007913129639935) = true := by decide +kernel
example : passes (testFuzz_Stake_WhenMultipleStakersSameProver 57896044618658097711785492504343953926634992332820282019728792003956564832313 7) = true := by decide +kernel
example : passes (testFuzz_Stake_WhenMultipleStakersSameProver 123456789012345678901234567890 31415926535897932384626433832795028841) = true := by decide +kernel
example : passes (testFuzz_PermitAndStake_WhenMultipleStakersDifferentProvers 0 115792089237316195423570985008687907853269984665640564039457584007913129639935) = true := by decide +kernel
example : passes (testFuzz_PermitAndStake_WhenMultipleStakersDifferentProvers 57896044618658097711785492504343953926634992332820282019728792003956564832313 7) = true := by decide +kernel
example : passes (testFuzz_PermitAndStake_WhenMultipleStakersDifferentProvers 123456789012345678901234567890 31415926535897932384626433832795028841) = true := by decide +kernel

end Verif.ConformL1.ConformSolStake
