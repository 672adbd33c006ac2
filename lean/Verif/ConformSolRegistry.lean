import Verif.ConformL1
/-
# The tests of `contracts/test/SuccinctStaking.registry.t.sol` on the contract model

Transcribed statement by statement; see `Verif/ConformL1.lean` for what stands for what. These are tests, not proofs.
-/

namespace Verif.ConformL1.ConformSolRegistry
open Verif

set_option linter.unusedVariables false

/-- `test_CreateProver_WhenValid`, `contracts/test/SuccinctStaking.registry.t.sol:12`. -/
def test_CreateProver_WhenValid : T Unit := do
  let mut proverOwner : Address := (named 8)
  let mut prover : Address := (← createProver_ proverOwner STAKER_FEE_BIPS)
  check ((← prover_owner prover) = proverOwner)
  check ((← prover_id prover) = 3)

/-- `test_RevertCreateProver_WhenAlreadyCreated`, `contracts/test/SuccinctStaking.registry.t.sol:24`. -/
def test_RevertCreateProver_WhenAlreadyCreated : T Unit := do
  let mut proverOwner : Address := (named 8)
  let _ ← createProver_ proverOwner STAKER_FEE_BIPS
  expectRevert (some .proverAlreadyExists) do
      let _ ← createProver_ proverOwner STAKER_FEE_BIPS

/-- `testFuzz_CreateProver_WhenWithVariableFees`, `contracts/test/SuccinctStaking.registry.t.sol:35`. -/
def testFuzz_CreateProver_WhenWithVariableFees (_stakerFeeBips : Nat) : T Unit := do
  let mut _stakerFeeBips := _stakerFeeBips
  let mut stakerFeeBips : Nat := (bound _stakerFeeBips 0 FEE_UNIT)
  let mut proverOwner : Address := (named 8)
  let mut prover : Address := (← createProver_ proverOwner stakerFeeBips)
  check ((← prover_owner prover) = proverOwner)
  check ((← prover_stakerFeeBips prover) = stakerFeeBips)
  let _ ← _stake STAKER_1 prover MIN_STAKE_AMOUNT
  check ((← proverStaked_ prover) = MIN_STAKE_AMOUNT)

/-- `testFuzz_CreateProver_WhenMultipleProvers`, `contracts/test/SuccinctStaking.registry.t.sol:51`. -/
def testFuzz_CreateProver_WhenMultipleProvers (_numProvers : Nat) : T Unit := do
  let mut _numProvers := _numProvers
  let mut numProvers : Nat := (bound _numProvers 1 10)
  let mut provers : List Address := List.replicate numProvers 0
  for i in List.range' 0 (numProvers - 0) do
    let mut proverOwner : Address := (namedN 9 i)
    let mut feeBips : Nat := ((i * FEE_UNIT) / numProvers)
    provers := provers.set i (← createProver_ proverOwner feeBips)
    check ((← prover_owner (← at_ provers i)) = proverOwner)
    check ((← prover_stakerFeeBips (← at_ provers i)) = feeBips)
    check ((← prover_id (← at_ provers i)) = (i + 3))
  for i in List.range' 0 (numProvers - 0) do
    for j in List.range' (i + 1) (numProvers - (i + 1)) do
      check ((← at_ provers i) ≠ (← at_ provers j))

/-- `testFuzz_CreateProver_WhenProverOwnershipAndStaking`, `contracts/test/SuccinctStaking.registry.t.sol:76`. -/
def testFuzz_CreateProver_WhenProverOwnershipAndStaking (_proverOwner : Address) (_staker : Address) (_stakeAmount : Nat) : T Unit := do
  let mut _proverOwner := _proverOwner
  let mut _staker := _staker
  let mut _stakeAmount := _stakeAmount
  if ¬ (_proverOwner ≠ (0 : Address)) then return ()
  if ¬ (_staker ≠ (0 : Address)) then return ()
  if ¬ (_proverOwner ≠ _staker) then return ()
  if ¬ ((← getProver_ _proverOwner) = (0 : Address)) then return ()
  if ¬ ((_staker ≠ ALICE) ∧ (_staker ≠ BOB)) then return ()
  let mut stakeAmount : Nat := (bound _stakeAmount MIN_STAKE_AMOUNT STAKER_PROVE_AMOUNT)
  let mut prover : Address := (← createProver_ _proverOwner STAKER_FEE_BIPS)
  deal PROVE _staker stakeAmount
  let _ ← approve _staker PROVE STAKING stakeAmount
  let _ ← stake_ _staker prover stakeAmount
  check ((← prover_owner prover) = _proverOwner)
  check ((← stakedTo_ _staker) = prover)
  check ((← staked_ _staker) = stakeAmount)

example : passes test_CreateProver_WhenValid = true := by decide +kernel
example : passes test_RevertCreateProver_WhenAlreadyCreated = true := by decide +kernel
example : passes (testFuzz_CreateProver_WhenWithVariableFees 0) = true := by decide +kernel
example : passes (testFuzz_CreateProver_WhenWithVariableFees 57896044618658097711785492504343953926634992332820282019728792003956564832313) = true := by decide +kernel
example : passes (testFuzz_CreateProver_WhenWithVariableFees 123456789012345678901234567890) = true := by decide +kernel
example : passes (testFuzz_CreateProver_WhenMultipleProvers 0) = true := by decide +kernel
example : passes (testFuzz_CreateProver_WhenMultipleProvers 57) = true := by decide +kernel
example : passes (testFuzz_CreateProver_WhenMultipleProvers 210) = true := by decide +kernel
example : passes (testFuzz_CreateProver_WhenProverOwnershipAndStaking (700 : Address) (701 : Address) 0) = true := by decide +kernel
example : passes (testFuzz_CreateProver_WhenProverOwnershipAndStaking (713 : Address) (714 : Address) 57896044618658097711785492504343953926634992332820282019728792003956564832313) = true := by decide +kernel
example : passes (testFuzz_CreateProver_WhenProverOwnershipAndStaking (726 : Address) (727 : Address) 123456789012345678901234567890) = true := by decide +kernel

end Verif.ConformL1.ConformSolRegistry
