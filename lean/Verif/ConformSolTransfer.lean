import Verif.ConformL1
/-
# The tests of `contracts/test/SuccinctStaking.transfer.t.sol` on the contract model

Transcribed statement by statement; see `Verif/ConformL1.lean` for what stands for what. These are tests, not proofs.
-/

namespace Verif.ConformL1.ConformSolTransfer
open Verif

set_option linter.unusedVariables false

/-- `test_Transfer_WhenProve`, `contracts/test/SuccinctStaking.transfer.t.sol:12`. -/
def test_Transfer_WhenProve : T Unit := do
  let mut transferAmount : Nat := STAKER_PROVE_AMOUNT
  let mut currentBalance : Nat := (← balanceOf PROVE STAKER_2)
  let mut success : Bool := (← transfer STAKER_1 PROVE STAKER_2 transferAmount)
  check (success = true)
  check ((← balanceOf PROVE STAKER_2) = (currentBalance + transferAmount))

/-- `test_RevertTransfer_WheniPROVE`, `contracts/test/SuccinctStaking.transfer.t.sol:23`. -/
def test_RevertTransfer_WheniPROVE : T Unit := do
  let mut stakeAmount : Nat := STAKER_PROVE_AMOUNT
  let _ ← _stake STAKER_1 ALICE_PROVER stakeAmount
  expectRevert (some .nonTransferable) do
      let _ ← transfer TEST I_PROVE OWNER stakeAmount
  let mut success : Bool := false
  check (¬ (success = true))

/-- `test_RevertTransfer_WhenPROVER`, `contracts/test/SuccinctStaking.transfer.t.sol:36`. -/
def test_RevertTransfer_WhenPROVER : T Unit := do
  let mut stakeAmount : Nat := STAKER_PROVE_AMOUNT
  let _ ← _stake STAKER_1 ALICE_PROVER stakeAmount
  expectRevert (some .nonTransferable) do
      let _ ← transfer TEST ALICE_PROVER OWNER stakeAmount
  let mut success : Bool := false
  check (¬ (success = true))

/-- `test_RevertTransfer_WhenstPROVE`, `contracts/test/SuccinctStaking.transfer.t.sol:49`. -/
def test_RevertTransfer_WhenstPROVE : T Unit := do
  let mut stakeAmount : Nat := STAKER_PROVE_AMOUNT
  let _ ← _stake STAKER_1 ALICE_PROVER stakeAmount
  expectRevert (some .nonTransferable) do
      let _ ← transfer TEST STAKING OWNER stakeAmount
  let mut success : Bool := false
  check (¬ (success = true))

/-- `test_RevertDeposit_WhenDirectiPROVE`, `contracts/test/SuccinctStaking.transfer.t.sol:62`. -/
def test_RevertDeposit_WhenDirectiPROVE : T Unit := do
  let mut stakeAmount : Nat := STAKER_PROVE_AMOUNT
  let _ ← approve STAKER_1 PROVE I_PROVE stakeAmount
  expectRevert (some .nonTransferable) do
      let _ ← deposit4626 STAKER_1 I_PROVE stakeAmount STAKER_1

/-- `test_RevertMint_WhenDirectiPROVE`, `contracts/test/SuccinctStaking.transfer.t.sol:75`. -/
def test_RevertMint_WhenDirectiPROVE : T Unit := do
  let mut stakeAmount : Nat := STAKER_PROVE_AMOUNT
  let _ ← approve STAKER_1 PROVE I_PROVE stakeAmount
  expectRevert (some .nonTransferable) do
      let _ ← mint4626 STAKER_1 I_PROVE stakeAmount STAKER_1

/-- `test_RevertWithdraw_WhenDirectiPROVEFromStaker`, `contracts/test/SuccinctStaking.transfer.t.sol:88`. -/
def test_RevertWithdraw_WhenDirectiPROVEFromStaker : T Unit := do
  let mut stakeAmount : Nat := STAKER_PROVE_AMOUNT
  let _ ← _stake STAKER_1 ALICE_PROVER stakeAmount
  let _ ← approve ALICE_PROVER I_PROVE STAKER_1 stakeAmount
  expectRevert (some .nonTransferable) do
      let _ ← withdraw4626 STAKER_1 I_PROVE stakeAmount STAKER_1 ALICE_PROVER

/-- `test_RevertRedeem_WhenDirectiPROVERFromStaker`, `contracts/test/SuccinctStaking.transfer.t.sol:104`. -/
def test_RevertRedeem_WhenDirectiPROVERFromStaker : T Unit := do
  let mut stakeAmount : Nat := STAKER_PROVE_AMOUNT
  let _ ← _stake STAKER_1 ALICE_PROVER stakeAmount
  let _ ← approve ALICE_PROVER I_PROVE STAKER_1 stakeAmount
  expectRevert (some .nonTransferable) do
      let _ ← redeem4626 STAKER_1 I_PROVE stakeAmount STAKER_1 ALICE_PROVER

/-- `test_RevertWithdraw_WhenDirectiPROVEFromProver`, `contracts/test/SuccinctStaking.transfer.t.sol:120`. -/
def test_RevertWithdraw_WhenDirectiPROVEFromProver : T Unit := do
  let mut stakeAmount : Nat := STAKER_PROVE_AMOUNT
  let _ ← _stake STAKER_1 ALICE_PROVER stakeAmount
  expectRevert (some .nonTransferable) do
      let _ ← withdraw4626 ALICE_PROVER I_PROVE stakeAmount STAKER_1 ALICE_PROVER

/-- `test_RevertRedeem_WhenDirectiPROVEFromProver`, `contracts/test/SuccinctStaking.transfer.t.sol:133`. -/
def test_RevertRedeem_WhenDirectiPROVEFromProver : T Unit := do
  let mut stakeAmount : Nat := STAKER_PROVE_AMOUNT
  let _ ← _stake STAKER_1 ALICE_PROVER stakeAmount
  expectRevert (some .nonTransferable) do
      let _ ← redeem4626 ALICE_PROVER I_PROVE stakeAmount STAKER_1 ALICE_PROVER

example : passes test_Transfer_WhenProve = true := by decide +kernel
example : passes test_RevertTransfer_WheniPROVE = true := by decide +kernel
example : passes test_RevertTransfer_WhenPROVER = true := by decide +kernel
example : passes test_RevertTransfer_WhenstPROVE = true := by decide +kernel
example : passes test_RevertDeposit_WhenDirectiPROVE = true := by decide +kernel
example : passes test_RevertMint_WhenDirectiPROVE = true := by decide +kernel
example : passes test_RevertWithdraw_WhenDirectiPROVEFromStaker = true := by decide +kernel
example : passes test_RevertRedeem_WhenDirectiPROVERFromStaker = true := by decide +kernel
example : passes test_RevertWithdraw_WhenDirectiPROVEFromProver = true := by decide +kernel
example : passes test_RevertRedeem_WhenDirectiPROVEFromProver = true := by decide +kernel

end Verif.ConformL1.ConformSolTransfer
