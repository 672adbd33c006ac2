import Verif.ConformVappSol
import Verif.Events
/-
# The events that the repository's Solidity tests expect

The tests of `contracts/test` that use `vm.expectEmit` or `vm.recordLogs`, reduced to the calls before the expected
events and those events (the other assertions are in `ConformSol*` and `ConformVappSol`). `vm.expectEmit` demands the
events in that order; others may come between. These are tests of the model, not proofs.
-/

namespace Verif.ConformEvents
open Verif Verif.ConformL1 Verif.ConformVappSol

/-- A call, and the events it leaves. -/
def txE (sender : Address) (k : Call) : T (List Ev) := fun s =>
  match execE cfg (ctx sender s.now) k s.w with
  | .ok (_, w', es) => .ok (es, { s with w := w' })
  | .error e => .error (.reverted e)

/-- `vm.expectEmit` before a call. -/
def emits (sender : Address) (k : Call) (es : List Ev) : T Unit := do
  let log ← txE sender k
  check (es.isSublist log = true)

/-! ## The vApp contract -/

/-- `contracts/test/SuccinctVApp.step.t.sol:18-21`. -/
def test_Step_WhenValid : T Unit :=
  emits AUCTIONEER (.step fixture.encode []) [.block 1 fixture.oldRoot fixture.newRoot]

/-- `contracts/test/SuccinctVApp.step.t.sol:29-51`. -/
def test_Step_WhenValidTwice : T Unit := do
  let _ ← step_ AUCTIONEER fixture.encode
  emits AUCTIONEER (.step (pv fixture.newRoot 2 (← now)) []) [.block 2 fixture.newRoot 2]

/-- `contracts/test/SuccinctVApp.step.t.sol:169-187`. -/
def test_Step_WhenTimestampExactlyOneHourOld : T Unit := do
  warp 7200
  emits AUCTIONEER (.step (pv fixture.oldRoot 1 ((← now) - 3600)) []) [.block 1 fixture.oldRoot 1]

/-- The steps of the two deposit tests, `contracts/test/SuccinctVApp.deposit.t.sol:63-69,114-120`. -/
def completed (data : Bytes) : T Unit := do
  emits AUCTIONEER (.step (pv fixture.oldRoot 1 (← now) [⟨.deposit, .completed, 1, data⟩]) [])
    [.transactionCompleted 1 .deposit data, .block 1 fixture.oldRoot 1]

/-- `contracts/test/SuccinctVApp.deposit.t.sol:21-69`. -/
def test_Deposit_WhenValid : T Unit := do
  let amount := (← vapp_).minDepositAmount
  deal PROVE REQUESTER_1 amount
  let _ ← approve REQUESTER_1 PROVE VAPP amount
  let data := (Deposit.mk REQUESTER_1 (u amount)).abi
  emits REQUESTER_1 (.deposit (u amount)) [.transactionPending 1 .deposit data]
  completed data

/-- `contracts/test/SuccinctVApp.deposit.t.sol:79-120`. -/
def test_PermitAndDeposit_WhenValid : T Unit := do
  let amount := (← vapp_).minDepositAmount
  deal PROVE REQUESTER_1 amount
  let data := (Deposit.mk REQUESTER_1 (u amount)).abi
  emits REQUESTER_1 (.permitAndDeposit REQUESTER_1 REQUESTER_1 (u amount)) [.transactionPending 1 .deposit data]
  completed data

/-- `contracts/test/SuccinctVApp.delegate.t.sol:17-54`. The test does not compare the data of the first event. -/
def test_Prover_WhenProverCreated : T Unit := do
  let log ← txE ALICE (.createProver (u STAKER_FEE_BIPS))
  check (log.any (fun | .transactionPending 1 .createProver _ => true | _ => false) = true)
  let data := (CreateProver.mk ((← vapp_).transactions 1 |>.action |> decCreateProver |>.map (·.1) |>.getD 0) ALICE
    (u STAKER_FEE_BIPS)).abi
  emits AUCTIONEER (.step (pv fixture.oldRoot 1 (← now) [⟨.createProver, .completed, 1, data⟩]) [])
    [.block 1 fixture.oldRoot 1]

/-- `contracts/test/SuccinctVApp.fork.t.sol:10-23` and `SuccinctVApp.owner.t.sol:14-25`. -/
def test_Fork_WhenValid : T Unit :=
  emits OWNER (.fork 1 2) [.fork 1 fixtureVkey 1, .block 1 fixture.oldRoot 2]

/-- `contracts/test/SuccinctVApp.fork.t.sol:34-66`. -/
def test_Fork_WhenValidAfterUpdateState : T Unit := do
  let _ ← step_ AUCTIONEER (pv fixture.oldRoot 1 (← now))
  emits OWNER (.fork 99 2) [.fork 2 fixtureVkey 99, .block 2 1 2]

/-- `contracts/test/SuccinctVApp.owner.t.sol:38-163`: the owner's updates. The account in `Paused` and `Unpaused` is
not modelled. -/
def test_owner : T Unit := do
  emits OWNER (.updateAuctioneer 1) [.auctioneerUpdate AUCTIONEER 1]
  emits OWNER (.updateStaking 1) [.stakingUpdate STAKING 1]
  emits OWNER (.updateVerifier 1) [.verifierUpdate VERIFIER 1]
  emits OWNER (.updateMinDeposit 10000000) [.minDepositAmountUpdate (10 ^ 16) 10000000]
  emits OWNER (.updateMinDeposit 20000000) [.minDepositAmountUpdate 10000000 20000000]
  emits OWNER (.updateMinDeposit 0) [.minDepositAmountUpdate 20000000 0]
  emits OWNER .pause [.paused]
  emits OWNER .unpause [.unpaused]

example : vpasses test_Step_WhenValid = true := by decide +kernel
example : vpasses test_Step_WhenValidTwice = true := by decide +kernel
example : vpasses test_Step_WhenTimestampExactlyOneHourOld = true := by decide +kernel
example : vpasses test_Deposit_WhenValid = true := by decide +kernel
example : vpasses test_PermitAndDeposit_WhenValid = true := by decide +kernel
example : vpasses test_Prover_WhenProverCreated = true := by decide +kernel
example : vpasses test_Fork_WhenValid = true := by decide +kernel
example : vpasses test_Fork_WhenValidAfterUpdateState = true := by decide +kernel
example : vpasses test_owner = true := by decide +kernel

/-! ## The staking contract -/

/-- `contracts/test/SuccinctStaking.stake.t.sol:14-34`. -/
def test_Stake_WhenValid : T Unit := do
  let n := STAKER_PROVE_AMOUNT
  let _ ← approve STAKER_1 PROVE STAKING n
  emits STAKER_1 (.stake ALICE_PROVER (u n)) [.proverBound STAKER_1 ALICE_PROVER, .stake STAKER_1 ALICE_PROVER n n n]

/-- `contracts/test/SuccinctStaking.unstake.t.sol:13-74`. -/
def test_Unstake_WhenValid : T Unit := do
  let n := STAKER_PROVE_AMOUNT
  let _ ← _permitAndStake STAKER_1 STAKER_1_PK ALICE_PROVER n
  emits STAKER_1 (.requestUnstake (u n)) [.unstakeRequest STAKER_1 ALICE_PROVER n n]
  skip UNSTAKE_PERIOD
  emits STAKER_1 (.finishUnstake STAKER_1) [.unstake STAKER_1 ALICE_PROVER n n, .proverUnbound STAKER_1 ALICE_PROVER]

/-- `test_Slash_Events`, `contracts/test/SuccinctStaking.slash.t.sol:1030-1126`. -/
def test_Slash_Events : T Unit := do
  let n := STAKER_PROVE_AMOUNT
  let _ ← _stake STAKER_1 ALICE_PROVER n
  let _ ← _stake STAKER_2 ALICE_PROVER n
  _requestUnstake STAKER_1 n
  let vaultBefore ← balanceOf I_PROVE ALICE_PROVER
  let poolBefore ← escrowPool_ ALICE_PROVER
  check (vaultBefore = n)
  check (poolBefore.iPROVEEscrow = n)
  let slashAmount := n * 3 / 2
  let i ← _requestSlash ALICE_PROVER slashAmount
  let total := vaultBefore + poolBefore.iPROVEEscrow
  let escrowBurn := slashAmount * poolBefore.iPROVEEscrow / total
  let vaultBurn ← csub slashAmount escrowBurn
  let proveBurned ← previewRedeem I_PROVE slashAmount
  let log ← txE OWNER (.finishSlash ALICE_PROVER (u i))
  check (log.filter (fun | .slash .. => true | _ => false) = [.slash ALICE_PROVER proveBurned slashAmount i])
  check ((← balanceOf I_PROVE ALICE_PROVER) = vaultBefore - vaultBurn)
  check ((← escrowPool_ ALICE_PROVER).iPROVEEscrow = poolBefore.iPROVEEscrow - escrowBurn)

/-- The number of `ProverDeactivation` events. -/
def deactivations (log : List Ev) : Nat := log.countP fun | .proverDeactivation _ => true | _ => false

/-- `test_Slash_Events_WhenDeactivated`, `contracts/test/SuccinctStaking.slash.t.sol:1128-1177`. -/
def test_Slash_Events_WhenDeactivated : T Unit := do
  let n := STAKER_PROVE_AMOUNT
  let _ ← _stake STAKER_1 ALICE_PROVER n
  let total ← proverStaked_ ALICE_PROVER
  let i ← _requestSlash ALICE_PROVER total
  let j ← _requestSlash ALICE_PROVER total
  let log ← txE OWNER (.finishSlash ALICE_PROVER (u i))
  check (deactivations log = 1)
  check ((← isDeactivatedProver_ ALICE_PROVER) = true)
  let log ← txE OWNER (.finishSlash ALICE_PROVER (u j))
  check (deactivations log = 0)
  check ((← isDeactivatedProver_ ALICE_PROVER) = true)

example : passes test_Stake_WhenValid = true := by decide +kernel
example : passes test_Unstake_WhenValid = true := by decide +kernel
example : passes test_Slash_Events = true := by decide +kernel
example : passes test_Slash_Events_WhenDeactivated = true := by decide +kernel

end Verif.ConformEvents
