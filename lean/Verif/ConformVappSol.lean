import Verif.ConformL1
import Verif.Deploy
/-
# Running the repository's Solidity tests of the vApp contract and of $PROVE on the contract model

`contracts/test/SuccinctVApp.*.t.sol` and `SuccinctToken.t.sol`, transcribed by hand into the monad of `ConformL1` (see
there for what stands for what). `fixture` is `contracts/fixtures/groth16-fixture.json`; `MockERC20` is the $PROVE of
the model; `mockCall(false)` makes the verifier refuse. `MockStaking.createProver` is the registry of the model.
These are tests of the model, not proofs.
-/

namespace Verif.ConformVappSol
open Verif Verif.ConformL1

/-- `REQUESTER_1`. -/
def REQUESTER_1 : Address := REQUESTER
def VERIFIER : Address := 202
/-- `contracts/fixtures/groth16-fixture.json:2`. -/
def fixtureVkey : B256 := 0x0068a1364c615f3e29f943939d8d95009698ecb9e3f53465c392d0b8b052aa04
/-- The public values of the fixture, decoded (`ConformReal` decodes the actual bytes). -/
def fixture : StepValues :=
  ⟨0xd0d33dd33e505b5ac87c3d8b39bd21266151a8c61ed7d1c55fd3fda9a628f54f,
   0xd0d33dd33e505b5ac87c3d8b39bd21266151a8c61ed7d1c55fd3fda9a628f54f, 0, []⟩

/-- The contracts after `setUp`, `contracts/test/SuccinctVApp.t.sol:71-138`. -/
def vappDeployed : S :=
  { deployed with w := { deployed.w with
      vapp := { deployed.w.vapp with
        vkey := fixtureVkey
        verifier := VERIFIER
        minDepositAmount := 10 ^ 16
        roots := fun b => if b = 0 then fixture.oldRoot else 0 } } }

/-- Does the test pass? -/
def vpasses (t : T Unit) : Bool :=
  match t vappDeployed with
  | .ok _ => true
  | .error _ => false

/-- `step`, with a verifier that answers `verified`. -/
def step_ (sender : Address) (pv : Bytes) (verified : Bool := true) : T (U64 × B256 × B256) :=
  tx sender fun c => vappStep cfg { c with verifyProof := fun _ _ _ _ => verified } pv []
def fork_ (sender : Address) (vkey root : B256) : T (U64 × B256 × B256) := tx sender fun c => vappFork c vkey root
def deposit_ (sender : Address) (n : Nat) : T U64 := tx sender fun c => vappDeposit cfg c (u n)
def vapp_ : T VApp := rd (·.vapp)
/-- `root()`, `contracts/src/SuccinctVApp.sol:165-167`. -/
def root_ : T B256 := rd fun w => w.vapp.roots w.vapp.blockNumber
/-- `timestamp()`, `contracts/src/SuccinctVApp.sol:170-172`. -/
def timestamp_ : T U64 := rd fun w => w.vapp.timestamps w.vapp.blockNumber
/-- `permitAndDeposit`. -/
def permitAndDeposit_ (from_ : Address) (n deadline : Nat) (sig : Sig) : T U64 := do
  let s ← (fun s => .ok (s, s) : T S)
  let id ← tx REQUESTER_1 fun _ => vappPermitAndDeposit cfg (recovered s sig from_ VAPP n deadline) from_ (u n)
  if s.w.prove.allow from_ VAPP ≠ n then useNonce from_
  return id
/-- Public values without receipts. -/
def pv (old new : B256) (t : Nat) (rs : List SolReceipt := []) : Bytes :=
  (⟨old, new, BitVec.ofNat 64 t, rs⟩ : StepValues).encode

/-! ## `contracts/test/SuccinctVApp.t.sol` -/

/-- `test_SetUp`, `contracts/test/SuccinctVApp.t.sol:183`. -/
def test_SetUp : T Unit := do
  let v ← vapp_
  check (v.owner = OWNER)
  check (v.auctioneer = AUCTIONEER)
  check (v.staking = STAKING)
  check (v.verifier = VERIFIER)
  check (v.vkey = fixtureVkey)
  check ((← root_) = fixture.oldRoot)
  check ((← timestamp_) = 0)
  check (v.blockNumber = 0)

example : vpasses test_SetUp = true := by decide +kernel

/-! ## `contracts/test/SuccinctVApp.step.t.sol` -/

/-- `test_Step_WhenValid`, `contracts/test/SuccinctVApp.step.t.sol:10`. -/
def test_Step_WhenValid : T Unit := do
  check ((← vapp_).blockNumber = 0)
  check ((← vapp_).roots 0 = fixture.oldRoot)
  check ((← vapp_).roots 1 = 0)
  check ((← root_) = fixture.oldRoot)
  let _ ← step_ AUCTIONEER fixture.encode
  check ((← vapp_).blockNumber = 1)
  check ((← vapp_).roots 0 = fixture.oldRoot)
  check ((← vapp_).roots 1 = fixture.newRoot)
  check ((← root_) = fixture.newRoot)

/-- `test_Step_WhenValidTwice`, `contracts/test/SuccinctVApp.step.t.sol:29`. -/
def test_Step_WhenValidTwice : T Unit := do
  let _ ← step_ AUCTIONEER fixture.encode
  check ((← vapp_).blockNumber = 1)
  check ((← vapp_).roots 0 = fixture.oldRoot)
  check ((← vapp_).roots 1 = fixture.newRoot)
  check ((← vapp_).roots 2 = 0)
  check ((← root_) = fixture.newRoot)
  let _ ← step_ AUCTIONEER (pv fixture.newRoot 2 (← now))
  check ((← vapp_).blockNumber = 2)
  check ((← vapp_).roots 0 = fixture.oldRoot)
  check ((← vapp_).roots 1 = fixture.newRoot)
  check ((← vapp_).roots 2 = 2)
  check ((← root_) = 2)

/-- `test_RevertStep_WhenInvalid`, `contracts/test/SuccinctVApp.step.t.sol:60`. -/
def test_RevertStep_WhenInvalid : T Unit :=
  expectRevert none do let _ ← step_ AUCTIONEER fixture.encode false

/-- `test_RevertStep_WhenInvalidRoot`, `contracts/test/SuccinctVApp.step.t.sol:69`. -/
def test_RevertStep_WhenInvalidRoot : T Unit := do
  let t ← now
  expectRevert (some .invalidRoot) do let _ ← step_ AUCTIONEER (pv 0 0 t)

/-- `test_RevertStep_WhenInvalidOldRoot`, `contracts/test/SuccinctVApp.step.t.sol:83`. -/
def test_RevertStep_WhenInvalidOldRoot : T Unit := do
  let _ ← step_ AUCTIONEER fixture.encode
  check ((← vapp_).blockNumber = 1)
  check ((← root_) = fixture.newRoot)
  let t ← now
  expectRevert (some .invalidOldRoot) do let _ ← step_ AUCTIONEER (pv 0 2 t)

/-- `test_RevertStep_WhenInvalidTimestampFuture`, `contracts/test/SuccinctVApp.step.t.sol:102`. -/
def test_RevertStep_WhenInvalidTimestampFuture : T Unit := do
  let t ← now
  expectRevert (some .invalidTimestamp) do let _ ← step_ AUCTIONEER (pv fixture.oldRoot 1 (t + 86400))

/-- `test_RevertStep_WhenTimestampInPast`, `contracts/test/SuccinctVApp.step.t.sol:118`. -/
def test_RevertStep_WhenTimestampInPast : T Unit := do
  let _ ← step_ AUCTIONEER (pv fixture.oldRoot 1 (← now))
  check ((← vapp_).blockNumber = 1)
  let recorded := ((← vapp_).timestamps 1).toNat
  let t ← csub recorded 1
  expectRevert (some .timestampInPast) do let _ ← step_ AUCTIONEER (pv 1 2 t)

/-- `test_RevertStep_WhenTimestampTooOld`, `contracts/test/SuccinctVApp.step.t.sol:150`. -/
def test_RevertStep_WhenTimestampTooOld : T Unit := do
  warp 7200
  let t ← csub (← now) 3601
  expectRevert (some .timestampTooOld) do let _ ← step_ AUCTIONEER (pv fixture.oldRoot 1 t)

/-- `test_Step_WhenTimestampExactlyOneHourOld`, `contracts/test/SuccinctVApp.step.t.sol:169`. -/
def test_Step_WhenTimestampExactlyOneHourOld : T Unit := do
  warp 7200
  let t ← csub (← now) 3600
  let _ ← step_ AUCTIONEER (pv fixture.oldRoot 1 t)
  check ((← vapp_).blockNumber = 1)
  check ((← vapp_).roots 1 = 1)
  check ((← root_) = 1)

/-- `test_RevertStep_WhenNotAuctioneer`, `contracts/test/SuccinctVApp.step.t.sol:194`. -/
def test_RevertStep_WhenNotAuctioneer : T Unit :=
  expectRevert (some .notAuctioneer) do let _ ← step_ REQUESTER_1 fixture.encode

example : vpasses test_Step_WhenValid = true := by decide +kernel
example : vpasses test_Step_WhenValidTwice = true := by decide +kernel
example : vpasses test_RevertStep_WhenInvalid = true := by decide +kernel
example : vpasses test_RevertStep_WhenInvalidRoot = true := by decide +kernel
example : vpasses test_RevertStep_WhenInvalidOldRoot = true := by decide +kernel
example : vpasses test_RevertStep_WhenInvalidTimestampFuture = true := by decide +kernel
example : vpasses test_RevertStep_WhenTimestampInPast = true := by decide +kernel
example : vpasses test_RevertStep_WhenTimestampTooOld = true := by decide +kernel
example : vpasses test_Step_WhenTimestampExactlyOneHourOld = true := by decide +kernel
example : vpasses test_RevertStep_WhenNotAuctioneer = true := by decide +kernel

/-! ## `contracts/test/SuccinctVApp.deposit.t.sol` -/

/-- The second half of the first two tests: the step that completes the deposit. -/
def completeDeposit (data : Bytes) : T Unit := do
  let _ ← step_ AUCTIONEER (pv fixture.oldRoot 1 (← now) [⟨.deposit, .completed, 1, data⟩])
  check (((← vapp_).transactions 1).status = .completed)
  check ((← vapp_).finalizedOnchainTxId = 1)

/-- `test_Deposit_WhenValid`, `contracts/test/SuccinctVApp.deposit.t.sol:21`. -/
def test_Deposit_WhenValid : T Unit := do
  let amount := (← vapp_).minDepositAmount
  deal PROVE REQUESTER_1 amount
  check ((← balanceOf PROVE REQUESTER_1) = amount)
  check ((← balanceOf PROVE VAPP) = 0)
  check ((← vapp_).currentOnchainTxId = 0)
  check (((← vapp_).transactions 1).status = .none)
  let _ ← approve REQUESTER_1 PROVE VAPP amount
  let data := (Deposit.mk REQUESTER_1 (u amount)).abi
  let id ← deposit_ REQUESTER_1 amount
  check (id = 1 ∧ ((← vapp_).transactions 1).variant = .deposit ∧ ((← vapp_).transactions 1).action = data)
  check ((← balanceOf PROVE REQUESTER_1) = 0)
  check ((← balanceOf PROVE VAPP) = amount)
  check ((← vapp_).currentOnchainTxId = 1)
  check (((← vapp_).transactions 1).status = .pending)
  completeDeposit data

/-- `test_PermitAndDeposit_WhenValid`, `contracts/test/SuccinctVApp.deposit.t.sol:79`. -/
def test_PermitAndDeposit_WhenValid : T Unit := do
  let amount := (← vapp_).minDepositAmount
  deal PROVE REQUESTER_1 amount
  let d := (← now) + 86400
  let (sig, _, _) ← signPermit REQUESTER_1 REQUESTER_1 VAPP amount d
  let data := (Deposit.mk REQUESTER_1 (u amount)).abi
  let id ← permitAndDeposit_ REQUESTER_1 amount d sig
  check (id = 1 ∧ ((← vapp_).transactions 1).variant = .deposit ∧ ((← vapp_).transactions 1).action = data)
  check ((← balanceOf PROVE REQUESTER_1) = 0)
  check ((← balanceOf PROVE VAPP) = amount)
  check ((← vapp_).currentOnchainTxId = 1)
  check (((← vapp_).transactions 1).status = .pending)
  completeDeposit data

/-- `test_PermitAndDeposit_WhenAttackerFrontruns`, `contracts/test/SuccinctVApp.deposit.t.sol:133`. -/
def test_PermitAndDeposit_WhenAttackerFrontruns : T Unit := do
  let amount := (← vapp_).minDepositAmount
  deal PROVE REQUESTER_1 amount
  let d := (← now) + 86400
  let (sig, _, _) ← signPermit REQUESTER_1 REQUESTER_1 VAPP amount d
  permit_ REQUESTER_1 VAPP amount d sig
  let _ ← permitAndDeposit_ REQUESTER_1 amount d sig

/-- `test_RevertDeposit_WhenBelowMinimum`, `contracts/test/SuccinctVApp.deposit.t.sol:152`. -/
def test_RevertDeposit_WhenBelowMinimum : T Unit := do
  let amount := (← vapp_).minDepositAmount / 2
  deal PROVE REQUESTER_1 amount
  let _ ← approve REQUESTER_1 PROVE VAPP amount
  expectRevert (some .transferBelowMinimum) do let _ ← deposit_ REQUESTER_1 amount
  check ((← vapp_).currentOnchainTxId = 0)

example : vpasses test_Deposit_WhenValid = true := by decide +kernel
example : vpasses test_PermitAndDeposit_WhenValid = true := by decide +kernel
example : vpasses test_PermitAndDeposit_WhenAttackerFrontruns = true := by decide +kernel
example : vpasses test_RevertDeposit_WhenBelowMinimum = true := by decide +kernel

/-! ## `contracts/test/SuccinctVApp.delegate.t.sol` -/

/-- `test_Prover_WhenProverCreated`, `contracts/test/SuccinctVApp.delegate.t.sol:17`. -/
def test_Prover_WhenProverCreated : T Unit := do
  let aliceProver ← createProver_ ALICE STAKER_FEE_BIPS
  let data := (CreateProver.mk aliceProver ALICE (u STAKER_FEE_BIPS)).abi
  let id := (← vapp_).currentOnchainTxId
  let r := (← vapp_).transactions id
  check (r.variant = .createProver)
  check (r.status = .pending)
  check (r.action = data)
  let _ ← step_ AUCTIONEER (pv fixture.oldRoot 1 (← now) [⟨.createProver, .completed, id, data⟩])
  check (((← vapp_).transactions (← vapp_).currentOnchainTxId).status = .completed)
  check ((← vapp_).finalizedOnchainTxId = 1)

example : vpasses test_Prover_WhenProverCreated = true := by decide +kernel

/-! ## `contracts/test/SuccinctVApp.fork.t.sol` -/

/-- `test_Fork_WhenValid`, `contracts/test/SuccinctVApp.fork.t.sol:10`; that of `SuccinctVApp.owner.t.sol:14` is its
beginning. -/
def test_Fork_WhenValid : T Unit := do
  let (b, old, new) ← fork_ OWNER 1 2
  check ((← vapp_).vkey = 1)
  check ((← vapp_).blockNumber = 1)
  check ((← vapp_).roots 1 = 2)
  check (b = 1)
  check (new = 2)
  check (old = fixture.oldRoot)

/-- `test_Fork_WhenValidAfterUpdateState`, `contracts/test/SuccinctVApp.fork.t.sol:34`. -/
def test_Fork_WhenValidAfterUpdateState : T Unit := do
  let _ ← step_ AUCTIONEER (pv fixture.oldRoot 1 (← now))
  check ((← vapp_).blockNumber = 1)
  check ((← vapp_).roots 1 = 1)
  check ((← vapp_).vkey = fixtureVkey)
  let (b, old, new) ← fork_ OWNER 99 2
  check ((← vapp_).vkey = 99)
  check ((← vapp_).blockNumber = 2)
  check ((← vapp_).roots 1 = 1)
  check ((← vapp_).roots 2 = 2)
  check (b = 2)
  check (new = 2)
  check (old = 1)

example : vpasses test_Fork_WhenValid = true := by decide +kernel
example : vpasses test_Fork_WhenValidAfterUpdateState = true := by decide +kernel

/-! ## `contracts/test/SuccinctVApp.owner.t.sol` -/

/-- `test_RevertFork_WhenNotOwner`, `contracts/test/SuccinctVApp.owner.t.sol:28`. -/
def test_RevertFork_WhenNotOwner : T Unit :=
  expectRevert (some .ownableUnauthorized) do let _ ← fork_ REQUESTER_1 1 2

/-- `test_UpdateAuctioneer_WhenValid`, `contracts/test/SuccinctVApp.owner.t.sol:39`. -/
def test_UpdateAuctioneer_WhenValid : T Unit := do
  tx OWNER fun c => vappUpdateAuctioneer c 1
  check ((← vapp_).auctioneer = 1)

/-- `test_RevertUpdateAuctioneer_WhenNotOwner`, `contracts/test/SuccinctVApp.owner.t.sol:51`. -/
def test_RevertUpdateAuctioneer_WhenNotOwner : T Unit :=
  expectRevert (some .ownableUnauthorized) (tx REQUESTER_1 fun c => vappUpdateAuctioneer c 1)

/-- `test_UpdateStaking_WhenValid`, `contracts/test/SuccinctVApp.owner.t.sol:59`. -/
def test_UpdateStaking_WhenValid : T Unit := do
  tx OWNER fun c => vappUpdateStaking c 1
  check ((← vapp_).staking = 1)

/-- `test_RevertUpdateStaking_WhenNotOwner`, `contracts/test/SuccinctVApp.owner.t.sol:71`. -/
def test_RevertUpdateStaking_WhenNotOwner : T Unit :=
  expectRevert (some .ownableUnauthorized) (tx REQUESTER_1 fun c => vappUpdateStaking c 1)

/-- `test_UpdateVerifier_WhenValid`, `contracts/test/SuccinctVApp.owner.t.sol:79`. -/
def test_UpdateVerifier_WhenValid : T Unit := do
  tx OWNER fun c => vappUpdateVerifier c 1
  check ((← vapp_).verifier = 1)

/-- `test_RevertUpdateVerifier_WhenNotOwner`, `contracts/test/SuccinctVApp.owner.t.sol:91`. -/
def test_RevertUpdateVerifier_WhenNotOwner : T Unit :=
  expectRevert (some .ownableUnauthorized) (tx REQUESTER_1 fun c => vappUpdateVerifier c 1)

/-- `test_SetTransferBelowMinimum_WhenValid`, `contracts/test/SuccinctVApp.owner.t.sol:99`. -/
def test_SetTransferBelowMinimum_WhenValid : T Unit := do
  tx OWNER fun c => vappUpdateMinDeposit c (10 * 10 ^ 6)
  check ((← vapp_).minDepositAmount = 10 * 10 ^ 6)
  tx OWNER fun c => vappUpdateMinDeposit c (20 * 10 ^ 6)
  check ((← vapp_).minDepositAmount = 20 * 10 ^ 6)
  tx OWNER fun c => vappUpdateMinDeposit c 0
  check ((← vapp_).minDepositAmount = 0)

/-- `test_RevertSetminDepositAmount_WhenNotOwner`, `contracts/test/SuccinctVApp.owner.t.sol:129`. -/
def test_RevertSetminDepositAmount_WhenNotOwner : T Unit :=
  expectRevert (some .ownableUnauthorized) (tx REQUESTER_1 fun c => vappUpdateMinDeposit c (10 * 10 ^ 6))

/-- `test_Pause_WhenValid`, `contracts/test/SuccinctVApp.owner.t.sol:137`. -/
def test_Pause_WhenValid : T Unit := do
  tx OWNER vappPause
  check ((← vapp_).paused = true)

/-- `test_RevertPause_WhenNotOwner`, `contracts/test/SuccinctVApp.owner.t.sol:146`. -/
def test_RevertPause_WhenNotOwner : T Unit :=
  expectRevert (some .ownableUnauthorized) (tx REQUESTER_1 vappPause)

/-- `test_Unpause_WhenValid`, `contracts/test/SuccinctVApp.owner.t.sol:154`. -/
def test_Unpause_WhenValid : T Unit := do
  tx OWNER vappPause
  tx OWNER vappUnpause
  check ((← vapp_).paused = false)

/-- `test_RevertUnpause_WhenNotOwner`, `contracts/test/SuccinctVApp.owner.t.sol:166`. -/
def test_RevertUnpause_WhenNotOwner : T Unit := do
  tx OWNER vappPause
  expectRevert (some .ownableUnauthorized) (tx REQUESTER_1 vappUnpause)

example : vpasses test_RevertFork_WhenNotOwner = true := by decide +kernel
example : vpasses test_UpdateAuctioneer_WhenValid = true := by decide +kernel
example : vpasses test_RevertUpdateAuctioneer_WhenNotOwner = true := by decide +kernel
example : vpasses test_UpdateStaking_WhenValid = true := by decide +kernel
example : vpasses test_RevertUpdateStaking_WhenNotOwner = true := by decide +kernel
example : vpasses test_UpdateVerifier_WhenValid = true := by decide +kernel
example : vpasses test_RevertUpdateVerifier_WhenNotOwner = true := by decide +kernel
example : vpasses test_SetTransferBelowMinimum_WhenValid = true := by decide +kernel
example : vpasses test_RevertSetminDepositAmount_WhenNotOwner = true := by decide +kernel
example : vpasses test_Pause_WhenValid = true := by decide +kernel
example : vpasses test_RevertPause_WhenNotOwner = true := by decide +kernel
example : vpasses test_Unpause_WhenValid = true := by decide +kernel
example : vpasses test_RevertUnpause_WhenNotOwner = true := by decide +kernel

/-! ## `contracts/test/SuccinctVApp.pause.t.sol` -/

/-- `test_RevertDeposit_WhenPaused`, `contracts/test/SuccinctVApp.pause.t.sol:13`. -/
def test_RevertDeposit_WhenPaused : T Unit := do
  let amount := (← vapp_).minDepositAmount
  tx OWNER vappPause
  expectRevert (some .enforcedPause) do let _ ← deposit_ REQUESTER_1 amount

/-- `test_RevertCreateProver_WhenPaused`, `contracts/test/SuccinctVApp.pause.t.sol:24`. -/
def test_RevertCreateProver_WhenPaused : T Unit := do
  tx OWNER vappPause
  expectRevert (some .enforcedPause) do let _ ← createProver_ REQUESTER_1 STAKER_FEE_BIPS

/-- `test_RevertStep_WhenPaused`, `contracts/test/SuccinctVApp.pause.t.sol:33`. -/
def test_RevertStep_WhenPaused : T Unit := do
  tx OWNER vappPause
  expectRevert (some .enforcedPause) do let _ ← step_ AUCTIONEER [0]

example : vpasses test_RevertDeposit_WhenPaused = true := by decide +kernel
example : vpasses test_RevertCreateProver_WhenPaused = true := by decide +kernel
example : vpasses test_RevertStep_WhenPaused = true := by decide +kernel

/-! ## `contracts/test/SuccinctToken.t.sol` -/

/-- `test_InitialOwner`, `contracts/test/SuccinctToken.t.sol:17`. -/
def test_InitialOwner : T Unit := do check ((← rd (·.proveOwner)) = OWNER)

/-- `test_Mint_WhenOwner`, `contracts/test/SuccinctToken.t.sol:21`. -/
def test_Mint_WhenOwner : T Unit := do
  tx OWNER fun c => exec cfg c (.proveMint OWNER 100)
  check ((← balanceOf PROVE OWNER) = 100)

/-- `test_RevertMint_WhenNotOwner`, `contracts/test/SuccinctToken.t.sol:27`. -/
def test_RevertMint_WhenNotOwner : T Unit :=
  expectRevert (some .ownableUnauthorized) (tx TEST fun c => exec cfg c (.proveMint TEST 100))

example : vpasses test_InitialOwner = true := by decide +kernel
example : vpasses test_Mint_WhenOwner = true := by decide +kernel
example : vpasses test_RevertMint_WhenNotOwner = true := by decide +kernel

end Verif.ConformVappSol
