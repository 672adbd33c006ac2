import Verif.ToyL1
import Verif.L1Views
/-
# Running the repository's Solidity tests on the contract model: the harness

`contracts/test/SuccinctStaking.*.t.sol` drive the contracts through Foundry. `Verif/ConformSol*.lean` contain
those tests, transcribed statement by statement, as programs in the small monad below, and `ConformVappSol` those of
the vApp contract. They are tests of the model (does it compute what the repository expects of the code?), not
proofs, and nothing else imports them.

What stands for what:
* addresses are fixed numbers (`makeAddr` gives distinct numbers); a prover's address is `Cfg.create2`;
* `vm.prank` gives the sender of the next call, `skip` and `warp` move the time, `deal` sets a balance and leaves the
  supply alone (as Foundry's three-argument `deal` does), `vm.expectRevert` demands a revert with that reason;
* `MockVApp` (`contracts/src/mocks/MockVApp.sol`) is `S.mock` and `S.claims`; paying out is `processWithdraw` of the
  model; the prover registration of the mock does nothing, here the queue of the real vApp contract gets an entry;
* a permit signature is the data that was signed (`Sig`); the address recovered from it is the signer's when that
  data matches and the deadline has not passed, some other address otherwise;
* names and symbols of tokens are not modelled, and assertions on them are dropped; `vm.expectEmit` is in
  `ConformEvents`;
* a fuzz test is run on a few arguments, through Foundry's `bound`.
-/

namespace Verif.ConformL1
open Verif

/-- Why a test run stops: a failed assertion, or a call that reverted. -/
inductive TErr where
  | assertion
  | reverted (e : L1Err)
  deriving DecidableEq

/-- State of a test run: the contracts, the time, the balances and claims of `MockVApp`, the permit nonces. -/
structure S where
  w : World
  now : Nat
  mock : Address → Nat
  claims : Address → Nat
  nonces : Address → Nat

/-- A test program. -/
def T (α : Type) : Type := S → Except TErr (α × S)

/-- Sequencing. -/
def T.bind {α β : Type} (m : T α) (f : α → T β) : T β := fun s =>
  match m s with
  | .ok (a, s') => f a s'
  | .error e => .error e

instance : Monad T where
  pure a := fun s => .ok (a, s)
  bind := T.bind

/-! ## Constants, `contracts/test/SuccinctStaking.t.sol:23-39` -/

def MIN_STAKE_AMOUNT : Nat := 10 ^ 16
def MIN_PROVER_PRICE_PER_SHARE : Nat := 10 ^ 9
def STAKER_PROVE_AMOUNT : Nat := 1000000 * 10 ^ 18
def REQUESTER_PROVE_AMOUNT : Nat := 1000000 * 10 ^ 18
def DISPENSE_AMOUNT : Nat := 10000000 * 10 ^ 18
def DISPENSE_RATE : Nat := 63419583967529173
def MAX_UNSTAKE_REQUESTS : Nat := 10
def UNSTAKE_PERIOD : Nat := 21 * 86400
def SLASH_CANCELLATION_PERIOD : Nat := 7 * 86400
def STAKER_FEE_BIPS : Nat := 1000
def FEE_UNIT : Nat := 10000
def PROTOCOL_FEE_BIPS : Nat := 30
def VOTING_DELAY : Nat := 7200
def VOTING_PERIOD : Nat := 100800

/-- The deployment: addresses of the contracts. -/
def cfg : Cfg := ToyL1.cfg

def PROVE : Address := cfg.prove
def I_PROVE : Address := cfg.iprove
def STAKING : Address := cfg.staking
def VAPP : Address := cfg.vapp
def TEST : Address := 50
def OWNER : Address := 51
def DISPENSER : Address := 52
def REQUESTER : Address := 53
def STAKER_1 : Address := 54
def STAKER_2 : Address := 55
def ALICE : Address := 56
def BOB : Address := 57
def TREASURY : Address := 58
def AUCTIONEER : Address := 59
/-- A key stands for its address. -/
def STAKER_1_PK : Address := STAKER_1
def STAKER_2_PK : Address := STAKER_2
def ALICE_PROVER : Address := cfg.create2 ALICE 1 STAKER_FEE_BIPS
def BOB_PROVER : Address := cfg.create2 BOB 2 STAKER_FEE_BIPS
/-- `makeAddr(name)`, by the number of the name. -/
def named (i : Nat) : Address := BitVec.ofNat 160 (1000 + i)
/-- `makeAddr(string.concat(name, vm.toString(j)))`. -/
def namedN (i j : Nat) : Address := BitVec.ofNat 160 (100000 * (i + 1) + j)
/-- Some number depending on the arguments, for `keccak256` used as a source of randomness. -/
def mix (l : List Nat) : Nat := l.foldl (fun a x => (a * 6364136223846793005 + x * 1442695040888963407 + 1013904223) % 2 ^ 256) 88172645463325252

/-! ## Test actions -/

/-- The context of a call. -/
def ctx (sender : Address) (now : Nat) : Ctx where
  sender := sender
  now := now
  votingDelay := VOTING_DELAY
  votingPeriod := VOTING_PERIOD
  verifyProof := fun _ _ _ _ => true
  foreignIsProver := fun _ => false
  foreignOwner := fun _ => none

/-- A call by `sender`. -/
def tx {α : Type} (sender : Address) (f : Ctx → L1 α) : T α := fun s =>
  match f (ctx sender s.now) s.w with
  | .ok (a, w') => .ok (a, { s with w := w' })
  | .error e => .error (.reverted e)

/-- A view function. -/
def view {α : Type} (f : L1 α) : T α := fun s =>
  match f s.w with
  | .ok (a, _) => .ok (a, s)
  | .error e => .error (.reverted e)

/-- A field of the state. -/
def rd {α : Type} (f : World → α) : T α := fun s => .ok (f s.w, s)

/-- `assertTrue` and its relatives. -/
def check (p : Prop) [Decidable p] : T Unit := fun s => if p then .ok ((), s) else .error .assertion

/-- `vm.expectRevert`: the call must revert, for that reason if one is given; it changes nothing. -/
def expectRevert (e : Option L1Err) (m : T Unit) : T Unit := fun s =>
  match m s with
  | .error (.reverted e') => if e = none ∨ e = some e' then .ok ((), s) else .error .assertion
  | _ => .error .assertion

/-- `block.timestamp`. -/
def now : T Nat := fun s => .ok (s.now, s)
/-- `skip`. -/
def skip (n : Nat) : T Unit := fun s => .ok ((), { s with now := s.now + n })
/-- `vm.warp`. -/
def warp (n : Nat) : T Unit := fun s => .ok ((), { s with now := n })
/-- Checked subtraction in a test. -/
def csub (x y : Nat) : T Nat := fun s => if y ≤ x then .ok (x - y, s) else .error (.reverted .overflow)
/-- Array access in a test. -/
def at_ {α : Type} (l : List α) (i : Nat) : T α := fun s =>
  match l[i]? with
  | some a => .ok (a, s)
  | none => .error (.reverted .indexOutOfBounds)
/-- `assertApproxEqAbs`. -/
def near (a b d : Nat) : Prop := a ≤ b + d ∧ b ≤ a + d
instance (a b d : Nat) : Decidable (near a b d) := inferInstanceAs (Decidable (_ ∧ _))
/-- `c ? a : b`. -/
def tern {α : Type} (c : Bool) (a b : α) : α := if c then a else b
/-- `bound` of `forge-std`. -/
def bound (x lo hi : Nat) : Nat :=
  let size := hi - lo + 1
  let m := 2 ^ 256 - 1
  if lo ≤ x ∧ x ≤ hi then x
  else if x ≤ 3 ∧ x < size then lo + x
  else if m - 3 ≤ x ∧ m - x < size then hi - (m - x)
  else if hi < x then (if (x - hi) % size = 0 then hi else lo + (x - hi) % size - 1)
  else if (lo - x) % size = 0 then lo else hi - (lo - x) % size + 1

/-- `deal(token, a, n)`. -/
def deal (token a : Address) (n : Nat) : T Unit := fun s =>
  if token = PROVE then .ok ((), { s with w := { s.w with prove := { s.w.prove with bal := upd s.w.prove.bal a n } } })
  else if token = I_PROVE then
    .ok ((), { s with w := { s.w with iprove := { s.w.iprove with bal := upd s.w.iprove.bal a n } } })
  else .error .assertion

/-! ## Tokens -/

/-- `balanceOf`. -/
def balanceOf (token a : Address) : T Nat := rd fun w =>
  if token = PROVE then w.prove.bal a else if token = I_PROVE then w.iprove.bal a
  else if token = STAKING then w.st.bal a else (w.vault token).bal a
/-- `totalSupply`. -/
def totalSupply (token : Address) : T Nat := rd fun w =>
  if token = PROVE then w.prove.supply else if token = I_PROVE then w.iprove.supply
  else if token = STAKING then w.st.supply else (w.vault token).supply
/-- A `uint256` argument. -/
def u (n : Nat) : U256 := BitVec.ofNat 256 n
/-- `approve`. -/
def approve (sender token spender : Address) (n : Nat) : T Bool := do
  if token = PROVE then tx sender fun c => exec cfg c (.proveApprove spender (u n))
  else if token = I_PROVE then tx sender fun c => exec cfg c (.iproveApprove spender (u n))
  else if token = STAKING then tx sender fun c => exec cfg c (.stApprove spender (u n))
  else tx sender fun c => exec cfg c (.vaultApprove token spender (u n))
  return true
/-- `transfer`. -/
def transfer (sender token to : Address) (n : Nat) : T Bool := do
  if token = PROVE then tx sender fun c => exec cfg c (.proveTransfer to (u n))
  else if token = I_PROVE then tx sender fun c => exec cfg c (.iproveTransfer to (u n))
  else if token = STAKING then tx sender fun c => exec cfg c (.stTransfer to (u n))
  else tx sender fun c => exec cfg c (.vaultTransfer token to (u n))
  return true
/-- `totalAssets`. -/
def totalAssets (token : Address) : T Nat := rd fun w =>
  if token = I_PROVE then w.prove.bal token else w.iprove.bal token
/-- `previewRedeem`. -/
def previewRedeem (token : Address) (n : Nat) : T Nat :=
  if token = I_PROVE then view (iprovePreviewRedeem cfg n) else view (vaultPreviewRedeem token n)
/-- `previewDeposit`. -/
def previewDeposit (token : Address) (n : Nat) : T Nat :=
  if token = I_PROVE then view (iprovePreviewDeposit cfg n)
  else rd fun w => n * ((w.vault token).supply + 1) / (w.iprove.bal token + 1)
/-- `deposit`. -/
def deposit4626 (sender token : Address) (n : Nat) (to : Address) : T Unit :=
  if token = I_PROVE then tx sender fun c => exec cfg c (.iproveDeposit (u n) to)
  else tx sender fun c => exec cfg c (.vaultDeposit token (u n) to)
/-- `mint`. -/
def mint4626 (sender token : Address) (n : Nat) (to : Address) : T Unit :=
  if token = I_PROVE then tx sender fun c => exec cfg c (.iproveMint (u n) to)
  else tx sender fun c => exec cfg c (.vaultMint token (u n) to)
/-- `withdraw`. -/
def withdraw4626 (sender token : Address) (n : Nat) (to owner : Address) : T Unit :=
  if token = I_PROVE then tx sender fun c => exec cfg c (.iproveWithdraw (u n) to owner)
  else tx sender fun c => exec cfg c (.vaultWithdraw token (u n) to owner)
/-- `redeem`. -/
def redeem4626 (sender token : Address) (n : Nat) (to owner : Address) : T Unit :=
  if token = I_PROVE then tx sender fun c => exec cfg c (.iproveRedeem (u n) to owner)
  else tx sender fun c => exec cfg c (.vaultRedeem token (u n) to owner)

/-! ## Permits -/

/-- A permit signature on $PROVE: who signed what. -/
structure Sig where
  key : Address
  owner : Address
  spender : Address
  amount : Nat
  nonce : Nat
  deadline : Nat
  deriving DecidableEq

/-- `_signPermit`, `contracts/test/SuccinctStaking.t.sol:215-238`. The three components of a signature are given by
the first. -/
def signPermit (key owner spender : Address) (amount deadline : Nat) : T (Sig × Unit × Unit) := fun s =>
  .ok ((⟨key, owner, spender, amount, s.nonces owner, deadline⟩, (), ()), s)

/-- The address recovered when the signature is checked against these data; an expired one counts as wrong. -/
def recovered (s : S) (sig : Sig) (owner spender : Address) (amount deadline : Nat) : Address :=
  if sig = ⟨sig.key, owner, spender, amount, s.nonces owner, deadline⟩ ∧ s.now ≤ deadline then sig.key else 999

/-- Use up a nonce. -/
def useNonce (a : Address) : T Unit := fun s => .ok ((), { s with nonces := upd s.nonces a (s.nonces a + 1) })

/-- `permit`. -/
def permit_ (owner spender : Address) (amount deadline : Nat) (sig : Sig) : T Unit := do
  let s ← (fun s => .ok (s, s) : T S)
  let _ ← tx TEST fun c => exec cfg c (.provePermit (recovered s sig owner spender amount deadline) owner spender (u amount))
  useNonce owner

/-- `permitAndStake`. -/
def permitAndStake_ (prover from_ : Address) (amount deadline : Nat) (sig : Sig) : T Nat := do
  let s ← (fun s => .ok (s, s) : T S)
  let n ← tx TEST fun _ => permitAndStake cfg (recovered s sig from_ prover amount deadline) prover from_ amount
  if s.w.prove.allow from_ prover ≠ amount then useNonce from_
  return n

/-! ## Staking -/

def stakedTo_ (a : Address) : T Address := rd (·.staking.stakerToProver a)
def staked_ (a : Address) : T Nat := view (staked cfg a)
def unstakePending_ (a : Address) : T Nat := view (unstakePending cfg a)
def previewUnstake_ (p : Address) (n : Nat) : T Nat := view (previewUnstake cfg p n)
def proverStaked_ (p : Address) : T Nat := view (proverStaked cfg p)
def escrowPool_ (p : Address) : T EscrowPool := rd (·.staking.escrowPools p)
def unstakeRequests_ (a : Address) : T (List UnstakeClaim) := rd (·.staking.unstakeClaims a)
def slashRequests_ (p : Address) : T (List SlashClaim) := rd (·.staking.slashClaims p)
def maxDispense_ : T Nat := tx TEST maxDispense
def dispenseRate_ : T Nat := rd (·.staking.dispenseRate)
def dispenseRateTimestamp_ : T Nat := rd (·.staking.dispenseRateTimestamp)
def dispenseEarned_ : T Nat := rd (·.staking.dispenseEarned)
def dispenseDistributed_ : T Nat := rd (·.staking.dispenseDistributed)
def minStakeAmount_ : T Nat := rd (·.staking.minStakeAmount)
def maxUnstakeRequests_ : T Nat := rd (·.staking.maxUnstakeRequests)
def unstakePeriod_ : T Nat := rd (·.staking.unstakePeriod)
def dispenser_ : T Address := rd (·.staking.dispenser)
def isDeactivatedProver_ (p : Address) : T Bool := rd (·.staking.deactivatedProvers p)
def isProver_ (p : Address) : T Bool := rd (·.staking.provers p)
def getProver_ (a : Address) : T Address := rd (·.staking.ownerToProver a)
def proverCount_ : T Nat := rd (·.staking.proverCount)
def prover_owner (p : Address) : T Address := rd fun w => (w.info p).owner
def prover_id (p : Address) : T Nat := rd fun w => (w.info p).id
def prover_stakerFeeBips (p : Address) : T Nat := rd fun w => (w.info p).stakerFeeBips
def createProver_ (a : Address) (fee : Nat) : T Address := tx a fun c => createProver cfg c (u fee)
def stake_ (a p : Address) (n : Nat) : T Nat := tx a fun c => stake cfg c p n
def requestUnstake_ (a : Address) (n : Nat) : T Unit := tx a fun c => requestUnstake cfg c n
def finishUnstake_ (a s : Address) : T Nat := tx a fun c => finishUnstake cfg c s
def requestSlash_ (a p : Address) (n : Nat) : T Nat := tx a fun c => requestSlash cfg c p n
def cancelSlash_ (a p : Address) (i : Nat) : T Unit := tx a fun c => cancelSlash c p i
def finishSlash_ (a p : Address) (i : Nat) : T Nat := tx a fun c => finishSlash cfg c p i
def dispense_ (a : Address) (n : Nat) : T Unit := tx a fun c => dispense cfg c n
def setDispenser_ (a b : Address) : T Unit := tx a fun c => setDispenser c b
def updateDispenseRate_ (a : Address) (n : Nat) : T Unit := tx a fun c => updateDispenseRate c n

/-! ## `MockVApp`, `contracts/src/mocks/MockVApp.sol` -/

/-- `calculateFeeSplit`, `contracts/src/mocks/MockVApp.sol:29-45`. -/
def feeSplit (total protocolBips stakerBips : Nat) : Nat × Nat × Nat :=
  let p := total * protocolBips / 10000
  let s := (total - p) * stakerBips / 10000
  (p, s, total - p - s)

/-- `balances`. -/
def balances (a : Address) : T Nat := fun s => .ok (s.mock a, s)
/-- Add to a balance of the mock. -/
def addMock (a : Address) (n : Nat) : T Unit := fun s => .ok ((), { s with mock := upd s.mock a (s.mock a + n) })
/-- `processFulfillment`, `contracts/src/mocks/MockVApp.sol:153-164`. The call `stakerFeeBips()` on an address without
code reverts. -/
def processFulfillment (p : Address) (n : Nat) : T Unit := do
  if ¬ (← isProver_ p) then (fun _ => .error (.reverted .notReachable) : T Unit)
  let (a, b, c) := feeSplit n PROTOCOL_FEE_BIPS (← prover_stakerFeeBips p)
  addMock TREASURY a
  addMock p b
  addMock (← prover_owner p) c
/-- `processSlash`, `contracts/src/mocks/MockVApp.sol:166-168`. -/
def processSlash (p : Address) (n : Nat) : T Nat := requestSlash_ VAPP p n
/-- `requestWithdraw`, `contracts/src/mocks/MockVApp.sol:119-130`. -/
def requestWithdraw (a : Address) (n : Nat) : T Unit := do
  let all ← balances a
  let n := if n = max256 then all else n
  let b ← csub all n
  fun s => .ok ((), { s with mock := upd s.mock a b, claims := upd s.claims a (s.claims a + n) })
/-- `finishWithdraw`, `contracts/src/mocks/MockVApp.sol:132-148`. -/
def finishWithdraw (a : Address) : T Unit := do
  let n ← (fun s => .ok (s.claims a, s) : T Nat)
  if n = 0 then (fun _ => .error (.reverted .notReachable) : T Unit)
  (fun s => .ok ((), { s with claims := upd s.claims a 0 }) : T Unit)
  tx TEST fun c => processWithdraw cfg c a n

/-! ## Helpers, `contracts/test/SuccinctStaking.t.sol:145-296` -/

def _stake (a p : Address) (n : Nat) : T Nat := do
  let _ ← approve a PROVE STAKING n
  stake_ a p n
/-- The two overloads of `_permitAndStake`. -/
def _permitAndStake (a pk p : Address) (n : Nat) (deadline : Option Nat := none) : T Nat := do
  let d ← match deadline with | some d => pure d | none => do pure ((← now) + 86400)
  let (sig, _, _) ← signPermit pk a p n d
  permitAndStake_ p a n d sig
def _requestUnstake (a : Address) (n : Nat) : T Unit := requestUnstake_ a n
def _finishUnstake (a : Address) : T Nat := finishUnstake_ a a
def _completeUnstake (a : Address) (n : Nat) : T Nat := do
  _requestUnstake a n
  skip UNSTAKE_PERIOD
  _finishUnstake a
def _requestSlash (p : Address) (n : Nat) : T Nat := processSlash p n
def _finishSlash (p : Address) (i : Nat) : T Nat := finishSlash_ OWNER p i
def _completeSlash (p : Address) (n : Nat) : T Nat := do
  let i ← _requestSlash p n
  _finishSlash p i
def _waitRequiredDispenseTime (n : Nat) : T Unit := skip ((n + DISPENSE_RATE - 1) / DISPENSE_RATE)
def _dispense (n : Nat) : T Unit := do
  _waitRequiredDispenseTime n
  dispense_ DISPENSER n
def _withdrawFromVApp (a : Address) (n : Nat) : T Unit := do
  requestWithdraw a n
  finishWithdraw a
def _withdrawFullBalanceFromVApp (a : Address) : T Nat := do
  let b ← balances a
  if b > 0 then
    requestWithdraw a b
    finishWithdraw a
  return b
def _calculateFullRewardSplit (n : Nat) : T (Nat × Nat × Nat) := pure (feeSplit n PROTOCOL_FEE_BIPS STAKER_FEE_BIPS)
def _calculateStakerReward (n : Nat) : T Nat := do return (← _calculateFullRewardSplit n).2.1
def _calculateOwnerReward (n : Nat) : T Nat := do return (← _calculateFullRewardSplit n).2.2
def _calculateProtocolFee (n : Nat) : T Nat := do return (← _calculateFullRewardSplit n).1
def _calculateRewardSplit (n : Nat) : T (Nat × Nat) := do return (← _calculateFullRewardSplit n).2
def _getProverPricePerShare (p : Address) : T Nat := do
  if (← totalSupply p) = 0 then return 0
  previewRedeem p (10 ^ 18)

/-! ## `setUp`, `contracts/test/SuccinctStaking.t.sol:62-143` -/

/-- The contracts as deployed and initialised, before the first call of the test's `setUp`; block time 1. -/
def deployed : S where
  w := {
    prove := {
      supply := 0
      bal := fun _ => 0
      allow := fun a s => if (a = cfg.vapp ∨ a = cfg.staking) ∧ s = cfg.iprove then max256 else 0 }
    proveOwner := OWNER
    iprove := Erc20.empty
    vault := fun _ => Erc20.empty
    info := fun _ => ⟨0, 0, 0⟩
    st := Erc20.empty
    staking := {
      owner := OWNER, dispenser := DISPENSER, minStakeAmount := MIN_STAKE_AMOUNT
      maxUnstakeRequests := MAX_UNSTAKE_REQUESTS, unstakePeriod := UNSTAKE_PERIOD
      slashCancellationPeriod := SLASH_CANCELLATION_PERIOD, dispenseRate := 0, dispenseRateTimestamp := 0
      dispenseEarned := 0, dispenseDistributed := 0, stakerToProver := fun _ => 0, unstakeClaims := fun _ => []
      slashClaims := fun _ => [], slashClaimCount := fun _ => 0, escrowPools := fun _ => ⟨0, 0⟩
      proverCount := 0, ownerToProver := fun _ => 0, provers := fun _ => false, deactivatedProvers := fun _ => false }
    vapp := {
      owner := OWNER, paused := false, vkey := 7, auctioneer := AUCTIONEER, staking := cfg.staking, verifier := 202
      blockNumber := 0, minDepositAmount := MIN_STAKE_AMOUNT, currentOnchainTxId := 0, finalizedOnchainTxId := 0
      roots := fun b => if b = 0 then 99 else 0, timestamps := fun _ => 0
      transactions := fun _ => SolTransaction.unset } }
  now := 1
  mock := fun _ => 0
  claims := fun _ => 0
  nonces := fun _ => 0

/-- The calls of `setUp`. -/
def setUp : T Unit := do
  updateDispenseRate_ OWNER DISPENSE_RATE
  deal PROVE STAKING DISPENSE_AMOUNT
  deal PROVE REQUESTER REQUESTER_PROVE_AMOUNT
  let _ ← approve REQUESTER PROVE VAPP REQUESTER_PROVE_AMOUNT
  let _ ← tx REQUESTER fun c => vappDeposit cfg c (u REQUESTER_PROVE_AMOUNT)
  let a ← createProver_ ALICE STAKER_FEE_BIPS
  check (a = ALICE_PROVER)
  let b ← createProver_ BOB STAKER_FEE_BIPS
  check (b = BOB_PROVER)
  deal PROVE STAKER_1 STAKER_PROVE_AMOUNT
  deal PROVE STAKER_2 STAKER_PROVE_AMOUNT

/-- Does the test pass, after `setUp` and the additional set-up of its contract? -/
def passes (t : T Unit) (own : T Unit := pure ()) : Bool :=
  match (do setUp; own; t : T Unit) deployed with
  | .ok _ => true
  | .error _ => false

/-- What stopped a test that does not pass. -/
def verdict (t : T Unit) (own : T Unit := pure ()) : Option TErr :=
  match (do setUp; own; t : T Unit) deployed with
  | .ok _ => none
  | .error e => some e

end Verif.ConformL1
