import Verif.Deploy
import Verif.EventSpec
/-
# The contracts with their events

The functions of `L1Staking` that emit events, transcribed once more with the `emit` statements; everything else is
lifted. `Verif.execE_erase` (in `EventProofs`) shows that apart from the log nothing differs from `exec`.
-/

namespace Verif
open L1

/-- Contract code that also emits events, in order. -/
def LM (α : Type) : Type := World → Except L1Err (α × World × List Ev)

namespace LM

/-- Sequencing; a revert discards the state and the events. -/
def bind {α β : Type} (m : LM α) (f : α → LM β) : LM β := fun w =>
  match m w with
  | .ok (a, w1, es) =>
    match f a w1 with
    | .ok (b, w2, es') => .ok (b, w2, es ++ es')
    | .error e => .error e
  | .error e => .error e

instance : Monad LM where
  pure a := fun w => .ok (a, w, [])
  bind := LM.bind

/-- Code without events. -/
def quiet {α : Type} (m : L1 α) : LM α := fun w =>
  match m w with
  | .ok (a, w') => .ok (a, w', [])
  | .error e => .error e

instance : MonadLift L1 LM := ⟨quiet⟩

/-- `emit e`. -/
def emit (e : Ev) : LM Unit := fun w => .ok ((), w, [e])

/-- Forget the events. -/
def erase {α : Type} (m : LM α) : L1 α := fun w =>
  match m w with
  | .ok (a, w', _) => .ok (a, w')
  | .error e => .error e

end LM

open LM

/-! ## `SuccinctVApp` -/

/-- `_createTransaction`, `contracts/src/SuccinctVApp.sol:350-363`. -/
def createTransactionE (v : TxVariant) (data : Bytes) : LM U64 := do
  let id ← createTransaction v data
  emit (.transactionPending id v data)
  return id

/-- `_deposit`, `contracts/src/SuccinctVApp.sol:333-347`. -/
def vappDepositFromE (cfg : Cfg) (from_ : Address) (amount : U256) : LM U64 := do
  let w ← get
  require (w.vapp.minDepositAmount ≤ amount.toNat) .transferBelowMinimum
  let id ← createTransactionE .deposit (Deposit.mk from_ amount).abi
  proveTransferFrom cfg.vapp from_ cfg.vapp amount.toNat
  emit (.deposit from_ amount.toNat)
  return id

/-- `deposit`, `contracts/src/SuccinctVApp.sol:179-181`. -/
def vappDepositE (cfg : Cfg) (c : Ctx) (amount : U256) : LM U64 := do
  whenNotPaused
  vappDepositFromE cfg c.sender amount

/-- `permitAndDeposit`, `contracts/src/SuccinctVApp.sol:184-199`. -/
def vappPermitAndDepositE (cfg : Cfg) (signer from_ : Address) (amount : U256) : LM U64 := do
  whenNotPaused
  let w ← get
  if w.prove.allow from_ cfg.vapp ≠ amount.toNat then
    provePermit signer from_ cfg.vapp amount.toNat
  vappDepositFromE cfg from_ amount

/-- `createProver`, `contracts/src/SuccinctVApp.sol:202-219`. -/
def vappCreateProverE (c : Ctx) (sender prover owner : Address) (fee : U256) : LM U64 := do
  let w ← get
  require (sender = w.vapp.staking) .notStaking
  whenNotPaused
  require (owner ≠ 0) .zeroAddress
  let w ← get
  require (proverOwner c w prover = some owner) .proverNotOwned
  createTransactionE .createProver (CreateProver.mk prover owner fee).abi

/-- `_processWithdraw`, `contracts/src/SuccinctVApp.sol:445-460`. -/
def processWithdrawE (cfg : Cfg) (c : Ctx) (to : Address) (amount : Nat) : LM Unit := do
  processWithdraw cfg c to amount
  emit (.withdraw to amount)

/-- `_handleOnchainReceipt`, `contracts/src/SuccinctVApp.sol:378-418`. -/
def handleOnchainE (r : SolReceipt) : LM Unit := do
  let w ← get
  let id ← inc64 w.vapp.finalizedOnchainTxId
  modVapp fun s => { s with finalizedOnchainTxId := id }
  require (id = r.onchainTxId) .receiptOutOfOrder
  requireFinal r
  let w ← get
  assertEq (w.vapp.transactions id) r
  modVapp fun s => { s with transactions := upd s.transactions id { s.transactions id with status := r.status } }
  if r.status = .reverted then emit (.transactionReverted id r.variant r.action)
  else do
    require (r.variant = .deposit ∨ r.variant = .createProver) .transactionVariantInvalid
    emit (.transactionCompleted id r.variant r.action)

/-- `_handleOffchainReceipt`, `contracts/src/SuccinctVApp.sol:421-442`. -/
def handleOffchainE (cfg : Cfg) (c : Ctx) (r : SolReceipt) : LM Unit := do
  requireFinal r
  if r.status = .reverted then emit (.transactionReverted r.onchainTxId r.variant r.action)
  else if r.variant = .withdraw then do
    let d ← liftO (decAccountAmount r.action) .abiDecode
    processWithdrawE cfg c d.1 d.2.toNat
  else throw .transactionVariantInvalid

/-- `_handleReceipts`, `contracts/src/SuccinctVApp.sol:366-375`. -/
def handleReceiptsE (cfg : Cfg) (c : Ctx) : List SolReceipt → LM Unit
  | [] => pure ()
  | r :: rs => do
    if r.onchainTxId ≠ BitVec.allOnes 64 then handleOnchainE r else handleOffchainE cfg c r
    handleReceiptsE cfg c rs

/-- `step`, `contracts/src/SuccinctVApp.sol:222-261`. -/
def vappStepE (cfg : Cfg) (c : Ctx) (pv proof : Bytes) : LM (U64 × B256 × B256) := do
  let w ← get
  require (c.sender = w.vapp.auctioneer) .notAuctioneer
  whenNotPaused
  let w ← get
  require (c.verifyProof w.vapp.verifier w.vapp.vkey pv proof = true) .proofInvalid
  let v ← liftO (StepValues.decode pv) .abiDecode
  require (v.newRoot ≠ 0) .invalidRoot
  require (w.vapp.roots w.vapp.blockNumber = v.oldRoot) .invalidOldRoot
  require (v.timestamp.toNat ≤ c.now) .invalidTimestamp
  require ((w.vapp.timestamps w.vapp.blockNumber).toNat ≤ v.timestamp.toNat) .timestampInPast
  require (c.now - v.timestamp.toNat ≤ 3600) .timestampTooOld
  let b ← inc64 w.vapp.blockNumber
  modVapp fun s => { s with
    blockNumber := b
    roots := upd s.roots b v.newRoot
    timestamps := upd s.timestamps b v.timestamp }
  handleReceiptsE cfg c v.receipts
  emit (.block b v.oldRoot v.newRoot)
  return (b, v.oldRoot, v.newRoot)

/-- `fork`, `contracts/src/SuccinctVApp.sol:268-296`. -/
def vappForkE (c : Ctx) (vkey root : B256) : LM (U64 × B256 × B256) := do
  vappOnlyOwner c
  require (vkey ≠ 0 ∧ root ≠ 0) .zeroHash
  let w ← get
  let b ← inc64 w.vapp.blockNumber
  modVapp fun s => { s with
    vkey := vkey
    blockNumber := b
    roots := upd s.roots b root
    timestamps := upd s.timestamps b (BitVec.ofNat 64 c.now) }
  emit (.fork b w.vapp.vkey vkey)
  emit (.block b (w.vapp.roots w.vapp.blockNumber) root)
  return (b, w.vapp.roots w.vapp.blockNumber, root)

/-- `updateAuctioneer`, `contracts/src/SuccinctVApp.sol:299-301,463-467`. -/
def vappUpdateAuctioneerE (c : Ctx) (a : Address) : LM Unit := do
  vappOnlyOwner c
  let w ← get
  emit (.auctioneerUpdate w.vapp.auctioneer a)
  modVapp fun s => { s with auctioneer := a }

/-- `updateStaking`, `contracts/src/SuccinctVApp.sol:304-306,470-474`. -/
def vappUpdateStakingE (c : Ctx) (a : Address) : LM Unit := do
  vappOnlyOwner c
  let w ← get
  emit (.stakingUpdate w.vapp.staking a)
  modVapp fun s => { s with staking := a }

/-- `updateVerifier`, `contracts/src/SuccinctVApp.sol:309-311,477-481`. -/
def vappUpdateVerifierE (c : Ctx) (a : Address) : LM Unit := do
  vappOnlyOwner c
  let w ← get
  emit (.verifierUpdate w.vapp.verifier a)
  modVapp fun s => { s with verifier := a }

/-- `updateMinDepositAmount`, `contracts/src/SuccinctVApp.sol:314-316,484-488`. -/
def vappUpdateMinDepositE (c : Ctx) (v : Nat) : LM Unit := do
  vappOnlyOwner c
  let w ← get
  emit (.minDepositAmountUpdate w.vapp.minDepositAmount v)
  modVapp fun s => { s with minDepositAmount := v }

/-- `pause`, `contracts/src/SuccinctVApp.sol:319-321` (OpenZeppelin's `_pause`). -/
def vappPauseE (c : Ctx) : LM Unit := do
  vappPause c
  emit .paused

/-- `unpause`, `contracts/src/SuccinctVApp.sol:324-326` (OpenZeppelin's `_unpause`). -/
def vappUnpauseE (c : Ctx) : LM Unit := do
  vappUnpause c
  emit .unpaused

/-- `transferOwnership` and `renounceOwnership` of `OwnableUpgradeable`, `contracts/src/SuccinctVApp.sol:44`. -/
def vappSetOwnerE (c : Ctx) (a : Address) : LM Unit := do
  let w ← get
  vappSetOwner c a
  emit (.vappOwnershipTransferred w.vapp.owner a)

/-! ## `ProverRegistry` -/

/-- `_deployProver`, `contracts/src/libraries/ProverRegistry.sol:109-145`. -/
def deployProverE (cfg : Cfg) (c : Ctx) (owner : Address) (fee : U256) : LM Address := do
  require (cfg.iprove ≠ 0) .notReachable
  modStaking fun s => { s with proverCount := s.proverCount + 1 }
  let w ← get
  let n := w.staking.proverCount
  require (owner ≠ 0) .zeroAddress
  let p := cfg.create2 owner n fee.toNat
  let w ← get
  require (w.staking.provers p = false) .deployFailed
  modify fun w => { w with
    info := upd w.info p ⟨owner, n, fee.toNat⟩
    vault := upd w.vault p Erc20.empty }
  modStaking fun s => { s with
    ownerToProver := upd s.ownerToProver owner p
    provers := upd s.provers p true }
  let _ ← vappCreateProverE c cfg.staking p owner fee
  onIprove (·.approve cfg.staking p max256)
  emit (.proverDeploy p owner fee.toNat)
  return p

/-- `createProver`, `contracts/src/libraries/ProverRegistry.sol:96-106`. -/
def createProverE (cfg : Cfg) (c : Ctx) (fee : U256) : LM Address := do
  require (fee.toNat ≤ 10000) .invalidStakerFeeBips
  let w ← get
  require (w.staking.ownerToProver c.sender = 0) .proverAlreadyExists
  deployProverE cfg c c.sender fee

/-- `_deactivateProverIfPriceBelowMin`, `contracts/src/libraries/ProverRegistry.sol:155-173`. -/
def deactivateIfBelowMinE (p : Address) : LM Unit := do
  let w ← get
  if w.staking.deactivatedProvers p = true then pure ()
  else if (w.vault p).supply = 0 then pure ()
  else do
    let price ← mulDiv (w.iprove.bal p) (10 ^ 18) (w.vault p).supply
    if price < 10 ^ 9 then
      modStaking fun s => { s with deactivatedProvers := upd s.deactivatedProvers p true }
      emit (.proverDeactivation p)

/-! ## `SuccinctStaking` -/

/-- `_stake`, `contracts/src/SuccinctStaking.sol:531-578`. -/
def stakeForE (cfg : Cfg) (staker prover : Address) (amount : Nat) : LM Nat := do
  require (amount ≠ 0) .zeroAmount
  let w ← get
  require (w.staking.minStakeAmount ≤ amount) .stakeBelowMinimum
  let w ← get
  require (w.staking.deactivatedProvers prover = false) .proverNotActive
  requireNoSlash prover
  let w ← get
  let existing := w.staking.stakerToProver staker
  require (existing = 0 ∨ existing = prover) .alreadyStakedWithDifferentProver
  if existing = 0 then
    modStaking fun s => { s with stakerToProver := upd s.stakerToProver staker prover }
    emit (.proverBound staker prover)
  let i ← iproveDeposit cfg cfg.staking amount cfg.staking
  require (i ≠ 0) .zeroReceiptAmount
  let st ← vaultDeposit cfg cfg.staking prover i cfg.staking
  require (st ≠ 0) .zeroReceiptAmount
  onSt true (·.mint staker st)
  emit (.stake staker prover amount i st)
  return st

/-- `stake`, `contracts/src/SuccinctStaking.sol:248-258`. -/
def stakeE (cfg : Cfg) (c : Ctx) (prover : Address) (amount : Nat) : LM Nat := do
  onlyForProver prover
  proveTransferFrom cfg.staking c.sender cfg.staking amount
  stakeForE cfg c.sender prover amount

/-- `permitAndStake`, `contracts/src/SuccinctStaking.sol:261-281`. -/
def permitAndStakeE (cfg : Cfg) (signer prover from_ : Address) (amount : Nat) : LM Nat := do
  onlyForProver prover
  let w ← get
  if w.prove.allow from_ prover ≠ amount then
    provePermit signer from_ prover amount
  transferProveToStaking cfg cfg.staking prover from_ amount
  stakeForE cfg from_ prover amount

/-- `requestUnstake`, `contracts/src/SuccinctStaking.sol:284-329`. -/
def requestUnstakeE (cfg : Cfg) (c : Ctx) (st : Nat) : LM Unit := do
  require (st ≠ 0) .zeroAmount
  let w ← get
  let prover := w.staking.stakerToProver c.sender
  require (prover ≠ 0) .notStaked
  let w ← get
  require ((w.staking.unstakeClaims c.sender).length < w.staking.maxUnstakeRequests) .tooManyUnstakeRequests
  requireNoSlash prover
  let w ← get
  require (st ≤ w.st.bal c.sender) .insufficientStakeBalance
  let esc ← escrowUnstakeRequest cfg c.sender prover st
  let w ← get
  let pool := w.staking.escrowPools prover
  let factor := if pool.slashFactor = 0 then SCALAR else pool.slashFactor
  let total ← add256 pool.iPROVEEscrow esc
  modStaking fun s => { s with
    escrowPools := upd s.escrowPools prover ⟨total, factor⟩
    unstakeClaims := upd s.unstakeClaims c.sender (s.unstakeClaims c.sender ++ [⟨esc, factor, c.now⟩]) }
  emit (.unstakeRequest c.sender prover st esc)

/-- `_finishUnstakeRequest`, `contracts/src/SuccinctStaking.sol:594-621`. -/
def finishUnstakeRequestE (cfg : Cfg) (staker prover : Address) (claim : UnstakeClaim) : LM Nat := do
  let w ← get
  let pool := w.staking.escrowPools prover
  let scaled ← mulDiv claim.iPROVEEscrow pool.slashFactor claim.slashFactor
  let pay := if pool.iPROVEEscrow < scaled then pool.iPROVEEscrow else scaled
  if pay ≠ 0 then
    modStaking fun s => { s with
      escrowPools := upd s.escrowPools prover { pool with iPROVEEscrow := pool.iPROVEEscrow - pay } }
    let p ← iproveRedeem cfg cfg.staking pay staker cfg.staking
    emit (.unstake staker prover p pay)
    return p
  else do
    emit (.unstake staker prover 0 pay)
    return 0

/-- The loop of `_finishUnstake`, `contracts/src/SuccinctStaking.sol:630-644`. -/
def finishLoopE (cfg : Cfg) (c : Ctx) (staker prover : Address) : (fuel i paid : Nat) → LM Nat
  | 0, _, paid => pure paid
  | fuel + 1, i, paid => do
    let w ← get
    match (w.staking.unstakeClaims staker)[i]? with
    | none => return paid
    | some claim =>
      let ready ← add256 claim.timestamp w.staking.unstakePeriod
      if ready ≤ c.now then do
        modStaking fun s => { s with
          unstakeClaims := upd s.unstakeClaims staker (swapPop (s.unstakeClaims staker) i) }
        let p ← finishUnstakeRequestE cfg staker prover claim
        let paid' ← add256 paid p
        finishLoopE cfg c staker prover fuel i paid'
      else finishLoopE cfg c staker prover fuel (i + 1) paid

/-- `finishUnstake`, `contracts/src/SuccinctStaking.sol:332-361`. -/
def finishUnstakeE (cfg : Cfg) (c : Ctx) (staker : Address) : LM Nat := do
  let w ← get
  let prover := w.staking.stakerToProver staker
  require (prover ≠ 0) .notStaked
  let w ← get
  let n := (w.staking.unstakeClaims staker).length
  require (n ≠ 0) .noUnstakeRequests
  requireNoSlash prover
  let paid ← finishLoopE cfg c staker prover n 0 0
  let w ← get
  let pool := w.staking.escrowPools prover
  if pool.iPROVEEscrow = 0 ∧ pool.slashFactor ≠ SCALAR then
    modStaking fun s => { s with escrowPools := upd s.escrowPools prover { pool with slashFactor := SCALAR } }
  let w ← get
  if w.st.bal staker = 0 ∧ w.staking.unstakeClaims staker = [] then
    modStaking fun s => { s with stakerToProver := upd s.stakerToProver staker 0 }
    emit (.proverUnbound staker prover)
  return paid

/-- `requestSlash`, `contracts/src/SuccinctStaking.sol:368-390`. -/
def requestSlashE (cfg : Cfg) (c : Ctx) (prover : Address) (amount : Nat) : LM Nat := do
  let index ← requestSlash cfg c prover amount
  emit (.slashRequest prover amount index)
  return index

/-- `cancelSlash`, `contracts/src/SuccinctStaking.sol:393-420`. -/
def cancelSlashE (c : Ctx) (prover : Address) (index : Nat) : LM Unit := do
  onlyForProver prover
  let w ← get
  let claim ← liftO (w.staking.slashClaims prover)[index]? .indexOutOfBounds
  require (claim.resolved = false) .slashRequestAlreadyResolved
  let w ← get
  let d1 ← add256 claim.timestamp w.staking.slashCancellationPeriod
  let d2 ← add256 d1 c.votingDelay
  let deadline ← add256 d2 c.votingPeriod
  require (deadline ≤ c.now) .slashRequestNotReadyToCancel
  resolveSlash prover index claim
  emit (.slashCancel prover claim.iPROVE index)

/-- The burn branch of `finishSlash`, `contracts/src/SuccinctStaking.sol:454-483`: the $PROVE and the $iPROVE burned.
The sum of the two amounts of $PROVE does not overflow: both were in the $iPROVE vault. -/
def slashBurnE (cfg : Cfg) (prover : Address) (total toSlash : Nat) : L1 (Nat × Nat) := do
  let pool := (← get).staking.escrowPools prover
  let fromEscrow ← mulDiv toSlash pool.iPROVEEscrow total
  let fromVault ← sub256 toSlash fromEscrow
  let p1 ← if fromEscrow ≠ 0 then do
      let e ← sub256 pool.iPROVEEscrow fromEscrow
      modStaking fun s => { s with escrowPools := upd s.escrowPools prover { pool with iPROVEEscrow := e } }
      iproveBurn cfg cfg.staking cfg.staking fromEscrow
    else pure 0
  let p2 ← if fromVault ≠ 0 then iproveBurn cfg cfg.staking prover fromVault else pure 0
  let remaining ← sub256 total toSlash
  if remaining = 0 then
    modStaking fun s => { s with
      escrowPools := upd s.escrowPools prover { s.escrowPools prover with slashFactor := 0 } }
  else do
    let ratio ← mulDiv remaining SCALAR total
    let factor := if pool.slashFactor = 0 then SCALAR else pool.slashFactor
    let factor' ← mulDiv factor ratio SCALAR
    modStaking fun s => { s with
      escrowPools := upd s.escrowPools prover { s.escrowPools prover with slashFactor := factor' } }
  return (p1 + p2, fromEscrow + fromVault)

/-- `finishSlash`, `contracts/src/SuccinctStaking.sol:423-490`. -/
def finishSlashE (cfg : Cfg) (c : Ctx) (prover : Address) (index : Nat) : LM Nat := do
  stakingOnlyOwner c
  onlyForProver prover
  let w ← get
  let claim ← liftO (w.staking.slashClaims prover)[index]? .indexOutOfBounds
  require (claim.resolved = false) .slashRequestAlreadyResolved
  let w ← get
  let total ← add256 (w.iprove.bal prover) (w.staking.escrowPools prover).iPROVEEscrow
  let toSlash := if total < claim.iPROVE then total else claim.iPROVE
  resolveSlash prover index claim
  let burned ← if 0 < toSlash then slashBurnE cfg prover total toSlash else pure (0, 0)
  emit (.slash prover burned.1 burned.2 index)
  deactivateIfBelowMinE prover
  return burned.2

/-- `dispense`, `contracts/src/SuccinctStaking.sol:493-513`. -/
def dispenseE (cfg : Cfg) (c : Ctx) (v : Nat) : LM Unit := do
  let w ← get
  require (c.sender = w.staking.dispenser) .notDispenser
  let available ← maxDispense c
  let amount := if v = max256 then available else v
  require (amount ≠ 0) .zeroAmount
  require (amount ≤ available) .amountExceedsAvailableDispense
  let w ← get
  let d ← add256 w.staking.dispenseDistributed amount
  modStaking fun s => { s with dispenseDistributed := d }
  proveTransfer cfg.staking cfg.iprove amount
  emit (.dispense amount)

/-- `setDispenser`, `contracts/src/SuccinctStaking.sol:516-518,648-652`. -/
def setDispenserE (c : Ctx) (a : Address) : LM Unit := do
  stakingOnlyOwner c
  let w ← get
  emit (.dispenserUpdate w.staking.dispenser a)
  modStaking fun s => { s with dispenser := a }

/-- `updateDispenseRate`, `contracts/src/SuccinctStaking.sol:521-523,655-666`: the event precedes the last
assignment only. -/
def updateDispenseRateE (c : Ctx) (rate : Nat) : LM Unit := do
  let w ← get
  updateDispenseRate c rate
  emit (.dispenseRateUpdate w.staking.dispenseRate rate)

/-- `transferOwnership` and `renounceOwnership` of `OwnableUpgradeable`, `contracts/src/SuccinctStaking.sol:32`. -/
def stakingSetOwnerE (c : Ctx) (a : Address) : LM Unit := do
  let w ← get
  stakingSetOwner c a
  emit (.stakingOwnershipTransferred w.staking.owner a)

/-! ## Calls and logs -/

/-- Forget the returned value. -/
def dropE {α : Type} (m : LM α) : LM Unit := do
  let _ ← m
  pure ()

/-- Dispatch of an external call, as `exec`; the token contracts emit none of the modelled events. -/
def execE (cfg : Cfg) (c : Ctx) : Call → LM Unit
  | .deposit v => dropE (vappDepositE cfg c v)
  | .permitAndDeposit signer f v => dropE (vappPermitAndDepositE cfg signer f v)
  | .vappCreateProver p o f => dropE (vappCreateProverE c c.sender p o f)
  | .step pv proof => dropE (vappStepE cfg c pv proof)
  | .fork k r => dropE (vappForkE c k r)
  | .updateAuctioneer a => vappUpdateAuctioneerE c a
  | .updateStaking a => vappUpdateStakingE c a
  | .updateVerifier a => vappUpdateVerifierE c a
  | .updateMinDeposit v => vappUpdateMinDepositE c v.toNat
  | .pause => vappPauseE c
  | .unpause => vappUnpauseE c
  | .vappSetOwner a => vappSetOwnerE c a
  | .createProver f => dropE (createProverE cfg c f)
  | .stake p v => dropE (stakeE cfg c p v.toNat)
  | .permitAndStake signer p f v => dropE (permitAndStakeE cfg signer p f v.toNat)
  | .requestUnstake v => requestUnstakeE cfg c v.toNat
  | .finishUnstake s => dropE (finishUnstakeE cfg c s)
  | .requestSlash p v => dropE (requestSlashE cfg c p v.toNat)
  | .cancelSlash p i => cancelSlashE c p i.toNat
  | .finishSlash p i => dropE (finishSlashE cfg c p i.toNat)
  | .dispense v => dispenseE cfg c v.toNat
  | .setDispenser a => setDispenserE c a
  | .updateDispenseRate v => updateDispenseRateE c v.toNat
  | .stakingSetOwner a => stakingSetOwnerE c a
  | k => quiet (exec cfg c k)

/-- The events of a transaction on L1: a reverted call leaves none. -/
def callEvents (cfg : Cfg) (c : Ctx) (k : Call) (w : World) : List Ev :=
  match execE cfg c k w with
  | .ok (_, _, es) => es
  | .error _ => []

/-- The log of a history of calls. -/
def logOf (cfg : Cfg) : World → List (Ctx × Call) → List Ev
  | _, [] => []
  | w, x :: h => callEvents cfg x.1 x.2 w ++ logOf cfg (call cfg x.1 x.2 w) h

/-- The events of `SuccinctVApp.initialize`, `contracts/src/SuccinctVApp.sol:140-157`. -/
def vappInitEvents (a : VappArgs) : List Ev :=
  [.vappOwnershipTransferred 0 a.owner, .auctioneerUpdate 0 a.auctioneer, .stakingUpdate 0 a.staking,
    .verifierUpdate 0 a.verifier, .minDepositAmountUpdate 0 a.minDepositAmount.toNat,
    .fork 0 0 a.vkey, .block 0 0 a.genesisStateRoot]

/-- The events of `SuccinctStaking.initialize`, `contracts/src/SuccinctStaking.sol:131-143`: the first dispenser is set
without an event. -/
def stakingInitEvents (a : StakingArgs) : List Ev :=
  [.stakingOwnershipTransferred 0 a.owner]

end Verif
