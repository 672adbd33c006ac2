import Verif.L1
/-
# The L1 contracts: the vApp contract, the staking contract and the prover registry
-/

namespace Verif
open L1

/-- Write the staking contract's storage. -/
def modStaking (f : Staking → Staking) : L1 Unit := modify fun w => { w with staking := f w.staking }
/-- Write the vApp contract's storage. -/
def modVapp (f : VApp → VApp) : L1 Unit := modify fun w => { w with vapp := f w.vapp }

/-! ## `SuccinctVApp` -/

/-- An `address` word; dirty high bits are refused by `abi.decode`. -/
def wordAddr (n : Nat) : Option Address := if n < 2 ^ 160 then some (BitVec.ofNat 160 n) else none

/-- `abi.decode(_, (DepositAction))`, `contracts/src/libraries/Receipts.sol:45-46`, and
`abi.decode(_, (WithdrawAction))`, `contracts/src/SuccinctVApp.sol:437`: both are (address, uint256). -/
def decAccountAmount (bs : Bytes) : Option (Address × U256) := do
  let a ← wordAddr (← readWord bs 0)
  let v ← readWord bs 32
  return (a, BitVec.ofNat 256 v)

/-- `abi.decode(_, (CreateProverAction))`, `contracts/src/libraries/Receipts.sol:67-68`. -/
def decCreateProver (bs : Bytes) : Option (Address × Address × U256) := do
  let p ← wordAddr (← readWord bs 0)
  let o ← wordAddr (← readWord bs 32)
  let f ← readWord bs 64
  return (p, o, BitVec.ofNat 256 f)

/-- `Receipts.assertEq`, `contracts/src/libraries/Receipts.sol:24-79`. -/
def assertEq (t : SolTransaction) (r : SolReceipt) : L1 Unit :=
  match r.variant with
  | .deposit => do
    require (t.variant = .deposit) .transactionVariantMismatch
    let d ← liftO (decAccountAmount t.action) .abiDecode
    let d' ← liftO (decAccountAmount r.action) .abiDecode
    require (d.1 = d'.1) .transactionReceiptMismatch
    require (d.2 = d'.2) .transactionReceiptMismatch
  | .createProver => do
    require (t.variant = .createProver) .transactionVariantMismatch
    let d ← liftO (decCreateProver t.action) .abiDecode
    let d' ← liftO (decCreateProver r.action) .abiDecode
    require (d.1 = d'.1) .transactionReceiptMismatch
    require (d.2.1 = d'.2.1) .transactionReceiptMismatch
    require (d.2.2 = d'.2.2) .transactionReceiptMismatch
  | .withdraw => throw .unsupportedTransactionVariant

/-- `_createTransaction`, `contracts/src/SuccinctVApp.sol:350-363`. -/
def createTransaction (v : TxVariant) (data : Bytes) : L1 U64 := do
  let id ← inc64 (← get).vapp.currentOnchainTxId
  modVapp fun s => { s with
    currentOnchainTxId := id
    transactions := upd s.transactions id ⟨v, .pending, id, data⟩ }
  return id

/-- `whenNotPaused`. -/
def whenNotPaused : L1 Unit := do require ((← get).vapp.paused = false) .enforcedPause

/-- `_deposit`, `contracts/src/SuccinctVApp.sol:333-347`. -/
def vappDepositFrom (cfg : Cfg) (from_ : Address) (amount : U256) : L1 U64 := do
  require ((← get).vapp.minDepositAmount ≤ amount.toNat) .transferBelowMinimum
  let id ← createTransaction .deposit (Deposit.mk from_ amount).abi
  proveTransferFrom cfg.vapp from_ cfg.vapp amount.toNat
  return id

/-- `ERC20Permit.permit` on $PROVE: `signer` is the address recovered from the signature. Nonces and
deadlines are not modelled, so more calls succeed here than on chain. -/
def provePermit (signer owner spender : Address) (v : Nat) : L1 Unit := do
  require (signer = owner) .invalidPermit
  onProve (·.approve owner spender v)

/-- `deposit`, `contracts/src/SuccinctVApp.sol:179-181`. -/
def vappDeposit (cfg : Cfg) (c : Ctx) (amount : U256) : L1 U64 := do
  whenNotPaused
  vappDepositFrom cfg c.sender amount

/-- `permitAndDeposit`, `contracts/src/SuccinctVApp.sol:184-199`. -/
def vappPermitAndDeposit (cfg : Cfg) (signer from_ : Address) (amount : U256) : L1 U64 := do
  whenNotPaused
  if (← get).prove.allow from_ cfg.vapp ≠ amount.toNat then
    provePermit signer from_ cfg.vapp amount.toNat
  vappDepositFrom cfg from_ amount

/-- `IProver(_prover).owner()`, `contracts/src/SuccinctVApp.sol:210`: our registry's provers answer with
their immutable owner, any other address is outside the model. -/
def proverOwner (c : Ctx) (w : World) (p : Address) : Option Address :=
  if w.staking.provers p then some (w.info p).owner else c.foreignOwner p

/-- `createProver`, `contracts/src/SuccinctVApp.sol:202-219`. -/
def vappCreateProver (c : Ctx) (sender prover owner : Address) (fee : U256) : L1 U64 := do
  require (sender = (← get).vapp.staking) .notStaking
  whenNotPaused
  require (owner ≠ 0) .zeroAddress
  let w ← get
  require (proverOwner c w prover = some owner) .proverNotOwned
  createTransaction .createProver (CreateProver.mk prover owner fee).abi

/-- `ISuccinctStaking(staking).isProver(_to)`, `contracts/src/SuccinctVApp.sol:451`. -/
def isProverFor (cfg : Cfg) (c : Ctx) (w : World) (to : Address) : Bool :=
  if w.vapp.staking = cfg.staking then w.staking.provers to else c.foreignIsProver to

/-- `_processWithdraw`, `contracts/src/SuccinctVApp.sol:445-460`. -/
def processWithdraw (cfg : Cfg) (c : Ctx) (to : Address) (amount : Nat) : L1 Unit := do
  let w ← get
  if isProverFor cfg c w to = true then
    let _ ← iproveDeposit cfg cfg.vapp amount to
  else
    proveTransfer cfg.vapp to amount

/-- The status check at the top of both receipt handlers, `contracts/src/SuccinctVApp.sol:388-393,423-428`. -/
def requireFinal (r : SolReceipt) : L1 Unit :=
  require (r.status ≠ .none ∧ r.status ≠ .pending) .receiptStatusInvalid

/-- `_handleOnchainReceipt`, `contracts/src/SuccinctVApp.sol:378-418`. The last check (the variant of a
completed transaction) cannot fail after `assertEq`. -/
def handleOnchain (r : SolReceipt) : L1 Unit := do
  let id ← inc64 (← get).vapp.finalizedOnchainTxId
  modVapp fun s => { s with finalizedOnchainTxId := id }
  require (id = r.onchainTxId) .receiptOutOfOrder
  requireFinal r
  assertEq ((← get).vapp.transactions id) r
  modVapp fun s => { s with transactions := upd s.transactions id { s.transactions id with status := r.status } }
  if r.status = .reverted then pure ()
  else require (r.variant = .deposit ∨ r.variant = .createProver) .transactionVariantInvalid

/-- `_handleOffchainReceipt`, `contracts/src/SuccinctVApp.sol:421-442`. -/
def handleOffchain (cfg : Cfg) (c : Ctx) (r : SolReceipt) : L1 Unit := do
  requireFinal r
  if r.status = .reverted then pure ()
  else if r.variant = .withdraw then do
    let d ← liftO (decAccountAmount r.action) .abiDecode
    processWithdraw cfg c d.1 d.2.toNat
  else throw .transactionVariantInvalid

/-- `_handleReceipts`, `contracts/src/SuccinctVApp.sol:366-375`. -/
def handleReceipts (cfg : Cfg) (c : Ctx) : List SolReceipt → L1 Unit
  | [] => pure ()
  | r :: rs => do
    if r.onchainTxId ≠ BitVec.allOnes 64 then handleOnchain r else handleOffchain cfg c r
    handleReceipts cfg c rs

/-- `step`, `contracts/src/SuccinctVApp.sol:222-261`. -/
def vappStep (cfg : Cfg) (c : Ctx) (pv proof : Bytes) : L1 (U64 × B256 × B256) := do
  require (c.sender = (← get).vapp.auctioneer) .notAuctioneer
  whenNotPaused
  let s := (← get).vapp
  require (c.verifyProof s.verifier s.vkey pv proof = true) .proofInvalid
  let v ← liftO (StepValues.decode pv) .abiDecode
  require (v.newRoot ≠ 0) .invalidRoot
  require (s.roots s.blockNumber = v.oldRoot) .invalidOldRoot
  require (v.timestamp.toNat ≤ c.now) .invalidTimestamp
  require ((s.timestamps s.blockNumber).toNat ≤ v.timestamp.toNat) .timestampInPast
  require (c.now - v.timestamp.toNat ≤ 3600) .timestampTooOld
  let b ← inc64 s.blockNumber
  modVapp fun s => { s with
    blockNumber := b
    roots := upd s.roots b v.newRoot
    timestamps := upd s.timestamps b v.timestamp }
  handleReceipts cfg c v.receipts
  return (b, v.oldRoot, v.newRoot)

/-- `onlyOwner` of the vApp contract. -/
def vappOnlyOwner (c : Ctx) : L1 Unit := do require (c.sender = (← get).vapp.owner) .ownableUnauthorized

/-- `fork`, `contracts/src/SuccinctVApp.sol:268-296`. -/
def vappFork (c : Ctx) (vkey root : B256) : L1 (U64 × B256 × B256) := do
  vappOnlyOwner c
  require (vkey ≠ 0 ∧ root ≠ 0) .zeroHash
  let s := (← get).vapp
  let b ← inc64 s.blockNumber
  modVapp fun s => { s with
    vkey := vkey
    blockNumber := b
    roots := upd s.roots b root
    timestamps := upd s.timestamps b (BitVec.ofNat 64 c.now) }
  return (b, s.roots s.blockNumber, root)

/-- `updateAuctioneer`, `contracts/src/SuccinctVApp.sol:299-301,463-467`. -/
def vappUpdateAuctioneer (c : Ctx) (a : Address) : L1 Unit := do
  vappOnlyOwner c
  modVapp fun s => { s with auctioneer := a }

/-- `updateStaking`, `contracts/src/SuccinctVApp.sol:304-306,470-474`. -/
def vappUpdateStaking (c : Ctx) (a : Address) : L1 Unit := do
  vappOnlyOwner c
  modVapp fun s => { s with staking := a }

/-- `updateVerifier`, `contracts/src/SuccinctVApp.sol:309-311,477-481`. -/
def vappUpdateVerifier (c : Ctx) (a : Address) : L1 Unit := do
  vappOnlyOwner c
  modVapp fun s => { s with verifier := a }

/-- `updateMinDepositAmount`, `contracts/src/SuccinctVApp.sol:314-316,484-488`. -/
def vappUpdateMinDeposit (c : Ctx) (v : Nat) : L1 Unit := do
  vappOnlyOwner c
  modVapp fun s => { s with minDepositAmount := v }

/-- `pause`, `contracts/src/SuccinctVApp.sol:319-321`. -/
def vappPause (c : Ctx) : L1 Unit := do
  vappOnlyOwner c
  whenNotPaused
  modVapp fun s => { s with paused := true }

/-- `unpause`, `contracts/src/SuccinctVApp.sol:324-326`. -/
def vappUnpause (c : Ctx) : L1 Unit := do
  vappOnlyOwner c
  require ((← get).vapp.paused = true) .expectedPause
  modVapp fun s => { s with paused := false }

/-- `transferOwnership` and `renounceOwnership` of `OwnableUpgradeable`, `contracts/src/SuccinctVApp.sol:44`. -/
def vappSetOwner (c : Ctx) (a : Address) : L1 Unit := do
  vappOnlyOwner c
  modVapp fun s => { s with owner := a }

/-! ## `ProverRegistry` -/

/-- `onlyForProver`, `contracts/src/libraries/ProverRegistry.sol:61-66`. -/
def onlyForProver (p : Address) : L1 Unit := do require ((← get).staking.provers p = true) .proverNotFound

/-- `_deployProver`, `contracts/src/libraries/ProverRegistry.sol:109-145`. `CREATE2` fails if the address
already carries code. Simplification: the prover count does not wrap at 2^256 (the provers have
different 160-bit addresses). -/
def deployProver (cfg : Cfg) (c : Ctx) (owner : Address) (fee : U256) : L1 Address := do
  require (cfg.iprove ≠ 0) .notReachable
  modStaking fun s => { s with proverCount := s.proverCount + 1 }
  let n := (← get).staking.proverCount
  require (owner ≠ 0) .zeroAddress
  let p := cfg.create2 owner n fee.toNat
  require ((← get).staking.provers p = false) .deployFailed
  modify fun w => { w with
    info := upd w.info p ⟨owner, n, fee.toNat⟩
    vault := upd w.vault p Erc20.empty }
  modStaking fun s => { s with
    ownerToProver := upd s.ownerToProver owner p
    provers := upd s.provers p true }
  let _ ← vappCreateProver c cfg.staking p owner fee
  onIprove (·.approve cfg.staking p max256)
  return p

/-- `createProver`, `contracts/src/libraries/ProverRegistry.sol:96-106`. -/
def createProver (cfg : Cfg) (c : Ctx) (fee : U256) : L1 Address := do
  require (fee.toNat ≤ 10000) .invalidStakerFeeBips
  require ((← get).staking.ownerToProver c.sender = 0) .proverAlreadyExists
  deployProver cfg c c.sender fee

/-- `_deactivateProverIfPriceBelowMin`, `contracts/src/libraries/ProverRegistry.sol:155-173`. -/
def deactivateIfBelowMin (p : Address) : L1 Unit := do
  let w ← get
  if w.staking.deactivatedProvers p = true then pure ()
  else if (w.vault p).supply = 0 then pure ()
  else do
    let price ← mulDiv (w.iprove.bal p) (10 ^ 18) (w.vault p).supply
    if price < 10 ^ 9 then
      modStaking fun s => { s with deactivatedProvers := upd s.deactivatedProvers p true }

/-! ## `SuccinctStaking` -/

/-- `SCALAR`, `contracts/src/SuccinctStaking.sol:44`. -/
def SCALAR : Nat := 10 ^ 27

/-- `_requireProverWithoutSlashRequests`, `contracts/src/SuccinctStaking.sol:679-681`. -/
def requireNoSlash (p : Address) : L1 Unit := do
  require ((← get).staking.slashClaimCount p = 0) .proverHasSlashRequest

/-- `maxDispense`, `contracts/src/SuccinctStaking.sol:233-241`. -/
def maxDispense (c : Ctx) : L1 Nat := do
  let s := (← get).staking
  let dt ← sub256 c.now s.dispenseRateTimestamp
  let e ← mul256 dt s.dispenseRate
  let total ← add256 s.dispenseEarned e
  sub256 total s.dispenseDistributed

/-- `_stake`, `contracts/src/SuccinctStaking.sol:531-578`. -/
def stakeFor (cfg : Cfg) (staker prover : Address) (amount : Nat) : L1 Nat := do
  require (amount ≠ 0) .zeroAmount
  require ((← get).staking.minStakeAmount ≤ amount) .stakeBelowMinimum
  require ((← get).staking.deactivatedProvers prover = false) .proverNotActive
  requireNoSlash prover
  let existing := (← get).staking.stakerToProver staker
  require (existing = 0 ∨ existing = prover) .alreadyStakedWithDifferentProver
  if existing = 0 then
    modStaking fun s => { s with stakerToProver := upd s.stakerToProver staker prover }
  let i ← iproveDeposit cfg cfg.staking amount cfg.staking
  require (i ≠ 0) .zeroReceiptAmount
  let st ← vaultDeposit cfg cfg.staking prover i cfg.staking
  require (st ≠ 0) .zeroReceiptAmount
  onSt true (·.mint staker st)
  return st

/-- `stake`, `contracts/src/SuccinctStaking.sol:248-258`. -/
def stake (cfg : Cfg) (c : Ctx) (prover : Address) (amount : Nat) : L1 Nat := do
  onlyForProver prover
  proveTransferFrom cfg.staking c.sender cfg.staking amount
  stakeFor cfg c.sender prover amount

/-- `permitAndStake`, `contracts/src/SuccinctStaking.sol:261-281`. -/
def permitAndStake (cfg : Cfg) (signer prover from_ : Address) (amount : Nat) : L1 Nat := do
  onlyForProver prover
  if (← get).prove.allow from_ prover ≠ amount then
    provePermit signer from_ prover amount
  transferProveToStaking cfg cfg.staking prover from_ amount
  stakeFor cfg from_ prover amount

/-- `_escrowUnstakeRequest`, `contracts/src/SuccinctStaking.sol:581-591`. -/
def escrowUnstakeRequest (cfg : Cfg) (staker prover : Address) (st : Nat) : L1 Nat := do
  onSt true (·.burn staker st)
  vaultRedeem cfg cfg.staking prover st cfg.staking cfg.staking

/-- `requestUnstake`, `contracts/src/SuccinctStaking.sol:284-329`. -/
def requestUnstake (cfg : Cfg) (c : Ctx) (st : Nat) : L1 Unit := do
  require (st ≠ 0) .zeroAmount
  let prover := (← get).staking.stakerToProver c.sender
  require (prover ≠ 0) .notStaked
  let w ← get
  require ((w.staking.unstakeClaims c.sender).length < w.staking.maxUnstakeRequests) .tooManyUnstakeRequests
  requireNoSlash prover
  require (st ≤ (← get).st.bal c.sender) .insufficientStakeBalance
  let esc ← escrowUnstakeRequest cfg c.sender prover st
  let pool := (← get).staking.escrowPools prover
  let factor := if pool.slashFactor = 0 then SCALAR else pool.slashFactor
  let total ← add256 pool.iPROVEEscrow esc
  modStaking fun s => { s with
    escrowPools := upd s.escrowPools prover ⟨total, factor⟩
    unstakeClaims := upd s.unstakeClaims c.sender (s.unstakeClaims c.sender ++ [⟨esc, factor, c.now⟩]) }

/-- `_finishUnstakeRequest`, `contracts/src/SuccinctStaking.sol:594-621`. -/
def finishUnstakeRequest (cfg : Cfg) (staker prover : Address) (claim : UnstakeClaim) : L1 Nat := do
  let pool := (← get).staking.escrowPools prover
  let scaled ← mulDiv claim.iPROVEEscrow pool.slashFactor claim.slashFactor
  let pay := if pool.iPROVEEscrow < scaled then pool.iPROVEEscrow else scaled
  if pay ≠ 0 then
    modStaking fun s => { s with
      escrowPools := upd s.escrowPools prover { pool with iPROVEEscrow := pool.iPROVEEscrow - pay } }
    iproveRedeem cfg cfg.staking pay staker cfg.staking
  else return 0

/-- `_claims[i] = _claims[_claims.length - 1]; _claims.pop();`, `contracts/src/SuccinctStaking.sol:636-637`. -/
def swapPop {α : Type} (l : List α) (i : Nat) : List α :=
  match l.getLast? with
  | some x => (l.set i x).dropLast
  | none => l

/-- The loop of `_finishUnstake`, `contracts/src/SuccinctStaking.sol:630-644`. Each iteration either drops
a claim or moves on, so as many iterations as there are claims reach the end. -/
def finishLoop (cfg : Cfg) (c : Ctx) (staker prover : Address) : (fuel i paid : Nat) → L1 Nat
  | 0, _, paid => pure paid
  | fuel + 1, i, paid => do
    let w ← get
    match (w.staking.unstakeClaims staker)[i]? with
    | none => return paid
    | some claim =>
      let ready ← add256 claim.timestamp w.staking.unstakePeriod
      if ready ≤ c.now then do
        modStaking fun s => { s with
          unstakeClaims := upd s.unstakeClaims staker (swapPop (s.unstakeClaims staker) i) }
        let p ← finishUnstakeRequest cfg staker prover claim
        let paid' ← add256 paid p
        finishLoop cfg c staker prover fuel i paid'
      else finishLoop cfg c staker prover fuel (i + 1) paid

/-- `finishUnstake`, `contracts/src/SuccinctStaking.sol:332-361`. -/
def finishUnstake (cfg : Cfg) (c : Ctx) (staker : Address) : L1 Nat := do
  let prover := (← get).staking.stakerToProver staker
  require (prover ≠ 0) .notStaked
  let n := ((← get).staking.unstakeClaims staker).length
  require (n ≠ 0) .noUnstakeRequests
  requireNoSlash prover
  let paid ← finishLoop cfg c staker prover n 0 0
  let pool := (← get).staking.escrowPools prover
  if pool.iPROVEEscrow = 0 ∧ pool.slashFactor ≠ SCALAR then
    modStaking fun s => { s with escrowPools := upd s.escrowPools prover { pool with slashFactor := SCALAR } }
  let w ← get
  if w.st.bal staker = 0 ∧ w.staking.unstakeClaims staker = [] then
    modStaking fun s => { s with stakerToProver := upd s.stakerToProver staker 0 }
  return paid

/-- `requestSlash`, `contracts/src/SuccinctStaking.sol:368-390`. -/
def requestSlash (cfg : Cfg) (c : Ctx) (prover : Address) (amount : Nat) : L1 Nat := do
  require (c.sender = cfg.vapp) .notAuthorized
  onlyForProver prover
  require (amount ≠ 0) .zeroAmount
  let index := ((← get).staking.slashClaims prover).length
  modStaking fun s => { s with
    slashClaims := upd s.slashClaims prover (s.slashClaims prover ++ [⟨amount, c.now, false⟩])
    slashClaimCount := upd s.slashClaimCount prover ((s.slashClaimCount prover + 1) % 2 ^ 256) }
  return index

/-- Mark a claim as resolved and decrement the counter (unchecked),
`contracts/src/SuccinctStaking.sol:412-417,445-450`. -/
def resolveSlash (prover : Address) (index : Nat) (claim : SlashClaim) : L1 Unit :=
  modStaking fun s => { s with
    slashClaims := upd s.slashClaims prover ((s.slashClaims prover).set index { claim with resolved := true })
    slashClaimCount := upd s.slashClaimCount prover ((s.slashClaimCount prover + (2 ^ 256 - 1)) % 2 ^ 256) }

/-- `cancelSlash`, `contracts/src/SuccinctStaking.sol:393-420`. -/
def cancelSlash (c : Ctx) (prover : Address) (index : Nat) : L1 Unit := do
  onlyForProver prover
  let claim ← liftO ((← get).staking.slashClaims prover)[index]? .indexOutOfBounds
  require (claim.resolved = false) .slashRequestAlreadyResolved
  let d1 ← add256 claim.timestamp (← get).staking.slashCancellationPeriod
  let d2 ← add256 d1 c.votingDelay
  let deadline ← add256 d2 c.votingPeriod
  require (deadline ≤ c.now) .slashRequestNotReadyToCancel
  resolveSlash prover index claim

/-- `onlyOwner` of the staking contract. -/
def stakingOnlyOwner (c : Ctx) : L1 Unit := do
  require (c.sender = (← get).staking.owner) .ownableUnauthorized

/-- The burn branch of `finishSlash`, `contracts/src/SuccinctStaking.sol:454-483`. -/
def slashBurn (cfg : Cfg) (prover : Address) (total toSlash : Nat) : L1 Nat := do
  let pool := (← get).staking.escrowPools prover
  let fromEscrow ← mulDiv toSlash pool.iPROVEEscrow total
  let fromVault ← sub256 toSlash fromEscrow
  if fromEscrow ≠ 0 then
    let e ← sub256 pool.iPROVEEscrow fromEscrow
    modStaking fun s => { s with escrowPools := upd s.escrowPools prover { pool with iPROVEEscrow := e } }
    let _ ← iproveBurn cfg cfg.staking cfg.staking fromEscrow
  if fromVault ≠ 0 then
    let _ ← iproveBurn cfg cfg.staking prover fromVault
  let remaining ← sub256 total toSlash
  if remaining = 0 then
    modStaking fun s => { s with
      escrowPools := upd s.escrowPools prover { s.escrowPools prover with slashFactor := 0 } }
  else do
    let ratio ← mulDiv remaining SCALAR total
    let factor := if pool.slashFactor = 0 then SCALAR else pool.slashFactor
    let factor' ← mulDiv factor ratio SCALAR
    modStaking fun s => { s with
      escrowPools := upd s.escrowPools prover { s.escrowPools prover with slashFactor := factor' } }
  return fromEscrow + fromVault

/-- `finishSlash`, `contracts/src/SuccinctStaking.sol:423-490`. -/
def finishSlash (cfg : Cfg) (c : Ctx) (prover : Address) (index : Nat) : L1 Nat := do
  stakingOnlyOwner c
  onlyForProver prover
  let claim ← liftO ((← get).staking.slashClaims prover)[index]? .indexOutOfBounds
  require (claim.resolved = false) .slashRequestAlreadyResolved
  let w ← get
  let total ← add256 (w.iprove.bal prover) (w.staking.escrowPools prover).iPROVEEscrow
  let toSlash := if total < claim.iPROVE then total else claim.iPROVE
  resolveSlash prover index claim
  let burned ← if 0 < toSlash then slashBurn cfg prover total toSlash else pure 0
  deactivateIfBelowMin prover
  return burned

/-- `dispense`, `contracts/src/SuccinctStaking.sol:493-513`. -/
def dispense (cfg : Cfg) (c : Ctx) (v : Nat) : L1 Unit := do
  require (c.sender = (← get).staking.dispenser) .notDispenser
  let available ← maxDispense c
  let amount := if v = max256 then available else v
  require (amount ≠ 0) .zeroAmount
  require (amount ≤ available) .amountExceedsAvailableDispense
  let d ← add256 (← get).staking.dispenseDistributed amount
  modStaking fun s => { s with dispenseDistributed := d }
  proveTransfer cfg.staking cfg.iprove amount

/-- `setDispenser`, `contracts/src/SuccinctStaking.sol:516-518,648-652`. -/
def setDispenser (c : Ctx) (a : Address) : L1 Unit := do
  stakingOnlyOwner c
  modStaking fun s => { s with dispenser := a }

/-- `updateDispenseRate`, `contracts/src/SuccinctStaking.sol:521-523,655-666`. -/
def updateDispenseRate (c : Ctx) (rate : Nat) : L1 Unit := do
  stakingOnlyOwner c
  let s := (← get).staking
  let dt ← sub256 c.now s.dispenseRateTimestamp
  let x ← mul256 dt s.dispenseRate
  let e ← add256 s.dispenseEarned x
  modStaking fun s => { s with dispenseEarned := e, dispenseRateTimestamp := c.now, dispenseRate := rate }

/-- `transferOwnership` and `renounceOwnership` of `OwnableUpgradeable`, `contracts/src/SuccinctStaking.sol:32`. -/
def stakingSetOwner (c : Ctx) (a : Address) : L1 Unit := do
  stakingOnlyOwner c
  modStaking fun s => { s with owner := a }

end Verif
