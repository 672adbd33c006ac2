import Verif.Abi
/-
# The L1 contracts: state, tokens and vaults

Model of the contracts in `contracts/src`: the $PROVE token (`tokens/Succinct.sol`), the $iPROVE vault
(`tokens/IntermediateSuccinct.sol`), the $PROVER-N vaults (`tokens/SuccinctProver.sol`), the $stPROVE
token (`tokens/StakedSuccinct.sol`), `SuccinctStaking.sol` with `libraries/ProverRegistry.sol`, and
`SuccinctVApp.sol`. All contracts live in one `World`; a call that reverts leaves it unchanged.

The base contracts of OpenZeppelin (`ERC20`, `ERC20Permit`, `ERC20Burnable`, `ERC20Votes`, `ERC4626`,
`OwnableUpgradeable`, `PausableUpgradeable`, `Math`) are not in the repository (empty submodules); they
are modelled as documented for version 5. Token amounts are natural numbers: the supply check of `_mint`
keeps every balance below 2^256, so the unchecked additions in `ERC20._update` do not wrap.
Not modelled: events, voting power, gas, proxies and upgrades.
-/

namespace Verif

/-- Reasons for a revert of the modelled contracts (payloads dropped). -/
inductive L1Err where
  | notAuctioneer | notStaking | zeroAddress | zeroHash | invalidRoot | invalidOldRoot
  | invalidTimestamp | timestampInPast | timestampTooOld | transferBelowMinimum | proverNotOwned
  | receiptOutOfOrder | receiptStatusInvalid | transactionVariantInvalid
  | unsupportedTransactionVariant | transactionVariantMismatch | transactionReceiptMismatch
  | proofInvalid | abiDecode | ownableUnauthorized | enforcedPause | expectedPause
  | overflow | erc20InvalidAddress | erc20InsufficientBalance | erc20InsufficientAllowance
  | invalidPermit | exceededSafeSupply | nonTransferable | exceededMaxRedeem
  | notAuthorized | proverNotFound | invalidStakerFeeBips | proverAlreadyExists | deployFailed
  | notDispenser | zeroAmount | notStaked | tooManyUnstakeRequests | proverHasSlashRequest
  | insufficientStakeBalance | noUnstakeRequests | slashRequestAlreadyResolved
  | slashRequestNotReadyToCancel | amountExceedsAvailableDispense | stakeBelowMinimum
  | proverNotActive | alreadyStakedWithDifferentProver | zeroReceiptAmount | indexOutOfBounds
  | notReachable
  deriving DecidableEq

/-- Update of a Solidity mapping. -/
def upd {κ α : Type} [DecidableEq κ] (f : κ → α) (k : κ) (v : α) : κ → α := fun x => if x = k then v else f x

/-- `type(uint256).max`. -/
def max256 : Nat := 2 ^ 256 - 1

/-! ## ERC20 -/

/-- Storage of an `ERC20`. -/
structure Erc20 where
  supply : Nat
  bal : Address → Nat
  allow : Address → Address → Nat

namespace Erc20

/-- A token without holders. -/
def empty : Erc20 := ⟨0, fun _ => 0, fun _ _ => 0⟩

/-- `ERC20._transfer`. -/
def transfer (t : Erc20) (from_ to : Address) (v : Nat) : Except L1Err Erc20 :=
  if from_ = 0 ∨ to = 0 then .error .erc20InvalidAddress
  else if t.bal from_ < v then .error .erc20InsufficientBalance
  else
    let b := upd t.bal from_ (t.bal from_ - v)
    .ok { t with bal := upd b to (b to + v) }

/-- `ERC20._mint`. -/
def mint (t : Erc20) (to : Address) (v : Nat) : Except L1Err Erc20 :=
  if to = 0 then .error .erc20InvalidAddress
  else if max256 < t.supply + v then .error .overflow
  else .ok { t with supply := t.supply + v, bal := upd t.bal to (t.bal to + v) }

/-- `ERC20._burn`. -/
def burn (t : Erc20) (from_ : Address) (v : Nat) : Except L1Err Erc20 :=
  if from_ = 0 then .error .erc20InvalidAddress
  else if t.bal from_ < v then .error .erc20InsufficientBalance
  else .ok { t with supply := t.supply - v, bal := upd t.bal from_ (t.bal from_ - v) }

/-- `ERC20._approve`. -/
def approve (t : Erc20) (owner spender : Address) (v : Nat) : Except L1Err Erc20 :=
  if owner = 0 ∨ spender = 0 then .error .erc20InvalidAddress
  else .ok { t with allow := upd t.allow owner (upd (t.allow owner) spender v) }

/-- `ERC20._spendAllowance`: an infinite allowance is not reduced. -/
def spend (t : Erc20) (owner spender : Address) (v : Nat) : Except L1Err Erc20 :=
  if t.allow owner spender = max256 then .ok t
  else if t.allow owner spender < v then .error .erc20InsufficientAllowance
  else t.approve owner spender (t.allow owner spender - v)

end Erc20

/-! ## Contract states -/

/-- `Transaction`, `contracts/src/libraries/PublicValues.sol:5-14`: the same fields as `Receipt`. -/
abbrev SolTransaction := SolReceipt

/-- An unset storage slot of type `Transaction`. -/
def SolTransaction.unset : SolTransaction := ⟨.deposit, .none, 0, []⟩

/-- Storage of `SuccinctVApp`, `contracts/src/SuccinctVApp.sol:51-87`, with `owner` and `paused` of the
base contracts. The token addresses are in `Cfg`: `initialize` sets them once. -/
structure VApp where
  owner : Address
  paused : Bool
  vkey : B256
  auctioneer : Address
  staking : Address
  verifier : Address
  blockNumber : U64
  minDepositAmount : Nat
  currentOnchainTxId : U64
  finalizedOnchainTxId : U64
  roots : U64 → B256
  timestamps : U64 → U64
  transactions : U64 → SolTransaction

/-- `UnstakeClaim`, `contracts/src/interfaces/ISuccinctStaking.sol:12-16`. -/
structure UnstakeClaim where
  iPROVEEscrow : Nat
  slashFactor : Nat
  timestamp : Nat
  deriving DecidableEq

/-- `SlashClaim`, `contracts/src/interfaces/ISuccinctStaking.sol:23-27`. -/
structure SlashClaim where
  iPROVE : Nat
  timestamp : Nat
  resolved : Bool
  deriving DecidableEq

/-- `EscrowPool`, `contracts/src/interfaces/ISuccinctStaking.sol:34-37`. -/
structure EscrowPool where
  iPROVEEscrow : Nat
  slashFactor : Nat
  deriving DecidableEq

/-- Storage of `SuccinctStaking` and `ProverRegistry`, `contracts/src/SuccinctStaking.sol:43-83`,
`contracts/src/libraries/ProverRegistry.sol:25-47`. `governor`, `vapp`, `prove`, `iProve` are in `Cfg`. -/
structure Staking where
  owner : Address
  dispenser : Address
  minStakeAmount : Nat
  maxUnstakeRequests : Nat
  unstakePeriod : Nat
  slashCancellationPeriod : Nat
  dispenseRate : Nat
  dispenseRateTimestamp : Nat
  dispenseEarned : Nat
  dispenseDistributed : Nat
  stakerToProver : Address → Address
  unstakeClaims : Address → List UnstakeClaim
  slashClaims : Address → List SlashClaim
  slashClaimCount : Address → Nat
  escrowPools : Address → EscrowPool
  proverCount : Nat
  ownerToProver : Address → Address
  provers : Address → Bool
  deactivatedProvers : Address → Bool

/-- Immutables of a `SuccinctProver`, `contracts/src/tokens/SuccinctProver.sol:40-47`. -/
structure ProverInfo where
  owner : Address
  id : Nat
  stakerFeeBips : Nat
  deriving DecidableEq

/-- The state of all modelled contracts. -/
structure World where
  /-- $PROVE -/
  prove : Erc20
  /-- owner of the $PROVE token, who may mint -/
  proveOwner : Address
  /-- $iPROVE -/
  iprove : Erc20
  /-- $PROVER-N, by the address of the vault -/
  vault : Address → Erc20
  info : Address → ProverInfo
  /-- $stPROVE -/
  st : Erc20
  staking : Staking
  vapp : VApp

/-- Addresses fixed at deployment, and the address `CREATE2` gives to a prover deployed by the staking
contract for an owner, a prover number and a fee (`contracts/src/libraries/ProverRegistry.sol:124-131`). -/
structure Cfg where
  prove : Address
  iprove : Address
  staking : Address
  vapp : Address
  create2 : Address → Nat → Nat → Address

/-- The context of a call: `msg.sender`, `block.timestamp`, and the answers of contracts outside the
model: the governor's voting delay and period, the SP1 verifier (by verifier address, vkey, public values,
proof), `isProver` of a staking contract other than ours and `owner()` of a prover contract other than
ours (only after `updateStaking`). -/
structure Ctx where
  sender : Address
  now : Nat
  votingDelay : Nat
  votingPeriod : Nat
  verifyProof : Address → B256 → Bytes → Bytes → Bool
  foreignIsProver : Address → Bool
  foreignOwner : Address → Option Address

/-! ## Monad -/

/-- Contract code: reads and writes the world, may revert. -/
def L1 (α : Type) : Type := World → Except L1Err (α × World)

namespace L1

/-- Sequencing; a revert discards the state. -/
def bind {α β : Type} (m : L1 α) (f : α → L1 β) : L1 β := fun w =>
  match m w with
  | .ok (a, w') => f a w'
  | .error e => .error e

instance : Monad L1 where
  pure a := fun w => .ok (a, w)
  bind := L1.bind

/-- The current state. -/
def get : L1 World := fun w => .ok (w, w)
/-- Replace the state. -/
def modify (f : World → World) : L1 Unit := fun w => .ok ((), f w)
/-- `revert e`. -/
def throw {α : Type} (e : L1Err) : L1 α := fun _ => .error e
/-- `if (!c) revert e`. -/
def require (c : Prop) [Decidable c] (e : L1Err) : L1 Unit := fun w => if c then .ok ((), w) else .error e
/-- A value or a revert. -/
def lift {α : Type} (x : Except L1Err α) : L1 α := fun w =>
  match x with
  | .ok a => .ok (a, w)
  | .error e => .error e
/-- A value or a revert. -/
def liftO {α : Type} (x : Option α) (e : L1Err) : L1 α := fun w =>
  match x with
  | some a => .ok (a, w)
  | none => .error e

end L1

open L1

/-- Checked addition. -/
def add256 (x y : Nat) : L1 Nat := do require (x + y ≤ max256) .overflow; return x + y
/-- Checked subtraction. -/
def sub256 (x y : Nat) : L1 Nat := do require (y ≤ x) .overflow; return x - y
/-- Checked multiplication. -/
def mul256 (x y : Nat) : L1 Nat := do require (x * y ≤ max256) .overflow; return x * y
/-- `Math.mulDiv` (rounding down): reverts if the denominator is zero or the result does not fit. -/
def mulDiv (x y d : Nat) : L1 Nat := do
  require (d ≠ 0 ∧ x * y / d ≤ max256) .overflow
  return x * y / d
/-- `Math.mulDiv` rounding up. -/
def mulDivUp (x y d : Nat) : L1 Nat := do
  require (d ≠ 0 ∧ (x * y + d - 1) / d ≤ max256) .overflow
  return (x * y + d - 1) / d
/-- Checked increment of a `uint64`. -/
def inc64 (x : U64) : L1 U64 := do require (x.toNat + 1 < 2 ^ 64) .overflow; return x + 1

/-! ## $PROVE, `contracts/src/tokens/Succinct.sol` -/

/-- Run an ERC20 operation on $PROVE. -/
def onProve (f : Erc20 → Except L1Err Erc20) : L1 Unit := do
  let t ← lift (f (← get).prove)
  modify fun w => { w with prove := t }

/-- `transfer`, called by `from_`. -/
def proveTransfer (from_ to : Address) (v : Nat) : L1 Unit := onProve (·.transfer from_ to v)

/-- `transferFrom`, called by `spender`. -/
def proveTransferFrom (spender from_ to : Address) (v : Nat) : L1 Unit := do
  onProve (·.spend from_ spender v)
  onProve (·.transfer from_ to v)

/-! ## $iPROVE, `contracts/src/tokens/IntermediateSuccinct.sol` -/

/-- Run an ERC20 operation on $iPROVE. -/
def onIprove (f : Erc20 → Except L1Err Erc20) : L1 Unit := do
  let t ← lift (f (← get).iprove)
  modify fun w => { w with iprove := t }

/-- The check in `_update`, `contracts/src/tokens/IntermediateSuccinct.sol:73-93`. -/
def iproveCheck (cfg : Cfg) (sender from_ to : Address) : L1 Unit := do
  let w ← get
  let isStakeOrUnstake : Bool := decide (sender = cfg.staking) ||
    (w.staking.provers sender && (decide (from_ = cfg.staking) || decide (to = cfg.staking)))
  let isProverReward : Bool := decide (sender = cfg.vapp) && decide (from_ = 0) && w.staking.provers to
  require (isStakeOrUnstake = true ∨ isProverReward = true) .nonTransferable

/-- `_mint` with the supply cap of `ERC20Votes`, `contracts/src/tokens/IntermediateSuccinct.sol:73-96`. -/
def iproveMint (cfg : Cfg) (sender to : Address) (v : Nat) : L1 Unit := do
  iproveCheck cfg sender 0 to
  onIprove (·.mint to v)
  require ((← get).iprove.supply ≤ 2 ^ 208 - 1) .exceededSafeSupply

/-- `_burn`, `contracts/src/tokens/IntermediateSuccinct.sol:73-96`. -/
def iproveBurnShares (cfg : Cfg) (sender from_ : Address) (v : Nat) : L1 Unit := do
  iproveCheck cfg sender from_ 0
  onIprove (·.burn from_ v)

/-- `_transfer`, `contracts/src/tokens/IntermediateSuccinct.sol:73-96`. -/
def iproveMove (cfg : Cfg) (sender from_ to : Address) (v : Nat) : L1 Unit := do
  iproveCheck cfg sender from_ to
  onIprove (·.transfer from_ to v)

/-- `_spendAllowance`, `contracts/src/tokens/IntermediateSuccinct.sol:99-105`: the staking contract needs
no allowance. -/
def iproveSpend (cfg : Cfg) (owner spender : Address) (v : Nat) : L1 Unit :=
  if spender = cfg.staking then pure () else onIprove (·.spend owner spender v)

/-- `ERC4626.previewRedeem`: `shares * (totalAssets + 1) / (totalSupply + 1)`, rounding down. -/
def iprovePreviewRedeem (cfg : Cfg) (shares : Nat) : L1 Nat := do
  let w ← get
  let a ← add256 (w.prove.bal cfg.iprove) 1
  let s ← add256 w.iprove.supply 1
  mulDiv shares a s

/-- `ERC4626.previewDeposit`: `assets * (totalSupply + 1) / (totalAssets + 1)`, rounding down. -/
def iprovePreviewDeposit (cfg : Cfg) (assets : Nat) : L1 Nat := do
  let w ← get
  let s ← add256 w.iprove.supply 1
  let a ← add256 (w.prove.bal cfg.iprove) 1
  mulDiv assets s a

/-- `ERC4626.deposit`, called by `sender`. -/
def iproveDeposit (cfg : Cfg) (sender : Address) (assets : Nat) (receiver : Address) : L1 Nat := do
  let shares ← iprovePreviewDeposit cfg assets
  proveTransferFrom cfg.iprove sender cfg.iprove assets
  iproveMint cfg sender receiver shares
  return shares

/-- `ERC4626.mint`, called by `sender`. -/
def iproveMintExact (cfg : Cfg) (sender : Address) (shares : Nat) (receiver : Address) : L1 Nat := do
  let w ← get
  let a ← add256 (w.prove.bal cfg.iprove) 1
  let s ← add256 w.iprove.supply 1
  let assets ← mulDivUp shares a s
  proveTransferFrom cfg.iprove sender cfg.iprove assets
  iproveMint cfg sender receiver shares
  return assets

/-- `ERC4626.redeem`, called by `sender`. -/
def iproveRedeem (cfg : Cfg) (sender : Address) (shares : Nat) (receiver owner : Address) : L1 Nat := do
  require (shares ≤ (← get).iprove.bal owner) .exceededMaxRedeem
  let assets ← iprovePreviewRedeem cfg shares
  if sender ≠ owner then iproveSpend cfg owner sender shares
  iproveBurnShares cfg sender owner shares
  proveTransfer cfg.iprove receiver assets
  return assets

/-- `burn`, `contracts/src/tokens/IntermediateSuccinct.sol:43-56`. -/
def iproveBurn (cfg : Cfg) (sender from_ : Address) (v : Nat) : L1 Nat := do
  require (sender = cfg.staking) .nonTransferable
  let p ← iprovePreviewRedeem cfg v
  onProve (·.burn cfg.iprove p)
  iproveBurnShares cfg sender from_ v
  return p

/-! ## $PROVER-N, `contracts/src/tokens/SuccinctProver.sol` -/

/-- Run an ERC20 operation on the shares of vault `p`. -/
def onVault (p : Address) (f : Erc20 → Except L1Err Erc20) : L1 Unit := do
  let t ← lift (f ((← get).vault p))
  modify fun w => { w with vault := upd w.vault p t }

/-- The check in `_update`, `contracts/src/tokens/SuccinctProver.sol:127-133`. -/
def vaultCheck (cfg : Cfg) (sender : Address) : L1 Unit := require (sender = cfg.staking) .nonTransferable

/-- `_spendAllowance`, `contracts/src/tokens/SuccinctProver.sol:136-142`. -/
def vaultSpend (cfg : Cfg) (p owner spender : Address) (v : Nat) : L1 Unit :=
  if spender = cfg.staking then pure () else onVault p (·.spend owner spender v)

/-- `ERC4626.deposit` of $iPROVE into vault `p`, called by `sender`. -/
def vaultDeposit (cfg : Cfg) (sender p : Address) (assets : Nat) (receiver : Address) : L1 Nat := do
  let w ← get
  let s ← add256 (w.vault p).supply 1
  let a ← add256 (w.iprove.bal p) 1
  let shares ← mulDiv assets s a
  iproveSpend cfg sender p assets
  iproveMove cfg p sender p assets
  vaultCheck cfg sender
  onVault p (·.mint receiver shares)
  return shares

/-- `ERC4626.redeem` of shares of vault `p`, called by `sender`. -/
def vaultRedeem (cfg : Cfg) (sender p : Address) (shares : Nat) (receiver owner : Address) : L1 Nat := do
  let w ← get
  require (shares ≤ (w.vault p).bal owner) .exceededMaxRedeem
  let a ← add256 (w.iprove.bal p) 1
  let s ← add256 (w.vault p).supply 1
  let assets ← mulDiv shares a s
  if sender ≠ owner then vaultSpend cfg p owner sender shares
  vaultCheck cfg sender
  onVault p (·.burn owner shares)
  iproveMove cfg p p receiver assets
  return assets

/-- `transferProveToStaking` of vault `p`, `contracts/src/tokens/SuccinctProver.sol:118-124`. -/
def transferProveToStaking (cfg : Cfg) (sender p from_ : Address) (v : Nat) : L1 Unit := do
  require (sender = cfg.staking) .notStaking
  proveTransferFrom p from_ cfg.staking v

/-! ## $stPROVE, `contracts/src/tokens/StakedSuccinct.sol` -/

/-- Run an ERC20 operation on $stPROVE; `inOp` is the transient flag `isStakingOperation`,
`contracts/src/tokens/StakedSuccinct.sol:21,26-30,46-55`. -/
def onSt (inOp : Bool) (f : Erc20 → Except L1Err Erc20) : L1 Unit := do
  require (inOp = true) .nonTransferable
  let t ← lift (f (← get).st)
  modify fun w => { w with st := t }

end Verif
