import Verif.L1Staking
/-
# The L1 contracts: external calls, deployment, histories
-/

namespace Verif
open L1

/-- The state-changing external functions of the modelled contracts. `signer` is the address recovered
from a permit signature. Amounts are `uint256`. -/
inductive Call where
  -- $PROVE, `contracts/src/tokens/Succinct.sol:20-27`
  | proveTransfer (to : Address) (v : U256)
  | proveTransferFrom (from_ to : Address) (v : U256)
  | proveApprove (spender : Address) (v : U256)
  | provePermit (signer owner spender : Address) (v : U256)
  | proveMint (to : Address) (v : U256)
  | proveBurn (v : U256)
  | proveBurnFrom (from_ : Address) (v : U256)
  | proveSetOwner (a : Address)
  -- $iPROVE, `contracts/src/tokens/IntermediateSuccinct.sol:30-56`
  | iproveTransfer (to : Address) (v : U256)
  | iproveTransferFrom (from_ to : Address) (v : U256)
  | iproveApprove (spender : Address) (v : U256)
  | iprovePermit (signer owner spender : Address) (v : U256)
  | iproveDeposit (assets : U256) (receiver : Address)
  | iproveMint (shares : U256) (receiver : Address)
  | iproveWithdraw (assets : U256) (receiver owner : Address)
  | iproveRedeem (shares : U256) (receiver owner : Address)
  | iproveBurn (from_ : Address) (v : U256)
  -- $PROVER-N, `contracts/src/tokens/SuccinctProver.sol:27,118-124`
  | vaultTransfer (p to : Address) (v : U256)
  | vaultTransferFrom (p from_ to : Address) (v : U256)
  | vaultApprove (p spender : Address) (v : U256)
  | vaultDeposit (p : Address) (assets : U256) (receiver : Address)
  | vaultMint (p : Address) (shares : U256) (receiver : Address)
  | vaultWithdraw (p : Address) (assets : U256) (receiver owner : Address)
  | vaultRedeem (p : Address) (shares : U256) (receiver owner : Address)
  | vaultTransferProve (p from_ : Address) (v : U256)
  -- $stPROVE, `contracts/src/tokens/StakedSuccinct.sol:17`
  | stTransfer (to : Address) (v : U256)
  | stTransferFrom (from_ to : Address) (v : U256)
  | stApprove (spender : Address) (v : U256)
  -- `contracts/src/SuccinctVApp.sol:179-326`
  | deposit (v : U256)
  | permitAndDeposit (signer from_ : Address) (v : U256)
  | vappCreateProver (prover owner : Address) (fee : U256)
  | step (pv proof : Bytes)
  | fork (vkey root : B256)
  | updateAuctioneer (a : Address)
  | updateStaking (a : Address)
  | updateVerifier (a : Address)
  | updateMinDeposit (v : U256)
  | pause
  | unpause
  | vappSetOwner (a : Address)
  -- `contracts/src/SuccinctStaking.sol:248-523`, `contracts/src/libraries/ProverRegistry.sol:96-106`
  | createProver (fee : U256)
  | stake (prover : Address) (v : U256)
  | permitAndStake (signer prover from_ : Address) (v : U256)
  | requestUnstake (v : U256)
  | finishUnstake (staker : Address)
  | requestSlash (prover : Address) (v : U256)
  | cancelSlash (prover : Address) (index : U256)
  | finishSlash (prover : Address) (index : U256)
  | dispense (v : U256)
  | setDispenser (a : Address)
  | updateDispenseRate (v : U256)
  | stakingSetOwner (a : Address)

/-- `ERC4626.withdraw` of $iPROVE, called by `sender`: as many shares as needed, rounding up. -/
def iproveWithdraw (cfg : Cfg) (sender : Address) (assets : Nat) (receiver owner : Address) : L1 Nat := do
  let max ← iprovePreviewRedeem cfg ((← get).iprove.bal owner)
  require (assets ≤ max) .exceededMaxRedeem
  let w ← get
  let s ← add256 w.iprove.supply 1
  let a ← add256 (w.prove.bal cfg.iprove) 1
  let shares ← mulDivUp assets s a
  if sender ≠ owner then iproveSpend cfg owner sender shares
  iproveBurnShares cfg sender owner shares
  proveTransfer cfg.iprove receiver assets
  return shares

/-- `ERC4626.mint` of vault `p`, called by `sender`. -/
def vaultMintExact (cfg : Cfg) (sender p : Address) (shares : Nat) (receiver : Address) : L1 Nat := do
  let w ← get
  let a ← add256 (w.iprove.bal p) 1
  let s ← add256 (w.vault p).supply 1
  let assets ← mulDivUp shares a s
  iproveSpend cfg sender p assets
  iproveMove cfg p sender p assets
  vaultCheck cfg sender
  onVault p (·.mint receiver shares)
  return assets

/-- `ERC4626.withdraw` of vault `p`, called by `sender`. -/
def vaultWithdraw (cfg : Cfg) (sender p : Address) (assets : Nat) (receiver owner : Address) : L1 Nat := do
  let w ← get
  let a ← add256 (w.iprove.bal p) 1
  let s ← add256 (w.vault p).supply 1
  let max ← mulDiv ((w.vault p).bal owner) a s
  require (assets ≤ max) .exceededMaxRedeem
  let shares ← mulDivUp assets s a
  if sender ≠ owner then vaultSpend cfg p owner sender shares
  vaultCheck cfg sender
  onVault p (·.burn owner shares)
  iproveMove cfg p p receiver assets
  return shares

/-- The vaults of the registry are the only vaults in the model. -/
def isVault (p : Address) : L1 Unit := do require ((← get).staking.provers p = true) .notReachable

/-- Forget the returned value. -/
def drop_ {α : Type} (m : L1 α) : L1 Unit := do
  let _ ← m
  pure ()

/-- Dispatch of an external call (one entry per function cited at `Call`; the token functions are those of
OpenZeppelin's `ERC20`, `ERC20Permit`, `ERC20Burnable` and `Ownable`). -/
def exec (cfg : Cfg) (c : Ctx) : Call → L1 Unit
  | .proveTransfer to v => proveTransfer c.sender to v.toNat
  | .proveTransferFrom f to v => proveTransferFrom c.sender f to v.toNat
  | .proveApprove s v => onProve (·.approve c.sender s v.toNat)
  | .provePermit signer o s v => provePermit signer o s v.toNat
  | .proveMint to v => do
    require (c.sender = (← get).proveOwner) .ownableUnauthorized
    onProve (·.mint to v.toNat)
  | .proveBurn v => onProve (·.burn c.sender v.toNat)
  | .proveBurnFrom f v => do
    onProve (·.spend f c.sender v.toNat)
    onProve (·.burn f v.toNat)
  | .proveSetOwner a => do
    require (c.sender = (← get).proveOwner) .ownableUnauthorized
    modify fun w => { w with proveOwner := a }
  | .iproveTransfer to v => iproveMove cfg c.sender c.sender to v.toNat
  | .iproveTransferFrom f to v => do
    iproveSpend cfg f c.sender v.toNat
    iproveMove cfg c.sender f to v.toNat
  | .iproveApprove s v => onIprove (·.approve c.sender s v.toNat)
  | .iprovePermit signer o s v => do
    require (signer = o) .invalidPermit
    onIprove (·.approve o s v.toNat)
  | .iproveDeposit a r => drop_ (iproveDeposit cfg c.sender a.toNat r)
  | .iproveMint s r => drop_ (iproveMintExact cfg c.sender s.toNat r)
  | .iproveWithdraw a r o => drop_ (iproveWithdraw cfg c.sender a.toNat r o)
  | .iproveRedeem s r o => drop_ (iproveRedeem cfg c.sender s.toNat r o)
  | .iproveBurn f v => drop_ (iproveBurn cfg c.sender f v.toNat)
  | .vaultTransfer p to v => do
    isVault p
    vaultCheck cfg c.sender
    onVault p (·.transfer c.sender to v.toNat)
  | .vaultTransferFrom p f to v => do
    isVault p
    vaultSpend cfg p f c.sender v.toNat
    vaultCheck cfg c.sender
    onVault p (·.transfer f to v.toNat)
  | .vaultApprove p s v => do
    isVault p
    onVault p (·.approve c.sender s v.toNat)
  | .vaultDeposit p a r => do isVault p; drop_ (vaultDeposit cfg c.sender p a.toNat r)
  | .vaultMint p s r => do isVault p; drop_ (vaultMintExact cfg c.sender p s.toNat r)
  | .vaultWithdraw p a r o => do isVault p; drop_ (vaultWithdraw cfg c.sender p a.toNat r o)
  | .vaultRedeem p s r o => do isVault p; drop_ (vaultRedeem cfg c.sender p s.toNat r o)
  | .vaultTransferProve p f v => do isVault p; transferProveToStaking cfg c.sender p f v.toNat
  | .stTransfer to v => onSt false (·.transfer c.sender to v.toNat)
  | .stTransferFrom f to v => do
    let t ← lift ((← get).st.spend f c.sender v.toNat)
    modify fun w => { w with st := t }
    onSt false (·.transfer f to v.toNat)
  | .stApprove s v => do
    let t ← lift ((← get).st.approve c.sender s v.toNat)
    modify fun w => { w with st := t }
  | .deposit v => drop_ (vappDeposit cfg c v)
  | .permitAndDeposit signer f v => drop_ (vappPermitAndDeposit cfg signer f v)
  | .vappCreateProver p o f => drop_ (vappCreateProver c c.sender p o f)
  | .step pv proof => drop_ (vappStep cfg c pv proof)
  | .fork k r => drop_ (vappFork c k r)
  | .updateAuctioneer a => vappUpdateAuctioneer c a
  | .updateStaking a => vappUpdateStaking c a
  | .updateVerifier a => vappUpdateVerifier c a
  | .updateMinDeposit v => vappUpdateMinDeposit c v.toNat
  | .pause => vappPause c
  | .unpause => vappUnpause c
  | .vappSetOwner a => vappSetOwner c a
  | .createProver f => drop_ (createProver cfg c f)
  | .stake p v => drop_ (stake cfg c p v.toNat)
  | .permitAndStake signer p f v => drop_ (permitAndStake cfg signer p f v.toNat)
  | .requestUnstake v => requestUnstake cfg c v.toNat
  | .finishUnstake s => drop_ (finishUnstake cfg c s)
  | .requestSlash p v => drop_ (requestSlash cfg c p v.toNat)
  | .cancelSlash p i => cancelSlash c p i.toNat
  | .finishSlash p i => drop_ (finishSlash cfg c p i.toNat)
  | .dispense v => dispense cfg c v.toNat
  | .setDispenser a => setDispenser c a
  | .updateDispenseRate v => updateDispenseRate c v.toNat
  | .stakingSetOwner a => stakingSetOwner c a

/-- A transaction on L1: a reverted call changes nothing. -/
def call (cfg : Cfg) (c : Ctx) (k : Call) (w : World) : World :=
  match exec cfg c k w with
  | .ok (_, w') => w'
  | .error _ => w

/-- A history of calls, each with its context. -/
def runCalls (cfg : Cfg) (w : World) (h : List (Ctx × Call)) : World :=
  h.foldl (fun w x => call cfg x.1 x.2 w) w

/-- The addresses of the modelled contracts, including all prover vaults that may be deployed. -/
def Cfg.System (cfg : Cfg) (a : Address) : Prop :=
  a = cfg.prove ∨ a = cfg.iprove ∨ a = cfg.staking ∨ a = cfg.vapp ∨ ∃ o n f, a = cfg.create2 o n f

/-- Who can be the sender or permit signer of an external call: the modelled contracts make no calls but
those in the model, and have no private key. The exception is `requestSlash`, which only the vApp contract
may call; the present vApp never does, an upgraded one could. -/
def Admissible (cfg : Cfg) (x : Ctx × Call) : Prop :=
  match x.2 with
  | .requestSlash _ _ => ¬ cfg.System x.1.sender ∨ x.1.sender = cfg.vapp
  | .provePermit signer _ _ _ | .iprovePermit signer _ _ _ | .permitAndDeposit signer _ _
  | .permitAndStake signer _ _ _ => ¬ cfg.System x.1.sender ∧ ¬ cfg.System signer
  | _ => ¬ cfg.System x.1.sender

/-- The deployed contracts have different non-zero addresses, and `CREATE2` gives other ones. -/
structure Cfg.WF (cfg : Cfg) : Prop where
  nonzero : cfg.prove ≠ 0 ∧ cfg.iprove ≠ 0 ∧ cfg.staking ≠ 0 ∧ cfg.vapp ≠ 0
  distinct : [cfg.prove, cfg.iprove, cfg.staking, cfg.vapp].Nodup
  create2 : ∀ o n f, cfg.create2 o n f ≠ 0 ∧ cfg.create2 o n f ≠ cfg.prove ∧
    cfg.create2 o n f ≠ cfg.iprove ∧ cfg.create2 o n f ≠ cfg.staking ∧ cfg.create2 o n f ≠ cfg.vapp

/-- The world right after deployment and both `initialize` calls (`contracts/src/SuccinctVApp.sol:116-158`,
`contracts/src/SuccinctStaking.sol:108-144`), for arbitrary parameters and an arbitrary distribution of
$PROVE, as far as later behaviour depends on it. -/
structure Genesis (cfg : Cfg) (w : World) : Prop where
  /-- the $PROVE supply is the total of the balances -/
  prove_sum : ∃ l : List Address, l.Nodup ∧ (∀ a, a ∉ l → w.prove.bal a = 0) ∧
    (l.map w.prove.bal).sum = w.prove.supply
  prove_max : w.prove.supply ≤ max256
  /-- the modelled contracts have approved nobody, except $iPROVE (`SuccinctVApp.sol:153`, `SuccinctStaking.sol:143`) -/
  prove_allow : ∀ a s, cfg.System a →
    w.prove.allow a s = if (a = cfg.vapp ∨ a = cfg.staking) ∧ s = cfg.iprove then max256 else 0
  iprove : w.iprove = Erc20.empty
  st : w.st = Erc20.empty
  dispense : w.staking.dispenseRate = 0 ∧ w.staking.dispenseRateTimestamp = 0 ∧
    w.staking.dispenseEarned = 0 ∧ w.staking.dispenseDistributed = 0
  maps : w.staking.stakerToProver = (fun _ => 0) ∧ w.staking.unstakeClaims = (fun _ => []) ∧
    w.staking.slashClaims = (fun _ => []) ∧ w.staking.slashClaimCount = (fun _ => 0) ∧
    w.staking.escrowPools = (fun _ => ⟨0, 0⟩)
  registry : w.staking.proverCount = 0 ∧ w.staking.ownerToProver = (fun _ => 0) ∧
    w.staking.provers = (fun _ => false) ∧ w.staking.deactivatedProvers = (fun _ => false)
  /-- `initialize` requires these to be non-zero (`SuccinctStaking.sol:127-129`) -/
  periods : w.staking.maxUnstakeRequests ≠ 0 ∧ w.staking.unstakePeriod ≠ 0 ∧
    w.staking.slashCancellationPeriod ≠ 0
  vapp_ids : w.vapp.blockNumber = 0 ∧ w.vapp.currentOnchainTxId = 0 ∧ w.vapp.finalizedOnchainTxId = 0
  /-- the genesis root is not zero, other roots are unset (`SuccinctVApp.sol:134-136,150`) -/
  vapp_root : w.vapp.roots 0 ≠ 0 ∧ (∀ b, b ≠ 0 → w.vapp.roots b = 0)
  vapp_maps : w.vapp.timestamps = (fun _ => 0) ∧ w.vapp.transactions = (fun _ => SolTransaction.unset)
  vapp_params : w.vapp.paused = false ∧ w.vapp.staking = cfg.staking ∧ w.vapp.vkey ≠ 0

/-- The worlds some admissible history leads to. -/
def Reachable (cfg : Cfg) (w : World) : Prop :=
  ∃ w₀ h, Genesis cfg w₀ ∧ (∀ x ∈ h, Admissible cfg x) ∧ w = runCalls cfg w₀ h

end Verif
