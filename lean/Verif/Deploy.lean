import Verif.L1Calls
/-
# Deployment: proxies, initializers, upgrades

The life of the contracts from the time when only the $PROVE token exists: the atomic deployment of
`contracts/script/utils/AtomicDeployer.sol`, the `initialize` functions, and upgrades of the proxies.
-/

namespace Verif
open L1

/-- Reverts of the code in this file. -/
inductive DeployErr where
  | notDeployed | addressTaken | invalidInitialization | zeroAddress | zeroHash | zeroNumber | unauthorized
  | call (e : L1Err)
  deriving DecidableEq

/-- Fresh storage of the staking proxy. -/
def Staking.zero : Staking where
  owner := 0
  dispenser := 0
  minStakeAmount := 0
  maxUnstakeRequests := 0
  unstakePeriod := 0
  slashCancellationPeriod := 0
  dispenseRate := 0
  dispenseRateTimestamp := 0
  dispenseEarned := 0
  dispenseDistributed := 0
  stakerToProver _ := 0
  unstakeClaims _ := []
  slashClaims _ := []
  slashClaimCount _ := 0
  escrowPools _ := ⟨0, 0⟩
  proverCount := 0
  ownerToProver _ := 0
  provers _ := false
  deactivatedProvers _ := false

/-- Fresh storage of the vApp proxy. -/
def VApp.zero : VApp where
  owner := 0
  paused := false
  vkey := 0
  auctioneer := 0
  staking := 0
  verifier := 0
  blockNumber := 0
  minDepositAmount := 0
  currentOnchainTxId := 0
  finalizedOnchainTxId := 0
  roots _ := 0
  timestamps _ := 0
  transactions _ := SolTransaction.unset

/-- The contracts with what `World` leaves out: the `Initializable` flags, the stored addresses of the other
contracts (`contracts/src/SuccinctVApp.sol:53-56`, `contracts/src/libraries/ProverRegistry.sol:25-34`,
`contracts/src/tokens/IntermediateSuccinct.sol:29`) and the implementation slots of the two proxies. -/
structure Sys where
  w : World
  /-- the proxies and $iPROVE exist -/
  deployed : Bool
  vappInit : Bool
  stakingInit : Bool
  vappProve : Address
  vappIprove : Address
  stGovernor : Address
  stVapp : Address
  stProve : Address
  stIprove : Address
  ipAsset : Address
  ipStaking : Address
  vappImpl : Address
  stakingImpl : Address

/-- Arguments of `SuccinctVApp.initialize`, `contracts/src/SuccinctVApp.sol:116-126`. -/
structure VappArgs where
  owner : Address
  prove : Address
  iProve : Address
  auctioneer : Address
  staking : Address
  verifier : Address
  minDepositAmount : U256
  vkey : B256
  genesisStateRoot : B256

/-- Arguments of `SuccinctStaking.initialize`, `contracts/src/SuccinctStaking.sol:108-119`. -/
structure StakingArgs where
  owner : Address
  governor : Address
  vApp : Address
  prove : Address
  intermediateProve : Address
  dispenser : Address
  minStakeAmount : U256
  maxUnstakeRequests : U256
  unstakePeriod : U256
  slashCancellationPeriod : U256

/-- `IERC20(token).approve(spender, type(uint256).max)` sent by `self`: acts on $PROVE if `token` is $PROVE; any
other address is outside the model. -/
def approveMax (cfg : Cfg) (self token spender : Address) (w : World) : Except DeployErr World :=
  if token = cfg.prove then
    match w.prove.approve self spender max256 with
    | .ok t => .ok { w with prove := t }
    | .error e => .error (.call e)
  else .ok w

/-- `SuccinctVApp.initialize`, `contracts/src/SuccinctVApp.sol:116-158`, with the `initializer` modifier. -/
def vappInitialize (cfg : Cfg) (a : VappArgs) (s : Sys) : Except DeployErr Sys :=
  if s.vappInit then .error .invalidInitialization
  else if a.owner = 0 ∨ a.prove = 0 ∨ a.iProve = 0 ∨ a.auctioneer = 0 ∨ a.staking = 0 ∨ a.verifier = 0 then
    .error .zeroAddress
  else if a.vkey = 0 ∨ a.genesisStateRoot = 0 then .error .zeroHash
  else do
    let w := { s.w with
      vapp := { s.w.vapp with
        owner := a.owner
        vkey := a.vkey
        auctioneer := a.auctioneer
        staking := a.staking
        verifier := a.verifier
        minDepositAmount := a.minDepositAmount.toNat
        roots := upd s.w.vapp.roots 0 a.genesisStateRoot } }
    let w ← approveMax cfg cfg.vapp a.prove a.iProve w
    return { s with w := w, vappInit := true, vappProve := a.prove, vappIprove := a.iProve }

/-- `SuccinctStaking.initialize`, `contracts/src/SuccinctStaking.sol:108-144`, with the `initializer` modifier and
`__ProverRegistry_init`, `contracts/src/libraries/ProverRegistry.sol:68-78`. -/
def stakingInitialize (cfg : Cfg) (a : StakingArgs) (s : Sys) : Except DeployErr Sys :=
  if s.stakingInit then .error .invalidInitialization
  else if a.owner = 0 ∨ a.governor = 0 ∨ a.vApp = 0 ∨ a.prove = 0 ∨ a.intermediateProve = 0 ∨ a.dispenser = 0 then
    .error .zeroAddress
  else if a.maxUnstakeRequests.toNat = 0 ∨ a.unstakePeriod.toNat = 0 ∨ a.slashCancellationPeriod.toNat = 0 then
    .error .zeroNumber
  else do
    let w := { s.w with
      staking := { s.w.staking with
        owner := a.owner
        dispenser := a.dispenser
        minStakeAmount := a.minStakeAmount.toNat
        maxUnstakeRequests := a.maxUnstakeRequests.toNat
        unstakePeriod := a.unstakePeriod.toNat
        slashCancellationPeriod := a.slashCancellationPeriod.toNat } }
    let w ← approveMax cfg cfg.staking a.prove a.intermediateProve w
    return { s with
      w := w, stakingInit := true, stGovernor := a.governor, stVapp := a.vApp
      stProve := a.prove, stIprove := a.intermediateProve }

/-- Parameters of the deployer, `contracts/script/utils/AtomicDeployer.sol:12-40`, and the address `CREATE2` gives to
the governor. -/
structure DeployParams where
  stakingImpl : Address
  prove : Address
  vappImpl : Address
  owner : Address
  auctioneer : Address
  verifier : Address
  minDepositAmount : U256
  vkey : B256
  dispenser : Address
  minStakeAmount : U256
  maxUnstakeRequests : U256
  unstakePeriod : U256
  slashCancellationPeriod : U256
  genesisStateRoot : B256
  governor : Address

/-- `new ERC1967Proxy{salt}(stakingImpl, "")`: empty storage behind the implementation; the staking contract is also
the $stPROVE token. -/
def newStakingProxy (impl : Address) (s : Sys) : Sys :=
  { s with w := { s.w with staking := Staking.zero, st := Erc20.empty }, stakingInit := false, stakingImpl := impl }

/-- `new IntermediateSuccinct{salt}(prove, STAKING)`. -/
def newIprove (prove staking : Address) (s : Sys) : Sys :=
  { s with w := { s.w with iprove := Erc20.empty }, ipAsset := prove, ipStaking := staking }

/-- `new ERC1967Proxy{salt}(vappImpl, initialize(..))`. -/
def newVappProxy (cfg : Cfg) (impl : Address) (a : VappArgs) (s : Sys) : Except DeployErr Sys :=
  vappInitialize cfg a { s with w := { s.w with vapp := VApp.zero }, vappInit := false, vappImpl := impl }

/-- `deploy`, `contracts/script/utils/AtomicDeployer.sol:99-171`. The addresses the contracts get are those in
`cfg`; `CREATE2` fails where there is a contract already. -/
def deploy (cfg : Cfg) (p : DeployParams) (s : Sys) : Except DeployErr Sys :=
  if s.deployed then .error .addressTaken
  else do
    let s := newStakingProxy p.stakingImpl s
    let s := newIprove p.prove cfg.staking s
    let s ← newVappProxy cfg p.vappImpl
      ⟨p.owner, p.prove, cfg.iprove, p.auctioneer, cfg.staking, p.verifier, p.minDepositAmount, p.vkey,
        p.genesisStateRoot⟩ s
    let s ← stakingInitialize cfg
      ⟨p.owner, p.governor, cfg.vapp, p.prove, cfg.iprove, p.dispenser, p.minStakeAmount, p.maxUnstakeRequests,
        p.unstakePeriod, p.slashCancellationPeriod⟩ s
    return { s with deployed := true }

/-- What can be sent over the life of the contracts. -/
inductive DCall where
  /-- any function of the model -/
  | call (k : Call)
  /-- the atomic deployment -/
  | deploy (p : DeployParams)
  | vappInitialize (a : VappArgs)
  | stakingInitialize (a : StakingArgs)
  /-- `upgradeToAndCall` of the vApp, `contracts/src/SuccinctVApp.sol:491` -/
  | vappUpgrade (impl : Address)
  /-- `upgradeToAndCall` of the staking contract, `contracts/src/SuccinctStaking.sol:684` -/
  | stakingUpgrade (impl : Address)

/-- The functions of the $PROVE token. -/
def Call.isProve : Call → Bool
  | .proveTransfer .. | .proveTransferFrom .. | .proveApprove .. | .provePermit .. | .proveMint .. | .proveBurn ..
  | .proveBurnFrom .. | .proveSetOwner .. => true
  | _ => false

/-- Dispatch. Before the deployment only the $PROVE token has code. -/
def dexec (cfg : Cfg) (c : Ctx) (s : Sys) : DCall → Except DeployErr Sys
  | .call k =>
    if s.deployed = false ∧ k.isProve = false then .error .notDeployed
    else match exec cfg c k s.w with
      | .ok (_, w) => .ok { s with w := w }
      | .error e => .error (.call e)
  | .deploy p => deploy cfg p s
  | .vappInitialize a => if s.deployed then vappInitialize cfg a s else .error .notDeployed
  | .stakingInitialize a => if s.deployed then stakingInitialize cfg a s else .error .notDeployed
  | .vappUpgrade i =>
    if s.deployed = false then .error .notDeployed
    else if c.sender = s.w.vapp.owner then .ok { s with vappImpl := i } else .error .unauthorized
  | .stakingUpgrade i =>
    if s.deployed = false then .error .notDeployed
    else if c.sender = s.w.staking.owner then .ok { s with stakingImpl := i } else .error .unauthorized

/-- A transaction: a reverted call changes nothing. -/
def dcall (cfg : Cfg) (s : Sys) (x : Ctx × DCall) : Sys :=
  match dexec cfg x.1 s x.2 with
  | .ok s' => s'
  | .error _ => s

/-- A history. -/
def drun (cfg : Cfg) (s : Sys) (h : List (Ctx × DCall)) : Sys := h.foldl (dcall cfg) s

/-- An accepted upgrade: afterwards other code runs than the code modelled here. -/
def Upgrade (cfg : Cfg) (s : Sys) (x : Ctx × DCall) : Prop :=
  match x.2 with
  | .vappUpgrade _ | .stakingUpgrade _ => ∃ s', dexec cfg x.1 s x.2 = .ok s'
  | _ => False

/-- No upgrade is accepted in a history. -/
def NoUpgrade (cfg : Cfg) (s : Sys) : List (Ctx × DCall) → Prop
  | [] => True
  | x :: h => ¬ Upgrade cfg s x ∧ NoUpgrade cfg (dcall cfg s x) h

/-- Senders and signers as in `Admissible`; the deployment names the $PROVE token. -/
def DAdmissible (cfg : Cfg) (x : Ctx × DCall) : Prop :=
  match x.2 with
  | .call k => Admissible cfg (x.1, k)
  | .deploy p => p.prove = cfg.prove
  | _ => True

/-- Only the $PROVE token exists, without any holder. -/
structure Blank (s : Sys) : Prop where
  prove : s.w.prove = Erc20.empty
  deployed : s.deployed = false

end Verif
