import Verif.Deploy
/-
# The atomic deployment script and its deployer contract

Models `contracts/script/utils/AtomicDeployer.sol`, a contract that stores the parameters of a deployment and then deploys
everything in one transaction, and `contracts/script/deploy/AllAtomic.s.sol`, which creates it, stores the parameters in
three transactions and has it deploy, with whatever others send in between.

Simplifications: the addresses that `CREATE2` gives from the deployer are those of `Cfg`, and that of the governor is a
function of its constructor arguments; the code of $iPROVE and of the governor is the one the script passes. The two
implementation contracts (`AllAtomic.s.sol:24-25`) exist already.
-/

namespace Verif
open L1

/-- Arguments of `setParams1`, `contracts/script/utils/AtomicDeployer.sol:51-65`. -/
structure Params1 where
  stakingImpl : Address
  prove : Address
  votingDelay : BitVec 48
  votingPeriod : BitVec 32
  proposalThreshold : U256
  quorumFraction : U256

/-- Arguments of `setParams2`, `contracts/script/utils/AtomicDeployer.sol:67-81`. -/
structure Params2 where
  vappImpl : Address
  owner : Address
  auctioneer : Address
  verifier : Address
  minDepositAmount : U256
  vkey : B256

/-- Arguments of `setParams3`, `contracts/script/utils/AtomicDeployer.sol:83-97`. -/
structure Params3 where
  dispenser : Address
  minStakeAmount : U256
  maxUnstakeRequests : U256
  unstakePeriod : U256
  slashCancellationPeriod : U256
  genesisStateRoot : B256

/-- Storage of the deployer, `contracts/script/utils/AtomicDeployer.sol:12-40`, in the three groups in which it is set. -/
structure Deployer where
  p1 : Params1
  p2 : Params2
  p3 : Params3
  deployerOwner : Address

/-- What `deploy` passes on to the constructors and initialisers, `contracts/script/utils/AtomicDeployer.sol:99-171`;
`governorAt` is the address that `CREATE2` gives to the governor with these constructor arguments. -/
def Deployer.params (governorAt : Params1 → Address) (d : Deployer) : DeployParams where
  stakingImpl := d.p1.stakingImpl
  prove := d.p1.prove
  vappImpl := d.p2.vappImpl
  owner := d.p2.owner
  auctioneer := d.p2.auctioneer
  verifier := d.p2.verifier
  minDepositAmount := d.p2.minDepositAmount
  vkey := d.p2.vkey
  dispenser := d.p3.dispenser
  minStakeAmount := d.p3.minStakeAmount
  maxUnstakeRequests := d.p3.maxUnstakeRequests
  unstakePeriod := d.p3.unstakePeriod
  slashCancellationPeriod := d.p3.slashCancellationPeriod
  genesisStateRoot := d.p3.genesisStateRoot
  governor := governorAt d.p1

/-- What can be sent while the script runs: calls of the deployer, and every call of the contracts. -/
inductive ACall where
  | setParams1 (p : Params1)
  | setParams2 (p : Params2)
  | setParams3 (p : Params3)
  | deploy
  | call (k : Call)
  | vappInitialize (a : VappArgs)
  | stakingInitialize (a : StakingArgs)
  | vappUpgrade (impl : Address)
  | stakingUpgrade (impl : Address)

/-- The contracts and the deployer. -/
structure Site where
  sys : Sys
  deployer : Deployer

/-- `onlyOwner` of the deployer, `contracts/script/utils/AtomicDeployer.sol:46-49`. -/
def onlyDeployerOwner (c : Ctx) (s : Site) (f : Deployer → Deployer) : Except DeployErr Site :=
  if c.sender = s.deployer.deployerOwner then .ok { s with deployer := f s.deployer } else .error .unauthorized

/-- Dispatch: the functions of the deployer, `contracts/script/utils/AtomicDeployer.sol:51-171`; the others as in `dexec`. -/
def aexec (cfg : Cfg) (governorAt : Params1 → Address) (c : Ctx) (s : Site) : ACall → Except DeployErr Site
  | .setParams1 p => onlyDeployerOwner c s fun d => { d with p1 := p }
  | .setParams2 p => onlyDeployerOwner c s fun d => { d with p2 := p }
  | .setParams3 p => onlyDeployerOwner c s fun d => { d with p3 := p }
  | .deploy =>
    if c.sender = s.deployer.deployerOwner then do
      let sys ← deploy cfg (s.deployer.params governorAt) s.sys
      return { s with sys := sys }
    else .error .unauthorized
  | .call k => do return { s with sys := ← dexec cfg c s.sys (.call k) }
  | .vappInitialize a => do return { s with sys := ← dexec cfg c s.sys (.vappInitialize a) }
  | .stakingInitialize a => do return { s with sys := ← dexec cfg c s.sys (.stakingInitialize a) }
  | .vappUpgrade i => do return { s with sys := ← dexec cfg c s.sys (.vappUpgrade i) }
  | .stakingUpgrade i => do return { s with sys := ← dexec cfg c s.sys (.stakingUpgrade i) }

/-- A transaction: a reverted call changes nothing. -/
def acall (cfg : Cfg) (governorAt : Params1 → Address) (s : Site) (x : Ctx × ACall) : Site :=
  match aexec cfg governorAt x.1 s x.2 with
  | .ok s' => s'
  | .error _ => s

/-- A sequence of transactions. -/
def arun (cfg : Cfg) (governorAt : Params1 → Address) (s : Site) (h : List (Ctx × ACall)) : Site :=
  h.foldl (acall cfg governorAt) s

/-- `new AtomicDeployer()`, `contracts/script/utils/AtomicDeployer.sol:42-44`: everything zero but the owner. -/
def newDeployer (sender : Address) : Deployer where
  p1 := ⟨0, 0, 0, 0, 0, 0⟩
  p2 := ⟨0, 0, 0, 0, 0, 0⟩
  p3 := ⟨0, 0, 0, 0, 0, 0⟩
  deployerOwner := sender

/-- `run`, `contracts/script/deploy/AllAtomic.s.sol:16-80`, sent by `c`, with what others send after the creation of the
deployer and after each of the three calls that store the parameters. -/
def atomicScript (cfg : Cfg) (governorAt : Params1 → Address) (c : Ctx) (p1 : Params1) (p2 : Params2) (p3 : Params3)
    (h0 h1 h2 h3 : List (Ctx × ACall)) (s : Sys) : Except DeployErr Site :=
  let s := arun cfg governorAt ⟨s, newDeployer c.sender⟩ h0
  let s := arun cfg governorAt (acall cfg governorAt s (c, .setParams1 p1)) h1
  let s := arun cfg governorAt (acall cfg governorAt s (c, .setParams2 p2)) h2
  let s := arun cfg governorAt (acall cfg governorAt s (c, .setParams3 p3)) h3
  aexec cfg governorAt c s .deploy

end Verif
