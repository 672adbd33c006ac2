import Verif.Deploy
/-
# The deployment in several transactions, and the check after it

Models `contracts/script/deploy/All.s.sol`, which deploys the contracts in several transactions between which others may
send theirs, and `contracts/script/utils/PostDeployment.s.sol`, which "reverts if any deployment invariant is violated
or the contracts are not in the expected state after deployment".

Simplifications: of what others may send in between we keep the initialisations of the staking proxy. The values that the scripts read from their configuration are those of
`DeployParams`; the addresses are those of `Cfg`. The checks of the governor's own settings
(`PostDeployment.s.sol:115-129`) are left out: they are about a contract whose constructor sets them.
-/

namespace Verif
open L1

/-- Transactions of others that try to initialise the staking proxy; those that revert change nothing. -/
def tries (cfg : Cfg) (l : List StakingArgs) (s : Sys) : Sys :=
  l.foldl (fun s a => match stakingInitialize cfg a s with
    | .ok s' => s'
    | .error _ => s) s

/-- What `_initializeStaking` passes on, `contracts/script/deploy/All.s.sol:107-134`. -/
def DeployParams.stakingArgs (cfg : Cfg) (p : DeployParams) : StakingArgs :=
  ⟨p.owner, p.governor, cfg.vapp, p.prove, cfg.iprove, p.dispenser, p.minStakeAmount, p.maxUnstakeRequests,
    p.unstakePeriod, p.slashCancellationPeriod⟩

/-- `run`, `contracts/script/deploy/All.s.sol:19-41`, with what others send after the first, the second and the third
contract. The outcome of the last transaction, the initialisation, is not part of the result: if it reverts, the contracts
stay as they are. -/
def allScript (cfg : Cfg) (p : DeployParams) (l1 l2 l3 : List StakingArgs) (s : Sys) : Except DeployErr Sys :=
  if s.deployed then .error .addressTaken
  else do
    let s := newStakingProxy p.stakingImpl s
    let s := tries cfg l1 s
    let s := newIprove p.prove cfg.staking s
    let s := tries cfg l2 s
    let s ← newVappProxy cfg p.vappImpl
      ⟨p.owner, p.prove, cfg.iprove, p.auctioneer, cfg.staking, p.verifier, p.minDepositAmount, p.vkey,
        p.genesisStateRoot⟩ s
    let s := tries cfg l3 s
    let s := tries cfg [p.stakingArgs cfg] s
    return { s with deployed := true }

/-- `_checkVAppImpl`, `_checkVApp`, `contracts/script/utils/PostDeployment.s.sol:38-72`. -/
def checkVApp (cfg : Cfg) (p : DeployParams) (s : Sys) : Bool :=
  let v := s.w.vapp
  s.vappImpl = p.vappImpl && v.owner = p.owner && v.vkey = p.vkey && s.vappProve = cfg.prove &&
  s.vappIprove = cfg.iprove && v.auctioneer = p.auctioneer && v.staking = cfg.staking && v.verifier = p.verifier &&
  v.minDepositAmount = p.minDepositAmount.toNat && v.blockNumber = 0 && v.currentOnchainTxId = 0 &&
  v.finalizedOnchainTxId = 0 && v.roots v.blockNumber = p.genesisStateRoot && v.timestamps v.blockNumber = 0

/-- `_checkStakingImpl`, `_checkStaking`, `contracts/script/utils/PostDeployment.s.sol:74-113`. The assertion about the
dispense rate is commented out there. -/
def checkStaking (cfg : Cfg) (p : DeployParams) (now : Nat) (s : Sys) : Bool :=
  let v := s.w.staking
  s.stakingImpl = p.stakingImpl && v.owner = p.owner && s.stVapp = cfg.vapp && s.stProve = cfg.prove &&
  s.stIprove = cfg.iprove && v.dispenser = p.dispenser && v.minStakeAmount = p.minStakeAmount.toNat &&
  v.maxUnstakeRequests = p.maxUnstakeRequests.toNat && v.unstakePeriod = p.unstakePeriod.toNat &&
  v.slashCancellationPeriod = p.slashCancellationPeriod.toNat && v.dispenseEarned = 0 && v.dispenseDistributed = 0 &&
  v.dispenseRateTimestamp ≤ now && v.proverCount = 0 && s.w.st.supply = 0

/-- `_checkIProve`, `_checkProve`, `contracts/script/utils/PostDeployment.s.sol:131-143`. -/
def checkTokens (cfg : Cfg) (s : Sys) : Bool :=
  s.ipStaking = cfg.staking && s.ipAsset = cfg.prove && s.w.iprove.supply = 0 &&
  s.w.prove.allow cfg.staking cfg.iprove = max256 && s.w.prove.allow cfg.vapp cfg.iprove = max256

/-- `run`, `contracts/script/utils/PostDeployment.s.sol:20-36`. -/
def postCheck (cfg : Cfg) (p : DeployParams) (now : Nat) (s : Sys) : Bool :=
  checkVApp cfg p s && checkStaking cfg p now s && checkTokens cfg s

end Verif
