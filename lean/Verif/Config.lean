import Verif.Atomic
/-
# What the deployment scripts read and write

Models the helpers of `contracts/script/utils/Base.s.sol`, with which the scripts read their configuration from the
environment and from the deployments file of the chain and write the addresses back, and the scripts of
`contracts/script/deploy` over them.

Simplifications: Foundry's parsers and its printing of addresses are a parameter (`Cheats`); the deployments file is a map
from its keys to their texts (nested objects, other JSON values and errors of the file system are left out); what the chain
answers to the creation of a contract is a parameter of each run (`Chain`), a revert included, so that a simulated run and
a broadcast are the same; the scripts' own accounts and signatures are left out.
-/

namespace Verif.Config
open L1

/-- Why a script fails. -/
inductive ConfigErr where
  | notSet | unparsable | noFile | noKey | reverted
  deriving DecidableEq

/-- The parsers of Foundry (`vm.envOr`, `vm.envUint`, `stdJson`) and `vm.toString` of an address. -/
structure Cheats where
  addr : String → Option Address
  b32 : String → Option B256
  uint : String → Option U256
  showAddr : Address → String

/-- What a script reads: the environment and, if it exists, the deployments file of the chain. -/
structure Store where
  env : String → Option String
  file : Option (String → Option String)

/-- What is created on the chain. -/
inductive Creation where
  | stakingImpl
  | vappImpl
  | stakingProxy (impl : Address) (a : StakingArgs)
  | vappProxy (impl : Address) (a : VappArgs)
  | iprove (prove staking : Address)
  | governor (iprove : Address) (votingDelay : BitVec 48) (votingPeriod : BitVec 32) (proposalThreshold quorumFraction : U256)
  | prove (owner : Address)

/-- What the chain answers during a run: the address of what is created with a salt, unless that reverts, and whether the
upgrade of a proxy goes through. -/
structure Chain where
  create : B256 → Creation → Option Address
  upgrade : Address → Address → Bool

section
variable (ch : Cheats)

/-- A text parsed; anything else reverts. -/
def parsed {α : Type} (o : Option α) : Except ConfigErr α :=
  match o with
  | some a => .ok a
  | none => .error .unparsable

/-- `envAddress`, `contracts/script/utils/Base.s.sol:51-53`. -/
def envAddress (st : Store) (key : String) : Except ConfigErr Address :=
  match st.env key with
  | some t => parsed (ch.addr t)
  | none => .ok 0

/-- `envBytes32`, `contracts/script/utils/Base.s.sol:56-58`. -/
def envBytes32 (st : Store) (key : String) : Except ConfigErr B256 :=
  match st.env key with
  | some t => parsed (ch.b32 t)
  | none => .ok 0

/-- `deployments()` with the text of a key, `contracts/script/utils/Base.s.sol:35-37`. -/
def fileEntry (st : Store) (key : String) : Except ConfigErr String :=
  match st.file with
  | none => .error .noFile
  | some f =>
    match f key with
    | none => .error .noKey
    | some t => .ok t

/-- `readAddress`, `contracts/script/utils/Base.s.sol:66-71`. -/
def readAddress (st : Store) (key : String) : Except ConfigErr Address := do
  let a ← envAddress ch st key
  if a ≠ 0 then return a
  let t ← fileEntry st key
  parsed (ch.addr t)

/-- `readBytes32`, `contracts/script/utils/Base.s.sol:74-79`. -/
def readBytes32 (st : Store) (key : String) : Except ConfigErr B256 := do
  let a ← envBytes32 ch st key
  if a ≠ 0 then return a
  let t ← fileEntry st key
  parsed (ch.b32 t)

/-- `readUint256`, `contracts/script/utils/Base.s.sol:92-94`. -/
def readUint256 (st : Store) (key : String) : Except ConfigErr U256 :=
  match st.env key with
  | none => .error .notSet
  | some t => parsed (ch.uint t)

/-- `readUint48`, `contracts/script/utils/Base.s.sol:102-104`: the cast drops the upper bits. -/
def readUint48 (st : Store) (key : String) : Except ConfigErr (BitVec 48) := do
  return (← readUint256 ch st key).setWidth 48

/-- `readUint32`, `contracts/script/utils/Base.s.sol:107-109`: the cast drops the upper bits. -/
def readUint32 (st : Store) (key : String) : Except ConfigErr (BitVec 32) := do
  return (← readUint256 ch st key).setWidth 32

/-- `writeAddress`, `contracts/script/utils/Base.s.sol:112-122`, with `ensureExists`, `:40-48`: the key is set, the others
stay. -/
def writeAddress (st : Store) (key : String) (a : Address) : Store :=
  let f := st.file.getD fun _ => none
  { st with file := some fun k => if k = key then some (ch.showAddr a) else f k }

/-- The creation of a contract; a revert ends the script. -/
def create (x : Chain) (salt : B256) (k : Creation) : Except ConfigErr Address :=
  match x.create salt k with
  | some a => .ok a
  | none => .error .reverted

/-- `run`, `contracts/script/deploy/SuccinctStaking.s.sol:13-53`. -/
def stakingScript (x : Chain) (st : Store) : Except ConfigErr Store := do
  let salt ← readBytes32 ch st "CREATE2_SALT"
  let owner ← readAddress ch st "OWNER"
  let governor ← readAddress ch st "GOVERNOR"
  let vapp ← readAddress ch st "VAPP"
  let prove ← readAddress ch st "PROVE"
  let iprove ← readAddress ch st "I_PROVE"
  let dispenser ← readAddress ch st "DISPENSER"
  let minStakeAmount ← readUint256 ch st "MIN_STAKE_AMOUNT"
  let maxUnstakeRequests ← readUint256 ch st "MAX_UNSTAKE_REQUESTS"
  let unstakePeriod ← readUint256 ch st "UNSTAKE_PERIOD"
  let slashCancellationPeriod ← readUint256 ch st "SLASH_CANCELLATION_PERIOD"
  let impl ← create x salt .stakingImpl
  let proxy ← create x salt (.stakingProxy impl ⟨owner, governor, vapp, prove, iprove, dispenser, minStakeAmount,
    maxUnstakeRequests, unstakePeriod, slashCancellationPeriod⟩)
  return writeAddress ch (writeAddress ch st "STAKING" proxy) "STAKING_IMPL" impl

/-- `run`, `contracts/script/deploy/IntermediateSuccinct.s.sol:10-21`. -/
def iproveScript (x : Chain) (st : Store) : Except ConfigErr Store := do
  let salt ← readBytes32 ch st "CREATE2_SALT"
  let prove ← readAddress ch st "PROVE"
  let staking ← readAddress ch st "STAKING"
  let a ← create x salt (.iprove prove staking)
  return writeAddress ch st "I_PROVE" a

/-- `run`, `contracts/script/deploy/SuccinctGovernor.s.sol:10-26`. -/
def governorScript (x : Chain) (st : Store) : Except ConfigErr Store := do
  let salt ← readBytes32 ch st "CREATE2_SALT"
  let iprove ← readAddress ch st "I_PROVE"
  let votingDelay ← readUint48 ch st "VOTING_DELAY"
  let votingPeriod ← readUint32 ch st "VOTING_PERIOD"
  let proposalThreshold ← readUint256 ch st "PROPOSAL_THRESHOLD"
  let quorumFraction ← readUint256 ch st "QUORUM_FRACTION"
  let a ← create x salt (.governor iprove votingDelay votingPeriod proposalThreshold quorumFraction)
  return writeAddress ch st "GOVERNOR" a

/-- `run`, `contracts/script/deploy/SuccinctVApp.s.sol:13-51`. -/
def vappScript (x : Chain) (st : Store) : Except ConfigErr Store := do
  let salt ← readBytes32 ch st "CREATE2_SALT"
  let owner ← readAddress ch st "OWNER"
  let prove ← readAddress ch st "PROVE"
  let iprove ← readAddress ch st "I_PROVE"
  let auctioneer ← readAddress ch st "AUCTIONEER"
  let staking ← readAddress ch st "STAKING"
  let verifier ← readAddress ch st "VERIFIER"
  let minDepositAmount ← readUint256 ch st "MIN_DEPOSIT_AMOUNT"
  let vkey ← readBytes32 ch st "VKEY"
  let genesisStateRoot ← readBytes32 ch st "GENESIS_STATE_ROOT"
  let impl ← create x salt .vappImpl
  let proxy ← create x salt (.vappProxy impl ⟨owner, prove, iprove, auctioneer, staking, verifier, minDepositAmount, vkey,
    genesisStateRoot⟩)
  return writeAddress ch (writeAddress ch st "VAPP" proxy) "VAPP_IMPL" impl

/-- `upgrade`, `contracts/script/deploy/SuccinctVApp.s.sol:53-64`. -/
def vappUpgradeScript (x : Chain) (st : Store) : Except ConfigErr Store := do
  let salt ← readBytes32 ch st "CREATE2_SALT"
  let proxy ← readAddress ch st "VAPP"
  let impl ← create x salt .vappImpl
  if x.upgrade proxy impl then return writeAddress ch st "VAPP_IMPL" impl
  .error .reverted

/-- `run`, `contracts/script/deploy/Succinct.s.sol:10-20`. -/
def proveScript (x : Chain) (st : Store) : Except ConfigErr Store := do
  let salt ← readBytes32 ch st "CREATE2_SALT"
  let owner ← readAddress ch st "OWNER"
  let a ← create x salt (.prove owner)
  return writeAddress ch st "PROVE" a

/-- The scripts that deploy one contract each, `contracts/DEPLOYMENT.md:79-113`. -/
inductive Script where
  | staking | iprove | governor | vapp | vappUpgrade | prove
  deriving DecidableEq

/-- A run of one of them. -/
def Script.run (x : Chain) (st : Store) : Script → Except ConfigErr Store
  | .staking => stakingScript ch x st
  | .iprove => iproveScript ch x st
  | .governor => governorScript ch x st
  | .vapp => vappScript ch x st
  | .vappUpgrade => vappUpgradeScript ch x st
  | .prove => proveScript ch x st

/-- Runs one after the other; a run that fails leaves the file as it is. -/
def runScripts (st : Store) : List (Script × Chain) → Store
  | [] => st
  | (s, x) :: h =>
    match s.run ch x st with
    | .ok st' => runScripts st' h
    | .error _ => runScripts st h

/-- What `run` of `contracts/script/deploy/AllAtomic.s.sol:16-69` reads, in its order, given the two implementations it
creates: the salt and the three groups of parameters it stores in the deployer (those of `atomicScript`). -/
def atomicParams (x : Chain) (st : Store) : Except ConfigErr (B256 × Params1 × Params2 × Params3) := do
  let salt ← readBytes32 ch st "CREATE2_SALT"
  let owner ← readAddress ch st "OWNER"
  let prove ← readAddress ch st "PROVE"
  let verifier ← readAddress ch st "VERIFIER"
  let stakingImpl ← create x salt .stakingImpl
  let vappImpl ← create x salt .vappImpl
  let votingDelay ← readUint48 ch st "VOTING_DELAY"
  let votingPeriod ← readUint32 ch st "VOTING_PERIOD"
  let proposalThreshold ← readUint256 ch st "PROPOSAL_THRESHOLD"
  let quorumFraction ← readUint256 ch st "QUORUM_FRACTION"
  let auctioneer ← readAddress ch st "AUCTIONEER"
  let minDepositAmount ← readUint256 ch st "MIN_DEPOSIT_AMOUNT"
  let vkey ← readBytes32 ch st "VKEY"
  let dispenser ← readAddress ch st "DISPENSER"
  let minStakeAmount ← readUint256 ch st "MIN_STAKE_AMOUNT"
  let maxUnstakeRequests ← readUint256 ch st "MAX_UNSTAKE_REQUESTS"
  let unstakePeriod ← readUint256 ch st "UNSTAKE_PERIOD"
  let slashCancellationPeriod ← readUint256 ch st "SLASH_CANCELLATION_PERIOD"
  let genesisStateRoot ← readBytes32 ch st "GENESIS_STATE_ROOT"
  return (salt, ⟨stakingImpl, prove, votingDelay, votingPeriod, proposalThreshold, quorumFraction⟩,
    ⟨vappImpl, owner, auctioneer, verifier, minDepositAmount, vkey⟩,
    ⟨dispenser, minStakeAmount, maxUnstakeRequests, unstakePeriod, slashCancellationPeriod, genesisStateRoot⟩)

/-- What it writes, `contracts/script/deploy/AllAtomic.s.sol:71-79`. -/
def atomicWrites (st : Store) (staking vapp iprove governor stakingImpl vappImpl : Address) : Store :=
  let st := writeAddress ch st "STAKING" staking
  let st := writeAddress ch st "VAPP" vapp
  let st := writeAddress ch st "I_PROVE" iprove
  let st := writeAddress ch st "GOVERNOR" governor
  let st := writeAddress ch st "STAKING_IMPL" stakingImpl
  writeAddress ch st "VAPP_IMPL" vappImpl

end

end Verif.Config
