import Verif.ConformL1
import Verif.Votes
import Verif.Deploy
/-
# Running the governor's Solidity tests, and the tests of initialization, on the contract model

`contracts/test/SuccinctGovernor.t.sol`, `SuccinctStaking.initalization.t.sol`, the set-up test of `SuccinctStaking.t.sol`,
and one test of `SuccinctStaking.unstake.t.sol`, transcribed by hand; see `ConformL1` for what stands for what. The model of
the governor is a relation (`GStep`); the functions below compute a successor in it, for calls that come with their
`_update` calls on $iPROVE. These are tests of the model, not proofs.
-/

namespace Verif.ConformGovSol
open Verif Verif.ConformL1

def GOVERNOR : Address := 60
def PROPOSAL_THRESHOLD : Nat := 1000000 * 10 ^ 18
def QUORUM_FRACTION : Nat := 20

/-- `hashProposal`: some number depending on the description. The tests' proposals have different descriptions. -/
def gcfg : GCfg where
  governor := GOVERNOR
  pid _ d := d
  keccak d := BitVec.ofNat 256 (d.foldl (fun a x => a * 256 + x.toNat) 1)
  validFor _ _ := true

/-- Why a test stops: an assertion failed, a caller did not own the prover, the governor refused, a contract reverted. -/
inductive GErr where
  | assertion
  | notProverOwner
  | refused
  | reverted (e : L1Err)
  deriving DecidableEq

/-- A test program. -/
def G (α : Type) : Type := Gov × Nat → Except GErr (α × Gov × Nat)

/-- Sequencing. -/
def G.bind {α β : Type} (m : G α) (f : α → G β) : G β := fun s =>
  match m s with
  | .ok (a, s') => f a s'
  | .error e => .error e

instance : Monad G where
  pure a := fun s => .ok (a, s)
  bind := G.bind

def gcheck (p : Prop) [Decidable p] : G Unit := fun s => if p then .ok ((), s) else .error .assertion
def expect (e : GErr) (m : G Unit) : G Unit := fun s =>
  match m s with
  | .error e' => if e = e' then .ok ((), s) else .error .assertion
  | .ok _ => .error .assertion
def gwarp (n : Nat) : G Unit := fun s => .ok ((), s.1, s.2 + n)
def gget {α : Type} (f : Gov → α) : G α := fun s => .ok (f s.1, s)
def stateOf (id : U256) : G (Option PState) := fun s => .ok (s.1.stateOf (ctx TEST s.2) id, s)

/-- One `_update` of $iPROVE, as a function. -/
def applyMove (t : Erc20) (m : Move) : Erc20 :=
  if m.src = 0 then { t with supply := t.supply + m.n, bal := upd t.bal m.dst (t.bal m.dst + m.n) }
  else if m.dst = 0 then { t with supply := t.supply - m.n, bal := upd t.bal m.src (t.bal m.src - m.n) }
  else
    let b := upd t.bal m.src (t.bal m.src - m.n)
    { t with bal := upd b m.dst (b m.dst + m.n) }

/-- The moves account for the change of the balances, at the addresses of the tests. -/
def accounts (ms : List Move) (t t' : Erc20) : Bool :=
  let t1 := ms.foldl applyMove t
  t1.supply == t'.supply &&
  [PROVE, I_PROVE, STAKING, VAPP, ALICE_PROVER, BOB_PROVER, STAKER_1, STAKER_2, ALICE, BOB].all fun a => t1.bal a == t'.bal a

/-- A call to a modelled contract with the `_update` calls it makes (`Gov.L1Step`). -/
def l1 (sender : Address) (k : Call) (ms : List Move := []) : G Unit := fun (g, t) =>
  let c := ctx sender t
  match exec cfg { c with votingDelay := g.votingDelay, votingPeriod := g.votingPeriod } k g.w with
  | .error e => .error (.reverted e)
  | .ok (_, w') =>
    if accounts ms g.w.iprove w'.iprove = false then .error .assertion
    else match g.v.moves (clock c) ms with
      | none => .error .refused
      | some v1 => match k with
        | .createProver f =>
          let p := cfg.create2 sender (g.w.staking.proverCount + 1) f.toNat
          match v1.delegate (clock c) p p (w'.iprove.bal p) with
          | none => .error .refused
          | some v2 => .ok ((), { g with w := w', v := v2 }, t)
        | _ => .ok ((), { g with w := w', v := v1 }, t)

/-- The governor's answer. -/
def answer (t : Nat) : Option Gov → Except GErr (Unit × Gov × Nat)
  | none => .error .refused
  | some g => .ok ((), g, t)

/-- A call of a prover's function by `a` (`contracts/src/tokens/SuccinctProver.sol:84-115`). -/
def viaProver (a p : Address) (f : Ctx → Gov → Option Gov) : G Unit := fun (g, t) =>
  if g.w.staking.provers p = true ∧ a = (g.w.info p).owner then answer t (f (ctx a t) g) else .error .notProverOwner

def propose (a p : Address) (acts : List GAction) (d : Bytes) : G U256 := do
  viaProver a p fun c g => g.propose gcfg c p acts d
  return gcfg.pid acts (gcfg.keccak d)
def cancel (a p : Address) (acts : List GAction) (d : Bytes) : G Unit :=
  viaProver a p fun c g => g.cancel gcfg c p acts (gcfg.keccak d)
def castVote (a p : Address) (id : U256) (support : Nat) : G Unit := viaProver a p fun c g => g.castVote c p id support

/-- `execute` of a proposal that makes one call (`Gov.Execute`). -/
def execute (k : Call) (d : Bytes) (ms : List Move := []) : G Unit := fun (g, t) =>
  let id := gcfg.pid [.l1 k] (gcfg.keccak d)
  if g.stateOf (ctx STAKER_1 t) id ≠ some .succeeded then .error .refused
  else l1 GOVERNOR k ms (g.setProposal id fun p => { p with executed := true }, t)

/-- `_stake`: $iPROVE is minted to the staking contract and moves to the prover. -/
def gstake (a p : Address) (n : Nat) : G Unit := do
  l1 a (.proveApprove STAKING (u n))
  l1 a (.stake p (u n)) [⟨0, STAKING, n⟩, ⟨STAKING, p, n⟩]

/-- The set-up: that of the staking tests, then `contracts/test/SuccinctGovernor.t.sol:19-25`. The voting part starts
empty; the two provers are created with their delegation to themselves. -/
def gsetUp : G Unit := do
  l1 OWNER (.updateDispenseRate (u DISPENSE_RATE))
  fun s => .ok ((), { s.1 with w := { s.1.w with prove := { s.1.w.prove with
    bal := fun a => if a = STAKING then DISPENSE_AMOUNT else if a = STAKER_1 ∨ a = STAKER_2 then STAKER_PROVE_AMOUNT else 0 } } }, s.2)
  l1 ALICE (.createProver (u STAKER_FEE_BIPS))
  l1 BOB (.createProver (u STAKER_FEE_BIPS))
  l1 OWNER (.stakingSetOwner GOVERNOR)

/-- The governor as deployed, `contracts/test/SuccinctStaking.t.sol:97-101`. -/
def gdeployed : Gov where
  w := deployed.w
  v := { delegates := fun _ => 0, cps := fun _ => [], total := [] }
  votingDelay := VOTING_DELAY
  votingPeriod := VOTING_PERIOD
  threshold := PROPOSAL_THRESHOLD
  quorumNum := [(1, QUORUM_FRACTION)]
  proposals _ := {
    proposer := 0, voteStart := 0, voteDuration := 0, executed := false, canceled := false
    againstVotes := 0, forVotes := 0, abstainVotes := 0, hasVoted := fun _ => false }

/-- Does the test pass? -/
def gpasses (t : G Unit) : Bool :=
  match (do gsetUp; t : G Unit) (gdeployed, 1) with
  | .ok _ => true
  | .error _ => false

def newRate : Nat := DISPENSE_RATE * 2
def plan : Call := .updateDispenseRate (u newRate)
def desc : Bytes := [1]
/-- `getVotes` and `proposalVotes` (against, for, abstain). -/
def getVotes (a : Address) : G Nat := gget fun g => (g.v.cps a).latest
def iproveOf (a : Address) : G Nat := gget fun g => g.w.iprove.bal a
def votesOn (id : U256) : G (Nat × Nat × Nat) := gget fun g =>
  ((g.proposals id).againstVotes, (g.proposals id).forVotes, (g.proposals id).abstainVotes)

/-- `test_Propose_WhenValid`, `contracts/test/SuccinctGovernor.t.sol:27`. -/
def test_Propose_WhenValid : G Unit := do
  gcheck ((← getVotes ALICE_PROVER) = (← iproveOf ALICE_PROVER))
  gstake STAKER_1 ALICE_PROVER STAKER_PROVE_AMOUNT
  gwarp 1
  gcheck ((← getVotes ALICE_PROVER) = (← iproveOf ALICE_PROVER))
  let id ← propose ALICE ALICE_PROVER [.l1 plan] desc
  gcheck ((← stateOf id) = some .pending)
  gwarp (VOTING_DELAY + 1)
  gcheck ((← stateOf id) = some .active)
  gcheck ((← votesOn id) = (0, 0, 0))
  castVote ALICE ALICE_PROVER id 1
  gcheck ((← votesOn id) = (0, (← iproveOf ALICE_PROVER), 0))
  gwarp (VOTING_PERIOD + 1)
  gcheck ((← stateOf id) = some .succeeded)
  execute plan desc
  gcheck ((← stateOf id) = some .executed)
  gcheck ((← gget (·.w.staking.dispenseRate)) = newRate)

/-- `test_RevertPropose_WhenNotProverOwner`, `contracts/test/SuccinctGovernor.t.sol:114`. -/
def test_RevertPropose_WhenNotProverOwner : G Unit := do
  gstake STAKER_1 ALICE_PROVER STAKER_PROVE_AMOUNT
  gwarp 1
  expect .notProverOwner do let _ ← propose STAKER_1 ALICE_PROVER [.l1 plan] desc

/-- `test_RevertPropose_WhenNotEnoughVotingPower`, `contracts/test/SuccinctGovernor.t.sol:144`. -/
def test_RevertPropose_WhenNotEnoughVotingPower : G Unit :=
  expect .refused do let _ ← propose ALICE ALICE_PROVER [.l1 plan] desc

/-- `test_Cancel_WhenValid`, `contracts/test/SuccinctGovernor.t.sol:173`. -/
def test_Cancel_WhenValid : G Unit := do
  gstake STAKER_1 ALICE_PROVER STAKER_PROVE_AMOUNT
  gwarp 1
  let id ← propose ALICE ALICE_PROVER [.l1 plan] desc
  gcheck ((← stateOf id) = some .pending)
  cancel ALICE ALICE_PROVER [.l1 plan] desc
  gcheck ((← stateOf id) = some .canceled)

/-- `test_RevertCancel_WhenNotProverOwner`, `contracts/test/SuccinctGovernor.t.sol:215`. -/
def test_RevertCancel_WhenNotProverOwner : G Unit := do
  gstake STAKER_1 ALICE_PROVER STAKER_PROVE_AMOUNT
  gwarp 1
  let id ← propose ALICE ALICE_PROVER [.l1 plan] desc
  expect .notProverOwner (cancel BOB ALICE_PROVER [.l1 plan] desc)
  gcheck ((← stateOf id) = some .pending)

/-- `test_RevertCastVote_WhenNotProverOwner`, `contracts/test/SuccinctGovernor.t.sol:254`. -/
def test_RevertCastVote_WhenNotProverOwner : G Unit := do
  gstake STAKER_1 ALICE_PROVER STAKER_PROVE_AMOUNT
  gwarp 1
  let id ← propose ALICE ALICE_PROVER [.l1 plan] desc
  gwarp (VOTING_DELAY + 1)
  gcheck ((← stateOf id) = some .active)
  expect .notProverOwner (castVote BOB ALICE_PROVER id 1)
  gcheck ((← votesOn id) = (0, 0, 0))

/-- `test_Execute_WhenSlashNoIndexShift`, `contracts/test/SuccinctGovernor.t.sol:305`. -/
def test_Execute_WhenSlashNoIndexShift : G Unit := do
  gstake STAKER_1 ALICE_PROVER STAKER_PROVE_AMOUNT
  gstake STAKER_2 BOB_PROVER STAKER_PROVE_AMOUNT
  l1 VAPP (.requestSlash ALICE_PROVER (u STAKER_PROVE_AMOUNT))
  l1 VAPP (.requestSlash ALICE_PROVER (u (STAKER_PROVE_AMOUNT / 2)))
  gwarp 1
  let id ← propose BOB BOB_PROVER [.l1 (.cancelSlash ALICE_PROVER 0)] [2]
  gwarp (VOTING_DELAY + 1)
  gcheck ((← stateOf id) = some .active)
  let id1 ← propose BOB BOB_PROVER [.l1 (.finishSlash ALICE_PROVER 1)] [3]
  gwarp (VOTING_DELAY + 1)
  gcheck ((← stateOf id1) = some .active)
  castVote BOB BOB_PROVER id 1
  gwarp (VOTING_PERIOD - 20)
  castVote BOB BOB_PROVER id1 1
  gwarp (20 + 1)
  gcheck ((← stateOf id) = some .succeeded)
  gcheck ((← gget (·.w.staking.slashClaims ALICE_PROVER)).length = 2)
  gwarp (SLASH_CANCELLATION_PERIOD + VOTING_DELAY + VOTING_PERIOD)
  execute (.cancelSlash ALICE_PROVER 0) [2]
  gcheck ((← gget (·.w.staking.slashClaims ALICE_PROVER)).length = 2)
  gcheck ((← stateOf id) = some .executed)
  gwarp 1
  gcheck ((← stateOf id1) = some .succeeded)
  execute (.finishSlash ALICE_PROVER 1) [3] [⟨ALICE_PROVER, 0, STAKER_PROVE_AMOUNT / 2⟩]
  gcheck ((← stateOf id1) = some .executed)
  let requests ← gget (·.w.staking.slashClaims ALICE_PROVER)
  gcheck (requests.length = 2)
  gcheck (requests.map (·.resolved) = [true, true])

example : gpasses test_Propose_WhenValid = true := by decide +kernel
example : gpasses test_RevertPropose_WhenNotProverOwner = true := by decide +kernel
example : gpasses test_RevertPropose_WhenNotEnoughVotingPower = true := by decide +kernel
example : gpasses test_Cancel_WhenValid = true := by decide +kernel
example : gpasses test_RevertCancel_WhenNotProverOwner = true := by decide +kernel
example : gpasses test_RevertCastVote_WhenNotProverOwner = true := by decide +kernel
example : gpasses test_Execute_WhenSlashNoIndexShift = true := by decide +kernel

/-! ## Initialization -/

/-- The arguments of the vApp tests, `contracts/test/SuccinctVApp.t.sol:126-136`. -/
def vappArgs : VappArgs := ⟨OWNER, PROVE, I_PROVE, AUCTIONEER, STAKING, 202, u (10 ^ 16), 7, 99⟩
/-- The arguments of the staking tests, `contracts/test/SuccinctStaking.t.sol:106-117`. -/
def stakingArgs : StakingArgs := ⟨OWNER, GOVERNOR, VAPP, PROVE, I_PROVE, DISPENSER, u MIN_STAKE_AMOUNT,
  u MAX_UNSTAKE_REQUESTS, u UNSTAKE_PERIOD, u SLASH_CANCELLATION_PERIOD⟩
/-- Fresh proxies. -/
def fresh : Sys where
  w := { deployed.w with staking := Staking.zero, vapp := VApp.zero }
  deployed := true
  vappInit := false
  stakingInit := false
  vappProve := 0
  vappIprove := 0
  stGovernor := 0
  stVapp := 0
  stProve := 0
  stIprove := 0
  ipAsset := PROVE
  ipStaking := STAKING
  vappImpl := 0
  stakingImpl := 0

/-- Both contracts initialized. -/
def initialized : Except DeployErr Sys := do
  let s ← vappInitialize cfg vappArgs fresh
  stakingInitialize cfg stakingArgs s

/-- `test_SetUp`, `contracts/test/SuccinctStaking.t.sol:299` (the first block; the rest after `setUp` is below). -/
example : (match initialized with
  | .ok s => decide (s.stVapp = VAPP ∧ s.stProve = PROVE ∧ s.stIprove = I_PROVE ∧ s.w.staking.unstakePeriod = UNSTAKE_PERIOD ∧
      s.w.staking.slashCancellationPeriod = SLASH_CANCELLATION_PERIOD ∧ s.ipStaking = STAKING ∧ s.ipAsset = PROVE ∧
      s.w.prove.allow STAKING I_PROVE = max256 ∧ s.w.prove.allow VAPP I_PROVE = max256)
  | .error _ => false) = true := by decide +kernel

def test_SetUp : T Unit := do
  check ((← dispenseRate_) = DISPENSE_RATE)
  check ((← dispenseEarned_) = 0)
  check ((← dispenseDistributed_) = 0)
  check ((← dispenseRateTimestamp_) = (← now))
  check ((← prover_owner ALICE_PROVER) = ALICE)
  check ((← prover_owner BOB_PROVER) = BOB)
  check ((← prover_id ALICE_PROVER) = 1)
  check ((← prover_id BOB_PROVER) = 2)
  check ((← proverCount_) = 2)
  check ((← isProver_ ALICE_PROVER) = true)
  check ((← isProver_ BOB_PROVER) = true)
  check ((← isDeactivatedProver_ ALICE_PROVER) = false)
  check ((← isDeactivatedProver_ BOB_PROVER) = false)
  check ((← getProver_ ALICE) = ALICE_PROVER)
  check ((← getProver_ BOB) = BOB_PROVER)

example : passes test_SetUp = true := by decide +kernel

/-- `test_RevertInitialize_WhenAlreadyInitialized`, `contracts/test/SuccinctStaking.initalization.t.sol:27`, and
`test_RevertInitialized_WhenInvalidInitialization`, `contracts/test/SuccinctVApp.t.sol:196`. -/
example : (match initialized with
  | .ok s => (match stakingInitialize cfg stakingArgs s with | .error .invalidInitialization => true | _ => false) &&
      (match vappInitialize cfg vappArgs s with | .error .invalidInitialization => true | _ => false)
  | .error _ => false) = true := by decide +kernel

/-! ## A fuzz test with a loop that is left early -/

/-- The requests of the loop, `contracts/test/SuccinctStaking.unstake.t.sol:1605-1633`. -/
def fuzzRequests (seed base : Nat) : Nat → Nat → T Unit
  | 0, _ => pure ()
  | k + 1, i => do
    let v := if 4 ≤ base then (seed >>> (i * 4)) % (base / 4) else 0
    let available ← balanceOf STAKING STAKER_1
    let n := if base + v > available then available else base + v
    if n = 0 ∨ n < MIN_STAKE_AMOUNT then pure ()
    else do
      _requestUnstake STAKER_1 n
      if i > 0 ∧ (seed >>> (i * 8)) % 3 = 0 then
        let st ← proverStaked_ ALICE_PROVER
        if st > 0 then
          let _ ← _completeSlash ALICE_PROVER (st / 4)
      fuzzRequests seed base k (i + 1)

/-- The sum of the loop at the end. -/
def fuzzPending (factor : Nat) : List UnstakeClaim → T Nat
  | [] => pure 0
  | c :: cs => do
    let x ← previewRedeem I_PROVE (c.iPROVEEscrow * factor / c.slashFactor)
    return x + (← fuzzPending factor cs)

/-- `testFuzz_UnstakePending_CorrectnessWithMaxRequests`, `contracts/test/SuccinctStaking.unstake.t.sol:1583`. The case
that the base amount is below the minimum does not arise. -/
def testFuzz_UnstakePending_CorrectnessWithMaxRequests (seed : Nat) : T Unit := do
  let stakeAmount := STAKER_PROVE_AMOUNT * 2
  deal PROVE STAKER_1 stakeAmount
  let _ ← _stake STAKER_1 ALICE_PROVER stakeAmount
  let num := seed % MAX_UNSTAKE_REQUESTS + 1
  let base := stakeAmount / (num * 3)
  check (MIN_STAKE_AMOUNT ≤ base)
  fuzzRequests seed base num 0
  let actual ← unstakePending_ STAKER_1
  let claims ← unstakeRequests_ STAKER_1
  let pool ← escrowPool_ ALICE_PROVER
  let manual ← fuzzPending (if pool.slashFactor = 0 then SCALAR else pool.slashFactor) claims
  check (near actual manual (claims.length * 2))

example : passes (testFuzz_UnstakePending_CorrectnessWithMaxRequests 9) = true := by decide +kernel
example : passes (testFuzz_UnstakePending_CorrectnessWithMaxRequests 0x8f3ab27c4419dd05e1) = true := by decide +kernel
example : passes (testFuzz_UnstakePending_CorrectnessWithMaxRequests 0x300600c01803006007) = true := by decide +kernel

end Verif.ConformGovSol
