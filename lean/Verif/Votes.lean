import Verif.L1Calls
/-
# Voting power: checkpoints, delegation, the governor

`contracts/src/tokens/IntermediateSuccinct.sol` ($iPROVE is an `ERC20Votes` token whose clock is the block time),
`contracts/src/tokens/SuccinctProver.sol:84-115` (a prover delegates to itself; its owner proposes, cancels and votes
through it) and `contracts/src/SuccinctGovernor.sol` (OpenZeppelin's `Governor` with `GovernorSettings`,
`GovernorCountingSimple`, `GovernorVotes`, `GovernorVotesQuorumFraction`). The OpenZeppelin code is modelled as
published in v5.2.0, the version pinned in `/repo/.gitmodules`; the submodule itself is empty.

A call that reverts is `none`, or no step of a relation.
-/

namespace Verif
open L1

/-! ## Checkpoints -/

/-- `Checkpoints.Trace208` (imported by `contracts/src/tokens/IntermediateSuccinct.sol:14-16`): entries (time, value),
newest first. The binary search over the sorted array is a search from the newest entry. -/
abbrev Trace := List (Nat × Nat)

/-- `Trace208.latest`. -/
def Trace.latest : Trace → Nat
  | [] => 0
  | (_, v) :: _ => v

/-- `Trace208.push`: an entry for the present time is overwritten, one for the past is refused. -/
def Trace.push (t : Trace) (k v : Nat) : Option Trace :=
  match t with
  | [] => some [(k, v)]
  | (k₀, v₀) :: r => if k < k₀ then none else if k₀ = k then some ((k, v) :: r) else some ((k, v) :: (k₀, v₀) :: r)

/-- `Trace208.upperLookup`: the value of the newest entry up to a time, 0 if there is none. -/
def Trace.at : Trace → Nat → Nat
  | [], _ => 0
  | (k, v) :: r, t => if k ≤ t then v else Trace.at r t

/-! ## `ERC20Votes` -/

/-- The storage of `Votes`. -/
structure Votes where
  delegates : Address → Address
  cps : Address → Trace
  total : Trace

/-- Change of a checkpointed value by a `uint208` amount, with checked arithmetic. -/
def Trace.add (t : Trace) (now n : Nat) : Option Trace :=
  if t.latest + n < 2 ^ 208 then t.push now (t.latest + n) else none
/-- See `Trace.add`. -/
def Trace.sub (t : Trace) (now n : Nat) : Option Trace :=
  if n ≤ t.latest then t.push now (t.latest - n) else none

/-- First half of `Votes._moveDelegateVotes`. -/
def Votes.take (v : Votes) (now : Nat) (src : Address) (n : Nat) : Option Votes :=
  if src = 0 then some v
  else match (v.cps src).sub now n with
    | some t => some { v with cps := upd v.cps src t }
    | none => none

/-- Second half of `Votes._moveDelegateVotes`. -/
def Votes.give (v : Votes) (now : Nat) (dst : Address) (n : Nat) : Option Votes :=
  if dst = 0 then some v
  else match (v.cps dst).add now n with
    | some t => some { v with cps := upd v.cps dst t }
    | none => none

/-- `Votes._moveDelegateVotes`. -/
def Votes.move (v : Votes) (now : Nat) (src dst : Address) (n : Nat) : Option Votes :=
  if src = dst ∨ n = 0 then some v else (v.take now src n).bind fun v => v.give now dst n

/-- The total supply part of `Votes._transferVotingUnits`. -/
def Votes.units (v : Votes) (now : Nat) (src dst : Address) (n : Nat) : Option Votes :=
  let v1 := if src = 0 then (v.total.add now n).map fun t => { v with total := t } else some v
  v1.bind fun v => if dst = 0 then (v.total.sub now n).map fun t => { v with total := t } else some v

/-- `Votes._transferVotingUnits`. -/
def Votes.transfer (v : Votes) (now : Nat) (src dst : Address) (n : Nat) : Option Votes :=
  (v.units now src dst n).bind fun v' => v'.move now (v.delegates src) (v.delegates dst) n

/-- `Votes._delegate`, for an account with voting units `n`. -/
def Votes.delegate (v : Votes) (now : Nat) (account dst : Address) (n : Nat) : Option Votes :=
  { v with delegates := upd v.delegates account dst }.move now (v.delegates account) dst n

/-- One `ERC20._update` of $iPROVE: `from` is zero for a mint, `to` is zero for a burn. -/
structure Move where
  src : Address
  dst : Address
  n : Nat
  deriving DecidableEq

/-- `ERC20._update` as a relation between balances and supplies (allowances are free); a mint keeps the supply below
`2^208` (`ERC20Votes._update`). -/
def Move.Applies (m : Move) (t t' : Erc20) : Prop :=
  if m.src = 0 then m.dst ≠ 0 ∧ t.supply + m.n ≤ 2 ^ 208 - 1 ∧ t'.supply = t.supply + m.n ∧
    t'.bal = upd t.bal m.dst (t.bal m.dst + m.n)
  else if m.dst = 0 then m.n ≤ t.bal m.src ∧ t'.supply = t.supply - m.n ∧
    t'.bal = upd t.bal m.src (t.bal m.src - m.n)
  else m.n ≤ t.bal m.src ∧ t'.supply = t.supply ∧
    t'.bal = let b := upd t.bal m.src (t.bal m.src - m.n); upd b m.dst (b m.dst + m.n)

/-- The moves lead from the balances of one token state to those of another. -/
def Moves : List Move → Erc20 → Erc20 → Prop
  | [], t, t' => t'.bal = t.bal ∧ t'.supply = t.supply
  | m :: ms, t, t' => ∃ t1, m.Applies t t1 ∧ Moves ms t1 t'

/-- The voting part of the moves (`ERC20Votes._update` calls `_transferVotingUnits`). -/
def Votes.moves (v : Votes) (now : Nat) : List Move → Option Votes
  | [] => some v
  | m :: ms => (v.transfer now m.src m.dst m.n).bind fun v => v.moves now ms

/-! ## The governor -/

/-- What a proposal may do (target, value and calldata of one call), as far as the modelled contracts are concerned. -/
inductive GAction where
  /-- a call to a modelled contract -/
  | l1 (k : Call)
  /-- `GovernorSettings.setVotingDelay` and so on, on the governor itself -/
  | setVotingDelay (n : Nat)
  | setVotingPeriod (n : Nat)
  | setProposalThreshold (n : Nat)
  | updateQuorumNumerator (n : Nat)
  /-- a call to any other contract; calls of the governor to its other functions are not modelled -/
  | other (target : Address) (value : U256) (data : Bytes)

/-- `ProposalCore` and `ProposalVote`. -/
structure Proposal where
  proposer : Address
  voteStart : Nat
  voteDuration : Nat
  executed : Bool
  canceled : Bool
  againstVotes : Nat
  forVotes : Nat
  abstainVotes : Nat
  hasVoted : Address → Bool

/-- `ProposalState`, without `Expired` and `Queued` (no timelock). -/
inductive PState where
  | pending | active | canceled | defeated | succeeded | executed
  deriving DecidableEq

/-- The modelled contracts with voting power and governor. -/
structure Gov where
  w : World
  v : Votes
  votingDelay : Nat
  votingPeriod : Nat
  threshold : Nat
  /-- `_quorumNumeratorHistory` -/
  quorumNum : Trace
  proposals : U256 → Proposal

/-- The governor's address, `hashProposal`, keccak of descriptions, and the rule for descriptions that end in
`#proposer=0x..` (`Governor._isValidDescriptionForProposer`). -/
structure GCfg where
  governor : Address
  pid : List GAction → B256 → U256
  keccak : Bytes → B256
  validFor : Address → Bytes → Bool

/-- `clock`, `contracts/src/tokens/IntermediateSuccinct.sol:110-112`. -/
def clock (c : Ctx) : Nat := c.now % 2 ^ 48

/-- `Votes.getPastVotes`: only for the past. -/
def Gov.pastVotes (g : Gov) (c : Ctx) (a : Address) (t : Nat) : Option Nat :=
  if t < clock c then some ((g.v.cps a).at t) else none

/-- `Votes.getPastTotalSupply`. -/
def Gov.pastSupply (g : Gov) (c : Ctx) (t : Nat) : Option Nat :=
  if t < clock c then some (g.v.total.at t) else none

/-- `quorum`, `contracts/src/SuccinctGovernor.sol:58-65`: a percentage of the supply. -/
def Gov.quorum (g : Gov) (c : Ctx) (t : Nat) : Option Nat :=
  (g.pastSupply c t).map fun s => s * g.quorumNum.at t / 100

/-- `Governor.state`; `none` for an unknown proposal. -/
def Gov.stateOf (g : Gov) (c : Ctx) (id : U256) : Option PState :=
  let p := g.proposals id
  if p.executed then some .executed
  else if p.canceled then some .canceled
  else if p.voteStart = 0 then none
  else if clock c ≤ p.voteStart then some .pending
  else if clock c ≤ p.voteStart + p.voteDuration then some .active
  else match g.quorum c p.voteStart with
    | none => none
    | some q => if q ≤ p.forVotes + p.abstainVotes ∧ p.againstVotes < p.forVotes then some .succeeded else some .defeated

/-- Change one proposal. -/
def Gov.setProposal (g : Gov) (id : U256) (f : Proposal → Proposal) : Gov :=
  { g with proposals := upd g.proposals id (f (g.proposals id)) }

/-- The proposer's votes just before now reach the threshold (`getVotes(proposer, clock() - 1)`). -/
def Gov.mayPropose (g : Gov) (c : Ctx) (proposer : Address) : Bool :=
  if g.threshold = 0 then true
  else if clock c = 0 then false
  else match g.pastVotes c proposer (clock c - 1) with
    | some n => g.threshold ≤ n
    | none => false

/-- `Governor.propose`, `threshold` from `contracts/src/SuccinctGovernor.sol:67-74`. -/
def Gov.propose (gc : GCfg) (c : Ctx) (proposer : Address) (acts : List GAction) (desc : Bytes) (g : Gov) : Option Gov :=
  if gc.validFor proposer desc = false then none
  else if g.mayPropose c proposer = false then none
  else if acts.isEmpty then none
  else
    let id := gc.pid acts (gc.keccak desc)
    if (g.proposals id).voteStart ≠ 0 then none
    else if 2 ^ 48 ≤ clock c + g.votingDelay then none
    else some (g.setProposal id fun p =>
      { p with proposer := proposer, voteStart := clock c + g.votingDelay, voteDuration := g.votingPeriod })

/-- `Governor.cancel`: by the proposer, before voting starts. -/
def Gov.cancel (gc : GCfg) (c : Ctx) (sender : Address) (acts : List GAction) (dh : B256) (g : Gov) : Option Gov :=
  let id := gc.pid acts dh
  if g.stateOf c id ≠ some .pending then none
  else if sender ≠ (g.proposals id).proposer then none
  else some (g.setProposal id fun p => { p with canceled := true })

/-- `GovernorCountingSimple._countVote`: against is 0, for is 1, abstain is 2. -/
def Proposal.count (p : Proposal) (a : Address) (support weight : Nat) : Option Proposal :=
  if p.hasVoted a then none
  else if support = 0 then some { p with hasVoted := upd p.hasVoted a true, againstVotes := p.againstVotes + weight }
  else if support = 1 then some { p with hasVoted := upd p.hasVoted a true, forVotes := p.forVotes + weight }
  else if support = 2 then some { p with hasVoted := upd p.hasVoted a true, abstainVotes := p.abstainVotes + weight }
  else none

/-- `Governor._castVote`. -/
def Gov.castVote (c : Ctx) (voter : Address) (id : U256) (support : Nat) (g : Gov) : Option Gov :=
  if g.stateOf c id ≠ some .active then none
  else match g.pastVotes c voter (g.proposals id).voteStart with
    | none => none
    | some weight => match (g.proposals id).count voter support weight with
      | none => none
      | some p => some { g with proposals := upd g.proposals id p }

/-- A call to a modelled contract. `cancelSlash` asks the governor for its settings
(`contracts/src/SuccinctStaking.sol:403-404`). The vote keeping follows the $iPROVE balances: `ms` are the `_update`
calls made, in order; they lead from the old balances to the new ones, and nothing else is assumed about them. A new
prover delegates to itself (`contracts/src/tokens/SuccinctProver.sol:80-81`). -/
def Gov.L1Step (cfg : Cfg) (c : Ctx) (k : Call) (g g' : Gov) : Prop :=
  ∃ w' ms v1, exec cfg { c with votingDelay := g.votingDelay, votingPeriod := g.votingPeriod } k g.w = .ok ((), w') ∧
    Moves ms g.w.iprove w'.iprove ∧ g.v.moves (clock c) ms = some v1 ∧
    match k with
    | .createProver f =>
      let p := cfg.create2 c.sender (g.w.staking.proverCount + 1) f.toNat
      ∃ v2, v1.delegate (clock c) p p (w'.iprove.bal p) = some v2 ∧ g' = { g with w := w', v := v2 }
    | _ => g' = { g with w := w', v := v1 }

/-- One call made by an executed proposal. -/
def Gov.Act (cfg : Cfg) (gc : GCfg) (c : Ctx) (a : GAction) (g g' : Gov) : Prop :=
  match a with
  | .l1 k => g.L1Step cfg { c with sender := gc.governor } k g'
  | .setVotingDelay n => n < 2 ^ 48 ∧ g' = { g with votingDelay := n }
  | .setVotingPeriod n => 0 < n ∧ n < 2 ^ 32 ∧ g' = { g with votingPeriod := n }
  | .setProposalThreshold n => n ≤ max256 ∧ g' = { g with threshold := n }
  | .updateQuorumNumerator n => n ≤ 100 ∧ ∃ t, g.quorumNum.push (clock c) n = some t ∧ g' = { g with quorumNum := t }
  | .other _ _ _ => g' = g

/-- The calls of a proposal, in order; one that reverts makes all revert. -/
def Gov.Acts (cfg : Cfg) (gc : GCfg) (c : Ctx) : List GAction → Gov → Gov → Prop
  | [], g, g' => g' = g
  | a :: as, g, g' => ∃ g1, g.Act cfg gc c a g1 ∧ Gov.Acts cfg gc c as g1 g'

/-- `Governor.execute`: anybody may execute a proposal that has succeeded. -/
def Gov.Execute (cfg : Cfg) (gc : GCfg) (c : Ctx) (acts : List GAction) (dh : B256) (g g' : Gov) : Prop :=
  g.stateOf c (gc.pid acts dh) = some .succeeded ∧
  Gov.Acts cfg gc c acts (g.setProposal (gc.pid acts dh) fun p => { p with executed := true }) g'

/-- Calls to the contracts, to the voting functions of $iPROVE, to the governor, and to provers. `signer` is the
address recovered from a signature; `support` is a `uint8`. -/
inductive GCall where
  | l1 (k : Call)
  | delegate (dst : Address)
  | delegateBySig (signer dst : Address)
  | propose (acts : List GAction) (desc : Bytes)
  | cancel (acts : List GAction) (dh : B256)
  | castVote (id : U256) (support : Nat)
  | castVoteBySig (signer voter : Address) (id : U256) (support : Nat)
  | execute (acts : List GAction) (dh : B256)
  -- `contracts/src/tokens/SuccinctProver.sol:84-115`
  | proverPropose (p : Address) (acts : List GAction) (desc : Bytes)
  | proverCancel (p : Address) (acts : List GAction) (dh : B256)
  | proverCastVote (p : Address) (id : U256) (support : Nat)

/-- `onlyOwner`, `contracts/src/tokens/SuccinctProver.sol:48-52`, for the provers of the registry. -/
def OwnsProver (w : World) (a p : Address) : Prop := w.staking.provers p = true ∧ a = (w.info p).owner

/-- An accepted call. -/
def GStep (cfg : Cfg) (gc : GCfg) (x : Ctx × GCall) (g g' : Gov) : Prop :=
  match x.2 with
  | .l1 k => g.L1Step cfg x.1 k g'
  | .delegate d => ∃ v, g.v.delegate (clock x.1) x.1.sender d (g.w.iprove.bal x.1.sender) = some v ∧ g' = { g with v := v }
  | .delegateBySig s d => ∃ v, g.v.delegate (clock x.1) s d (g.w.iprove.bal s) = some v ∧ g' = { g with v := v }
  | .propose acts desc => g.propose gc x.1 x.1.sender acts desc = some g'
  | .cancel acts dh => g.cancel gc x.1 x.1.sender acts dh = some g'
  | .castVote id s => g.castVote x.1 x.1.sender id s = some g'
  | .castVoteBySig signer voter id s => signer = voter ∧ g.castVote x.1 voter id s = some g'
  | .execute acts dh => g.Execute cfg gc x.1 acts dh g'
  | .proverPropose p acts desc => OwnsProver g.w x.1.sender p ∧ g.propose gc x.1 p acts desc = some g'
  | .proverCancel p acts dh => OwnsProver g.w x.1.sender p ∧ g.cancel gc x.1 p acts dh = some g'
  | .proverCastVote p id s => OwnsProver g.w x.1.sender p ∧ g.castVote x.1 p id s = some g'

/-- The accepted calls of a history, in order (a reverted call changes nothing). -/
def GRun (cfg : Cfg) (gc : GCfg) : Gov → List (Ctx × GCall) → Gov → Prop
  | g, [], g' => g' = g
  | g, x :: h, g' => ∃ g1, GStep cfg gc x g g1 ∧ GRun cfg gc g1 h g'

/-- Times do not decrease, from `T` on, and fit the 48 bits of the clock. -/
def GTimed : Nat → List (Ctx × GCall) → Prop
  | _, [] => True
  | T, x :: h => T ≤ x.1.now ∧ x.1.now < 2 ^ 48 ∧ GTimed x.1.now h

/-- Who can send and sign: nobody has a key for the zero address or for a modelled contract. The calls of an executed
proposal come from the governor, which is another contract; signatures in them are subject to the same. -/
def GAdmissible (cfg : Cfg) (gc : GCfg) (x : Ctx × GCall) : Prop :=
  x.1.sender ≠ 0 ∧
  match x.2 with
  | .l1 k => Admissible cfg (x.1, k)
  | .delegateBySig s _ => ¬ cfg.System x.1.sender ∧ ¬ cfg.System s ∧ s ≠ 0
  | .castVoteBySig s _ _ _ => ¬ cfg.System x.1.sender ∧ ¬ cfg.System s ∧ s ≠ 0
  | .execute acts _ => ¬ cfg.System x.1.sender ∧ ∀ k, .l1 k ∈ acts → Admissible cfg ({ x.1 with sender := gc.governor }, k)
  | _ => ¬ cfg.System x.1.sender

/-- Right after deployment, at time `T`: nobody has delegated, nothing is proposed. -/
structure GGenesis (cfg : Cfg) (T : Nat) (g : Gov) : Prop where
  time : 0 < T
  w : Genesis cfg g.w
  delegates : g.v.delegates = fun _ => 0
  cps : g.v.cps = fun _ => []
  total : g.v.total = []
  quorum : ∃ t n, g.quorumNum = [(t, n)] ∧ t ≤ T ∧ n ≤ 100
  proposals : ∀ id, (g.proposals id).voteStart = 0 ∧ (g.proposals id).executed = false ∧
    (g.proposals id).canceled = false ∧ (g.proposals id).againstVotes = 0 ∧ (g.proposals id).forVotes = 0 ∧
    (g.proposals id).abstainVotes = 0 ∧ ∀ a, (g.proposals id).hasVoted a = false

end Verif
