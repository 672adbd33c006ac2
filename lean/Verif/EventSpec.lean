import Verif.L1Staking
/-
# What the event log of the contracts says

The events of the vApp contract, the staking contract and the prover registry, and how a reader who sees only the log
keeps a record of the contracts. Of the contracts only the storage (in `World.seen`) and the ABI decoders (in `sameData`) are used here.
-/

namespace Verif

/-- The events: `contracts/src/interfaces/ISuccinctVApp.sol:9-45`,
`contracts/src/interfaces/ISuccinctStaking.sol:41-80`, `contracts/src/interfaces/IProverRegistry.sol:6-9`, and
OpenZeppelin's `OwnershipTransferred`, `Paused` and `Unpaused` for the contracts that inherit them
(`contracts/src/SuccinctVApp.sol:44-45`, `contracts/src/SuccinctStaking.sol:32`). The account in `Paused` and
`Unpaused` is left out, and so are the events of the tokens (`Transfer`, `Approval`, the ERC4626 `Deposit` and
`Withdraw`, `DelegateVotesChanged`) and of the proxies. -/
inductive Ev where
  | transactionPending (id : U64) (v : TxVariant) (data : Bytes)
  | transactionCompleted (id : U64) (v : TxVariant) (data : Bytes)
  | transactionReverted (id : U64) (v : TxVariant) (data : Bytes)
  | block (b : U64) (oldRoot newRoot : B256)
  | fork (b : U64) (oldVkey newVkey : B256)
  | deposit (from_ : Address) (amount : Nat)
  | withdraw (to : Address) (amount : Nat)
  | auctioneerUpdate (old new : Address)
  | stakingUpdate (old new : Address)
  | verifierUpdate (old new : Address)
  | minDepositAmountUpdate (old new : Nat)
  | vappOwnershipTransferred (old new : Address)
  | paused
  | unpaused
  | proverBound (staker prover : Address)
  | proverUnbound (staker prover : Address)
  | stake (staker prover : Address) (prove iprove stprove : Nat)
  | unstakeRequest (staker prover : Address) (stprove iprove : Nat)
  | unstake (staker prover : Address) (prove iprove : Nat)
  | slashRequest (prover : Address) (iprove index : Nat)
  | slashCancel (prover : Address) (iprove index : Nat)
  | slash (prover : Address) (prove iprove index : Nat)
  | dispense (prove : Nat)
  | dispenserUpdate (old new : Address)
  | dispenseRateUpdate (old new : Nat)
  | stakingOwnershipTransferred (old new : Address)
  | proverDeploy (prover owner : Address) (fee : Nat)
  | proverDeactivation (prover : Address)
  deriving DecidableEq

/-- What a reader of the log keeps. -/
structure Seen where
  -- the vApp contract
  vappOwner : Address
  paused : Bool
  vkey : B256
  auctioneer : Address
  staking : Address
  verifier : Address
  minDeposit : Nat
  block : U64
  root : U64 → B256
  current : U64
  finalized : U64
  queue : U64 → SolTransaction
  -- the staking contract and the registry
  stakingOwner : Address
  dispenser : Address
  rate : Nat
  dispensed : Nat
  /-- owner, number and fee of a deployed prover -/
  prover : Address → Option (Address × Nat × Nat)
  proverCount : Nat
  proverOf : Address → Address
  deactivated : Address → Bool
  boundTo : Address → Address
  /-- $stPROVE by holder, and in all -/
  stBal : Address → Nat
  stSupply : Nat
  /-- amount of a slash request, and whether it is resolved -/
  slash : Address → Nat → Option (Nat × Bool)

/-- Nothing seen yet. -/
def Seen.nothing : Seen where
  vappOwner := 0
  paused := false
  vkey := 0
  auctioneer := 0
  staking := 0
  verifier := 0
  minDeposit := 0
  block := 0
  root _ := 0
  current := 0
  finalized := 0
  queue _ := ⟨.deposit, .none, 0, []⟩
  stakingOwner := 0
  dispenser := 0
  rate := 0
  dispensed := 0
  prover _ := none
  proverCount := 0
  proverOf _ := 0
  deactivated _ := false
  boundTo _ := 0
  stBal _ := 0
  stSupply := 0
  slash _ _ := none

/-- What the reader concludes from one event. The number 2^64-1 in `TransactionReverted` stands for a transaction that
is not in the queue. Only the new values in an event are used; amounts of $PROVE and $iPROVE are not. -/
def Seen.read (s : Seen) : Ev → Seen
  | .transactionPending id v d => { s with current := id, queue := fun x => if x = id then ⟨v, .pending, id, d⟩ else s.queue x }
  | .transactionCompleted id _ _ => { s with
      finalized := id, queue := fun x => if x = id then { s.queue id with status := .completed } else s.queue x }
  | .transactionReverted id _ _ => if id = BitVec.allOnes 64 then s else { s with
      finalized := id, queue := fun x => if x = id then { s.queue id with status := .reverted } else s.queue x }
  | .block b _ r => { s with block := b, root := fun x => if x = b then r else s.root x }
  | .fork _ _ k => { s with vkey := k }
  | .deposit _ _ => s
  | .withdraw _ _ => s
  | .auctioneerUpdate _ a => { s with auctioneer := a }
  | .stakingUpdate _ a => { s with staking := a }
  | .verifierUpdate _ a => { s with verifier := a }
  | .minDepositAmountUpdate _ v => { s with minDeposit := v }
  | .vappOwnershipTransferred _ a => { s with vappOwner := a }
  | .paused => { s with paused := true }
  | .unpaused => { s with paused := false }
  | .proverBound a p => { s with boundTo := fun x => if x = a then p else s.boundTo x }
  | .proverUnbound a _ => { s with boundTo := fun x => if x = a then 0 else s.boundTo x }
  | .stake a _ _ _ n => { s with
      stSupply := s.stSupply + n, stBal := fun x => if x = a then s.stBal a + n else s.stBal x }
  | .unstakeRequest a _ n _ => { s with
      stSupply := s.stSupply - n, stBal := fun x => if x = a then s.stBal a - n else s.stBal x }
  | .unstake _ _ _ _ => s
  | .slashRequest p v i => { s with
      slash := fun x => if x = p then fun j => if j = i then some (v, false) else s.slash p j else s.slash x }
  | .slashCancel p v i => { s with
      slash := fun x => if x = p then fun j => if j = i then some (v, true) else s.slash p j else s.slash x }
  | .slash p _ _ i => { s with
      slash := fun x => if x = p then fun j => if j = i then (s.slash p i).map (fun y => (y.1, true)) else s.slash p j
        else s.slash x }
  | .dispense v => { s with dispensed := s.dispensed + v }
  | .dispenserUpdate _ a => { s with dispenser := a }
  | .dispenseRateUpdate _ v => { s with rate := v }
  | .stakingOwnershipTransferred _ a => { s with stakingOwner := a }
  | .proverDeploy p o f => { s with
      proverCount := s.proverCount + 1
      prover := fun x => if x = p then some (o, s.proverCount + 1, f) else s.prover x
      proverOf := fun x => if x = o then p else s.proverOf x }
  | .proverDeactivation p => { s with deactivated := fun x => if x = p then true else s.deactivated x }

/-- The reader's record after a log. -/
def Seen.readAll (s : Seen) (es : List Ev) : Seen := es.foldl Seen.read s

/-- Both byte strings carry the same deposit (account and amount), or the same new prover (prover, owner and fee). -/
def sameData : TxVariant → Bytes → Bytes → Prop
  | .deposit, a, b => ∃ d, decAccountAmount a = some d ∧ decAccountAmount b = some d
  | .createProver, a, b => ∃ d, decCreateProver a = some d ∧ decCreateProver b = some d
  | .withdraw, _, _ => False

/-- The event is one the reader can expect: old values are the ones on record, numbers are the next ones, a transaction
is the one on record under its number, a staker is bound as recorded and holds what is unstaked, a slash request is on
record and open, a prover is on record or new. -/
def Seen.fits (s : Seen) : Ev → Prop
  | .transactionPending id _ _ => id = s.current + 1
  | .transactionCompleted id v d => id = s.finalized + 1 ∧ (s.queue id).variant = v ∧ sameData v (s.queue id).action d
  | .transactionReverted id v d =>
      id = BitVec.allOnes 64 ∨ id = s.finalized + 1 ∧ (s.queue id).variant = v ∧ sameData v (s.queue id).action d
  | .block b old new => b = s.block + 1 ∧ old = s.root s.block ∧ new ≠ 0
  | .fork b old new => b = s.block + 1 ∧ old = s.vkey ∧ new ≠ 0
  | .deposit _ v => s.minDeposit ≤ v
  | .withdraw _ _ => True
  | .auctioneerUpdate old _ => old = s.auctioneer
  | .stakingUpdate old _ => old = s.staking
  | .verifierUpdate old _ => old = s.verifier
  | .minDepositAmountUpdate old _ => old = s.minDeposit
  | .vappOwnershipTransferred old _ => old = s.vappOwner
  | .paused => s.paused = false
  | .unpaused => s.paused = true
  | .proverBound a p => s.boundTo a = 0 ∧ s.prover p ≠ none ∧ s.deactivated p = false
  | .proverUnbound a p => s.boundTo a = p ∧ p ≠ 0 ∧ s.stBal a = 0
  | .stake a p v i n => s.boundTo a = p ∧ s.prover p ≠ none ∧ s.deactivated p = false ∧ v ≠ 0 ∧ i ≠ 0 ∧ n ≠ 0
  | .unstakeRequest a p n _ => s.boundTo a = p ∧ p ≠ 0 ∧ n ≠ 0 ∧ n ≤ s.stBal a
  | .unstake a p _ _ => s.boundTo a = p ∧ p ≠ 0
  | .slashRequest p v i => s.prover p ≠ none ∧ v ≠ 0 ∧ s.slash p i = none ∧ ∀ j, j < i → s.slash p j ≠ none
  | .slashCancel p v i => s.prover p ≠ none ∧ s.slash p i = some (v, false)
  | .slash p _ x i => s.prover p ≠ none ∧ ∃ v, s.slash p i = some (v, false) ∧ x ≤ v
  | .dispense v => v ≠ 0
  | .dispenserUpdate old _ => old = s.dispenser
  | .dispenseRateUpdate old _ => old = s.rate
  | .stakingOwnershipTransferred old _ => old = s.stakingOwner
  | .proverDeploy p o f => s.prover p = none ∧ s.proverOf o = 0 ∧ o ≠ 0 ∧ f ≤ 10000
  | .proverDeactivation p => s.prover p ≠ none ∧ s.deactivated p = false

/-- Every event of a log fits the record at its point. -/
def Seen.fitsAll : Seen → List Ev → Prop
  | _, [] => True
  | s, e :: es => s.fits e ∧ (s.read e).fitsAll es

/-- What the contracts store, in the reader's terms (the public getters of the contracts and of the provers). -/
def World.seen (w : World) : Seen where
  vappOwner := w.vapp.owner
  paused := w.vapp.paused
  vkey := w.vapp.vkey
  auctioneer := w.vapp.auctioneer
  staking := w.vapp.staking
  verifier := w.vapp.verifier
  minDeposit := w.vapp.minDepositAmount
  block := w.vapp.blockNumber
  root := w.vapp.roots
  current := w.vapp.currentOnchainTxId
  finalized := w.vapp.finalizedOnchainTxId
  queue := w.vapp.transactions
  stakingOwner := w.staking.owner
  dispenser := w.staking.dispenser
  rate := w.staking.dispenseRate
  dispensed := w.staking.dispenseDistributed
  prover p := if w.staking.provers p then some ((w.info p).owner, (w.info p).id, (w.info p).stakerFeeBips) else none
  proverCount := w.staking.proverCount
  proverOf := w.staking.ownerToProver
  deactivated := w.staking.deactivatedProvers
  boundTo := w.staking.stakerToProver
  stBal := w.st.bal
  stSupply := w.st.supply
  slash p i := ((w.staking.slashClaims p)[i]?).map fun c => (c.iPROVE, c.resolved)

end Verif
