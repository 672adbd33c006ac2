import Verif.L1Calls
/-
# A concrete deployment and history, used to show that hypotheses of the L1 theorems can be met
-/

namespace Verif.ToyL1
open Verif L1

/-- Addresses of a concrete deployment. -/
def cfg : Cfg where
  prove := 1
  iprove := 2
  staking := 3
  vapp := 4
  create2 _ n _ := BitVec.ofNat 160 (2 ^ 159 + n % 2 ^ 100)

theorem create2_toNat (o : Address) (n f : Nat) : (cfg.create2 o n f).toNat = 2 ^ 159 + n % 2 ^ 100 := by
  show (BitVec.ofNat 160 (2 ^ 159 + n % 2 ^ 100)).toNat = _
  rw [BitVec.toNat_ofNat]
  have : n % 2 ^ 100 < 2 ^ 100 := Nat.mod_lt _ (by decide)
  exact Nat.mod_eq_of_lt (by omega)

theorem create2_ne (o : Address) (n f : Nat) (a : Address) (ha : a.toNat < 2 ^ 159) : cfg.create2 o n f ≠ a := by
  intro e
  have h := create2_toNat o n f
  rw [e] at h; omega

theorem cfg_wf : cfg.WF where
  nonzero := by decide
  distinct := by decide
  create2 o n f := ⟨create2_ne _ _ _ _ (by decide), create2_ne _ _ _ _ (by decide), create2_ne _ _ _ _ (by decide),
    create2_ne _ _ _ _ (by decide), create2_ne _ _ _ _ (by decide)⟩

theorem not_system (a : Address) (h1 : 4 < a.toNat) (h2 : a.toNat < 2 ^ 159) : ¬ cfg.System a := by
  rintro (e | e | e | e | ⟨o, n, f, e⟩)
  · rw [e] at h1; exact absurd h1 (by decide)
  · rw [e] at h1; exact absurd h1 (by decide)
  · rw [e] at h1; exact absurd h1 (by decide)
  · rw [e] at h1; exact absurd h1 (by decide)
  · exact create2_ne o n f a h2 e.symm

/-- An account with $PROVE. -/
def alice : Address := 100
/-- The owner of a prover. -/
def bob : Address := 101
/-- The owner of the contracts. -/
def gov : Address := 200
/-- The auctioneer. -/
def auc : Address := 201
/-- The dispenser. -/
def dsp : Address := 203

/-- A deployment in which alice, bob and the staking contract hold $PROVE. -/
def genesis : World where
  prove := {
    supply := 300000
    bal := fun a => if a = alice then 100000 else if a = bob then 100000 else if a = cfg.staking then 100000 else 0
    allow := fun a s => if (a = cfg.vapp ∨ a = cfg.staking) ∧ s = cfg.iprove then max256 else 0 }
  proveOwner := gov
  iprove := Erc20.empty
  vault := fun _ => Erc20.empty
  info := fun _ => ⟨0, 0, 0⟩
  st := Erc20.empty
  staking := {
    owner := gov, dispenser := dsp, minStakeAmount := 1, maxUnstakeRequests := 10, unstakePeriod := 100
    slashCancellationPeriod := 50, dispenseRate := 0, dispenseRateTimestamp := 0, dispenseEarned := 0
    dispenseDistributed := 0, stakerToProver := fun _ => 0, unstakeClaims := fun _ => []
    slashClaims := fun _ => [], slashClaimCount := fun _ => 0, escrowPools := fun _ => ⟨0, 0⟩
    proverCount := 0, ownerToProver := fun _ => 0, provers := fun _ => false, deactivatedProvers := fun _ => false }
  vapp := {
    owner := gov, paused := false, vkey := 7, auctioneer := auc, staking := cfg.staking, verifier := 202
    blockNumber := 0, minDepositAmount := 10, currentOnchainTxId := 0, finalizedOnchainTxId := 0
    roots := fun b => if b = 0 then 99 else 0, timestamps := fun _ => 0
    transactions := fun _ => SolTransaction.unset }

theorem genesis_ok : Genesis cfg genesis where
  prove_sum := ⟨[alice, bob, cfg.staking], by decide, by
    intro a ha
    simp only [List.mem_cons, List.not_mem_nil, or_false, not_or] at ha
    show (if a = alice then 100000 else if a = bob then 100000 else if a = cfg.staking then 100000 else 0) = 0
    rw [if_neg ha.1, if_neg ha.2.1, if_neg ha.2.2], by decide⟩
  prove_max := by decide
  prove_allow _ _ _ := rfl
  iprove := rfl
  st := rfl
  dispense := ⟨rfl, rfl, rfl, rfl⟩
  maps := ⟨rfl, rfl, rfl, rfl, rfl⟩
  registry := ⟨rfl, rfl, rfl, rfl⟩
  periods := by decide
  vapp_ids := ⟨rfl, rfl, rfl⟩
  vapp_root := ⟨by decide, by
    intro b hb
    show (if b = 0 then (99 : B256) else 0) = 0
    rw [if_neg hb]⟩
  vapp_maps := ⟨rfl, rfl⟩
  vapp_params := ⟨rfl, rfl, by decide⟩

/-- A context: sender and time; the verifier accepts every proof for key 7. -/
def ctx (sender : Address) (now : Nat) : Ctx where
  sender := sender
  now := now
  votingDelay := 5
  votingPeriod := 10
  verifyProof := fun _ k _ _ => k == 7
  foreignIsProver := fun _ => false
  foreignOwner := fun _ => none

/-- The prover bob creates. -/
def prover1 : Address := cfg.create2 bob 1 500

/-- Deposit and prover creation. -/
def setup : List (Ctx × Call) :=
  [ (ctx alice 1000, .proveApprove cfg.vapp 5000),
    (ctx alice 1000, .deposit 5000),
    (ctx bob 1001, .createProver 500) ]

/-- The world after `setup`. -/
def w1 : World := runCalls cfg genesis setup

/-- The public values of a step that finalises both queued transactions and pays out 120 to alice. -/
def values1 : StepValues where
  oldRoot := 99
  newRoot := 111
  timestamp := 1500
  receipts := [
    ⟨.deposit, .completed, 1, (Deposit.mk alice 5000).abi⟩,
    ⟨.createProver, .completed, 2, (CreateProver.mk prover1 bob 500).abi⟩,
    ⟨.withdraw, .completed, BitVec.allOnes 64, (Withdraw.mk alice 120).abi⟩ ]

/-- The step by the auctioneer. -/
def step1 : Ctx × Call := (ctx auc 1600, .step values1.encode [])

/-- The world after the step. -/
def w2 : World := runCalls cfg w1 [step1]

end Verif.ToyL1
