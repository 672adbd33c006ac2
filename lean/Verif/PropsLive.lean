import Verif.L1Size
import Verif.ToyStaking
/-
# C63, C64: exactly which staking calls and which vApp calls go through

`Succeeds cfg c k w`: the call `k` made in context `c` in world `w` is not reverted. `Ordinary` histories (`L1Size.lean`)
are those in which amounts and times stay far below the limits of 256-bit arithmetic.
-/

namespace Verif
open L1

/-- The call is not reverted. -/
def Succeeds (cfg : Cfg) (c : Ctx) (k : Call) (w : World) : Prop := ∃ w', exec cfg c k w = .ok ((), w')

theorem Runs.succeeds {α : Type} {m : L1 α} {w : World} (h : Runs m w) : ∃ w', drop_ m w = .ok ((), w') := by
  obtain ⟨a, w', h⟩ := h
  exact ⟨w', drop_ok.mpr ⟨a, h⟩⟩

theorem Runs.succeeds' {m : L1 Unit} {w : World} (h : Runs m w) : ∃ w', m w = .ok ((), w') := by
  obtain ⟨_, w', h⟩ := h
  exact ⟨w', h⟩

/-! ## C63: staking -/

theorem spend_le {t t' : Erc20} {o s : Address} {v : U256} (h : t.spend o s v.toNat = .ok t') : v.toNat ≤ t.allow o s :=
  allow_le v (Erc20.spend_ok h).1

/-- What a stake requires apart from the payment. -/
theorem StakeEffect.can {cfg : Cfg} (hc : cfg.WF) {f p : Address} {v n : Nat} {w w' : World} {t1 t2 : Erc20} (hi : StakingInv cfg w)
    (hf : f ≠ cfg.iprove) (hf' : f ≠ cfg.staking) (hp : w.staking.provers p = true)
    (h1 : t1.bal = w.prove.bal) (h2 : t1.transfer f cfg.staking v = .ok t2)
    (he : StakeEffect cfg f p v n { w with prove := t2 } w') : v ≤ w.prove.bal f ∧ CanStake cfg f p v w := by
  have hd := hc.distinct
  simp at hd
  obtain ⟨b0, _, _, b3, _⟩ := Erc20.transfer_bal h2 hf'
  have hbi : t2.bal cfg.iprove = w.prove.bal cfg.iprove := by
    rw [b3 _ (Ne.symm hf) hd.2.1.1, h1]
  obtain ⟨e1, e2, e3, e4, e5, p1, p2, i, i1, i2, i3, v1, s1, hi1, _, hn, hn0, _, _, a3, _⟩ := he
  have hps := (hi.reg.ne hc hp).2.2.2.1
  obtain ⟨_, _, rfl⟩ := Erc20.mint_ok a3
  refine ⟨by rw [← h1]; exact b0, e1, e2, e3, e4, e5, ?_⟩
  rw [← hbi]
  change i = v * (w.iprove.supply + 1) / (t2.bal cfg.iprove + 1) at hi1
  rw [← hi1]
  change n = i * ((w.vault p).supply + 1) / (upd w.iprove.bal cfg.staking _ p + 1) at hn
  rw [upd_ne _ _ hps] at hn
  rw [← hn]; exact hn0

section
variable {cfg : Cfg} (hc : cfg.WF) {w₀ : World} {h : List (Ctx × Call)} (ho : Ordinary cfg w₀ h) {w : World} (hw : w = runCalls cfg w₀ h)
include hc ho hw

/-- **C63**, `stake`: goes through exactly if the account (not the zero address) holds the amount and has approved
the staking contract for it, the amount is not zero and at least the minimum, the prover is registered, active and
without an open slash request, the account stakes with no other prover, and the amount buys at least one share. -/
theorem c63_stake {c : Ctx} (hs : ¬ cfg.System c.sender) (p : Address) (v : U256) :
    Succeeds cfg c (.stake p v) w ↔
      (c.sender ≠ 0 ∧ v.toNat ≤ w.prove.bal c.sender ∧ v.toNat ≤ w.prove.allow c.sender cfg.staking) ∧
      (v.toNat ≠ 0 ∧ w.staking.minStakeAmount ≤ v.toNat) ∧
      (w.staking.provers p = true ∧ w.staking.deactivatedProvers p = false ∧ w.staking.slashClaimCount p = 0) ∧
      (w.staking.stakerToProver c.sender = 0 ∨ w.staking.stakerToProver c.sender = p) ∧
      v.toNat * (w.iprove.supply + 1) / (w.prove.bal cfg.iprove + 1) * ((w.vault p).supply + 1) / (w.iprove.bal p + 1) ≠ 0 := by
  subst hw
  have hi := StakingInv.reachable hc _ ho.reachable
  have hl := LiveInv.reachable hc _ ho.reachable
  constructor
  · rintro ⟨w', hx⟩
    obtain ⟨n, hx⟩ := drop_ok.mp hx
    obtain ⟨h1, t1, t2, h2, h3, h4⟩ := stake_ok hx
    obtain ⟨b1, b2⟩ := h4.can hc hi (fun e => hs (Or.inr (Or.inl e))) (fun e => hs (Or.inr (Or.inr (Or.inl e)))) h1
      (Erc20.spend_ok h2).2.1 h3
    exact ⟨⟨(Erc20.transfer_ok h3).1, b1, spend_le h2⟩, ⟨b2.amount, b2.min⟩, ⟨h1, b2.active, b2.noSlash⟩, b2.one, b2.shares⟩
  · rintro ⟨⟨a1, a2, a3⟩, ⟨a4, a5⟩, ⟨a6, a7, a8⟩, a9, a10⟩
    exact (stake_run hc hi hl (ho.sane hc) hs a1 a6 a2 a3 ⟨a4, a5, a7, a8, a9, a10⟩).succeeds

/-- **C63**, `permitAndStake`: the same for the account `f` that pays, but for the approval: either `f` has approved the
prover's vault for exactly the amount, or the permit is signed by `f`. -/
theorem c63_permitAndStake {c : Ctx} {signer : Address} (hs : ¬ cfg.System signer) (p f : Address) (v : U256) :
    Succeeds cfg c (.permitAndStake signer p f v) w ↔
      (f ≠ 0 ∧ v.toNat ≤ w.prove.bal f ∧ (w.prove.allow f p = v.toNat ∨ signer = f)) ∧
      (v.toNat ≠ 0 ∧ w.staking.minStakeAmount ≤ v.toNat) ∧
      (w.staking.provers p = true ∧ w.staking.deactivatedProvers p = false ∧ w.staking.slashClaimCount p = 0) ∧
      (w.staking.stakerToProver f = 0 ∨ w.staking.stakerToProver f = p) ∧
      v.toNat * (w.iprove.supply + 1) / (w.prove.bal cfg.iprove + 1) * ((w.vault p).supply + 1) / (w.iprove.bal p + 1) ≠ 0 := by
  subst hw
  have hi := StakingInv.reachable hc _ ho.reachable
  have hl := LiveInv.reachable hc _ ho.reachable
  have hsys : ∀ n, (runCalls cfg w₀ h).staking.provers p = true → n ≠ 0 →
      ((runCalls cfg w₀ h).prove.allow f p = n ∨ signer = f) → ¬ cfg.System f := by
    intro n hp hn hor hf
    rcases hor with e | e
    · have := hi.prove.allow f p hf (hi.reg.ne hc hp).2.2.1
      omega
    · rw [e] at hs; exact hs hf
  constructor
  · rintro ⟨w', hx⟩
    obtain ⟨n, hx⟩ := drop_ok.mp hx
    obtain ⟨h1, t0, t1, t2, h0, h2, h3, h4⟩ := permitAndStake_ok hx
    have hor : (runCalls cfg w₀ h).prove.allow f p = v.toNat ∨ signer = f := by
      rcases h0 with ⟨e, _⟩ | ⟨e, _⟩
      · exact Or.inl e
      · exact Or.inr e
    have hb : t0.bal = (runCalls cfg w₀ h).prove.bal := by
      rcases h0 with ⟨_, rfl⟩ | ⟨_, e⟩
      · rfl
      · obtain ⟨_, _, rfl⟩ := Erc20.approve_ok e; rfl
    have hf := hsys _ h1 h4.amount_ne hor
    obtain ⟨b1, b2⟩ := h4.can hc hi (fun e => hf (Or.inr (Or.inl e))) (fun e => hf (Or.inr (Or.inr (Or.inl e)))) h1
      ((Erc20.spend_ok h2).2.1.trans hb) h3
    exact ⟨⟨(Erc20.transfer_ok h3).1, b1, hor⟩, ⟨b2.amount, b2.min⟩, ⟨h1, b2.active, b2.noSlash⟩, b2.one, b2.shares⟩
  · rintro ⟨⟨a1, a2, a3⟩, ⟨a4, a5⟩, ⟨a6, a7, a8⟩, a9, a10⟩
    exact (permitAndStake_run hc hi hl (ho.sane hc) (hsys _ a6 a4 a3) a1 a6 a2 a3 ⟨a4, a5, a7, a8, a9, a10⟩).succeeds

/-- **C63**, `requestUnstake`: goes through exactly if the account stakes with a prover, holds the (non-zero) amount of
$stPROVE, has fewer claims than the maximum, and its prover has no open slash request. -/
theorem c63_requestUnstake (c : Ctx) (v : U256) :
    Succeeds cfg c (.requestUnstake v) w ↔
      v.toNat ≠ 0 ∧ v.toNat ≤ w.st.bal c.sender ∧ w.staking.stakerToProver c.sender ≠ 0 ∧
      (w.staking.unstakeClaims c.sender).length < w.staking.maxUnstakeRequests ∧
      w.staking.slashClaimCount (w.staking.stakerToProver c.sender) = 0 := by
  subst hw
  have hi := StakingInv.reachable hc _ ho.reachable
  have hl := LiveInv.reachable hc _ ho.reachable
  constructor
  · rintro ⟨w', hx⟩
    obtain ⟨h1, h2, h3, h4, h5, _⟩ := requestUnstake_ok hx
    exact ⟨h1, h5, h2, h3, h4⟩
  · rintro ⟨h1, h5, h2, h3, h4⟩
    exact (requestUnstake_run hc hi hl (ho.sane hc) h1 h2 h3 h4 h5).succeeds'

/-- **C63**, `finishUnstake`: goes through - for every caller - exactly if the account stakes with a prover, has a
claim, and its prover has no open slash request. -/
theorem c63_finishUnstake (c : Ctx) (s : Address) :
    Succeeds cfg c (.finishUnstake s) w ↔
      w.staking.stakerToProver s ≠ 0 ∧ w.staking.unstakeClaims s ≠ [] ∧
      w.staking.slashClaimCount (w.staking.stakerToProver s) = 0 := by
  subst hw
  have hi := StakingInv.reachable hc _ ho.reachable
  have hl := LiveInv.reachable hc _ ho.reachable
  constructor
  · rintro ⟨w', hx⟩
    obtain ⟨n, hx⟩ := drop_ok.mp hx
    obtain ⟨h1, h2, h3, _⟩ := finishUnstake_ok hx
    exact ⟨h1, h2, h3⟩
  · rintro ⟨h1, h2, h3⟩
    exact (finishUnstake_run hc hi hl (ho.sane hc) h1 h2 h3).succeeds

/-- **C63**, `finishSlash`: goes through exactly if the owner calls it for an unresolved claim on a registered prover. -/
theorem c63_finishSlash (c : Ctx) (p : Address) (i : U256) :
    Succeeds cfg c (.finishSlash p i) w ↔
      c.sender = w.staking.owner ∧ w.staking.provers p = true ∧
      ∃ cl, (w.staking.slashClaims p)[i.toNat]? = some cl ∧ cl.resolved = false := by
  subst hw
  have hi := StakingInv.reachable hc _ ho.reachable
  have hl := LiveInv.reachable hc _ ho.reachable
  constructor
  · rintro ⟨w', hx⟩
    obtain ⟨n, hx⟩ := drop_ok.mp hx
    obtain ⟨h1, h2, cl, h3, h4, _⟩ := finishSlash_ok hx
    exact ⟨h1, h2, cl, h3, h4⟩
  · rintro ⟨h1, h2, cl, h3, h4⟩
    exact (finishSlash_run hc hi hl (Sized.of hi hl (ho.sane hc)) h1 h2 h3 h4).succeeds

end

/-- **C63**, `requestSlash`: goes through exactly if the vApp contract calls it for a registered prover and a non-zero
amount. -/
theorem c63_requestSlash (cfg : Cfg) (c : Ctx) (p : Address) (v : U256) (w : World) :
    Succeeds cfg c (.requestSlash p v) w ↔ c.sender = cfg.vapp ∧ w.staking.provers p = true ∧ v.toNat ≠ 0 := by
  constructor
  · rintro ⟨w', hx⟩
    obtain ⟨n, hx⟩ := drop_ok.mp hx
    obtain ⟨h1, h2, h3, _⟩ := requestSlash_ok hx
    exact ⟨h1, h2, h3⟩
  · rintro ⟨h1, h2, h3⟩
    exact Runs.succeeds (m := requestSlash cfg c p v.toNat) (Runs.bind (require_run h1 _ _) (Runs.bind (onlyForProver_run h2)
      (Runs.bind (require_run h3 _ _) (Runs.bind (get_run _) (Runs.bind (modStaking_run _ _) (Runs.pure _ _))))))

/-- **C63**, `cancelSlash`: goes through - for every caller - exactly if the claim is unresolved and the cancellation
period plus the governor's voting delay and voting period have passed since the request. -/
theorem c63_cancelSlash (cfg : Cfg) (c : Ctx) (hn : c.now < 2 ^ 256) (p : Address) (i : U256) (w : World) :
    Succeeds cfg c (.cancelSlash p i) w ↔ w.staking.provers p = true ∧
      ∃ cl, (w.staking.slashClaims p)[i.toNat]? = some cl ∧ cl.resolved = false ∧
        cl.timestamp + w.staking.slashCancellationPeriod + c.votingDelay + c.votingPeriod ≤ c.now := by
  constructor
  · rintro ⟨w', hx⟩
    obtain ⟨h1, cl, h2, h3, h4, _⟩ := cancelSlash_ok hx
    exact ⟨h1, cl, h2, h3, h4⟩
  · rintro ⟨h1, cl, h2, h3, h4⟩
    exact (cancelSlash_run h1 h2 h3 (by unfold max256; omega) h4).succeeds'

/-- The $PROVE that has accrued for dispensing by the time of the call. -/
def World.earned (w : World) (c : Ctx) : Nat :=
  w.staking.dispenseEarned + (c.now - w.staking.dispenseRateTimestamp) * w.staking.dispenseRate

/-- **C63**, `dispense`, where time has not run backwards and the accrued amount fits 256 bits: goes through exactly
if the dispenser asks for a non-zero amount that has accrued, was not yet dispensed, and is there. The amount 2^256 - 1
stands for all that has accrued and was not yet dispensed. -/
theorem c63_dispense {cfg : Cfg} (hc : cfg.WF) (c : Ctx) (v : U256) (w : World) (ht : w.staking.dispenseRateTimestamp ≤ c.now)
    (hf : w.earned c < 2 ^ 256) :
    Succeeds cfg c (.dispense v) w ↔ c.sender = w.staking.dispenser ∧
      ∃ a, a = (if v.toNat = 2 ^ 256 - 1 then w.earned c - w.staking.dispenseDistributed else v.toNat) ∧ a ≠ 0 ∧
        w.staking.dispenseDistributed + a ≤ w.earned c ∧ a ≤ w.prove.bal cfg.staking := by
  constructor
  · rintro ⟨w', hx⟩
    obtain ⟨h1, _, a, h2, h3, h4, h5, t, h6, _⟩ := dispense_ok hx
    refine ⟨h1, a, ?_, h2, h4, (Erc20.transfer_ok h6).2.2.1⟩
    unfold World.earned
    split
    · rename_i e
      have := h5 e
      omega
    · rename_i e
      exact h3.resolve_left e
  · rintro ⟨h1, a, h2, h3, h4, h5⟩
    exact (dispense_run hc h1 ht (by unfold max256; unfold World.earned at hf; omega) h2 h3 h4 h5).succeeds'

/-- **C63**, `updateDispenseRate` (time has not run backwards, the accrued amount fits 256 bits): only the owner,
always. -/
theorem c63_updateDispenseRate (cfg : Cfg) (c : Ctx) (r : U256) (w : World) (ht : w.staking.dispenseRateTimestamp ≤ c.now)
    (hf : w.earned c < 2 ^ 256) :
    Succeeds cfg c (.updateDispenseRate r) w ↔ c.sender = w.staking.owner := by
  constructor
  · rintro ⟨w', hx⟩
    exact (updateDispenseRate_ok hx).1
  · intro h1
    exact (updateDispenseRate_run h1 ht (by unfold max256; unfold World.earned at hf; omega)).succeeds'

/-! ## C64: the vApp contract -/

/-- **C64**, `deposit`: goes through exactly if the contract is not paused, the account (not the zero address) holds
the amount and has approved the contract for it, the amount is at least the minimum, and there are ids left. -/
theorem c64_deposit {cfg : Cfg} (hc : cfg.WF) (c : Ctx) (v : U256) (w : World) :
    Succeeds cfg c (.deposit v) w ↔ w.vapp.paused = false ∧ c.sender ≠ 0 ∧ w.vapp.minDepositAmount ≤ v.toNat ∧
      v.toNat ≤ w.prove.bal c.sender ∧ v.toNat ≤ w.prove.allow c.sender cfg.vapp ∧
      w.vapp.currentOnchainTxId.toNat + 1 < 2 ^ 64 := by
  constructor
  · rintro ⟨w', hx⟩
    obtain ⟨n, hx⟩ := drop_ok.mp hx
    simp only [vappDeposit, bind_ok, whenNotPaused_ok] at hx
    obtain ⟨_, w1, ⟨hp, rfl⟩, hx'⟩ := hx
    obtain ⟨h1, h2, t1, t2, h3, h4, _⟩ := vappDepositFrom_ok hx'
    obtain ⟨a1, _, a2, _⟩ := Erc20.transfer_ok h4
    exact ⟨hp, a1, h1, by rw [← (Erc20.spend_ok h3).2.1]; exact a2, spend_le h3, h2⟩
  · rintro ⟨hp, h0, h1, h2, h3, h4⟩
    exact Runs.succeeds (m := vappDeposit cfg c v) (Runs.bind (whenNotPaused_run hp) (vappDepositFrom_run hc h0 h1 h4 h2 h3))

/-- **C64**, `permitAndDeposit`: the same for the account `f` that pays, but for the approval: either `f` has approved
the contract for exactly the amount, or the permit is signed by `f`. -/
theorem c64_permitAndDeposit {cfg : Cfg} (hc : cfg.WF) (c : Ctx) (signer f : Address) (v : U256) (w : World) :
    Succeeds cfg c (.permitAndDeposit signer f v) w ↔ w.vapp.paused = false ∧ f ≠ 0 ∧ w.vapp.minDepositAmount ≤ v.toNat ∧
      v.toNat ≤ w.prove.bal f ∧ (w.prove.allow f cfg.vapp = v.toNat ∨ signer = f) ∧
      w.vapp.currentOnchainTxId.toNat + 1 < 2 ^ 64 := by
  constructor
  · rintro ⟨w', hx⟩
    obtain ⟨n, hx⟩ := drop_ok.mp hx
    obtain ⟨hp, t0, h0, hx⟩ := vappPermitAndDeposit_ok hx
    obtain ⟨h1, h2, t1, t2, h3, h4, _⟩ := vappDepositFrom_ok hx
    obtain ⟨a1, _, a2, _⟩ := Erc20.transfer_ok h4
    have hb : t0.bal = w.prove.bal := by
      rcases h0 with ⟨_, rfl⟩ | ⟨_, e⟩
      · rfl
      · obtain ⟨_, _, rfl⟩ := Erc20.approve_ok e; rfl
    refine ⟨hp, a1, h1, ?_, ?_, h2⟩
    · rw [← hb]
      have : t1.bal = t0.bal := (Erc20.spend_ok h3).2.1
      rw [← this]; exact a2
    · rcases h0 with ⟨e, _⟩ | ⟨e, _⟩
      · exact Or.inl e
      · exact Or.inr e
  · rintro ⟨hp, h0, h1, h2, h3, h4⟩
    exact (vappPermitAndDeposit_run hc h0 hp h1 h4 h2 h3).succeeds

/-- **C64**, `createProver`: goes through exactly if the account owns no prover yet, the fee is at most 100 %, the vApp
contract is not paused and names this staking contract, there are ids left, and the address that `CREATE2` gives is not
that of a prover. -/
theorem c64_createProver {cfg : Cfg} (hc : cfg.WF) (c : Ctx) (f : U256) (w : World) :
    Succeeds cfg c (.createProver f) w ↔ f.toNat ≤ 10000 ∧ c.sender ≠ 0 ∧ w.staking.ownerToProver c.sender = 0 ∧
      w.staking.provers (cfg.create2 c.sender (w.staking.proverCount + 1) f.toNat) = false ∧
      w.vapp.staking = cfg.staking ∧ w.vapp.paused = false ∧ w.vapp.currentOnchainTxId.toNat + 1 < 2 ^ 64 := by
  constructor
  · rintro ⟨w', hx⟩
    obtain ⟨n, hx⟩ := drop_ok.mp hx
    obtain ⟨h1, h2, h3, rfl, h4, h5, h6, h7, _⟩ := createProver_ok hx
    exact ⟨h1, h3, h2, h4, h5.symm, h6, h7⟩
  · rintro ⟨h1, h3, h2, h4, h5, h6, h7⟩
    exact (createProver_run hc h1 h2 h3 h4 h5 h6 h7).succeeds

/-- **C64**, `fork`: goes through exactly if the owner gives a non-zero key and root. A pause does not matter. -/
theorem c64_fork (cfg : Cfg) (c : Ctx) (k r : B256) (w : World) :
    Succeeds cfg c (.fork k r) w ↔ c.sender = w.vapp.owner ∧ k ≠ 0 ∧ r ≠ 0 ∧ w.vapp.blockNumber.toNat + 1 < 2 ^ 64 := by
  constructor
  · rintro ⟨w', hx⟩
    obtain ⟨n, hx⟩ := drop_ok.mp hx
    obtain ⟨h1, h2, h3, h4, _⟩ := vappFork_ok hx
    exact ⟨h1, h2, h3, h4⟩
  · rintro ⟨h1, h2, h3, h4⟩
    exact (vappFork_run h1 h2 h3 h4).succeeds

/-- **C64**, `step`: goes through exactly if the contract is not paused, the auctioneer brings public values with a
proof the verifier accepts, they continue the latest root with a non-zero root and a timestamp that is neither in the
future, nor before that of the latest root, nor more than an hour old, there are block numbers left, and the receipts
can be handled (`c65_honest_step` says when). -/
theorem c64_step (cfg : Cfg) (c : Ctx) (pv pr : Bytes) (w : World) :
    Succeeds cfg c (.step pv pr) w ↔ w.vapp.paused = false ∧ c.sender = w.vapp.auctioneer ∧
      c.verifyProof w.vapp.verifier w.vapp.vkey pv pr = true ∧ w.vapp.blockNumber.toNat + 1 < 2 ^ 64 ∧
      ∃ v, StepValues.decode pv = some v ∧ v.newRoot ≠ 0 ∧ v.oldRoot = w.vapp.roots w.vapp.blockNumber ∧
        (w.vapp.timestamps w.vapp.blockNumber).toNat ≤ v.timestamp.toNat ∧
        v.timestamp.toNat ≤ c.now ∧ c.now ≤ v.timestamp.toNat + 3600 ∧
        ∃ w', handleReceipts cfg c v.receipts { w with vapp := { w.vapp with
          blockNumber := w.vapp.blockNumber + 1
          roots := upd w.vapp.roots (w.vapp.blockNumber + 1) v.newRoot
          timestamps := upd w.vapp.timestamps (w.vapp.blockNumber + 1) v.timestamp } } = .ok ((), w') := by
  constructor
  · rintro ⟨w', hx⟩
    obtain ⟨n, hx⟩ := drop_ok.mp hx
    obtain ⟨h1, h2, h3, v, h4, h5, h6, h7, h8, h9, h10, _, h11⟩ := vappStep_ok hx
    exact ⟨h2, h1, h3, h10, v, h4, h5, h6.symm, h8, h7, by omega, w', h11⟩
  · rintro ⟨h2, h1, h3, h10, v, h4, h5, h6, h8, h7, h9, w', h11⟩
    exact (vappStep_run h1 h2 h3 h4 h5 h6.symm h7 h8 (by omega) h10 ⟨_, _, h11⟩).succeeds

/-! ## Witnesses -/

namespace ToyL1

/-- A check that implies `Ordinary`. -/
theorem ordinary {h : List (Ctx × Call)} (ha : h.all admissible = true) (hl : h.length ≤ 2 ^ 64)
    (ht : h.all (fun x => decide (x.1.now < 2 ^ 64)) = true)
    (hs : (List.range (h.length + 1)).all (fun n => decide ((runCalls cfg genesis (h.take n)).prove.supply < 2 ^ 160)) = true) :
    Ordinary cfg genesis h where
  genesis := genesis_ok
  admissible _ hx := admissible_ok (List.all_eq_true.mp ha _ hx)
  length := hl
  times _ hx := of_decide_eq_true (List.all_eq_true.mp ht _ hx)
  period := by decide
  supply h₁ h₂ e := by
    have := List.all_eq_true.mp hs h₁.length (by rw [List.mem_range, e, List.length_append]; omega)
    rw [e, List.take_left'] at this
    · exact of_decide_eq_true this
    · rfl

theorem stakes_ordinary : Ordinary cfg genesis stakes :=
  ordinary (by decide +kernel) (by decide +kernel) (by decide +kernel) (by decide +kernel)

end ToyL1

open ToyL1 in
/-- C63: in the world after `stakes` (in which a slash of `prover1` is open) the history is ordinary and calls of each
kind succeed or fail: no stake or unstake while the slash is open; the owner can execute it; after the waiting time
anybody can cancel it, not before; and then all goes through. -/
example : Ordinary cfg genesis stakes ∧
    (exec cfg (ctx alice 1200) (.stake prover1 100) w3).isOk = false ∧
    (exec cfg (ctx alice 1200) (.requestUnstake 100) w3).isOk = false ∧
    (exec cfg (ctx alice 1300) (.finishUnstake alice) w3).isOk = false ∧
    (exec cfg (ctx gov 1170) (.finishSlash prover1 0) w3).isOk = true ∧
    (exec cfg (ctx alice 1170) (.finishSlash prover1 0) w3).isOk = false ∧
    (exec cfg (ctx bob 1224) (.cancelSlash prover1 0) w3).isOk = false ∧
    (exec cfg (ctx bob 1225) (.cancelSlash prover1 0) w3).isOk = true ∧
    (exec cfg (ctx alice 1240) (.stake prover1 100) w4).isOk = true ∧
    (exec cfg (ctx alice 1240) (.stake prover1 4001) w4).isOk = false ∧
    (exec cfg (ctx alice 1240) (.requestUnstake 500) w4).isOk = true ∧
    (exec cfg (ctx alice 1240) (.requestUnstake 501) w4).isOk = false ∧
    (exec cfg (ctx bob 1240) (.finishUnstake alice) w4).isOk = true :=
  ⟨stakes_ordinary, by decide +kernel⟩

open ToyL1 in
/-- C64: deposits, a second prover, a fork and a step: accepted and refused. -/
example :
    (exec cfg (ctx alice 1100) (.permitAndDeposit alice alice 10) w1).isOk = true ∧
    (exec cfg (ctx alice 1100) (.permitAndDeposit alice alice 9) w1).isOk = false ∧
    (exec cfg (ctx alice 1100) (.deposit 10) w1).isOk = false ∧
    (exec cfg (ctx alice 1100) (.createProver 10000) w1).isOk = true ∧
    (exec cfg (ctx alice 1100) (.createProver 10001) w1).isOk = false ∧
    (exec cfg (ctx bob 1100) (.createProver 100) w1).isOk = false ∧
    (exec cfg (ctx gov 1100) (.fork 8 5) w1).isOk = true ∧
    (exec cfg (ctx gov 1100) (.fork 8 0) w1).isOk = false ∧
    (exec cfg (ctx auc 1500) (.step values1.encode []) w1).isOk = true ∧
    (exec cfg (ctx auc 5100) (.step values1.encode []) w1).isOk = true ∧
    (exec cfg (ctx auc 5101) (.step values1.encode []) w1).isOk = false ∧
    (exec cfg (ctx auc 1499) (.step values1.encode []) w1).isOk = false := by decide +kernel

end Verif
