import Verif.PropsSolvency
import Verif.PropsLive
/-
# What an account can do on Ethereum while the auctioneer is silent (C111)

`PROTOCOL.md:163-166` says of the auctioneer that refuses service: "Requesters retain full control over their deposited
funds on Ethereum". The vApp contract has no function by which an account could take its deposit back
(`contracts/src/SuccinctVApp.sol:160-330`): the only payment out of it is made by `_processWithdraw`
(`SuccinctVApp.sol:445-456`) for a receipt of `step`, and `step` can be called by the auctioneer only.
-/

namespace Verif
open L1

/-- Only `updateAuctioneer` changes who the auctioneer is. -/
theorem exec_auctioneer {cfg : Cfg} {c : Ctx} {k : Call} {w w' : World} (h : exec cfg c k w = .ok ((), w'))
    (hu : ∀ a, k ≠ .updateAuctioneer a) : w'.vapp.auctioneer = w.vapp.auctioneer := by
  rcases exec_vapp_cases h with ⟨_, _, _, _, e⟩ | ⟨v, d, _, _, e⟩ | ⟨pv, pr, x, _, e⟩ | ⟨a, b, x, _, e⟩ | ⟨hp, _, _⟩
  · rw [e]
  · rw [e]
  · obtain ⟨_, _, _, v, _, _, _, _, _, _, _, _, hr⟩ := vappStep_ok e
    obtain ⟨⟨f, t, e⟩, _⟩ := handleReceipts_ok hr
    rw [e]
  · obtain ⟨_, _, _, _, rfl⟩ := vappFork_ok e
    rfl
  · cases k <;> first | (exact nomatch (show false = true from hp)) | skip
    case updateAuctioneer a => exact absurd rfl (hu a)
    all_goals
      simp only [exec, vappUpdateStaking, vappUpdateVerifier, vappUpdateMinDeposit, vappPause,
        vappUnpause, vappSetOwner, bind_ok, vappOnlyOwner_ok, modVapp_ok, whenNotPaused_ok, require_ok, get_ok] at h
    case pause =>
      obtain ⟨_, _, ⟨h, rfl⟩, _, _, ⟨_, rfl⟩, rfl⟩ := h
      rfl
    case unpause =>
      obtain ⟨_, _, ⟨h, rfl⟩, _, _, ⟨rfl, rfl⟩, _, _, ⟨_, rfl⟩, rfl⟩ := h
      rfl
    all_goals
      first
      | (obtain ⟨_, _, ⟨h, rfl⟩, _, _, ⟨_, rfl⟩, rfl⟩ := h; rfl)
      | (obtain ⟨_, _, ⟨h, rfl⟩, rfl⟩ := h; rfl)

/-- Nothing but a step marks anything queued as done. -/
theorem exec_finalized {cfg : Cfg} {c : Ctx} {k : Call} {w w' : World} (h : exec cfg c k w = .ok ((), w'))
    (hs : ∀ pv pr, k ≠ .step pv pr) : w'.vapp.finalizedOnchainTxId = w.vapp.finalizedOnchainTxId := by
  rcases exec_vapp_cases h with ⟨_, _, _, _, e⟩ | ⟨v, d, _, _, e⟩ | ⟨pv, pr, x, e, _⟩ | ⟨a, b, x, _, e⟩ | ⟨_, _, e⟩
  · rw [e]
  · rw [e]
  · exact absurd e (hs _ _)
  · obtain ⟨_, _, _, _, rfl⟩ := vappFork_ok e
    rfl
  · exact e.2.2.2.1

/-- **C111 is false of the code.** From every reachable state on, and whatever everybody but the auctioneer calls, in
whatever order: as long as the auctioneer makes no call and the owner names no other one, no $PROVE leaves the vApp
contract (not even a wei, and however much of it was deposited), and nothing that was queued is done. (An upgrade of
the contract by its owner is not a call of the model.) -/
theorem c111_false {cfg : Cfg} (hc : cfg.WF) : ∀ (h : List (Ctx × Call)) {w : World}, Reachable cfg w →
    (∀ x ∈ h, Admissible cfg x) → (∀ x ∈ h, x.1.sender ≠ w.vapp.auctioneer) →
    (∀ x ∈ h, ∀ a, x.2 ≠ .updateAuctioneer a) →
    w.prove.bal cfg.vapp ≤ (runCalls cfg w h).prove.bal cfg.vapp ∧
      (runCalls cfg w h).vapp.finalizedOnchainTxId = w.vapp.finalizedOnchainTxId
  | [], _, _, _, _, _ => ⟨Nat.le_refl _, rfl⟩
  | x :: h, w, hr, ha, hs, hu => by
    rw [runCalls_cons]
    have hax := ha x (List.mem_cons_self ..)
    have key : w.prove.bal cfg.vapp ≤ (call cfg x.1 x.2 w).prove.bal cfg.vapp ∧
        (call cfg x.1 x.2 w).vapp.finalizedOnchainTxId = w.vapp.finalizedOnchainTxId ∧
        (call cfg x.1 x.2 w).vapp.auctioneer = w.vapp.auctioneer := by
      rcases call_ok (cfg := cfg) (c := x.1) (k := x.2) (w := w) with ⟨w', hx, e⟩ | ⟨_, e⟩
      · rw [e]
        have hk : ∀ pv pr, x.2 ≠ .step pv pr := by
          intro pv pr ek
          rw [ek] at hx
          obtain ⟨y, hy⟩ := drop_ok.mp hx
          exact hs x (List.mem_cons_self ..) (vappStep_ok hy).1
        exact ⟨exec_vapp_keeps hc (StakingInv.reachable hc w hr) hax hx hk, exec_finalized hx hk,
          exec_auctioneer hx (hu x (List.mem_cons_self ..))⟩
      · rw [e]; exact ⟨Nat.le_refl _, rfl, rfl⟩
    have ih := c111_false hc h (hr.call hax) (fun y hy => ha y (List.mem_cons_of_mem _ hy))
      (fun y hy => by rw [key.2.2]; exact hs y (List.mem_cons_of_mem _ hy))
      (fun y hy => hu y (List.mem_cons_of_mem _ hy))
    exact ⟨Nat.le_trans key.1 ih.1, ih.2.trans key.2.1⟩

/-- **C111, what does hold:** the owner of the vApp contract, and nobody else, can put another auctioneer in place of a
silent one, at any time, even while the contract is paused; nothing else changes by that. That the new auctioneer can
then pay out what the ledger owes is C65 and C69, which hold of histories with any number of auctioneers. Missing: an
account can do nothing itself. -/
theorem c111_owner_partial (cfg : Cfg) (c : Ctx) (a : Address) (w : World) :
    (Succeeds cfg c (.updateAuctioneer a) w ↔ c.sender = w.vapp.owner) ∧
    (c.sender = w.vapp.owner →
      call cfg c (.updateAuctioneer a) w = { w with vapp := { w.vapp with auctioneer := a } }) := by
  have hrun : c.sender = w.vapp.owner →
      exec cfg c (.updateAuctioneer a) w = .ok ((), { w with vapp := { w.vapp with auctioneer := a } }) := by
    intro h
    simp only [exec, vappUpdateAuctioneer, bind_ok, vappOnlyOwner_ok, modVapp_ok]
    exact ⟨(), w, ⟨h, rfl⟩, rfl⟩
  refine ⟨⟨?_, fun h => ⟨_, hrun h⟩⟩, fun h => ?_⟩
  · rintro ⟨w', hx⟩
    exact (exec_params hx rfl).1
  · unfold call; rw [hrun h]

namespace ToyL1

/-- Alice deposits, and then tries what she can: to be paid by the vApp contract, to step herself, to deposit again.
The owner, too, tries a fork and a pause. -/
def silence : List (Ctx × Call) :=
  [(ctx alice 10, .proveApprove cfg.vapp 1000), (ctx alice 20, .deposit 1000),
   (ctx alice 30, .proveTransferFrom cfg.vapp alice 1000), (ctx alice 40, .step [] []),
   (ctx gov 50, .fork 5 6), (ctx gov 60, .pause), (ctx alice 70, .deposit 0)]

end ToyL1

/-- The hypotheses of C111 hold: of the 1000 deposited by Alice none comes back. -/
example : Reachable ToyL1.cfg ToyL1.genesis ∧ (∀ x ∈ ToyL1.silence, Admissible ToyL1.cfg x) ∧
    (∀ x ∈ ToyL1.silence, x.1.sender ≠ ToyL1.genesis.vapp.auctioneer) ∧
    (∀ x ∈ ToyL1.silence, ∀ a, x.2 ≠ .updateAuctioneer a) ∧
    (runCalls ToyL1.cfg ToyL1.genesis ToyL1.silence).prove.bal ToyL1.cfg.vapp = 1000 ∧
    (runCalls ToyL1.cfg ToyL1.genesis ToyL1.silence).prove.bal ToyL1.alice = 99000 ∧
    (runCalls ToyL1.cfg ToyL1.genesis ToyL1.silence).vapp.blockNumber = 1 ∧
    (runCalls ToyL1.cfg ToyL1.genesis ToyL1.silence).vapp.paused = true := by
  refine ⟨reachable_genesis ToyL1.genesis_ok, ?_, by decide +kernel, ?_, by decide +kernel, by decide +kernel,
    by decide +kernel, by decide +kernel⟩
  · intro x hx
    simp only [ToyL1.silence, List.mem_cons, List.not_mem_nil, or_false] at hx
    rcases hx with rfl | rfl | rfl | rfl | rfl | rfl | rfl <;>
      exact ToyL1.not_system _ (by decide) (by decide)
  · intro x hx a
    simp only [ToyL1.silence, List.mem_cons, List.not_mem_nil, or_false] at hx
    rcases hx with rfl | rfl | rfl | rfl | rfl | rfl | rfl <;> simp

/-- The owner names another auctioneer while the contract is paused. -/
example : (runCalls ToyL1.cfg ToyL1.genesis (ToyL1.silence ++
    [(ToyL1.ctx ToyL1.gov 80, .updateAuctioneer ToyL1.bob)])).vapp.auctioneer = ToyL1.bob := by decide +kernel

end Verif
