import Verif.L1Held
/-
# Frames for one account's $PROVE and allowances

The frame lemmas of `L1Lemmas`, for relations that allow $PROVE to leave only the modelled contracts, or an account
whose allowance is spent in the same step. `SpendOk a B P` is such a relation: it bounds what can have been taken
from `a` by what `a` has let go.
-/

namespace Verif
open L1

/-- A preorder that allows transfers and burns of $PROVE by the modelled contracts, `transferFrom`, `burnFrom`,
minting, and any change of the other tokens. -/
structure PTok (cfg : Cfg) (R : World → World → Prop) : Prop extends Pre R where
  transfer : ∀ w t f to v, f = cfg.iprove ∨ f = cfg.staking ∨ f = cfg.vapp → w.prove.transfer f to v = .ok t →
    R w { w with prove := t }
  burn : ∀ w t v, w.prove.burn cfg.iprove v = .ok t → R w { w with prove := t }
  transferFrom : ∀ w t1 t s f to v, w.prove.spend f s v = .ok t1 → t1.transfer f to v = .ok t →
    R w { w with prove := t }
  iprove : ∀ w t, R w { w with iprove := t }
  vault : ∀ w t, R w { w with vault := t }
  st : ∀ w t, R w { w with st := t }

namespace PFrame

/-- One decomposition step of `Within R m`. -/
syntax "pwithin_step" : tactic
macro_rules | `(tactic| pwithin_step) => `(tactic| first
  | with_reducible assumption
  | with_reducible apply Within.pure
  | with_reducible apply Within.get
  | with_reducible apply Within.require
  | with_reducible apply Within.lift
  | with_reducible apply Within.liftO
  | with_reducible apply Within.throw
  | with_reducible apply Within.bind
  | with_reducible apply Within.ite
  | with_reducible intro _)
/-- Decompose `Within R m` along the program. -/
macro "pwithin" : tactic => `(tactic| repeat' pwithin_step)

theorem add256_within {R} (hR : Pre R) (x y : Nat) : Within R (add256 x y) := by unfold add256; pwithin
theorem sub256_within {R} (hR : Pre R) (x y : Nat) : Within R (sub256 x y) := by unfold sub256; pwithin
theorem mul256_within {R} (hR : Pre R) (x y : Nat) : Within R (mul256 x y) := by unfold mul256; pwithin
theorem mulDiv_within {R} (hR : Pre R) (x y d : Nat) : Within R (mulDiv x y d) := by unfold mulDiv; pwithin
theorem mulDivUp_within {R} (hR : Pre R) (x y d : Nat) : Within R (mulDivUp x y d) := by unfold mulDivUp; pwithin
theorem inc64_within {R} (hR : Pre R) (x : U64) : Within R (inc64 x) := by unfold inc64; pwithin
theorem drop_within {R} (hR : Pre R) {α : Type} {m : L1 α} (h : Within R m) : Within R (drop_ m) := by
  unfold drop_; pwithin
theorem onProve_burn_within {cfg R} (hR : PTok cfg R) (v) : Within R (onProve (·.burn cfg.iprove v)) := by
  intro w a w' h
  obtain ⟨t, h1, rfl⟩ := onProve_ok.mp h
  exact hR.burn w t v h1
theorem onIprove_within {cfg R} (hR : PTok cfg R) (f) : Within R (onIprove f) := by
  intro w a w' h
  obtain ⟨t, _, rfl⟩ := onIprove_ok.mp h
  exact hR.iprove w t
theorem onVault_within {cfg R} (hR : PTok cfg R) (p f) : Within R (onVault p f) := by
  intro w a w' h
  obtain ⟨t, _, rfl⟩ := onVault_ok.mp h
  exact hR.vault w _
theorem onSt_within {cfg R} (hR : PTok cfg R) (b f) : Within R (onSt b f) := by
  intro w a w' h
  obtain ⟨_, t, _, rfl⟩ := onSt_ok.mp h
  exact hR.st w t

macro_rules | `(tactic| pwithin_step) => `(tactic| first
  | with_reducible exact PTok.toPre ‹_›
  | with_reducible apply add256_within | with_reducible apply sub256_within | with_reducible apply mul256_within | with_reducible apply mulDiv_within
  | with_reducible apply mulDivUp_within | with_reducible apply inc64_within | with_reducible apply drop_within
  | with_reducible apply onProve_burn_within | with_reducible apply onIprove_within | with_reducible apply onVault_within | with_reducible apply onSt_within)

theorem proveTransfer_within {cfg R} (hR : PTok cfg R) (f t v) (hf : f = cfg.iprove ∨ f = cfg.staking ∨ f = cfg.vapp) :
    Within R (proveTransfer f t v) := by
  intro w u w' h
  obtain ⟨t', g, rfl⟩ := proveTransfer_ok h
  exact hR.transfer w t' f t v hf g
macro_rules | `(tactic| pwithin_step) => `(tactic| first
  | with_reducible apply proveTransfer_within
  | with_reducible exact Or.inl rfl | with_reducible exact Or.inr (Or.inl rfl) | with_reducible exact Or.inr (Or.inr rfl))
theorem proveTransferFrom_within {cfg R} (hR : PTok cfg R) (s f t v) : Within R (proveTransferFrom s f t v) := by
  intro w u w' h
  simp only [proveTransferFrom, bind_ok, onProve_ok] at h
  obtain ⟨_, _, ⟨t1, h1, rfl⟩, t2, h2, rfl⟩ := h
  exact hR.transferFrom w t1 t2 s f t v h1 h2
macro_rules | `(tactic| pwithin_step) => `(tactic| with_reducible apply proveTransferFrom_within)
theorem iproveCheck_within {cfg R} (hR : PTok cfg R) (s f t) : Within R (iproveCheck cfg s f t) := by
  unfold iproveCheck; pwithin
macro_rules | `(tactic| pwithin_step) => `(tactic| with_reducible apply iproveCheck_within)
theorem iproveMint_within {cfg R} (hR : PTok cfg R) (s t v) : Within R (iproveMint cfg s t v) := by
  unfold iproveMint; pwithin
macro_rules | `(tactic| pwithin_step) => `(tactic| with_reducible apply iproveMint_within)
theorem iproveBurnShares_within {cfg R} (hR : PTok cfg R) (s f v) : Within R (iproveBurnShares cfg s f v) := by
  unfold iproveBurnShares; pwithin
macro_rules | `(tactic| pwithin_step) => `(tactic| with_reducible apply iproveBurnShares_within)
theorem iproveMove_within {cfg R} (hR : PTok cfg R) (s f t v) : Within R (iproveMove cfg s f t v) := by
  unfold iproveMove; pwithin
macro_rules | `(tactic| pwithin_step) => `(tactic| with_reducible apply iproveMove_within)
theorem iproveSpend_within {cfg R} (hR : PTok cfg R) (o s v) : Within R (iproveSpend cfg o s v) := by
  unfold iproveSpend; pwithin
macro_rules | `(tactic| pwithin_step) => `(tactic| with_reducible apply iproveSpend_within)
theorem iprovePreviewRedeem_within {cfg R} (hR : PTok cfg R) (s) : Within R (iprovePreviewRedeem cfg s) := by
  unfold iprovePreviewRedeem; pwithin
macro_rules | `(tactic| pwithin_step) => `(tactic| with_reducible apply iprovePreviewRedeem_within)
theorem iprovePreviewDeposit_within {cfg R} (hR : PTok cfg R) (s) : Within R (iprovePreviewDeposit cfg s) := by
  unfold iprovePreviewDeposit; pwithin
macro_rules | `(tactic| pwithin_step) => `(tactic| with_reducible apply iprovePreviewDeposit_within)
theorem iproveDeposit_within {cfg R} (hR : PTok cfg R) (s a r) : Within R (iproveDeposit cfg s a r) := by
  unfold iproveDeposit; pwithin
macro_rules | `(tactic| pwithin_step) => `(tactic| with_reducible apply iproveDeposit_within)
theorem iproveMintExact_within {cfg R} (hR : PTok cfg R) (s a r) : Within R (iproveMintExact cfg s a r) := by
  unfold iproveMintExact; pwithin
macro_rules | `(tactic| pwithin_step) => `(tactic| with_reducible apply iproveMintExact_within)
theorem iproveRedeem_within {cfg R} (hR : PTok cfg R) (s a r o) : Within R (iproveRedeem cfg s a r o) := by
  unfold iproveRedeem; pwithin
macro_rules | `(tactic| pwithin_step) => `(tactic| with_reducible apply iproveRedeem_within)
theorem iproveBurn_within {cfg R} (hR : PTok cfg R) (s f v) : Within R (iproveBurn cfg s f v) := by
  unfold iproveBurn; pwithin
macro_rules | `(tactic| pwithin_step) => `(tactic| with_reducible apply iproveBurn_within)
theorem vaultCheck_within {cfg R} (hR : PTok cfg R) (s) : Within R (vaultCheck cfg s) := by
  unfold vaultCheck; pwithin
macro_rules | `(tactic| pwithin_step) => `(tactic| with_reducible apply vaultCheck_within)
theorem vaultSpend_within {cfg R} (hR : PTok cfg R) (p o s v) : Within R (vaultSpend cfg p o s v) := by
  unfold vaultSpend; pwithin
macro_rules | `(tactic| pwithin_step) => `(tactic| with_reducible apply vaultSpend_within)
theorem vaultDeposit_within {cfg R} (hR : PTok cfg R) (s p a r) : Within R (vaultDeposit cfg s p a r) := by
  unfold vaultDeposit; pwithin
macro_rules | `(tactic| pwithin_step) => `(tactic| with_reducible apply vaultDeposit_within)
theorem vaultRedeem_within {cfg R} (hR : PTok cfg R) (s p a r o) : Within R (vaultRedeem cfg s p a r o) := by
  unfold vaultRedeem; pwithin
macro_rules | `(tactic| pwithin_step) => `(tactic| with_reducible apply vaultRedeem_within)
theorem transferProveToStaking_within {cfg R} (hR : PTok cfg R) (s p f v) : Within R (transferProveToStaking cfg s p f v) := by
  unfold transferProveToStaking; pwithin
macro_rules | `(tactic| pwithin_step) => `(tactic| with_reducible apply transferProveToStaking_within)
theorem iproveWithdraw_within {cfg R} (hR : PTok cfg R) (s a r o) : Within R (iproveWithdraw cfg s a r o) := by
  unfold iproveWithdraw; pwithin
macro_rules | `(tactic| pwithin_step) => `(tactic| with_reducible apply iproveWithdraw_within)
theorem vaultMintExact_within {cfg R} (hR : PTok cfg R) (s p a r) : Within R (vaultMintExact cfg s p a r) := by
  unfold vaultMintExact; pwithin
macro_rules | `(tactic| pwithin_step) => `(tactic| with_reducible apply vaultMintExact_within)
theorem vaultWithdraw_within {cfg R} (hR : PTok cfg R) (s p a r o) : Within R (vaultWithdraw cfg s p a r o) := by
  unfold vaultWithdraw; pwithin
macro_rules | `(tactic| pwithin_step) => `(tactic| with_reducible apply vaultWithdraw_within)
theorem isVault_within {cfg R} (hR : PTok cfg R) (p) : Within R (isVault p) := by
  unfold isVault; pwithin
macro_rules | `(tactic| pwithin_step) => `(tactic| with_reducible apply isVault_within)
theorem whenNotPaused_within {cfg R} (hR : PTok cfg R) : Within R (whenNotPaused ) := by
  unfold whenNotPaused; pwithin
macro_rules | `(tactic| pwithin_step) => `(tactic| with_reducible apply whenNotPaused_within)
theorem onlyForProver_within {cfg R} (hR : PTok cfg R) (p) : Within R (onlyForProver p) := by
  unfold onlyForProver; pwithin
macro_rules | `(tactic| pwithin_step) => `(tactic| with_reducible apply onlyForProver_within)
theorem requireNoSlash_within {cfg R} (hR : PTok cfg R) (p) : Within R (requireNoSlash p) := by
  unfold requireNoSlash; pwithin
macro_rules | `(tactic| pwithin_step) => `(tactic| with_reducible apply requireNoSlash_within)
theorem maxDispense_within {cfg R} (hR : PTok cfg R) (c) : Within R (maxDispense c) := by
  unfold maxDispense; pwithin
macro_rules | `(tactic| pwithin_step) => `(tactic| with_reducible apply maxDispense_within)
theorem stakingOnlyOwner_within {cfg R} (hR : PTok cfg R) (c) : Within R (stakingOnlyOwner c) := by
  unfold stakingOnlyOwner; pwithin
macro_rules | `(tactic| pwithin_step) => `(tactic| with_reducible apply stakingOnlyOwner_within)
theorem vappOnlyOwner_within {cfg R} (hR : PTok cfg R) (c) : Within R (vappOnlyOwner c) := by
  unfold vappOnlyOwner; pwithin
macro_rules | `(tactic| pwithin_step) => `(tactic| with_reducible apply vappOnlyOwner_within)
theorem escrowUnstakeRequest_within {cfg R} (hR : PTok cfg R) (s p v) : Within R (escrowUnstakeRequest cfg s p v) := by
  unfold escrowUnstakeRequest; pwithin
macro_rules | `(tactic| pwithin_step) => `(tactic| with_reducible apply escrowUnstakeRequest_within)
theorem requireFinal_within {cfg R} (hR : PTok cfg R) (r) : Within R (requireFinal r) := by
  unfold requireFinal; pwithin
macro_rules | `(tactic| pwithin_step) => `(tactic| with_reducible apply requireFinal_within)

theorem modVapp_within {R} (hv : AllowVapp R) (f) : Within R (modVapp f) := Within.modify fun w => hv w _
theorem modStaking_within {R} (hs : AllowStaking R) (f) : Within R (modStaking f) := Within.modify fun w => hs w _
macro_rules | `(tactic| pwithin_step) => `(tactic| first | with_reducible apply modVapp_within | with_reducible apply modStaking_within)

theorem assertEq_within {cfg R} (hR : PTok cfg R) (t r) : Within R (assertEq t r) := by
  unfold assertEq; split <;> pwithin
macro_rules | `(tactic| pwithin_step) => `(tactic| with_reducible apply assertEq_within)
theorem createTransaction_within {cfg R} (hR : PTok cfg R) (hv : AllowVapp R) (v d) : Within R (createTransaction v d) := by
  unfold createTransaction; pwithin
macro_rules | `(tactic| pwithin_step) => `(tactic| with_reducible apply createTransaction_within)
theorem vappDepositFrom_within {cfg R} (hR : PTok cfg R) (hv : AllowVapp R) (f v) : Within R (vappDepositFrom cfg f v) := by
  unfold vappDepositFrom; pwithin
macro_rules | `(tactic| pwithin_step) => `(tactic| with_reducible apply vappDepositFrom_within)
theorem vappDeposit_within {cfg R} (hR : PTok cfg R) (hv : AllowVapp R) (c v) : Within R (vappDeposit cfg c v) := by
  unfold vappDeposit; pwithin
macro_rules | `(tactic| pwithin_step) => `(tactic| with_reducible apply vappDeposit_within)
theorem vappCreateProver_within {cfg R} (hR : PTok cfg R) (hv : AllowVapp R) (c s p o f) : Within R (vappCreateProver c s p o f) := by
  unfold vappCreateProver; pwithin
macro_rules | `(tactic| pwithin_step) => `(tactic| with_reducible apply vappCreateProver_within)
theorem processWithdraw_within {cfg R} (hR : PTok cfg R) (c t a) : Within R (processWithdraw cfg c t a) := by
  unfold processWithdraw; pwithin
macro_rules | `(tactic| pwithin_step) => `(tactic| with_reducible apply processWithdraw_within)
theorem handleOnchain_within {cfg R} (hR : PTok cfg R) (hv : AllowVapp R) (r) : Within R (handleOnchain r) := by
  unfold handleOnchain; pwithin
macro_rules | `(tactic| pwithin_step) => `(tactic| with_reducible apply handleOnchain_within)
theorem handleOffchain_within {cfg R} (hR : PTok cfg R) (c r) : Within R (handleOffchain cfg c r) := by
  unfold handleOffchain; pwithin
macro_rules | `(tactic| pwithin_step) => `(tactic| with_reducible apply handleOffchain_within)
theorem handleReceipts_within {cfg R} (hR : PTok cfg R) (hv : AllowVapp R) (c rs) :
    Within R (handleReceipts cfg c rs) := by
  induction rs with
  | nil => unfold handleReceipts; pwithin
  | cons r rs ih => unfold handleReceipts; pwithin
macro_rules | `(tactic| pwithin_step) => `(tactic| with_reducible apply handleReceipts_within)
theorem vappStep_within {cfg R} (hR : PTok cfg R) (hv : AllowVapp R) (c pv pr) : Within R (vappStep cfg c pv pr) := by
  unfold vappStep; pwithin
macro_rules | `(tactic| pwithin_step) => `(tactic| with_reducible apply vappStep_within)
theorem vappFork_within {cfg R} (hR : PTok cfg R) (hv : AllowVapp R) (c k r) : Within R (vappFork c k r) := by
  unfold vappFork; pwithin
macro_rules | `(tactic| pwithin_step) => `(tactic| with_reducible apply vappFork_within)
theorem vappUpdateAuctioneer_within {cfg R} (hR : PTok cfg R) (hv : AllowVapp R) (c a) : Within R (vappUpdateAuctioneer c a) := by
  unfold vappUpdateAuctioneer; pwithin
macro_rules | `(tactic| pwithin_step) => `(tactic| with_reducible apply vappUpdateAuctioneer_within)
theorem vappUpdateStaking_within {cfg R} (hR : PTok cfg R) (hv : AllowVapp R) (c a) : Within R (vappUpdateStaking c a) := by
  unfold vappUpdateStaking; pwithin
macro_rules | `(tactic| pwithin_step) => `(tactic| with_reducible apply vappUpdateStaking_within)
theorem vappUpdateVerifier_within {cfg R} (hR : PTok cfg R) (hv : AllowVapp R) (c a) : Within R (vappUpdateVerifier c a) := by
  unfold vappUpdateVerifier; pwithin
macro_rules | `(tactic| pwithin_step) => `(tactic| with_reducible apply vappUpdateVerifier_within)
theorem vappUpdateMinDeposit_within {cfg R} (hR : PTok cfg R) (hv : AllowVapp R) (c v) : Within R (vappUpdateMinDeposit c v) := by
  unfold vappUpdateMinDeposit; pwithin
macro_rules | `(tactic| pwithin_step) => `(tactic| with_reducible apply vappUpdateMinDeposit_within)
theorem vappPause_within {cfg R} (hR : PTok cfg R) (hv : AllowVapp R) (c) : Within R (vappPause c) := by
  unfold vappPause; pwithin
macro_rules | `(tactic| pwithin_step) => `(tactic| with_reducible apply vappPause_within)
theorem vappUnpause_within {cfg R} (hR : PTok cfg R) (hv : AllowVapp R) (c) : Within R (vappUnpause c) := by
  unfold vappUnpause; pwithin
macro_rules | `(tactic| pwithin_step) => `(tactic| with_reducible apply vappUnpause_within)
theorem vappSetOwner_within {cfg R} (hR : PTok cfg R) (hv : AllowVapp R) (c a) : Within R (vappSetOwner c a) := by
  unfold vappSetOwner; pwithin
macro_rules | `(tactic| pwithin_step) => `(tactic| with_reducible apply vappSetOwner_within)
theorem deactivateIfBelowMin_within {cfg R} (hR : PTok cfg R) (hs : AllowStaking R) (p) : Within R (deactivateIfBelowMin p) := by
  unfold deactivateIfBelowMin; pwithin
macro_rules | `(tactic| pwithin_step) => `(tactic| with_reducible apply deactivateIfBelowMin_within)
theorem stakeFor_within {cfg R} (hR : PTok cfg R) (hs : AllowStaking R) (s p a) : Within R (stakeFor cfg s p a) := by
  unfold stakeFor; pwithin
macro_rules | `(tactic| pwithin_step) => `(tactic| with_reducible apply stakeFor_within)
theorem stake_within {cfg R} (hR : PTok cfg R) (hs : AllowStaking R) (c p a) : Within R (stake cfg c p a) := by
  unfold stake; pwithin
macro_rules | `(tactic| pwithin_step) => `(tactic| with_reducible apply stake_within)
theorem requestUnstake_within {cfg R} (hR : PTok cfg R) (hs : AllowStaking R) (c v) : Within R (requestUnstake cfg c v) := by
  unfold requestUnstake; pwithin
macro_rules | `(tactic| pwithin_step) => `(tactic| with_reducible apply requestUnstake_within)
theorem finishUnstakeRequest_within {cfg R} (hR : PTok cfg R) (hs : AllowStaking R) (s p k) : Within R (finishUnstakeRequest cfg s p k) := by
  unfold finishUnstakeRequest; pwithin
macro_rules | `(tactic| pwithin_step) => `(tactic| with_reducible apply finishUnstakeRequest_within)
theorem finishLoop_within {cfg R} (hR : PTok cfg R) (hs : AllowStaking R) (c s p fuel) :
    ∀ i paid, Within R (finishLoop cfg c s p fuel i paid) := by
  induction fuel with
  | zero => intro i paid; unfold finishLoop; pwithin
  | succ n ih =>
    intro i paid; unfold finishLoop
    apply Within.bind hR.toPre (Within.get hR.toPre)
    intro w
    split
    · pwithin
    · pwithin
      · exact ih _ _
      · exact ih _ _
macro_rules | `(tactic| pwithin_step) => `(tactic| with_reducible apply finishLoop_within)
theorem finishUnstake_within {cfg R} (hR : PTok cfg R) (hs : AllowStaking R) (c s) : Within R (finishUnstake cfg c s) := by
  unfold finishUnstake; pwithin
macro_rules | `(tactic| pwithin_step) => `(tactic| with_reducible apply finishUnstake_within)
theorem requestSlash_within {cfg R} (hR : PTok cfg R) (hs : AllowStaking R) (c p v) : Within R (requestSlash cfg c p v) := by
  unfold requestSlash; pwithin
macro_rules | `(tactic| pwithin_step) => `(tactic| with_reducible apply requestSlash_within)
theorem resolveSlash_within {R} (hs : AllowStaking R) (p i k) : Within R (resolveSlash p i k) := by
  unfold resolveSlash; pwithin
macro_rules | `(tactic| pwithin_step) => `(tactic| with_reducible apply resolveSlash_within)
theorem cancelSlash_within {cfg R} (hR : PTok cfg R) (hs : AllowStaking R) (c p i) : Within R (cancelSlash c p i) := by
  unfold cancelSlash; pwithin
macro_rules | `(tactic| pwithin_step) => `(tactic| with_reducible apply cancelSlash_within)
theorem slashBurn_within {cfg R} (hR : PTok cfg R) (hs : AllowStaking R) (p t x) : Within R (slashBurn cfg p t x) := by
  unfold slashBurn; pwithin
macro_rules | `(tactic| pwithin_step) => `(tactic| with_reducible apply slashBurn_within)
theorem finishSlash_within {cfg R} (hR : PTok cfg R) (hs : AllowStaking R) (c p i) : Within R (finishSlash cfg c p i) := by
  unfold finishSlash; pwithin
macro_rules | `(tactic| pwithin_step) => `(tactic| with_reducible apply finishSlash_within)
theorem dispense_within {cfg R} (hR : PTok cfg R) (hs : AllowStaking R) (c v) : Within R (dispense cfg c v) := by
  unfold dispense; pwithin
macro_rules | `(tactic| pwithin_step) => `(tactic| with_reducible apply dispense_within)
theorem setDispenser_within {cfg R} (hR : PTok cfg R) (hs : AllowStaking R) (c a) : Within R (setDispenser c a) := by
  unfold setDispenser; pwithin
macro_rules | `(tactic| pwithin_step) => `(tactic| with_reducible apply setDispenser_within)
theorem updateDispenseRate_within {cfg R} (hR : PTok cfg R) (hs : AllowStaking R) (c v) : Within R (updateDispenseRate c v) := by
  unfold updateDispenseRate; pwithin
macro_rules | `(tactic| pwithin_step) => `(tactic| with_reducible apply updateDispenseRate_within)
theorem stakingSetOwner_within {cfg R} (hR : PTok cfg R) (hs : AllowStaking R) (c a) : Within R (stakingSetOwner c a) := by
  unfold stakingSetOwner; pwithin
macro_rules | `(tactic| pwithin_step) => `(tactic| with_reducible apply stakingSetOwner_within)

end PFrame

/-! ## What can have been taken from an account -/

/-- `a` held `B` once; since then it has let go of `P` in all. Its balance and what is left of its allowances cover
`B`. (If `P` is the largest amount there is, nothing is said.) -/
def Erc20.Covers (t : Erc20) (a : Address) (B P : Nat) : Prop :=
  max256 ≤ P ∨ (∀ s, t.allow a s ≤ P) ∧ ∀ L : List Address, L.Nodup → B + (L.map (t.allow a)).sum ≤ t.bal a + P

namespace Erc20.Covers
variable {t t1 t' : Erc20} {a f to o s : Address} {B P v : Nat}

theorem mono (h : t.Covers a B P) {P' : Nat} (hP : P ≤ P') : t.Covers a B P' := by
  rcases h with h | ⟨h, g⟩
  · exact Or.inl (Nat.le_trans h hP)
  · exact Or.inr ⟨fun s => Nat.le_trans (h s) hP, fun L hL => by have := g L hL; omega⟩

/-- The allowances stay, the balance does not fall. -/
theorem keep (h : t.Covers a B P) (ha : t'.allow a = t.allow a) (hb : t.bal a ≤ t'.bal a) : t'.Covers a B P := by
  rcases h with h | ⟨h, g⟩
  · exact Or.inl h
  · refine Or.inr ⟨fun s => by rw [ha]; exact h s, fun L hL => ?_⟩
    have := g L hL
    rw [ha]; omega

theorem transfer (h : t.Covers a B P) (e : t.transfer f to v = .ok t') (ha : f ≠ a) : t'.Covers a B P :=
  h.keep (by obtain ⟨_, _, _, rfl⟩ := transfer_ok e; rfl) (transfer_keeps e (Or.inl ha))
theorem burn (h : t.Covers a B P) (e : t.burn f v = .ok t') (ha : f ≠ a) : t'.Covers a B P :=
  h.keep (by obtain ⟨_, _, rfl⟩ := burn_ok e; rfl) (burn_keeps e (Or.inl ha))
theorem mint (h : t.Covers a B P) (e : t.mint to v = .ok t') : t'.Covers a B P :=
  h.keep (by obtain ⟨_, _, rfl⟩ := mint_ok e; rfl) (mint_keeps e)

theorem approve (h : t.Covers a B P) (e : t.approve o s v = .ok t') (ha : o ≠ a) : t'.Covers a B P := by
  obtain ⟨_, _, rfl⟩ := approve_ok e
  exact h.keep (upd_ne _ _ (Ne.symm ha)) (Nat.le_refl _)

/-- The sum over a list without repetitions changes at one place only. -/
theorem sum_upd {f g : Address → Nat} {s : Address} (he : ∀ x, x ≠ s → g x = f x) (L : List Address) (hL : L.Nodup) :
    (s ∉ L ∧ (L.map g).sum = (L.map f).sum) ∨ (s ∈ L ∧ (L.map g).sum + f s = (L.map f).sum + g s) := by
  induction L with
  | nil => exact Or.inl ⟨List.not_mem_nil, rfl⟩
  | cons x L ih =>
    obtain ⟨hx, hL'⟩ := List.nodup_cons.mp hL
    simp only [List.map_cons, List.sum_cons, List.mem_cons]
    by_cases e : s = x
    · subst e
      rcases ih hL' with ⟨_, i⟩ | ⟨i, _⟩
      · exact Or.inr ⟨Or.inl rfl, by omega⟩
      · exact absurd i hx
    · have := he x (Ne.symm e)
      rcases ih hL' with ⟨i, j⟩ | ⟨i, j⟩
      · exact Or.inl ⟨fun h => h.elim e i, by omega⟩
      · exact Or.inr ⟨Or.inr i, by omega⟩

theorem approve_self (h : t.Covers a B P) (e : t.approve a s v = .ok t') : t'.Covers a B (P + v) := by
  obtain ⟨_, _, rfl⟩ := approve_ok e
  rcases h with h | ⟨h, g⟩
  · exact Or.inl (by omega)
  · refine Or.inr ⟨fun x => ?_, fun L hL => ?_⟩
    · dsimp only
      rw [upd_same]
      by_cases e : x = s
      · subst e; rw [upd_same]; omega
      · rw [upd_ne _ _ e]; have := h x; omega
    · dsimp only
      rw [upd_same]
      have := g L hL
      have hs : upd (t.allow a) s v s = v := upd_same _ _ _
      rcases sum_upd (g := upd (t.allow a) s v) (f := t.allow a) (s := s) (fun x hx => upd_ne (t.allow a) v hx) L hL with ⟨_, i⟩ | ⟨_, i⟩ <;> omega

theorem transfer_self (h : t.Covers a B P) (e : t.transfer a to v = .ok t') : t'.Covers a B (P + v) := by
  obtain ⟨_, _, hv, rfl⟩ := transfer_ok e
  rcases h with h | ⟨h, g⟩
  · exact Or.inl (by omega)
  · refine Or.inr ⟨fun s => by have := h s; dsimp only; omega, fun L hL => ?_⟩
    have := g L hL
    dsimp only
    by_cases e : a = to
    · subst e; rw [upd_same, upd_same]; omega
    · rw [upd_ne _ _ e, upd_same]; omega

theorem burn_self (h : t.Covers a B P) (e : t.burn a v = .ok t') : t'.Covers a B (P + v) := by
  obtain ⟨_, hv, rfl⟩ := burn_ok e
  rcases h with h | ⟨h, g⟩
  · exact Or.inl (by omega)
  · refine Or.inr ⟨fun s => by have := h s; dsimp only; omega, fun L hL => ?_⟩
    have := g L hL
    dsimp only
    rw [upd_same]; omega

/-- An allowance is used, and the balance falls by no more. -/
theorem spent (h : t.Covers a B P) (hp : P < max256) (e : t.spend a s v = .ok t1) (ha : t'.allow = t1.allow)
    (hb : t1.bal a ≤ t'.bal a + v) : t'.Covers a B P := by
  rcases h with h | ⟨h, g⟩
  · exact Or.inl h
  · obtain ⟨h1, h2, _, h4, h5⟩ := spend_ok e
    have hs := h s
    have hm : t.allow a s ≠ max256 := by omega
    rw [if_neg hm] at h5
    have hv : v ≤ t.allow a s := h1.resolve_left hm
    rw [h2] at hb
    refine Or.inr ⟨fun x => ?_, fun L hL => ?_⟩
    · rw [ha]
      by_cases e : x = s
      · subst e; omega
      · rw [h4 _ _ (Or.inr e)]; exact h x
    · rw [ha]
      rcases sum_upd (g := t1.allow a) (f := t.allow a) (s := s) (fun x hx => h4 _ _ (Or.inr hx)) L hL with ⟨i, j⟩ | ⟨i, j⟩
      · have := g (s :: L) (List.nodup_cons.mpr ⟨i, hL⟩)
        simp only [List.map_cons, List.sum_cons] at this
        omega
      · have := g L hL
        omega

theorem spend_other (h : t.Covers a B P) (e : t.spend o s v = .ok t1) (ho : o ≠ a) : t1.Covers a B P := by
  obtain ⟨_, h2, _, h4, _⟩ := spend_ok e
  exact h.keep (funext fun x => h4 _ _ (Or.inl (Ne.symm ho))) (by rw [h2]; exact Nat.le_refl _)

theorem transferFrom (h : t.Covers a B P) (e : t.spend f s v = .ok t1) (e' : t1.transfer f to v = .ok t') :
    t'.Covers a B P := by
  by_cases hf : f = a
  · subst hf
    by_cases hp : P < max256
    · refine h.spent hp e ?_ ?_
      · obtain ⟨_, _, _, rfl⟩ := transfer_ok e'; rfl
      · obtain ⟨_, _, hv, rfl⟩ := transfer_ok e'
        dsimp only
        by_cases e : f = to
        · subst e; rw [upd_same, upd_same]; omega
        · rw [upd_ne _ _ e, upd_same]; omega
    · exact Or.inl (by omega)
  · exact (h.spend_other e hf).transfer e' hf

theorem burnFrom (h : t.Covers a B P) (e : t.spend f s v = .ok t1) (e' : t1.burn f v = .ok t') : t'.Covers a B P := by
  by_cases hf : f = a
  · subst hf
    by_cases hp : P < max256
    · refine h.spent hp e ?_ ?_
      · obtain ⟨_, _, rfl⟩ := burn_ok e'; rfl
      · obtain ⟨_, hv, rfl⟩ := burn_ok e'
        dsimp only
        rw [upd_same]; omega
    · exact Or.inl (by omega)
  · exact (h.spend_other e hf).burn e' hf

end Erc20.Covers

/-- What `a` lets go of by sending or signing a call: the amounts it transfers, burns, approves or permits. -/
def Call.letsGo (cfg : Cfg) (a : Address) (c : Ctx) (w : World) : Call → Nat
  | .proveTransfer _ v | .proveBurn v | .proveApprove _ v => if c.sender = a then v.toNat else 0
  | .provePermit s _ _ v => if s = a then v.toNat else 0
  | .permitAndDeposit s f v => if s = a ∧ w.prove.allow f cfg.vapp ≠ v.toNat then v.toNat else 0
  | .permitAndStake s p f v => if s = a ∧ w.prove.allow f p ≠ v.toNat then v.toNat else 0
  | _ => 0

/-- The relation of the frames. -/
theorem covers_tok (cfg : Cfg) (a : Address) (B P : Nat) (ha : ¬ cfg.System a) :
    PTok cfg (fun w w' => w.prove.Covers a B P → w'.prove.Covers a B P) where
  refl _ h := h
  trans _ _ _ h g x := g (h x)
  transfer w t f to v hf e h := h.transfer e (by
    rintro rfl
    rcases hf with rfl | rfl | rfl
    · exact ha (Or.inr (Or.inl rfl))
    · exact ha (Or.inr (Or.inr (Or.inl rfl)))
    · exact ha (Or.inr (Or.inr (Or.inr (Or.inl rfl)))))
  burn w t v e h := h.burn e (by
    rintro rfl
    exact ha (Or.inr (Or.inl rfl)))
  transferFrom w t1 t s f to v e e' h := h.transferFrom e e'
  iprove _ _ h := h
  vault _ _ h := h
  st _ _ h := h

open PFrame in
/-- One call. -/
theorem exec_covers {cfg : Cfg} {c : Ctx} {k : Call} {w w' : World} {a : Address} {B P : Nat} (ha : ¬ cfg.System a)
    (h : exec cfg c k w = .ok ((), w')) (hc : w.prove.Covers a B P) : w'.prove.Covers a B (P + k.letsGo cfg a c w) := by
  have hR := covers_tok cfg a B P ha
  have hv : AllowVapp (fun w w' => w.prove.Covers a B P → w'.prove.Covers a B P) := fun _ _ h => h
  have hs : AllowStaking (fun w w' => w.prove.Covers a B P → w'.prove.Covers a B P) := fun _ _ h => h
  cases k
  case proveTransfer to v =>
    obtain ⟨t, g, rfl⟩ := proveTransfer_ok h
    simp only [Call.letsGo]
    split
    · rename_i e; subst e; exact hc.transfer_self g
    · rename_i e; exact hc.transfer g e
  case proveApprove s v =>
    simp only [exec, onProve_ok] at h
    obtain ⟨t, h, rfl⟩ := h
    simp only [Call.letsGo]
    split
    · rename_i e; subst e; exact hc.approve_self h
    · rename_i e; exact hc.approve h e
  case proveBurn v =>
    simp only [exec, onProve_ok] at h
    obtain ⟨t, h, rfl⟩ := h
    simp only [Call.letsGo]
    split
    · rename_i e; subst e; exact hc.burn_self h
    · rename_i e; exact hc.burn h e
  case provePermit x b d v =>
    obtain ⟨rfl, t, g, rfl⟩ := provePermit_ok h
    simp only [Call.letsGo]
    split
    · rename_i e; subst e; exact hc.approve_self g
    · rename_i e; exact hc.approve g e
  case proveMint to v =>
    simp only [exec, bind_ok, get_ok, require_ok, onProve_ok] at h
    obtain ⟨_, _, ⟨rfl, rfl⟩, _, _, ⟨_, rfl⟩, t, h, rfl⟩ := h
    exact hc.mint h
  case proveBurnFrom f v =>
    simp only [exec, bind_ok, onProve_ok] at h
    obtain ⟨_, _, ⟨t1, g1, rfl⟩, t, g2, rfl⟩ := h
    exact hc.burnFrom g1 g2
  case proveSetOwner a =>
    simp only [exec, bind_ok, get_ok, require_ok, modify_ok] at h
    obtain ⟨_, _, ⟨rfl, rfl⟩, _, _, ⟨_, rfl⟩, rfl⟩ := h
    exact hc
  case permitAndDeposit s f v =>
    obtain ⟨id, h⟩ := drop_ok.mp h
    obtain ⟨_, t0, g0, h⟩ := vappPermitAndDeposit_ok h
    obtain ⟨_, _, t1, t2, g1, g2, rfl⟩ := vappDepositFrom_ok h
    simp only [Call.letsGo]
    split
    · rename_i e
      obtain ⟨rfl, e⟩ := e
      rcases g0 with ⟨_, rfl⟩ | ⟨rfl, g0⟩
      · exact (hc.transferFrom g1 g2).mono (Nat.le_add_right _ _)
      · exact (hc.approve_self g0).transferFrom g1 g2
    · rename_i e
      rcases g0 with ⟨_, rfl⟩ | ⟨rfl, g0⟩
      · exact hc.transferFrom g1 g2
      · by_cases hs : s = a
        · have ha : _ = _ := Decidable.not_not.mp fun g => e ⟨hs, g⟩
          refine Erc20.Covers.transferFrom (t := t0) ?_ g1 g2
          obtain ⟨_, _, rfl⟩ := Erc20.approve_ok g0
          refine hc.keep ?_ (Nat.le_refl _)
          dsimp only
          rw [← ha, hs, upd_same]
          funext x
          by_cases ex : x = cfg.vapp
          · rw [ex, upd_same]
          · rw [upd_ne _ _ ex]
        · exact (hc.approve g0 hs).transferFrom g1 g2
  case permitAndStake s p f v =>
    obtain ⟨n, h⟩ := drop_ok.mp h
    obtain ⟨hreg, t0, t1, t2, g0, g1, g2, he⟩ := permitAndStake_ok h
    have hstake : ∀ P', World.prove { w with prove := t2 } |>.Covers a B P' → w'.prove.Covers a B P' := by
      obtain ⟨_, _, _, _, _, _, _, _, _, _, _, _, _, _, _, _, _, h1, h2, _, _, _, _, _, rfl⟩ := he
      exact fun P' hc => hc.transferFrom h1 h2
    apply hstake
    simp only [Call.letsGo]
    split
    · rename_i e
      obtain ⟨rfl, e⟩ := e
      rcases g0 with ⟨_, rfl⟩ | ⟨rfl, g0⟩
      · exact (hc.transferFrom g1 g2).mono (Nat.le_add_right _ _)
      · exact (hc.approve_self g0).transferFrom g1 g2
    · rename_i e
      rcases g0 with ⟨_, rfl⟩ | ⟨rfl, g0⟩
      · exact hc.transferFrom g1 g2
      · by_cases hs : s = a
        · have ha : _ = _ := Decidable.not_not.mp fun g => e ⟨hs, g⟩
          refine Erc20.Covers.transferFrom (t := t0) ?_ g1 g2
          obtain ⟨_, _, rfl⟩ := Erc20.approve_ok g0
          refine hc.keep ?_ (Nat.le_refl _)
          dsimp only
          rw [← ha, hs, upd_same]
          funext x
          by_cases ex : x = p
          · rw [ex, upd_same]
          · rw [upd_ne _ _ ex]
        · exact (hc.approve g0 hs).transferFrom g1 g2
  case createProver f =>
    simp only [exec, drop_ok] at h
    obtain ⟨_, h⟩ := h
    obtain ⟨_, _, _, _, _, _, _, _, _, _, _, rfl⟩ := createProver_ok h
    exact hc
  all_goals
    refine (?_ : Within (fun w w' => w.prove.Covers a B P → w'.prove.Covers a B P) _) _ _ _ h hc
    clear h hc
    unfold exec
    pwithin
  case stTransferFrom | stApprove => exact Within.modify fun w h => h

end Verif
