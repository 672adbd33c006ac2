import Verif.L1Fields
import Verif.Votes
/-
# Every call changes the $iPROVE balances by moves

The frame lemmas of `L1Lemmas`, for relations that restrict changes of the $iPROVE token to transfers, mints within the
supply cap, burns and spent allowances, and allow any change of the other tokens.
-/

namespace Verif
open L1

/-- A transfer, burn or spent allowance. -/
inductive Erc20.MStep (t t' : Erc20) : Prop where
  | transfer (f to : Address) (v : Nat) (h : t.transfer f to v = .ok t')
  | burn (f : Address) (v : Nat) (h : t.burn f v = .ok t')
  | spend (o s : Address) (v : Nat) (h : t.spend o s v = .ok t')

/-- A preorder that allows changes of token balances, for $iPROVE no mint above the supply cap. -/
structure MTok (R : World → World → Prop) : Prop extends Pre R where
  prove : ∀ w t, R w { w with prove := t }
  iprove : ∀ w t, w.iprove.MStep t → R w { w with iprove := t }
  mint : ∀ w t a v, w.iprove.mint a v = .ok t → t.supply ≤ 2 ^ 208 - 1 → R w { w with iprove := t }
  vault : ∀ w t, R w { w with vault := t }
  st : ∀ w t, R w { w with st := t }

namespace MFrame

/-- One decomposition step of `Within R m`. -/
syntax "mwithin_step" : tactic
macro_rules | `(tactic| mwithin_step) => `(tactic| first
  | with_reducible assumption
  | with_reducible apply Within.pure
  | with_reducible apply Within.get
  | with_reducible apply Within.require
  | with_reducible apply Within.lift
  | with_reducible apply Within.liftO
  | with_reducible apply Within.throw
  | with_reducible apply Within.bind
  | with_reducible apply Within.ite
  | with_reducible intro _)
/-- Decompose `Within R m` along the program. -/
macro "mwithin" : tactic => `(tactic| repeat' mwithin_step)

theorem add256_within {R} (hR : Pre R) (x y : Nat) : Within R (add256 x y) := by unfold add256; mwithin
theorem sub256_within {R} (hR : Pre R) (x y : Nat) : Within R (sub256 x y) := by unfold sub256; mwithin
theorem mul256_within {R} (hR : Pre R) (x y : Nat) : Within R (mul256 x y) := by unfold mul256; mwithin
theorem mulDiv_within {R} (hR : Pre R) (x y d : Nat) : Within R (mulDiv x y d) := by unfold mulDiv; mwithin
theorem mulDivUp_within {R} (hR : Pre R) (x y d : Nat) : Within R (mulDivUp x y d) := by unfold mulDivUp; mwithin
theorem inc64_within {R} (hR : Pre R) (x : U64) : Within R (inc64 x) := by unfold inc64; mwithin
theorem drop_within {R} (hR : Pre R) {α : Type} {m : L1 α} (h : Within R m) : Within R (drop_ m) := by
  unfold drop_; mwithin
theorem onProve_within {R} (hR : MTok R) (f) : Within R (onProve f) := by
  intro w a w' h
  obtain ⟨t, _, rfl⟩ := onProve_ok.mp h
  exact hR.prove w t
theorem onIprove_within {R} (hR : MTok R) (f) (hf : ∀ t t' : Erc20, f t = .ok t' → t.MStep t') : Within R (onIprove f) := by
  intro w a w' h
  obtain ⟨t, h1, rfl⟩ := onIprove_ok.mp h
  exact hR.iprove w t (hf _ _ h1)
theorem onVault_within {R} (hR : MTok R) (p f) : Within R (onVault p f) := by
  intro w a w' h
  obtain ⟨t, _, rfl⟩ := onVault_ok.mp h
  exact hR.vault w _
theorem onSt_within {R} (hR : MTok R) (b f) : Within R (onSt b f) := by
  intro w a w' h
  obtain ⟨_, t, _, rfl⟩ := onSt_ok.mp h
  exact hR.st w t

macro_rules | `(tactic| mwithin_step) => `(tactic| first
  | with_reducible exact MTok.toPre ‹_›
  | with_reducible apply add256_within | with_reducible apply sub256_within | with_reducible apply mul256_within | with_reducible apply mulDiv_within
  | with_reducible apply mulDivUp_within | with_reducible apply inc64_within | with_reducible apply drop_within
  | with_reducible exact fun _ _ h => Erc20.MStep.transfer _ _ _ h
  | with_reducible exact fun _ _ h => Erc20.MStep.burn _ _ h | with_reducible exact fun _ _ h => Erc20.MStep.spend _ _ _ h
  | with_reducible apply onProve_within | with_reducible apply onIprove_within | with_reducible apply onVault_within | with_reducible apply onSt_within)

theorem proveTransfer_within {R} (hR : MTok R) (f t v) : Within R (proveTransfer f t v) := by
  unfold proveTransfer; mwithin
macro_rules | `(tactic| mwithin_step) => `(tactic| with_reducible apply proveTransfer_within)
theorem proveTransferFrom_within {R} (hR : MTok R) (s f t v) : Within R (proveTransferFrom s f t v) := by
  unfold proveTransferFrom; mwithin
macro_rules | `(tactic| mwithin_step) => `(tactic| with_reducible apply proveTransferFrom_within)
theorem iproveCheck_within {R} (hR : MTok R) (cfg s f t) : Within R (iproveCheck cfg s f t) := by
  unfold iproveCheck; mwithin
macro_rules | `(tactic| mwithin_step) => `(tactic| with_reducible apply iproveCheck_within)
theorem iproveMint_within {R} (hR : MTok R) (cfg s t v) : Within R (iproveMint cfg s t v) := by
  intro w a w' h
  obtain ⟨_, t1, h1, h2, rfl⟩ := iproveMint_ok h
  exact hR.mint w t1 t v h1 h2
macro_rules | `(tactic| mwithin_step) => `(tactic| with_reducible apply iproveMint_within)
theorem iproveBurnShares_within {R} (hR : MTok R) (cfg s f v) : Within R (iproveBurnShares cfg s f v) := by
  unfold iproveBurnShares; mwithin
macro_rules | `(tactic| mwithin_step) => `(tactic| with_reducible apply iproveBurnShares_within)
theorem iproveMove_within {R} (hR : MTok R) (cfg s f t v) : Within R (iproveMove cfg s f t v) := by
  unfold iproveMove; mwithin
macro_rules | `(tactic| mwithin_step) => `(tactic| with_reducible apply iproveMove_within)
theorem iproveSpend_within {R} (hR : MTok R) (cfg o s v) : Within R (iproveSpend cfg o s v) := by
  unfold iproveSpend; mwithin
macro_rules | `(tactic| mwithin_step) => `(tactic| with_reducible apply iproveSpend_within)
theorem iprovePreviewRedeem_within {R} (hR : MTok R) (cfg s) : Within R (iprovePreviewRedeem cfg s) := by
  unfold iprovePreviewRedeem; mwithin
macro_rules | `(tactic| mwithin_step) => `(tactic| with_reducible apply iprovePreviewRedeem_within)
theorem iprovePreviewDeposit_within {R} (hR : MTok R) (cfg s) : Within R (iprovePreviewDeposit cfg s) := by
  unfold iprovePreviewDeposit; mwithin
macro_rules | `(tactic| mwithin_step) => `(tactic| with_reducible apply iprovePreviewDeposit_within)
theorem iproveDeposit_within {R} (hR : MTok R) (cfg s a r) : Within R (iproveDeposit cfg s a r) := by
  unfold iproveDeposit; mwithin
macro_rules | `(tactic| mwithin_step) => `(tactic| with_reducible apply iproveDeposit_within)
theorem iproveMintExact_within {R} (hR : MTok R) (cfg s a r) : Within R (iproveMintExact cfg s a r) := by
  unfold iproveMintExact; mwithin
macro_rules | `(tactic| mwithin_step) => `(tactic| with_reducible apply iproveMintExact_within)
theorem iproveRedeem_within {R} (hR : MTok R) (cfg s a r o) : Within R (iproveRedeem cfg s a r o) := by
  unfold iproveRedeem; mwithin
macro_rules | `(tactic| mwithin_step) => `(tactic| with_reducible apply iproveRedeem_within)
theorem iproveBurn_within {R} (hR : MTok R) (cfg s f v) : Within R (iproveBurn cfg s f v) := by
  unfold iproveBurn; mwithin
macro_rules | `(tactic| mwithin_step) => `(tactic| with_reducible apply iproveBurn_within)
theorem vaultCheck_within {R} (hR : MTok R) (cfg s) : Within R (vaultCheck cfg s) := by
  unfold vaultCheck; mwithin
macro_rules | `(tactic| mwithin_step) => `(tactic| with_reducible apply vaultCheck_within)
theorem vaultSpend_within {R} (hR : MTok R) (cfg p o s v) : Within R (vaultSpend cfg p o s v) := by
  unfold vaultSpend; mwithin
macro_rules | `(tactic| mwithin_step) => `(tactic| with_reducible apply vaultSpend_within)
theorem vaultDeposit_within {R} (hR : MTok R) (cfg s p a r) : Within R (vaultDeposit cfg s p a r) := by
  unfold vaultDeposit; mwithin
macro_rules | `(tactic| mwithin_step) => `(tactic| with_reducible apply vaultDeposit_within)
theorem vaultRedeem_within {R} (hR : MTok R) (cfg s p a r o) : Within R (vaultRedeem cfg s p a r o) := by
  unfold vaultRedeem; mwithin
macro_rules | `(tactic| mwithin_step) => `(tactic| with_reducible apply vaultRedeem_within)
theorem transferProveToStaking_within {R} (hR : MTok R) (cfg s p f v) : Within R (transferProveToStaking cfg s p f v) := by
  unfold transferProveToStaking; mwithin
macro_rules | `(tactic| mwithin_step) => `(tactic| with_reducible apply transferProveToStaking_within)
theorem iproveWithdraw_within {R} (hR : MTok R) (cfg s a r o) : Within R (iproveWithdraw cfg s a r o) := by
  unfold iproveWithdraw; mwithin
macro_rules | `(tactic| mwithin_step) => `(tactic| with_reducible apply iproveWithdraw_within)
theorem vaultMintExact_within {R} (hR : MTok R) (cfg s p a r) : Within R (vaultMintExact cfg s p a r) := by
  unfold vaultMintExact; mwithin
macro_rules | `(tactic| mwithin_step) => `(tactic| with_reducible apply vaultMintExact_within)
theorem vaultWithdraw_within {R} (hR : MTok R) (cfg s p a r o) : Within R (vaultWithdraw cfg s p a r o) := by
  unfold vaultWithdraw; mwithin
macro_rules | `(tactic| mwithin_step) => `(tactic| with_reducible apply vaultWithdraw_within)
theorem isVault_within {R} (hR : MTok R) (p) : Within R (isVault p) := by
  unfold isVault; mwithin
macro_rules | `(tactic| mwithin_step) => `(tactic| with_reducible apply isVault_within)
theorem provePermit_within {R} (hR : MTok R) (s o p v) : Within R (provePermit s o p v) := by
  unfold provePermit; mwithin
macro_rules | `(tactic| mwithin_step) => `(tactic| with_reducible apply provePermit_within)
theorem whenNotPaused_within {R} (hR : MTok R) : Within R (whenNotPaused ) := by
  unfold whenNotPaused; mwithin
macro_rules | `(tactic| mwithin_step) => `(tactic| with_reducible apply whenNotPaused_within)
theorem onlyForProver_within {R} (hR : MTok R) (p) : Within R (onlyForProver p) := by
  unfold onlyForProver; mwithin
macro_rules | `(tactic| mwithin_step) => `(tactic| with_reducible apply onlyForProver_within)
theorem requireNoSlash_within {R} (hR : MTok R) (p) : Within R (requireNoSlash p) := by
  unfold requireNoSlash; mwithin
macro_rules | `(tactic| mwithin_step) => `(tactic| with_reducible apply requireNoSlash_within)
theorem maxDispense_within {R} (hR : MTok R) (c) : Within R (maxDispense c) := by
  unfold maxDispense; mwithin
macro_rules | `(tactic| mwithin_step) => `(tactic| with_reducible apply maxDispense_within)
theorem stakingOnlyOwner_within {R} (hR : MTok R) (c) : Within R (stakingOnlyOwner c) := by
  unfold stakingOnlyOwner; mwithin
macro_rules | `(tactic| mwithin_step) => `(tactic| with_reducible apply stakingOnlyOwner_within)
theorem vappOnlyOwner_within {R} (hR : MTok R) (c) : Within R (vappOnlyOwner c) := by
  unfold vappOnlyOwner; mwithin
macro_rules | `(tactic| mwithin_step) => `(tactic| with_reducible apply vappOnlyOwner_within)
theorem escrowUnstakeRequest_within {R} (hR : MTok R) (cfg s p v) : Within R (escrowUnstakeRequest cfg s p v) := by
  unfold escrowUnstakeRequest; mwithin
macro_rules | `(tactic| mwithin_step) => `(tactic| with_reducible apply escrowUnstakeRequest_within)
theorem requireFinal_within {R} (hR : MTok R) (r) : Within R (requireFinal r) := by
  unfold requireFinal; mwithin
macro_rules | `(tactic| mwithin_step) => `(tactic| with_reducible apply requireFinal_within)

theorem modVapp_within {R} (hv : AllowVapp R) (f) : Within R (modVapp f) := Within.modify fun w => hv w _
theorem modStaking_within {R} (hs : AllowStaking R) (f) : Within R (modStaking f) := Within.modify fun w => hs w _
macro_rules | `(tactic| mwithin_step) => `(tactic| first | with_reducible apply modVapp_within | with_reducible apply modStaking_within)

theorem assertEq_within {R} (hR : MTok R) (t r) : Within R (assertEq t r) := by
  unfold assertEq; split <;> mwithin
macro_rules | `(tactic| mwithin_step) => `(tactic| with_reducible apply assertEq_within)
theorem createTransaction_within {R} (hR : MTok R) (hv : AllowVapp R) (v d) : Within R (createTransaction v d) := by
  unfold createTransaction; mwithin
macro_rules | `(tactic| mwithin_step) => `(tactic| with_reducible apply createTransaction_within)
theorem vappDepositFrom_within {R} (hR : MTok R) (hv : AllowVapp R) (cfg f v) : Within R (vappDepositFrom cfg f v) := by
  unfold vappDepositFrom; mwithin
macro_rules | `(tactic| mwithin_step) => `(tactic| with_reducible apply vappDepositFrom_within)
theorem vappDeposit_within {R} (hR : MTok R) (hv : AllowVapp R) (cfg c v) : Within R (vappDeposit cfg c v) := by
  unfold vappDeposit; mwithin
macro_rules | `(tactic| mwithin_step) => `(tactic| with_reducible apply vappDeposit_within)
theorem vappPermitAndDeposit_within {R} (hR : MTok R) (hv : AllowVapp R) (cfg s f v) : Within R (vappPermitAndDeposit cfg s f v) := by
  unfold vappPermitAndDeposit; mwithin
macro_rules | `(tactic| mwithin_step) => `(tactic| with_reducible apply vappPermitAndDeposit_within)
theorem vappCreateProver_within {R} (hR : MTok R) (hv : AllowVapp R) (c s p o f) : Within R (vappCreateProver c s p o f) := by
  unfold vappCreateProver; mwithin
macro_rules | `(tactic| mwithin_step) => `(tactic| with_reducible apply vappCreateProver_within)
theorem processWithdraw_within {R} (hR : MTok R) (cfg c t a) : Within R (processWithdraw cfg c t a) := by
  unfold processWithdraw; mwithin
macro_rules | `(tactic| mwithin_step) => `(tactic| with_reducible apply processWithdraw_within)
theorem handleOnchain_within {R} (hR : MTok R) (hv : AllowVapp R) (r) : Within R (handleOnchain r) := by
  unfold handleOnchain; mwithin
macro_rules | `(tactic| mwithin_step) => `(tactic| with_reducible apply handleOnchain_within)
theorem handleOffchain_within {R} (hR : MTok R) (cfg c r) : Within R (handleOffchain cfg c r) := by
  unfold handleOffchain; mwithin
macro_rules | `(tactic| mwithin_step) => `(tactic| with_reducible apply handleOffchain_within)
theorem handleReceipts_within {R} (hR : MTok R) (hv : AllowVapp R) (cfg c rs) :
    Within R (handleReceipts cfg c rs) := by
  induction rs with
  | nil => unfold handleReceipts; mwithin
  | cons r rs ih => unfold handleReceipts; mwithin
macro_rules | `(tactic| mwithin_step) => `(tactic| with_reducible apply handleReceipts_within)
theorem vappStep_within {R} (hR : MTok R) (hv : AllowVapp R) (cfg c pv pr) : Within R (vappStep cfg c pv pr) := by
  unfold vappStep; mwithin
macro_rules | `(tactic| mwithin_step) => `(tactic| with_reducible apply vappStep_within)
theorem vappFork_within {R} (hR : MTok R) (hv : AllowVapp R) (c k r) : Within R (vappFork c k r) := by
  unfold vappFork; mwithin
macro_rules | `(tactic| mwithin_step) => `(tactic| with_reducible apply vappFork_within)
theorem vappUpdateAuctioneer_within {R} (hR : MTok R) (hv : AllowVapp R) (c a) : Within R (vappUpdateAuctioneer c a) := by
  unfold vappUpdateAuctioneer; mwithin
macro_rules | `(tactic| mwithin_step) => `(tactic| with_reducible apply vappUpdateAuctioneer_within)
theorem vappUpdateStaking_within {R} (hR : MTok R) (hv : AllowVapp R) (c a) : Within R (vappUpdateStaking c a) := by
  unfold vappUpdateStaking; mwithin
macro_rules | `(tactic| mwithin_step) => `(tactic| with_reducible apply vappUpdateStaking_within)
theorem vappUpdateVerifier_within {R} (hR : MTok R) (hv : AllowVapp R) (c a) : Within R (vappUpdateVerifier c a) := by
  unfold vappUpdateVerifier; mwithin
macro_rules | `(tactic| mwithin_step) => `(tactic| with_reducible apply vappUpdateVerifier_within)
theorem vappUpdateMinDeposit_within {R} (hR : MTok R) (hv : AllowVapp R) (c v) : Within R (vappUpdateMinDeposit c v) := by
  unfold vappUpdateMinDeposit; mwithin
macro_rules | `(tactic| mwithin_step) => `(tactic| with_reducible apply vappUpdateMinDeposit_within)
theorem vappPause_within {R} (hR : MTok R) (hv : AllowVapp R) (c) : Within R (vappPause c) := by
  unfold vappPause; mwithin
macro_rules | `(tactic| mwithin_step) => `(tactic| with_reducible apply vappPause_within)
theorem vappUnpause_within {R} (hR : MTok R) (hv : AllowVapp R) (c) : Within R (vappUnpause c) := by
  unfold vappUnpause; mwithin
macro_rules | `(tactic| mwithin_step) => `(tactic| with_reducible apply vappUnpause_within)
theorem vappSetOwner_within {R} (hR : MTok R) (hv : AllowVapp R) (c a) : Within R (vappSetOwner c a) := by
  unfold vappSetOwner; mwithin
macro_rules | `(tactic| mwithin_step) => `(tactic| with_reducible apply vappSetOwner_within)
theorem deactivateIfBelowMin_within {R} (hR : MTok R) (hs : AllowStaking R) (p) : Within R (deactivateIfBelowMin p) := by
  unfold deactivateIfBelowMin; mwithin
macro_rules | `(tactic| mwithin_step) => `(tactic| with_reducible apply deactivateIfBelowMin_within)
theorem stakeFor_within {R} (hR : MTok R) (hs : AllowStaking R) (cfg s p a) : Within R (stakeFor cfg s p a) := by
  unfold stakeFor; mwithin
macro_rules | `(tactic| mwithin_step) => `(tactic| with_reducible apply stakeFor_within)
theorem stake_within {R} (hR : MTok R) (hs : AllowStaking R) (cfg c p a) : Within R (stake cfg c p a) := by
  unfold stake; mwithin
macro_rules | `(tactic| mwithin_step) => `(tactic| with_reducible apply stake_within)
theorem permitAndStake_within {R} (hR : MTok R) (hs : AllowStaking R) (cfg s p f a) : Within R (permitAndStake cfg s p f a) := by
  unfold permitAndStake; mwithin
macro_rules | `(tactic| mwithin_step) => `(tactic| with_reducible apply permitAndStake_within)
theorem requestUnstake_within {R} (hR : MTok R) (hs : AllowStaking R) (cfg c v) : Within R (requestUnstake cfg c v) := by
  unfold requestUnstake; mwithin
macro_rules | `(tactic| mwithin_step) => `(tactic| with_reducible apply requestUnstake_within)
theorem finishUnstakeRequest_within {R} (hR : MTok R) (hs : AllowStaking R) (cfg s p k) : Within R (finishUnstakeRequest cfg s p k) := by
  unfold finishUnstakeRequest; mwithin
macro_rules | `(tactic| mwithin_step) => `(tactic| with_reducible apply finishUnstakeRequest_within)
theorem finishLoop_within {R} (hR : MTok R) (hs : AllowStaking R) (cfg c s p fuel) :
    ∀ i paid, Within R (finishLoop cfg c s p fuel i paid) := by
  induction fuel with
  | zero => intro i paid; unfold finishLoop; mwithin
  | succ n ih =>
    intro i paid; unfold finishLoop
    apply Within.bind hR.toPre (Within.get hR.toPre)
    intro w
    split
    · mwithin
    · mwithin
      · exact ih _ _
      · exact ih _ _
macro_rules | `(tactic| mwithin_step) => `(tactic| with_reducible apply finishLoop_within)
theorem finishUnstake_within {R} (hR : MTok R) (hs : AllowStaking R) (cfg c s) : Within R (finishUnstake cfg c s) := by
  unfold finishUnstake; mwithin
macro_rules | `(tactic| mwithin_step) => `(tactic| with_reducible apply finishUnstake_within)
theorem requestSlash_within {R} (hR : MTok R) (hs : AllowStaking R) (cfg c p v) : Within R (requestSlash cfg c p v) := by
  unfold requestSlash; mwithin
macro_rules | `(tactic| mwithin_step) => `(tactic| with_reducible apply requestSlash_within)
theorem resolveSlash_within {R} (hs : AllowStaking R) (p i k) : Within R (resolveSlash p i k) := by
  unfold resolveSlash; mwithin
macro_rules | `(tactic| mwithin_step) => `(tactic| with_reducible apply resolveSlash_within)
theorem cancelSlash_within {R} (hR : MTok R) (hs : AllowStaking R) (c p i) : Within R (cancelSlash c p i) := by
  unfold cancelSlash; mwithin
macro_rules | `(tactic| mwithin_step) => `(tactic| with_reducible apply cancelSlash_within)
theorem slashBurn_within {R} (hR : MTok R) (hs : AllowStaking R) (cfg p t x) : Within R (slashBurn cfg p t x) := by
  unfold slashBurn; mwithin
macro_rules | `(tactic| mwithin_step) => `(tactic| with_reducible apply slashBurn_within)
theorem finishSlash_within {R} (hR : MTok R) (hs : AllowStaking R) (cfg c p i) : Within R (finishSlash cfg c p i) := by
  unfold finishSlash; mwithin
macro_rules | `(tactic| mwithin_step) => `(tactic| with_reducible apply finishSlash_within)
theorem dispense_within {R} (hR : MTok R) (hs : AllowStaking R) (cfg c v) : Within R (dispense cfg c v) := by
  unfold dispense; mwithin
macro_rules | `(tactic| mwithin_step) => `(tactic| with_reducible apply dispense_within)
theorem setDispenser_within {R} (hR : MTok R) (hs : AllowStaking R) (c a) : Within R (setDispenser c a) := by
  unfold setDispenser; mwithin
macro_rules | `(tactic| mwithin_step) => `(tactic| with_reducible apply setDispenser_within)
theorem updateDispenseRate_within {R} (hR : MTok R) (hs : AllowStaking R) (c v) : Within R (updateDispenseRate c v) := by
  unfold updateDispenseRate; mwithin
macro_rules | `(tactic| mwithin_step) => `(tactic| with_reducible apply updateDispenseRate_within)
theorem stakingSetOwner_within {R} (hR : MTok R) (hs : AllowStaking R) (c a) : Within R (stakingSetOwner c a) := by
  unfold stakingSetOwner; mwithin
macro_rules | `(tactic| mwithin_step) => `(tactic| with_reducible apply stakingSetOwner_within)

end MFrame

/-! ## Moves -/

theorem Move.Applies.congr {m : Move} {t t1 t2 : Erc20} (h : m.Applies t t2) (e1 : t.bal = t1.bal)
    (e2 : t.supply = t1.supply) : m.Applies t1 t2 := by
  unfold Move.Applies at h ⊢
  rw [e1, e2] at h
  exact h

theorem Moves.append {ms ms' : List Move} {t t1 t2 : Erc20} (h : Moves ms t t1) (g : Moves ms' t1 t2) :
    Moves (ms ++ ms') t t2 := by
  induction ms generalizing t with
  | nil =>
    obtain ⟨h1, h2⟩ := h
    cases ms' with
    | nil => exact ⟨g.1.trans h1, g.2.trans h2⟩
    | cons m ms' =>
      obtain ⟨t3, a, b⟩ := g
      exact ⟨t3, a.congr h1 h2, b⟩
  | cons m ms ih =>
    obtain ⟨t3, a, b⟩ := h
    exact ⟨t3, a, ih b⟩

/-- The $iPROVE balances change by moves. -/
def ByMoves (w w' : World) : Prop := ∃ ms, Moves ms w.iprove w'.iprove

theorem ByMoves.refl' {w w' : World} (h1 : w'.iprove.bal = w.iprove.bal) (h2 : w'.iprove.supply = w.iprove.supply) :
    ByMoves w w' := ⟨[], h1, h2⟩

theorem ByMoves.tok : MTok ByMoves where
  refl w := .refl' rfl rfl
  trans := by
    rintro a b c ⟨ms, h⟩ ⟨ms', g⟩
    exact ⟨ms ++ ms', h.append g⟩
  prove _ _ := .refl' rfl rfl
  vault _ _ := .refl' rfl rfl
  st _ _ := .refl' rfl rfl
  iprove w t h := by
    cases h with
    | transfer f to v h =>
      obtain ⟨h1, h2, h3, rfl⟩ := Erc20.transfer_ok h
      refine ⟨[⟨f, to, v⟩], _, ?_, rfl, rfl⟩
      unfold Move.Applies
      rw [if_neg h1, if_neg h2]
      exact ⟨h3, rfl, rfl⟩
    | burn f v h =>
      obtain ⟨h1, h2, rfl⟩ := Erc20.burn_ok h
      refine ⟨[⟨f, 0, v⟩], _, ?_, rfl, rfl⟩
      unfold Move.Applies
      rw [if_neg h1, if_pos rfl]
      exact ⟨h2, rfl, rfl⟩
    | spend o s v h =>
      obtain ⟨h1, h2⟩ : t.bal = w.iprove.bal ∧ t.supply = w.iprove.supply := by
        unfold Erc20.spend at h
        split at h
        · rw [← Except.ok.inj h]; exact ⟨rfl, rfl⟩
        · split at h
          · exact nomatch h
          · obtain ⟨_, _, rfl⟩ := Erc20.approve_ok h
            exact ⟨rfl, rfl⟩
      exact .refl' h1 h2
  mint w t a v h hs := by
    obtain ⟨h1, h2, rfl⟩ := Erc20.mint_ok h
    refine ⟨[⟨0, a, v⟩], _, ?_, rfl, rfl⟩
    unfold Move.Applies
    rw [if_pos rfl]
    exact ⟨h1, hs, rfl, rfl⟩

open MFrame in
theorem exec_moves {cfg : Cfg} {c : Ctx} {k : Call} {w w' : World} (h : exec cfg c k w = .ok ((), w')) :
    ByMoves w w' := by
  have hR := ByMoves.tok
  have hv : AllowVapp ByMoves := fun _ _ => .refl' rfl rfl
  have hs : AllowStaking ByMoves := fun _ _ => .refl' rfl rfl
  cases k
  case iproveApprove s v =>
    simp only [exec, onIprove_ok] at h
    obtain ⟨t, h, rfl⟩ := h
    obtain ⟨_, _, rfl⟩ := Erc20.approve_ok h
    exact .refl' rfl rfl
  case iprovePermit s o p v =>
    simp only [exec, bind_ok, require_ok, onIprove_ok] at h
    obtain ⟨_, _, ⟨rfl, rfl⟩, t, h, rfl⟩ := h
    obtain ⟨_, _, rfl⟩ := Erc20.approve_ok h
    exact .refl' rfl rfl
  case createProver f =>
    obtain ⟨p, h⟩ := drop_ok.mp h
    obtain ⟨_, _, _, _, _, _, _, _, _, t, ht, rfl⟩ := createProver_ok h
    obtain ⟨_, _, rfl⟩ := Erc20.approve_ok ht
    exact .refl' rfl rfl
  all_goals
    revert h
    suffices hw : Within ByMoves (exec cfg c _) by exact fun h => hw _ _ _ h
    unfold exec; mwithin
    all_goals exact Within.modify fun _ => .refl' rfl rfl

end Verif
