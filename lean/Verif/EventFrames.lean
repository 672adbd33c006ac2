import Verif.EventProofs
/-
# Code that changes nothing a reader of the log records
-/

namespace Verif
open L1 LM

/-- Nothing in the reader's record changes. -/
def SameSeen (w w' : World) : Prop := w'.seen = w.seen

theorem SameSeen.pre : Pre SameSeen where
  refl _ := rfl
  trans _ _ _ h1 h2 := h2.trans h1

/-- Code that changes nothing in the reader's record. -/
def Silent {α : Type} (m : L1 α) : Prop := Within SameSeen m

namespace Silent
variable {α β : Type}
theorem pure (a : α) : Silent (pure a : L1 α) := fun w _ w' h => by rw [(pure_ok.mp h).2]; rfl
theorem get : Silent L1.get := fun w _ w' h => by rw [(get_ok.mp h).2]; rfl
theorem require (c : Prop) [Decidable c] (e : L1Err) : Silent (L1.require c e) := fun w _ w' h => by rw [(require_ok.mp h).2]; rfl
theorem lift (x : Except L1Err α) : Silent (L1.lift x) := fun w _ w' h => by rw [(lift_ok.mp h).2]; rfl
theorem liftO (x : Option α) (e : L1Err) : Silent (L1.liftO x e) := fun w _ w' h => by rw [(liftO_ok.mp h).2]; rfl
theorem throw (e : L1Err) : Silent (L1.throw e : L1 α) := fun _ _ _ h => (throw_ok.mp h).elim
theorem bind {m : L1 α} {f : α → L1 β} (hm : Silent m) (hf : ∀ a, Silent (f a)) : Silent (m >>= f) :=
  Within.bind SameSeen.pre hm hf
theorem ite {c : Prop} [Decidable c] {m n : L1 α} (h1 : Silent m) (h2 : Silent n) : Silent (if c then m else n) := by
  split <;> assumption
theorem drop {m : L1 α} (hm : Silent m) : Silent (drop_ m) := by
  intro w u w' h
  obtain ⟨a, h⟩ := drop_ok.mp h
  exact hm _ _ _ h
end Silent

theorem onProve_q (f) : Silent (onProve f) := by
  intro w _ w' h
  obtain ⟨t, _, rfl⟩ := onProve_ok.mp h
  rfl
theorem onIprove_q (f) : Silent (onIprove f) := by
  intro w _ w' h
  obtain ⟨t, _, rfl⟩ := onIprove_ok.mp h
  rfl
theorem onVault_q (p f) : Silent (onVault p f) := by
  intro w _ w' h
  obtain ⟨t, _, rfl⟩ := onVault_ok.mp h
  rfl

/-- One decomposition step of `Silent m`. -/
syntax "q_step" : tactic
macro_rules | `(tactic| q_step) => `(tactic| first
  | with_reducible apply Silent.pure
  | with_reducible apply Silent.get
  | with_reducible apply Silent.require
  | with_reducible apply Silent.lift
  | with_reducible apply Silent.liftO
  | with_reducible apply Silent.throw
  | with_reducible apply Silent.bind
  | with_reducible apply Silent.ite
  | with_reducible apply Silent.drop
  | with_reducible apply onProve_q | with_reducible apply onIprove_q | with_reducible apply onVault_q
  | with_reducible intro _)
/-- Decompose `Silent m` along the program. -/
macro "q" : tactic => `(tactic| repeat' q_step)

theorem add256_q (x y) : Silent (add256 x y) := by
  unfold add256; q
macro_rules | `(tactic| q_step) => `(tactic| with_reducible apply add256_q)
theorem sub256_q (x y) : Silent (sub256 x y) := by
  unfold sub256; q
macro_rules | `(tactic| q_step) => `(tactic| with_reducible apply sub256_q)
theorem mul256_q (x y) : Silent (mul256 x y) := by
  unfold mul256; q
macro_rules | `(tactic| q_step) => `(tactic| with_reducible apply mul256_q)
theorem mulDiv_q (x y d) : Silent (mulDiv x y d) := by
  unfold mulDiv; q
macro_rules | `(tactic| q_step) => `(tactic| with_reducible apply mulDiv_q)
theorem mulDivUp_q (x y d) : Silent (mulDivUp x y d) := by
  unfold mulDivUp; q
macro_rules | `(tactic| q_step) => `(tactic| with_reducible apply mulDivUp_q)
theorem inc64_q (x) : Silent (inc64 x) := by
  unfold inc64; q
macro_rules | `(tactic| q_step) => `(tactic| with_reducible apply inc64_q)
theorem proveTransfer_q (f t v) : Silent (proveTransfer f t v) := by
  unfold proveTransfer; q
macro_rules | `(tactic| q_step) => `(tactic| with_reducible apply proveTransfer_q)
theorem proveTransferFrom_q (s f t v) : Silent (proveTransferFrom s f t v) := by
  unfold proveTransferFrom; q
macro_rules | `(tactic| q_step) => `(tactic| with_reducible apply proveTransferFrom_q)
theorem iproveCheck_q (cfg s f t) : Silent (iproveCheck cfg s f t) := by
  unfold iproveCheck; q
macro_rules | `(tactic| q_step) => `(tactic| with_reducible apply iproveCheck_q)
theorem iproveMint_q (cfg s t v) : Silent (iproveMint cfg s t v) := by
  unfold iproveMint; q
macro_rules | `(tactic| q_step) => `(tactic| with_reducible apply iproveMint_q)
theorem iproveBurnShares_q (cfg s f v) : Silent (iproveBurnShares cfg s f v) := by
  unfold iproveBurnShares; q
macro_rules | `(tactic| q_step) => `(tactic| with_reducible apply iproveBurnShares_q)
theorem iproveMove_q (cfg s f t v) : Silent (iproveMove cfg s f t v) := by
  unfold iproveMove; q
macro_rules | `(tactic| q_step) => `(tactic| with_reducible apply iproveMove_q)
theorem iproveSpend_q (cfg o s v) : Silent (iproveSpend cfg o s v) := by
  unfold iproveSpend; q
macro_rules | `(tactic| q_step) => `(tactic| with_reducible apply iproveSpend_q)
theorem iprovePreviewRedeem_q (cfg s) : Silent (iprovePreviewRedeem cfg s) := by
  unfold iprovePreviewRedeem; q
macro_rules | `(tactic| q_step) => `(tactic| with_reducible apply iprovePreviewRedeem_q)
theorem iprovePreviewDeposit_q (cfg s) : Silent (iprovePreviewDeposit cfg s) := by
  unfold iprovePreviewDeposit; q
macro_rules | `(tactic| q_step) => `(tactic| with_reducible apply iprovePreviewDeposit_q)
theorem iproveDeposit_q (cfg s a r) : Silent (iproveDeposit cfg s a r) := by
  unfold iproveDeposit; q
macro_rules | `(tactic| q_step) => `(tactic| with_reducible apply iproveDeposit_q)
theorem iproveMintExact_q (cfg s a r) : Silent (iproveMintExact cfg s a r) := by
  unfold iproveMintExact; q
macro_rules | `(tactic| q_step) => `(tactic| with_reducible apply iproveMintExact_q)
theorem iproveRedeem_q (cfg s a r o) : Silent (iproveRedeem cfg s a r o) := by
  unfold iproveRedeem; q
macro_rules | `(tactic| q_step) => `(tactic| with_reducible apply iproveRedeem_q)
theorem iproveBurn_q (cfg s f v) : Silent (iproveBurn cfg s f v) := by
  unfold iproveBurn; q
macro_rules | `(tactic| q_step) => `(tactic| with_reducible apply iproveBurn_q)
theorem vaultCheck_q (cfg s) : Silent (vaultCheck cfg s) := by
  unfold vaultCheck; q
macro_rules | `(tactic| q_step) => `(tactic| with_reducible apply vaultCheck_q)
theorem vaultSpend_q (cfg p o s v) : Silent (vaultSpend cfg p o s v) := by
  unfold vaultSpend; q
macro_rules | `(tactic| q_step) => `(tactic| with_reducible apply vaultSpend_q)
theorem vaultDeposit_q (cfg s p a r) : Silent (vaultDeposit cfg s p a r) := by
  unfold vaultDeposit; q
macro_rules | `(tactic| q_step) => `(tactic| with_reducible apply vaultDeposit_q)
theorem vaultRedeem_q (cfg s p a r o) : Silent (vaultRedeem cfg s p a r o) := by
  unfold vaultRedeem; q
macro_rules | `(tactic| q_step) => `(tactic| with_reducible apply vaultRedeem_q)
theorem transferProveToStaking_q (cfg s p f v) : Silent (transferProveToStaking cfg s p f v) := by
  unfold transferProveToStaking; q
macro_rules | `(tactic| q_step) => `(tactic| with_reducible apply transferProveToStaking_q)
theorem iproveWithdraw_q (cfg s a r o) : Silent (iproveWithdraw cfg s a r o) := by
  unfold iproveWithdraw; q
macro_rules | `(tactic| q_step) => `(tactic| with_reducible apply iproveWithdraw_q)
theorem vaultMintExact_q (cfg s p a r) : Silent (vaultMintExact cfg s p a r) := by
  unfold vaultMintExact; q
macro_rules | `(tactic| q_step) => `(tactic| with_reducible apply vaultMintExact_q)
theorem vaultWithdraw_q (cfg s p a r o) : Silent (vaultWithdraw cfg s p a r o) := by
  unfold vaultWithdraw; q
macro_rules | `(tactic| q_step) => `(tactic| with_reducible apply vaultWithdraw_q)
theorem isVault_q (p) : Silent (isVault p) := by
  unfold isVault; q
macro_rules | `(tactic| q_step) => `(tactic| with_reducible apply isVault_q)
theorem provePermit_q (s o p v) : Silent (provePermit s o p v) := by
  unfold provePermit; q
macro_rules | `(tactic| q_step) => `(tactic| with_reducible apply provePermit_q)
theorem whenNotPaused_q : Silent (whenNotPaused) := by
  unfold whenNotPaused; q
macro_rules | `(tactic| q_step) => `(tactic| with_reducible apply whenNotPaused_q)
theorem onlyForProver_q (p) : Silent (onlyForProver p) := by
  unfold onlyForProver; q
macro_rules | `(tactic| q_step) => `(tactic| with_reducible apply onlyForProver_q)
theorem requireNoSlash_q (p) : Silent (requireNoSlash p) := by
  unfold requireNoSlash; q
macro_rules | `(tactic| q_step) => `(tactic| with_reducible apply requireNoSlash_q)
theorem maxDispense_q (c) : Silent (maxDispense c) := by
  unfold maxDispense; q
macro_rules | `(tactic| q_step) => `(tactic| with_reducible apply maxDispense_q)
theorem stakingOnlyOwner_q (c) : Silent (stakingOnlyOwner c) := by
  unfold stakingOnlyOwner; q
macro_rules | `(tactic| q_step) => `(tactic| with_reducible apply stakingOnlyOwner_q)
theorem vappOnlyOwner_q (c) : Silent (vappOnlyOwner c) := by
  unfold vappOnlyOwner; q
macro_rules | `(tactic| q_step) => `(tactic| with_reducible apply vappOnlyOwner_q)
theorem requireFinal_q (r) : Silent (requireFinal r) := by
  unfold requireFinal; q
macro_rules | `(tactic| q_step) => `(tactic| with_reducible apply requireFinal_q)
theorem processWithdraw_q (cfg c t a) : Silent (processWithdraw cfg c t a) := by
  unfold processWithdraw; q
macro_rules | `(tactic| q_step) => `(tactic| with_reducible apply processWithdraw_q)

end Verif
