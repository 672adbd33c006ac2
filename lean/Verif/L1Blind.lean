import Verif.L1Lemmas
import Verif.L1Calls
/-
# Only slash calls look at slash requests

Everything but the three slash calls about a prover does the same whatever the list of slash requests of that prover is
(what the others look at is the number of open ones), and leaves the list as it is. A lemma for each function of the
contracts, used for C119.
-/

namespace Verif
open L1

/-- The world `w` with the list of the slash requests of `p` replaced by `l`. -/
def World.withSlashes (p : Address) (l : List SlashClaim) (w : World) : World :=
  { w with staking := { w.staking with slashClaims := upd w.staking.slashClaims p l } }

/-- The code does the same whatever the list of slash requests of `p` is, and leaves it alone. -/
def Blind (p : Address) (l : List SlashClaim) {α : Type} (m : L1 α) : Prop :=
  ∀ w : World, m (w.withSlashes p l) = (m w).map fun x => (x.1, x.2.withSlashes p l)

section
variable {p : Address} {l : List SlashClaim} {α β : Type}

theorem Blind.pure (a : α) : Blind p l (Pure.pure a : L1 α) := fun _ => rfl
theorem Blind.throw (e : L1Err) : Blind p l (L1.throw e : L1 α) := fun _ => rfl
theorem Blind.require (c : Prop) [Decidable c] (e : L1Err) : Blind p l (L1.require c e) := fun w => by
  unfold L1.require; split <;> rfl
theorem Blind.lift (x : Except L1Err α) : Blind p l (L1.lift x) := fun w => by
  cases x <;> rfl
theorem Blind.liftO (x : Option α) (e : L1Err) : Blind p l (L1.liftO x e) := fun w => by
  cases x <;> rfl
theorem Blind.bind {m : L1 α} {f : α → L1 β} (hm : Blind p l m) (hf : ∀ a, Blind p l (f a)) : Blind p l (m >>= f) := fun w => by
  show L1.bind m f _ = Except.map _ (L1.bind m f w)
  unfold L1.bind
  rw [hm w]
  cases m w with
  | error e => rfl
  | ok x => exact hf x.1 x.2
theorem Blind.get {f : World → L1 β} (h1 : ∀ w, f (w.withSlashes p l) = f w) (hf : ∀ w, Blind p l (f w)) :
    Blind p l (L1.get >>= f) := fun w => by
  show f _ _ = Except.map _ (f w w)
  rw [h1 w]
  exact hf w w
theorem Blind.modify {f : World → World} (h : ∀ w, f (w.withSlashes p l) = (f w).withSlashes p l) :
    Blind p l (L1.modify f) := fun w => by
  show Except.ok _ = Except.ok _
  rw [h w]
theorem Blind.ite {c : Prop} [Decidable c] {m n : L1 α} (hm : Blind p l m) (hn : Blind p l n) :
    Blind p l (if c then m else n) := by
  split <;> assumption
end

/-- One of the functions below. -/
syntax "blindcall" : tactic
macro_rules | `(tactic| blindcall) => `(tactic| fail "no function")

theorem blind_modStaking {p : Address} {l : List SlashClaim} {f : Staking → Staking}
    (h : ∀ s : Staking, f { s with slashClaims := upd s.slashClaims p l } = { f s with slashClaims := upd (f s).slashClaims p l }) :
    Blind p l (modStaking f) :=
  Blind.modify fun w => by
    show World.mk _ _ _ _ _ _ _ _ = World.mk _ _ _ _ _ _ _ _
    congr 1
    exact h w.staking

/-- One step: a primitive, a function shown to be blind before, or a sequence or branch of such. -/
macro "blind1" : tactic => `(tactic| first
  | with_reducible exact Blind.pure _
  | with_reducible exact Blind.throw _
  | with_reducible exact Blind.require _ _
  | with_reducible exact Blind.lift _
  | with_reducible exact Blind.liftO _ _
  | with_reducible assumption
  | with_reducible blindcall
  | ((with_reducible apply Blind.modify); intro _; rfl)
  | ((with_reducible apply blind_modStaking); intro _; rfl)
  | with_reducible apply Blind.ite
  | ((with_reducible refine Blind.get ?_ fun _ => ?_); focus (intro _; rfl))
  | with_reducible refine Blind.bind ?_ fun _ => ?_
  | split)

open Lean in
/-- Unfold a function and take its code apart. -/
macro "blind" "[" fs:ident,* "]" : tactic => do
  let fs := fs.getElems
  `(tactic| (unfold $fs*; try dsimp only
             repeat' blind1))

section
variable {p : Address} {l : List SlashClaim}

theorem blind_modVapp (f : VApp → VApp) : Blind p l (modVapp f) := Blind.modify fun _ => rfl
macro_rules | `(tactic| blindcall) => `(tactic| exact blind_modVapp _)

theorem blind_add256 (x) (y) : Blind p l (add256 x y) := by blind [add256]
macro_rules | `(tactic| blindcall) => `(tactic| exact blind_add256 _ _)
theorem blind_sub256 (x) (y) : Blind p l (sub256 x y) := by blind [sub256]
macro_rules | `(tactic| blindcall) => `(tactic| exact blind_sub256 _ _)
theorem blind_mul256 (x) (y) : Blind p l (mul256 x y) := by blind [mul256]
macro_rules | `(tactic| blindcall) => `(tactic| exact blind_mul256 _ _)
theorem blind_mulDiv (x) (y) (d) : Blind p l (mulDiv x y d) := by blind [mulDiv]
macro_rules | `(tactic| blindcall) => `(tactic| exact blind_mulDiv _ _ _)
theorem blind_mulDivUp (x) (y) (d) : Blind p l (mulDivUp x y d) := by blind [mulDivUp]
macro_rules | `(tactic| blindcall) => `(tactic| exact blind_mulDivUp _ _ _)
theorem blind_inc64 (x) : Blind p l (inc64 x) := by blind [inc64]
macro_rules | `(tactic| blindcall) => `(tactic| exact blind_inc64 _)
theorem blind_onProve (f) : Blind p l (onProve f) := by blind [onProve]
macro_rules | `(tactic| blindcall) => `(tactic| exact blind_onProve _)
theorem blind_proveTransfer (from_) (to) (v) : Blind p l (proveTransfer from_ to v) := by blind [proveTransfer]
macro_rules | `(tactic| blindcall) => `(tactic| exact blind_proveTransfer _ _ _)
theorem blind_proveTransferFrom (spender) (from_) (to) (v) : Blind p l (proveTransferFrom spender from_ to v) := by blind [proveTransferFrom]
macro_rules | `(tactic| blindcall) => `(tactic| exact blind_proveTransferFrom _ _ _ _)
theorem blind_onIprove (f) : Blind p l (onIprove f) := by blind [onIprove]
macro_rules | `(tactic| blindcall) => `(tactic| exact blind_onIprove _)
theorem blind_iproveCheck (cfg) (sender) (from_) (to) : Blind p l (iproveCheck cfg sender from_ to) := by blind [iproveCheck]
macro_rules | `(tactic| blindcall) => `(tactic| exact blind_iproveCheck _ _ _ _)
theorem blind_iproveMint (cfg) (sender) (to) (v) : Blind p l (iproveMint cfg sender to v) := by blind [iproveMint]
macro_rules | `(tactic| blindcall) => `(tactic| exact blind_iproveMint _ _ _ _)
theorem blind_iproveBurnShares (cfg) (sender) (from_) (v) : Blind p l (iproveBurnShares cfg sender from_ v) := by blind [iproveBurnShares]
macro_rules | `(tactic| blindcall) => `(tactic| exact blind_iproveBurnShares _ _ _ _)
theorem blind_iproveMove (cfg) (sender) (from_) (to) (v) : Blind p l (iproveMove cfg sender from_ to v) := by blind [iproveMove]
macro_rules | `(tactic| blindcall) => `(tactic| exact blind_iproveMove _ _ _ _ _)
theorem blind_iproveSpend (cfg) (owner) (spender) (v) : Blind p l (iproveSpend cfg owner spender v) := by blind [iproveSpend]
macro_rules | `(tactic| blindcall) => `(tactic| exact blind_iproveSpend _ _ _ _)
theorem blind_iprovePreviewRedeem (cfg) (shares) : Blind p l (iprovePreviewRedeem cfg shares) := by blind [iprovePreviewRedeem]
macro_rules | `(tactic| blindcall) => `(tactic| exact blind_iprovePreviewRedeem _ _)
theorem blind_iprovePreviewDeposit (cfg) (assets) : Blind p l (iprovePreviewDeposit cfg assets) := by blind [iprovePreviewDeposit]
macro_rules | `(tactic| blindcall) => `(tactic| exact blind_iprovePreviewDeposit _ _)
theorem blind_iproveDeposit (cfg) (sender) (assets) (receiver) : Blind p l (iproveDeposit cfg sender assets receiver) := by blind [iproveDeposit]
macro_rules | `(tactic| blindcall) => `(tactic| exact blind_iproveDeposit _ _ _ _)
theorem blind_iproveMintExact (cfg) (sender) (shares) (receiver) : Blind p l (iproveMintExact cfg sender shares receiver) := by blind [iproveMintExact]
macro_rules | `(tactic| blindcall) => `(tactic| exact blind_iproveMintExact _ _ _ _)
theorem blind_iproveRedeem (cfg) (sender) (shares) (receiver) (owner) : Blind p l (iproveRedeem cfg sender shares receiver owner) := by blind [iproveRedeem]
macro_rules | `(tactic| blindcall) => `(tactic| exact blind_iproveRedeem _ _ _ _ _)
theorem blind_iproveBurn (cfg) (sender) (from_) (v) : Blind p l (iproveBurn cfg sender from_ v) := by blind [iproveBurn]
macro_rules | `(tactic| blindcall) => `(tactic| exact blind_iproveBurn _ _ _ _)
theorem blind_onVault (q_p) (f) : Blind p l (onVault q_p f) := by blind [onVault]
macro_rules | `(tactic| blindcall) => `(tactic| exact blind_onVault _ _)
theorem blind_vaultCheck (cfg) (sender) : Blind p l (vaultCheck cfg sender) := by blind [vaultCheck]
macro_rules | `(tactic| blindcall) => `(tactic| exact blind_vaultCheck _ _)
theorem blind_vaultSpend (cfg) (q_p) (owner) (spender) (v) : Blind p l (vaultSpend cfg q_p owner spender v) := by blind [vaultSpend]
macro_rules | `(tactic| blindcall) => `(tactic| exact blind_vaultSpend _ _ _ _ _)
theorem blind_vaultDeposit (cfg) (sender) (q_p) (assets) (receiver) : Blind p l (vaultDeposit cfg sender q_p assets receiver) := by blind [vaultDeposit]
macro_rules | `(tactic| blindcall) => `(tactic| exact blind_vaultDeposit _ _ _ _ _)
theorem blind_vaultRedeem (cfg) (sender) (q_p) (shares) (receiver) (owner) : Blind p l (vaultRedeem cfg sender q_p shares receiver owner) := by blind [vaultRedeem]
macro_rules | `(tactic| blindcall) => `(tactic| exact blind_vaultRedeem _ _ _ _ _ _)
theorem blind_transferProveToStaking (cfg) (sender) (q_p) (from_) (v) : Blind p l (transferProveToStaking cfg sender q_p from_ v) := by blind [transferProveToStaking]
macro_rules | `(tactic| blindcall) => `(tactic| exact blind_transferProveToStaking _ _ _ _ _)
theorem blind_onSt (inOp) (f) : Blind p l (onSt inOp f) := by blind [onSt]
macro_rules | `(tactic| blindcall) => `(tactic| exact blind_onSt _ _)
theorem blind_assertEq (t) (r) : Blind p l (assertEq t r) := by blind [assertEq]
macro_rules | `(tactic| blindcall) => `(tactic| exact blind_assertEq _ _)
theorem blind_createTransaction (v) (data) : Blind p l (createTransaction v data) := by blind [createTransaction]
macro_rules | `(tactic| blindcall) => `(tactic| exact blind_createTransaction _ _)
theorem blind_whenNotPaused : Blind p l (whenNotPaused ) := by blind [whenNotPaused]
macro_rules | `(tactic| blindcall) => `(tactic| exact blind_whenNotPaused )
theorem blind_vappDepositFrom (cfg) (from_) (amount) : Blind p l (vappDepositFrom cfg from_ amount) := by blind [vappDepositFrom]
macro_rules | `(tactic| blindcall) => `(tactic| exact blind_vappDepositFrom _ _ _)
theorem blind_provePermit (signer) (owner) (spender) (v) : Blind p l (provePermit signer owner spender v) := by blind [provePermit]
macro_rules | `(tactic| blindcall) => `(tactic| exact blind_provePermit _ _ _ _)
theorem blind_vappDeposit (cfg) (c) (amount) : Blind p l (vappDeposit cfg c amount) := by blind [vappDeposit]
macro_rules | `(tactic| blindcall) => `(tactic| exact blind_vappDeposit _ _ _)
theorem blind_vappPermitAndDeposit (cfg) (signer) (from_) (amount) : Blind p l (vappPermitAndDeposit cfg signer from_ amount) := by blind [vappPermitAndDeposit]
macro_rules | `(tactic| blindcall) => `(tactic| exact blind_vappPermitAndDeposit _ _ _ _)
theorem blind_vappCreateProver (c) (sender) (prover) (owner) (fee) : Blind p l (vappCreateProver c sender prover owner fee) := by blind [vappCreateProver]
macro_rules | `(tactic| blindcall) => `(tactic| exact blind_vappCreateProver _ _ _ _ _)
theorem blind_processWithdraw (cfg) (c) (to) (amount) : Blind p l (processWithdraw cfg c to amount) := by blind [processWithdraw]
macro_rules | `(tactic| blindcall) => `(tactic| exact blind_processWithdraw _ _ _ _)
theorem blind_requireFinal (r) : Blind p l (requireFinal r) := by blind [requireFinal]
macro_rules | `(tactic| blindcall) => `(tactic| exact blind_requireFinal _)
theorem blind_handleOnchain (r) : Blind p l (handleOnchain r) := by blind [handleOnchain]
macro_rules | `(tactic| blindcall) => `(tactic| exact blind_handleOnchain _)
theorem blind_handleOffchain (cfg) (c) (r) : Blind p l (handleOffchain cfg c r) := by blind [handleOffchain]
macro_rules | `(tactic| blindcall) => `(tactic| exact blind_handleOffchain _ _ _)
theorem blind_handleReceipts (cfg : Cfg) (c : Ctx) : ∀ rs, Blind p l (handleReceipts cfg c rs)
  | [] => Blind.pure _
  | r :: rs => by
    have ih := blind_handleReceipts cfg c rs
    blind [handleReceipts]
macro_rules | `(tactic| blindcall) => `(tactic| exact blind_handleReceipts _ _ _)
theorem blind_vappStep (cfg) (c) (pv) (proof) : Blind p l (vappStep cfg c pv proof) := by blind [vappStep]
macro_rules | `(tactic| blindcall) => `(tactic| exact blind_vappStep _ _ _ _)
theorem blind_vappOnlyOwner (c) : Blind p l (vappOnlyOwner c) := by blind [vappOnlyOwner]
macro_rules | `(tactic| blindcall) => `(tactic| exact blind_vappOnlyOwner _)
theorem blind_vappFork (c) (vkey) (root) : Blind p l (vappFork c vkey root) := by blind [vappFork]
macro_rules | `(tactic| blindcall) => `(tactic| exact blind_vappFork _ _ _)
theorem blind_vappUpdateAuctioneer (c) (a) : Blind p l (vappUpdateAuctioneer c a) := by blind [vappUpdateAuctioneer]
macro_rules | `(tactic| blindcall) => `(tactic| exact blind_vappUpdateAuctioneer _ _)
theorem blind_vappUpdateStaking (c) (a) : Blind p l (vappUpdateStaking c a) := by blind [vappUpdateStaking]
macro_rules | `(tactic| blindcall) => `(tactic| exact blind_vappUpdateStaking _ _)
theorem blind_vappUpdateVerifier (c) (a) : Blind p l (vappUpdateVerifier c a) := by blind [vappUpdateVerifier]
macro_rules | `(tactic| blindcall) => `(tactic| exact blind_vappUpdateVerifier _ _)
theorem blind_vappUpdateMinDeposit (c) (v) : Blind p l (vappUpdateMinDeposit c v) := by blind [vappUpdateMinDeposit]
macro_rules | `(tactic| blindcall) => `(tactic| exact blind_vappUpdateMinDeposit _ _)
theorem blind_vappPause (c) : Blind p l (vappPause c) := by blind [vappPause]
macro_rules | `(tactic| blindcall) => `(tactic| exact blind_vappPause _)
theorem blind_vappUnpause (c) : Blind p l (vappUnpause c) := by blind [vappUnpause]
macro_rules | `(tactic| blindcall) => `(tactic| exact blind_vappUnpause _)
theorem blind_vappSetOwner (c) (a) : Blind p l (vappSetOwner c a) := by blind [vappSetOwner]
macro_rules | `(tactic| blindcall) => `(tactic| exact blind_vappSetOwner _ _)
theorem blind_onlyForProver (q_p) : Blind p l (onlyForProver q_p) := by blind [onlyForProver]
macro_rules | `(tactic| blindcall) => `(tactic| exact blind_onlyForProver _)
theorem blind_deployProver (cfg) (c) (owner) (fee) : Blind p l (deployProver cfg c owner fee) := by blind [deployProver]
macro_rules | `(tactic| blindcall) => `(tactic| exact blind_deployProver _ _ _ _)
theorem blind_createProver (cfg) (c) (fee) : Blind p l (createProver cfg c fee) := by blind [createProver]
macro_rules | `(tactic| blindcall) => `(tactic| exact blind_createProver _ _ _)
theorem blind_deactivateIfBelowMin (q_p) : Blind p l (deactivateIfBelowMin q_p) := by blind [deactivateIfBelowMin]
macro_rules | `(tactic| blindcall) => `(tactic| exact blind_deactivateIfBelowMin _)
theorem blind_requireNoSlash (q_p) : Blind p l (requireNoSlash q_p) := by blind [requireNoSlash]
macro_rules | `(tactic| blindcall) => `(tactic| exact blind_requireNoSlash _)
theorem blind_maxDispense (c) : Blind p l (maxDispense c) := by blind [maxDispense]
macro_rules | `(tactic| blindcall) => `(tactic| exact blind_maxDispense _)
theorem blind_stakeFor (cfg) (staker) (prover) (amount) : Blind p l (stakeFor cfg staker prover amount) := by blind [stakeFor]
macro_rules | `(tactic| blindcall) => `(tactic| exact blind_stakeFor _ _ _ _)
theorem blind_stake (cfg) (c) (prover) (amount) : Blind p l (stake cfg c prover amount) := by blind [stake]
macro_rules | `(tactic| blindcall) => `(tactic| exact blind_stake _ _ _ _)
theorem blind_permitAndStake (cfg) (signer) (prover) (from_) (amount) : Blind p l (permitAndStake cfg signer prover from_ amount) := by blind [permitAndStake]
macro_rules | `(tactic| blindcall) => `(tactic| exact blind_permitAndStake _ _ _ _ _)
theorem blind_escrowUnstakeRequest (cfg) (staker) (prover) (st) : Blind p l (escrowUnstakeRequest cfg staker prover st) := by blind [escrowUnstakeRequest]
macro_rules | `(tactic| blindcall) => `(tactic| exact blind_escrowUnstakeRequest _ _ _ _)
theorem blind_requestUnstake (cfg) (c) (st) : Blind p l (requestUnstake cfg c st) := by blind [requestUnstake]
macro_rules | `(tactic| blindcall) => `(tactic| exact blind_requestUnstake _ _ _)
theorem blind_finishUnstakeRequest (cfg) (staker) (prover) (claim) : Blind p l (finishUnstakeRequest cfg staker prover claim) := by blind [finishUnstakeRequest]
macro_rules | `(tactic| blindcall) => `(tactic| exact blind_finishUnstakeRequest _ _ _ _)
theorem blind_finishLoop (cfg : Cfg) (c : Ctx) (s q : Address) : ∀ n i paid, Blind p l (finishLoop cfg c s q n i paid)
  | 0, _, _ => Blind.pure _
  | n + 1, i, paid => by
    have ih := blind_finishLoop cfg c s q n
    blind [finishLoop]
    all_goals exact ih _ _
macro_rules | `(tactic| blindcall) => `(tactic| exact blind_finishLoop _ _ _ _ _ _ _)
theorem blind_finishUnstake (cfg) (c) (staker) : Blind p l (finishUnstake cfg c staker) := by blind [finishUnstake]
macro_rules | `(tactic| blindcall) => `(tactic| exact blind_finishUnstake _ _ _)
theorem blind_stakingOnlyOwner (c) : Blind p l (stakingOnlyOwner c) := by blind [stakingOnlyOwner]
macro_rules | `(tactic| blindcall) => `(tactic| exact blind_stakingOnlyOwner _)
theorem blind_slashBurn (cfg) (prover) (total) (toSlash) : Blind p l (slashBurn cfg prover total toSlash) := by blind [slashBurn]
macro_rules | `(tactic| blindcall) => `(tactic| exact blind_slashBurn _ _ _ _)
theorem blind_dispense (cfg) (c) (v) : Blind p l (dispense cfg c v) := by blind [dispense]
macro_rules | `(tactic| blindcall) => `(tactic| exact blind_dispense _ _ _)
theorem blind_setDispenser (c) (a) : Blind p l (setDispenser c a) := by blind [setDispenser]
macro_rules | `(tactic| blindcall) => `(tactic| exact blind_setDispenser _ _)
theorem blind_updateDispenseRate (c) (rate) : Blind p l (updateDispenseRate c rate) := by blind [updateDispenseRate]
macro_rules | `(tactic| blindcall) => `(tactic| exact blind_updateDispenseRate _ _)
theorem blind_stakingSetOwner (c) (a) : Blind p l (stakingSetOwner c a) := by blind [stakingSetOwner]
macro_rules | `(tactic| blindcall) => `(tactic| exact blind_stakingSetOwner _ _)
theorem blind_iproveWithdraw (cfg) (sender) (assets) (receiver) (owner) : Blind p l (iproveWithdraw cfg sender assets receiver owner) := by blind [iproveWithdraw]
macro_rules | `(tactic| blindcall) => `(tactic| exact blind_iproveWithdraw _ _ _ _ _)
theorem blind_vaultMintExact (cfg) (sender) (q_p) (shares) (receiver) : Blind p l (vaultMintExact cfg sender q_p shares receiver) := by blind [vaultMintExact]
macro_rules | `(tactic| blindcall) => `(tactic| exact blind_vaultMintExact _ _ _ _ _)
theorem blind_vaultWithdraw (cfg) (sender) (q_p) (assets) (receiver) (owner) : Blind p l (vaultWithdraw cfg sender q_p assets receiver owner) := by blind [vaultWithdraw]
macro_rules | `(tactic| blindcall) => `(tactic| exact blind_vaultWithdraw _ _ _ _ _ _)
theorem blind_isVault (q_p) : Blind p l (isVault q_p) := by blind [isVault]
macro_rules | `(tactic| blindcall) => `(tactic| exact blind_isVault _)

theorem blind_drop {α : Type} {m : L1 α} (h : Blind p l m) : Blind p l (drop_ m) := h.bind fun _ => Blind.pure _

variable {q : Address}

theorem blind_upd {α : Type} (f : Address → α) (hq : q ≠ p) (x y : α) : upd (upd f p x) q y = upd (upd f q y) p x := by
  funext z
  unfold upd
  by_cases e : z = q
  · subst e; simp [hq]
  · simp [e]

theorem blind_resolveSlash (hq : q ≠ p) (i cl) : Blind p l (resolveSlash q i cl) := by
  unfold resolveSlash
  apply blind_modStaking
  intro s
  simp only [upd_ne _ _ hq, blind_upd _ hq]

theorem blind_requestSlash (cfg) (c) (hq : q ≠ p) (v) : Blind p l (requestSlash cfg c q v) := by
  unfold requestSlash
  dsimp only
  refine (Blind.require _ _).bind fun _ => (blind_onlyForProver _).bind fun _ => (Blind.require _ _).bind fun _ => ?_
  refine Blind.get (fun w => ?_) fun w => (blind_modStaking fun s => ?_).bind fun _ => Blind.pure _
  · simp only [World.withSlashes, upd_ne _ _ hq]
  · simp only [upd_ne _ _ hq, blind_upd _ hq]

theorem blind_cancelSlash (c) (hq : q ≠ p) (i) : Blind p l (cancelSlash c q i) := by
  unfold cancelSlash
  have := fun cl => blind_resolveSlash (l := l) hq i cl
  refine (blind_onlyForProver _).bind fun _ => Blind.get (fun w => ?_) fun w => (Blind.liftO _ _).bind fun cl => ?_
  · simp only [World.withSlashes, upd_ne _ _ hq]
  · repeat' blind1
    exact this _

theorem blind_finishSlash (cfg) (c) (hq : q ≠ p) (i) : Blind p l (finishSlash cfg c q i) := by
  unfold finishSlash
  have := fun cl => blind_resolveSlash (l := l) hq i cl
  refine (blind_stakingOnlyOwner _).bind fun _ => (blind_onlyForProver _).bind fun _ =>
    Blind.get (fun w => ?_) fun w => (Blind.liftO _ _).bind fun cl => ?_
  · simp only [World.withSlashes, upd_ne _ _ hq]
  · repeat' blind1
    all_goals exact this _

/-- Everything but a slash call about `p` is blind for the slash requests of `p`. -/
theorem blind_exec (cfg : Cfg) (c : Ctx) (k : Call)
    (hk : ∀ v, k ≠ .requestSlash p v ∧ k ≠ .cancelSlash p v ∧ k ≠ .finishSlash p v) : Blind p l (exec cfg c k) := by
  cases k
  case requestSlash q v =>
    exact blind_drop (blind_requestSlash _ _ (fun e => (hk v).1 (by rw [e])) _)
  case cancelSlash q i =>
    exact blind_cancelSlash _ (fun e => (hk i).2.1 (by rw [e])) _
  case finishSlash q i =>
    exact blind_drop (blind_finishSlash _ _ (fun e => (hk i).2.2 (by rw [e])) _)
  all_goals
    unfold exec
    dsimp only
    first
    | done
    | (refine blind_drop ?_; blind1; done)
    | (repeat' first | blind1 | refine blind_drop ?_)

end
end Verif
