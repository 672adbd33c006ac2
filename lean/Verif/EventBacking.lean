import Verif.EventFlow
/-
# The amounts of $iPROVE in the events
-/

namespace Verif
open L1 LM

/-- The $iPROVE behind the stake with `p`, by the events: stakes add, finished unstakes and slashes take away. -/
def Ev.backing (p : Address) : Ev → Int
  | .stake _ q _ v _ => if q = p then (v : Int) else 0
  | .unstake _ q _ v => if q = p then - (v : Int) else 0
  | .slash q _ v _ => if q = p then - (v : Int) else 0
  | _ => 0

/-- The $iPROVE that waits to be unstaked from `p`, by the events: requests add, finished unstakes take away. -/
def Ev.queued (p : Address) : Ev → Int
  | .unstakeRequest _ q _ v => if q = p then (v : Int) else 0
  | .unstake _ q _ v => if q = p then - (v : Int) else 0
  | _ => 0

/-- A withdrawal that pays `p`. -/
def Ev.paysTo (p : Address) : Ev → Prop
  | .withdraw q _ => q = p
  | _ => False

/-- A slash of `p`. -/
def Ev.slashOf (p : Address) : Ev → Prop
  | .slash q _ _ _ => q = p
  | _ => False

/-- Sums over a log. -/
def backingSum (p : Address) (es : List Ev) : Int := (es.map (Ev.backing p)).sum
def queuedSum (p : Address) (es : List Ev) : Int := (es.map (Ev.queued p)).sum

theorem backingSum_append {p : Address} {x y : List Ev} : backingSum p (x ++ y) = backingSum p x + backingSum p y := by
  simp [backingSum]
theorem queuedSum_append {p : Address} {x y : List Ev} : queuedSum p (x ++ y) = queuedSum p x + queuedSum p y := by
  simp [queuedSum]
theorem backingSum_cons {p : Address} {e : Ev} {y : List Ev} : backingSum p (e :: y) = e.backing p + backingSum p y := by
  simp [backingSum]
theorem queuedSum_cons {p : Address} {e : Ev} {y : List Ev} : queuedSum p (e :: y) = e.queued p + queuedSum p y := by
  simp [queuedSum]

/-- What the events `es` say of the $iPROVE of `p`, between two states. -/
structure Backs (p : Address) (es : List Ev) (w w' : World) : Prop where
  least : (w.iprove.bal p + (w.staking.escrowPools p).iPROVEEscrow : Int) + backingSum p es ≤
    w'.iprove.bal p + (w'.staking.escrowPools p).iPROVEEscrow
  exactly : (∀ e ∈ es, ¬ e.paysTo p) →
    (w'.iprove.bal p + (w'.staking.escrowPools p).iPROVEEscrow : Int) =
      w.iprove.bal p + (w.staking.escrowPools p).iPROVEEscrow + backingSum p es
  most : ((w'.staking.escrowPools p).iPROVEEscrow : Int) ≤ (w.staking.escrowPools p).iPROVEEscrow + queuedSum p es
  escrow : (∀ e ∈ es, ¬ e.slashOf p) →
    ((w'.staking.escrowPools p).iPROVEEscrow : Int) = (w.staking.escrowPools p).iPROVEEscrow + queuedSum p es

theorem Backs.refl (p : Address) (w : World) : Backs p [] w w := by
  constructor <;> intros <;> simp [backingSum, queuedSum]

theorem Backs.trans {p : Address} {e1 e2 : List Ev} {w1 w2 w3 : World} (h1 : Backs p e1 w1 w2) (h2 : Backs p e2 w2 w3) :
    Backs p (e1 ++ e2) w1 w3 where
  least := by rw [backingSum_append]; have := h1.least; have := h2.least; omega
  exactly h := by
    rw [backingSum_append]
    have := h1.exactly fun e he => h e (List.mem_append_left _ he)
    have := h2.exactly fun e he => h e (List.mem_append_right _ he)
    omega
  most := by rw [queuedSum_append]; have := h1.most; have := h2.most; omega
  escrow h := by
    rw [queuedSum_append]
    have := h1.escrow fun e he => h e (List.mem_append_left _ he)
    have := h2.escrow fun e he => h e (List.mem_append_right _ he)
    omega

/-- Both quantities change by what the events say. -/
theorem Backs.of_eq {p : Address} {es : List Ev} {w w' : World}
    (h1 : (w'.iprove.bal p + (w'.staking.escrowPools p).iPROVEEscrow : Int) =
      w.iprove.bal p + (w.staking.escrowPools p).iPROVEEscrow + backingSum p es)
    (h2 : ((w'.staking.escrowPools p).iPROVEEscrow : Int) = (w.staking.escrowPools p).iPROVEEscrow + queuedSum p es) :
    Backs p es w w' :=
  ⟨by omega, fun _ => h1, by omega, fun _ => h2⟩

/-! ## Code that leaves the $iPROVE alone -/

/-- No $iPROVE moves, and no escrow changes. -/
def CalmW (w w' : World) : Prop := w'.iprove.bal = w.iprove.bal ∧ w'.staking.escrowPools = w.staking.escrowPools

theorem CalmW.pre : Pre CalmW where
  refl _ := ⟨rfl, rfl⟩
  trans _ _ _ h1 h2 := ⟨h2.1.trans h1.1, h2.2.trans h1.2⟩

theorem CalmW.backs {p : Address} {w w' : World} (h : CalmW w w') : Backs p [] w w' := by
  obtain ⟨h1, h2⟩ := h
  constructor <;> intros <;> simp [backingSum, queuedSum, h1, h2]

/-- Code that leaves the $iPROVE alone. -/
def Calm {α : Type} (m : L1 α) : Prop := Within CalmW m

namespace Calm
variable {α β : Type}
theorem pure (a : α) : Calm (pure a : L1 α) := fun w _ w' h => by rw [(pure_ok.mp h).2]; exact ⟨rfl, rfl⟩
theorem get : Calm L1.get := fun w _ w' h => by rw [(get_ok.mp h).2]; exact ⟨rfl, rfl⟩
theorem require (c : Prop) [Decidable c] (e : L1Err) : Calm (L1.require c e) := fun w _ w' h => by
  rw [(require_ok.mp h).2]; exact ⟨rfl, rfl⟩
theorem lift (x : Except L1Err α) : Calm (L1.lift x) := fun w _ w' h => by rw [(lift_ok.mp h).2]; exact ⟨rfl, rfl⟩
theorem liftO (x : Option α) (e : L1Err) : Calm (L1.liftO x e) := fun w _ w' h => by
  rw [(liftO_ok.mp h).2]; exact ⟨rfl, rfl⟩
theorem throw (e : L1Err) : Calm (L1.throw e : L1 α) := fun _ _ _ h => (throw_ok.mp h).elim
theorem bind {m : L1 α} {f : α → L1 β} (hm : Calm m) (hf : ∀ a, Calm (f a)) : Calm (m >>= f) :=
  Within.bind CalmW.pre hm hf
theorem ite {c : Prop} [Decidable c] {m n : L1 α} (h1 : Calm m) (h2 : Calm n) : Calm (if c then m else n) := by
  split <;> assumption
theorem modify {f : World → World} (h : ∀ w, CalmW w (f w)) : Calm (L1.modify f) := fun w _ w' g => by
  rw [modify_ok.mp g]; exact h w
end Calm

theorem onProve_c (f) : Calm (onProve f) := by
  intro w _ w' h
  obtain ⟨t, _, rfl⟩ := onProve_ok.mp h
  exact ⟨rfl, rfl⟩
theorem onVault_c (p f) : Calm (onVault p f) := by
  intro w _ w' h
  obtain ⟨t, _, rfl⟩ := onVault_ok.mp h
  exact ⟨rfl, rfl⟩
theorem onSt_c (b f) : Calm (onSt b f) := by
  intro w _ w' h
  obtain ⟨t, _, _, rfl⟩ := onSt_ok.mp h
  exact ⟨rfl, rfl⟩
theorem approve_c (a b v) : Calm (onIprove (·.approve a b v)) := by
  intro w _ w' h
  obtain ⟨t, g, rfl⟩ := onIprove_ok.mp h
  obtain ⟨_, _, rfl⟩ := Erc20.approve_ok g
  exact ⟨rfl, rfl⟩
theorem modStaking_c (f : Staking → Staking) (h0 : ∀ s, (f s).escrowPools = s.escrowPools) : Calm (modStaking f) := by
  intro w _ w' h
  rw [(modStaking_ok.mp h)]
  exact ⟨rfl, h0 _⟩
theorem modVapp_c (f : VApp → VApp) : Calm (modVapp f) := by
  intro w _ w' h
  rw [(modVapp_ok.mp h)]
  exact ⟨rfl, rfl⟩
theorem provePermit_c (s o p v) : Calm (provePermit s o p v) := by
  intro w _ w' h
  obtain ⟨_, t, g, rfl⟩ := provePermit_ok h
  exact ⟨rfl, rfl⟩
theorem proveTransfer_c (f t v) : Calm (proveTransfer f t v) := by
  intro w _ w' h
  obtain ⟨t2, g2, rfl⟩ := proveTransfer_ok h
  exact ⟨rfl, rfl⟩
theorem proveTransferFrom_c (x f t v) : Calm (proveTransferFrom x f t v) := by
  intro w _ w' h
  obtain ⟨t1, t2, g1, g2, rfl⟩ := proveTransferFrom_ok h
  exact ⟨rfl, rfl⟩
theorem transferProveToStaking_c (cfg x p f v) : Calm (transferProveToStaking cfg x p f v) := by
  intro w _ w' h
  obtain ⟨_, t1, t2, g1, g2, rfl⟩ := transferProveToStaking_ok h
  exact ⟨rfl, rfl⟩

/-- One decomposition step of `Calm m`. -/
syntax "c_step" : tactic
macro_rules | `(tactic| c_step) => `(tactic| first
  | with_reducible apply Calm.pure
  | with_reducible apply Calm.get
  | with_reducible apply Calm.require
  | with_reducible apply Calm.lift
  | with_reducible apply Calm.liftO
  | with_reducible apply Calm.throw
  | with_reducible apply Calm.bind
  | with_reducible apply Calm.ite
  | with_reducible apply onProve_c | with_reducible apply onVault_c | with_reducible apply onSt_c
  | with_reducible apply provePermit_c | with_reducible apply approve_c
  | with_reducible apply proveTransfer_c | with_reducible apply proveTransferFrom_c
  | with_reducible apply transferProveToStaking_c
  | with_reducible apply modVapp_c
  | (with_reducible apply modStaking_c) <;> (intro _; rfl)
  | (with_reducible apply Calm.modify) <;> (intro _; exact ⟨rfl, rfl⟩)
  | with_reducible intro _)
/-- Decompose `Calm m` along the program. -/
macro "c_all" : tactic => `(tactic| repeat' c_step)

theorem add256_c (x y) : Calm (add256 x y) := by
  unfold add256; c_all
macro_rules | `(tactic| c_step) => `(tactic| with_reducible apply add256_c)
theorem sub256_c (x y) : Calm (sub256 x y) := by
  unfold sub256; c_all
macro_rules | `(tactic| c_step) => `(tactic| with_reducible apply sub256_c)
theorem mul256_c (x y) : Calm (mul256 x y) := by
  unfold mul256; c_all
macro_rules | `(tactic| c_step) => `(tactic| with_reducible apply mul256_c)
theorem mulDiv_c (x y d) : Calm (mulDiv x y d) := by
  unfold mulDiv; c_all
macro_rules | `(tactic| c_step) => `(tactic| with_reducible apply mulDiv_c)
theorem inc64_c (x) : Calm (inc64 x) := by
  unfold inc64; c_all
macro_rules | `(tactic| c_step) => `(tactic| with_reducible apply inc64_c)
theorem iproveCheck_c (cfg s f t) : Calm (iproveCheck cfg s f t) := by
  unfold iproveCheck; c_all
macro_rules | `(tactic| c_step) => `(tactic| with_reducible apply iproveCheck_c)
theorem iprovePreviewRedeem_c (cfg s) : Calm (iprovePreviewRedeem cfg s) := by
  unfold iprovePreviewRedeem; c_all
macro_rules | `(tactic| c_step) => `(tactic| with_reducible apply iprovePreviewRedeem_c)
theorem iprovePreviewDeposit_c (cfg s) : Calm (iprovePreviewDeposit cfg s) := by
  unfold iprovePreviewDeposit; c_all
macro_rules | `(tactic| c_step) => `(tactic| with_reducible apply iprovePreviewDeposit_c)
theorem vaultCheck_c (cfg s) : Calm (vaultCheck cfg s) := by
  unfold vaultCheck; c_all
macro_rules | `(tactic| c_step) => `(tactic| with_reducible apply vaultCheck_c)
theorem vaultSpend_c (cfg p o s v) : Calm (vaultSpend cfg p o s v) := by
  unfold vaultSpend; c_all
macro_rules | `(tactic| c_step) => `(tactic| with_reducible apply vaultSpend_c)
theorem whenNotPaused_c : Calm (whenNotPaused) := by
  unfold whenNotPaused; c_all
macro_rules | `(tactic| c_step) => `(tactic| with_reducible apply whenNotPaused_c)
theorem onlyForProver_c (p) : Calm (onlyForProver p) := by
  unfold onlyForProver; c_all
macro_rules | `(tactic| c_step) => `(tactic| with_reducible apply onlyForProver_c)
theorem requireNoSlash_c (p) : Calm (requireNoSlash p) := by
  unfold requireNoSlash; c_all
macro_rules | `(tactic| c_step) => `(tactic| with_reducible apply requireNoSlash_c)
theorem maxDispense_c (c) : Calm (maxDispense c) := by
  unfold maxDispense; c_all
macro_rules | `(tactic| c_step) => `(tactic| with_reducible apply maxDispense_c)
theorem stakingOnlyOwner_c (c) : Calm (stakingOnlyOwner c) := by
  unfold stakingOnlyOwner; c_all
macro_rules | `(tactic| c_step) => `(tactic| with_reducible apply stakingOnlyOwner_c)
theorem requireFinal_c (r) : Calm (requireFinal r) := by
  unfold requireFinal; c_all
macro_rules | `(tactic| c_step) => `(tactic| with_reducible apply requireFinal_c)
theorem assertEq_c (t r) : Calm (assertEq t r) := by
  unfold assertEq; split <;> c_all
macro_rules | `(tactic| c_step) => `(tactic| with_reducible apply assertEq_c)
theorem createTransaction_c (v d) : Calm (createTransaction v d) := by
  unfold createTransaction; c_all
macro_rules | `(tactic| c_step) => `(tactic| with_reducible apply createTransaction_c)
theorem resolveSlash_c (p i c) : Calm (resolveSlash p i c) := by
  unfold resolveSlash; c_all
macro_rules | `(tactic| c_step) => `(tactic| with_reducible apply resolveSlash_c)

theorem vappOnlyOwner_c (c) : Calm (vappOnlyOwner c) := by
  unfold vappOnlyOwner; c_all
macro_rules | `(tactic| c_step) => `(tactic| with_reducible apply vappOnlyOwner_c)
theorem vappPause_c (c) : Calm (vappPause c) := by
  unfold vappPause; c_all
macro_rules | `(tactic| c_step) => `(tactic| with_reducible apply vappPause_c)
theorem vappUnpause_c (c) : Calm (vappUnpause c) := by
  unfold vappUnpause; c_all
macro_rules | `(tactic| c_step) => `(tactic| with_reducible apply vappUnpause_c)
theorem vappSetOwner_c (c a) : Calm (vappSetOwner c a) := by
  unfold vappSetOwner; c_all
macro_rules | `(tactic| c_step) => `(tactic| with_reducible apply vappSetOwner_c)
theorem requestSlash_c (cfg c p v) : Calm (requestSlash cfg c p v) := by
  unfold requestSlash; c_all
macro_rules | `(tactic| c_step) => `(tactic| with_reducible apply requestSlash_c)
theorem updateDispenseRate_c (c v) : Calm (updateDispenseRate c v) := by
  unfold updateDispenseRate; c_all
macro_rules | `(tactic| c_step) => `(tactic| with_reducible apply updateDispenseRate_c)
theorem stakingSetOwner_c (c a) : Calm (stakingSetOwner c a) := by
  unfold stakingSetOwner; c_all
macro_rules | `(tactic| c_step) => `(tactic| with_reducible apply stakingSetOwner_c)

/-! ## Code with events -/

/-- The $iPROVE of `p` moves as the events say. -/
def Backed (p : Address) {α : Type} (m : LM α) : Prop := ∀ w r w' es, m w = .ok (r, w', es) → Backs p es w w'

namespace Backed
variable {p : Address} {α β : Type}
theorem pure (a : α) : Backed p (pure a : LM α) := by
  intro w r w' es h
  obtain ⟨_, rfl, rfl⟩ := pureE_ok.mp h
  exact Backs.refl _ _
theorem lift {m : L1 α} (hm : Calm m) : Backed p (liftM m : LM α) := by
  intro w r w' es h
  obtain ⟨g, rfl⟩ := liftE_ok.mp h
  exact (hm _ _ _ g).backs
theorem bind {m : LM α} {f : α → LM β} (hm : Backed p m) (hf : ∀ a, Backed p (f a)) : Backed p (m >>= f) := by
  intro w r w' es h
  obtain ⟨a, w1, e1, e2, h1, h2, rfl⟩ := bindE_ok.mp h
  exact (hm _ _ _ _ h1).trans (hf a _ _ _ _ h2)
theorem ite {c : Prop} [Decidable c] {m n : LM α} (h1 : Backed p m) (h2 : Backed p n) :
    Backed p (if c then m else n) := by
  split <;> assumption
theorem drop {m : LM α} (hm : Backed p m) : Backed p (dropE m) := by
  intro w u w' es h
  obtain ⟨a, h⟩ := dropE_ok.mp h
  exact hm _ _ _ _ h
theorem emit {e : Ev} (h : e.backing p = 0) (hq : e.queued p = 0) : Backed p (emit e) := by
  intro w u w' es he
  obtain ⟨rfl, rfl⟩ := emit_ok.mp he
  exact Backs.of_eq (by rw [backingSum_cons, h]; simp [backingSum]) (by rw [queuedSum_cons, hq]; simp [queuedSum])
end Backed

/-- One decomposition step of `Backed p m`. -/
syntax "b_step" : tactic
macro_rules | `(tactic| b_step) => `(tactic| first
  | with_reducible assumption
  | with_reducible apply Backed.pure
  | with_reducible apply Backed.bind
  | with_reducible apply Backed.ite
  | with_reducible apply Backed.drop
  | (with_reducible apply Backed.lift) <;> (c_all; done)
  | (with_reducible apply Backed.emit) <;> rfl
  | with_reducible intro _
  | dsimp only)
/-- Decompose `Backed p m` along the program. -/
macro "b_all" : tactic => `(tactic| repeat' b_step)

theorem createTransactionE_b (p v data) : Backed p (createTransactionE v data) := by
  unfold createTransactionE; b_all
macro_rules | `(tactic| b_step) => `(tactic| with_reducible apply createTransactionE_b)
theorem vappForkE_b (p c k r) : Backed p (vappForkE c k r) := by
  unfold vappForkE; b_all
macro_rules | `(tactic| b_step) => `(tactic| with_reducible apply vappForkE_b)
theorem vappUpdateAuctioneerE_b (p c a) : Backed p (vappUpdateAuctioneerE c a) := by
  unfold vappUpdateAuctioneerE; b_all
macro_rules | `(tactic| b_step) => `(tactic| with_reducible apply vappUpdateAuctioneerE_b)
theorem vappUpdateStakingE_b (p c a) : Backed p (vappUpdateStakingE c a) := by
  unfold vappUpdateStakingE; b_all
macro_rules | `(tactic| b_step) => `(tactic| with_reducible apply vappUpdateStakingE_b)
theorem vappUpdateVerifierE_b (p c a) : Backed p (vappUpdateVerifierE c a) := by
  unfold vappUpdateVerifierE; b_all
macro_rules | `(tactic| b_step) => `(tactic| with_reducible apply vappUpdateVerifierE_b)
theorem vappUpdateMinDepositE_b (p c v) : Backed p (vappUpdateMinDepositE c v) := by
  unfold vappUpdateMinDepositE; b_all
macro_rules | `(tactic| b_step) => `(tactic| with_reducible apply vappUpdateMinDepositE_b)
theorem vappPauseE_b (p c) : Backed p (vappPauseE c) := by
  unfold vappPauseE; b_all
macro_rules | `(tactic| b_step) => `(tactic| with_reducible apply vappPauseE_b)
theorem vappUnpauseE_b (p c) : Backed p (vappUnpauseE c) := by
  unfold vappUnpauseE; b_all
macro_rules | `(tactic| b_step) => `(tactic| with_reducible apply vappUnpauseE_b)
theorem vappSetOwnerE_b (p c a) : Backed p (vappSetOwnerE c a) := by
  unfold vappSetOwnerE; b_all
macro_rules | `(tactic| b_step) => `(tactic| with_reducible apply vappSetOwnerE_b)
theorem deactivateIfBelowMinE_b (p q) : Backed p (deactivateIfBelowMinE q) := by
  unfold deactivateIfBelowMinE; b_all
macro_rules | `(tactic| b_step) => `(tactic| with_reducible apply deactivateIfBelowMinE_b)
theorem cancelSlashE_b (p c q i) : Backed p (cancelSlashE c q i) := by
  unfold cancelSlashE; b_all
macro_rules | `(tactic| b_step) => `(tactic| with_reducible apply cancelSlashE_b)
theorem requestSlashE_b (p cfg c q v) : Backed p (requestSlashE cfg c q v) := by
  unfold requestSlashE; b_all
macro_rules | `(tactic| b_step) => `(tactic| with_reducible apply requestSlashE_b)
theorem setDispenserE_b (p c a) : Backed p (setDispenserE c a) := by
  unfold setDispenserE; b_all
macro_rules | `(tactic| b_step) => `(tactic| with_reducible apply setDispenserE_b)
theorem updateDispenseRateE_b (p c v) : Backed p (updateDispenseRateE c v) := by
  unfold updateDispenseRateE; b_all
macro_rules | `(tactic| b_step) => `(tactic| with_reducible apply updateDispenseRateE_b)
theorem stakingSetOwnerE_b (p c a) : Backed p (stakingSetOwnerE c a) := by
  unfold stakingSetOwnerE; b_all
macro_rules | `(tactic| b_step) => `(tactic| with_reducible apply stakingSetOwnerE_b)
theorem vappCreateProverE_b (p c a b d e) : Backed p (vappCreateProverE c a b d e) := by
  unfold vappCreateProverE; b_all
macro_rules | `(tactic| b_step) => `(tactic| with_reducible apply vappCreateProverE_b)
theorem deployProverE_b (p cfg c o f) : Backed p (deployProverE cfg c o f) := by
  unfold deployProverE; b_all
macro_rules | `(tactic| b_step) => `(tactic| with_reducible apply deployProverE_b)
theorem createProverE_b (p cfg c f) : Backed p (createProverE cfg c f) := by
  unfold createProverE; b_all
macro_rules | `(tactic| b_step) => `(tactic| with_reducible apply createProverE_b)
theorem vappDepositFromE_b (p cfg a v) : Backed p (vappDepositFromE cfg a v) := by
  unfold vappDepositFromE; b_all
macro_rules | `(tactic| b_step) => `(tactic| with_reducible apply vappDepositFromE_b)
theorem vappDepositE_b (p cfg c v) : Backed p (vappDepositE cfg c v) := by
  unfold vappDepositE; b_all
macro_rules | `(tactic| b_step) => `(tactic| with_reducible apply vappDepositE_b)
theorem vappPermitAndDepositE_b (p cfg a b v) : Backed p (vappPermitAndDepositE cfg a b v) := by
  unfold vappPermitAndDepositE; b_all
macro_rules | `(tactic| b_step) => `(tactic| with_reducible apply vappPermitAndDepositE_b)
theorem dispenseE_b (p cfg c v) : Backed p (dispenseE cfg c v) := by
  unfold dispenseE; b_all
macro_rules | `(tactic| b_step) => `(tactic| with_reducible apply dispenseE_b)

theorem processWithdrawE_b (cfg : Cfg) (c : Ctx) (p to : Address) (v : Nat) : Backed p (processWithdrawE cfg c to v) := by
  intro w r w' es h
  unfold processWithdrawE at h
  obtain ⟨_, w1, h1, h⟩ := liftBind_ok.mp h
  obtain ⟨rfl, rfl⟩ := emit_ok.mp h
  unfold processWithdraw at h1
  obtain ⟨w2, w3, g1, g2⟩ := bind_ok.mp h1
  obtain ⟨rfl, rfl⟩ := get_ok.mp g1
  split at g2
  · obtain ⟨n, w4, g3, g4⟩ := bind_ok.mp g2
    obtain ⟨_, rfl⟩ := pure_ok.mp g4
    obtain ⟨_, _, t1, t2, t3, _, _, g, _, rfl⟩ := iproveDeposit_ok g3
    obtain ⟨_, _, rfl⟩ := Erc20.mint_ok g
    have hb : backingSum p [.withdraw to v] = 0 := rfl
    have hq : queuedSum p [.withdraw to v] = 0 := rfl
    constructor
    · rw [hb]
      show _ ≤ ((upd w3.iprove.bal to (w3.iprove.bal to + n) p : Nat) : Int) + _
      unfold upd
      by_cases hp : p = to
      · subst hp; simp; omega
      · simp [hp]
    · intro hn
      have hp : p ≠ to := fun e => hn _ (List.mem_cons_self ..) e.symm
      rw [hb]
      show ((upd w3.iprove.bal to (w3.iprove.bal to + n) p : Nat) : Int) + _ = _
      unfold upd
      simp [hp]
    · rw [hq]; simp
    · intro _; rw [hq]; simp
  · have h0 := proveTransfer_c _ _ _ _ _ _ g2
    exact Backs.of_eq (by rw [h0.1, h0.2]; simp [backingSum, Ev.backing]) (by rw [h0.2]; simp [queuedSum, Ev.queued])

theorem handleReceiptsE_b (cfg : Cfg) (c : Ctx) (p : Address) (rs : List SolReceipt) :
    Backed p (handleReceiptsE cfg c rs) := by
  induction rs with
  | nil => exact Backed.pure _
  | cons r rs ih =>
    have hw := processWithdrawE_b cfg c p
    unfold handleReceiptsE handleOnchainE handleOffchainE
    b_all
    all_goals exact hw _ _

theorem vappStepE_b (cfg : Cfg) (c : Ctx) (p : Address) (pv pr : Bytes) : Backed p (vappStepE cfg c pv pr) := by
  have := handleReceiptsE_b cfg c p
  unfold vappStepE
  b_all
  all_goals exact this _

theorem stakeForE_b (cfg : Cfg) (p g q : Address) (v : Nat) (hp : p ≠ cfg.staking) :
    Backed p (stakeForE cfg g q v) := by
  have tail : Backed p (do
        let i ← iproveDeposit cfg cfg.staking v cfg.staking
        require (i ≠ 0) .zeroReceiptAmount
        let st ← vaultDeposit cfg cfg.staking q i cfg.staking
        require (st ≠ 0) .zeroReceiptAmount
        onSt true (·.mint g st)
        emit (.stake g q v i st)
        return st : LM Nat) := by
    intro w1 r w' es h
    simp only [liftBind_ok, emitBind_ok, pureE_ok, require_ok] at h
    obtain ⟨i, _, h1, _, w2, ⟨hi, rfl⟩, st, _, h2, _, w3, ⟨hst, rfl⟩, _, _, hm, _, ⟨_, rfl, rfl⟩, rfl⟩ := h
    obtain ⟨_, _, t1, t2, t3, _, _, g1, _, rfl⟩ := iproveDeposit_ok h1
    obtain ⟨_, _, rfl⟩ := Erc20.mint_ok g1
    obtain ⟨_, _, i0, i1, v1, h3, h4, _, rfl⟩ := vaultDeposit_ok h2
    have h5 := onSt_c _ _ _ _ _ hm
    have h6 := (transfer_pay h4).1 p
    have h7 : i0.bal p = w1.iprove.bal p := by
      have : i0.bal = upd w1.iprove.bal cfg.staking (w1.iprove.bal cfg.staking + i) := by
        rcases h3 with rfl | h3
        · rfl
        · exact (Erc20.spend_ok h3).2.1
      rw [this]; unfold upd; rw [if_neg hp]
    have h8 : payment p cfg.staking q i = if q = p then (i : Int) else 0 := by
      unfold payment
      by_cases e : p = q
      · subst e; simp [hp]
      · simp [hp, e, Ne.symm e]
    refine Backs.of_eq ?_ ?_
    · rw [h5.1, h5.2]
      show (i1.bal p : Int) + _ = _
      rw [h6, h7, h8]
      simp [backingSum, Ev.backing]
      omega
    · rw [h5.2]
      simp [queuedSum, Ev.queued]
  unfold stakeForE
  repeat' first | with_reducible exact tail | b_step

theorem stakeE_b (cfg : Cfg) (c : Ctx) (p q : Address) (v : Nat) (hp : p ≠ cfg.staking) : Backed p (stakeE cfg c q v) := by
  have := stakeForE_b cfg p c.sender q v hp
  unfold stakeE
  b_all

theorem permitAndStakeE_b (cfg : Cfg) (g p q x : Address) (v : Nat) (hp : p ≠ cfg.staking) :
    Backed p (permitAndStakeE cfg g q x v) := by
  have := stakeForE_b cfg p x q v hp
  unfold permitAndStakeE
  b_all

theorem requestUnstakeE_b (cfg : Cfg) (c : Ctx) (p : Address) (n : Nat) (hp : p ≠ cfg.staking) :
    Backed p (requestUnstakeE cfg c n) := by
  intro w a w' es h
  simp only [requestUnstakeE, escrowUnstakeRequest, liftBind_ok, bind_ok, get_ok, require_ok, requireNoSlash_ok, onSt_ok, add256_ok,
    modStaking_ok, emit_ok] at h
  obtain ⟨_, _, ⟨h1, rfl⟩, _, _, ⟨rfl, rfl⟩, _, _, ⟨h2, rfl⟩, _, _, ⟨rfl, rfl⟩, _, _, ⟨h3, rfl⟩, _, _, ⟨h4, rfl⟩,
    _, _, ⟨rfl, rfl⟩, _, w, ⟨h5, rfl⟩, esc, _, ⟨_, _, ⟨_, s1, a1, rfl⟩, h6⟩, _, _, ⟨rfl, rfl⟩, _, _, ⟨h7, rfl, rfl⟩,
    _, _, rfl, rfl, rfl⟩ := h
  obtain ⟨_, _, _, v1, i1, _, h8, rfl⟩ := vaultRedeem_ok h6
  have h9 := (transfer_pay h8).1 p
  generalize hq : w.staking.stakerToProver c.sender = q at *
  refine Backs.of_eq ?_ ?_
  · show (i1.bal p : Int) + ((upd w.staking.escrowPools q ⟨_, _⟩ p).iPROVEEscrow : Int) = _
    rw [h9]
    unfold upd payment
    by_cases e : p = q
    · subst e; simp [hp, backingSum, Ev.backing]; omega
    · simp [hp, e, backingSum, Ev.backing]
  · show ((upd w.staking.escrowPools q ⟨_, _⟩ p).iPROVEEscrow : Int) = _
    unfold upd
    by_cases e : p = q
    · subst e; simp [queuedSum, Ev.queued]
    · simp [e, Ne.symm e, queuedSum, Ev.queued]

theorem finishUnstakeRequestE_b (cfg : Cfg) (p x q : Address) (cl : UnstakeClaim) (hp : p ≠ cfg.staking) :
    Backed p (finishUnstakeRequestE cfg x q cl) := by
  intro w r w' es h
  unfold finishUnstakeRequestE at h
  simp only [liftBind_ok, get_ok, mulDiv_ok] at h
  obtain ⟨_, _, ⟨rfl, rfl⟩, sc, w1, ⟨_, _, _, rfl⟩, h⟩ := h
  have hle : (if (w1.staking.escrowPools q).iPROVEEscrow < sc then (w1.staking.escrowPools q).iPROVEEscrow else sc) ≤
      (w1.staking.escrowPools q).iPROVEEscrow := by split <;> omega
  generalize (if (w1.staking.escrowPools q).iPROVEEscrow < sc then (w1.staking.escrowPools q).iPROVEEscrow else sc) = pay at h hle
  split at h
  · simp only [liftBind_ok, emitBind_ok, pureE_ok, modStaking_ok] at h
    obtain ⟨_, _, rfl, n, w2, h3, _, ⟨_, rfl, rfl⟩, rfl⟩ := h
    obtain ⟨_, _, _, i0, i1, p1, h4, h5, _, rfl⟩ := iproveRedeem_ok h3
    obtain ⟨_, _, rfl⟩ := Erc20.burn_ok h5
    have h6 : (upd i0.bal cfg.staking (i0.bal cfg.staking - pay)) p = w1.iprove.bal p := by
      have : i0.bal = w1.iprove.bal := by
        rcases h4 with rfl | h4
        · rfl
        · exact (Erc20.spend_ok h4).2.1
      rw [this]; unfold upd; rw [if_neg hp]
    refine Backs.of_eq ?_ ?_
    · show ((upd i0.bal cfg.staking (i0.bal cfg.staking - pay) p : Nat) : Int) +
        ((upd w1.staking.escrowPools q _ p).iPROVEEscrow : Int) = _
      rw [h6]
      unfold upd
      by_cases e : p = q
      · subst e; simp [backingSum, Ev.backing]; omega
      · simp [e, Ne.symm e, backingSum, Ev.backing]
    · show ((upd w1.staking.escrowPools q _ p).iPROVEEscrow : Int) = _
      unfold upd
      by_cases e : p = q
      · subst e; simp [queuedSum, Ev.queued]; omega
      · simp [e, Ne.symm e, queuedSum, Ev.queued]
  · rename_i h0
    have h0 : pay = 0 := by omega
    subst h0
    simp only [emitBind_ok, pureE_ok] at h
    obtain ⟨_, ⟨_, rfl, rfl⟩, rfl⟩ := h
    exact Backs.of_eq (by simp [backingSum, Ev.backing]) (by simp [queuedSum, Ev.queued])

theorem finishLoopE_b (cfg : Cfg) (c : Ctx) (p x q : Address) (fuel : Nat) (hp : p ≠ cfg.staking) :
    ∀ i paid, Backed p (finishLoopE cfg c x q fuel i paid) := by
  have key := fun cl => finishUnstakeRequestE_b cfg p x q cl hp
  induction fuel with
  | zero => intro i paid; exact Backed.pure _
  | succ n ih =>
    intro i paid
    unfold finishLoopE
    refine Backed.bind (Backed.lift Calm.get) fun w => ?_
    split
    · b_all
    · b_all
      all_goals first | exact key _ | exact ih _ _

theorem finishUnstakeE_b (cfg : Cfg) (c : Ctx) (p x : Address) (hp : p ≠ cfg.staking) : Backed p (finishUnstakeE cfg c x) := by
  have key := fun q fuel => finishLoopE_b cfg c p x q fuel hp
  have tail : ∀ (q : Address) (paid : Nat), Backed p (do
      let w ← get
      let pool := w.staking.escrowPools q
      if pool.iPROVEEscrow = 0 ∧ pool.slashFactor ≠ SCALAR then
        modStaking fun s => { s with escrowPools := upd s.escrowPools q { pool with slashFactor := SCALAR } }
      let w ← get
      if w.st.bal x = 0 ∧ w.staking.unstakeClaims x = [] then
        modStaking fun s => { s with stakerToProver := upd s.stakerToProver x 0 }
        emit (.proverUnbound x q)
      return paid : LM Nat) := by
    intro q paid w r w' es h
    have rest : Backed p (do
      let w ← get
      if w.st.bal x = 0 ∧ w.staking.unstakeClaims x = [] then
        modStaking fun s => { s with stakerToProver := upd s.stakerToProver x 0 }
        emit (.proverUnbound x q)
      return paid : LM Nat) := by
      b_all
    obtain ⟨_, w1, h1, g⟩ := liftBind_ok.mp h
    obtain ⟨rfl, rfl⟩ := get_ok.mp h1
    dsimp only at g
    split at g
    · obtain ⟨_, _, h2, g2⟩ := liftBind_ok.mp g
      obtain rfl := modStaking_ok.mp h2
      have r1 := rest _ _ _ _ g2
      have e : ∀ z, (upd w1.staking.escrowPools q { w1.staking.escrowPools q with slashFactor := SCALAR } z).iPROVEEscrow =
          (w1.staking.escrowPools z).iPROVEEscrow := by
        intro z; unfold upd; split
        · rename_i hz; subst hz; rfl
        · rfl
      have r0 : Backs p [] w1 { w1 with staking := { w1.staking with
          escrowPools := upd w1.staking.escrowPools q { w1.staking.escrowPools q with slashFactor := SCALAR } } } :=
        Backs.of_eq (by simp [backingSum, e]) (by simp [queuedSum, e])
      exact r0.trans r1
    · exact rest _ _ _ _ g
  unfold finishUnstakeE
  repeat' first | with_reducible exact tail _ _ | with_reducible exact key _ _ _ _ | b_step

theorem finishSlashE_b (cfg : Cfg) (c : Ctx) (p q : Address) (i : Nat) (hp : p ≠ cfg.staking) :
    Backed p (finishSlashE cfg c q i) := by
  have hd := deactivateIfBelowMinE_b p q
  intro w r w' es h
  simp only [finishSlashE, liftBind_ok, get_ok, require_ok, stakingOnlyOwner_ok, onlyForProver_ok, liftO_ok, add256_ok] at h
  obtain ⟨_, _, ⟨_, rfl⟩, _, _, ⟨h1, rfl⟩, _, _, ⟨rfl, rfl⟩, claim, _, ⟨h2, rfl⟩, _, _, ⟨h3, rfl⟩, _, _, ⟨rfl, rfl⟩,
    t, w, ⟨_, rfl, rfl⟩, _, w0, hres, h⟩ := h
  have hcalm := resolveSlash_c _ _ _ _ _ _ hres
  refine Backs.trans (e1 := []) hcalm.backs ?_
  have last : ∀ (b : Nat × Nat) (w1 : World), Backs p [.slash q b.1 b.2 i] w0 w1 →
      (emit (.slash q b.1 b.2 i) >>= fun _ => deactivateIfBelowMinE q >>= fun _ => (pure b.2 : LM Nat)) w1 = .ok (r, w', es) →
      Backs p es w0 w' := by
    intro b w1 hb h
    obtain ⟨es', h3, rfl⟩ := emitBind_ok.mp h
    obtain ⟨_, w2, e1, e2, h4, h5, rfl⟩ := bindE_ok.mp h3
    obtain ⟨_, rfl, rfl⟩ := pureE_ok.mp h5
    have := hb.trans (hd _ _ _ _ h4)
    simpa using this
  generalize (if w.iprove.bal q + (w.staking.escrowPools q).iPROVEEscrow < claim.iPROVE then
    w.iprove.bal q + (w.staking.escrowPools q).iPROVEEscrow else claim.iPROVE) = x at h
  split at h
  · obtain ⟨b, w1, h4, h⟩ := liftBind_ok.mp h
    refine last b w1 ?_ h
    obtain ⟨hb, hle, fe, fv, pr, ip, f, _, hfx, hfv, hfe, ⟨i1, e1, e2, _⟩, _, rfl⟩ := slashBurn_ok (slashBurnE_ok h4)
    have a1 : i1.bal p = w0.iprove.bal p := by
      split at e1
      · rw [e1]
      · obtain ⟨_, _, rfl⟩ := Erc20.burn_ok e1
        show upd _ _ _ p = _
        unfold upd; rw [if_neg hp]
    have a2 : (ip.bal p : Int) = w0.iprove.bal p - if p = q then (fv : Int) else 0 := by
      rw [← a1]
      split at e2
      · rename_i h0; rw [e2, h0]; simp
      · obtain ⟨_, hv, rfl⟩ := Erc20.burn_ok e2
        show ((upd _ _ _ p : Nat) : Int) = _
        unfold upd
        by_cases e : p = q
        · subst e; simp; omega
        · simp [e]
    constructor
    · show _ ≤ (ip.bal p : Int) + ((upd w0.staking.escrowPools q _ p).iPROVEEscrow : Int)
      rw [a2]
      unfold upd
      by_cases e : p = q
      · subst e; simp [backingSum, Ev.backing]; omega
      · simp [e, Ne.symm e, backingSum, Ev.backing]
    · intro _
      show (ip.bal p : Int) + ((upd w0.staking.escrowPools q _ p).iPROVEEscrow : Int) = _
      rw [a2]
      unfold upd
      by_cases e : p = q
      · subst e; simp [backingSum, Ev.backing]; omega
      · simp [e, Ne.symm e, backingSum, Ev.backing]
    · show ((upd w0.staking.escrowPools q _ p).iPROVEEscrow : Int) ≤ _
      unfold upd
      by_cases e : p = q
      · subst e; simp [queuedSum, Ev.queued]
      · simp [e, queuedSum, Ev.queued]
    · intro hn
      have e : p ≠ q := fun e => hn _ (List.mem_cons_self ..) e.symm
      show ((upd w0.staking.escrowPools q _ p).iPROVEEscrow : Int) = _
      unfold upd
      simp [e, queuedSum, Ev.queued]
  · obtain ⟨b, w1, e1, e2, h4, h5, rfl⟩ := bindE_ok.mp h
    obtain ⟨rfl, rfl, rfl⟩ := pureE_ok.mp h4
    refine last (0, 0) _ ?_ h5
    exact Backs.of_eq (by simp [backingSum, Ev.backing]) (by simp [queuedSum, Ev.queued])

/-- One successful call. -/
theorem execE_backs {cfg : Cfg} {c : Ctx} {k : Call} {w w' : World} {p : Address} {es : List Ev} (hp : p ≠ cfg.staking)
    (hr : Registry cfg w) (ha : Admissible cfg (c, k)) (h : exec cfg c k w = .ok ((), w'))
    (he : execE cfg c k w = .ok ((), w', es)) : Backs p es w w' := by
  have direct : execE cfg c k = quiet (exec cfg c k) → SameShares w w' →
      w'.staking.escrowPools = w.staking.escrowPools → Backs p es w w' := by
    intro hq h1 h2
    rw [hq] at he
    obtain ⟨_, rfl⟩ := quiet_ok.mp he
    exact CalmW.backs ⟨h1.bal, h2⟩
  have hf := exec_fields h
  have hs : (∀ q v, k ≠ .stake q v) → (∀ s q f v, k ≠ .permitAndStake s q f v) → (∀ v, k ≠ .requestUnstake v) →
      (∀ s, k ≠ .finishUnstake s) → (∀ q i, k ≠ .finishSlash q i) → (∀ a b, k ≠ .step a b) → SameShares w w' := by
    intro n1 n2 n3 n4 n5 n6
    cases exec_flow hr ha h with
    | other _ _ e3 => exact e3
    | move _ _ _ _ _ _ _ _ _ _ _ _ e3 => exact e3
    | mint _ _ _ _ _ e3 => exact e3
    | burn _ _ _ _ _ _ _ _ e3 => exact e3
    | dispense _ _ _ _ _ e3 => exact e3
    | stake _ _ _ _ _ _ _ hs =>
      rcases hs with ⟨hs, _⟩ | ⟨_, hs⟩
      · exact (n1 _ _ hs).elim
      · exact (n2 _ _ _ _ hs).elim
    | requestUnstake _ hk => exact (n3 _ hk).elim
    | finishUnstake _ _ hk => exact (n4 _ hk).elim
    | finishSlash _ _ _ hk => exact (n5 _ _ hk).elim
    | step _ _ _ hk => exact (n6 _ _ hk).elim
  cases k
  case deposit => exact Backed.drop (vappDepositE_b _ _ _ _) _ _ _ _ he
  case permitAndDeposit => exact Backed.drop (vappPermitAndDepositE_b _ _ _ _ _) _ _ _ _ he
  case vappCreateProver => exact Backed.drop (vappCreateProverE_b _ _ _ _ _ _) _ _ _ _ he
  case step => exact Backed.drop (vappStepE_b _ _ _ _ _) _ _ _ _ he
  case fork => exact Backed.drop (vappForkE_b _ _ _ _) _ _ _ _ he
  case updateAuctioneer => exact vappUpdateAuctioneerE_b _ _ _ _ _ _ _ he
  case updateStaking => exact vappUpdateStakingE_b _ _ _ _ _ _ _ he
  case updateVerifier => exact vappUpdateVerifierE_b _ _ _ _ _ _ _ he
  case updateMinDeposit => exact vappUpdateMinDepositE_b _ _ _ _ _ _ _ he
  case pause => exact vappPauseE_b _ _ _ _ _ _ he
  case unpause => exact vappUnpauseE_b _ _ _ _ _ _ he
  case vappSetOwner => exact vappSetOwnerE_b _ _ _ _ _ _ _ he
  case createProver => exact Backed.drop (createProverE_b _ _ _ _) _ _ _ _ he
  case stake => exact Backed.drop (stakeE_b _ _ _ _ _ hp) _ _ _ _ he
  case permitAndStake => exact Backed.drop (permitAndStakeE_b _ _ _ _ _ _ hp) _ _ _ _ he
  case requestUnstake => exact requestUnstakeE_b _ _ _ _ hp _ _ _ _ he
  case finishUnstake => exact Backed.drop (finishUnstakeE_b _ _ _ _ hp) _ _ _ _ he
  case requestSlash => exact Backed.drop (requestSlashE_b _ _ _ _ _) _ _ _ _ he
  case cancelSlash => exact cancelSlashE_b _ _ _ _ _ _ _ _ he
  case finishSlash => exact Backed.drop (finishSlashE_b _ _ _ _ _ hp) _ _ _ _ he
  case dispense => exact dispenseE_b _ _ _ _ _ _ _ _ he
  case setDispenser => exact setDispenserE_b _ _ _ _ _ _ _ he
  case updateDispenseRate => exact updateDispenseRateE_b _ _ _ _ _ _ _ he
  case stakingSetOwner => exact stakingSetOwnerE_b _ _ _ _ _ _ _ he
  all_goals exact direct rfl (hs nofun nofun nofun nofun nofun nofun) (hf.pools nofun nofun nofun)

end Verif
