import Verif.EventTold3
import Verif.L1Moves
/-
# The amounts of $PROVE in the events and the balances
-/

namespace Verif
open L1 LM

/-- What account `a` gains when `v` goes from `f` to `to`. -/
def payment (a f to : Address) (v : Nat) : Int := (if a = to then (v : Int) else 0) - (if a = f then (v : Int) else 0)

/-- What account `a` gains in $PROVE according to one event; `reg` are the registered provers. -/
def Ev.flow (cfg : Cfg) (reg : Address → Bool) (a : Address) : Ev → Int
  | .deposit f v => payment a f cfg.vapp v
  | .withdraw to v => payment a cfg.vapp (if reg to then cfg.iprove else to) v
  | .stake f _ v _ _ => payment a f cfg.iprove v
  | .unstake to _ v _ => payment a cfg.iprove to v
  | .slash _ v _ _ => - (if a = cfg.iprove then (v : Int) else 0)
  | .dispense v => payment a cfg.staking cfg.iprove v
  | _ => 0

/-- The $PROVE that is destroyed according to one event. -/
def Ev.burned : Ev → Nat
  | .slash _ v _ _ => v
  | _ => 0

/-- What account `a` gains according to a log, with a fixed registry. -/
def flowSum (cfg : Cfg) (reg : Address → Bool) (a : Address) (es : List Ev) : Int := (es.map (Ev.flow cfg reg a)).sum

/-- What is destroyed according to a log. -/
def burnSum (es : List Ev) : Nat := (es.map Ev.burned).sum

theorem flowSum_append {cfg : Cfg} {reg : Address → Bool} {a : Address} {x y : List Ev} :
    flowSum cfg reg a (x ++ y) = flowSum cfg reg a x + flowSum cfg reg a y := by
  simp [flowSum]

theorem burnSum_append {x y : List Ev} : burnSum (x ++ y) = burnSum x + burnSum y := by
  simp [burnSum]

theorem flowSum_cons {cfg : Cfg} {reg : Address → Bool} {a : Address} {e : Ev} {y : List Ev} :
    flowSum cfg reg a (e :: y) = e.flow cfg reg a + flowSum cfg reg a y := by
  simp [flowSum]

theorem burnSum_cons {e : Ev} {y : List Ev} : burnSum (e :: y) = e.burned + burnSum y := by
  simp [burnSum]

/-- Every account gains `f`, `b` is destroyed, and the registry and its address do not change. -/
structure Shifts (f : Address → Int) (b : Nat) (w w' : World) : Prop where
  bal : ∀ a, (w'.prove.bal a : Int) = w.prove.bal a + f a
  supply : w'.prove.supply = w.prove.supply - b
  provers : w'.staking.provers = w.staking.provers
  link : w'.vapp.staking = w.vapp.staking

theorem Shifts.trans {f g : Address → Int} {b c : Nat} {w1 w2 w3 : World} (h1 : Shifts f b w1 w2) (h2 : Shifts g c w2 w3) :
    Shifts (fun a => f a + g a) (b + c) w1 w3 where
  bal a := by have := h1.bal a; have := h2.bal a; omega
  supply := by have := h1.supply; have := h2.supply; omega
  provers := h2.provers.trans h1.provers
  link := h2.link.trans h1.link

theorem Shifts.cast {f g : Address → Int} {b c : Nat} {w w' : World} (h : Shifts f b w w') (e : ∀ a, f a = g a) (e' : b = c) :
    Shifts g c w w' := by
  have : f = g := funext e
  rw [← this, ← e']; exact h

theorem Shifts.refl (w : World) : Shifts (fun _ => 0) 0 w w := ⟨fun _ => by omega, rfl, rfl, rfl⟩

/-! ## Code that moves no $PROVE -/

/-- No $PROVE moves. -/
def StillW (w w' : World) : Prop := Shifts (fun _ => 0) 0 w w'

theorem StillW.pre : Pre StillW where
  refl w := Shifts.refl w
  trans _ _ _ h1 h2 := (Shifts.trans h1 h2).cast (fun _ => rfl) rfl

/-- Code that moves no $PROVE. -/
def Still {α : Type} (m : L1 α) : Prop := Within StillW m

namespace Still
variable {α β : Type}
theorem pure (a : α) : Still (pure a : L1 α) := fun w _ w' h => by rw [(pure_ok.mp h).2]; exact Shifts.refl w
theorem get : Still L1.get := fun w _ w' h => by rw [(get_ok.mp h).2]; exact Shifts.refl w
theorem require (c : Prop) [Decidable c] (e : L1Err) : Still (L1.require c e) := fun w _ w' h => by rw [(require_ok.mp h).2]; exact Shifts.refl w
theorem lift (x : Except L1Err α) : Still (L1.lift x) := fun w _ w' h => by rw [(lift_ok.mp h).2]; exact Shifts.refl w
theorem liftO (x : Option α) (e : L1Err) : Still (L1.liftO x e) := fun w _ w' h => by rw [(liftO_ok.mp h).2]; exact Shifts.refl w
theorem throw (e : L1Err) : Still (L1.throw e : L1 α) := fun _ _ _ h => (throw_ok.mp h).elim
theorem bind {m : L1 α} {f : α → L1 β} (hm : Still m) (hf : ∀ a, Still (f a)) : Still (m >>= f) :=
  Within.bind StillW.pre hm hf
theorem ite {c : Prop} [Decidable c] {m n : L1 α} (h1 : Still m) (h2 : Still n) : Still (if c then m else n) := by
  split <;> assumption
end Still

theorem onIprove_s (f) : Still (onIprove f) := by
  intro w _ w' h
  obtain ⟨t, _, rfl⟩ := onIprove_ok.mp h
  exact ⟨fun _ => by simp, rfl, rfl, rfl⟩
theorem onVault_s (p f) : Still (onVault p f) := by
  intro w _ w' h
  obtain ⟨t, _, rfl⟩ := onVault_ok.mp h
  exact ⟨fun _ => by simp, rfl, rfl, rfl⟩
theorem onSt_s (b f) : Still (onSt b f) := by
  intro w _ w' h
  obtain ⟨t, _, _, rfl⟩ := onSt_ok.mp h
  exact ⟨fun _ => by simp, rfl, rfl, rfl⟩
theorem modStaking_s (f : Staking → Staking) (h0 : ∀ s, (f s).provers = s.provers) : Still (modStaking f) := by
  intro w _ w' h
  rw [(modStaking_ok.mp h)]
  exact ⟨fun _ => by simp, rfl, h0 _, rfl⟩
theorem modVapp_s (f : VApp → VApp) (h0 : ∀ s, (f s).staking = s.staking) : Still (modVapp f) := by
  intro w _ w' h
  rw [(modVapp_ok.mp h)]
  exact ⟨fun _ => by simp, rfl, rfl, h0 _⟩
theorem provePermit_s (s o p v) : Still (provePermit s o p v) := by
  intro w _ w' h
  obtain ⟨_, t, g, rfl⟩ := provePermit_ok h
  obtain ⟨_, _, rfl⟩ := Erc20.approve_ok g
  exact ⟨fun _ => by simp, rfl, rfl, rfl⟩

/-- One decomposition step of `Still m`. -/
syntax "s_step" : tactic
macro_rules | `(tactic| s_step) => `(tactic| first
  | with_reducible apply Still.pure
  | with_reducible apply Still.get
  | with_reducible apply Still.require
  | with_reducible apply Still.lift
  | with_reducible apply Still.liftO
  | with_reducible apply Still.throw
  | with_reducible apply Still.bind
  | with_reducible apply Still.ite
  | with_reducible apply onIprove_s | with_reducible apply onVault_s | with_reducible apply onSt_s
  | with_reducible apply provePermit_s
  | (with_reducible apply modStaking_s) <;> (intro _; rfl)
  | (with_reducible apply modVapp_s) <;> (intro _; rfl)
  | with_reducible intro _)
/-- Decompose `Still m` along the program. -/
macro "s" : tactic => `(tactic| repeat' s_step)

theorem add256_s (x y) : Still (add256 x y) := by
  unfold add256; s
macro_rules | `(tactic| s_step) => `(tactic| with_reducible apply add256_s)
theorem sub256_s (x y) : Still (sub256 x y) := by
  unfold sub256; s
macro_rules | `(tactic| s_step) => `(tactic| with_reducible apply sub256_s)
theorem mul256_s (x y) : Still (mul256 x y) := by
  unfold mul256; s
macro_rules | `(tactic| s_step) => `(tactic| with_reducible apply mul256_s)
theorem mulDiv_s (x y d) : Still (mulDiv x y d) := by
  unfold mulDiv; s
macro_rules | `(tactic| s_step) => `(tactic| with_reducible apply mulDiv_s)
theorem inc64_s (x) : Still (inc64 x) := by
  unfold inc64; s
macro_rules | `(tactic| s_step) => `(tactic| with_reducible apply inc64_s)
theorem iproveCheck_s (cfg s f t) : Still (iproveCheck cfg s f t) := by
  unfold iproveCheck; s
macro_rules | `(tactic| s_step) => `(tactic| with_reducible apply iproveCheck_s)
theorem iproveMint_s (cfg s t v) : Still (iproveMint cfg s t v) := by
  unfold iproveMint; s
macro_rules | `(tactic| s_step) => `(tactic| with_reducible apply iproveMint_s)
theorem iproveBurnShares_s (cfg s f v) : Still (iproveBurnShares cfg s f v) := by
  unfold iproveBurnShares; s
macro_rules | `(tactic| s_step) => `(tactic| with_reducible apply iproveBurnShares_s)
theorem iproveMove_s (cfg s f t v) : Still (iproveMove cfg s f t v) := by
  unfold iproveMove; s
macro_rules | `(tactic| s_step) => `(tactic| with_reducible apply iproveMove_s)
theorem iproveSpend_s (cfg o s v) : Still (iproveSpend cfg o s v) := by
  unfold iproveSpend; s
macro_rules | `(tactic| s_step) => `(tactic| with_reducible apply iproveSpend_s)
theorem iprovePreviewRedeem_s (cfg s) : Still (iprovePreviewRedeem cfg s) := by
  unfold iprovePreviewRedeem; s
macro_rules | `(tactic| s_step) => `(tactic| with_reducible apply iprovePreviewRedeem_s)
theorem iprovePreviewDeposit_s (cfg s) : Still (iprovePreviewDeposit cfg s) := by
  unfold iprovePreviewDeposit; s
macro_rules | `(tactic| s_step) => `(tactic| with_reducible apply iprovePreviewDeposit_s)
theorem vaultCheck_s (cfg s) : Still (vaultCheck cfg s) := by
  unfold vaultCheck; s
macro_rules | `(tactic| s_step) => `(tactic| with_reducible apply vaultCheck_s)
theorem vaultSpend_s (cfg p o s v) : Still (vaultSpend cfg p o s v) := by
  unfold vaultSpend; s
macro_rules | `(tactic| s_step) => `(tactic| with_reducible apply vaultSpend_s)
theorem vaultDeposit_s (cfg s p a r) : Still (vaultDeposit cfg s p a r) := by
  unfold vaultDeposit; s
macro_rules | `(tactic| s_step) => `(tactic| with_reducible apply vaultDeposit_s)
theorem vaultRedeem_s (cfg s p a r o) : Still (vaultRedeem cfg s p a r o) := by
  unfold vaultRedeem; s
macro_rules | `(tactic| s_step) => `(tactic| with_reducible apply vaultRedeem_s)
theorem whenNotPaused_s : Still (whenNotPaused) := by
  unfold whenNotPaused; s
macro_rules | `(tactic| s_step) => `(tactic| with_reducible apply whenNotPaused_s)
theorem onlyForProver_s (p) : Still (onlyForProver p) := by
  unfold onlyForProver; s
macro_rules | `(tactic| s_step) => `(tactic| with_reducible apply onlyForProver_s)
theorem requireNoSlash_s (p) : Still (requireNoSlash p) := by
  unfold requireNoSlash; s
macro_rules | `(tactic| s_step) => `(tactic| with_reducible apply requireNoSlash_s)
theorem maxDispense_s (c) : Still (maxDispense c) := by
  unfold maxDispense; s
macro_rules | `(tactic| s_step) => `(tactic| with_reducible apply maxDispense_s)
theorem stakingOnlyOwner_s (c) : Still (stakingOnlyOwner c) := by
  unfold stakingOnlyOwner; s
macro_rules | `(tactic| s_step) => `(tactic| with_reducible apply stakingOnlyOwner_s)
theorem requireFinal_s (r) : Still (requireFinal r) := by
  unfold requireFinal; s
macro_rules | `(tactic| s_step) => `(tactic| with_reducible apply requireFinal_s)
theorem assertEq_s (t r) : Still (assertEq t r) := by
  unfold assertEq; split <;> s
macro_rules | `(tactic| s_step) => `(tactic| with_reducible apply assertEq_s)
theorem createTransaction_s (v d) : Still (createTransaction v d) := by
  unfold createTransaction; s
macro_rules | `(tactic| s_step) => `(tactic| with_reducible apply createTransaction_s)
theorem resolveSlash_s (p i c) : Still (resolveSlash p i c) := by
  unfold resolveSlash; s
macro_rules | `(tactic| s_step) => `(tactic| with_reducible apply resolveSlash_s)

/-! ## Code that moves $PROVE without an event of its own -/

theorem transfer_pay {t t' : Erc20} {f to : Address} {v : Nat} (h : t.transfer f to v = .ok t') :
    (∀ a, (t'.bal a : Int) = t.bal a + payment a f to v) ∧ t'.supply = t.supply := by
  obtain ⟨_, _, h3, rfl⟩ := Erc20.transfer_ok h
  refine ⟨fun a => ?_, rfl⟩
  show ((upd (upd t.bal f (t.bal f - v)) to (upd t.bal f (t.bal f - v) to + v) a : Nat) : Int) = _
  unfold upd payment
  by_cases h1 : a = to
  · subst h1
    by_cases h2 : a = f
    · subst h2; simp; omega
    · simp [h2]
  · by_cases h2 : a = f
    · subst h2; simp [h1]; omega
    · simp [h1, h2]

theorem proveTransferFrom_pay {x f to : Address} {v : Nat} {u : Unit} {w w' : World}
    (h : proveTransferFrom x f to v w = .ok (u, w')) : Shifts (fun a => payment a f to v) 0 w w' := by
  obtain ⟨t1, t2, g1, g2, rfl⟩ := proveTransferFrom_ok h
  obtain ⟨_, e1, e2, _⟩ := Erc20.spend_ok g1
  obtain ⟨e3, e4⟩ := transfer_pay g2
  exact ⟨fun a => by have := e3 a; rw [e1] at this; exact this, by rw [← e2]; exact e4, rfl, rfl⟩

theorem proveTransfer_pay {f to : Address} {v : Nat} {u : Unit} {w w' : World}
    (h : proveTransfer f to v w = .ok (u, w')) : Shifts (fun a => payment a f to v) 0 w w' := by
  obtain ⟨t2, g2, rfl⟩ := proveTransfer_ok h
  obtain ⟨e3, e4⟩ := transfer_pay g2
  exact ⟨e3, e4, rfl, rfl⟩

theorem transferProveToStaking_pay {cfg : Cfg} {x p f : Address} {v : Nat} {u : Unit} {w w' : World}
    (h : transferProveToStaking cfg x p f v w = .ok (u, w')) : Shifts (fun a => payment a f cfg.staking v) 0 w w' := by
  obtain ⟨_, t1, t2, g1, g2, rfl⟩ := transferProveToStaking_ok h
  obtain ⟨_, e1, e2, _⟩ := Erc20.spend_ok g1
  obtain ⟨e3, e4⟩ := transfer_pay g2
  exact ⟨fun a => by have := e3 a; rw [e1] at this; exact this, by rw [← e2]; exact e4, rfl, rfl⟩

theorem iproveDeposit_pay {cfg : Cfg} {x r : Address} {v n : Nat} {w w' : World}
    (h : iproveDeposit cfg x v r w = .ok (n, w')) : Shifts (fun a => payment a x cfg.iprove v) 0 w w' := by
  obtain ⟨_, _, t1, t2, t3, g1, g2, _, _, rfl⟩ := iproveDeposit_ok h
  obtain ⟨_, e1, e2, _⟩ := Erc20.spend_ok g1
  obtain ⟨e3, e4⟩ := transfer_pay g2
  exact ⟨fun a => by have := e3 a; rw [e1] at this; exact this, by rw [← e2]; exact e4, rfl, rfl⟩

theorem iproveRedeem_pay {cfg : Cfg} {x r o : Address} {v n : Nat} {w w' : World}
    (h : iproveRedeem cfg x v r o w = .ok (n, w')) : Shifts (fun a => payment a cfg.iprove r n) 0 w w' := by
  obtain ⟨_, _, _, i0, i1, p1, _, _, g2, rfl⟩ := iproveRedeem_ok h
  obtain ⟨e3, e4⟩ := transfer_pay g2
  exact ⟨e3, e4, rfl, rfl⟩

theorem iproveBurn_pay {cfg : Cfg} {x f : Address} {v n : Nat} {w w' : World}
    (h : iproveBurn cfg x f v w = .ok (n, w')) :
    Shifts (fun a => - (if a = cfg.iprove then (n : Int) else 0)) n w w' := by
  obtain ⟨_, _, p1, i1, g1, _, rfl⟩ := iproveBurn_ok h
  obtain ⟨_, h2, rfl⟩ := Erc20.burn_ok g1
  refine ⟨fun a => ?_, rfl, rfl, rfl⟩
  show ((upd w.prove.bal cfg.iprove (w.prove.bal cfg.iprove - n) a : Nat) : Int) = _
  unfold upd
  by_cases ha : a = cfg.iprove
  · subst ha; simp; omega
  · simp [ha]

/-! ## Code with events -/

/-- The $PROVE that moves is the $PROVE in the events. -/
def Flows (cfg : Cfg) {α : Type} (m : LM α) : Prop := ∀ w r w' es, m w = .ok (r, w', es) → w.vapp.staking = cfg.staking →
  Shifts (fun a => flowSum cfg w.staking.provers a es) (burnSum es) w w'

namespace Flows
variable {cfg : Cfg} {α β : Type}
theorem pure (a : α) : Flows cfg (pure a : LM α) := by
  intro w r w' es h _
  obtain ⟨_, rfl, rfl⟩ := pureE_ok.mp h
  exact Shifts.refl _
theorem lift {m : L1 α} (hm : Still m) : Flows cfg (liftM m : LM α) := by
  intro w r w' es h _
  obtain ⟨g, rfl⟩ := liftE_ok.mp h
  exact hm _ _ _ g
theorem bind {m : LM α} {f : α → LM β} (hm : Flows cfg m) (hf : ∀ a, Flows cfg (f a)) : Flows cfg (m >>= f) := by
  intro w r w' es h hl
  obtain ⟨a, w1, e1, e2, h1, h2, rfl⟩ := bindE_ok.mp h
  have m1 := hm _ _ _ _ h1 hl
  have m2 := hf a _ _ _ _ h2 (by rw [m1.link]; exact hl)
  refine (m1.trans m2).cast (fun a => ?_) (burnSum_append).symm
  rw [flowSum_append, m1.provers]
theorem ite {c : Prop} [Decidable c] {m n : LM α} (h1 : Flows cfg m) (h2 : Flows cfg n) : Flows cfg (if c then m else n) := by
  split <;> assumption
theorem drop {m : LM α} (hm : Flows cfg m) : Flows cfg (dropE m) := by
  intro w u w' es h
  obtain ⟨a, h⟩ := dropE_ok.mp h
  exact hm _ _ _ _ h
theorem emit {e : Ev} (h : ∀ reg a, e.flow cfg reg a = 0) (hb : e.burned = 0) : Flows cfg (emit e) := by
  intro w u w' es he _
  obtain ⟨rfl, rfl⟩ := emit_ok.mp he
  refine (Shifts.refl _).cast (fun a => ?_) ?_
  · rw [flowSum_cons, h]; rfl
  · rw [burnSum_cons, hb]; rfl
end Flows

/-- One decomposition step of `Flows cfg m`. -/
syntax "f_step" : tactic
macro_rules | `(tactic| f_step) => `(tactic| first
  | with_reducible assumption
  | with_reducible apply Flows.pure
  | with_reducible apply Flows.bind
  | with_reducible apply Flows.ite
  | with_reducible apply Flows.drop
  | (with_reducible apply Flows.lift) <;> (s; done)
  | (with_reducible apply Flows.emit) <;> (intros; rfl)
  | with_reducible intro _)
/-- Decompose `Flows cfg m` along the program. -/
macro "f" : tactic => `(tactic| repeat' f_step)

theorem pay_trans (a x y z : Address) (v : Nat) : payment a x y v + payment a y z v = payment a x z v := by
  unfold payment; omega

theorem vappDepositFromE_flow (cfg : Cfg) (from_ : Address) (amount : U256) : Flows cfg (vappDepositFromE cfg from_ amount) := by
  unfold vappDepositFromE createTransactionE
  have key : ∀ id : U64, Flows cfg (do
      proveTransferFrom cfg.vapp from_ cfg.vapp amount.toNat
      LM.emit (.deposit from_ amount.toNat)
      return id : LM U64) := by
    intro id w r w' es h _
    obtain ⟨_, w1, h1, h⟩ := liftBind_ok.mp h
    obtain ⟨es', h2, rfl⟩ := emitBind_ok.mp h
    obtain ⟨_, rfl, rfl⟩ := pureE_ok.mp h2
    refine (proveTransferFrom_pay h1).cast (fun a => ?_) rfl
    simp [flowSum, Ev.flow]
  f

theorem vappDepositE_flow (cfg : Cfg) (c : Ctx) (amount : U256) : Flows cfg (vappDepositE cfg c amount) := by
  have := vappDepositFromE_flow cfg c.sender amount
  unfold vappDepositE
  f

theorem vappPermitAndDepositE_flow (cfg : Cfg) (x from_ : Address) (amount : U256) :
    Flows cfg (vappPermitAndDepositE cfg x from_ amount) := by
  have := vappDepositFromE_flow cfg from_ amount
  unfold vappPermitAndDepositE
  f

theorem processWithdrawE_flow (cfg : Cfg) (c : Ctx) (to : Address) (v : Nat) : Flows cfg (processWithdrawE cfg c to v) := by
  intro w r w' es h hl
  unfold processWithdrawE at h
  obtain ⟨_, w1, h1, h⟩ := liftBind_ok.mp h
  obtain ⟨rfl, rfl⟩ := emit_ok.mp h
  have e : ∀ a, flowSum cfg w.staking.provers a [.withdraw to v] =
      payment a cfg.vapp (if w.staking.provers to then cfg.iprove else to) v := by
    intro a; simp [flowSum, Ev.flow]
  unfold processWithdraw at h1
  obtain ⟨w2, w3, g1, g2⟩ := bind_ok.mp h1
  obtain ⟨rfl, rfl⟩ := get_ok.mp g1
  have ep : isProverFor cfg c w3 to = w3.staking.provers to := by unfold isProverFor; rw [if_pos hl]
  rw [ep] at g2
  split at g2
  · rename_i hp
    obtain ⟨n, w4, g3, g4⟩ := bind_ok.mp g2
    obtain ⟨_, rfl⟩ := pure_ok.mp g4
    refine (iproveDeposit_pay g3).cast (fun a => ?_) rfl
    rw [e, hp]; rfl
  · rename_i hp
    refine (proveTransfer_pay g2).cast (fun a => ?_) rfl
    rw [e, if_neg hp]

theorem handleReceiptsE_flow (cfg : Cfg) (c : Ctx) (rs : List SolReceipt) : Flows cfg (handleReceiptsE cfg c rs) := by
  induction rs with
  | nil => exact Flows.pure _
  | cons r rs ih =>
    have hw := processWithdrawE_flow cfg c
    unfold handleReceiptsE handleOnchainE handleOffchainE
    f
    all_goals exact hw _ _

theorem vappStepE_flow (cfg : Cfg) (c : Ctx) (pv pr : Bytes) : Flows cfg (vappStepE cfg c pv pr) := by
  have := handleReceiptsE_flow cfg c
  unfold vappStepE
  f
  all_goals exact this _

/-- The $PROVE that moves is the $PROVE in the events and `d`. -/
def Off (cfg : Cfg) (d : Address → Int) {α : Type} (m : LM α) : Prop := ∀ w r w' es, m w = .ok (r, w', es) →
  w.vapp.staking = cfg.staking → Shifts (fun a => d a + flowSum cfg w.staking.provers a es) (burnSum es) w w'

theorem Off.after {cfg : Cfg} {d : Address → Int} {α β : Type} {m : LM α} {f : α → LM β} (hm : Flows cfg m)
    (hf : ∀ a, Off cfg d (f a)) : Off cfg d (m >>= f) := by
  intro w r w' es h hl
  obtain ⟨a, w1, e1, e2, h1, h2, rfl⟩ := bindE_ok.mp h
  have m1 := hm _ _ _ _ h1 hl
  have m2 := hf a _ _ _ _ h2 (by rw [m1.link]; exact hl)
  refine (m1.trans m2).cast (fun a => ?_) (burnSum_append).symm
  rw [flowSum_append, m1.provers]
  omega

theorem Off.ite {cfg : Cfg} {d : Address → Int} {α : Type} {c : Prop} [Decidable c] {m n : LM α} (h1 : Off cfg d m)
    (h2 : Off cfg d n) : Off cfg d (if c then m else n) := by
  split <;> assumption

/-- One decomposition step of `Off cfg d m`. -/
macro "o_step" : tactic => `(tactic| first
  | with_reducible assumption
  | with_reducible apply Off.after
  | with_reducible apply Off.ite
  | with_reducible intro _
  | dsimp only)

/-- The staking contract passes on what it was given, and the event names the staker. -/
theorem stakeForE_flow (cfg : Cfg) (g p : Address) (v : Nat) :
    Off cfg (fun a => payment a cfg.staking g v) (stakeForE cfg g p v) := by
  have tail : Off cfg (fun a => payment a cfg.staking g v) (do
        let i ← iproveDeposit cfg cfg.staking v cfg.staking
        require (i ≠ 0) .zeroReceiptAmount
        let st ← vaultDeposit cfg cfg.staking p i cfg.staking
        require (st ≠ 0) .zeroReceiptAmount
        onSt true (·.mint g st)
        emit (.stake g p v i st)
        return st : LM Nat) := by
    intro w1 r w' es h hl
    simp only [liftBind_ok, emitBind_ok, pureE_ok, require_ok] at h
    obtain ⟨i, _, h1, _, w2, ⟨hi, rfl⟩, st, _, h2, _, w3, ⟨hst, rfl⟩, _, _, hm, _, ⟨_, rfl, rfl⟩, rfl⟩ := h
    refine ((iproveDeposit_pay h1).trans ((vaultDeposit_s _ _ _ _ _ _ _ _ h2).trans (onSt_s _ _ _ _ _ hm))).cast
      (fun a => ?_) rfl
    have := pay_trans a cfg.staking g cfg.iprove v
    simp [flowSum, Ev.flow]
    omega
  unfold stakeForE
  repeat' first | o_step | f_step

theorem stakeE_flow (cfg : Cfg) (c : Ctx) (p : Address) (v : Nat) : Flows cfg (stakeE cfg c p v) := by
  have key : Flows cfg (do
      proveTransferFrom cfg.staking c.sender cfg.staking v
      stakeForE cfg c.sender p v : LM Nat) := by
    intro w r w' es h hl
    obtain ⟨_, w1, h1, h2⟩ := liftBind_ok.mp h
    have m1 := proveTransferFrom_pay h1
    refine (m1.trans (stakeForE_flow _ _ _ _ _ _ _ _ h2 (by rw [m1.link]; exact hl))).cast (fun a => ?_) (by omega)
    rw [m1.provers]
    dsimp only
    have := pay_trans a c.sender cfg.staking c.sender v
    have : payment a c.sender c.sender v = 0 := by unfold payment; omega
    omega
  unfold stakeE
  f

theorem permitAndStakeE_flow (cfg : Cfg) (g p x : Address) (v : Nat) : Flows cfg (permitAndStakeE cfg g p x v) := by
  have key : Flows cfg (do
      transferProveToStaking cfg cfg.staking p x v
      stakeForE cfg x p v : LM Nat) := by
    intro w r w' es h hl
    obtain ⟨_, w1, h1, h2⟩ := liftBind_ok.mp h
    have m1 := transferProveToStaking_pay h1
    refine (m1.trans (stakeForE_flow _ _ _ _ _ _ _ _ h2 (by rw [m1.link]; exact hl))).cast (fun a => ?_) (by omega)
    rw [m1.provers]
    dsimp only
    have := pay_trans a x cfg.staking x v
    have : payment a x x v = 0 := by unfold payment; omega
    omega
  unfold permitAndStakeE
  f

theorem finishUnstakeRequestE_flow (cfg : Cfg) (x p : Address) (cl : UnstakeClaim) :
    Flows cfg (finishUnstakeRequestE cfg x p cl) := by
  have key : ∀ v : Nat, Flows cfg (do
      let n ← iproveRedeem cfg cfg.staking v x cfg.staking
      emit (.unstake x p n v)
      return n : LM Nat) := by
    intro v w r w' es h hl
    obtain ⟨n, w1, h1, h2⟩ := liftBind_ok.mp h
    obtain ⟨es', h3, rfl⟩ := emitBind_ok.mp h2
    obtain ⟨_, rfl, rfl⟩ := pureE_ok.mp h3
    refine (iproveRedeem_pay h1).cast (fun a => ?_) rfl
    simp [flowSum, Ev.flow]
  have zero : ∀ v : Nat, Flows cfg (emit (.unstake x p 0 v)) := by
    intro v
    refine Flows.emit (fun reg a => ?_) rfl
    simp [Ev.flow, payment]
  unfold finishUnstakeRequestE
  repeat' first | with_reducible exact key _ | with_reducible exact zero _ | f_step

theorem finishLoopE_flow (cfg : Cfg) (c : Ctx) (x p : Address) (fuel : Nat) :
    ∀ i paid, Flows cfg (finishLoopE cfg c x p fuel i paid) := by
  have key := finishUnstakeRequestE_flow cfg x p
  induction fuel with
  | zero => intro i paid; exact Flows.pure _
  | succ n ih =>
    intro i paid
    unfold finishLoopE
    refine Flows.bind (Flows.lift Still.get) fun w => ?_
    split
    · f
    · f
      · exact key _
      · exact ih _ _
      · exact ih _ _

theorem finishUnstakeE_flow (cfg : Cfg) (c : Ctx) (x : Address) : Flows cfg (finishUnstakeE cfg c x) := by
  have key := finishLoopE_flow cfg c x
  unfold finishUnstakeE
  f
  all_goals exact key _ _ _ _

/-- After `d` has been destroyed, the rest of the code destroys what remains of the first component of its result. -/
def Burns (cfg : Cfg) (d : Nat) (m : L1 (Nat × Nat)) : Prop := ∀ w b w', m w = .ok (b, w') →
  ∃ e, b.1 = d + e ∧ Shifts (fun a => - (if a = cfg.iprove then (e : Int) else 0)) e w w'

theorem Burns.pure {cfg : Cfg} {d : Nat} {b : Nat × Nat} (h : b.1 = d) : Burns cfg d (pure b) := by
  intro w _ w' g
  obtain ⟨rfl, rfl⟩ := pure_ok.mp g
  exact ⟨0, h, (Shifts.refl _).cast (fun a => by split <;> rfl) rfl⟩

theorem Burns.after {cfg : Cfg} {d : Nat} {α : Type} {m : L1 α} {f : α → L1 (Nat × Nat)} (hm : Still m)
    (hf : ∀ a, Burns cfg d (f a)) : Burns cfg d (m >>= f) := by
  intro w b w' h
  obtain ⟨a, w1, h1, h2⟩ := bind_ok.mp h
  obtain ⟨e, e1, e2⟩ := hf a _ _ _ h2
  exact ⟨e, e1, (Shifts.trans (hm _ _ _ h1) e2).cast (fun a => by omega) (by omega)⟩

theorem Burns.burn {cfg : Cfg} {d : Nat} {x y : Address} {v : Nat} {f : Nat → L1 (Nat × Nat)}
    (hf : ∀ n, Burns cfg (d + n) (f n)) : Burns cfg d (iproveBurn cfg x y v >>= f) := by
  intro w b w' h
  obtain ⟨n, w1, h1, h2⟩ := bind_ok.mp h
  obtain ⟨e, e1, e2⟩ := hf n _ _ _ h2
  refine ⟨n + e, by omega, ((iproveBurn_pay h1).trans e2).cast (fun a => ?_) rfl⟩
  split <;> omega

theorem Burns.none {cfg : Cfg} {d : Nat} {f : Nat → L1 (Nat × Nat)}
    (hf : Burns cfg d (f 0)) : Burns cfg d ((Pure.pure 0 : L1 Nat) >>= f) := by
  intro w b w' h
  obtain ⟨n, w1, h1, h2⟩ := bind_ok.mp h
  obtain ⟨rfl, rfl⟩ := pure_ok.mp h1
  exact hf _ _ _ h2

theorem Burns.ite {cfg : Cfg} {d : Nat} {c : Prop} [Decidable c] {m n : L1 (Nat × Nat)} (h1 : Burns cfg d m)
    (h2 : Burns cfg d n) : Burns cfg d (if c then m else n) := by
  split <;> assumption

theorem slashBurnE_pay (cfg : Cfg) (p : Address) (t x : Nat) : Burns cfg 0 (slashBurnE cfg p t x) := by
  unfold slashBurnE
  repeat' first
    | with_reducible refine Burns.burn ?_
    | with_reducible refine Burns.none ?_
    | with_reducible refine Burns.after (by s; done) ?_
    | with_reducible refine Burns.ite ?_ ?_
    | (with_reducible refine Burns.pure ?_; first | rfl | (dsimp only; omega))
    | with_reducible intro _
    | dsimp only

theorem finishSlashE_flow (cfg : Cfg) (c : Ctx) (p : Address) (i : Nat) : Flows cfg (finishSlashE cfg c p i) := by
  have hd : Flows cfg (deactivateIfBelowMinE p) := by
    unfold deactivateIfBelowMinE
    f
  have key : ∀ t x : Nat, Flows cfg (do
      let b ← slashBurnE cfg p t x
      emit (.slash p b.1 b.2 i)
      deactivateIfBelowMinE p
      return b.2 : LM Nat) := by
    intro t x w r w' es h hl
    obtain ⟨b, w1, h1, h2⟩ := liftBind_ok.mp h
    obtain ⟨es', h3, rfl⟩ := emitBind_ok.mp h2
    obtain ⟨_, w2, e1, e2, h4, h5, rfl⟩ := bindE_ok.mp h3
    obtain ⟨_, rfl, rfl⟩ := pureE_ok.mp h5
    obtain ⟨e, g1, g2⟩ := slashBurnE_pay _ _ _ _ _ _ _ h1
    have m2 := hd _ _ _ _ h4 (by rw [g2.link]; exact hl)
    have eb : e = b.1 := by omega
    subst eb
    refine (g2.trans m2).cast (fun a => ?_) ?_
    · rw [g2.provers, List.append_nil, flowSum_cons]
      rfl
    · rw [List.append_nil, burnSum_cons]; rfl
  have none : Flows cfg (do
      let b ← (pure (0, 0) : LM (Nat × Nat))
      emit (.slash p b.1 b.2 i)
      deactivateIfBelowMinE p
      return b.2 : LM Nat) := by
    intro w r w' es h hl
    obtain ⟨b, w1, e1, e2, h1, h2, rfl⟩ := bindE_ok.mp h
    obtain ⟨rfl, rfl, rfl⟩ := pureE_ok.mp h1
    have he : Flows cfg (emit (.slash p 0 0 i)) := Flows.emit (fun reg a => by simp [Ev.flow]) rfl
    have : Flows cfg (do
      emit (.slash p 0 0 i)
      deactivateIfBelowMinE p
      return 0 : LM Nat) := by f
    exact this _ _ _ _ h2 hl
  unfold finishSlashE
  repeat' first | with_reducible exact key _ _ | with_reducible exact none | f_step | dsimp only

theorem dispenseE_flow (cfg : Cfg) (c : Ctx) (v : Nat) : Flows cfg (dispenseE cfg c v) := by
  have key : ∀ n : Nat, Flows cfg (do
      proveTransfer cfg.staking cfg.iprove n
      emit (.dispense n) : LM Unit) := by
    intro n w r w' es h hl
    obtain ⟨_, w1, h1, h2⟩ := liftBind_ok.mp h
    obtain ⟨rfl, rfl⟩ := emit_ok.mp h2
    refine (proveTransfer_pay h1).cast (fun a => ?_) rfl
    simp [flowSum, Ev.flow]
  unfold dispenseE
  repeat' first | with_reducible exact key _ | f_step

end Verif
