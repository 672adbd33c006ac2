import Verif.Events
import Verif.L1Stake
import Verif.L1Vapp
/-
# The contracts with events and without
-/

namespace Verif
open L1 LM

/-! ## Inversion -/

theorem bindE_ok {α β : Type} {m : LM α} {f : α → LM β} {w : World} {b : β} {w' : World} {es : List Ev} :
    (m >>= f) w = .ok (b, w', es) ↔
      ∃ a w1 e1 e2, m w = .ok (a, w1, e1) ∧ f a w1 = .ok (b, w', e2) ∧ es = e1 ++ e2 := by
  show LM.bind m f w = .ok (b, w', es) ↔ _
  unfold LM.bind
  cases h : m w with
  | error e => simp
  | ok p =>
    rcases p with ⟨a, w1, e1⟩
    dsimp only
    cases h2 : f a w1 with
    | error e =>
      constructor
      · intro h; exact nomatch h
      · rintro ⟨a', w2, e1', e2, he, hf, _⟩
        cases he
        rw [h2] at hf; exact nomatch hf
    | ok q =>
      rcases q with ⟨b', w2, e2⟩
      constructor
      · intro h; cases h; exact ⟨a, w1, e1, e2, rfl, h2, rfl⟩
      · rintro ⟨a', w2', e1', e2', he, hf, rfl⟩
        cases he
        rw [h2] at hf; cases hf; rfl

theorem pureE_ok {α : Type} {a b : α} {w w' : World} {es : List Ev} :
    (pure a : LM α) w = .ok (b, w', es) ↔ b = a ∧ w' = w ∧ es = [] := by
  show Except.ok (a, w, []) = .ok (b, w', es) ↔ _
  simp [eq_comm]

theorem quiet_ok {α : Type} {m : L1 α} {a : α} {w w' : World} {es : List Ev} :
    quiet m w = .ok (a, w', es) ↔ m w = .ok (a, w') ∧ es = [] := by
  unfold quiet
  cases h : m w with
  | error e => simp
  | ok p => rcases p with ⟨x, y⟩; simp [eq_comm, and_assoc]

theorem liftE_ok {α : Type} {m : L1 α} {a : α} {w w' : World} {es : List Ev} :
    (liftM m : LM α) w = .ok (a, w', es) ↔ m w = .ok (a, w') ∧ es = [] := quiet_ok

theorem emit_ok {e : Ev} {u : Unit} {w w' : World} {es : List Ev} :
    emit e w = .ok (u, w', es) ↔ w' = w ∧ es = [e] := by
  unfold emit; simp [eq_comm]

theorem dropE_ok {α : Type} {m : LM α} {u : Unit} {w w' : World} {es : List Ev} :
    dropE m w = .ok (u, w', es) ↔ ∃ a, m w = .ok (a, w', es) := by
  simp only [dropE, bindE_ok, pureE_ok]
  constructor
  · rintro ⟨a, w1, e1, e2, h, ⟨_, rfl, rfl⟩, rfl⟩; exact ⟨a, by simpa using h⟩
  · rintro ⟨a, h⟩; exact ⟨a, w', es, [], h, ⟨trivial, rfl, rfl⟩, by simp⟩

/-! ## Without the events -/

theorem erase_bind {α β : Type} (m : LM α) (f : α → LM β) :
    erase (m >>= f) = erase m >>= fun a => erase (f a) := by
  funext w
  show erase (LM.bind m f) w = L1.bind (erase m) (fun a => erase (f a)) w
  simp only [erase, LM.bind, L1.bind]
  cases m w with
  | error e => rfl
  | ok p =>
    rcases p with ⟨a, w1, e1⟩
    dsimp only
    cases f a w1 with
    | error e => rfl
    | ok q => rfl

theorem erase_pure {α : Type} (a : α) : erase (pure a : LM α) = pure a := rfl
theorem erase_emit (e : Ev) : erase (emit e) = pure () := rfl
theorem erase_quiet {α : Type} (m : L1 α) : erase (quiet m) = m := by
  funext w
  unfold erase quiet
  cases m w with
  | error e => rfl
  | ok p => rfl
theorem erase_lift {α : Type} (m : L1 α) : erase (liftM m : LM α) = m := erase_quiet m
theorem erase_ite {α : Type} {c : Prop} [Decidable c] {m n : LM α} :
    erase (if c then m else n) = if c then erase m else erase n := by split <;> rfl

theorem L1.pure_bind {α β : Type} (a : α) (f : α → L1 β) : (pure a >>= f : L1 β) = f a := rfl
theorem L1.bind_pure {α : Type} (m : L1 α) : (m >>= fun a => pure a) = m := by
  funext w
  show L1.bind m _ w = m w
  unfold L1.bind
  cases m w with
  | error e => rfl
  | ok p => rfl
theorem L1.bind_pure_unit (m : L1 Unit) : (m >>= fun _ => pure ()) = m := L1.bind_pure m
theorem L1.bind_assoc {α β γ : Type} (m : L1 α) (f : α → L1 β) (g : β → L1 γ) :
    (m >>= f >>= g) = m >>= fun a => f a >>= g := by
  funext w
  show L1.bind (L1.bind m f) g w = L1.bind m (fun a => L1.bind (f a) g) w
  unfold L1.bind
  cases m w with
  | error e => rfl
  | ok p => rfl

/-- Reading the state twice is reading it once. -/
theorem L1.get_get {α : Type} (f : World → World → L1 α) :
    (L1.get >>= fun w => L1.get >>= fun v => f w v) = L1.get >>= fun w => f w w := rfl

theorem L1.ite_bind {α β : Type} {c : Prop} [Decidable c] (m n : L1 α) (f : α → L1 β) :
    ((if c then m else n) >>= f) = if c then m >>= f else n >>= f := by split <;> rfl

macro "erase_simp" : tactic => `(tactic| simp only [erase_bind, erase_pure, erase_emit, erase_lift, erase_ite,
  L1.pure_bind, L1.bind_pure, L1.bind_pure_unit, L1.bind_assoc])

theorem erase_createTransaction (v : TxVariant) (d : Bytes) : erase (createTransactionE v d) = createTransaction v d := by
  unfold createTransactionE; erase_simp

theorem erase_vappDepositFrom (cfg : Cfg) (f : Address) (v : U256) :
    erase (vappDepositFromE cfg f v) = vappDepositFrom cfg f v := by
  unfold vappDepositFromE vappDepositFrom; erase_simp; simp only [erase_createTransaction]

theorem erase_vappDeposit (cfg : Cfg) (c : Ctx) (v : U256) : erase (vappDepositE cfg c v) = vappDeposit cfg c v := by
  unfold vappDepositE vappDeposit; erase_simp; simp only [erase_vappDepositFrom]

theorem erase_vappPermitAndDeposit (cfg : Cfg) (s f : Address) (v : U256) :
    erase (vappPermitAndDepositE cfg s f v) = vappPermitAndDeposit cfg s f v := by
  unfold vappPermitAndDepositE vappPermitAndDeposit; erase_simp; simp only [erase_vappDepositFrom]

theorem erase_vappCreateProver (c : Ctx) (s p o : Address) (f : U256) :
    erase (vappCreateProverE c s p o f) = vappCreateProver c s p o f := by
  unfold vappCreateProverE vappCreateProver; erase_simp; simp only [erase_createTransaction]

theorem erase_processWithdraw (cfg : Cfg) (c : Ctx) (to : Address) (n : Nat) :
    erase (processWithdrawE cfg c to n) = processWithdraw cfg c to n := by
  unfold processWithdrawE; erase_simp

theorem erase_handleOnchain (r : SolReceipt) : erase (handleOnchainE r) = handleOnchain r := by
  unfold handleOnchainE handleOnchain; erase_simp

theorem erase_handleOffchain (cfg : Cfg) (c : Ctx) (r : SolReceipt) :
    erase (handleOffchainE cfg c r) = handleOffchain cfg c r := by
  unfold handleOffchainE handleOffchain; erase_simp; simp only [erase_processWithdraw]

theorem erase_handleReceipts (cfg : Cfg) (c : Ctx) (rs : List SolReceipt) :
    erase (handleReceiptsE cfg c rs) = handleReceipts cfg c rs := by
  induction rs with
  | nil => rfl
  | cons r rs ih =>
    unfold handleReceiptsE handleReceipts
    split <;> (erase_simp; simp only [erase_handleOnchain, erase_handleOffchain, ih])

theorem erase_vappStep (cfg : Cfg) (c : Ctx) (pv pr : Bytes) : erase (vappStepE cfg c pv pr) = vappStep cfg c pv pr := by
  unfold vappStepE vappStep; erase_simp; simp only [erase_handleReceipts]

theorem erase_vappFork (c : Ctx) (k r : B256) : erase (vappForkE c k r) = vappFork c k r := by
  unfold vappForkE vappFork; erase_simp

theorem erase_deployProver (cfg : Cfg) (c : Ctx) (o : Address) (f : U256) :
    erase (deployProverE cfg c o f) = deployProver cfg c o f := by
  unfold deployProverE deployProver; erase_simp; simp only [erase_vappCreateProver]

theorem erase_createProver (cfg : Cfg) (c : Ctx) (f : U256) : erase (createProverE cfg c f) = createProver cfg c f := by
  unfold createProverE createProver; erase_simp; simp only [erase_deployProver]

theorem erase_deactivate (p : Address) : erase (deactivateIfBelowMinE p) = deactivateIfBelowMin p := by
  unfold deactivateIfBelowMinE deactivateIfBelowMin; erase_simp

theorem erase_stakeFor (cfg : Cfg) (s p : Address) (n : Nat) : erase (stakeForE cfg s p n) = stakeFor cfg s p n := by
  unfold stakeForE stakeFor; erase_simp

theorem erase_stake (cfg : Cfg) (c : Ctx) (p : Address) (n : Nat) : erase (stakeE cfg c p n) = stake cfg c p n := by
  unfold stakeE stake; erase_simp; simp only [erase_stakeFor]

theorem erase_permitAndStake (cfg : Cfg) (s p f : Address) (n : Nat) :
    erase (permitAndStakeE cfg s p f n) = permitAndStake cfg s p f n := by
  unfold permitAndStakeE permitAndStake; erase_simp; simp only [erase_stakeFor]

theorem erase_requestUnstake (cfg : Cfg) (c : Ctx) (n : Nat) :
    erase (requestUnstakeE cfg c n) = requestUnstake cfg c n := by
  unfold requestUnstakeE requestUnstake; erase_simp

theorem erase_finishUnstakeRequest (cfg : Cfg) (s p : Address) (k : UnstakeClaim) :
    erase (finishUnstakeRequestE cfg s p k) = finishUnstakeRequest cfg s p k := by
  unfold finishUnstakeRequestE finishUnstakeRequest; erase_simp

theorem erase_finishLoop (cfg : Cfg) (c : Ctx) (s p : Address) (fuel : Nat) :
    ∀ i paid, erase (finishLoopE cfg c s p fuel i paid) = finishLoop cfg c s p fuel i paid := by
  induction fuel with
  | zero => intro i paid; rfl
  | succ fuel ih =>
    intro i paid
    unfold finishLoopE finishLoop
    rw [erase_bind, erase_lift]
    congr 1
    funext w
    cases (w.staking.unstakeClaims s)[i]? with
    | none => rfl
    | some claim => dsimp only; erase_simp; simp only [erase_finishUnstakeRequest, ih]

theorem erase_finishUnstake (cfg : Cfg) (c : Ctx) (s : Address) : erase (finishUnstakeE cfg c s) = finishUnstake cfg c s := by
  unfold finishUnstakeE finishUnstake; erase_simp; simp only [erase_finishLoop]

theorem erase_requestSlash (cfg : Cfg) (c : Ctx) (p : Address) (n : Nat) :
    erase (requestSlashE cfg c p n) = requestSlash cfg c p n := by
  unfold requestSlashE; erase_simp

theorem erase_cancelSlash (c : Ctx) (p : Address) (i : Nat) : erase (cancelSlashE c p i) = cancelSlash c p i := by
  unfold cancelSlashE cancelSlash; erase_simp

theorem slashBurnE_snd (cfg : Cfg) (p : Address) (t x : Nat) :
    (slashBurnE cfg p t x >>= fun b => pure b.2) = slashBurn cfg p t x := by
  unfold slashBurnE slashBurn
  erase_simp
  congr 1; funext w
  congr 1; funext fe
  congr 1; funext fv
  by_cases h1 : fe = 0 <;> by_cases h2 : fv = 0 <;>
    simp only [h1, h2, if_true, if_false, not_false_eq_true, ne_eq, not_true_eq_false, L1.bind_assoc, L1.pure_bind,
      L1.ite_bind]

theorem erase_finishSlash (cfg : Cfg) (c : Ctx) (p : Address) (i : Nat) :
    erase (finishSlashE cfg c p i) = finishSlash cfg c p i := by
  unfold finishSlashE finishSlash
  simp only [← slashBurnE_snd]
  erase_simp; simp only [erase_deactivate]

theorem erase_dispense (cfg : Cfg) (c : Ctx) (n : Nat) : erase (dispenseE cfg c n) = dispense cfg c n := by
  unfold dispenseE dispense; erase_simp

theorem erase_dropE {α : Type} (m : LM α) : erase (dropE m) = drop_ (erase m) := by
  unfold dropE drop_; erase_simp

end Verif
