import Verif.EventFlow
import Verif.PropsEvents
import Verif.PropsBridge
/-
# Property C98: the amounts of $PROVE in the event log
-/

namespace Verif
open L1 LM

/-- The calls of the $PROVE token that move, mint or burn $PROVE. -/
def Call.direct : Call → Bool
  | .proveTransfer .. | .proveTransferFrom .. | .proveMint .. | .proveBurn .. | .proveBurnFrom .. => true
  | _ => false

/-- What account `a` gains in a successful call of the $PROVE token itself. -/
def Call.proveFlow (c : Ctx) (a : Address) : Call → Int
  | .proveTransfer to v => payment a c.sender to v.toNat
  | .proveTransferFrom f to v => payment a f to v.toNat
  | .proveMint to v => if a = to then (v.toNat : Int) else 0
  | .proveBurn v => - (if a = c.sender then (v.toNat : Int) else 0)
  | .proveBurnFrom f v => - (if a = f then (v.toNat : Int) else 0)
  | _ => 0

/-- What the supply gains in a successful call of the $PROVE token itself. -/
def Call.supplyFlow : Call → Int
  | .proveMint _ v => v.toNat
  | .proveBurn v => - (v.toNat : Int)
  | .proveBurnFrom _ v => - (v.toNat : Int)
  | _ => 0

/-- The sums of these over the calls of a history that succeed. -/
def directFlow (cfg : Cfg) (a : Address) : World → List (Ctx × Call) → Int
  | _, [] => 0
  | w, x :: h => (if (exec cfg x.1 x.2 w).toBool then x.2.proveFlow x.1 a else 0) + directFlow cfg a (call cfg x.1 x.2 w) h
def directSupply (cfg : Cfg) : World → List (Ctx × Call) → Int
  | _, [] => 0
  | w, x :: h => (if (exec cfg x.1 x.2 w).toBool then x.2.supplyFlow else 0) + directSupply cfg (call cfg x.1 x.2 w) h

/-- Who is a registered prover on record. -/
def Seen.isProver (s : Seen) (a : Address) : Bool := (s.prover a).isSome

/-- What account `a` gains in $PROVE according to a log, for a reader who keeps the record. -/
def Seen.flow (cfg : Cfg) (a : Address) : Seen → List Ev → Int
  | _, [] => 0
  | s, e :: es => e.flow cfg s.isProver a + Seen.flow cfg a (s.read e) es

theorem seen_isProver (w : World) : w.seen.isProver = w.staking.provers := by
  funext a
  show (if w.staking.provers a = true then _ else none : Option _).isSome = _
  cases w.staking.provers a <;> rfl

/-- Not a withdrawal. -/
def Ev.notWithdraw : Ev → Prop
  | .withdraw .. => False
  | _ => True

/-- Neither a withdrawal nor a slash. -/
def Ev.ordinary : Ev → Prop
  | .withdraw .. | .slash .. => False
  | _ => True

theorem Ev.ordinary.zero {e : Ev} (h : e.ordinary) : e.notWithdraw ∧ e.burned = 0 := by
  cases e <;> first | exact h.elim | exact ⟨trivial, rfl⟩

/-- Not about $PROVE. -/
def Ev.noMoney : Ev → Prop
  | .deposit .. | .withdraw .. | .stake .. | .unstake .. | .slash .. | .dispense .. => False
  | _ => True

theorem Ev.noMoney.zero {e : Ev} (h : e.noMoney) : (∀ cfg reg a, e.flow cfg reg a = 0) ∧ e.burned = 0 := by
  cases e <;> first | exact h.elim | exact ⟨fun _ _ _ => rfl, rfl⟩

theorem flow_notWithdraw {cfg : Cfg} {a : Address} {es : List Ev} (h : ∀ e ∈ es, e.notWithdraw) (s : Seen)
    (reg : Address → Bool) : s.flow cfg a es = flowSum cfg reg a es := by
  induction es generalizing s with
  | nil => rfl
  | cons e es ih =>
    rw [flowSum_cons, ← ih (fun x hx => h x (List.mem_cons_of_mem _ hx)) (s.read e)]
    have he := h e (List.mem_cons_self ..)
    show _ + _ = _
    congr 1
    cases e
    case withdraw to v => exact he.elim
    all_goals rfl

/-- Not about the registry. -/
def Ev.keepsProvers (e : Ev) : Prop := ∀ s : Seen, (s.read e).prover = s.prover

theorem flow_keeps {cfg : Cfg} {a : Address} {es : List Ev} (h : ∀ e ∈ es, e.keepsProvers) (s : Seen) :
    s.flow cfg a es = flowSum cfg s.isProver a es := by
  induction es generalizing s with
  | nil => rfl
  | cons e es ih =>
    rw [flowSum_cons]
    show _ + Seen.flow cfg a (s.read e) es = _
    rw [ih (fun x hx => h x (List.mem_cons_of_mem _ hx)) (s.read e)]
    have : (s.read e).isProver = s.isProver := by
      funext x; unfold Seen.isProver; rw [h e (List.mem_cons_self ..)]
    rw [this]

theorem flow_append {cfg : Cfg} {a : Address} (s : Seen) (x y : List Ev) :
    s.flow cfg a (x ++ y) = s.flow cfg a x + (s.readAll x).flow cfg a y := by
  induction x generalizing s with
  | nil => show Seen.flow cfg a s y = 0 + _; rw [Int.zero_add]; rfl
  | cons e x ih =>
    show _ + Seen.flow cfg a (s.read e) (x ++ y) = _ + Seen.flow cfg a (s.read e) x + _
    rw [ih, Seen.readAll_cons]; omega

theorem stepE_keeps (cfg : Cfg) (c : Ctx) (pv pr : Bytes) : Only Ev.keepsProvers (vappStepE cfg c pv pr) := by
  have hr : ∀ rs, Only Ev.keepsProvers (handleReceiptsE cfg c rs) := by
    intro rs w a w' es h e he
    have := handleReceiptsE_only cfg c rs w a w' es h e he
    intro s
    cases e
    case transactionReverted => simp only [Seen.read]; split <;> rfl
    case proverDeploy => exact this.elim
    all_goals rfl
  unfold vappStepE
  only
  all_goals first | exact hr _ | (intro s; rfl)

theorem Ev.noMoney.not {e : Ev} (h : e.noMoney) : e.ordinary := by
  cases e <;> first | exact h.elim | trivial

/-- No event of this code is about $PROVE. -/
abbrev NoMoney {α : Type} (m : LM α) : Prop := Only Ev.noMoney m
/-- No event of this code is a withdrawal or a slash. -/
abbrev NoPay {α : Type} (m : LM α) : Prop := Only Ev.ordinary m

theorem NoMoney.not {α : Type} {m : LM α} (h : NoMoney m) : NoPay m :=
  fun w a w' es g e he => (h w a w' es g e he).not

theorem createTransactionE_nm (v data) : NoMoney (createTransactionE v data) := by
  unfold NoMoney createTransactionE
  only <;> trivial
macro_rules | `(tactic| only_step) => `(tactic| with_reducible exact createTransactionE_nm ..)
macro_rules | `(tactic| only_step) => `(tactic| with_reducible exact (createTransactionE_nm ..).not)
theorem vappForkE_nm (c k r) : NoMoney (vappForkE c k r) := by
  unfold NoMoney vappForkE
  only <;> trivial
macro_rules | `(tactic| only_step) => `(tactic| with_reducible exact vappForkE_nm ..)
macro_rules | `(tactic| only_step) => `(tactic| with_reducible exact (vappForkE_nm ..).not)
theorem vappUpdateAuctioneerE_nm (c a) : NoMoney (vappUpdateAuctioneerE c a) := by
  unfold NoMoney vappUpdateAuctioneerE
  only <;> trivial
macro_rules | `(tactic| only_step) => `(tactic| with_reducible exact vappUpdateAuctioneerE_nm ..)
macro_rules | `(tactic| only_step) => `(tactic| with_reducible exact (vappUpdateAuctioneerE_nm ..).not)
theorem vappUpdateStakingE_nm (c a) : NoMoney (vappUpdateStakingE c a) := by
  unfold NoMoney vappUpdateStakingE
  only <;> trivial
macro_rules | `(tactic| only_step) => `(tactic| with_reducible exact vappUpdateStakingE_nm ..)
macro_rules | `(tactic| only_step) => `(tactic| with_reducible exact (vappUpdateStakingE_nm ..).not)
theorem vappUpdateVerifierE_nm (c a) : NoMoney (vappUpdateVerifierE c a) := by
  unfold NoMoney vappUpdateVerifierE
  only <;> trivial
macro_rules | `(tactic| only_step) => `(tactic| with_reducible exact vappUpdateVerifierE_nm ..)
macro_rules | `(tactic| only_step) => `(tactic| with_reducible exact (vappUpdateVerifierE_nm ..).not)
theorem vappUpdateMinDepositE_nm (c v) : NoMoney (vappUpdateMinDepositE c v) := by
  unfold NoMoney vappUpdateMinDepositE
  only <;> trivial
macro_rules | `(tactic| only_step) => `(tactic| with_reducible exact vappUpdateMinDepositE_nm ..)
macro_rules | `(tactic| only_step) => `(tactic| with_reducible exact (vappUpdateMinDepositE_nm ..).not)
theorem vappPauseE_nm (c) : NoMoney (vappPauseE c) := by
  unfold NoMoney vappPauseE
  only <;> trivial
macro_rules | `(tactic| only_step) => `(tactic| with_reducible exact vappPauseE_nm ..)
macro_rules | `(tactic| only_step) => `(tactic| with_reducible exact (vappPauseE_nm ..).not)
theorem vappUnpauseE_nm (c) : NoMoney (vappUnpauseE c) := by
  unfold NoMoney vappUnpauseE
  only <;> trivial
macro_rules | `(tactic| only_step) => `(tactic| with_reducible exact vappUnpauseE_nm ..)
macro_rules | `(tactic| only_step) => `(tactic| with_reducible exact (vappUnpauseE_nm ..).not)
theorem vappSetOwnerE_nm (c a) : NoMoney (vappSetOwnerE c a) := by
  unfold NoMoney vappSetOwnerE
  only <;> trivial
macro_rules | `(tactic| only_step) => `(tactic| with_reducible exact vappSetOwnerE_nm ..)
macro_rules | `(tactic| only_step) => `(tactic| with_reducible exact (vappSetOwnerE_nm ..).not)
theorem deactivateIfBelowMinE_nm (p) : NoMoney (deactivateIfBelowMinE p) := by
  unfold NoMoney deactivateIfBelowMinE
  only <;> trivial
macro_rules | `(tactic| only_step) => `(tactic| with_reducible exact deactivateIfBelowMinE_nm ..)
macro_rules | `(tactic| only_step) => `(tactic| with_reducible exact (deactivateIfBelowMinE_nm ..).not)
theorem requestUnstakeE_nm (cfg c v) : NoMoney (requestUnstakeE cfg c v) := by
  unfold NoMoney requestUnstakeE
  only <;> trivial
macro_rules | `(tactic| only_step) => `(tactic| with_reducible exact requestUnstakeE_nm ..)
macro_rules | `(tactic| only_step) => `(tactic| with_reducible exact (requestUnstakeE_nm ..).not)
theorem cancelSlashE_nm (c p i) : NoMoney (cancelSlashE c p i) := by
  unfold NoMoney cancelSlashE
  only <;> trivial
macro_rules | `(tactic| only_step) => `(tactic| with_reducible exact cancelSlashE_nm ..)
macro_rules | `(tactic| only_step) => `(tactic| with_reducible exact (cancelSlashE_nm ..).not)
theorem requestSlashE_nm (cfg c p v) : NoMoney (requestSlashE cfg c p v) := by
  unfold NoMoney requestSlashE
  only <;> trivial
macro_rules | `(tactic| only_step) => `(tactic| with_reducible exact requestSlashE_nm ..)
macro_rules | `(tactic| only_step) => `(tactic| with_reducible exact (requestSlashE_nm ..).not)
theorem setDispenserE_nm (c a) : NoMoney (setDispenserE c a) := by
  unfold NoMoney setDispenserE
  only <;> trivial
macro_rules | `(tactic| only_step) => `(tactic| with_reducible exact setDispenserE_nm ..)
macro_rules | `(tactic| only_step) => `(tactic| with_reducible exact (setDispenserE_nm ..).not)
theorem updateDispenseRateE_nm (c v) : NoMoney (updateDispenseRateE c v) := by
  unfold NoMoney updateDispenseRateE
  only <;> trivial
macro_rules | `(tactic| only_step) => `(tactic| with_reducible exact updateDispenseRateE_nm ..)
macro_rules | `(tactic| only_step) => `(tactic| with_reducible exact (updateDispenseRateE_nm ..).not)
theorem stakingSetOwnerE_nm (c a) : NoMoney (stakingSetOwnerE c a) := by
  unfold NoMoney stakingSetOwnerE
  only <;> trivial
macro_rules | `(tactic| only_step) => `(tactic| with_reducible exact stakingSetOwnerE_nm ..)
macro_rules | `(tactic| only_step) => `(tactic| with_reducible exact (stakingSetOwnerE_nm ..).not)
theorem vappCreateProverE_nm (c a b d e) : NoMoney (vappCreateProverE c a b d e) := by
  unfold NoMoney vappCreateProverE
  only <;> trivial
macro_rules | `(tactic| only_step) => `(tactic| with_reducible exact vappCreateProverE_nm ..)
macro_rules | `(tactic| only_step) => `(tactic| with_reducible exact (vappCreateProverE_nm ..).not)
theorem deployProverE_nm (cfg c o f) : NoMoney (deployProverE cfg c o f) := by
  unfold NoMoney deployProverE
  only <;> trivial
macro_rules | `(tactic| only_step) => `(tactic| with_reducible exact deployProverE_nm ..)
macro_rules | `(tactic| only_step) => `(tactic| with_reducible exact (deployProverE_nm ..).not)
theorem createProverE_nm (cfg c f) : NoMoney (createProverE cfg c f) := by
  unfold NoMoney createProverE
  only <;> trivial
macro_rules | `(tactic| only_step) => `(tactic| with_reducible exact createProverE_nm ..)
macro_rules | `(tactic| only_step) => `(tactic| with_reducible exact (createProverE_nm ..).not)
theorem vappDepositFromE_od (cfg a v) : NoPay (vappDepositFromE cfg a v) := by
  unfold NoPay vappDepositFromE
  only <;> trivial
macro_rules | `(tactic| only_step) => `(tactic| with_reducible exact vappDepositFromE_od ..)
theorem vappDepositE_od (cfg c v) : NoPay (vappDepositE cfg c v) := by
  unfold NoPay vappDepositE
  only <;> trivial
macro_rules | `(tactic| only_step) => `(tactic| with_reducible exact vappDepositE_od ..)
theorem vappPermitAndDepositE_od (cfg a b v) : NoPay (vappPermitAndDepositE cfg a b v) := by
  unfold NoPay vappPermitAndDepositE
  only <;> trivial
macro_rules | `(tactic| only_step) => `(tactic| with_reducible exact vappPermitAndDepositE_od ..)
theorem stakeForE_od (cfg a b v) : NoPay (stakeForE cfg a b v) := by
  unfold NoPay stakeForE
  only <;> trivial
macro_rules | `(tactic| only_step) => `(tactic| with_reducible exact stakeForE_od ..)
theorem stakeE_od (cfg c p v) : NoPay (stakeE cfg c p v) := by
  unfold NoPay stakeE
  only <;> trivial
macro_rules | `(tactic| only_step) => `(tactic| with_reducible exact stakeE_od ..)
theorem permitAndStakeE_od (cfg a b d v) : NoPay (permitAndStakeE cfg a b d v) := by
  unfold NoPay permitAndStakeE
  only <;> trivial
macro_rules | `(tactic| only_step) => `(tactic| with_reducible exact permitAndStakeE_od ..)
theorem finishUnstakeRequestE_od (cfg a b d) : NoPay (finishUnstakeRequestE cfg a b d) := by
  unfold NoPay finishUnstakeRequestE
  only <;> trivial
macro_rules | `(tactic| only_step) => `(tactic| with_reducible exact finishUnstakeRequestE_od ..)
theorem dispenseE_od (cfg c v) : NoPay (dispenseE cfg c v) := by
  unfold NoPay dispenseE
  only <;> trivial
macro_rules | `(tactic| only_step) => `(tactic| with_reducible exact dispenseE_od ..)

theorem finishLoopE_od (cfg : Cfg) (c : Ctx) (x p : Address) (fuel : Nat) :
    ∀ i paid, NoPay (finishLoopE cfg c x p fuel i paid) := by
  induction fuel with
  | zero => intro i paid; exact Only.pure _
  | succ n ih =>
    intro i paid
    unfold NoPay finishLoopE
    refine Only.bind (Only.lift _) fun w => ?_
    split
    · only
    · only
      all_goals exact ih _ _
macro_rules | `(tactic| only_step) => `(tactic| with_reducible exact finishLoopE_od ..)
theorem finishUnstakeE_od (cfg c x) : NoPay (finishUnstakeE cfg c x) := by
  unfold NoPay finishUnstakeE
  only <;> trivial
macro_rules | `(tactic| only_step) => `(tactic| with_reducible exact finishUnstakeE_od ..)

theorem finishSlashE_burns (cfg : Cfg) (c : Ctx) (p : Address) (i : Nat) :
    Only (fun e => e.notWithdraw ∧ ∀ reg, e.flow cfg reg cfg.iprove = - (e.burned : Int)) (finishSlashE cfg c p i) := by
  unfold finishSlashE deactivateIfBelowMinE
  only
  all_goals
    refine ⟨trivial, fun _ => ?_⟩
    simp [Ev.flow, Ev.burned]

theorem stepE_burns (cfg : Cfg) (c : Ctx) (pv pr : Bytes) : Only (fun e => e.burned = 0) (vappStepE cfg c pv pr) := by
  have hr : ∀ rs, Only (fun e => e.burned = 0) (handleReceiptsE cfg c rs) := by
    intro rs w a w' es h e he
    have := handleReceiptsE_only cfg c rs w a w' es h e he
    cases e
    case slash => exact this.elim
    all_goals rfl
  unfold vappStepE
  only
  all_goals first | exact hr _ | rfl

theorem burnSum_zero {es : List Ev} (h : ∀ e ∈ es, e.burned = 0) : burnSum es = 0 := by
  induction es with
  | nil => rfl
  | cons e es ih =>
    rw [burnSum_cons, h e (List.mem_cons_self ..), ih (fun x hx => h x (List.mem_cons_of_mem _ hx))]

theorem flowSum_zero {cfg : Cfg} {reg : Address → Bool} {a : Address} {es : List Ev} (h : ∀ e ∈ es, e.flow cfg reg a = 0) :
    flowSum cfg reg a es = 0 := by
  induction es with
  | nil => rfl
  | cons e es ih =>
    rw [flowSum_cons, h e (List.mem_cons_self ..), ih (fun x hx => h x (List.mem_cons_of_mem _ hx))]; rfl

theorem flowSum_burn {cfg : Cfg} {reg : Address → Bool} {a : Address} {es : List Ev}
    (h : ∀ e ∈ es, e.flow cfg reg a = - (e.burned : Int)) : flowSum cfg reg a es = - (burnSum es : Int) := by
  induction es with
  | nil => rfl
  | cons e es ih =>
    rw [flowSum_cons, burnSum_cons, h e (List.mem_cons_self ..), ih (fun x hx => h x (List.mem_cons_of_mem _ hx))]
    omega

/-- The calls that may move $PROVE. -/
def Call.money : Call → Bool
  | .deposit .. | .permitAndDeposit .. | .step .. | .stake .. | .permitAndStake .. | .finishUnstake .. | .finishSlash ..
  | .dispense .. => true
  | k => k.direct

theorem execE_noMoney (cfg : Cfg) (c : Ctx) (k : Call) (hk : k.money = false) : Only Ev.noMoney (execE cfg c k) := by
  cases k
  all_goals first
    | exact nomatch (show true = false from hk)
    | exact Only.lift _
    | skip
  all_goals
    unfold execE
    dsimp only
    only

theorem exec_still {cfg : Cfg} {c : Ctx} {k : Call} {w w' : World} (hr : Registry cfg w) (ha : Admissible cfg (c, k))
    (hk : k.money = false) (h : exec cfg c k w = .ok ((), w')) :
    w'.prove.bal = w.prove.bal ∧ w'.prove.supply = w.prove.supply := by
  have ht : ∀ {f v}, ¬ Takes cfg c w k f v := by
    intro f v ht
    cases ht <;> exact nomatch (show true = false from hk)
  cases exec_flow hr ha h with
  | other e1 e2 _ => exact ⟨e1, e2⟩
  | move _ _ _ _ hk' => exact (ht hk').elim
  | mint _ _ hk' => subst hk'; exact nomatch (show true = false from hk)
  | burn _ _ _ hk' => exact (ht hk').elim
  | stake _ _ _ _ _ _ hk' => exact (ht hk').elim
  | requestUnstake v hk' g =>
    obtain ⟨_, _, _, _, _, p, esc, s1, v1, i1, _, _, _, _, _, _, _, rfl⟩ := requestUnstake_ok g
    exact ⟨rfl, rfl⟩
  | finishUnstake _ _ hk' => subst hk'; exact nomatch (show true = false from hk)
  | finishSlash _ _ _ hk' => subst hk'; exact nomatch (show true = false from hk)
  | step _ _ _ hk' => subst hk'; exact nomatch (show true = false from hk)
  | dispense _ _ hk' => subst hk'; exact nomatch (show true = false from hk)

/-- One call that succeeds: the balances, the supply and the reader's account of them. -/
theorem flow_call {cfg : Cfg} {c : Ctx} {k : Call} {w w' : World} (hr : Registry cfg w) (hp : ProveInv cfg w)
    (ha : Admissible cfg (c, k)) (hl : w.vapp.staking = cfg.staking) (h : exec cfg c k w = .ok ((), w')) :
    (∀ a, (w'.prove.bal a : Int) = w.prove.bal a + k.proveFlow c a + w.seen.flow cfg a (callEvents cfg c k w)) ∧
    (w'.prove.supply : Int) = w.prove.supply + k.supplyFlow - burnSum (callEvents cfg c k w) := by
  have he := exec_execE h
  generalize callEvents cfg c k w = es at he ⊢
  have hsup : ∀ a, w.prove.bal a ≤ w.prove.supply := fun a => hp.balanced.le a
  by_cases hm : k.money = false
  · obtain ⟨e1, e2⟩ := exec_still hr ha hm h
    have hn := execE_noMoney cfg c k hm _ _ _ _ he
    have hz : ∀ a, k.proveFlow c a = 0 := by
      intro a
      cases k <;> first | rfl | exact nomatch (show true = false from hm)
    have hs : k.supplyFlow = 0 := by
      cases k <;> first | rfl | exact nomatch (show true = false from hm)
    refine ⟨fun a => ?_, ?_⟩
    · rw [hz, e1, flow_notWithdraw (fun e x => (hn e x).not.zero.1) _ w.staking.provers,
        flowSum_zero (fun e x => (hn e x).zero.1 _ _ _)]
      omega
    · rw [hs, e2, burnSum_zero (fun e x => (hn e x).zero.2)]
      omega
  · have ordinary : ∀ {α : Type} {m : LM α} {r : α}, Flows cfg m → Only Ev.ordinary m → m w = .ok (r, w', es) →
        (∀ a, k.proveFlow c a = 0) → k.supplyFlow = 0 →
        (∀ a, (w'.prove.bal a : Int) = w.prove.bal a + k.proveFlow c a + w.seen.flow cfg a es) ∧
        (w'.prove.supply : Int) = w.prove.supply + k.supplyFlow - burnSum es := by
      intro α m r hf ho g hz hs
      have m1 := hf _ _ _ _ g hl
      have hn := ho _ _ _ _ g
      have hb := burnSum_zero (fun e x => (hn e x).zero.2)
      refine ⟨fun a => ?_, ?_⟩
      · rw [hz, flow_notWithdraw (fun e x => (hn e x).zero.1) _ w.staking.provers, m1.bal a]
        omega
      · rw [hs, hb, m1.supply, hb]
        omega
    cases k <;> first | exact absurd rfl hm | skip
    case deposit v =>
      obtain ⟨_, g⟩ := dropE_ok.mp he
      exact ordinary (vappDepositE_flow _ _ _) (vappDepositE_od _ _ _) g (fun _ => rfl) rfl
    case permitAndDeposit =>
      obtain ⟨_, g⟩ := dropE_ok.mp he
      exact ordinary (vappPermitAndDepositE_flow _ _ _ _) (vappPermitAndDepositE_od _ _ _ _) g (fun _ => rfl) rfl
    case stake =>
      obtain ⟨_, g⟩ := dropE_ok.mp he
      exact ordinary (stakeE_flow _ _ _ _) (stakeE_od _ _ _ _) g (fun _ => rfl) rfl
    case permitAndStake =>
      obtain ⟨_, g⟩ := dropE_ok.mp he
      exact ordinary (permitAndStakeE_flow _ _ _ _ _) (permitAndStakeE_od _ _ _ _ _) g (fun _ => rfl) rfl
    case finishUnstake =>
      obtain ⟨_, g⟩ := dropE_ok.mp he
      exact ordinary (finishUnstakeE_flow _ _ _) (finishUnstakeE_od _ _ _) g (fun _ => rfl) rfl
    case dispense =>
      exact ordinary (dispenseE_flow _ _ _) (dispenseE_od _ _ _) he (fun _ => rfl) rfl
    case step pv pr =>
      obtain ⟨_, g⟩ := dropE_ok.mp he
      have m1 := vappStepE_flow _ _ _ _ _ _ _ _ g hl
      have hb := burnSum_zero (stepE_burns _ _ _ _ _ _ _ _ g)
      refine ⟨fun a => ?_, ?_⟩
      · rw [flow_keeps (stepE_keeps _ _ _ _ _ _ _ _ g), seen_isProver, m1.bal a]
        show _ = _ + 0 + _
        omega
      · rw [hb, m1.supply, hb]
        show _ = _ + 0 - _
        omega
    case finishSlash p i =>
      obtain ⟨_, g⟩ := dropE_ok.mp he
      have m1 := finishSlashE_flow _ _ _ _ _ _ _ _ g hl
      have hn := finishSlashE_burns _ _ _ _ _ _ _ _ g
      refine ⟨fun a => ?_, ?_⟩
      · rw [flow_notWithdraw (fun e x => (hn e x).1) _ w.staking.provers, m1.bal a]
        show _ = _ + 0 + _
        omega
      · have h1 := m1.bal cfg.iprove
        rw [flowSum_burn (fun e x => (hn e x).2 _)] at h1
        have h2 := hsup cfg.iprove
        rw [m1.supply]
        show _ = _ + 0 - _
        omega
    case proveTransfer to v =>
      obtain ⟨_, rfl⟩ := quiet_ok.mp he
      obtain ⟨e1, e2, _, _⟩ := proveTransfer_pay h
      refine ⟨fun a => ?_, ?_⟩
      · rw [e1 a]; show _ = _ + payment _ _ _ _ + 0; omega
      · rw [e2]; show _ = _ + 0 - (0 : Int); omega
    case proveTransferFrom f to v =>
      obtain ⟨_, rfl⟩ := quiet_ok.mp he
      obtain ⟨e1, e2, _, _⟩ := proveTransferFrom_pay h
      refine ⟨fun a => ?_, ?_⟩
      · rw [e1 a]; show _ = _ + payment _ _ _ _ + 0; omega
      · rw [e2]; show _ = _ + 0 - (0 : Int); omega
    case proveMint to v =>
      obtain ⟨_, rfl⟩ := quiet_ok.mp he
      simp only [exec, bind_ok, get_ok, require_ok, onProve_ok] at h
      obtain ⟨_, _, ⟨rfl, rfl⟩, _, _, ⟨ho, rfl⟩, t, g, rfl⟩ := h
      obtain ⟨_, _, rfl⟩ := Erc20.mint_ok g
      refine ⟨fun a => ?_, ?_⟩
      · show ((upd _ to _ a : Nat) : Int) = _ + (if a = to then _ else 0) + 0
        unfold upd
        by_cases hx : a = to
        · subst hx; simp
        · simp [hx]
      · show _ = _ + _ - (0 : Int)
        show ((_ + v.toNat : Nat) : Int) = _ + (v.toNat : Int) - 0
        omega
    case proveBurn v =>
      obtain ⟨_, rfl⟩ := quiet_ok.mp he
      simp only [exec, onProve_ok] at h
      obtain ⟨t, g, rfl⟩ := h
      obtain ⟨_, hv, rfl⟩ := Erc20.burn_ok g
      have h2 := hsup c.sender
      refine ⟨fun a => ?_, ?_⟩
      · show ((upd _ c.sender _ a : Nat) : Int) = _ + - (if a = c.sender then _ else 0) + 0
        unfold upd
        by_cases hx : a = c.sender
        · subst hx; simp; omega
        · simp [hx]
      · show ((w.prove.supply - v.toNat : Nat) : Int) = _ + - (v.toNat : Int) - (0 : Int)
        omega
    case proveBurnFrom f v =>
      obtain ⟨_, rfl⟩ := quiet_ok.mp he
      simp only [exec, bind_ok, onProve_ok] at h
      obtain ⟨_, _, ⟨t1, g1, rfl⟩, t, g2, rfl⟩ := h
      obtain ⟨_, a2, a3, _⟩ := Erc20.spend_ok g1
      obtain ⟨_, hv, rfl⟩ := Erc20.burn_ok g2
      have h2 := hsup f
      change v.toNat ≤ t1.bal f at hv
      rw [a2] at hv
      refine ⟨fun a => ?_, ?_⟩
      · show ((upd t1.bal f (t1.bal f - v.toNat) a : Nat) : Int) = _ + - (if a = f then _ else 0) + 0
        rw [a2]
        unfold upd
        by_cases hx : a = f
        · subst hx; simp; omega
        · simp [hx]
      · show ((t1.supply - v.toNat : Nat) : Int) = _ + - (v.toNat : Int) - (0 : Int)
        rw [a3]
        omega

/-- A history of calls, with the reader's account of it. -/
theorem flow_history {cfg : Cfg} (hc : cfg.WF) (h : List (Ctx × Call)) :
    ∀ {w : World}, Reachable cfg w → w.vapp.staking = cfg.staking → (∀ x ∈ h, Admissible cfg x) →
      (∀ x ∈ h, Stays cfg x.2) →
      (∀ a, ((runCalls cfg w h).prove.bal a : Int) =
        w.prove.bal a + directFlow cfg a w h + w.seen.flow cfg a (logOf cfg w h)) ∧
      ((runCalls cfg w h).prove.supply : Int) = w.prove.supply + directSupply cfg w h - burnSum (logOf cfg w h) := by
  induction h with
  | nil =>
    intro w _ _ _ _
    refine ⟨fun a => ?_, ?_⟩
    · show _ = _ + (0 : Int) + (0 : Int); rw [runCalls_nil]; omega
    · show _ = _ + (0 : Int) - (0 : Int); rw [runCalls_nil]; omega
  | cons x h ih =>
    intro w hr hl ha hu
    obtain ⟨c, k⟩ := x
    have hax := ha _ (List.mem_cons_self ..)
    have hreg := (StakeInv.reachable hc w hr).1
    have hpi := ProveInv.reachable w hr
    have hcall : (call cfg c k w).vapp.staking = cfg.staking ∧
        (∀ a, ((call cfg c k w).prove.bal a : Int) = w.prove.bal a +
          (if (exec cfg c k w).toBool then k.proveFlow c a else 0) + w.seen.flow cfg a (callEvents cfg c k w)) ∧
        ((call cfg c k w).prove.supply : Int) = w.prove.supply +
          (if (exec cfg c k w).toBool then k.supplyFlow else 0) - burnSum (callEvents cfg c k w) := by
      cases he : exec cfg c k w with
      | error e =>
        have h0 := c96_reverted cfg c k w (by rw [he]; rfl)
        rw [h0.1, h0.2]
        refine ⟨hl, fun a => ?_, ?_⟩
        · show _ = _ + (0 : Int) + (0 : Int); omega
        · show _ = _ + (0 : Int) - (0 : Int); omega
      | ok r =>
        obtain ⟨_, w'⟩ := r
        have e' : call cfg c k w = w' := by unfold call; rw [he]
        rw [e']
        have := flow_call hreg hpi hax hl he
        exact ⟨exec_stays he (hu _ (List.mem_cons_self ..)) hl, this.1, this.2⟩
    obtain ⟨h1, h2, h3⟩ := hcall
    obtain ⟨g1, g2⟩ := ih (hr.call hax) h1 (fun x hx => ha x (List.mem_cons_of_mem _ hx))
      (fun x hx => hu x (List.mem_cons_of_mem _ hx))
    rw [runCalls_cons]
    refine ⟨fun a => ?_, ?_⟩
    · show _ = _ + (_ + directFlow cfg a (call cfg c k w) h) + w.seen.flow cfg a (callEvents cfg c k w ++ logOf cfg _ h)
      rw [flow_append, (call_told cfg c k w).2]
      have := g1 a
      have := h2 a
      dsimp only at *
      omega
    · show _ = _ + (_ + directSupply cfg (call cfg c k w) h) - ((burnSum (callEvents cfg c k w ++ logOf cfg _ h) : Nat) : Int)
      rw [burnSum_append]
      dsimp only at *
      omega

/-- **C98 (the log accounts for all $PROVE).** Let `w` be a state some history of admissible calls leads to, with the
vApp pointing at the staking contract, and let any further admissible calls follow, none of which points it elsewhere.
Then every account's $PROVE has changed by exactly what the events say — deposits go from the account to the vApp,
withdrawals from the vApp to the account or, for a prover, to the $iPROVE vault, stakes from the staker to the vault,
unstakes from the vault to the staker, dispensed amounts from the staking contract to the vault, and slashed amounts
leave the vault — and what successful calls of the $PROVE token itself moved. Nothing else moves $PROVE. -/
theorem c98_balances (cfg : Cfg) (hc : cfg.WF) (w : World) (hr : Reachable cfg w) (hl : w.vapp.staking = cfg.staking)
    (h : List (Ctx × Call)) (ha : ∀ x ∈ h, Admissible cfg x) (hu : ∀ x ∈ h, Stays cfg x.2) (a : Address) :
    ((runCalls cfg w h).prove.bal a : Int) =
      w.prove.bal a + directFlow cfg a w h + w.seen.flow cfg a (logOf cfg w h) :=
  (flow_history hc h hr hl ha hu).1 a

/-- **C98 (supply).** And the supply has changed by exactly what the token minted and burned on request, less the
amounts in the `Slash` events. -/
theorem c98_supply (cfg : Cfg) (hc : cfg.WF) (w : World) (hr : Reachable cfg w) (hl : w.vapp.staking = cfg.staking)
    (h : List (Ctx × Call)) (ha : ∀ x ∈ h, Admissible cfg x) (hu : ∀ x ∈ h, Stays cfg x.2) :
    ((runCalls cfg w h).prove.supply : Int) =
      w.prove.supply + directSupply cfg w h - burnSum (logOf cfg w h) :=
  (flow_history hc h hr hl ha hu).2

/-! ### Witnesses -/

open ToyL1

/-- Deposits, stakes, a slash, unstakes, a step that pays alice and a transfer. -/
def ToyL1.money : List (Ctx × Call) :=
  stakes ++ more.take 2 ++ [step1, (ctx alice 1700, .proveTransfer bob 30), (ctx gov 1701, .proveMint bob 11)]

/-- C98: the hypotheses hold of a history with every kind of event about $PROVE but `Dispense`. -/
example : (∀ x ∈ ToyL1.money, Admissible cfg x) ∧ (∀ x ∈ ToyL1.money, Stays cfg x.2) ∧ genesis.vapp.staking = cfg.staking := by
  refine ⟨fun x hx => admissible_ok (List.all_eq_true.mp (by decide +kernel : ToyL1.money.all admissible = true) x hx),
    fun x hx b e => ?_, rfl⟩
  have : ToyL1.money.all (fun x => match x.2 with | .updateStaking _ => false | _ => true) = true := by decide +kernel
  have := List.all_eq_true.mp this x hx
  rw [e] at this
  exact nomatch this

/-- C98: what its log and its token calls say, and the balances. Alice deposits 5000, stakes 1000, gets 400 back after
the slash, withdraws 120 and sends 30 to bob. -/
example : genesis.seen.flow cfg alice (logOf cfg genesis ToyL1.money) = -5000 - 1000 + 400 + 120 ∧
    directFlow cfg alice genesis ToyL1.money = -30 ∧
    genesis.seen.flow cfg cfg.vapp (logOf cfg genesis ToyL1.money) = 5000 - 120 ∧
    genesis.seen.flow cfg cfg.iprove (logOf cfg genesis ToyL1.money) = 1000 + 500 - 300 - 400 ∧
    burnSum (logOf cfg genesis ToyL1.money) = 300 ∧ directSupply cfg genesis ToyL1.money = 11 ∧
    (runCalls cfg genesis ToyL1.money).prove.bal alice = 100000 - 5510 ∧
    (runCalls cfg genesis ToyL1.money).prove.supply = 300000 - 300 + 11 := by
  decide +kernel

end Verif
