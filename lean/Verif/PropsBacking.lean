import Verif.EventBacking
import Verif.PropsEvents
import Verif.L1Views
/-
# Property C99: the amounts of $iPROVE in the event log
-/

namespace Verif
open L1 LM

/-- A history of calls and its log. -/
theorem backs_history {cfg : Cfg} (hc : cfg.WF) {p : Address} (hp : p ≠ cfg.staking) (h : List (Ctx × Call)) :
    ∀ {w : World}, Reachable cfg w → (∀ x ∈ h, Admissible cfg x) →
      Backs p (logOf cfg w h) w (runCalls cfg w h) := by
  induction h with
  | nil => intro w _ _; exact Backs.refl p w
  | cons x h ih =>
    intro w hr ha
    obtain ⟨c, k⟩ := x
    have hax := ha _ (List.mem_cons_self ..)
    have hreg := (StakeInv.reachable hc w hr).1
    have one : Backs p (callEvents cfg c k w) w (call cfg c k w) := by
      cases he : exec cfg c k w with
      | error e =>
        have h0 := c96_reverted cfg c k w (by rw [he]; rfl)
        rw [h0.1, h0.2]
        exact Backs.refl p w
      | ok r =>
        obtain ⟨_, w'⟩ := r
        have e' : call cfg c k w = w' := by unfold call; rw [he]
        rw [e']
        exact execE_backs hp hreg hax he (exec_execE he)
    rw [runCalls_cons]
    exact one.trans (ih (hr.call hax) (fun x hx => ha x (List.mem_cons_of_mem _ hx)))

/-- **C99 (the $iPROVE behind a prover).** Let `w` be a state some history of admissible calls leads to, and let any
further admissible calls follow. If no `Withdraw` event in their log names the prover, then the $iPROVE behind it, in
its vault and in escrow together, has changed by exactly the $iPROVE amounts of its `Stake` events less those of its
`Unstake` and `Slash` events. -/
theorem c99_backing (cfg : Cfg) (hc : cfg.WF) (w : World) (hr : Reachable cfg w) (h : List (Ctx × Call))
    (ha : ∀ x ∈ h, Admissible cfg x) (p : Address) (hp : p ≠ cfg.staking)
    (hn : ∀ e ∈ logOf cfg w h, ¬ e.paysTo p) :
    ((runCalls cfg w h).iprove.bal p + ((runCalls cfg w h).staking.escrowPools p).iPROVEEscrow : Int) =
      w.iprove.bal p + (w.staking.escrowPools p).iPROVEEscrow + backingSum p (logOf cfg w h) :=
  (backs_history hc hp h hr ha).exactly hn

/-- **C99 (with withdrawals).** Whatever the log says, there is at least that much: withdrawals only add. -/
theorem c99_backing_least (cfg : Cfg) (hc : cfg.WF) (w : World) (hr : Reachable cfg w) (h : List (Ctx × Call))
    (ha : ∀ x ∈ h, Admissible cfg x) (p : Address) (hp : p ≠ cfg.staking) :
    (w.iprove.bal p + (w.staking.escrowPools p).iPROVEEscrow : Int) + backingSum p (logOf cfg w h) ≤
      (runCalls cfg w h).iprove.bal p + ((runCalls cfg w h).staking.escrowPools p).iPROVEEscrow :=
  (backs_history hc hp h hr ha).least

/-- **C99 (the escrow).** If no `Slash` event in the log names the prover, then the $iPROVE in its escrow has changed by
exactly the amounts of its `UnstakeRequest` events less those of its `Unstake` events. -/
theorem c99_escrow (cfg : Cfg) (hc : cfg.WF) (w : World) (hr : Reachable cfg w) (h : List (Ctx × Call))
    (ha : ∀ x ∈ h, Admissible cfg x) (p : Address) (hp : p ≠ cfg.staking)
    (hn : ∀ e ∈ logOf cfg w h, ¬ e.slashOf p) :
    (((runCalls cfg w h).staking.escrowPools p).iPROVEEscrow : Int) =
      (w.staking.escrowPools p).iPROVEEscrow + queuedSum p (logOf cfg w h) :=
  (backs_history hc hp h hr ha).escrow hn

/-- **C99 (with slashes).** Whatever the log says, the escrow holds at most that much: slashes only take away. -/
theorem c99_escrow_most (cfg : Cfg) (hc : cfg.WF) (w : World) (hr : Reachable cfg w) (h : List (Ctx × Call))
    (ha : ∀ x ∈ h, Admissible cfg x) (p : Address) (hp : p ≠ cfg.staking) :
    (((runCalls cfg w h).staking.escrowPools p).iPROVEEscrow : Int) ≤
      (w.staking.escrowPools p).iPROVEEscrow + queuedSum p (logOf cfg w h) :=
  (backs_history hc hp h hr ha).most

/-- **C99 (from deployment).** A reader of the whole log of a deployment knows the $iPROVE behind every prover that no
`Withdraw` event names. -/
theorem c99_from_deployment (cfg : Cfg) (hc : cfg.WF) (w₀ : World) (hg : Genesis cfg w₀) (h : List (Ctx × Call))
    (ha : ∀ x ∈ h, Admissible cfg x) (p : Address) (hp : p ≠ cfg.staking)
    (hn : ∀ e ∈ logOf cfg w₀ h, ¬ e.paysTo p) :
    ((runCalls cfg w₀ h).iprove.bal p + ((runCalls cfg w₀ h).staking.escrowPools p).iPROVEEscrow : Int) =
      backingSum p (logOf cfg w₀ h) := by
  have hr : Reachable cfg w₀ := ⟨w₀, [], hg, fun _ hx => (List.not_mem_nil hx).elim, rfl⟩
  rw [c99_backing cfg hc w₀ hr h ha p hp hn, hg.iprove, hg.maps.2.2.2.2]
  show ((0 : Nat) : Int) + ((0 : Nat) : Int) + _ = _
  omega

/-! ### Witnesses -/

open ToyL1

/-- The public values of a step that also pays 70 to the prover. -/
def ToyL1.valuesP : StepValues :=
  { values1 with receipts := values1.receipts ++ [⟨.withdraw, .completed, BitVec.allOnes 64, (Withdraw.mk prover1 70).abi⟩] }

/-- Stakes, requests to unstake, a slash and a finished unstake. -/
def ToyL1.backed : List (Ctx × Call) := stakes ++ more.take 2

/-- And a step that pays the prover. -/
def ToyL1.paid : List (Ctx × Call) := ToyL1.backed ++ [(ctx auc 1600, .step valuesP.encode [])]

/-- C99: the hypotheses. -/
example : (∀ x ∈ ToyL1.paid, Admissible cfg x) ∧ prover1 ≠ cfg.staking ∧
    (∀ e ∈ logOf cfg genesis ToyL1.backed, ¬ e.paysTo prover1) ∧ (∀ e ∈ logOf cfg genesis stakes, ¬ e.slashOf prover1) := by
  have no {es : List Ev} (f : Ev → Prop) (g : Ev → Bool) (hfg : ∀ e, f e → g e = true) (h : es.all (fun e => !g e) = true) :
      ∀ e ∈ es, ¬ f e := by
    intro e he hf
    have := List.all_eq_true.mp h e he
    rw [hfg e hf] at this
    exact nomatch this
  refine ⟨fun x hx => admissible_ok (List.all_eq_true.mp (by decide +kernel : ToyL1.paid.all admissible = true) x hx),
    by decide +kernel, ?_, ?_⟩
  · refine no _ (fun | .withdraw q _ => q = prover1 | _ => false) ?_ (by decide +kernel)
    intro e he
    cases e <;> first | exact he.elim | exact decide_eq_true he
  · refine no _ (fun | .slash q _ _ _ => q = prover1 | _ => false) ?_ (by decide +kernel)
    intro e he
    cases e <;> first | exact he.elim | exact decide_eq_true he

/-- C99: 1500 staked, 500 of it queued, 300 slashed, 400 paid; the step adds 70 $PROVE worth of $iPROVE that no amount of
$iPROVE in the log accounts for, and the slash takes 100 of the escrow. -/
example : backingSum prover1 (logOf cfg genesis ToyL1.backed) = 1000 + 500 - 300 - 400 ∧
    (runCalls cfg genesis ToyL1.backed).iprove.bal prover1 +
      ((runCalls cfg genesis ToyL1.backed).staking.escrowPools prover1).iPROVEEscrow = 800 ∧
    queuedSum prover1 (logOf cfg genesis stakes) = 500 ∧
    ((runCalls cfg genesis stakes).staking.escrowPools prover1).iPROVEEscrow = 500 ∧
    queuedSum prover1 (logOf cfg genesis ToyL1.backed) = 100 ∧
    ((runCalls cfg genesis ToyL1.backed).staking.escrowPools prover1).iPROVEEscrow = 0 ∧
    backingSum prover1 (logOf cfg genesis ToyL1.paid) = 800 ∧
    (runCalls cfg genesis ToyL1.paid).iprove.bal prover1 = 870 := by
  decide +kernel

end Verif
