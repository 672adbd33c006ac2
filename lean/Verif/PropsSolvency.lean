import Verif.L1Flow
/-
# C37: the vApp contract can pay what the rollup owes

Specification vocabulary: `Genuine env cfg w s h` says that along the history `h` of calls, starting in the
world `w` with the full rollup state `s`, no fork is accepted and the public values of every accepted step
are a true output: one STF output or the summary of a chain of STF outputs (`TrueOutput`). `strays` are
the tokens that reach the vApp contract other than by deposits.
-/

namespace Verif
open L1

/-- `v` is the output of the STF program for one input or the aggregation of such outputs. -/
def TrueOutput (env : Env) (inputs : List StfInput) (v : StepValues) : Prop :=
  ∃ steps, inputs.map (stf env) = steps.map some ∧ IsChain steps ∧ Summary steps v

/-- See the head of the file. The side conditions are those of C27: no hash collision among the strings
really hashed, no leaf with hash zero. -/
def Genuine (env : Env) (cfg : Cfg) : World → FullState → List (Ctx × Call) → Prop
  | _, _, [] => True
  | w, s, x :: h =>
    match exec cfg x.1 x.2 w with
    | .error _ => Genuine env cfg w s h
    | .ok (_, w') =>
      match x.2 with
      | .fork _ _ => False
      | .step pv _ => ∃ v inputs, StepValues.decode pv = some v ∧ TrueOutput env inputs v ∧
          StfSideConditions env s inputs ∧
          ∀ rs s', runTxs merkleOps merkleOps env (inputs.map StfInput.txs).flatten s = some (rs, s') →
            Genuine env cfg w' s' h
      | _ => Genuine env cfg w' s h

/-- $PROVE that the accepted call `k` brings to the vApp contract and that is not a deposit: any increase
of its balance by other calls, and withdrawals that pay the contract itself. -/
def Call.stray (cfg : Cfg) (w w' : World) : Call → Nat
  | .deposit _ => 0
  | .permitAndDeposit _ _ _ => 0
  | .step pv _ =>
    match StepValues.decode pv with
    | some v => (v.receipts.map (SolReceipt.selfPaid cfg)).sum
    | none => 0
  | _ => w'.prove.bal cfg.vapp - w.prove.bal cfg.vapp

/-- The total of the strays of a history. -/
def strays (cfg : Cfg) : World → List (Ctx × Call) → Nat
  | _, [] => 0
  | w, x :: h =>
    (match exec cfg x.1 x.2 w with
      | .ok (_, w') => x.2.stray cfg w w'
      | .error _ => 0) + strays cfg (call cfg x.1 x.2 w) h

/-! ## Single calls -/

/-- The vApp contract gave no allowance to anybody but $iPROVE. -/
theorem StakingInv.vapp_allow {cfg : Cfg} {w : World} (hi : StakingInv cfg w) (s : Address) (hs : s ≠ cfg.iprove) :
    w.prove.allow cfg.vapp s = 0 :=
  hi.prove.allow _ s (Or.inr (Or.inr (Or.inr (Or.inl rfl)))) hs

theorem Admissible.vapp {cfg : Cfg} {c : Ctx} {k : Call} (ha : Admissible cfg (c, k)) :
    (cfg.vapp ≠ c.sender ∨ ∃ p v, k = .requestSlash p v) ∧ k.signer ≠ some cfg.vapp := by
  have hs : cfg.System cfg.vapp := Or.inr (Or.inr (Or.inr (Or.inl rfl)))
  have hn : ∀ a, ¬ cfg.System a → cfg.vapp ≠ a := fun a h e => h (e ▸ hs)
  cases k <;> simp only [Call.signer]
  case requestSlash p v => exact ⟨Or.inr ⟨_, _, rfl⟩, by simp⟩
  case provePermit s _ _ _ => exact ⟨Or.inl (hn _ ha.1), fun e => hn _ ha.2 (Option.some.inj e).symm⟩
  case iprovePermit s _ _ _ => exact ⟨Or.inl (hn _ ha.1), by simp⟩
  case permitAndDeposit s _ _ => exact ⟨Or.inl (hn _ ha.1), fun e => hn _ ha.2 (Option.some.inj e).symm⟩
  case permitAndStake s _ _ _ => exact ⟨Or.inl (hn _ ha.1), fun e => hn _ ha.2 (Option.some.inj e).symm⟩
  all_goals exact ⟨Or.inl (hn _ ha), by simp⟩

/-- Every accepted call but a step leaves the vApp contract with at least as much as before. -/
theorem exec_vapp_keeps {cfg : Cfg} (hc : cfg.WF) {c : Ctx} {k : Call} {w w' : World} (hi : StakingInv cfg w)
    (ha : Admissible cfg (c, k)) (h : exec cfg c k w = .ok ((), w')) (hk : ∀ pv pr, k ≠ .step pv pr) :
    w.prove.bal cfg.vapp ≤ w'.prove.bal cfg.vapp := by
  have hd := hc.distinct
  simp at hd
  exact exec_keeps hi.reg hc ha h cfg.vapp (ha.vapp).1 (vapp_ne_iprove hc) (Or.inl (Ne.symm hd.2.2)) (Or.inl hk)
    (fun s hs => hi.vapp_allow s hs) (ha.vapp).2

/-- The amount of a deposit call. -/
def Call.depositOf : Call → Option Nat
  | .deposit v | .permitAndDeposit _ _ v => some v.toNat
  | _ => none

theorem vappDepositFrom_bal {cfg : Cfg} {f : Address} {v : U256} {id : U64} {w w' : World}
    (ha : w.prove.allow cfg.vapp cfg.vapp = 0) (h : vappDepositFrom cfg f v w = .ok (id, w')) :
    w'.prove.bal cfg.vapp = w.prove.bal cfg.vapp + v.toNat := by
  obtain ⟨_, _, t1, t2, h1, h2, rfl⟩ := vappDepositFrom_ok h
  show t2.bal cfg.vapp = _
  rw [← (Erc20.spend_ok h1).2.1]
  by_cases e : f = cfg.vapp
  · subst e
    have hv := Erc20.spend_zero h1 ha
    rw [(Erc20.transfer_exact h2).2.1 rfl]; omega
  · exact ((Erc20.transfer_exact h2).1 e).2

/-- A deposit adds its amount to what the vApp contract holds and to the pending deposits. -/
theorem exec_deposit {cfg : Cfg} (hc : cfg.WF) {c : Ctx} {k : Call} {w w' : World} {n : Nat} (hi : StakingInv cfg w)
    (hq : QueueInv w) (ha : Admissible cfg (c, k)) (h : exec cfg c k w = .ok ((), w')) (hk : k.depositOf = some n) :
    w'.prove.bal cfg.vapp = w.prove.bal cfg.vapp + n ∧ w'.pendingDeposits = w.pendingDeposits + n := by
  have hne := vapp_ne_iprove hc
  cases k <;> simp only [Call.depositOf, reduceCtorEq, Option.some.injEq] at hk
  case deposit v =>
    subst hk
    obtain ⟨hQ, _⟩ := exec_queues h (v := .deposit) (d := (Deposit.mk c.sender v).abi) rfl
    refine ⟨?_, ?_⟩
    · simp only [exec, drop_ok, vappDeposit, bind_ok, whenNotPaused_ok] at h
      obtain ⟨_, _, _, ⟨hp, rfl⟩, h⟩ := h
      exact vappDepositFrom_bal (hi.vapp_allow _ hne) h
    · rw [pending_queued hq hQ]
      simp only [SolTransaction.depositAmount, if_true, decAccountAmount_deposit]
  case permitAndDeposit s f v =>
    subst hk
    obtain ⟨hQ, _⟩ := exec_queues h (v := .deposit) (d := (Deposit.mk f v).abi) rfl
    refine ⟨?_, ?_⟩
    · replace h := drop_ok.mp h
      obtain ⟨id, h⟩ := h
      obtain ⟨_, t0, g0, h⟩ := vappPermitAndDeposit_ok h
      have hb : t0.bal = w.prove.bal ∧ t0.allow cfg.vapp cfg.vapp = 0 := by
        rcases g0 with ⟨_, rfl⟩ | ⟨rfl, g0⟩
        · exact ⟨rfl, hi.vapp_allow _ hne⟩
        · obtain ⟨_, _, rfl⟩ := Erc20.approve_ok g0
          refine ⟨rfl, ?_⟩
          show upd w.prove.allow s _ cfg.vapp cfg.vapp = 0
          rw [upd_ne _ _ (fun e => ha.vapp.2 (congrArg some e.symm))]
          exact hi.vapp_allow _ hne
      have := vappDepositFrom_bal (w := { w with prove := t0 }) hb.2 h
      rw [show ({ w with prove := t0 } : World).prove.bal = w.prove.bal from hb.1] at this
      exact this
    · rw [pending_queued hq hQ]
      simp only [SolTransaction.depositAmount, if_true, decAccountAmount_deposit]

/-- A call that is neither a deposit, a step nor a fork does not change the pending deposits. -/
theorem exec_pending {cfg : Cfg} {c : Ctx} {k : Call} {w w' : World} (hq : QueueInv w)
    (h : exec cfg c k w = .ok ((), w')) (hd : k.depositOf = none) (hs : ∀ pv pr, k ≠ .step pv pr)
    (hf : ∀ a b, k ≠ .fork a b) : w'.pendingDeposits = w.pendingDeposits := by
  rcases exec_vapp_cases h with ⟨_, _, _, _, e⟩ | ⟨v, d, g, hQ⟩ | ⟨pv, pr, x, e, _⟩ | ⟨a, b, x, e, _⟩ | ⟨_, _, e⟩
  · exact pending_congr (by rw [e]) (by rw [e]) (by rw [e])
  · rw [pending_queued hq hQ]
    cases k <;> simp only [Call.queues, Option.some.injEq, Prod.mk.injEq, reduceCtorEq] at g
    case deposit => exact nomatch hd
    case permitAndDeposit => exact nomatch hd
    all_goals
      obtain ⟨rfl, rfl⟩ := g
      rfl
  · exact absurd e (hs _ _)
  · exact absurd e (hf _ _)
  · exact pending_congr e.2.2.1 e.2.2.2.1 e.2.2.2.2.2.2

/-- What one accepted call does: the rollup state it leads to, and the accounting. -/
theorem exec_accounts {env : Env} {cfg : Cfg} (hc : cfg.WF) {c : Ctx} {k : Call} {w w' : World} {s : FullState}
    {txs : List (Int × Tx)} (hi : StakingInv cfg w) (hq : QueueInv w) (hroot : s.root env.keccak = w.vapp.roots w.vapp.blockNumber)
    (ha : Admissible cfg (c, k)) (h : exec cfg c k w = .ok ((), w')) (hf : ∀ a b, k ≠ .fork a b)
    (hg : ∀ pv pr, k = .step pv pr → ∃ v inputs, StepValues.decode pv = some v ∧ TrueOutput env inputs v ∧
      StfSideConditions env s inputs ∧ txs = (inputs.map StfInput.txs).flatten)
    (ht : (∀ pv pr, k ≠ .step pv pr) → txs = []) :
    ∃ (rs : List Receipt) (s' : FullState), runTxs merkleOps merkleOps env txs s = some (rs, s') ∧
      s'.root env.keccak = w'.vapp.roots w'.vapp.blockNumber ∧
      w'.prove.bal cfg.vapp + s.plain.total + w.pendingDeposits =
        w.prove.bal cfg.vapp + s'.plain.total + w'.pendingDeposits + k.stray cfg w w' ∧
      ((∀ pv pr, k ≠ .step pv pr) → s' = s) ∧
      ∀ pv pr, k = .step pv pr → ∃ v, StepValues.decode pv = some v ∧ v.receipts = rs.map Receipt.sol := by
  by_cases hs : ∀ pv pr, k ≠ .step pv pr
  · obtain rfl := ht hs
    obtain ⟨e1, e2, _⟩ := c34_only_step_or_fork h hs hf
    refine ⟨[], s, rfl, by rw [e1, e2]; exact hroot, ?_, fun _ => rfl, fun pv pr e => absurd e (hs pv pr)⟩
    cases hd : k.depositOf with
    | some n =>
      obtain ⟨h1, h2⟩ := exec_deposit hc hi hq ha h hd
      have hz : k.stray cfg w w' = 0 := by
        cases k <;> first | (simp only [Call.depositOf, reduceCtorEq] at hd; done) | rfl
      omega
    | none =>
      have h1 := exec_vapp_keeps hc hi ha h hs
      have h2 := exec_pending hq h hd hs hf
      have hz : k.stray cfg w w' = w'.prove.bal cfg.vapp - w.prove.bal cfg.vapp := by
        cases k <;> first | rfl | exact absurd rfl (hs _ _) | (simp only [Call.depositOf, reduceCtorEq] at hd; done)
      omega
  · have : ∃ pv pr, k = .step pv pr := by
      cases k <;> first | exact ⟨_, _, rfl⟩ | (exact absurd (fun _ _ => by simp) hs)
    obtain ⟨pv, pr, rfl⟩ := this
    obtain ⟨v, inputs, hv, ⟨steps, t1, t2, t3⟩, hside, rfl⟩ := hg pv pr rfl
    obtain ⟨v', d1, d2, d3, d4, _⟩ := c34_step h
    obtain rfl : v' = v := Option.some.inj (d1.symm.trans hv)
    obtain ⟨rs, s', r1, r2, r3, _⟩ := c29_one_run env inputs steps v' s t1 t2 t3 (by rw [hroot, d3]) hside
    refine ⟨rs, s', r1, by rw [d4, r3], ?_, fun hn => absurd rfl (hn _ _), fun pv' pr' e => ?_⟩
    rotate_left
    · injection e with e1 _
      exact ⟨v', by rw [← e1]; exact hv, r2⟩
    obtain ⟨x, h⟩ := drop_ok.mp h
    obtain ⟨_, _, _, v'', g1, _, _, _, _, _, _, _, hh⟩ := vappStep_ok h
    obtain rfl : v'' = v' := Option.some.inj (g1.symm.trans hv)
    have hplain := runTxs_merkle env (inputs.map StfInput.txs).flatten s
    rw [r1] at hplain
    simp only [Option.map_some] at hplain
    obtain ⟨f1, f2, _⟩ := runTxs_flow env _ _ _ _ hplain
    rw [r2] at hh
    obtain ⟨_, _, b3, b4⟩ := handleReceipts_flow hc rs f1
      (w := { w with vapp := { w.vapp with
        blockNumber := w.vapp.blockNumber + 1
        roots := upd w.vapp.roots (w.vapp.blockNumber + 1) v''.newRoot
        timestamps := upd w.vapp.timestamps (w.vapp.blockNumber + 1) v''.timestamp } })
      (hq.congr rfl rfl rfl) (hi.reg.congr ⟨rfl, rfl, rfl, rfl⟩) hh
    rw [pending_congr (w := w) (w' := { w with vapp := { w.vapp with
        blockNumber := w.vapp.blockNumber + 1
        roots := upd w.vapp.roots (w.vapp.blockNumber + 1) v''.newRoot
        timestamps := upd w.vapp.timestamps (w.vapp.blockNumber + 1) v''.timestamp } }) rfl rfl rfl] at b3
    have hz : (Call.step pv pr).stray cfg w w' = ((rs.map Receipt.sol).map (SolReceipt.selfPaid cfg)).sum := by
      simp only [Call.stray, hv, r2]
    rw [hz]
    change w'.prove.bal cfg.vapp + _ = w.prove.bal cfg.vapp + _ at b4
    omega

/-! ## C37 -/

theorem handleReceipts_ids {cfg : Cfg} {c : Ctx} : ∀ (rs : List Receipt) {u : Unit} {w w' : World},
    (∀ r ∈ rs, r.status = .completed) → handleReceipts cfg c (rs.map Receipt.sol) w = .ok (u, w') →
    ∀ r ∈ rs, r.onchain = true → r.sol.onchainTxId ≠ BitVec.allOnes 64 := by
  intro rs
  induction rs with
  | nil => intro _ _ _ _ _ r hr; exact nomatch hr
  | cons q rs ih =>
    intro u w w' hst h r hr ho
    rw [List.map_cons] at h
    unfold handleReceipts at h
    have key : ∃ w1, handleReceipts cfg c (rs.map Receipt.sol) w1 = .ok (u, w') ∧
        (q.sol.onchainTxId = BitVec.allOnes 64 → handleOffchain cfg c q.sol w = .ok ((), w1)) := by
      split at h
      · rename_i hq
        obtain ⟨_, w1, _, h⟩ := bind_ok.mp h
        exact ⟨w1, h, fun e => absurd e hq⟩
      · obtain ⟨_, w1, h1, h⟩ := bind_ok.mp h
        exact ⟨w1, h, fun _ => h1⟩
    obtain ⟨w1, h1, h2⟩ := key
    rcases List.mem_cons.mp hr with rfl | hr
    · intro e
      have hs := hst r (List.mem_cons_self ..)
      rcases handleOffchain_cases (h2 e) with ⟨hrev, _⟩ | ⟨_, hv, _⟩
      · cases r <;> simp only [Receipt.status, Receipt.sol] at hs hrev <;> rw [hs] at hrev <;> exact nomatch hrev
      · cases r <;> simp only [Receipt.sol, Receipt.onchain, reduceCtorEq] at hv ho
    · exact ih (fun r hr => hst r (List.mem_cons_of_mem _ hr)) h1 r hr ho

/-- All receipts a call delivers if it is accepted. -/
def Call.allReceipts : Call → List SolReceipt
  | .step pv _ =>
    match StepValues.decode pv with
    | some v => v.receipts
    | none => []
  | _ => []

/-- The receipts of the accepted steps of a history, in order. -/
def stepLog (cfg : Cfg) : World → List (Ctx × Call) → List SolReceipt
  | _, [] => []
  | w, x :: h =>
    (match exec cfg x.1 x.2 w with
      | .ok _ => x.2.allReceipts
      | .error _ => []) ++ stepLog cfg (call cfg x.1 x.2 w) h

theorem receiptLog_stepLog (cfg : Cfg) (w : World) (h : List (Ctx × Call)) :
    receiptLog cfg w h = onchainOf (stepLog cfg w h) := by
  induction h generalizing w with
  | nil => rfl
  | cons x h ih =>
    rw [receiptLog, stepLog, ih, onchainOf, onchainOf, List.filter_append]
    congr 1
    have hx : x.2.receipts = onchainOf x.2.allReceipts := by
      generalize x.2 = k
      cases k
      case step pv pr =>
        simp only [Call.receipts, Call.allReceipts]
        cases StepValues.decode pv <;> rfl
      all_goals rfl
    cases exec cfg x.1 x.2 w with
    | ok _ => exact hx
    | error _ => rfl

/-- `P` is kept by the call `x`: a call other than a step keeps the rollup state, a step changes it by the execution
of transactions whose receipts it carries. -/
def Carries (env : Env) (cfg : Cfg) (P : World → FullState → Prop) (x : Ctx × Call) : Prop :=
  ∀ w w' s, P w s → exec cfg x.1 x.2 w = .ok ((), w') →
    ((∀ pv pr, x.2 ≠ .step pv pr) → (∀ a b, x.2 ≠ .fork a b) → P w' s) ∧
    ∀ pv pr v txs rs s', x.2 = .step pv pr → StepValues.decode pv = some v → v.receipts = rs.map Receipt.sol →
      runTxs merkleOps merkleOps env txs s = some (rs, s') → P w' s'

/-- The state of the rollup along a genuine history. -/
theorem c37_run {env : Env} {cfg : Cfg} (hc : cfg.WF) (P : World → FullState → Prop) (h : List (Ctx × Call)) :
    (∀ x ∈ h, Carries env cfg P x) → ∀ (w : World) (s : FullState) (Q F), P w s → StakingInv cfg w → QueueOk w Q F → s.root env.keccak = w.vapp.roots w.vapp.blockNumber →
    (∀ x ∈ h, Admissible cfg x) → Genuine env cfg w s h →
    ∃ (txs : List (Int × Tx)) (rs : List Receipt) (s' : FullState) (Q' : List (TxVariant × Bytes)) (F' : List SolReceipt),
      runTxs merkleOps merkleOps env txs s = some (rs, s') ∧
      s'.root env.keccak = (runCalls cfg w h).vapp.roots (runCalls cfg w h).vapp.blockNumber ∧
      P (runCalls cfg w h) s' ∧ StakingInv cfg (runCalls cfg w h) ∧ QueueOk (runCalls cfg w h) Q' F' ∧
      (runCalls cfg w h).prove.bal cfg.vapp + s.plain.total + w.pendingDeposits =
        w.prove.bal cfg.vapp + s'.plain.total + (runCalls cfg w h).pendingDeposits + strays cfg w h ∧
      stepLog cfg w h = rs.map Receipt.sol ∧ ∀ r ∈ rs, r.onchain = true → r.sol.onchainTxId ≠ BitVec.allOnes 64 := by
  induction h with
  | nil =>
    intro _ w s Q F hP hi hq hr _ _
    exact ⟨[], [], s, Q, F, rfl, hr, hP, hi, hq, by simp only [runCalls_nil, strays]; omega, rfl, by simp⟩
  | cons x h ih =>
    intro hcar w s Q F hP hi hq hr ha hg
    have hcx := hcar x (List.mem_cons_self ..)
    have hct : ∀ y ∈ h, Carries env cfg P y := fun y hy => hcar y (List.mem_cons_of_mem _ hy)
    have hax := ha x (List.mem_cons_self ..)
    have hat : ∀ y ∈ h, Admissible cfg y := fun y hy => ha y (List.mem_cons_of_mem _ hy)
    rw [runCalls_cons, strays, stepLog]
    rw [Genuine] at hg
    rcases call_ok (cfg := cfg) (c := x.1) (k := x.2) (w := w) with ⟨w', h1, h2⟩ | ⟨⟨e, h1⟩, h2⟩
    · rw [h2]
      rw [h1] at hg ⊢
      dsimp only at hg ⊢
      have hi' := hi.exec hc hax h1
      have hq' := exec_queueOk hq h1
      -- the transactions of this call
      have key : ∃ txs, (∀ a b, x.2 ≠ .fork a b) ∧ (∀ pv pr, x.2 = .step pv pr → ∃ v inputs, StepValues.decode pv = some v ∧
          TrueOutput env inputs v ∧ StfSideConditions env s inputs ∧ txs = (inputs.map StfInput.txs).flatten) ∧
          ((∀ pv pr, x.2 ≠ .step pv pr) → txs = []) ∧
          ∀ rs s', runTxs merkleOps merkleOps env txs s = some (rs, s') → Genuine env cfg w' s' h := by
        revert hg
        generalize x.2 = k
        intro hg
        cases k
        case fork a b => exact hg.elim
        case step pv pr =>
          obtain ⟨v, inputs, g1, g2, g3, g4⟩ := hg
          refine ⟨_, by simp, fun pv' pr' e => ?_, fun hn => absurd rfl (hn _ _), g4⟩
          injection e with e1 e2
          subst e1
          exact ⟨v, inputs, g1, g2, g3, rfl⟩
        all_goals
          refine ⟨[], by simp, by simp, fun _ => rfl, fun rs s' hrun => ?_⟩
          simp only [runTxs, Option.some.injEq, Prod.mk.injEq] at hrun
          rw [← hrun.2]
          exact hg
      obtain ⟨txs, k1, k2, k3, k4⟩ := key
      obtain ⟨rs, s1, r1, r2, r3, r4, r5⟩ := exec_accounts hc hi (QueueInv.of_ok hq) hr hax h1 k1 k2 k3
      have hP' : P w' s1 := by
        obtain ⟨c1, c2⟩ := hcx w w' s hP h1
        by_cases hs : ∀ pv pr, x.2 ≠ .step pv pr
        · rw [r4 hs]; exact c1 hs k1
        · have : ∃ pv pr, x.2 = .step pv pr := by
            revert hs
            generalize x.2 = k
            intro hs
            cases k <;> first | exact ⟨_, _, rfl⟩ | (exact absurd (fun _ _ => by simp) hs)
          obtain ⟨pv, pr, e⟩ := this
          obtain ⟨v, v1, v2⟩ := r5 pv pr e
          exact c2 pv pr v txs rs s1 e v1 v2 r1
      have hlog : x.2.allReceipts = rs.map Receipt.sol ∧
          ∀ r ∈ rs, r.onchain = true → r.sol.onchainTxId ≠ BitVec.allOnes 64 := by
        by_cases hs : ∀ pv pr, x.2 ≠ .step pv pr
        · obtain rfl := k3 hs
          simp only [runTxs, Option.some.injEq, Prod.mk.injEq] at r1
          obtain ⟨rfl, _⟩ := r1
          refine ⟨?_, by simp⟩
          revert hs
          generalize x.2 = k
          intro hs
          cases k <;> first | rfl | exact absurd rfl (hs _ _)
        · have : ∃ pv pr, x.2 = .step pv pr := by
            revert hs
            generalize x.2 = k
            intro hs
            cases k <;> first | exact ⟨_, _, rfl⟩ | (exact absurd (fun _ _ => by simp) hs)
          obtain ⟨pv, pr, e⟩ := this
          obtain ⟨v, v1, v2⟩ := r5 pv pr e
          have hplain := runTxs_merkle env txs s
          rw [r1] at hplain
          simp only [Option.map_some] at hplain
          rw [e] at h1
          obtain ⟨_, hy⟩ := drop_ok.mp h1
          obtain ⟨_, _, _, v', g1, _, _, _, _, _, _, _, hh⟩ := vappStep_ok hy
          obtain rfl : v' = v := Option.some.inj (g1.symm.trans v1)
          rw [v2] at hh
          refine ⟨?_, handleReceipts_ids rs (runTxs_flow env _ _ _ _ hplain).1 hh⟩
          simp only [e, Call.allReceipts, v1, v2]
      obtain ⟨txs', rs', s', Q', F', i1, i2, iP, i3, i4, i5, i6, i7⟩ := ih hct w' s1 _ _ hP' hi' hq' r2 hat (k4 rs s1 r1)
      refine ⟨txs ++ txs', rs ++ rs', s', Q', F', runTxs_append _ _ env _ _ _ _ _ _ _ r1 i1, i2, iP, i3, i4, by omega, ?_, ?_⟩
      · rw [hlog.1, i6, List.map_append]
      · intro r hr
        rcases List.mem_append.mp hr with hr | hr
        · exact hlog.2 r hr
        · exact i7 r hr
    · rw [h2]
      rw [h1] at hg ⊢
      dsimp only at hg ⊢
      obtain ⟨txs', rs', s', Q', F', i1, i2, iP, i3, i4, i5, i6, i7⟩ := ih hct w s Q F hP hi hq hr hat hg
      exact ⟨txs', rs', s', Q', F', i1, i2, iP, i3, i4, by omega, i6, i7⟩

theorem genesis_inv {cfg : Cfg} (hc : cfg.WF) {w : World} (h : Genesis cfg w) : StakingInv cfg w :=
  StakingInv.reachable hc w ⟨w, [], h, by simp, rfl⟩

theorem genesis_pending {cfg : Cfg} {w : World} (h : Genesis cfg w) : w.pendingDeposits = 0 := by
  unfold World.pendingDeposits
  rw [h.vapp_ids.2.1, h.vapp_ids.2.2]
  rfl

/-- **C37.** After every history of admissible calls without a fork in which each accepted step carries a
true output: there is a full rollup state whose root is the contract's latest root, reached from the initial
one by executing transactions, and the $PROVE held by the vApp contract is what the rollup's accounts hold
plus the deposits not yet processed, plus strays, plus what the contract held beyond the initial balances. -/
theorem c37_exact {env : Env} {cfg : Cfg} (hc : cfg.WF) {w₀ : World} {s₀ : FullState} (h : List (Ctx × Call))
    (hg : Genesis cfg w₀) (hroot : s₀.root env.keccak = w₀.vapp.roots 0) (ha : ∀ x ∈ h, Admissible cfg x)
    (hgen : Genuine env cfg w₀ s₀ h) :
    ∃ (txs : List (Int × Tx)) (rs : List Receipt) (s : FullState), runTxs merkleOps merkleOps env txs s₀ = some (rs, s) ∧
      s.root env.keccak = (runCalls cfg w₀ h).vapp.roots (runCalls cfg w₀ h).vapp.blockNumber ∧
      (runCalls cfg w₀ h).prove.bal cfg.vapp + s₀.plain.total =
        s.plain.total + (runCalls cfg w₀ h).pendingDeposits + strays cfg w₀ h + w₀.prove.bal cfg.vapp := by
  obtain ⟨txs, rs, s, _, _, h1, h2, _, _, _, h5, _⟩ := c37_run hc (fun _ _ => True) h
    (fun _ _ _ _ _ _ _ => ⟨fun _ _ => trivial, fun _ _ _ _ _ _ _ _ _ _ => trivial⟩) w₀ s₀ _ _ trivial (genesis_inv hc hg) (c35_history hg [])
    (by rw [hg.vapp_ids.1]; exact hroot) ha hgen
  rw [genesis_pending hg] at h5
  exact ⟨txs, rs, s, h1, h2, by omega⟩

/-- **C37**, solvency: if the contract starts with at least the initial rollup balances (for the real genesis
state both are zero), it always holds at least the rollup's balances plus the pending deposits - and exactly
that if it started with exactly that and there were no strays. -/
theorem c37_solvent {env : Env} {cfg : Cfg} (hc : cfg.WF) {w₀ : World} {s₀ : FullState} (h : List (Ctx × Call))
    (hg : Genesis cfg w₀) (hroot : s₀.root env.keccak = w₀.vapp.roots 0) (ha : ∀ x ∈ h, Admissible cfg x)
    (hgen : Genuine env cfg w₀ s₀ h) (hstart : s₀.plain.total ≤ w₀.prove.bal cfg.vapp) :
    ∃ (txs : List (Int × Tx)) (rs : List Receipt) (s : FullState),
      runTxs merkleOps merkleOps env txs s₀ = some (rs, s) ∧
      s.root env.keccak = (runCalls cfg w₀ h).vapp.roots (runCalls cfg w₀ h).vapp.blockNumber ∧
      s.plain.total + (runCalls cfg w₀ h).pendingDeposits ≤ (runCalls cfg w₀ h).prove.bal cfg.vapp ∧
      (s₀.plain.total = w₀.prove.bal cfg.vapp → strays cfg w₀ h = 0 →
        (runCalls cfg w₀ h).prove.bal cfg.vapp = s.plain.total + (runCalls cfg w₀ h).pendingDeposits) := by
  obtain ⟨txs, rs, s, h1, h2, h3⟩ := c37_exact hc h hg hroot ha hgen
  exact ⟨txs, rs, s, h1, h2, by omega, fun _ _ => by omega⟩

/-- **C37**, withdrawals can be paid: let the contract hold at least the balances of the rollup state `s` plus
the pending deposits (as it does by `c37_solvent`), and let a step bring the receipts of transactions executed
on `s`. Whenever the receipts before a withdrawal receipt have been processed, the contract holds at least
the amount of the withdrawal. -/
theorem c37_payable {env : Env} {cfg : Cfg} (hc : cfg.WF) {c : Ctx} {w w₁ : World} {s s' : FullState}
    {txs : List (Int × Tx)} {rs rs₁ rs₂ : List Receipt} {st : TxStatus} {d : Withdraw} (hw : Reachable cfg w)
    (hsolv : s.plain.total + w.pendingDeposits ≤ w.prove.bal cfg.vapp)
    (hrun : runTxs merkleOps merkleOps env txs s = some (rs, s'))
    (hsplit : rs = rs₁ ++ Receipt.withdraw st d :: rs₂) (b : U64) (r : U64 → B256) (t : U64 → U64)
    (hproc : handleReceipts cfg c (rs₁.map Receipt.sol)
      { w with vapp := { w.vapp with blockNumber := b, roots := r, timestamps := t } } = .ok ((), w₁)) :
    d.amount.toNat ≤ w₁.prove.bal cfg.vapp := by
  have hplain := runTxs_merkle env txs s
  rw [hrun] at hplain
  simp only [Option.map_some] at hplain
  obtain ⟨f1, _, f3⟩ := runTxs_flow env _ _ _ _ hplain
  have f := f3 (rs₁ ++ [Receipt.withdraw st d]) rs₂ (by rw [hsplit]; simp)
  have hq : QueueInv w := by
    obtain ⟨w₀, h, hg, _, rfl⟩ := hw
    exact QueueInv.of_ok (c35_history hg h)
  obtain ⟨_, _, b3, b4⟩ := handleReceipts_flow hc rs₁
    (fun r hr => f1 r (by rw [hsplit]; exact List.mem_append_left _ hr))
    (w := { w with vapp := { w.vapp with blockNumber := b, roots := r, timestamps := t } })
    (hq.congr rfl rfl rfl) ((StakingInv.reachable hc w hw).reg.congr ⟨rfl, rfl, rfl, rfl⟩) hproc
  rw [pending_congr (w := w) (w' := { w with vapp := { w.vapp with blockNumber := b, roots := r, timestamps := t } })
    rfl rfl rfl] at b3
  change w₁.prove.bal cfg.vapp + _ = w.prove.bal cfg.vapp + _ at b4
  simp only [List.map_append, List.map_cons, List.map_nil, List.sum_append, List.sum_cons, List.sum_nil] at f
  change _ + (d.amount.toNat + 0) ≤ _ + (_ + (0 + 0)) at f
  omega

/-! ### The payment itself -/

/-- Infinite allowances of the modelled contracts stay infinite. -/
structure KeepsMax (cfg : Cfg) (w w' : World) : Prop where
  keeps : ∀ a s, cfg.System a → w.prove.allow a s = max256 → w'.prove.allow a s = max256

theorem KeepsMax.refl' {cfg : Cfg} {w w' : World} (h : w'.prove = w.prove) : KeepsMax cfg w w' :=
  ⟨fun _ _ _ g => by rw [h]; exact g⟩

theorem KeepsMax.tok (cfg : Cfg) : Tok (KeepsMax cfg) where
  refl _ := KeepsMax.refl' rfl
  trans _ _ _ h g := ⟨fun a s ha e => g.keeps a s ha (h.keeps a s ha e)⟩
  prove w t h := by
    refine ⟨fun a s _ e => ?_⟩
    show t.allow a s = max256
    rcases h with ⟨f, to, v, h⟩ | ⟨to, v, h⟩ | ⟨f, v, h⟩ | ⟨o, s', v, h⟩
    · obtain ⟨_, _, _, rfl⟩ := Erc20.transfer_ok h; exact e
    · obtain ⟨_, _, rfl⟩ := Erc20.mint_ok h; exact e
    · obtain ⟨_, _, rfl⟩ := Erc20.burn_ok h; exact e
    · obtain ⟨_, _, _, h1, h2⟩ := Erc20.spend_ok h
      by_cases x : a = o ∧ s = s'
      · obtain ⟨rfl, rfl⟩ := x
        rw [h2, if_pos e]
      · have : a ≠ o ∨ s ≠ s' := by
          by_cases ea : a = o
          · exact Or.inr fun es => x ⟨ea, es⟩
          · exact Or.inl ea
        rw [h1 a s this]; exact e
  iprove _ _ := KeepsMax.refl' rfl
  vault _ _ := KeepsMax.refl' rfl
  st _ _ := KeepsMax.refl' rfl

theorem KeepsMax.approve {cfg : Cfg} {w : World} {o s : Address} {v : Nat} {t : Erc20} (ho : ¬ cfg.System o)
    (h : w.prove.approve o s v = .ok t) : KeepsMax cfg w { w with prove := t } := by
  refine ⟨fun a b ha e => ?_⟩
  obtain ⟨_, _, rfl⟩ := Erc20.approve_ok h
  show upd w.prove.allow o _ a b = _
  rw [upd_ne _ _ (by rintro rfl; exact ho ha)]
  exact e

theorem exec_keepsMax {cfg : Cfg} {c : Ctx} {k : Call} {w w' : World} (ha : Admissible cfg (c, k))
    (h : exec cfg c k w = .ok ((), w')) : KeepsMax cfg w w' := by
  have hR := KeepsMax.tok cfg
  have hv : AllowVapp (KeepsMax cfg) := fun _ _ => KeepsMax.refl' rfl
  have hs : AllowStaking (KeepsMax cfg) := fun _ _ => KeepsMax.refl' rfl
  have hi : AllowInfo (KeepsMax cfg) := fun _ _ => KeepsMax.refl' rfl
  cases k
  case proveApprove s v =>
    simp only [exec, onProve_ok] at h
    obtain ⟨t, h, rfl⟩ := h
    exact KeepsMax.approve ha h
  case provePermit s o p v =>
    obtain ⟨rfl, t, h1, rfl⟩ := provePermit_ok h
    exact KeepsMax.approve ha.2 h1
  case permitAndDeposit s f v =>
    replace h := drop_ok.mp h
    obtain ⟨id, h⟩ := h
    obtain ⟨_, t0, h1, h2⟩ := vappPermitAndDeposit_ok h
    have h3 := vappDepositFrom_within hR hv _ _ _ _ _ _ h2
    rcases h1 with ⟨_, rfl⟩ | ⟨rfl, h1⟩
    · exact h3
    · exact hR.trans _ _ _ (KeepsMax.approve ha.2 h1) h3
  case permitAndStake s p f v =>
    replace h := drop_ok.mp h
    obtain ⟨n, h⟩ := h
    simp only [permitAndStake, bind_ok, onlyForProver_ok, get_ok] at h
    obtain ⟨_, _, ⟨h1, rfl⟩, _, _, ⟨rfl, rfl⟩, h⟩ := h
    split at h
    · simp only [bind_ok] at h
      obtain ⟨_, _, h2, _, _, h3, h4⟩ := h
      obtain ⟨rfl, t0, b1, rfl⟩ := provePermit_ok h2
      exact hR.trans _ _ _ (KeepsMax.approve ha.2 b1) (hR.trans _ _ _ (transferProveToStaking_within hR _ _ _ _ _ _ _ _ h3)
        (stakeFor_within hR hs _ _ _ _ _ _ _ h4))
    · simp only [bind_ok] at h
      obtain ⟨_, _, h3, h4⟩ := h
      exact hR.trans _ _ _ (transferProveToStaking_within hR _ _ _ _ _ _ _ _ h3) (stakeFor_within hR hs _ _ _ _ _ _ _ h4)
  all_goals
    revert h
    suffices hw : Within (KeepsMax cfg) (exec cfg c _) by exact fun h => hw _ _ _ h
    unfold exec; within
    all_goals first | exact createProver_within hR hv hs hi _ _ _ | exact Within.modify fun _ => KeepsMax.refl' rfl

theorem reachable_allow {cfg : Cfg} : ∀ w, Reachable cfg w → w.prove.allow cfg.vapp cfg.iprove = max256 :=
  reachable_induction
    (fun w h => by rw [h.prove_allow _ _ (Or.inr (Or.inr (Or.inr (Or.inl rfl)))), if_pos ⟨Or.inl rfl, rfl⟩])
    (fun _ _ _ _ hi ha h => (exec_keepsMax ha h).keeps _ _ (Or.inr (Or.inr (Or.inr (Or.inl rfl)))) hi)

theorem Erc20.transfer_succeeds {t : Erc20} {f to : Address} {v : Nat} (hf : f ≠ 0) (ht : to ≠ 0) (hv : v ≤ t.bal f) :
    ∃ t', t.transfer f to v = .ok t' := by
  unfold Erc20.transfer
  rw [if_neg (not_or.mpr ⟨hf, ht⟩), if_neg (by omega)]
  exact ⟨_, rfl⟩

theorem handleOffchain_pays {cfg : Cfg} {c : Ctx} {st : TxStatus} {d : Withdraw} {w w' : World}
    (hst : st = .completed) (h : processWithdraw cfg c d.account d.amount.toNat w = .ok ((), w')) :
    handleOffchain cfg c (Receipt.withdraw st d).sol w = .ok ((), w') := by
  subst hst
  have h1 : requireFinal (Receipt.withdraw .completed d).sol w = .ok ((), w) :=
    requireFinal_ok.mpr ⟨⟨by simp [Receipt.sol], by simp [Receipt.sol]⟩, rfl⟩
  unfold handleOffchain
  refine bind_ok.mpr ⟨(), w, h1, ?_⟩
  rw [if_neg (by simp [Receipt.sol]), if_pos (by rfl)]
  exact bind_ok.mpr ⟨(d.account, d.amount), w, liftO_ok.mpr ⟨decAccountAmount_withdraw d, rfl⟩, h⟩

/-- **C37**, the payment is accepted. In the situation of `c37_payable` the withdrawal receipt is processed
without a revert: for an ordinary account (not the zero address), and for a registered prover if the $iPROVE
vault can take the deposit (the shares fit the cap of the token). -/
theorem c37_paid {env : Env} {cfg : Cfg} (hc : cfg.WF) {c : Ctx} {w w₁ : World} {s s' : FullState}
    {txs : List (Int × Tx)} {rs rs₁ rs₂ : List Receipt} {st : TxStatus} {d : Withdraw} (hw : Reachable cfg w)
    (hsolv : s.plain.total + w.pendingDeposits ≤ w.prove.bal cfg.vapp)
    (hrun : runTxs merkleOps merkleOps env txs s = some (rs, s'))
    (hsplit : rs = rs₁ ++ Receipt.withdraw st d :: rs₂) (b : U64) (r : U64 → B256) (t : U64 → U64)
    (hproc : handleReceipts cfg c (rs₁.map Receipt.sol)
      { w with vapp := { w.vapp with blockNumber := b, roots := r, timestamps := t } } = .ok ((), w₁))
    (hto : d.account ≠ 0)
    (hcase : isProverFor cfg c w₁ d.account = false ∨
      (w₁.staking.provers d.account = true ∧ w₁.prove.bal cfg.iprove < max256 ∧
        w₁.iprove.supply + d.amount.toNat * (w₁.iprove.supply + 1) / (w₁.prove.bal cfg.iprove + 1) ≤ 2 ^ 208 - 1)) :
    ∃ w₂, handleOffchain cfg c (Receipt.withdraw st d).sol w₁ = .ok ((), w₂) := by
  have hle := c37_payable hc hw hsolv hrun hsplit b r t hproc
  have hst : st = .completed := by
    have hplain := runTxs_merkle env txs s
    rw [hrun] at hplain
    simp only [Option.map_some] at hplain
    exact (runTxs_flow env _ _ _ _ hplain).1 (.withdraw st d) (by rw [hsplit]; simp)
  have hv0 : cfg.vapp ≠ 0 := hc.nonzero.2.2.2
  have hR := KeepsMax.tok cfg
  have hmax : w₁.prove.allow cfg.vapp cfg.iprove = max256 :=
    (handleReceipts_within hR (fun _ _ => KeepsMax.refl' rfl) _ _ _ _ _ _ hproc).keeps _ _
      (Or.inr (Or.inr (Or.inr (Or.inl rfl)))) (reachable_allow w hw)
  have pay : ∃ w₂, processWithdraw cfg c d.account d.amount.toNat w₁ = .ok ((), w₂) := by
    unfold processWithdraw
    by_cases hp : isProverFor cfg c w₁ d.account = true
    · obtain ⟨g1, g2, g3⟩ := hcase.resolve_left (by rw [hp]; simp)
      obtain ⟨t2, ht2⟩ := Erc20.transfer_succeeds (t := w₁.prove) hv0 hc.nonzero.2.1 hle
      have hcap : (2 : Nat) ^ 208 - 1 < max256 := by decide +kernel
      have hsup := Nat.le_trans (Nat.le_add_right _ _) g3
      have hsh := Nat.le_trans (Nat.le_add_left _ _) g3
      have hm : ∃ t3, w₁.iprove.mint d.account
          (d.amount.toNat * (w₁.iprove.supply + 1) / (w₁.prove.bal cfg.iprove + 1)) = .ok t3 ∧
          t3.supply ≤ 2 ^ 208 - 1 := by
        unfold Erc20.mint
        rw [if_neg hto, if_neg (by omega)]
        exact ⟨_, rfl, g3⟩
      obtain ⟨t3, hm1, hm2⟩ := hm
      refine ⟨{ w₁ with prove := t2, iprove := t3 }, bind_ok.mpr ⟨w₁, w₁, get_ok.mpr ⟨rfl, rfl⟩, ?_⟩⟩
      rw [if_pos hp]
      refine bind_ok.mpr ⟨d.amount.toNat * (w₁.iprove.supply + 1) / (w₁.prove.bal cfg.iprove + 1), _, ?_,
        pure_ok.mpr ⟨rfl, rfl⟩⟩
      unfold iproveDeposit
      refine bind_ok.mpr ⟨d.amount.toNat * (w₁.iprove.supply + 1) / (w₁.prove.bal cfg.iprove + 1), w₁, ?_, ?_⟩
      · unfold iprovePreviewDeposit
        refine bind_ok.mpr ⟨w₁, w₁, get_ok.mpr ⟨rfl, rfl⟩, ?_⟩
        refine bind_ok.mpr ⟨_, w₁, add256_ok.mpr ⟨by omega, rfl, rfl⟩, ?_⟩
        refine bind_ok.mpr ⟨_, w₁, add256_ok.mpr ⟨by omega, rfl, rfl⟩, ?_⟩
        exact mulDiv_ok.mpr ⟨by omega, by omega, rfl, rfl⟩
      · refine bind_ok.mpr ⟨(), { w₁ with prove := t2 }, ?_, ?_⟩
        · unfold proveTransferFrom
          refine bind_ok.mpr ⟨(), w₁, onProve_ok.mpr ⟨w₁.prove, ?_, rfl⟩, onProve_ok.mpr ⟨t2, ht2, rfl⟩⟩
          unfold Erc20.spend
          rw [if_pos hmax]
        · refine bind_ok.mpr ⟨(), { w₁ with prove := t2, iprove := t3 }, ?_, pure_ok.mpr ⟨rfl, rfl⟩⟩
          unfold iproveMint
          refine bind_ok.mpr ⟨(), { w₁ with prove := t2 }, iproveCheck_ok.mpr ⟨Or.inr (Or.inr ⟨rfl, rfl, g1⟩), rfl⟩, ?_⟩
          refine bind_ok.mpr ⟨(), { w₁ with prove := t2, iprove := t3 }, onIprove_ok.mpr ⟨t3, hm1, rfl⟩, ?_⟩
          exact bind_ok.mpr ⟨_, _, get_ok.mpr ⟨rfl, rfl⟩, require_ok.mpr ⟨hm2, rfl⟩⟩
    · obtain ⟨t2, ht2⟩ := Erc20.transfer_succeeds (t := w₁.prove) hv0 hto hle
      refine ⟨{ w₁ with prove := t2 }, bind_ok.mpr ⟨w₁, w₁, get_ok.mpr ⟨rfl, rfl⟩, ?_⟩⟩
      rw [if_neg hp]
      exact onProve_ok.mpr ⟨t2, ht2, rfl⟩
  obtain ⟨w₂, h⟩ := pay
  exact ⟨w₂, handleOffchain_pays hst h⟩

/-! ## Witness

The rollup state `Toy.fs` (one account with 1000) with its roots at the full tree height, a contract that holds
these 1000, and a history with a deposit, a new prover and a step that carries the output of the STF program. -/

set_option maxRecDepth 20000

namespace ToyL1

/-- The root of `Toy.fs`. -/
def fsRoot : B256 := 0x000000010000000000000000000000000000000000000000000000000004d193

theorem fsRoot_eq : fsRoot = Toy.fs.root Toy.kcMax := by
  have h1 : Toy.fs.accounts.root Toy.kcMax Account.abi = BitVec.ofNat 256 (160 + 0x100000000000000000000000000073730) :=
    BitVec.eq_of_toNat_eq ((Toy.root_max rfl _ _ 0x100000000000000000000000000073730 (by decide) (by decide +kernel) (by decide +kernel)).trans
      (by decide +kernel))
  have h2 : Toy.fs.transactions.root Toy.kcMax abiBool = BitVec.ofNat 256 160 := by
    apply BitVec.eq_of_toNat_eq
    rw [root_eq, Toy.fs_transactions]
    exact (Toy.node_empty abiBool 160 (Nat.le_refl _) 0).trans (by decide +kernel)
  unfold FullState.root
  rw [h1, h2]
  decide +kernel

/-- The root after the transactions of `Toy.fsInput`. -/
def fsNewRoot : B256 := 0x00000001000000000000000000000000000000000000000000000000000334e9

theorem fsNewRoot_eq : fsNewRoot = FullState.root Toy.kcMax Toy.fsEnd.2 := by
  have h1 : Toy.fsEnd.2.accounts.root Toy.kcMax Account.abi = BitVec.ofNat 256 (160 + 0x1000000000000000000000000000ffe20) :=
    BitVec.eq_of_toNat_eq ((Toy.root_max rfl _ _ 0x1000000000000000000000000000ffe20 (by decide) (by decide +kernel) (by decide +kernel)).trans
      (by decide +kernel))
  have h2 : Toy.fsEnd.2.transactions.root Toy.kcMax abiBool = BitVec.ofNat 256 (160 + 0x1000b5288) :=
    BitVec.eq_of_toNat_eq ((Toy.root_max rfl _ _ 0x1000b5288 (by decide) (by decide +kernel) (by decide +kernel)).trans
      (by decide +kernel))
  unfold FullState.root
  rw [h1, h2]
  decide +kernel

/-- `genesis` for the rollup state `Toy.fs`. -/
def fsGenesis : World := { genesis with
  prove := {
    supply := 6000
    bal := fun a => if a = Toy.alice then 5000 else if a = cfg.vapp then 1000 else 0
    allow := fun a s => if (a = cfg.vapp ∨ a = cfg.staking) ∧ s = cfg.iprove then max256 else 0 }
  vapp := { genesis.vapp with roots := fun b => if b = 0 then fsRoot else 0 } }

theorem fs_root_ne : fsRoot ≠ 0 := by decide +kernel

theorem fsGenesis_root : fsGenesis.vapp.roots 0 = fsRoot := by
  simp only [fsGenesis, if_true]

theorem fsGenesis_ok : Genesis cfg fsGenesis where
  prove_sum := ⟨[Toy.alice, cfg.vapp], by decide +kernel, by
    intro a ha
    simp only [List.mem_cons, List.not_mem_nil, or_false, not_or] at ha
    show (if a = Toy.alice then 5000 else if a = cfg.vapp then 1000 else 0) = 0
    rw [if_neg ha.1, if_neg ha.2], by decide +kernel⟩
  prove_max := by decide
  prove_allow _ _ _ := rfl
  iprove := rfl
  st := rfl
  dispense := ⟨rfl, rfl, rfl, rfl⟩
  maps := ⟨rfl, rfl, rfl, rfl, rfl⟩
  registry := ⟨rfl, rfl, rfl, rfl⟩
  periods := by decide
  vapp_ids := ⟨rfl, rfl, rfl⟩
  vapp_root := ⟨by rw [fsGenesis_root]; exact fs_root_ne, by
    intro b hb
    show (if b = 0 then fsRoot else 0) = 0
    rw [if_neg hb]⟩
  vapp_maps := ⟨rfl, rfl⟩
  vapp_params := ⟨rfl, rfl, by decide⟩

/-- What the STF program outputs for `Toy.fsInput`. -/
def fsValues : StepValues :=
  ⟨fsRoot, fsNewRoot, 1700, [Receipt.deposit 1 .completed ⟨Toy.alice, 1000⟩,
    Receipt.createProver 2 .completed ⟨Toy.fsProver, Toy.owner, 2500⟩,
    Receipt.withdraw .completed ⟨Toy.alice, 50⟩].map Receipt.sol⟩

theorem fsValues_eq : fsValues =
    ⟨Toy.fs.root Toy.kcMax, FullState.root Toy.kcMax Toy.fsEnd.2, 1700, Toy.fsEnd.1.map Receipt.sol⟩ := by
  rw [← fsRoot_eq, ← fsNewRoot_eq]
  decide +kernel

/-- A deposit and a new prover, before the first step. -/
def fsQueued : List (Ctx × Call) :=
  [ (ctx Toy.alice 1600, .proveApprove cfg.vapp 1500),
    (ctx Toy.alice 1601, .deposit 1000),
    (ctx Toy.owner 1602, .createProver 2500) ]

def fsHistory : List (Ctx × Call) := fsQueued ++
  [ (ctx auc 1800, .step fsValues.encode []),
    (ctx Toy.alice 1900, .deposit 500) ]

theorem fs_admissible : ∀ x ∈ fsHistory, Admissible cfg x := by
  intro x hx
  simp only [fsHistory, fsQueued, List.cons_append, List.nil_append, List.mem_cons, List.not_mem_nil, or_false] at hx
  have h1 : ∀ n, ¬ cfg.System (ctx Toy.alice n).sender :=
    fun _ => not_system Toy.alice (by decide +kernel) (by decide +kernel)
  have h2 : ∀ n, ¬ cfg.System (ctx auc n).sender :=
    fun _ => not_system auc (by decide +kernel) (by decide +kernel)
  have h3 : ∀ n, ¬ cfg.System (ctx Toy.owner n).sender :=
    fun _ => not_system Toy.owner (by decide +kernel) (by decide +kernel)
  rcases hx with rfl | rfl | rfl | rfl | rfl
  · exact h1 _
  · exact h1 _
  · exact h3 _
  · exact h2 _
  · exact h1 _

theorem fs_sideConditions : StfSideConditions Toy.envMax Toy.fs [Toy.fsInput] := by
  unfold StfSideConditions
  rw [Toy.envMax_keccak]
  exact ⟨Toy.fs_collisionFree _ (fun _ h => Or.inl h),
    Toy.noZero_proofs _ _ _ _ Toy.fs_trueA Toy.fs_noZero.1,
    Toy.noZero_proofs _ _ _ _ Toy.fs_trueT Toy.fs_noZero.2, fun _ _ _ => trivial⟩

theorem fs_genuine : Genuine Toy.envMax cfg fsGenesis Toy.fs fsHistory := by
  have hlen : fsValues.encode.length < 2 ^ 256 := by decide +kernel
  have last : ∀ w (s : FullState), Genuine Toy.envMax cfg w s [(ctx Toy.alice 1900, .deposit 500)] := by
    intro w s
    rw [Genuine]
    split <;> exact trivial
  have step : ∀ w, Genuine Toy.envMax cfg w Toy.fs
      [(ctx auc 1800, .step fsValues.encode []), (ctx Toy.alice 1900, .deposit 500)] := by
    intro w
    rw [Genuine]
    split
    · exact last _ _
    · refine ⟨fsValues, [Toy.fsInput], decode_encode _ hlen, ⟨[fsValues], ?_, isChain_singleton _,
        ⟨rfl, rfl, rfl, by simp⟩⟩, fs_sideConditions, fun _ _ _ => last _ _⟩
      rw [List.map_singleton, Toy.fsAccepted, fsValues_eq]
      rfl
  have cre : ∀ w, Genuine Toy.envMax cfg w Toy.fs ((ctx Toy.owner 1602, .createProver 2500) ::
      [(ctx auc 1800, .step fsValues.encode []), (ctx Toy.alice 1900, .deposit 500)]) := by
    intro w
    rw [Genuine]
    split <;> exact step _
  have dep : ∀ w, Genuine Toy.envMax cfg w Toy.fs ((ctx Toy.alice 1601, .deposit 1000) ::
      (ctx Toy.owner 1602, .createProver 2500) ::
      [(ctx auc 1800, .step fsValues.encode []), (ctx Toy.alice 1900, .deposit 500)]) := by
    intro w
    rw [Genuine]
    split <;> exact cre _
  have all : ∀ w, Genuine Toy.envMax cfg w Toy.fs fsHistory := by
    intro w
    rw [fsHistory, fsQueued, List.cons_append, List.cons_append, List.cons_append, List.nil_append, Genuine]
    split <;> exact dep _
  exact all _

end ToyL1

/-- C37: the hypotheses of `c37_exact` and `c37_solvent` hold of this history, in which every call is accepted,
the step pays 50 out, and 500 wait in the queue at the end. -/
example : Genesis ToyL1.cfg ToyL1.fsGenesis ∧
    Toy.fs.root Toy.envMax.keccak = ToyL1.fsGenesis.vapp.roots 0 ∧
    (∀ x ∈ ToyL1.fsHistory, Admissible ToyL1.cfg x) ∧
    Genuine Toy.envMax ToyL1.cfg ToyL1.fsGenesis Toy.fs ToyL1.fsHistory ∧
    Toy.fs.plain.total = ToyL1.fsGenesis.prove.bal ToyL1.cfg.vapp := by
  exact ⟨ToyL1.fsGenesis_ok, by rw [Toy.envMax_keccak, ToyL1.fsGenesis_root, ToyL1.fsRoot_eq], ToyL1.fs_admissible,
    by with_reducible exact ToyL1.fs_genuine, by decide +kernel⟩

/-- C37: the balances at the end of that history: 1950 owed on the rollup, 500 pending, 2450 held. -/
example : (runCalls ToyL1.cfg ToyL1.fsGenesis ToyL1.fsHistory).vapp.blockNumber = 1 ∧
    (runCalls ToyL1.cfg ToyL1.fsGenesis ToyL1.fsHistory).prove.bal ToyL1.cfg.vapp = 2450 ∧
    (runCalls ToyL1.cfg ToyL1.fsGenesis ToyL1.fsHistory).pendingDeposits = 500 ∧
    (FullState.plain Toy.fsEnd.2).total = 1950 ∧
    strays ToyL1.cfg ToyL1.fsGenesis ToyL1.fsHistory = 0 := by decide +kernel

end Verif
