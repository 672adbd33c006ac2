import Verif.Custody
import Verif.L1Live3
/-
# C68: what you deposit on L1 is yours until you sign it away

Everything an account ever deposited is still in its account on the rollup, or waiting in the queue, or was paid out on
L1, or was taken under distinct messages signed by its key, within the limits stated in them.
-/

namespace Verif
open L1

/-! ## Specification vocabulary -/

/-- What the call deposits for account `a` if it is accepted. -/
def Call.depositsFor (a : Address) (c : Ctx) : Call → Nat
  | .deposit v => if c.sender = a then v.toNat else 0
  | .permitAndDeposit _ f v => if f = a then v.toNat else 0
  | _ => 0

/-- What the accepted calls of a history deposited for account `a`. -/
def depositedFor (cfg : Cfg) (a : Address) : World → List (Ctx × Call) → Nat
  | _, [] => 0
  | w, x :: h =>
    (match exec cfg x.1 x.2 w with
      | .ok _ => x.2.depositsFor a x.1
      | .error _ => 0) + depositedFor cfg a (call cfg x.1 x.2 w) h

/-- The amount of a transaction in the contract's table that is a deposit for `a` (else 0). -/
def SolTransaction.depositFor (a : Address) (t : SolTransaction) : Nat :=
  if t.variant = .deposit then
    match decAccountAmount t.action with
    | some d => if d.1 = a then d.2.toNat else 0
    | none => 0
  else 0

/-- The deposits for `a` that are queued and not yet processed. -/
def World.pendingFor (a : Address) (w : World) : Nat :=
  ((List.range (w.vapp.currentOnchainTxId.toNat - w.vapp.finalizedOnchainTxId.toNat)).map fun j =>
    SolTransaction.depositFor a (w.vapp.transactions (BitVec.ofNat 64 (w.vapp.finalizedOnchainTxId.toNat + 1 + j)))).sum

/-- The amount of a completed withdrawal receipt for `a` (else 0). -/
def SolReceipt.withdrawFor (a : Address) (r : SolReceipt) : Nat :=
  if r.variant = .withdraw ∧ r.status ≠ .reverted then
    match decAccountAmount r.action with
    | some d => if d.1 = a then d.2.toNat else 0
    | none => 0
  else 0

/-- What the accepted steps of a history withdrew for account `a`. -/
def withdrawnFor (cfg : Cfg) (a : Address) : World → List (Ctx × Call) → Nat
  | _, [] => 0
  | w, x :: h =>
    (match exec cfg x.1 x.2 w with
      | .ok _ => (x.2.allReceipts.map (SolReceipt.withdrawFor a)).sum
      | .error _ => 0) + withdrawnFor cfg a (call cfg x.1 x.2 w) h

/-! ## The logs -/

/-- The amount of a log entry that is a deposit for `a`. -/
def entryFor (a : Address) (v : TxVariant) (d : Bytes) : Nat :=
  if v = .deposit then
    match decAccountAmount d with
    | some d => if d.1 = a then d.2.toNat else 0
    | none => 0
  else 0

theorem depositedFor_queueLog (cfg : Cfg) (a : Address) (w : World) (h : List (Ctx × Call)) :
    depositedFor cfg a w h = ((queueLog cfg w h).map fun q => entryFor a q.1 q.2).sum := by
  induction h generalizing w with
  | nil => rfl
  | cons x h ih =>
    rw [depositedFor, queueLog, ih, List.map_append, List.sum_append]
    congr 1
    cases exec cfg x.1 x.2 w with
    | error _ => rfl
    | ok _ =>
      dsimp only
      generalize x.2 = k
      cases k
      case deposit v =>
        simp [Call.depositsFor, Call.queues, entryFor, decAccountAmount_deposit]
      case permitAndDeposit s f v =>
        simp [Call.depositsFor, Call.queues, entryFor, decAccountAmount_deposit]
      all_goals simp [Call.depositsFor, Call.queues, entryFor]

theorem withdrawnFor_stepLog (cfg : Cfg) (a : Address) (w : World) (h : List (Ctx × Call)) :
    withdrawnFor cfg a w h = ((stepLog cfg w h).map (SolReceipt.withdrawFor a)).sum := by
  induction h generalizing w with
  | nil => rfl
  | cons x h ih =>
    rw [withdrawnFor, stepLog, ih, List.map_append, List.sum_append]
    congr 1
    cases exec cfg x.1 x.2 w <;> rfl

/-- The queued deposits are the processed and the pending ones. -/
theorem QueueOk.deposits {w : World} {Q F} (h : QueueOk w Q F) (a : Address) :
    (Q.map fun q => entryFor a q.1 q.2).sum =
      (F.map fun r => entryFor a r.variant r.action).sum + w.pendingFor a := by
  obtain ⟨h1, h2, h3, h4, h5⟩ := h
  have hlt := w.vapp.currentOnchainTxId.isLt
  have hsplit : (Q.map fun q => entryFor a q.1 q.2) =
      (F.map fun r => entryFor a r.variant r.action) ++
        ((List.range (w.vapp.currentOnchainTxId.toNat - w.vapp.finalizedOnchainTxId.toNat)).map fun j =>
          SolTransaction.depositFor a (w.vapp.transactions (BitVec.ofNat 64 (w.vapp.finalizedOnchainTxId.toNat + 1 + j)))) := by
    apply List.ext_getElem?
    intro j
    by_cases hj : j < F.length
    · rw [List.getElem?_append_left (by rw [List.length_map]; exact hj), List.getElem?_map, List.getElem?_map]
      obtain ⟨r, hr⟩ : ∃ r, F[j]? = some r := ⟨_, List.getElem?_eq_getElem hj⟩
      obtain ⟨_, _, q, hq, e1, e2⟩ := h4 j r hr
      rw [hr, hq, Option.map_some, Option.map_some]
      unfold entryFor
      rw [e1]
      split
      · rename_i hv
        rw [hv] at e2
        obtain ⟨d, d1, d2⟩ := e2
        rw [d1, d2]
      · rfl
    · rw [List.getElem?_append_right (by rw [List.length_map]; omega), List.length_map, List.getElem?_map,
        List.getElem?_map]
      by_cases hq : j < Q.length
      · obtain ⟨q, hq'⟩ : ∃ q, Q[j]? = some q := ⟨_, List.getElem?_eq_getElem hq⟩
        rw [hq', List.getElem?_range (by omega), Option.map_some, Option.map_some]
        congr 1
        have hi : (BitVec.ofNat 64 (w.vapp.finalizedOnchainTxId.toNat + 1 + (j - F.length)) : U64).toNat = j + 1 := by
          rw [BitVec.toNat_ofNat, Nat.mod_eq_of_lt (by omega)]; omega
        have h0 : (BitVec.ofNat 64 (w.vapp.finalizedOnchainTxId.toNat + 1 + (j - F.length)) : U64) ≠ 0 := by
          intro e
          rw [e] at hi
          exact absurd hi (by simp)
        rw [h5, queueEntry, if_neg h0, hi, Nat.add_sub_cancel, hq']
        rfl
      · rw [List.getElem?_eq_none (by omega), List.getElem?_eq_none (by rw [List.length_range]; omega)]
        rfl
  rw [hsplit, List.sum_append]
  rfl

/-- The on-chain receipts carry the deposits of the batch. -/
theorem entryFor_receipts (a : Address) (rs : List Receipt) :
    ((rs.filter Receipt.onchain).map Receipt.sol |>.map fun r => entryFor a r.variant r.action).sum =
      (rs.map (Receipt.depositFor a)).sum := by
  induction rs with
  | nil => rfl
  | cons r rs ih =>
    cases r with
    | withdraw st d =>
      rw [List.filter_cons_of_neg (by simp [Receipt.onchain]), ih, List.map_cons, List.sum_cons]
      simp [Receipt.depositFor]
    | deposit id st d =>
      have e : entryFor a (Receipt.deposit id st d).sol.variant (Receipt.deposit id st d).sol.action =
          Receipt.depositFor a (.deposit id st d) := by
        have e1 : (Receipt.deposit id st d).sol.variant = .deposit := rfl
        have e2 : (Receipt.deposit id st d).sol.action = d.abi := rfl
        rw [e1, e2, entryFor, if_pos rfl, decAccountAmount_deposit]
        rfl
      rw [List.filter_cons_of_pos rfl, List.map_cons, List.map_cons, List.sum_cons, List.map_cons, List.sum_cons, ih, e]
    | createProver id st d =>
      have e : entryFor a (Receipt.createProver id st d).sol.variant (Receipt.createProver id st d).sol.action =
          Receipt.depositFor a (.createProver id st d) := by
        have e1 : (Receipt.createProver id st d).sol.variant = .createProver := rfl
        rw [e1, entryFor, if_neg (by simp)]
        rfl
      rw [List.filter_cons_of_pos rfl, List.map_cons, List.map_cons, List.sum_cons, List.map_cons, List.sum_cons, ih, e]

theorem withdrawFor_receipts (a : Address) (rs : List Receipt) (h : ∀ r ∈ rs, r.status = .completed) :
    ((rs.map Receipt.sol).map (SolReceipt.withdrawFor a)).sum = (rs.map (Receipt.withdrawFor a)).sum := by
  induction rs with
  | nil => rfl
  | cons r rs ih =>
    have hs := h r (List.mem_cons_self ..)
    rw [List.map_cons, List.map_cons, List.sum_cons, List.map_cons, List.sum_cons,
      ih (fun r hr => h r (List.mem_cons_of_mem _ hr))]
    congr 1
    cases r with
    | withdraw st d =>
      have hst : st = .completed := hs
      subst hst
      show SolReceipt.withdrawFor a ⟨.withdraw, .completed, BitVec.allOnes 64, d.abi⟩ = _
      simp [SolReceipt.withdrawFor, decAccountAmount_withdraw, Receipt.withdrawFor]
    | deposit id st d => rfl
    | createProver id st d => rfl

/-! ## C68 -/

/-- **C68.** After every history of admissible calls to the contracts (by anybody, without a fork, every accepted step
carrying a true output), the rollup state `s` behind the latest root is reached by executing transactions, and for every
account there is a list of distinct messages, each signed by its key and carried by one of these transactions, such that
the initial balance and all deposits for the account are covered by its balance in `s`, its deposits still in the queue,
the withdrawals for it that steps delivered, and what the messages allow. -/
theorem c68_custody {env : Env} {cfg : Cfg} (hc : cfg.WF) {w₀ : World} {s₀ : FullState} (h : List (Ctx × Call))
    (hg : Genesis cfg w₀) (hroot : s₀.root env.keccak = w₀.vapp.roots 0) (ha : ∀ x ∈ h, Admissible cfg x)
    (hgen : Genuine env cfg w₀ s₀ h) :
    ∃ (txs : List (Int × Tx)) (rs : List Receipt) (s : FullState), runTxs merkleOps merkleOps env txs s₀ = some (rs, s) ∧
      s.root env.keccak = (runCalls cfg w₀ h).vapp.roots (runCalls cfg w₀ h).vapp.blockNumber ∧
      ∀ a, ∃ ms : List Body, ms.Nodup ∧ (∀ m ∈ ms, ∃ p tx, (p, tx) ∈ txs ∧ tx.signedAs env m a) ∧
        s₀.plain.bal a + depositedFor cfg a w₀ h ≤
          s.plain.bal a + (runCalls cfg w₀ h).pendingFor a + withdrawnFor cfg a w₀ h + (ms.map (Body.ceiling env)).sum := by
  obtain ⟨txs, rs, s, _, _, h1, h2, _, _, _, _, h6, h7⟩ := c37_run hc (fun _ _ => True) h
    (fun _ _ _ _ _ _ _ => ⟨fun _ _ => trivial, fun _ _ _ _ _ _ _ _ _ _ => trivial⟩) w₀ s₀ _ _ trivial (genesis_inv hc hg) (c35_history hg [])
    (by rw [hg.vapp_ids.1]; exact hroot) ha hgen
  refine ⟨txs, rs, s, h1, h2, fun a => ?_⟩
  have hplain := runTxs_merkle env txs s₀
  rw [h1] at hplain
  simp only [Option.map_some] at hplain
  obtain ⟨ms, m1, m2, m3⟩ := runTxs_custody env a _ _ _ _ hplain
  refine ⟨ms, m1, fun m hm => (m2 m hm).1, ?_⟩
  have hd := (c35_history (cfg := cfg) hg h).deposits a
  rw [← depositedFor_queueLog, receiptLog_stepLog, h6, onchainOf_map h7, entryFor_receipts] at hd
  rw [hd, withdrawnFor_stepLog, h6, withdrawFor_receipts a rs (runTxs_flow env _ _ _ _ hplain).1]
  change s₀.plain.bal a + _ ≤ s.plain.bal a + _ + _ at m3
  omega

/-- **C68**, an account whose key signs nothing loses nothing, except to withdrawals: if no transaction executed carries
a message signed by it, its initial balance and deposits are all accounted for. -/
theorem c68_silent {env : Env} {cfg : Cfg} (hc : cfg.WF) {w₀ : World} {s₀ : FullState} (h : List (Ctx × Call))
    (hg : Genesis cfg w₀) (hroot : s₀.root env.keccak = w₀.vapp.roots 0) (ha : ∀ x ∈ h, Admissible cfg x)
    (hgen : Genuine env cfg w₀ s₀ h) :
    ∃ (txs : List (Int × Tx)) (rs : List Receipt) (s : FullState), runTxs merkleOps merkleOps env txs s₀ = some (rs, s) ∧
      s.root env.keccak = (runCalls cfg w₀ h).vapp.roots (runCalls cfg w₀ h).vapp.blockNumber ∧
      ∀ a, (∀ p tx m, (p, tx) ∈ txs → ¬ tx.signedAs env m a) →
        s₀.plain.bal a + depositedFor cfg a w₀ h ≤
          s.plain.bal a + (runCalls cfg w₀ h).pendingFor a + withdrawnFor cfg a w₀ h := by
  obtain ⟨txs, rs, s, h1, h2, h3⟩ := c68_custody hc h hg hroot ha hgen
  refine ⟨txs, rs, s, h1, h2, fun a hn => ?_⟩
  obtain ⟨ms, _, m2, m3⟩ := h3 a
  cases ms with
  | nil => simpa using m3
  | cons m ms =>
    obtain ⟨p, tx, e1, e2⟩ := m2 m (List.mem_cons_self ..)
    exact absurd e2 (hn p tx m e1)

/-! ### Withdrawals are paid -/

theorem processWithdraw_pays {cfg : Cfg} {c : Ctx} {to a : Address} {n : Nat} {u : Unit} {w w' : World}
    (hv : a ≠ cfg.vapp) (hi : a ≠ cfg.iprove) (hp : isProverFor cfg c w a = false)
    (h : processWithdraw cfg c to n w = .ok (u, w')) :
    w'.prove.bal a = w.prove.bal a + (if to = a then n else 0) := by
  simp only [processWithdraw, bind_ok, get_ok] at h
  obtain ⟨_, _, ⟨rfl, rfl⟩, h⟩ := h
  split at h
  · rename_i hpr
    simp only [bind_ok, pure_ok] at h
    obtain ⟨n', _, h, _, rfl⟩ := h
    obtain ⟨_, hm, t1, t2, t3, h1, h2, _, _, rfl⟩ := iproveDeposit_ok h
    have hne : to ≠ a := by
      rintro rfl
      rw [hp] at hpr
      exact nomatch hpr
    rw [if_neg hne]
    have := (Erc20.transfer_exact h2).2.2 a hv hi
    rw [(Erc20.spend_ok h1).2.1] at this
    exact this
  · obtain ⟨t, g, rfl⟩ := proveTransfer_ok h
    show t.bal a = _
    by_cases e : to = a
    · rw [if_pos e, ← e]
      exact ((Erc20.transfer_exact g).1 (by rw [e]; exact Ne.symm hv)).2
    · rw [if_neg e]
      exact (Erc20.transfer_exact g).2.2 a hv (Ne.symm e)

theorem handleReceipts_pays {cfg : Cfg} {c : Ctx} {a : Address} (hv : a ≠ cfg.vapp) (hi : a ≠ cfg.iprove) :
    ∀ (rs : List SolReceipt) {u : Unit} {w w' : World}, isProverFor cfg c w a = false →
    handleReceipts cfg c rs w = .ok (u, w') →
    w'.prove.bal a = w.prove.bal a + (rs.map (SolReceipt.withdrawFor a)).sum := by
  intro rs
  induction rs with
  | nil =>
    intro u w w' _ h
    obtain ⟨_, rfl⟩ := pure_ok.mp (show (pure () : L1 Unit) w = .ok (u, w') from h)
    rfl
  | cons r rs ih =>
    intro u w w' hp h
    unfold handleReceipts at h
    rw [List.map_cons, List.sum_cons]
    by_cases ho : r.onchainTxId ≠ BitVec.allOnes 64
    · rw [if_pos ho] at h
      obtain ⟨_, w1, h1, h2⟩ := bind_ok.mp h
      obtain ⟨_, _, _, _, hsame, e⟩ := handleOnchain_ok h1
      have hz : SolReceipt.withdrawFor a r = 0 := by
        unfold SolReceipt.withdrawFor
        rw [if_neg]
        rintro ⟨e, _⟩
        rw [e] at hsame
        exact hsame
      have hp1 : isProverFor cfg c w1 a = false := by rw [e]; exact hp
      have := ih hp1 h2
      rw [this, hz, Nat.zero_add, e]
    · rw [if_neg ho] at h
      obtain ⟨_, w1, h1, h2⟩ := bind_ok.mp h
      have f1 := handleOffchain_frame _ _ _ h1
      have f2 := handleOffchain_within tok_staking _ _ _ _ _ _ h1
      have hp1 : isProverFor cfg c w1 a = false := by
        unfold isProverFor at hp ⊢
        rw [f1, f2.1]; exact hp
      have := ih hp1 h2
      rw [this]
      rcases handleOffchain_cases h1 with ⟨e, rfl⟩ | ⟨hs, hvar, d, hd, hw⟩
      · have hz : SolReceipt.withdrawFor a r = 0 := by
          unfold SolReceipt.withdrawFor
          rw [if_neg]
          rintro ⟨_, e'⟩
          exact e' e
        rw [hz, Nat.zero_add]
      · have := processWithdraw_pays hv hi hp hw
        have hx : SolReceipt.withdrawFor a r = if d.1 = a then d.2.toNat else 0 := by
          unfold SolReceipt.withdrawFor
          rw [if_pos ⟨hvar, hs⟩, hd]
        rw [this, hx, Nat.add_assoc]

/-- **C68**, withdrawals are paid: an accepted step pays every withdrawal it delivers, in $PROVE and to the account
itself, unless the account is a prover's (whose withdrawals become its stakers') or one of the two contracts that handle
the tokens. -/
theorem c68_paid {cfg : Cfg} {c : Ctx} {pv pr : Bytes} {w w' : World} {a : Address}
    (h : exec cfg c (.step pv pr) w = .ok ((), w')) (hv : a ≠ cfg.vapp) (hi : a ≠ cfg.iprove)
    (hp : isProverFor cfg c w a = false) :
    w'.prove.bal a = w.prove.bal a + (((Call.step pv pr).allReceipts).map (SolReceipt.withdrawFor a)).sum := by
  obtain ⟨_, hy⟩ := drop_ok.mp h
  obtain ⟨_, _, _, v, g1, _, _, _, _, _, _, _, hh⟩ := vappStep_ok hy
  have := handleReceipts_pays hv hi v.receipts (by exact hp) hh
  rw [this]
  simp only [Call.allReceipts, g1]

/-! ### The hypotheses can be met -/

set_option maxRecDepth 20000

/-- C68: the hypotheses hold of the history of C37. -/
example : Genesis ToyL1.cfg ToyL1.fsGenesis ∧ Toy.fs.root Toy.envMax.keccak = ToyL1.fsGenesis.vapp.roots 0 ∧
    (∀ x ∈ ToyL1.fsHistory, Admissible ToyL1.cfg x) ∧
    Genuine Toy.envMax ToyL1.cfg ToyL1.fsGenesis Toy.fs ToyL1.fsHistory :=
  ⟨ToyL1.fsGenesis_ok, by rw [Toy.envMax_keccak, ToyL1.fsGenesis_root, ToyL1.fsRoot_eq], ToyL1.fs_admissible,
    by with_reducible exact ToyL1.fs_genuine⟩

/-- C68: in that history Alice starts with 1000 and deposits 1500. At its end 1836 are in the account, 500 in the queue,
50 were paid out, and the two messages Alice signed allow 107 and 7: the bound is exact. -/
example : Toy.fs.plain.bal Toy.alice = 1000 ∧
    depositedFor ToyL1.cfg Toy.alice ToyL1.fsGenesis ToyL1.fsHistory = 1500 ∧
    (FullState.plain Toy.fsEnd.2).bal Toy.alice = 1836 ∧
    (runCalls ToyL1.cfg ToyL1.fsGenesis ToyL1.fsHistory).pendingFor Toy.alice = 500 ∧
    withdrawnFor ToyL1.cfg Toy.alice ToyL1.fsGenesis ToyL1.fsHistory = 50 := by decide +kernel

/-- C68: the step of that history is accepted, and Alice, who is no prover, is paid 50. -/
example : (runCalls ToyL1.cfg ToyL1.fsGenesis (ToyL1.fsHistory.take 4)).vapp.blockNumber = 1 ∧
    isProverFor ToyL1.cfg (ToyL1.ctx ToyL1.auc 1800) (runCalls ToyL1.cfg ToyL1.fsGenesis ToyL1.fsQueued) Toy.alice = false ∧
    (runCalls ToyL1.cfg ToyL1.fsGenesis (ToyL1.fsHistory.take 4)).prove.bal Toy.alice =
      (runCalls ToyL1.cfg ToyL1.fsGenesis ToyL1.fsQueued).prove.bal Toy.alice + 50 := by decide +kernel

end Verif
