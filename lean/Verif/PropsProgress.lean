import Verif.PropsBridge
import Verif.PropsCustody
import Verif.PropsAdmit
/-
# C69: the queue and the withdrawals can always be processed

Whatever happened before, an honest auctioneer can process everything that waits in the queue, crediting each deposit,
and any covered withdrawal, which the contract then pays.
-/

namespace Verif
open L1

/-! ## Specification vocabulary -/

/-- `tx` is the transaction `e` of the contract's table as seen by the rollup, its event being log entry `pos.2` of block
`pos.1`. -/
def Tx.copies (e : SolTransaction) (pos : U64 × U64) (tx : Tx) : Prop :=
  (∃ d : Deposit, e.variant = .deposit ∧ e.action = d.abi ∧ tx = .deposit ⟨pos.1, pos.2, e.onchainTxId, d⟩) ∨
  (∃ d : CreateProver, e.variant = .createProver ∧ e.action = d.abi ∧ tx = .createProver ⟨pos.1, pos.2, e.onchainTxId, d⟩)

/-- The number of transactions in the queue. -/
def World.pendingCount (w : World) : Nat := w.vapp.currentOnchainTxId.toNat - w.vapp.finalizedOnchainTxId.toNat

/-- The transactions in the queue, seen at the positions `pos`. -/
def QueueAt (w : World) (pos : Nat → U64 × U64) (txs : List (Int × Tx)) : Prop :=
  txs.length = w.pendingCount ∧
  ∀ (j : Nat) p tx, txs[j]? = some (p, tx) →
    tx.copies (w.vapp.transactions (BitVec.ofNat 64 (w.vapp.finalizedOnchainTxId.toNat + 1 + j))) (pos j)

/-- The auctioneer submits the step from `s` to `s'` with the receipts `rs`: the contract is not paused, the proof
verifies, the timestamp is not in the future, not before the latest one, and at most an hour old. -/
structure Submission (env : Env) (w : World) (s s' : FullState) (rs : List Receipt) (c : Ctx) (pv pr : Bytes) (ts : U64) :
    Prop where
  values : StepValues.decode pv = some ⟨s.root env.keccak, s'.root env.keccak, ts, rs.map Receipt.sol⟩
  nonzero : s'.root env.keccak ≠ 0
  verifies : c.verifyProof w.vapp.verifier w.vapp.vkey pv pr = true
  auctioneer : c.sender = w.vapp.auctioneer
  open_ : w.vapp.paused = false
  later : (w.vapp.timestamps w.vapp.blockNumber).toNat ≤ ts.toNat
  past : ts.toNat ≤ c.now
  recent : c.now ≤ ts.toNat + 3600

/-! ## A line of on-chain transactions -/

/-- What a transaction deposits for `a`. -/
def Tx.depositFor (a : Address) : Tx → Nat
  | .deposit d => if d.action.account = a then d.action.amount.toNat else 0
  | _ => 0

/-- What a transaction deposits. -/
def Tx.deposits : Tx → Nat
  | .deposit d => d.action.amount.toNat
  | _ => 0

/-- On-chain transactions with consecutive ids and increasing positions. -/
def Line : U64 → U64 × U64 → List Tx → Prop
  | _, _, [] => True
  | id, p, tx :: ts => ∃ q : U64 × U64, tx.onchainPos = some (id, q.1, q.2) ∧ PosLt p q ∧ Line (id + 1) q ts

theorem run_line (env : Env) : ∀ (ts : List Tx) (s : Ledger),
    Line s.sc.onchainTxId (s.sc.onchainBlock, s.sc.onchainLogIndex) ts →
    s.total + (ts.map Tx.deposits).sum < 2 ^ 256 →
    ∃ (rs : List Receipt) (s' : Ledger),
      runTxs (mapOps Address Account) (mapOps B256 Bool) env (ts.map fun t => ((0 : Int), t)) s = some (rs, s') ∧
      rs.length = ts.length ∧ (∀ r ∈ rs, r.onchain = true) ∧
      ∀ a, s'.bal a = s.bal a + (ts.map (Tx.depositFor a)).sum := by
  intro ts
  induction ts with
  | nil => intro s _ _; exact ⟨[], s, rfl, rfl, by simp, fun _ => rfl⟩
  | cons tx ts ih =>
    intro s hl hsum
    obtain ⟨q, hpos, hlt, hl⟩ := hl
    simp only [List.map_cons, List.sum_cons] at hsum
    -- it is executed
    have hok : ∃ r s1, Ledger.execute env tx s = (.ok (some r), s1) ∧ r.onchain = true ∧
        r.inflow = tx.deposits ∧ r.outflow = 0 ∧ ∀ a, s1.bal a = s.bal a + tx.depositFor a := by
      cases tx with
      | deposit d =>
        simp only [Tx.onchainPos, Option.some.injEq, Prod.mk.injEq] at hpos
        obtain ⟨h1, h2, h3⟩ := hpos
        have hn : NextOnchain s d.onchainTx d.block d.logIndex := by
          refine ⟨h1, ?_⟩
          rw [h2, h3]
          exact hlt.imp id fun h => ⟨h.1.symm, h.2⟩
        have hb := s.bal_le_total d.action.account
        simp only [Tx.deposits] at hsum
        obtain ⟨r, hr⟩ := (c56_deposit env d s).1.mpr ⟨hn, by omega⟩
        obtain ⟨s1, hx⟩ : ∃ s1, Ledger.execute env (.deposit d) s = (.ok r, s1) := ⟨_, Prod.ext hr rfl⟩
        have hrc := (c19_receipts env _ s s1 _ hx rfl).1
        simp only [Result.ok.injEq] at hrc
        subst hrc
        refine ⟨_, s1, hx, rfl, rfl, rfl, fun a => ?_⟩
        obtain ⟨out, s2, hp, _, rfl⟩ := execute_accepted hx rfl
        obtain ⟨_, _, hok, rfl⟩ := hp
        have hb := bal_moves _ _ hok a
        simp only [List.map_cons, List.map_nil, List.sum_cons, List.sum_nil, Mv.db, Mv.cr,
          Ledger.bal_setSc] at hb
        rw [bump_bal]
        simp only [Tx.depositFor, eq_comm] at hb ⊢
        omega
      | createProver d =>
        simp only [Tx.onchainPos, Option.some.injEq, Prod.mk.injEq] at hpos
        obtain ⟨h1, h2, h3⟩ := hpos
        have hn : NextOnchain s d.onchainTx d.block d.logIndex := by
          refine ⟨h1, ?_⟩
          rw [h2, h3]
          exact hlt.imp id fun h => ⟨h.1.symm, h.2⟩
        obtain ⟨r, hr⟩ := (c56_create_prover env d s).1.mpr hn
        obtain ⟨s1, hx⟩ : ∃ s1, Ledger.execute env (.createProver d) s = (.ok r, s1) := ⟨_, Prod.ext hr rfl⟩
        have hrc := (c19_receipts env _ s s1 _ hx rfl).1
        simp only [Result.ok.injEq] at hrc
        subst hrc
        refine ⟨_, s1, hx, rfl, rfl, rfl, fun a => ?_⟩
        obtain ⟨out, s2, hp, _, rfl⟩ := execute_accepted hx rfl
        obtain ⟨_, _, rfl⟩ := hp
        rw [bump_bal, Ledger.bal_setAcct]
        simp only [Tx.depositFor]
        split
        · rename_i e; rw [e]; rfl
        · rfl
      | _ => exact nomatch hpos
    obtain ⟨r, s1, hx, ho, hin, hout, hbal⟩ := hok
    have hc := c04_step env tx s s1 _ hx rfl
    rw [hpos] at hc
    obtain ⟨_, _, e1, e2, e3⟩ := hc
    have ht := c01_step env tx s s1 _ hx rfl
    have e4 : s1.total = s.total + tx.deposits := by
      change s1.total + r.outflow = s.total + r.inflow at ht
      omega
    obtain ⟨rs, s', i1, i2, i3, i4⟩ := ih s1 (by rw [e1, e2, e3]; exact hl) (by omega)
    refine ⟨r :: rs, s', ?_, by simp [i2], ?_, fun a => ?_⟩
    · rw [List.map_cons, runTxs, show execute (mapOps Address Account) (mapOps B256 Bool) env tx s = (.ok (some r), s1) from hx]
      dsimp only
      rw [i1]
    · intro x hx
      rcases List.mem_cons.mp hx with rfl | hx
      · exact ho
      · exact i3 x hx
    · rw [i4 a, hbal a, List.map_cons, List.sum_cons, Nat.add_assoc]

theorem line_of (ts : List Tx) : ∀ (k : Nat) (p : U64 × U64) (pos : Nat → U64 × U64),
    (∀ (j : Nat) tx, ts[j]? = some tx → tx.onchainPos = some (BitVec.ofNat 64 (k + j), (pos j).1, (pos j).2)) →
    (ts.length ≠ 0 → PosLt p (pos 0)) → (∀ j, j + 1 < ts.length → PosLt (pos j) (pos (j + 1))) →
    Line (BitVec.ofNat 64 k) p ts := by
  induction ts with
  | nil => intro _ _ _ _ _ _; trivial
  | cons tx ts ih =>
    intro k p pos h1 h2 h3
    refine ⟨pos 0, h1 0 tx rfl, h2 (by simp), ?_⟩
    have e : BitVec.ofNat 64 k + 1 = BitVec.ofNat 64 (k + 1) := by
      apply BitVec.eq_of_toNat_eq
      simp [BitVec.toNat_add, BitVec.toNat_ofNat]
    rw [e]
    refine ih (k + 1) (pos 0) (fun j => pos (j + 1)) (fun j tx hj => ?_) (fun h => ?_) (fun j hj => ?_)
    · have := h1 (j + 1) tx hj
      rw [this, Nat.add_assoc, Nat.add_comm 1 j]
    · exact h3 0 (by simp; omega)
    · exact h3 (j + 1) (by simp; omega)

theorem exists_list {α : Type} (P : Nat → α → Prop) (n : Nat) (h : ∀ j, j < n → ∃ x, P j x) :
    ∃ l : List α, l.length = n ∧ ∀ j x, l[j]? = some x → P j x := by
  induction n with
  | zero => exact ⟨[], rfl, fun j x h => nomatch h⟩
  | succ n ih =>
    obtain ⟨l, h1, h2⟩ := ih fun j hj => h j (by omega)
    obtain ⟨y, hy⟩ := h n (by omega)
    refine ⟨l ++ [y], by simp [h1], fun j x hj => ?_⟩
    by_cases hl : j < l.length
    · rw [List.getElem?_append_left hl] at hj
      exact h2 j x hj
    · rw [List.getElem?_append_right (by omega)] at hj
      have e : j - l.length = 0 := by
        cases hk : j - l.length with
        | zero => rfl
        | succ k => rw [hk] at hj; exact nomatch hj
      rw [e] at hj
      obtain rfl := Option.some.inj hj
      rw [show j = n by omega]
      exact hy

theorem queueLog_entry (cfg : Cfg) (h : List (Ctx × Call)) : ∀ (w : World) q, q ∈ queueLog cfg w h →
    (∃ d : Deposit, q = (.deposit, d.abi)) ∨ ∃ d : CreateProver, q = (.createProver, d.abi) := by
  induction h with
  | nil => intro _ _ h; exact nomatch h
  | cons x h ih =>
    intro w q hq
    rw [queueLog, List.mem_append] at hq
    rcases hq with hq | hq
    · cases hx : exec cfg x.1 x.2 w with
      | error _ => rw [hx] at hq; exact nomatch hq
      | ok _ =>
        rw [hx] at hq
        simp only [Option.mem_toList] at hq
        generalize x.2 = k at hq
        cases k <;> simp only [Call.queues, Option.some.injEq, reduceCtorEq] at hq
        case deposit => exact .inl ⟨_, hq.symm⟩
        case permitAndDeposit => exact .inl ⟨_, hq.symm⟩
        case vappCreateProver => exact .inr ⟨_, hq.symm⟩
        case createProver => exact .inr ⟨_, hq.symm⟩
    · exact ih _ q hq

/-- Every waiting transaction can be read by the rollup. -/
theorem QueueOk.readable {cfg : Cfg} {w₀ w : World} {h : List (Ctx × Call)} {F} (hq : QueueOk w (queueLog cfg w₀ h) F)
    (pos : U64 × U64) (j : Nat) (hj : j < w.pendingCount) :
    (w.vapp.transactions (BitVec.ofNat 64 (w.vapp.finalizedOnchainTxId.toNat + 1 + j))).onchainTxId =
      BitVec.ofNat 64 (w.vapp.finalizedOnchainTxId.toNat + 1 + j) ∧
    ∃ tx : Tx, tx.copies (w.vapp.transactions (BitVec.ofNat 64 (w.vapp.finalizedOnchainTxId.toNat + 1 + j))) pos := by
  obtain ⟨h1, h2, h3, h4, h5⟩ := hq
  have hlt := w.vapp.currentOnchainTxId.isLt
  unfold World.pendingCount at hj
  have hn : (BitVec.ofNat 64 (w.vapp.finalizedOnchainTxId.toNat + 1 + j)).toNat = w.vapp.finalizedOnchainTxId.toNat + 1 + j := by
    rw [BitVec.toNat_ofNat, Nat.mod_eq_of_lt (by omega)]
  obtain ⟨q, hq⟩ : ∃ q, (queueLog cfg w₀ h)[w.vapp.finalizedOnchainTxId.toNat + j]? = some q :=
    ⟨_, List.getElem?_eq_getElem (by omega)⟩
  have he : w.vapp.transactions (BitVec.ofNat 64 (w.vapp.finalizedOnchainTxId.toNat + 1 + j)) =
      ⟨q.1, (F[w.vapp.finalizedOnchainTxId.toNat + j]?.map (·.status)).getD .pending,
        BitVec.ofNat 64 (w.vapp.finalizedOnchainTxId.toNat + 1 + j), q.2⟩ := by
    rw [h5, queueEntry, if_neg, hn, show w.vapp.finalizedOnchainTxId.toNat + 1 + j - 1 = w.vapp.finalizedOnchainTxId.toNat + j by omega,
      hq]
    intro e
    rw [e, show (0 : U64).toNat = 0 from rfl] at hn
    omega
  rw [he]
  refine ⟨rfl, ?_⟩
  rcases queueLog_entry cfg h w₀ q (List.mem_of_getElem? hq) with ⟨d, rfl⟩ | ⟨d, rfl⟩
  · exact ⟨_, .inl ⟨d, rfl, rfl, rfl⟩⟩
  · exact ⟨_, .inr ⟨d, rfl, rfl, rfl⟩⟩

theorem Tx.copies.depositFor {e : SolTransaction} {pos : U64 × U64} {tx : Tx} (h : tx.copies e pos) (a : Address) :
    tx.depositFor a = e.depositFor a := by
  rcases h with ⟨d, h1, h2, rfl⟩ | ⟨d, h1, h2, rfl⟩
  · rw [SolTransaction.depositFor, if_pos h1, h2, decAccountAmount_deposit]
    rfl
  · rw [SolTransaction.depositFor, if_neg (by rw [h1]; simp)]
    rfl

theorem Tx.copies.deposits {e : SolTransaction} {pos : U64 × U64} {tx : Tx} (h : tx.copies e pos) :
    tx.deposits = e.depositAmount := by
  rcases h with ⟨d, h1, h2, rfl⟩ | ⟨d, h1, h2, rfl⟩
  · rw [SolTransaction.depositAmount, if_pos h1, h2, decAccountAmount_deposit]
    rfl
  · rw [SolTransaction.depositAmount, if_neg (by rw [h1]; simp)]
    rfl

theorem map_range {α β : Type} (f : α → β) (g : Nat → β) (l : List α) (h : ∀ (j : Nat) x, l[j]? = some x → f x = g j) :
    l.map f = (List.range l.length).map g := by
  apply List.ext_getElem?
  intro j
  rw [List.getElem?_map, List.getElem?_map]
  by_cases hj : j < l.length
  · rw [List.getElem?_range hj, List.getElem?_eq_getElem hj]
    exact congrArg some (h j _ (List.getElem?_eq_getElem hj))
  · rw [List.getElem?_eq_none (by omega), List.getElem?_eq_none (by simp; omega)]
    rfl

/-! ## The property -/

/-- **C69.** After every genuine history in which the vApp contract keeps its staking contract there is a rollup state `s`,
reached from the first one, with the contract's latest root, such that

* the queue can be emptied: at whatever increasing positions after the last one the events of the waiting transactions are
  seen, the rollup executes all of them, crediting every waiting deposit to its account and nothing else; and the step that
  submits this is accepted and leaves no transaction waiting;
* a withdrawal can be paid: every withdrawal that is well-formed, signed by its account (or by anyone, for a prover's balance),
  not yet processed and covered is executed; and the step that submits it is accepted and pays the amount out to the account,
  unless that is a prover or one of the contracts themselves.

The hypotheses on supply, ids and block numbers exclude exhaustion only. -/
theorem c69_progress {env : Env} {cfg : Cfg} (hc : cfg.WF) {w₀ : World} {s₀ : FullState} (h : List (Ctx × Call))
    (hg : Genesis cfg w₀) (hroot : s₀.root env.keccak = w₀.vapp.roots 0) (ha : ∀ x ∈ h, Admissible cfg x)
    (hgen : Genuine env cfg w₀ s₀ h) (hfresh : FreshRollup s₀) (hst : ∀ x ∈ h, Stays cfg x.2)
    (hstart : s₀.plain.total ≤ w₀.prove.bal cfg.vapp) {w : World} (hw : w = runCalls cfg w₀ h)
    (hsupply : w.prove.supply < 2 ^ 160) (hids : w.vapp.currentOnchainTxId.toNat + 1 < 2 ^ 64)
    (hblocks : w.vapp.blockNumber.toNat + 1 < 2 ^ 64) :
    ∃ s : FullState, (∃ past rs, runTxs merkleOps merkleOps env past s₀ = some (rs, s)) ∧
      s.root env.keccak = w.vapp.roots w.vapp.blockNumber ∧
      (∀ pos : Nat → U64 × U64, (w.pendingCount ≠ 0 → PosLt (s.sc.onchainBlock, s.sc.onchainLogIndex) (pos 0)) →
        (∀ j, j + 1 < w.pendingCount → PosLt (pos j) (pos (j + 1))) →
        ∃ (txs : List (Int × Tx)) (rs : List Receipt) (s' : FullState), QueueAt w pos txs ∧ runTxs merkleOps merkleOps env txs s = some (rs, s') ∧
          (∀ a, s'.plain.bal a = s.plain.bal a + w.pendingFor a) ∧
          ∀ c pv pr ts, Submission env w s s' rs c pv pr ts →
            ∃ w', exec cfg c (.step pv pr) w = .ok ((), w') ∧
              w'.vapp.roots w'.vapp.blockNumber = s'.root env.keccak ∧
              w'.vapp.finalizedOnchainTxId = w.vapp.currentOnchainTxId ∧ w'.pendingCount = 0) ∧
      (∀ (n : Int) (t : Signed WithdrawBody) (body : WithdrawBody) (signer account : Address) (amount fee : U256),
        GoodWithdraw env t s.plain body signer account amount fee →
        WithdrawCovered s.plain signer account amount fee → signer ≠ 0 →
        ∃ s' : FullState, runTxs merkleOps merkleOps env [(n, .withdraw t)] s = some ([.withdraw .completed ⟨account, amount⟩], s') ∧
          ∀ c pv pr ts, Submission env w s s' [.withdraw .completed ⟨account, amount⟩] c pv pr ts →
            ∃ w', exec cfg c (.step pv pr) w = .ok ((), w') ∧
              w'.vapp.roots w'.vapp.blockNumber = s'.root env.keccak ∧
              (account ≠ cfg.vapp → account ≠ cfg.iprove → w.staking.provers account = false →
                w'.prove.bal account = w.prove.bal account + amount.toNat)) := by
  have hreach : Reachable cfg w := ⟨w₀, h, hg, ha, hw⟩
  have hqueue := c35_history (cfg := cfg) hg h
  subst hw
  obtain ⟨past, rs₀, s, h1, h2, hlink, hacc⟩ := linked_history hc h hg hroot ha hgen hfresh hst
  have hsolv : s.plain.total + (runCalls cfg w₀ h).pendingDeposits ≤ (runCalls cfg w₀ h).prove.bal cfg.vapp := by omega
  generalize runCalls cfg w₀ h = w at *
  have hbs : w.prove.bal cfg.vapp ≤ w.prove.supply :=
    (StakingInv.reachable hc _ hreach).prove.balanced.le _
  refine ⟨s, ⟨past, rs₀, h1⟩, h2, fun pos hp1 hp2 => ?_, ?_⟩
  · obtain ⟨ts, t1, t2⟩ := exists_list
      (fun j (tx : Tx) => tx.copies (w.vapp.transactions (BitVec.ofNat 64 (w.vapp.finalizedOnchainTxId.toNat + 1 + j))) (pos j))
      w.pendingCount (fun j hj => (hqueue.readable (pos j) j hj).2)
    have hid : ∀ (j : Nat) tx, ts[j]? = some tx →
        (w.vapp.transactions (BitVec.ofNat 64 (w.vapp.finalizedOnchainTxId.toNat + 1 + j))).onchainTxId =
          BitVec.ofNat 64 (w.vapp.finalizedOnchainTxId.toNat + 1 + j) := by
      intro j tx hj
      obtain ⟨hl, _⟩ := List.getElem?_eq_some_iff.mp hj
      exact (hqueue.readable (pos j) j (by omega)).1
    have hline : Line s.plain.sc.onchainTxId (s.plain.sc.onchainBlock, s.plain.sc.onchainLogIndex) ts := by
      change Line s.sc.onchainTxId _ _
      rw [hlink.2.1]
      have e : w.vapp.finalizedOnchainTxId + 1 = BitVec.ofNat 64 (w.vapp.finalizedOnchainTxId.toNat + 1) := by
        apply BitVec.eq_of_toNat_eq
        simp [BitVec.toNat_add, BitVec.toNat_ofNat]
      rw [e]
      refine line_of ts _ _ pos (fun j tx hj => ?_) (by rw [t1]; exact hp1) (by rw [t1]; exact hp2)
      rcases t2 j tx hj with ⟨d, _, _, rfl⟩ | ⟨d, _, _, rfl⟩ <;> simp only [Tx.onchainPos, hid j _ hj]
    have hsum : (ts.map Tx.deposits).sum = w.pendingDeposits := by
      rw [map_range _ _ ts fun j tx hj => (t2 j tx hj).deposits, t1]
      rfl
    obtain ⟨rs, sp, r1, r2, r3, r4⟩ := run_line env ts s.plain hline (by omega)
    rw [runTxs_merkle] at r1
    obtain ⟨⟨rs', s'⟩, hrun, e⟩ := Option.map_eq_some_iff.mp r1
    simp only [Prod.mk.injEq] at e
    obtain ⟨rfl, rfl⟩ := e
    have hmem : ∀ (n : Int) tx, (n, tx) ∈ ts.map (fun t => ((0 : Int), t)) → ∃ j : Nat, ts[j]? = some tx := by
      intro n tx hm
      obtain ⟨t, ht, e⟩ := List.mem_map.mp hm
      simp only [Prod.mk.injEq] at e
      obtain ⟨_, rfl⟩ := e
      exact List.getElem?_of_mem ht
    have hfrom : FromQueue w (ts.map fun t => ((0 : Int), t)) := by
      constructor
      · intro n d hm
        obtain ⟨j, hj⟩ := hmem n _ hm
        rcases t2 j _ hj with ⟨d', d1, d2, d3⟩ | ⟨d', _, _, d3⟩
        · simp only [Tx.deposit.injEq] at d3
          subst d3
          simp only [hid j _ hj]
          exact ⟨d1, d2⟩
        · exact nomatch d3
      · intro n d hm
        obtain ⟨j, hj⟩ := hmem n _ hm
        rcases t2 j _ hj with ⟨d', _, _, d3⟩ | ⟨d', d1, d2, d3⟩
        · exact nomatch d3
        · simp only [Tx.createProver.injEq] at d3
          subst d3
          simp only [hid j _ hj]
          exact ⟨d1, d2⟩
    have hsig : NoZeroSigner env (ts.map fun t => ((0 : Int), t)) := by
      intro n t body hm
      obtain ⟨j, hj⟩ := hmem n _ hm
      rcases t2 j _ hj with ⟨d', _, _, d3⟩ | ⟨d', _, _, d3⟩ <;> exact nomatch d3
    refine ⟨_, rs', s', ⟨by rw [List.length_map, t1], fun j p tx hj => ?_⟩, hrun, fun a => ?_, fun c pv pr ts' hsub => ?_⟩
    · rw [List.getElem?_map] at hj
      obtain ⟨t, ht, e⟩ := Option.map_eq_some_iff.mp hj
      simp only [Prod.mk.injEq] at e
      rw [← e.2]
      exact t2 j t ht
    · rw [r4 a, map_range _ _ ts fun j tx hj => (t2 j tx hj).depositFor a, t1]
      rfl
    · obtain ⟨w', x1, x2⟩ := honest_step hc hreach h2 hlink hsolv hsupply hids hblocks hrun hfrom hsig hsub.nonzero hsub.values
        hsub.verifies hsub.auctioneer hsub.open_ hsub.later hsub.past hsub.recent
      have hb := runTxs_batch env _ _ _ _ (by rw [runTxs_merkle, hrun]; rfl)
      obtain ⟨l1, l2, Q, F, l3, _⟩ := hlink
      have hq := QueueInv.of_ok l3
      have hfol := hfrom.follows hq hids l2 hb
      obtain ⟨v, v1, v2, _⟩ := c35_step x1
      obtain rfl := Option.some.inj (v1.symm.trans hsub.values)
      dsimp only at v2
      rw [onchainOf_map (fun r hr ho => hfol.id_ne hq hids r hr ho), List.filter_eq_self.mpr r3, List.length_map, r2, t1] at v2
      have hle := hq.1
      have hcur : w'.vapp.currentOnchainTxId = w.vapp.currentOnchainTxId := by
        obtain ⟨_, hy⟩ := drop_ok.mp x1
        obtain ⟨_, _, _, v', _, _, _, _, _, _, _, _, hh⟩ := vappStep_ok hy
        obtain ⟨⟨f, t, e⟩, _⟩ := handleReceipts_ok hh
        rw [e]
      unfold World.pendingCount at v2 ⊢
      have hfin : w'.vapp.finalizedOnchainTxId = w.vapp.currentOnchainTxId := BitVec.eq_of_toNat_eq (by omega)
      exact ⟨w', x1, x2, hfin, by rw [hcur, hfin]; omega⟩
  · intro n t body signer account amount fee hgood hcov hs0
    obtain ⟨r, hr⟩ := (c56_withdraw env t s.plain (by omega)).mpr ⟨body, signer, account, amount, fee, hgood, hcov⟩
    obtain ⟨sp, hx⟩ : ∃ sp, Ledger.execute env (.withdraw t) s.plain = (.ok r, sp) := ⟨_, Prod.ext hr rfl⟩
    have hrc := c19_receipts env _ _ _ _ hx rfl
    have hre : r = some (.withdraw .completed ⟨account, amount⟩) := by
      rcases hrc with ⟨v, e⟩ | ⟨body', account', amount', b1, b2, b3, b4⟩
      · exact nomatch e
      · obtain rfl := Option.some.inj (b1.symm.trans hgood.hasBody)
        obtain rfl := Address.bytes_inj (b2.symm.trans hgood.hasAccount)
        obtain rfl := Option.some.inj (b3.symm.trans hgood.hasAmount)
        simpa only [Result.ok.injEq] using b4
    subst hre
    have hrun : runTxs (mapOps Address Account) (mapOps B256 Bool) env [(n, .withdraw t)] s.plain =
        some ([.withdraw .completed ⟨account, amount⟩], sp) := by
      rw [runTxs, show execute (mapOps Address Account) (mapOps B256 Bool) env (.withdraw t) s.plain = (_, sp) from hx]
      rfl
    rw [runTxs_merkle] at hrun
    obtain ⟨⟨rs', s'⟩, hrun', e⟩ := Option.map_eq_some_iff.mp hrun
    simp only [Prod.mk.injEq] at e
    obtain ⟨rfl, rfl⟩ := e
    clear hrun
    have hrun := hrun'
    have hone : ∀ (n' : Int) tx, (n', tx) ∈ [(n, Tx.withdraw t)] → tx = .withdraw t := by
      intro n' tx hm
      simp only [List.mem_singleton, Prod.mk.injEq] at hm
      exact hm.2
    refine ⟨s', hrun, fun c pv pr ts hsub => ?_⟩
    have hfrom : FromQueue w [(n, .withdraw t)] :=
      ⟨fun n' d hm => by have := hone n' _ hm; exact (nomatch this), fun n' d hm => by have := hone n' _ hm; exact (nomatch this)⟩
    have hsig : NoZeroSigner env [(n, .withdraw t)] := by
      intro n' t' body' hm hb' hsg
      have := hone n' _ hm
      simp only [Tx.withdraw.injEq] at this
      subst this
      obtain rfl := Option.some.inj (hb'.symm.trans hgood.hasBody)
      exact hs0 (signedBy_unique hgood.signed hsg)
    obtain ⟨w', x1, x2⟩ := honest_step hc hreach h2 hlink hsolv hsupply hids hblocks hrun hfrom hsig hsub.nonzero hsub.values
        hsub.verifies hsub.auctioneer hsub.open_ hsub.later hsub.past hsub.recent
    refine ⟨w', x1, x2, fun n1 n2 n3 => ?_⟩
    have hp := c68_paid (a := account) x1 n1 n2 (by rw [isProverFor, if_pos hlink.1]; exact n3)
    rw [hp, Call.allReceipts, hsub.values]
    dsimp only
    rw [withdrawFor_receipts account [.withdraw .completed ⟨account, amount⟩] (by simp [Receipt.status])]
    simp [Receipt.withdrawFor]

/-! ## The hypotheses can be met

Those on the history are met by that of C65 (see there): a deposit and a new prover wait in the queue. -/

set_option maxRecDepth 20000

def Toy.fsPos (j : Nat) : U64 × U64 := if j = 0 then (10, 3) else (10, 4)

/-- C69: two transactions wait, their positions are beyond the first state's, and two of the transactions of `Toy.fsTxs`
are copies of them. -/
example : (runCalls ToyL1.cfg ToyL1.fsGenesis ToyL1.fsQueued).pendingCount = 2 ∧
    (runCalls ToyL1.cfg ToyL1.fsGenesis ToyL1.fsQueued).pendingFor Toy.alice = 1000 ∧
    PosLt (Toy.fs.sc.onchainBlock, Toy.fs.sc.onchainLogIndex) (Toy.fsPos 0) ∧ PosLt (Toy.fsPos 0) (Toy.fsPos 1) ∧
    Toy.fs.root Toy.envMax.keccak = (runCalls ToyL1.cfg ToyL1.fsGenesis ToyL1.fsQueued).vapp.roots 0 ∧
    QueueAt (runCalls ToyL1.cfg ToyL1.fsGenesis ToyL1.fsQueued) Toy.fsPos (Toy.fsTxs.take 2) := by
  refine ⟨by decide +kernel, by decide +kernel, by unfold PosLt; decide +kernel, by unfold PosLt; decide +kernel, ?_, ?_⟩
  · rw [Toy.envMax_keccak, ← ToyL1.fsRoot_eq]
    decide +kernel
  · have e1 : ((runCalls ToyL1.cfg ToyL1.fsGenesis ToyL1.fsQueued).vapp.transactions (BitVec.ofNat 64
        ((runCalls ToyL1.cfg ToyL1.fsGenesis ToyL1.fsQueued).vapp.finalizedOnchainTxId.toNat + 1 + 0))).onchainTxId = 1 := by
      decide +kernel
    have e2 : ((runCalls ToyL1.cfg ToyL1.fsGenesis ToyL1.fsQueued).vapp.transactions (BitVec.ofNat 64
        ((runCalls ToyL1.cfg ToyL1.fsGenesis ToyL1.fsQueued).vapp.finalizedOnchainTxId.toNat + 1 + 1))).onchainTxId = 2 := by
      decide +kernel
    refine ⟨by decide +kernel, fun j p tx hj => ?_⟩
    match j, hj with
    | 0, hj =>
      obtain rfl : Toy.deposit1 = tx := congrArg Prod.snd (Option.some.inj hj)
      exact .inl ⟨⟨Toy.alice, 1000⟩, by decide +kernel, by decide +kernel, by rw [e1]; rfl⟩
    | 1, hj =>
      obtain rfl : Toy.fsCreate = tx := congrArg Prod.snd (Option.some.inj hj)
      exact .inr ⟨⟨Toy.fsProver, Toy.owner, 2500⟩, by decide +kernel, by decide +kernel, by rw [e2]; rfl⟩
    | j + 2, hj => exact nomatch hj

/-- C69: in the first state Alice, who is no prover, can withdraw. -/
example : ∃ t body, Toy.withdraw Toy.alice Toy.alice 50 7 = .withdraw t ∧
    GoodWithdraw Toy.envMax t Toy.fs.plain body Toy.alice Toy.alice 50 7 ∧
    WithdrawCovered Toy.fs.plain Toy.alice Toy.alice 50 7 ∧ Toy.alice ≠ 0 ∧ Toy.alice ≠ ToyL1.cfg.vapp ∧ Toy.alice ≠ ToyL1.cfg.iprove ∧
    (runCalls ToyL1.cfg ToyL1.fsGenesis ToyL1.fsQueued).staking.provers Toy.alice = false := by
  refine ⟨_, _, rfl, ⟨rfl, rfl, ?_, .inl ⟨rfl, ?_⟩, ?_, rfl, fun _ => rfl, ?_, ?_, ⟨_, rfl⟩⟩, ?_, by decide +kernel, by decide +kernel,
    by decide +kernel, by decide +kernel⟩
  · decide +kernel
  · decide +kernel
  · decide +kernel
  · decide +kernel
  · decide +kernel
  · unfold WithdrawCovered
    decide +kernel

end Verif
