import Verif.Frame
import Verif.Toy
/-
# C01 - C06: conservation, replay, reverts, ordering, counting, domains

Statements use `Verif/Observe.lean` (what can be read off a state) and `Verif/Spec.lean` (who signed
what, identities, receipts' flows). Each theorem is followed by a concrete execution that meets its
hypotheses.
-/

namespace Verif

open Toy in
/-- The concrete history used by several witnesses: deposit, create prover, transfer, transfer that
reverts, withdraw, fulfilled clear. -/
def Toy.history : List Tx :=
  [deposit1, create2, transfer bob 100 7, transfer carol 5000 1, withdraw alice alice 30 2,
   .clear (clear request 2 prover owner)]

/-! ## C01 -/

/-- C01, one step: an accepted transaction changes the sum of all balances by exactly the deposited
or withdrawn amount that its receipt states. -/
theorem c01_step (env : Env) (tx : Tx) (s s' : Ledger) (r : Result)
    (h : Ledger.execute env tx s = (r, s')) (hr : r.accepted = true) :
    s'.total + r.outflow = s.total + r.inflow := by
  obtain ⟨out, s1, hp, rfl, rfl⟩ := execute_accepted h hr
  rw [bump_total]
  exact post_total hp

theorem runAll_cons {env : Env} {tx : Tx} {txs : List Tx} {s s' : Ledger} {rs : List Result} :
    Ledger.runAll env (tx :: txs) s = some (rs, s') ↔
      ∃ r s1 rs', Ledger.execute env tx s = (r, s1) ∧ r.accepted = true ∧
        Ledger.runAll env txs s1 = some (rs', s') ∧ rs = r :: rs' := by
  rw [Ledger.runAll]
  constructor
  · intro h
    split at h
    · cases h
    · rename_i r s1 hne heq
      split at h
      · cases h
      · rename_i rs' s2 heq'
        cases h
        refine ⟨r, s1, rs', heq, ?_, heq', rfl⟩
        cases r with
        | ok _ => rfl
        | revert _ => rfl
        | panic e => exact absurd rfl (hne e)
  · rintro ⟨r, s1, rs', h1, h2, h3, rfl⟩
    rw [h1]
    cases r with
    | ok _ => simp [h3]
    | revert _ => simp [h3]
    | panic e => simp [Result.accepted] at h2

/-- C01, histories: over any history the sum of all balances plus all withdrawals equals the initial
sum plus all deposits, both read off the receipts. -/
theorem c01_history (env : Env) (txs : List Tx) (s s' : Ledger) (rs : List Result)
    (h : Ledger.runAll env txs s = some (rs, s')) :
    s'.total + (rs.map Result.outflow).sum = s.total + (rs.map Result.inflow).sum := by
  induction txs generalizing s rs with
  | nil => simp only [Ledger.runAll, Option.some.injEq, Prod.mk.injEq] at h; rw [← h.1, h.2]; rfl
  | cons tx txs ih =>
    obtain ⟨r, s1, rs', h1, h2, h3, rfl⟩ := runAll_cons.mp h
    have e1 := c01_step env tx s s1 r h1 h2
    have e2 := ih s1 rs' h3
    simp only [List.map_cons, List.sum_cons]
    omega

/-- C01 from genesis: the sum of balances is deposits minus withdrawals. -/
theorem c01_genesis (env : Env) (domain : B256) (txs : List Tx) (s' : Ledger) (rs : List Result)
    (h : Ledger.runAll env txs (Ledger.new domain) = some (rs, s')) :
    s'.total + (rs.map Result.outflow).sum = (rs.map Result.inflow).sum := by
  have := c01_history env txs _ s' rs h
  have h0 : (Ledger.new domain).total = 0 := rfl
  omega

/-- Witness: a history of six accepted transactions, with inflow 1000 and outflow 30. -/
example : ∃ rs s', Ledger.runAll Toy.env Toy.history Toy.s0 = some (rs, s') ∧ s'.total = 970 ∧
    (rs.map Result.inflow).sum = 1000 ∧ (rs.map Result.outflow).sum = 30 := by
  have : ∃ x, Ledger.runAll Toy.env Toy.history Toy.s0 = some x ∧ x.2.total = 970 ∧
    (x.1.map Result.inflow).sum = 1000 ∧ (x.1.map Result.outflow).sum = 30 := by
    refine ⟨(Ledger.runAll Toy.env Toy.history Toy.s0).get (by decide +kernel), ?_⟩
    refine ⟨by simp, by decide +kernel⟩
  obtain ⟨⟨rs, s'⟩, h⟩ := this
  exact ⟨rs, s', h⟩

/-! ## C02 -/

/-- Execute transactions one after the other on the same state, ignoring the outcomes: the state also
survives panicking executions. -/
def Ledger.after (env : Env) (txs : List Tx) (s : Ledger) : Ledger :=
  txs.foldl (fun s tx => (Ledger.execute env tx s).2) s

theorem signedBy_fun {env : Env} {b : Body} {f : I32} {sig : Bytes} {a a' : Address}
    (h : SignedBy env b f sig a) (h' : SignedBy env b f sig a') : a = a' := by
  rcases h with ⟨h1, h2⟩ | ⟨h1, m, h2, h3⟩ <;> rcases h' with ⟨h1', h2'⟩ | ⟨h1', m', h2', h3'⟩
  · rw [h2] at h2'; exact Option.some.inj h2'
  · rw [h1] at h1'; exact absurd h1' (by decide)
  · rw [h1] at h1'; exact absurd h1' (by decide)
  · rw [h2] at h2'; cases h2'; rw [h3] at h3'; exact Option.some.inj h3'

theorem signedAs_fun {env : Env} {tx : Tx} {b b' : Body} {a a' : Address}
    (h : tx.signedAs env b a) (h' : tx.signedAs env b' a') : b = b' ∧ a = a' := by
  cases tx with
  | deposit _ => exact h.elim
  | createProver _ => exact h.elim
  | delegate d =>
    obtain ⟨x, h1, rfl, h2⟩ := h
    obtain ⟨x', h1', rfl, h2'⟩ := h'
    rw [h1] at h1'; cases h1'; exact ⟨rfl, signedBy_fun h2 h2'⟩
  | transfer d =>
    obtain ⟨x, h1, rfl, h2⟩ := h
    obtain ⟨x', h1', rfl, h2'⟩ := h'
    rw [h1] at h1'; cases h1'; exact ⟨rfl, signedBy_fun h2 h2'⟩
  | withdraw d =>
    obtain ⟨x, h1, rfl, h2⟩ := h
    obtain ⟨x', h1', rfl, h2'⟩ := h'
    rw [h1] at h1'; cases h1'; exact ⟨rfl, signedBy_fun h2 h2'⟩
  | clear d =>
    obtain ⟨x, h1, rfl, h2⟩ := h
    obtain ⟨x', h1', rfl, h2'⟩ := h'
    rw [h1] at h1'; cases h1'; exact ⟨rfl, signedBy_fun h2 h2'⟩

theorem hasId_fun {env : Env} {tx : Tx} {id id' : B256} (h : tx.hasId env id)
    (h' : tx.hasId env id') : id = id' := by
  obtain ⟨b, a, h1, rfl⟩ := h
  obtain ⟨b', a', h1', rfl⟩ := h'
  obtain ⟨rfl, rfl⟩ := signedAs_fun h1 h1'
  rfl

/-- An accepted off-chain transaction had a fresh identity and marks it, and only it. -/
theorem post_id {env : Env} {tx : Tx} {s s1 : Ledger} {out : Outcome} (h : TxPost env s out s1 tx)
    (ho : tx.offchain = true) :
    ∃ id, tx.hasId env id ∧ s.done id = false ∧
      s1.transactions = s.transactions.insert (B256.index id) true := by
  cases tx with
  | deposit d => simp [Tx.offchain] at ho
  | createProver c => simp [Tx.offchain] at ho
  | delegate d =>
    obtain ⟨x, hpre, hc⟩ := h
    refine ⟨_, ⟨_, _, ⟨x.body, hpre.body, rfl, hpre.signed⟩, rfl⟩, hpre.fresh, ?_⟩
    rcases hc with ⟨bal, rfl, _, _, rfl⟩ | ⟨rfl, hle, hok, dl, v, hdl, hv, rfl⟩
    · rfl
    · rw [Ledger.transactions_setAcct, (moves_frame _ _).2.2.2.2.1]; rfl
  | transfer d =>
    obtain ⟨x, hpre, hc⟩ := h
    refine ⟨_, ⟨_, _, ⟨x.body, hpre.body, rfl, hpre.signed⟩, rfl⟩, hpre.fresh, ?_⟩
    rcases hc with ⟨req, bal, rfl, _, _, _, rfl⟩ | ⟨rfl, hle, hok, rfl⟩
    · rfl
    · rw [(moves_frame _ _).2.2.2.2.1]; rfl
  | withdraw d =>
    obtain ⟨x, hpre, hc⟩ := h
    refine ⟨_, ⟨_, _, ⟨x.body, hpre.body, rfl, hpre.signed⟩, rfl⟩, hpre.fresh, ?_⟩
    rcases hc with ⟨a, req, bal, rfl, _, _, rfl⟩ | ⟨rfl, _, _, _, hok, rfl⟩
    · rfl
    · rw [(moves_frame _ _).2.2.2.2.1]; rfl
  | clear c =>
    obtain ⟨x, g, hpre, hc⟩ := h
    refine ⟨_, ⟨_, _, ⟨x.request, hpre.request, rfl, hpre.requestSigned⟩, rfl⟩,
      hpre.requestId ▸ hpre.fresh, ?_⟩
    rw [← hpre.requestId]
    rcases hc with ⟨_, str, p, _, _, _, ⟨bal, rfl, _, _, rfl⟩ | ⟨tr, rfl, _, _, hok, rfl⟩⟩ |
      ⟨_, pgus, cost, _, _, _, _, ⟨bal, rfl, _, _, rfl⟩ | ⟨tr, p, st, o, rfl, _, _, hfee, hok, rfl⟩⟩
    · rfl
    · rw [(moves_frame _ _).2.2.2.2.1]; rfl
    · rfl
    · rw [(moves_frame _ _).2.2.2.2.1]; rfl

theorem hasId_offchain {env : Env} {tx : Tx} {id : B256} (h : tx.hasId env id) :
    tx.offchain = true := by
  obtain ⟨b, a, h1, _⟩ := h
  cases tx with
  | deposit _ => exact h1.elim
  | createProver _ => exact h1.elim
  | _ => rfl

theorem execute_mono (env : Env) (tx : Tx) (s : Ledger) (id : B256) (h : s.done id = true) :
    (Ledger.execute env tx s).2.done id = true := by
  have hm := execInner_mono env tx s
  rcases execute_state env tx s with ⟨h1, _⟩ | ⟨h1, _⟩ <;> rw [h1]
  · exact hm.2.2 id h
  · rw [bump_done]; exact hm.2.2 id h

theorem after_mono (env : Env) (txs : List Tx) (s : Ledger) (id : B256) (h : s.done id = true) :
    (Ledger.after env txs s).done id = true := by
  induction txs generalizing s with
  | nil => exact h
  | cons tx txs ih => exact ih _ (execute_mono env tx s id h)

theorem accepted_done {env : Env} {tx : Tx} {s s' : Ledger} {r : Result} {id : B256}
    (h : Ledger.execute env tx s = (r, s')) (hr : r.accepted = true) (hid : tx.hasId env id) :
    s.done id = false ∧ s'.done id = true := by
  obtain ⟨out, s1, hp, rfl, rfl⟩ := execute_accepted h hr
  obtain ⟨id', h1, h2, h3⟩ := post_id hp (hasId_offchain hid)
  rw [hasId_fun hid h1]
  refine ⟨h2, ?_⟩
  rw [bump_done, Ledger.done, h3]
  simp

/-- C02: once a signed transaction has been accepted (Ok or Revert), any transaction with the same
identity is rejected, whatever was executed in between (including executions that panicked). -/
theorem c02_at_most_once (env : Env) (s s1 : Ledger) (tx1 tx2 : Tx) (r1 : Result) (mid : List Tx)
    (id : B256) (h1 : Ledger.execute env tx1 s = (r1, s1)) (hr1 : r1.accepted = true)
    (hid1 : tx1.hasId env id) (hid2 : tx2.hasId env id) :
    (Ledger.execute env tx2 (Ledger.after env mid s1)).1.accepted = false := by
  have hd := after_mono env mid s1 id (accepted_done h1 hr1 hid1).2
  rcases h : Ledger.execute env tx2 (Ledger.after env mid s1) with ⟨r2, s2⟩
  cases hr : r2.accepted with
  | false => rfl
  | true => rw [(accepted_done h hr hid2).1] at hd; cases hd

/-- C02, histories: in a history of accepted transactions no two positions share an identity. -/
theorem c02_history (env : Env) (txs : List Tx) (s s' : Ledger) (rs : List Result)
    (h : Ledger.runAll env txs s = some (rs, s')) :
    txs.Pairwise (fun a b => ∀ id, a.hasId env id → ¬ b.hasId env id) := by
  have aux : ∀ (txs : List Tx) (s s' : Ledger) (rs : List Result),
      Ledger.runAll env txs s = some (rs, s') →
      ∀ tx ∈ txs, ∀ id, tx.hasId env id → s.done id = false := by
    intro txs
    induction txs with
    | nil => intro _ _ _ _ tx htx; cases htx
    | cons t txs ih =>
      intro s s' rs h tx htx id hid
      obtain ⟨r, s1, rs', h1, h2, h3, _⟩ := runAll_cons.mp h
      rcases List.mem_cons.mp htx with e | htx
      · rw [e] at hid; exact (accepted_done h1 h2 hid).1
      · have := ih s1 s' rs' h3 tx htx id hid
        cases hd : s.done id with
        | false => rfl
        | true =>
          have hm := execute_mono env t s id hd
          rw [h1] at hm
          simp only at hm
          rw [hm] at this
          cases this
  induction txs generalizing s rs with
  | nil => exact .nil
  | cons tx txs ih =>
    obtain ⟨r, s1, rs', h1, h2, h3, rfl⟩ := runAll_cons.mp h
    refine .cons (fun b hb id hid hid' => ?_) (ih s1 rs' h3)
    have := aux txs s1 s' rs' h3 b hb id hid'
    rw [(accepted_done h1 h2 hid).2] at this
    cases this

/-- Witness: a transfer is accepted once; after another transaction it is rejected. -/
example :
    (Ledger.execute Toy.env (Toy.transfer Toy.bob 100 7) Toy.s2).1 = .ok none ∧
    (Ledger.execute Toy.env (Toy.transfer Toy.bob 100 7)
      (Ledger.after Toy.env [Toy.withdraw Toy.alice Toy.alice 30 2]
        (Ledger.execute Toy.env (Toy.transfer Toy.bob 100 7) Toy.s2).2)).1.accepted = false ∧
    ∃ id, (Toy.transfer Toy.bob 100 7).hasId Toy.env id := by
  refine ⟨by decide +kernel, by decide +kernel, ?_⟩
  exact ⟨_, _, Toy.alice, ⟨_, rfl, rfl, .inl ⟨rfl, by decide +kernel⟩⟩, rfl⟩

/-! ## C03 -/

/-- C03: a reverted transaction leaves every account, the domain and the on-chain cursor untouched,
advances the transaction cursor by one and marks exactly its own identity, which was unmarked. -/
theorem c03_revert (env : Env) (tx : Tx) (s s' : Ledger) (v : Revert)
    (h : Ledger.execute env tx s = (.revert v, s')) :
    s'.accounts = s.accounts ∧ s'.sc = { s.sc with txId := s.sc.txId + 1 } ∧
    ∃ id, tx.hasId env id ∧ s.done id = false ∧
      s'.transactions = s.transactions.insert (B256.index id) true := by
  obtain ⟨out, s1, hp, hr, rfl⟩ := execute_accepted h rfl
  have hs : s1.accounts = s.accounts ∧ s1.sc = s.sc ∧ tx.offchain = true := by
    cases tx with
    | deposit d => obtain ⟨_, rfl, _⟩ := hp; cases hr
    | createProver c => obtain ⟨_, rfl, _⟩ := hp; cases hr
    | delegate d =>
      obtain ⟨x, hpre, ⟨bal, rfl, _, _, rfl⟩ | ⟨rfl, hle, hok, dl, v, hdl, hv, rfl⟩⟩ := hp
      · exact ⟨rfl, rfl, rfl⟩
      · cases hr
    | transfer d =>
      obtain ⟨x, hpre, ⟨req, bal, rfl, _, _, _, rfl⟩ | ⟨rfl, hle, hok, rfl⟩⟩ := hp
      · exact ⟨rfl, rfl, rfl⟩
      · cases hr
    | withdraw d =>
      obtain ⟨x, hpre, ⟨a, req, bal, rfl, _, _, rfl⟩ | ⟨rfl, _, _, _, hok, rfl⟩⟩ := hp
      · exact ⟨rfl, rfl, rfl⟩
      · cases hr
    | clear c =>
      obtain ⟨x, g, hpre, ⟨_, str, p, _, _, _, ⟨bal, rfl, _, _, rfl⟩ | ⟨tr, rfl, _, _, hok, rfl⟩⟩ |
        ⟨_, pgus, cost, _, _, _, _, ⟨bal, rfl, _, _, rfl⟩ |
          ⟨tr, p, st, o, rfl, _, _, hfee, hok, rfl⟩⟩⟩ := hp
      · exact ⟨rfl, rfl, rfl⟩
      · cases hr
      · exact ⟨rfl, rfl, rfl⟩
      · cases hr
  refine ⟨hs.1, ?_, ?_⟩
  · rw [Ledger.bump, Ledger.sc_setSc, hs.2.1]
  · obtain ⟨id, h1, h2, h3⟩ := post_id hp hs.2.2
    exact ⟨id, h1, h2, h3⟩

/-- Witness: a transfer of more than the balance reverts. -/
example : ∃ v, (Ledger.execute Toy.env (Toy.transfer Toy.carol 5000 1) Toy.s2).1 = .revert v :=
  ⟨.insufficientTransferBalance Toy.alice 5001 1000, by decide +kernel⟩

/-! ## C04 -/

/-- The position of an on-chain transaction on L1: id, block, log index. -/
def Tx.onchainPos : Tx → Option (U64 × U64 × U64)
  | .deposit d => some (d.onchainTx, d.block, d.logIndex)
  | .createProver c => some (c.onchainTx, c.block, c.logIndex)
  | _ => none

/-- Strict lexicographic order of (block, log index). -/
def PosLt (p q : U64 × U64) : Prop :=
  p.1.toNat < q.1.toNat ∨ (p.1 = q.1 ∧ p.2.toNat < q.2.toNat)

theorem PosLt.trans {p q r : U64 × U64} (h1 : PosLt p q) (h2 : PosLt q r) : PosLt p r := by
  unfold PosLt at *
  rcases h1 with h1 | ⟨h1, h1'⟩ <;> rcases h2 with h2 | ⟨h2, h2'⟩
  · left; omega
  · left; rw [← h2]; exact h1
  · left; rw [h1]; exact h2
  · right; exact ⟨h1.trans h2, by omega⟩

theorem inOrder_pos {T : Type} {o : Onchain T} {c : Scalars} (h : InOrder o c) :
    o.onchainTx = c.onchainTxId ∧ PosLt (c.onchainBlock, c.onchainLogIndex) (o.block, o.logIndex) := by
  obtain ⟨h1, h2, h3⟩ := h
  refine ⟨h1, ?_⟩
  unfold PosLt
  rw [BitVec.lt_def] at h2
  rw [BitVec.le_def] at h3
  by_cases hb : c.onchainBlock = o.block
  · right; refine ⟨hb, ?_⟩
    have : ¬ o.logIndex.toNat ≤ c.onchainLogIndex.toNat := fun hl => h3 ⟨hb.symm, hl⟩
    simp only; omega
  · left
    have : c.onchainBlock.toNat ≠ o.block.toNat := fun e => hb (BitVec.eq_of_toNat_eq e)
    simp only; omega

/-- What one accepted transaction does to the cursor. -/
theorem c04_step (env : Env) (tx : Tx) (s s' : Ledger) (r : Result)
    (h : Ledger.execute env tx s = (r, s')) (hr : r.accepted = true) :
    match tx.onchainPos with
    | none => s'.sc.onchainTxId = s.sc.onchainTxId ∧ s'.sc.onchainBlock = s.sc.onchainBlock ∧
        s'.sc.onchainLogIndex = s.sc.onchainLogIndex
    | some (id, block, log) =>
        id = s.sc.onchainTxId ∧ PosLt (s.sc.onchainBlock, s.sc.onchainLogIndex) (block, log) ∧
        s'.sc.onchainTxId = s.sc.onchainTxId + 1 ∧ s'.sc.onchainBlock = block ∧
        s'.sc.onchainLogIndex = log := by
  obtain ⟨out, s1, hp, _, rfl⟩ := execute_accepted h hr
  cases tx with
  | deposit d =>
    obtain ⟨hin, _, _, rfl⟩ := hp
    obtain ⟨h1, h2⟩ := inOrder_pos hin
    exact ⟨h1, h2, rfl, rfl, rfl⟩
  | createProver c =>
    obtain ⟨hin, _, rfl⟩ := hp
    obtain ⟨h1, h2⟩ := inOrder_pos hin
    exact ⟨h1, h2, rfl, rfl, rfl⟩
  | delegate d =>
    obtain ⟨x, hpre, ⟨bal, rfl, _, _, rfl⟩ | ⟨rfl, hle, hok, dl, v, hdl, hv, rfl⟩⟩ := hp
    · exact ⟨rfl, rfl, rfl⟩
    · have := (moves_frame x.moves (s.mark (identity env x.signer (.delegate x.body)) true)).2.2.2.1
      simp only [Tx.onchainPos, Ledger.bump, Ledger.sc_setSc, Ledger.sc_setAcct, this, Ledger.sc_mark,
        and_self]
  | transfer d =>
    obtain ⟨x, hpre, ⟨req, bal, rfl, _, _, _, rfl⟩ | ⟨rfl, hle, hok, rfl⟩⟩ := hp
    · exact ⟨rfl, rfl, rfl⟩
    · simp only [Tx.onchainPos, Ledger.bump, Ledger.sc_setSc, (moves_frame _ _).2.2.2.1,
        Ledger.sc_mark, and_self]
  | withdraw d =>
    obtain ⟨x, hpre, ⟨a, req, bal, rfl, _, _, rfl⟩ | ⟨rfl, _, _, _, hok, rfl⟩⟩ := hp
    · exact ⟨rfl, rfl, rfl⟩
    · simp only [Tx.onchainPos, Ledger.bump, Ledger.sc_setSc, (moves_frame _ _).2.2.2.1,
        Ledger.sc_mark, and_self]
  | clear c =>
    obtain ⟨x, g, hpre, ⟨_, str, p, _, _, _, ⟨bal, rfl, _, _, rfl⟩ | ⟨tr, rfl, _, _, hok, rfl⟩⟩ |
      ⟨_, pgus, cost, _, _, _, _, ⟨bal, rfl, _, _, rfl⟩ |
        ⟨tr, p, st, o, rfl, _, _, hfee, hok, rfl⟩⟩⟩ := hp
    · exact ⟨rfl, rfl, rfl⟩
    · simp only [Tx.onchainPos, Ledger.bump, Ledger.sc_setSc, (moves_frame _ _).2.2.2.1,
        Ledger.sc_mark, and_self]
    · exact ⟨rfl, rfl, rfl⟩
    · simp only [Tx.onchainPos, Ledger.bump, Ledger.sc_setSc, (moves_frame _ _).2.2.2.1,
        Ledger.sc_mark, and_self]

/-- C04: over any history the accepted on-chain transactions carry the ids
`cursor, cursor + 1, cursor + 2, ...` in this order, at strictly increasing (block, log index)
positions starting after the cursor's position, and the cursor advances by their number. -/
theorem c04_in_order (env : Env) (txs : List Tx) (s s' : Ledger) (rs : List Result)
    (h : Ledger.runAll env txs s = some (rs, s')) :
    (∀ (i : Nat) (p : U64 × U64 × U64), (txs.filterMap Tx.onchainPos)[i]? = some p →
        p.1 = s.sc.onchainTxId + BitVec.ofNat 64 i) ∧
    List.Pairwise PosLt ((s.sc.onchainBlock, s.sc.onchainLogIndex) ::
      (txs.filterMap Tx.onchainPos).map (·.2)) ∧
    s'.sc.onchainTxId =
      s.sc.onchainTxId + BitVec.ofNat 64 (txs.filterMap Tx.onchainPos).length := by
  induction txs generalizing s rs with
  | nil =>
    simp only [Ledger.runAll, Option.some.injEq, Prod.mk.injEq] at h
    rw [← h.2]
    simp
  | cons tx txs ih =>
    obtain ⟨r, s1, rs', h1, h2, h3, rfl⟩ := runAll_cons.mp h
    have hs := c04_step env tx s s1 r h1 h2
    obtain ⟨i1, i2, i3⟩ := ih s1 rs' h3
    rcases hpos : tx.onchainPos with _ | ⟨id, block, log⟩
    · rw [hpos] at hs
      simp only at hs
      obtain ⟨e1, e2, e3⟩ := hs
      rw [List.filterMap_cons_none hpos]
      rw [e1] at i1 i3
      rw [e2, e3] at i2
      exact ⟨i1, i2, i3⟩
    · rw [hpos] at hs
      simp only at hs
      obtain ⟨e1, e2, e3, e4, e5⟩ := hs
      rw [List.filterMap_cons_some hpos]
      refine ⟨?_, ?_, ?_⟩
      · intro i p hp
        cases i with
        | zero =>
          simp only [List.getElem?_cons_zero, Option.some.injEq] at hp
          rw [← hp, e1]
          simp
        | succ i =>
          rw [List.getElem?_cons_succ] at hp
          rw [i1 i p hp, e3, BitVec.add_assoc, BitVec.ofNat_add, BitVec.add_comm (BitVec.ofNat 64 i)]
          rfl
      · rw [e4, e5] at i2
        rw [List.map_cons]
        refine List.pairwise_cons.mpr ⟨fun q hq => ?_, i2⟩
        rcases List.mem_cons.mp hq with e | hq
        · rw [e]; exact e2
        · exact e2.trans ((List.pairwise_cons.mp i2).1 q hq)
      · rw [i3, e3, List.length_cons, BitVec.ofNat_add,
          BitVec.add_comm (BitVec.ofNat 64 _) (BitVec.ofNat 64 1), BitVec.add_assoc]
        rfl

/-- C04, no repeat: below 2^64 on-chain transactions no id is accepted twice. -/
theorem c04_no_repeat (env : Env) (txs : List Tx) (s s' : Ledger) (rs : List Result)
    (h : Ledger.runAll env txs s = some (rs, s'))
    (hlen : (txs.filterMap Tx.onchainPos).length ≤ 2 ^ 64) :
    ((txs.filterMap Tx.onchainPos).map (·.1)).Nodup := by
  have h1 := (c04_in_order env txs s s' rs h).1
  unfold List.Nodup
  rw [List.pairwise_iff_getElem]
  intro i j hi hj hij heq
  rw [List.length_map] at hi hj
  rw [List.getElem_map, List.getElem_map] at heq
  rw [h1 i _ (List.getElem?_eq_getElem hi), h1 j _ (List.getElem?_eq_getElem hj)] at heq
  have := congrArg BitVec.toNat heq
  simp only [BitVec.toNat_add, BitVec.toNat_ofNat] at this
  have hc := s.sc.onchainTxId.isLt
  omega

/-- Witness: two on-chain transactions at increasing positions inside a mixed history. -/
example : Toy.history.filterMap Tx.onchainPos = [(1, 10, 3), (2, 10, 4)] ∧
    (Ledger.runAll Toy.env Toy.history Toy.s0).isSome := by decide +kernel

/-! ## C05 -/

/-- C05: an execution that returns Ok or Revert advances the transaction id by exactly one, a panic
leaves it unchanged. -/
theorem c05_step (env : Env) (tx : Tx) (s : Ledger) :
    (Ledger.execute env tx s).2.sc.txId =
      if (Ledger.execute env tx s).1.accepted then s.sc.txId + 1 else s.sc.txId := by
  have hm := execInner_mono env tx s
  rcases execute_state env tx s with ⟨h1, h2⟩ | ⟨h1, h2⟩ <;> rw [h1, h2]
  · simpa using hm.2.1
  · simp [Ledger.bump, hm.2.1]

/-- The results of executing transactions one after the other on the same state. -/
def Ledger.resultsOf (env : Env) : List Tx → Ledger → List Result
  | [], _ => []
  | tx :: txs, s =>
    (Ledger.execute env tx s).1 :: Ledger.resultsOf env txs (Ledger.execute env tx s).2

/-- C05, histories (panicking executions included): the transaction id counts the accepted ones. -/
theorem c05_history (env : Env) (txs : List Tx) (s : Ledger) :
    (Ledger.after env txs s).sc.txId =
      s.sc.txId + BitVec.ofNat 64 ((Ledger.resultsOf env txs s).filter (·.accepted)).length := by
  induction txs generalizing s with
  | nil => simp [Ledger.after, Ledger.resultsOf]
  | cons tx txs ih =>
    have h1 := ih (Ledger.execute env tx s).2
    have h2 := c05_step env tx s
    simp only [Ledger.after, List.foldl_cons, Ledger.resultsOf, List.filter_cons] at *
    rw [h1, h2]
    cases (Ledger.execute env tx s).1.accepted with
    | false => simp
    | true =>
      simp only [if_true, List.length_cons]
      rw [BitVec.ofNat_add, BitVec.add_comm (BitVec.ofNat 64 _) (BitVec.ofNat 64 1), BitVec.add_assoc]
      rfl

/-- Witness: a replayed transfer panics, everything else is accepted. -/
example : (Ledger.resultsOf Toy.env (Toy.history ++ [Toy.transfer Toy.bob 100 7]) Toy.s0).map
    Result.accepted = [true, true, true, true, true, true, false] := by decide +kernel

/-! ## C06 -/

theorem post_domains {env : Env} {tx : Tx} {s s1 : Ledger} {out : Outcome}
    (h : TxPost env s out s1 tx) :
    (∀ d ∈ tx.domains, d = B256.bytes s.sc.domain) ∧ (tx.offchain = true → tx.domains ≠ []) := by
  cases tx with
  | deposit d => simp [Tx.domains, Tx.offchain]
  | createProver c => simp [Tx.domains, Tx.offchain]
  | delegate d =>
    obtain ⟨x, hpre, _⟩ := h
    simp [Tx.domains, hpre.body, hpre.domain]
  | transfer d =>
    obtain ⟨x, hpre, _⟩ := h
    simp [Tx.domains, hpre.body, hpre.domain]
  | withdraw d =>
    obtain ⟨x, hpre, _⟩ := h
    simp [Tx.domains, hpre.body, hpre.domain]
  | clear c =>
    obtain ⟨x, g, hpre, _⟩ := h
    simp [Tx.domains, hpre.request, hpre.bid, hpre.settle, hpre.execute, hpre.requestDomain,
      hpre.bidDomain, hpre.settleDomain, hpre.executeDomain]

/-- C06: an accepted off-chain transaction carries the domain of the state in every signed message
(for a clear: request, bid, settlement, execution, and the fulfilment when it is paid). -/
theorem c06_domain (env : Env) (tx : Tx) (s s' : Ledger) (r : Result)
    (h : Ledger.execute env tx s = (r, s')) (hr : r.accepted = true) :
    (∀ d ∈ tx.domains, d = B256.bytes s.sc.domain) ∧
    (tx.offchain = true → tx.domains ≠ []) ∧
    (∀ c e, tx = .clear c → c.execute.body = some e → e.executionStatus ≠ 3 →
      ∃ f b, c.fulfill = some f ∧ f.body = some b ∧ b.domain = B256.bytes s.sc.domain) := by
  obtain ⟨out, s1, hp, _, rfl⟩ := execute_accepted h hr
  have hd := post_domains hp
  refine ⟨hd.1, hd.2, ?_⟩
  rintro c e rfl he hst
  obtain ⟨x, g, hpre, ⟨h3, _⟩ | ⟨⟨f, b, g', p, hpf⟩, _⟩⟩ := hp
  · rw [hpre.execute] at he; cases he; exact absurd h3 hst
  · exact ⟨f, b, hpf.fulfill, hpf.body, hpf.domain⟩

/-- C06: execution never changes the domain, whatever the outcome. -/
theorem c06_domain_constant (env : Env) (txs : List Tx) (s : Ledger) :
    (Ledger.after env txs s).sc.domain = s.sc.domain := by
  induction txs generalizing s with
  | nil => rfl
  | cons tx txs ih =>
    have := ih (Ledger.execute env tx s).2
    simp only [Ledger.after, List.foldl_cons] at *
    rw [this]
    have hm := execInner_mono env tx s
    rcases execute_state env tx s with ⟨h1, _⟩ | ⟨h1, _⟩ <;> rw [h1]
    · exact hm.1
    · exact hm.1

/-- C06: an off-chain transaction accepted on one domain is rejected on every other domain. -/
theorem c06_no_cross_domain (env : Env) (tx : Tx) (s t : Ledger) (ho : tx.offchain = true)
    (hs : (Ledger.execute env tx s).1.accepted = true) (hne : s.sc.domain ≠ t.sc.domain) :
    (Ledger.execute env tx t).1.accepted = false := by
  cases ht : (Ledger.execute env tx t).1.accepted with
  | false => rfl
  | true =>
    have h1 := c06_domain env tx s _ _ rfl hs
    have h2 := c06_domain env tx t _ _ rfl ht
    obtain ⟨d, hd⟩ := List.exists_mem_of_ne_nil _ (h1.2.1 ho)
    exact absurd (B256.bytes_inj ((h1.1 d hd).symm.trans (h2.1 d hd))) hne

/-- Witness: an accepted clear carries four domains; on another domain it is rejected. -/
example : (Tx.clear (Toy.clear Toy.request 2 Toy.prover Toy.owner)).domains.length = 4 ∧
    (Ledger.execute Toy.env (.clear (Toy.clear Toy.request 2 Toy.prover Toy.owner)) Toy.s2).1 = .ok none ∧
    (Ledger.execute Toy.env (.clear (Toy.clear Toy.request 2 Toy.prover Toy.owner))
      { Toy.s2 with sc := { Toy.s2.sc with domain := 78 } }).1.accepted = false := by decide +kernel

end Verif
