import Verif.L1Size
/-
# What a batch of transactions executed on the rollup means for the L1 contracts

Lemmas for C65 and C67: the receipts of a batch carry the on-chain transactions in order, roles change only by them.
-/

namespace Verif
open L1

/-- What a batch of executed transactions tells L1. -/
structure BatchFacts (env : Env) (txs : List (Int × Tx)) (s s' : Ledger) (rs : List Receipt) : Prop where
  /-- on-chain receipts carry consecutive ids, -/
  ids : ∀ j r, (rs.filter Receipt.onchain)[j]? = some r → r.sol.onchainTxId = s.sc.onchainTxId + BitVec.ofNat 64 j
  /-- each is that of an executed transaction, -/
  origin : ∀ r ∈ rs, r.onchain = true →
    (∃ n d, (n, Tx.deposit d) ∈ txs ∧ r = .deposit d.onchainTx .completed d.action) ∨
    (∃ n d, (n, Tx.createProver d) ∈ txs ∧ r = .createProver d.onchainTx .completed d.action)
  /-- and their number is the advance of the cursor. -/
  cursor : s'.sc.onchainTxId = s.sc.onchainTxId + BitVec.ofNat 64 (rs.filter Receipt.onchain).length
  /-- Owner and fee of an account change only to those of a receipt. -/
  roles : ∀ a, (s'.owner a = s.owner a ∧ s'.bips a = s.bips a) ∨
    ∃ id d, Receipt.createProver id .completed d ∈ rs ∧ d.prover = a ∧ s'.owner a = d.owner ∧ s'.bips a = d.stakerFeeBips
  /-- After a receipt of a creation, owner and fee are those of such a receipt. -/
  created : ∀ id st c, Receipt.createProver id st c ∈ rs → ∃ id' d, Receipt.createProver id' .completed d ∈ rs ∧
    d.prover = c.prover ∧ s'.owner c.prover = d.owner ∧ s'.bips c.prover = d.stakerFeeBips
  /-- A withdrawal is signed by the account itself or is from a prover's account. -/
  withdrawals : ∀ st d, Receipt.withdraw st d ∈ rs →
    (∃ n t body, (n, Tx.withdraw t) ∈ txs ∧ t.body = some body ∧ SignedBy env (.withdraw body) t.format t.signature d.account) ∨
      s.owner d.account ≠ 0 ∨ ∃ id c, Receipt.createProver id .completed c ∈ rs ∧ c.prover = d.account

theorem ofNat_add_one (x : U64) (j : Nat) : x + 1 + BitVec.ofNat 64 j = x + BitVec.ofNat 64 (j + 1) := by
  rw [BitVec.ofNat_add, BitVec.add_comm (BitVec.ofNat 64 j), BitVec.add_assoc]
  rfl

theorem runTxs_batch (env : Env) : ∀ (txs : List (Int × Tx)) (s s' : Ledger) (rs : List Receipt),
    runTxs (mapOps Address Account) (mapOps B256 Bool) env txs s = some (rs, s') → BatchFacts env txs s s' rs := by
  intro txs
  induction txs with
  | nil =>
    intro s s' rs h
    simp only [runTxs, Option.some.injEq, Prod.mk.injEq] at h
    obtain ⟨rfl, rfl⟩ := h
    exact ⟨by simp, by simp, by simp, fun _ => Or.inl ⟨rfl, rfl⟩, by simp, by simp⟩
  | cons t txs ih =>
    intro s s' rs h
    obtain ⟨pos, tx⟩ := t
    rw [runTxs] at h
    have hstep : ∀ r s1, execute (mapOps Address Account) (mapOps B256 Bool) env tx s = (r, s1) →
        Ledger.execute env tx s = (r, s1) := fun _ _ h => h
    generalize he : execute (mapOps Address Account) (mapOps B256 Bool) env tx s = q at h
    obtain ⟨o, (s1 : Ledger)⟩ := q
    have hx := hstep _ _ he
    -- a transaction without receipt
    have quiet : ∀ rs, o.accepted = true → (∀ r, o ≠ .ok (some r)) →
        runTxs (mapOps Address Account) (mapOps B256 Bool) env txs s1 = some (rs, s') →
        BatchFacts env ((pos, tx) :: txs) s s' rs := by
      intro rs ha hn h
      have i := ih s1 s' rs h
      have hc := c04_step env tx s s1 o hx ha
      have hr := c19_receipts env tx s s1 o hx ha
      have hoff : tx.onchainPos = none := by
        cases tx with
        | deposit d => exact absurd hr.1 (hn _)
        | createProver d => exact absurd hr.1 (hn _)
        | _ => rfl
      rw [hoff] at hc
      have hroles : ∀ a, s1.owner a = s.owner a ∧ s1.bips a = s.bips a := by
        intro a
        by_cases hne : s1.owner a = s.owner a ∧ s1.signer a = s.signer a ∧ s1.bips a = s.bips a
        · exact ⟨hne.1, hne.2.2⟩
        · rcases c09_roles_frame env tx s s1 o a hx ha hne with ⟨c, rfl, _⟩ | ⟨_, _, _, _, _, _, _, _, _, e1, e2⟩
          · exact nomatch hoff
          · exact ⟨e1, e2⟩
      refine ⟨fun j r hj => by rw [i.ids j r hj, hc.1], fun r hr ho => ?_, by rw [i.cursor, hc.1], fun a => ?_, i.created, fun st d hm => ?_⟩
      · rcases i.origin r hr ho with ⟨n, d, h1, h2⟩ | ⟨n, d, h1, h2⟩
        · exact Or.inl ⟨n, d, List.mem_cons_of_mem _ h1, h2⟩
        · exact Or.inr ⟨n, d, List.mem_cons_of_mem _ h1, h2⟩
      · rw [← (hroles a).1, ← (hroles a).2]; exact i.roles a
      · rw [← (hroles d.account).1]
        rcases i.withdrawals st d hm with ⟨n, t, b, e1, e2⟩ | e
        · exact Or.inl ⟨n, t, b, List.mem_cons_of_mem _ e1, e2⟩
        · exact Or.inr e
    match o, h with
    | .panic _, h => exact nomatch h
    | .revert _, h => exact quiet rs rfl (by simp) h
    | .ok none, h => exact quiet rs rfl (by simp) h
    | .ok (some r), h =>
      dsimp only at h
      split at h
      · exact nomatch h
      · rename_i rs' s'' h'
        simp only [Option.some.injEq, Prod.mk.injEq] at h
        obtain ⟨rfl, rfl⟩ := h
        have i := ih s1 s'' rs' h'
        have hc := c04_step env tx s s1 _ hx rfl
        have hr := c19_receipts env tx s s1 _ hx rfl
        have tail : ∀ r ∈ rs', r.onchain = true →
            (∃ n d, (n, Tx.deposit d) ∈ (pos, tx) :: txs ∧ r = .deposit d.onchainTx .completed d.action) ∨
            (∃ n d, (n, Tx.createProver d) ∈ (pos, tx) :: txs ∧ r = .createProver d.onchainTx .completed d.action) := by
          intro r hr ho
          rcases i.origin r hr ho with ⟨n, d, h1, h2⟩ | ⟨n, d, h1, h2⟩
          · exact Or.inl ⟨n, d, List.mem_cons_of_mem _ h1, h2⟩
          · exact Or.inr ⟨n, d, List.mem_cons_of_mem _ h1, h2⟩
        have sameRoles : (∀ c, tx ≠ .createProver c) → ∀ a, s1.owner a = s.owner a ∧ s1.bips a = s.bips a := by
          intro hn a
          by_cases hne : s1.owner a = s.owner a ∧ s1.signer a = s.signer a ∧ s1.bips a = s.bips a
          · exact ⟨hne.1, hne.2.2⟩
          · rcases c09_roles_frame env tx s s1 _ a hx rfl hne with ⟨c, e, _⟩ | ⟨_, _, _, _, _, _, _, _, _, e1, e2⟩
            · exact absurd e (hn c)
            · exact ⟨e1, e2⟩
        -- an on-chain transaction
        have onch : r.onchain = true → r.sol.onchainTxId = s.sc.onchainTxId → s1.sc.onchainTxId = s.sc.onchainTxId + 1 →
            (∀ j q, ((r :: rs').filter Receipt.onchain)[j]? = some q →
              q.sol.onchainTxId = s.sc.onchainTxId + BitVec.ofNat 64 j) ∧
            s''.sc.onchainTxId = s.sc.onchainTxId + BitVec.ofNat 64 ((r :: rs').filter Receipt.onchain).length := by
          intro ho hid hs1
          rw [List.filter_cons_of_pos ho]
          refine ⟨fun j q hj => ?_, by rw [i.cursor, hs1, List.length_cons, ofNat_add_one]⟩
          cases j with
          | zero =>
            simp only [List.getElem?_cons_zero, Option.some.injEq] at hj
            rw [← hj, hid]; simp
          | succ j =>
            rw [List.getElem?_cons_succ] at hj
            rw [i.ids j q hj, hs1, ofNat_add_one]
        have liftRoles : (∀ a, s1.owner a = s.owner a ∧ s1.bips a = s.bips a) → ∀ a,
            (Ledger.owner s'' a = s.owner a ∧ Ledger.bips s'' a = s.bips a) ∨
            ∃ id d, Receipt.createProver id .completed d ∈ r :: rs' ∧ d.prover = a ∧ Ledger.owner s'' a = d.owner ∧
              Ledger.bips s'' a = d.stakerFeeBips := by
          intro hs a
          rcases i.roles a with e | ⟨id, d, h1, h2⟩
          · exact Or.inl ⟨e.1.trans (hs a).1, e.2.trans (hs a).2⟩
          · exact Or.inr ⟨id, d, List.mem_cons_of_mem _ h1, h2⟩
        have liftC : ∀ id st c, Receipt.createProver id st c ∈ rs' → ∃ id' d, Receipt.createProver id' .completed d ∈ r :: rs' ∧
            d.prover = c.prover ∧ Ledger.owner s'' c.prover = d.owner ∧ Ledger.bips s'' c.prover = d.stakerFeeBips := by
          intro id st c hm
          obtain ⟨id', d, h1, h2⟩ := i.created id st c hm
          exact ⟨id', d, List.mem_cons_of_mem _ h1, h2⟩
        have liftW : ∀ st d, Receipt.withdraw st d ∈ rs' →
            (s1.owner d.account = s.owner d.account ∨ ∃ id c, r = Receipt.createProver id .completed c ∧ c.prover = d.account) →
            (∃ n t body, (n, Tx.withdraw t) ∈ (pos, tx) :: txs ∧ t.body = some body ∧
              SignedBy env (.withdraw body) t.format t.signature d.account) ∨ s.owner d.account ≠ 0 ∨
              ∃ id c, Receipt.createProver id .completed c ∈ r :: rs' ∧ c.prover = d.account := by
          intro st d hm hs
          rcases i.withdrawals st d hm with ⟨n, t, b, e1, e2⟩ | e | ⟨id, c, e1, e2⟩
          · exact Or.inl ⟨n, t, b, List.mem_cons_of_mem _ e1, e2⟩
          · rcases hs with hs | ⟨id, c, rfl, h2⟩
            · exact Or.inr (Or.inl (hs ▸ e))
            · exact Or.inr (Or.inr ⟨id, c, List.mem_cons_self .., h2⟩)
          · exact Or.inr (Or.inr ⟨id, c, List.mem_cons_of_mem _ e1, e2⟩)
        cases tx with
        | deposit d =>
          obtain ⟨e1, e2⟩ := hr
          simp only [Result.ok.injEq, Option.some.injEq] at e1
          subst e1
          obtain ⟨_, _, hs1, _⟩ := hc
          obtain ⟨o1, o2⟩ := onch rfl e2 hs1
          have hs := sameRoles (by simp)
          refine ⟨o1, fun q hq ho => ?_, o2, liftRoles hs, fun id st c hm => ?_, fun st w hm => ?_⟩
          · rcases List.mem_cons.mp hq with rfl | hq
            · exact Or.inl ⟨pos, d, List.mem_cons_self .., rfl⟩
            · exact tail q hq ho
          · rcases List.mem_cons.mp hm with e | hm
            · exact nomatch e
            · exact liftC id st c hm
          · rcases List.mem_cons.mp hm with e | hm
            · exact nomatch e
            · exact liftW st w hm (Or.inl (hs _).1)
        | createProver d =>
          obtain ⟨e1, e2⟩ := hr
          simp only [Result.ok.injEq, Option.some.injEq] at e1
          subst e1
          obtain ⟨_, _, hs1, _⟩ := hc
          obtain ⟨o1, o2⟩ := onch rfl e2 hs1
          have hcase : ∀ a, (s1.owner a = s.owner a ∧ s1.bips a = s.bips a) ∨
              (d.action.prover = a ∧ s1.owner a = d.action.owner ∧ s1.bips a = d.action.stakerFeeBips) := by
            intro a
            by_cases hne : s1.owner a = s.owner a ∧ s1.signer a = s.signer a ∧ s1.bips a = s.bips a
            · exact Or.inl ⟨hne.1, hne.2.2⟩
            · rcases c09_roles_frame env _ s s1 _ a hx rfl hne with ⟨c, e, f1, f2, _, f4⟩ | ⟨_, _, _, e, _⟩
              · simp only [Tx.createProver.injEq] at e
                subst e
                exact Or.inr ⟨f1, f2, f4⟩
              · exact nomatch e
          refine ⟨o1, fun q hq ho => ?_, o2, fun a => ?_, fun id st c hm => ?_, fun st w hm => ?_⟩
          · rcases List.mem_cons.mp hq with rfl | hq
            · exact Or.inr ⟨pos, d, List.mem_cons_self .., rfl⟩
            · exact tail q hq ho
          · rcases i.roles a with e | ⟨id, c, h1, h2⟩
            · rcases hcase a with f | ⟨f1, f2, f3⟩
              · exact Or.inl ⟨e.1.trans f.1, e.2.trans f.2⟩
              · exact Or.inr ⟨_, _, List.mem_cons_self .., f1, e.1.trans f2, e.2.trans f3⟩
            · exact Or.inr ⟨id, c, List.mem_cons_of_mem _ h1, h2⟩
          · rcases List.mem_cons.mp hm with e | hm
            · simp only [Receipt.createProver.injEq] at e
              obtain ⟨_, _, rfl⟩ := e
              have h1 : s1.owner d.action.prover = d.action.owner ∧ s1.bips d.action.prover = d.action.stakerFeeBips := by
                obtain ⟨out, s2, hp, _, rfl⟩ := execute_accepted hx rfl
                obtain ⟨_, _, rfl⟩ := hp
                rw [bump_owner, bump_bips, Ledger.owner_setAcct, Ledger.bips_setAcct, if_pos rfl, if_pos rfl]
                exact ⟨rfl, rfl⟩
              rcases i.roles d.action.prover with e | ⟨id', c, g1, g2, g3⟩
              · exact ⟨_, _, List.mem_cons_self .., rfl, e.1.trans h1.1, e.2.trans h1.2⟩
              · exact ⟨id', c, List.mem_cons_of_mem _ g1, g2, g3⟩
            · exact liftC id st c hm
          · rcases List.mem_cons.mp hm with e | hm
            · exact nomatch e
            · refine liftW st w hm ?_
              rcases hcase w.account with f | ⟨f1, _⟩
              · exact Or.inl f.1
              · exact Or.inr ⟨_, _, rfl, f1⟩
        | withdraw t =>
          obtain ⟨body, signer, account, amount, fee, auct, hbody, hsig, _, _, _, _, e, hown, _, _, _, _⟩ := c08_withdraw env t s s1 _ hx
          simp only [Option.some.injEq] at e
          subst e
          have hs := sameRoles (by simp)
          have hf : ((Receipt.withdraw .completed ⟨account, amount⟩ :: rs').filter Receipt.onchain) = rs'.filter Receipt.onchain :=
            List.filter_cons_of_neg (by simp [Receipt.onchain])
          refine ⟨fun j q hj => ?_, fun q hq ho => ?_, by rw [hf, i.cursor, hc.1], liftRoles hs, fun id st c hm => ?_, fun st w hm => ?_⟩
          · rw [hf] at hj; rw [i.ids j q hj, hc.1]
          · rcases List.mem_cons.mp hq with rfl | hq
            · exact nomatch ho
            · exact tail q hq ho
          · rcases List.mem_cons.mp hm with e | hm
            · exact nomatch e
            · exact liftC id st c hm
          · rcases List.mem_cons.mp hm with e | hm
            · simp only [Receipt.withdraw.injEq] at e
              obtain ⟨_, rfl⟩ := e
              by_cases h0 : s.owner account = 0
              · rw [hown h0] at hsig
                exact Or.inl ⟨_, _, _, List.mem_cons_self .., hbody, hsig⟩
              · exact Or.inr (Or.inl h0)
            · exact liftW st w hm (Or.inl (hs _).1)
        | delegate d => rcases hr with ⟨_, e⟩ | e <;> exact nomatch e
        | transfer d => rcases hr with ⟨_, e⟩ | e <;> exact nomatch e
        | clear d => rcases hr with ⟨_, e⟩ | e <;> exact nomatch e

end Verif
