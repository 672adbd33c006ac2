import Verif.L1Live3
/-
# C19, the form in which receipts reach L1

What the contract reads when it decodes the receipt of an accepted transaction.
-/

namespace Verif
open L1

/-- C19: the contract reads from the receipt of an accepted L1 transaction its own id and data, and from that of a withdrawal
the account and amount of the signed message, under the id that marks receipts without an L1 transaction. -/
theorem c19_published (env : Env) (tx : Tx) (s s' : Ledger) (r : Receipt)
    (h : Ledger.execute env tx s = (.ok (some r), s')) :
    r.sol.status = .completed ∧
    match tx with
    | .deposit d => r.sol.variant = .deposit ∧ r.sol.onchainTxId = d.onchainTx ∧
        decAccountAmount r.sol.action = some (d.action.account, d.action.amount)
    | .createProver c => r.sol.variant = .createProver ∧ r.sol.onchainTxId = c.onchainTx ∧
        decCreateProver r.sol.action = some (c.action.prover, c.action.owner, c.action.stakerFeeBips)
    | .withdraw t => r.sol.variant = .withdraw ∧ r.sol.onchainTxId.toNat = 2 ^ 64 - 1 ∧
        ∃ body account amount, t.body = some body ∧ body.account = Address.bytes account ∧
          env.parseU256 body.amount = some amount ∧ decAccountAmount r.sol.action = some (account, amount)
    | _ => False := by
  have hrc := c19_receipts env tx s s' _ h rfl
  cases tx with
  | deposit d =>
    have e := hrc.1
    simp only [Result.ok.injEq, Option.some.injEq] at e
    subst e
    exact ⟨rfl, rfl, rfl, decAccountAmount_deposit _⟩
  | createProver d =>
    have e := hrc.1
    simp only [Result.ok.injEq, Option.some.injEq] at e
    subst e
    exact ⟨rfl, rfl, rfl, decCreateProver_abi _⟩
  | withdraw t =>
    rcases hrc with ⟨v, e⟩ | ⟨body, account, amount, h1, h2, h3, e⟩
    · exact nomatch e
    · simp only [Result.ok.injEq, Option.some.injEq] at e
      subst e
      exact ⟨rfl, rfl, rfl, body, account, amount, h1, h2, h3, decAccountAmount_withdraw _⟩
  | delegate t =>
    rcases hrc with ⟨v, e⟩ | e <;> exact nomatch e
  | transfer t =>
    rcases hrc with ⟨v, e⟩ | e <;> exact nomatch e
  | clear t =>
    rcases hrc with ⟨v, e⟩ | e <;> exact nomatch e

/-- Witness: the receipt of a deposit and of a withdrawal. -/
example : (Ledger.execute Toy.env Toy.deposit1 (Ledger.new Toy.dom)).1 =
      .ok (some (.deposit 1 .completed ⟨Toy.alice, 1000⟩)) ∧
    (Ledger.execute Toy.env (Toy.withdraw Toy.alice Toy.alice 30 2) Toy.s2).1 =
      .ok (some (.withdraw .completed ⟨Toy.alice, 30⟩)) := by
  decide +kernel

end Verif
