import Verif.PropsSolvency
/-
# What an account may lose on the rollup

Lemmas for C68: over a batch of transactions an account loses at most what distinct messages signed by its key allow and
what withdrawals for it take to L1, and it gains its deposits.
-/

namespace Verif
open L1

/-- The number that a numeric field of a message stands for (0 if it is none: such a message is never executed). -/
def num (env : Env) (s : Bytes) : Nat := ((env.parseU256 s).map (·.toNat)).getD 0

/-- The most that a signed message allows to take from its signer, apart from withdrawals: a transfer its amount and
fee, a delegation or withdrawal its fee, a proof request its base fee and its gas limit at its highest price. -/
def Body.ceiling (env : Env) : Body → Nat
  | .transfer b => num env b.amount + num env b.fee
  | .delegate b => num env b.fee
  | .withdraw b => num env b.fee
  | .request b => num env b.baseFee + num env b.maxPricePerPgu * b.gasLimit.toNat
  | _ => 0

/-- What a receipt deposits for account `a`. -/
def Receipt.depositFor (a : Address) : Receipt → Nat
  | .deposit _ _ d => if d.account = a then d.amount.toNat else 0
  | _ => 0

/-- What a receipt withdraws from account `a`. -/
def Receipt.withdrawFor (a : Address) : Receipt → Nat
  | .withdraw _ d => if d.account = a then d.amount.toNat else 0
  | _ => 0

theorem num_some {env : Env} {s : Bytes} {n : U256} (h : env.parseU256 s = some n) : num env s = n.toNat := by
  unfold num; rw [h]; rfl

/-- One executed transaction. -/
theorem execute_custody (env : Env) (tx : Tx) (s s' : Ledger) (r : Option Receipt) (a : Address)
    (h : Ledger.execute env tx s = (.ok r, s')) :
    s.bal a + (r.map (Receipt.depositFor a)).getD 0 ≤ s'.bal a + (r.map (Receipt.withdrawFor a)).getD 0 ∨
    ∃ body, tx.signedAs env body a ∧
      s.bal a + (r.map (Receipt.depositFor a)).getD 0 ≤
        s'.bal a + (r.map (Receipt.withdrawFor a)).getD 0 + body.ceiling env := by
  have hrc := c19_receipts env tx s s' _ h rfl
  cases tx with
  | deposit d =>
    left
    have hr : r = some (.deposit d.onchainTx .completed d.action) := by
      have := hrc.1
      simpa only [Result.ok.injEq] using this
    obtain ⟨out, s1, hp, _, rfl⟩ := execute_accepted h rfl
    obtain ⟨_, _, hok, rfl⟩ := hp
    have hb := bal_moves _ _ hok a
    simp only [List.map_cons, List.map_nil, List.sum_cons, List.sum_nil, Mv.db, Mv.cr,
      Ledger.bal_setSc] at hb
    rw [bump_bal, hr]
    simp only [Option.map_some, Option.getD_some, Receipt.depositFor, Receipt.withdrawFor]
    simp only [eq_comm] at hb ⊢
    omega
  | createProver c =>
    left
    have hr : r = some (.createProver c.onchainTx .completed c.action) := by
      have := hrc.1
      simpa only [Result.ok.injEq] using this
    obtain ⟨out, s1, hp, _, rfl⟩ := execute_accepted h rfl
    obtain ⟨_, _, rfl⟩ := hp
    rw [bump_bal, Ledger.bal_setAcct, hr]
    simp only [Option.map_some, Option.getD_some, Receipt.depositFor, Receipt.withdrawFor]
    split
    · rename_i e; rw [e]; exact Nat.le_refl _
    · exact Nat.le_refl _
  | delegate d =>
    obtain ⟨body, signer, prover, delegate, fee, auct, h1, h2, _, _, h5, _, _, _, _, _, _, hb⟩ :=
      c09_delegate env d s s' r h
    have hr : r = none := by
      rcases hrc with ⟨v, e⟩ | e
      · exact nomatch e
      · simpa only [Result.ok.injEq] using e
    have := hb a
    subst hr
    simp only [Option.map_none, Option.getD_none]
    by_cases e : a = signer
    · right
      refine ⟨.delegate body, ⟨body, h1, rfl, e ▸ h2⟩, ?_⟩
      simp only [Body.ceiling, num_some h5]
      simp only [pay, if_pos e] at this
      omega
    · left
      simp only [pay, if_neg e] at this; omega
  | transfer t =>
    obtain ⟨body, signer, to, amount, fee, auct, h1, h2, _, h4, h5, _, _, hb, _⟩ :=
      c07_transfer env t s s' r h
    have hr : r = none := by
      rcases hrc with ⟨v, e⟩ | e
      · exact nomatch e
      · simpa only [Result.ok.injEq] using e
    have := hb a
    subst hr
    simp only [Option.map_none, Option.getD_none]
    by_cases e : a = signer
    · right
      refine ⟨.transfer body, ⟨body, h1, rfl, e ▸ h2⟩, ?_⟩
      simp only [Body.ceiling, num_some h4, num_some h5]
      simp only [pay, if_pos e] at this
      omega
    · left
      simp only [pay, if_neg e] at this; omega
  | withdraw w =>
    obtain ⟨body, signer, account, amount, fee, auct, h1, h2, _, h4, h5, _, hr, hown, _, _, hb, _⟩ :=
      c08_withdraw env w s s' r h
    have := hb a
    rw [hr]
    simp only [Option.map_some, Option.getD_some, Receipt.depositFor, Receipt.withdrawFor]
    have hpay : pay (a = account) amount.toNat = if account = a then amount.toNat else 0 := by
      unfold pay
      by_cases e : a = account
      · rw [if_pos e, if_pos e.symm]
      · rw [if_neg e, if_neg (Ne.symm e)]
    rw [hpay] at this
    by_cases e : a = signer
    · right
      refine ⟨.withdraw body, ⟨body, h1, rfl, e ▸ h2⟩, ?_⟩
      simp only [Body.ceiling, num_some h5]
      simp only [pay, if_pos e] at this
      omega
    · left
      simp only [pay, if_neg e] at this; omega
  | clear c =>
    have hr : r = none := by
      rcases hrc with ⟨v, e⟩ | e
      · exact nomatch e
      · simpa only [Result.ok.injEq] using e
    subst hr
    simp only [Option.map_none, Option.getD_none]
    by_cases hlt : s'.bal a < s.bal a
    · right
      obtain ⟨request, requester, base, maxPrice, h1, h2, h3, h4, h5⟩ := c11_ceiling env c s s' none h
      rcases c10_authorised env _ s s' _ a h rfl hlt with ⟨body, x, b1, rfl, b3⟩ | ⟨_, _, e⟩
      · have hx : x = request := Option.some.inj (b1.symm.trans h1)
        subst hx
        have ha : a = requester := signedBy_fun b3 h2
        refine ⟨.request x, ⟨x, b1, rfl, b3⟩, ?_⟩
        simp only [Body.ceiling, num_some h3, num_some h4]
        rw [ha]; omega
      · exact nomatch e
    · left; omega

/-- A batch: there are distinct messages, each signed by `a` and carried by an executed transaction, such that `a` loses
at most their ceilings and the withdrawals, and gains the deposits. -/
theorem runTxs_custody (env : Env) (a : Address) : ∀ (txs : List (Int × Tx)) (s s' : Ledger) (rs : List Receipt),
    runTxs (mapOps Address Account) (mapOps B256 Bool) env txs s = some (rs, s') →
    ∃ ms : List Body, ms.Nodup ∧
      (∀ m ∈ ms, (∃ p tx, (p, tx) ∈ txs ∧ tx.signedAs env m a) ∧ s.done (identity env a m) = false) ∧
      s.bal a + (rs.map (Receipt.depositFor a)).sum ≤
        s'.bal a + (rs.map (Receipt.withdrawFor a)).sum + (ms.map (Body.ceiling env)).sum := by
  intro txs
  induction txs with
  | nil =>
    intro s s' rs h
    simp only [runTxs, Option.some.injEq, Prod.mk.injEq] at h
    obtain ⟨rfl, rfl⟩ := h
    exact ⟨[], by simp, by simp, Nat.le_refl _⟩
  | cons t txs ih =>
    intro s s' rs h
    obtain ⟨pos, tx⟩ := t
    rw [runTxs] at h
    have hstep : ∀ r s1, execute (mapOps Address Account) (mapOps B256 Bool) env tx s = (r, s1) →
        Ledger.execute env tx s = (r, s1) := fun _ _ h => h
    generalize he : execute (mapOps Address Account) (mapOps B256 Bool) env tx s = q at h
    obtain ⟨o, (s1 : Ledger)⟩ := q
    have hx := hstep _ _ he
    have lift : ∀ ms : List Body,
        (∀ m ∈ ms, (∃ p tx, (p, tx) ∈ txs ∧ tx.signedAs env m a) ∧ s1.done (identity env a m) = false) →
        ∀ m ∈ ms, (∃ p tx', (p, tx') ∈ (pos, tx) :: txs ∧ tx'.signedAs env m a) ∧ s.done (identity env a m) = false := by
      intro ms hm m hin
      obtain ⟨⟨p, t, h1, h2⟩, h3⟩ := hm m hin
      refine ⟨⟨p, t, List.mem_cons_of_mem _ h1, h2⟩, ?_⟩
      cases hd : s.done (identity env a m) with
      | false => rfl
      | true =>
        have := execute_mono env tx s _ hd
        rw [hx] at this
        rw [this] at h3
        exact nomatch h3
    -- an executed transaction
    have ok : ∀ (r : Option Receipt) (rs' : List Receipt), o = .ok r →
        runTxs (mapOps Address Account) (mapOps B256 Bool) env txs s1 = some (rs', s') →
        ∃ ms : List Body, ms.Nodup ∧
          (∀ m ∈ ms, (∃ p tx', (p, tx') ∈ (pos, tx) :: txs ∧ tx'.signedAs env m a) ∧ s.done (identity env a m) = false) ∧
          s.bal a + ((r.toList ++ rs').map (Receipt.depositFor a)).sum ≤
            s'.bal a + ((r.toList ++ rs').map (Receipt.withdrawFor a)).sum + (ms.map (Body.ceiling env)).sum := by
      intro r rs' ho h'
      subst ho
      obtain ⟨ms, m1, m2, m3⟩ := ih s1 s' rs' h'
      have sums : ∀ f : Receipt → Nat, ((r.toList ++ rs').map f).sum = (r.map f).getD 0 + (rs'.map f).sum := by
        intro f
        cases r <;> simp
      rw [sums, sums]
      rcases execute_custody env tx s s1 r a hx with hle | ⟨body, hb, hle⟩
      · exact ⟨ms, m1, lift ms m2, by omega⟩
      · obtain ⟨d1, d2⟩ := accepted_done hx rfl ⟨body, a, hb, rfl⟩
        refine ⟨body :: ms, List.nodup_cons.mpr ⟨fun hin => ?_, m1⟩, fun m hm => ?_, ?_⟩
        · have := (m2 body hin).2
          rw [d2] at this
          exact nomatch this
        · rcases List.mem_cons.mp hm with rfl | hm
          · exact ⟨⟨pos, tx, List.mem_cons_self .., hb⟩, d1⟩
          · exact lift ms m2 m hm
        · simp only [List.map_cons, List.sum_cons]; omega
    match o, h with
    | .panic _, h => exact nomatch h
    | .revert v, h =>
      obtain ⟨ms, m1, m2, m3⟩ := ih s1 s' rs h
      have := (c03_revert env tx s s1 v hx).1
      have hb : s1.bal a = s.bal a := by
        unfold Ledger.bal Ledger.acctD Ledger.acct
        rw [this]
      exact ⟨ms, m1, lift ms m2, by omega⟩
    | .ok none, h => exact ok none rs rfl h
    | .ok (some r), h =>
      dsimp only at h
      split at h
      · exact nomatch h
      · rename_i rs' s'' h'
        simp only [Option.some.injEq, Prod.mk.injEq] at h
        obtain ⟨rfl, rfl⟩ := h
        exact ok (some r) rs' rfl h'

end Verif
