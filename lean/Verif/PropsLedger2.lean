import Verif.PropsLedger
import Verif.Overflow
/-
# C07 - C19: effects of the individual transactions, authorisation, arithmetic, receipts

`pay c n` below reads "`n` if `c`, else nothing": the equations hold for every coincidence of the
addresses involved.
-/

namespace Verif

/-- `n` if the condition holds, otherwise nothing. -/
def pay (c : Prop) [Decidable c] (n : Nat) : Nat := if c then n else 0

/-- Owners, delegated signers and staker fees are the same in both states. -/
def SameRoles (s s' : Ledger) : Prop :=
  ∀ a, s'.owner a = s.owner a ∧ s'.signer a = s.signer a ∧ s'.bips a = s.bips a

theorem sameRoles_moves (ms : List Mv) (s t : Ledger) (h : t.accounts = s.accounts) :
    SameRoles s (moves ms t).bump := by
  have hf := moves_frame ms t
  have e : ∀ a, t.owner a = s.owner a ∧ t.signer a = s.signer a ∧ t.bips a = s.bips a := by
    intro a
    unfold Ledger.owner Ledger.signer Ledger.bips Ledger.acctD Ledger.acct
    rw [h]; exact ⟨rfl, rfl, rfl⟩
  intro a
  rw [bump_owner, bump_signer, bump_bips, hf.1, hf.2.1, hf.2.2.1]
  exact e a

/-! ## C07 -/

/-- C07: a successful transfer moves exactly `amount` from the signer to `to` and exactly `fee` from
the signer to the auctioneer, whatever addresses coincide; nothing else changes; the signer's balance
covered both. -/
theorem c07_transfer (env : Env) (t : Signed TransferBody) (s s' : Ledger) (r : Option Receipt)
    (h : Ledger.execute env (.transfer t) s = (.ok r, s')) :
    ∃ body signer to amount fee auctioneer,
      t.body = some body ∧ SignedBy env (.transfer body) t.format t.signature signer ∧
      body.to = Address.bytes to ∧ env.parseU256 body.amount = some amount ∧
      env.parseU256 body.fee = some fee ∧ body.auctioneer = Address.bytes auctioneer ∧
      amount.toNat + fee.toNat ≤ s.bal signer ∧
      (∀ a, s'.bal a + pay (a = signer) (amount.toNat + fee.toNat) =
        s.bal a + pay (a = to) amount.toNat + pay (a = auctioneer) fee.toNat) ∧
      SameRoles s s' := by
  obtain ⟨out, s1, hp, hr, rfl⟩ := execute_accepted h rfl
  obtain ⟨x, hpre, ⟨req, bal, rfl, _⟩ | ⟨rfl, hle, hok, rfl⟩⟩ := hp
  · cases hr
  refine ⟨x.body, x.signer, x.to, x.amount, x.fee, x.auctioneer, hpre.body, hpre.signed, hpre.to,
    hpre.amount, hpre.fee, hpre.auctioneer, hle, fun a => ?_, sameRoles_moves _ _ _ rfl⟩
  have hb := bal_moves _ _ hok a
  simp only [TransferData.moves, List.map_cons, List.map_nil, List.sum_cons, List.sum_nil, Mv.db, Mv.cr,
    Ledger.bal_mark] at hb
  simp only [bump_bal, pay, TransferData.moves]
  split <;> simp_all <;> omega

/-- Witness: Alice pays Bob 100 and the auctioneer 7; and a transfer to oneself. -/
example :
    (Ledger.execute Toy.env (Toy.transfer Toy.bob 100 7) Toy.s2).1 = .ok none ∧
    ((Ledger.execute Toy.env (Toy.transfer Toy.bob 100 7) Toy.s2).2.bal Toy.alice,
     (Ledger.execute Toy.env (Toy.transfer Toy.bob 100 7) Toy.s2).2.bal Toy.bob,
     (Ledger.execute Toy.env (Toy.transfer Toy.bob 100 7) Toy.s2).2.bal Toy.auctioneer)
      = (893, 100, 7) ∧
    (Ledger.execute Toy.env (Toy.transfer Toy.alice 900 7) Toy.s2).2.bal Toy.alice = 993 := by
  decide +kernel

/-! ## C08 -/

/-- C08: a successful withdrawal debits the account and amount named in its receipt, takes the fee from
the signer to the auctioneer, changes nothing else, is covered by the balances, and for an account
that is not a prover is signed by that account. -/
theorem c08_withdraw (env : Env) (w : Signed WithdrawBody) (s s' : Ledger) (r : Option Receipt)
    (h : Ledger.execute env (.withdraw w) s = (.ok r, s')) :
    ∃ body signer account amount fee auctioneer,
      w.body = some body ∧ SignedBy env (.withdraw body) w.format w.signature signer ∧
      body.account = Address.bytes account ∧ env.parseU256 body.amount = some amount ∧
      env.parseU256 body.fee = some fee ∧ body.auctioneer = Address.bytes auctioneer ∧
      r = some (.withdraw .completed ⟨account, amount⟩) ∧
      (s.owner account = 0 → signer = account) ∧
      (signer = account → amount.toNat + fee.toNat ≤ s.bal account) ∧
      (signer ≠ account → amount.toNat ≤ s.bal account ∧ fee.toNat ≤ s.bal signer) ∧
      (∀ a, s'.bal a + pay (a = account) amount.toNat + pay (a = signer) fee.toNat =
        s.bal a + pay (a = auctioneer) fee.toNat) ∧
      SameRoles s s' := by
  obtain ⟨out, s1, hp, hr, rfl⟩ := execute_accepted h rfl
  obtain ⟨x, hpre, ⟨a, req, bal, rfl, _⟩ | ⟨rfl, h1, h2, h3, hok, rfl⟩⟩ := hp
  · cases hr
  cases hr
  refine ⟨x.body, x.signer, x.account, x.amount, x.fee, x.auctioneer, hpre.body, hpre.signed,
    hpre.account, hpre.amount, hpre.fee, hpre.auctioneer, rfl, fun h => (hpre.authorised h).symm,
    fun h => h2 h.symm, fun h => ⟨h1, h3 (Ne.symm h)⟩, fun a => ?_, sameRoles_moves _ _ _ rfl⟩
  have hb := bal_moves _ _ hok a
  simp only [WithdrawData.moves, List.map_cons, List.map_nil, List.sum_cons, List.sum_nil, Mv.db, Mv.cr,
    Ledger.bal_mark] at hb
  simp only [bump_bal, pay, WithdrawData.moves]
  omega

/-- Witness: Alice withdraws 30 paying a fee of 2. -/
example :
    (Ledger.execute Toy.env (Toy.withdraw Toy.alice Toy.alice 30 2) Toy.s2).1 =
      .ok (some (.withdraw .completed ⟨Toy.alice, 30⟩)) ∧
    (Ledger.execute Toy.env (Toy.withdraw Toy.alice Toy.alice 30 2) Toy.s2).2.bal Toy.alice = 968 := by
  decide +kernel

/-- A third party may trigger the withdrawal of a prover's funds (towards the prover) by paying the
fee: the authorisation clause of C08 is only about accounts that are not provers. -/
example : ∃ s, (Ledger.execute Toy.env (Toy.withdraw Toy.prover Toy.alice 9 2) s).1 =
      .ok (some (.withdraw .completed ⟨Toy.prover, 9⟩)) ∧ s.owner Toy.prover ≠ Toy.alice :=
  ⟨(Ledger.execute Toy.env (Toy.transfer Toy.prover 100 7) Toy.s2).2, by decide +kernel⟩

/-! ## C09 -/

/-- C09: a successful delegation is signed by the recorded owner of the prover, sets the delegated
signer of that prover to the named delegate, moves exactly the fee from the owner to the auctioneer
and changes nothing else. -/
theorem c09_delegate (env : Env) (d : Signed DelegateBody) (s s' : Ledger) (r : Option Receipt)
    (h : Ledger.execute env (.delegate d) s = (.ok r, s')) :
    ∃ body signer prover delegate fee auctioneer,
      d.body = some body ∧ SignedBy env (.delegate body) d.format d.signature signer ∧
      body.prover = Address.bytes prover ∧ body.delegate = Address.bytes delegate ∧
      env.parseU256 body.fee = some fee ∧ body.auctioneer = Address.bytes auctioneer ∧
      s.owner prover = signer ∧ (s.acct prover).isSome ∧ fee.toNat ≤ s.bal signer ∧
      (∀ a, s'.signer a = if a = prover then delegate else s.signer a) ∧
      (∀ a, s'.owner a = s.owner a ∧ s'.bips a = s.bips a) ∧
      (∀ a, s'.bal a + pay (a = signer) fee.toNat =
        s.bal a + pay (a = auctioneer) fee.toNat) := by
  obtain ⟨out, s1, hp, hr, rfl⟩ := execute_accepted h rfl
  obtain ⟨x, hpre, ⟨bal, rfl, _⟩ | ⟨rfl, hle, hok, dl, v, hdl, hv, rfl⟩⟩ := hp
  · cases hr
  refine ⟨x.body, x.signer, x.prover, dl, x.fee, x.auctioneer, hpre.body, hpre.signed, hpre.prover,
    hdl, hpre.fee, hpre.auctioneer, hpre.owner, hpre.present, hle, fun a => ?_, fun a => ?_,
    fun a => ?_⟩
  · have hf := (moves_frame x.moves (s.mark (identity env x.signer (.delegate x.body)) true)).2.1 a
    rw [bump_signer, Ledger.signer_setAcct]
    split
    · rfl
    · rw [hf]; rfl
  · have hf := moves_frame x.moves (s.mark (identity env x.signer (.delegate x.body)) true)
    rw [bump_owner, bump_bips, Ledger.owner_setAcct, Ledger.bips_setAcct]
    have e1 := hf.1 x.prover
    have e2 := hf.2.2.1 x.prover
    unfold Ledger.owner at e1
    unfold Ledger.bips at e2
    simp only [Ledger.acctD, hv, Option.getD_some] at e1 e2
    split
    · rename_i e
      rw [e]
      exact ⟨e1, e2⟩
    · rw [hf.1, hf.2.2.1]; exact ⟨rfl, rfl⟩
  · have hb := bal_moves _ _ hok a
    simp only [DelegateData.moves, List.map_cons, List.map_nil, List.sum_cons, List.sum_nil, Mv.db,
      Mv.cr, Ledger.bal_mark] at hb
    rw [bump_bal, Ledger.bal_setAcct]
    have hvb := bal_of_acct hv
    simp only [pay]
    split
    · rename_i e
      rw [← e] at hvb
      simp only [Account.setSigner, DelegateData.moves] at *
      omega
    · simp only [DelegateData.moves]
      omega

/-- Witness: the owner delegates to Carol. -/
example :
    (Ledger.execute Toy.env (Toy.delegate Toy.owner 0) Toy.s2).1 = .ok none ∧
    (Ledger.execute Toy.env (Toy.delegate Toy.owner 0) Toy.s2).2.signer Toy.prover = Toy.carol ∧
    Toy.s2.signer Toy.prover = Toy.owner := by decide +kernel

/-- C09, frame: whatever transaction is accepted, if some account's owner, delegated signer or staker
fee changes then the transaction is the creation of that prover, or a delegation for that prover
signed by its recorded owner. -/
theorem c09_roles_frame (env : Env) (tx : Tx) (s s' : Ledger) (r : Result) (a : Address)
    (h : Ledger.execute env tx s = (r, s')) (hr : r.accepted = true)
    (hne : ¬ (s'.owner a = s.owner a ∧ s'.signer a = s.signer a ∧ s'.bips a = s.bips a)) :
    (∃ c, tx = .createProver c ∧ c.action.prover = a ∧ s'.owner a = c.action.owner ∧
      s'.signer a = c.action.owner ∧ s'.bips a = c.action.stakerFeeBips) ∨
    (∃ d body delegate, tx = .delegate d ∧ d.body = some body ∧ body.prover = Address.bytes a ∧
      body.delegate = Address.bytes delegate ∧
      SignedBy env (.delegate body) d.format d.signature (s.owner a) ∧
      s'.signer a = delegate ∧ s'.owner a = s.owner a ∧ s'.bips a = s.bips a) := by
  cases r with
  | panic e => simp [Result.accepted] at hr
  | revert v =>
    have := (c03_revert env tx s s' v h).1
    refine absurd ?_ hne
    unfold Ledger.owner Ledger.signer Ledger.bips Ledger.acctD Ledger.acct
    rw [this]
    exact ⟨rfl, rfl, rfl⟩
  | ok rc =>
    cases tx with
    | deposit d =>
      obtain ⟨out, s1, hp, _, rfl⟩ := execute_accepted h rfl
      obtain ⟨_, _, _, rfl⟩ := hp
      exact absurd (sameRoles_moves [.credit d.action.account d.action.amount] s
        (s.setSc (nextCursor d s.sc)) rfl a) hne
    | createProver c =>
      obtain ⟨out, s1, hp, _, rfl⟩ := execute_accepted h rfl
      obtain ⟨_, _, rfl⟩ := hp
      left
      refine ⟨c, rfl, ?_⟩
      by_cases e : a = c.action.prover
      · refine ⟨e.symm, ?_⟩
        rw [bump_owner, bump_signer, bump_bips, Ledger.owner_setAcct, Ledger.signer_setAcct,
          Ledger.bips_setAcct, if_pos e, if_pos e, if_pos e]
        exact ⟨rfl, rfl, rfl⟩
      · refine absurd ?_ hne
        rw [bump_owner, bump_signer, bump_bips, Ledger.owner_setAcct, Ledger.signer_setAcct,
          Ledger.bips_setAcct, if_neg e, if_neg e, if_neg e]
        exact ⟨rfl, rfl, rfl⟩
    | delegate d =>
      obtain ⟨body, signer, prover, delegate, fee, auct, h1, h2, h3, h4, _, _, h7, _, _, h10, h11, _⟩ :=
        c09_delegate env d s s' rc h
      right
      by_cases e : a = prover
      · refine ⟨d, body, delegate, rfl, h1, e ▸ h3, h4, by rw [e, h7]; exact h2, ?_, h11 a⟩
        rw [h10, if_pos e]
      · refine absurd ?_ hne
        rw [h10, if_neg e]
        exact ⟨(h11 a).1, rfl, (h11 a).2⟩
    | transfer t =>
      obtain ⟨_, _, _, _, _, _, _, _, _, _, _, _, _, _, hroles⟩ := c07_transfer env t s s' rc h
      exact absurd (hroles a) hne
    | withdraw w =>
      obtain ⟨_, _, _, _, _, _, _, _, _, _, _, _, _, _, _, _, _, hroles⟩ := c08_withdraw env w s s' rc h
      exact absurd (hroles a) hne
    | clear c =>
      obtain ⟨out, s1, hp, hr, rfl⟩ := execute_accepted h rfl
      obtain ⟨x, g, hpre, ⟨_, str, p, _, _, _, ⟨bal, rfl, _, _, rfl⟩ | ⟨tr, rfl, _, _, hok, rfl⟩⟩ |
        ⟨_, pgus, cost, _, _, _, _, ⟨bal, rfl, _, _, rfl⟩ |
          ⟨tr, p, st, o, rfl, _, _, hfee, hok, rfl⟩⟩⟩ := hp
      · cases hr
      · exact absurd (sameRoles_moves _ _ _ rfl a) hne
      · cases hr
      · exact absurd (sameRoles_moves _ _ _ rfl a) hne

/-! ## C12, C11: clears -/

/-- C12 (fulfilled): unless the executor reported the request as unexecutable, a successful clear
charges the requester exactly `base_fee + price * pgus` and pays out exactly that: the protocol share
(0 percent) to the treasury, the staker share `floor(cost * bips / 10000)` to the prover, the rest to
the prover's owner, whatever addresses coincide. -/
theorem c12_fulfilled (env : Env) (c : ClearTx) (s s' : Ledger) (r : Option Receipt)
    (h : Ledger.execute env (.clear c) s = (.ok r, s'))
    (hst : ∀ e, c.execute.body = some e → e.executionStatus ≠ 3) :
    ∃ request bid execute requester prover treasury base price pgus stakerPart ownerPart,
      c.request.body = some request ∧ c.bid.body = some bid ∧ c.execute.body = some execute ∧
      SignedBy env (.request request) c.request.format c.request.signature requester ∧
      bid.prover = Address.bytes prover ∧ request.treasury = Address.bytes treasury ∧
      env.parseU256 request.baseFee = some base ∧ env.parseU256 bid.amount = some price ∧
      execute.pgus = some pgus ∧
      (base.toNat + price.toNat * pgus.toNat ≤ s.bal requester) ∧
      (stakerPart = (base.toNat + price.toNat * pgus.toNat) * (s.bips prover).toNat / 10000) ∧
      (base.toNat + price.toNat * pgus.toNat = 0 + stakerPart + ownerPart) ∧
      (∀ a, s'.bal a + pay (a = requester) (base.toNat + price.toNat * pgus.toNat) =
        s.bal a + pay (a = treasury) 0 + pay (a = prover) stakerPart +
          pay (a = s.owner prover) ownerPart) ∧
      (s.bips prover).toNat ≤ 10000 ∧ SameRoles s s' := by
  obtain ⟨out, s1, hp, hr, rfl⟩ := execute_accepted h rfl
  obtain ⟨x, g, hpre, ⟨h3, _⟩ | ⟨_, pgus, cost, hpgus, hcost, _, _, ⟨bal, rfl, _, _, rfl⟩ |
      ⟨tr, p, st, o, rfl, hle, htr, hfee, hok, rfl⟩⟩⟩ := hp
  · exact absurd h3 (hst _ hpre.execute)
  · cases hr
  rw [fee_ok_iff] at hfee
  obtain ⟨_, hb, _, _, hp, hs, hsum⟩ := hfee
  have h0 : protocolFeeBips.toNat = 0 := rfl
  have hc : cappedStakerBips 0 (s.bips x.proverAddress).toNat = (s.bips x.proverAddress).toNat := by
    unfold cappedStakerBips; omega
  rw [h0, Nat.mul_zero, Nat.zero_div] at hp
  rw [h0, hc, hcost] at hs
  refine ⟨x.request, x.bid, x.execute, x.requestSigner, x.proverAddress, tr, x.baseFee, x.price, pgus,
    st.toNat, o.toNat, hpre.request, hpre.bid, hpre.execute, hpre.requestSigned, hpre.prover, htr,
    hpre.baseFee, hpre.price, hpgus, by omega, by rw [hs, Nat.add_comm], by omega, fun a => ?_, hb,
    sameRoles_moves _ _ _ rfl⟩
  have hbm := bal_moves _ _ hok a
  simp only [payMoves, List.map_cons, List.map_nil, List.sum_cons, List.sum_nil, Mv.db, Mv.cr,
    Ledger.bal_mark, hpre.owner] at hbm
  simp only [bump_bal, pay, payMoves, ← hpre.owner] at *
  rw [hcost, hp] at hbm
  rw [Nat.add_comm x.baseFee.toNat]
  omega

/-- C12 (punished): a successful clear of a request that the executor reported as unexecutable moves
exactly the punishment from the requester to the treasury. -/
theorem c12_punished (env : Env) (c : ClearTx) (s s' : Ledger) (r : Option Receipt)
    (h : Ledger.execute env (.clear c) s = (.ok r, s')) (execute : ExecuteBody)
    (he : c.execute.body = some execute) (hst : execute.executionStatus = 3) :
    ∃ request requester treasury str punishment,
      c.request.body = some request ∧
      SignedBy env (.request request) c.request.format c.request.signature requester ∧
      request.treasury = Address.bytes treasury ∧ execute.punishment = some str ∧
      env.parseU256 str = some punishment ∧ punishment.toNat ≤ s.bal requester ∧
      (∀ a, s'.bal a + pay (a = requester) punishment.toNat =
        s.bal a + pay (a = treasury) punishment.toNat) ∧ SameRoles s s' := by
  obtain ⟨out, s1, hp, hr, rfl⟩ := execute_accepted h rfl
  obtain ⟨x, g, hpre, ⟨_, str, p, hstr, hpar, _, ⟨bal, rfl, _, _, rfl⟩ | ⟨tr, rfl, hle, htr, hok, rfl⟩⟩ |
      ⟨⟨f, b, g', pv, hpf⟩, _⟩⟩ := hp
  · cases hr
  · have hx := hpre.execute
    rw [he] at hx
    cases hx
    refine ⟨x.request, x.requestSigner, tr, str, p, hpre.request, hpre.requestSigned, htr, hstr, hpar,
      hle, fun a => ?_, sameRoles_moves _ _ _ rfl⟩
    have hbm := bal_moves _ _ hok a
    simp only [punishMoves, List.map_cons, List.map_nil, List.sum_cons, List.sum_nil, Mv.db, Mv.cr,
      Ledger.bal_mark] at hbm
    simp only [bump_bal, pay, punishMoves]
    omega
  · have hx := hpre.execute
    rw [he] at hx
    cases hx
    exact absurd hpf.executed (by rw [hst]; decide)

/-- Witness for both: cost 10 + 2 * 50 = 110 split 27 / 83 at 25 percent; punishment 40. -/
example :
    let s' := (Ledger.execute Toy.env (.clear (Toy.clear Toy.request 2 Toy.prover Toy.owner)) Toy.s2).2
    let t' := (Ledger.execute Toy.env (.clear (Toy.clear Toy.request 3 Toy.prover Toy.owner)) Toy.s2).2
    (s'.bal Toy.alice, s'.bal Toy.prover, s'.bal Toy.owner, s'.bal Toy.treasury) = (890, 27, 83, 0) ∧
    (t'.bal Toy.alice, t'.bal Toy.prover, t'.bal Toy.owner, t'.bal Toy.treasury) = (960, 0, 0, 40) := by
  decide +kernel

/-- C11: no successful clear lowers the requester's balance by more than
`base_fee + max_price_per_pgu * gas_limit`, all three taken from the request the requester signed. -/
theorem c11_ceiling (env : Env) (c : ClearTx) (s s' : Ledger) (r : Option Receipt)
    (h : Ledger.execute env (.clear c) s = (.ok r, s')) :
    ∃ request requester base maxPrice,
      c.request.body = some request ∧
      SignedBy env (.request request) c.request.format c.request.signature requester ∧
      env.parseU256 request.baseFee = some base ∧
      env.parseU256 request.maxPricePerPgu = some maxPrice ∧
      s.bal requester ≤ s'.bal requester +
        (base.toNat + maxPrice.toNat * request.gasLimit.toNat) := by
  obtain ⟨out, s1, hp, hr, rfl⟩ := execute_accepted h rfl
  obtain ⟨x, g, hpre, ⟨_, str, p, hstr, hpar, hmax, ⟨bal, rfl, _, _, rfl⟩ | ⟨tr, rfl, hle, htr, hok, rfl⟩⟩ |
      ⟨_, pgus, cost, hpgus, hcost, hlim, _, ⟨bal, rfl, _, _, rfl⟩ |
      ⟨tr, p, st, o, rfl, hle, htr, hfee, hok, rfl⟩⟩⟩ := hp
  · cases hr
  · refine ⟨x.request, x.requestSigner, x.baseFee, x.maxPricePerPgu, hpre.request, hpre.requestSigned,
      hpre.baseFee, hpre.maxPrice, ?_⟩
    have hbm := bal_moves _ _ hok x.requestSigner
    simp only [punishMoves, List.map_cons, List.map_nil, List.sum_cons, List.sum_nil, Mv.db, Mv.cr,
      Ledger.bal_mark, if_true] at hbm
    simp only [bump_bal, punishMoves]
    omega
  · cases hr
  · refine ⟨x.request, x.requestSigner, x.baseFee, x.maxPricePerPgu, hpre.request, hpre.requestSigned,
      hpre.baseFee, hpre.maxPrice, ?_⟩
    have hbm := bal_moves _ _ hok x.requestSigner
    simp only [payMoves, List.map_cons, List.map_nil, List.sum_cons, List.sum_nil, Mv.db, Mv.cr,
      Ledger.bal_mark, if_true] at hbm
    simp only [bump_bal, payMoves]
    have : x.price.toNat * pgus.toNat ≤ x.maxPricePerPgu.toNat * x.request.gasLimit.toNat :=
      Nat.mul_le_mul hpre.priceLe hlim
    omega

/-- C11, the two factors: in a fulfilled clear the bid price is at most the signed maximum price and
the used gas at most the signed gas limit. -/
theorem c11_factors (env : Env) (c : ClearTx) (s s' : Ledger) (r : Option Receipt)
    (h : Ledger.execute env (.clear c) s = (.ok r, s'))
    (hst : ∀ e, c.execute.body = some e → e.executionStatus ≠ 3) :
    ∃ request bid execute price maxPrice pgus,
      c.request.body = some request ∧ c.bid.body = some bid ∧ c.execute.body = some execute ∧
      env.parseU256 bid.amount = some price ∧ env.parseU256 request.maxPricePerPgu = some maxPrice ∧
      execute.pgus = some pgus ∧ price.toNat ≤ maxPrice.toNat ∧
      pgus.toNat ≤ request.gasLimit.toNat := by
  obtain ⟨out, s1, hp, hr, rfl⟩ := execute_accepted h rfl
  obtain ⟨x, g, hpre, ⟨h3, _⟩ | ⟨_, pgus, cost, hpgus, hcost, hlim, _⟩⟩ := hp
  · exact absurd h3 (hst _ hpre.execute)
  exact ⟨x.request, x.bid, x.execute, x.price, x.maxPricePerPgu, pgus, hpre.request, hpre.bid,
    hpre.execute, hpre.price, hpre.maxPrice, hpgus, hpre.priceLe, hlim⟩

/-- Witness: the ceiling of the toy request is 10 + 3 * 100 = 310; a clear costs 110 and succeeds. -/
example : (Ledger.execute Toy.env (.clear (Toy.clear Toy.request 2 Toy.prover Toy.owner)) Toy.s2).1
    = .ok none ∧ Toy.env.parseU256 Toy.request.maxPricePerPgu = some 3 ∧
    Toy.request.gasLimit.toNat = 100 := by decide +kernel

/-! ## C10 -/

/-- C10: if an accepted transaction lowers an account's balance then that account's key signed the
transfer, withdrawal, delegation or proof request being executed, or the account is a registered
prover and the transaction is a withdrawal whose receipt pays that same account. -/
theorem c10_authorised (env : Env) (tx : Tx) (s s' : Ledger) (r : Result) (a : Address)
    (h : Ledger.execute env tx s = (r, s')) (hr : r.accepted = true) (hlt : s'.bal a < s.bal a) :
    (∃ body, tx.signedAs env body a) ∨
    (s.owner a ≠ 0 ∧ ∃ amount, r = .ok (some (.withdraw .completed ⟨a, amount⟩))) := by
  cases r with
  | panic e => simp [Result.accepted] at hr
  | revert v =>
    have := (c03_revert env tx s s' v h).1
    unfold Ledger.bal Ledger.acctD Ledger.acct at hlt
    rw [this] at hlt
    omega
  | ok rc =>
    cases tx with
    | deposit d =>
      obtain ⟨out, s1, hp, _, rfl⟩ := execute_accepted h rfl
      obtain ⟨_, _, hok, rfl⟩ := hp
      have hb := bal_moves _ _ hok a
      simp only [List.map_cons, List.map_nil, List.sum_cons, List.sum_nil, Mv.db, Mv.cr,
        Ledger.bal_setSc] at hb
      rw [bump_bal] at hlt
      omega
    | createProver c =>
      obtain ⟨out, s1, hp, _, rfl⟩ := execute_accepted h rfl
      obtain ⟨_, _, rfl⟩ := hp
      rw [bump_bal, Ledger.bal_setAcct] at hlt
      split at hlt
      · rename_i e
        rw [e] at hlt
        exact absurd hlt (Nat.lt_irrefl _)
      · exact absurd hlt (Nat.lt_irrefl _)
    | delegate d =>
      obtain ⟨body, signer, prover, delegate, fee, auct, h1, h2, _, _, _, _, _, _, _, _, _, hb⟩ :=
        c09_delegate env d s s' rc h
      left
      have := hb a
      by_cases e : a = signer
      · exact ⟨_, body, h1, rfl, e ▸ h2⟩
      · simp only [pay, if_neg e] at this; omega
    | transfer t =>
      obtain ⟨body, signer, to, amount, fee, auct, h1, h2, _, _, _, _, _, hb, _⟩ :=
        c07_transfer env t s s' rc h
      left
      have := hb a
      by_cases e : a = signer
      · exact ⟨_, body, h1, rfl, e ▸ h2⟩
      · simp only [pay, if_neg e] at this; omega
    | withdraw w =>
      obtain ⟨body, signer, account, amount, fee, auct, h1, h2, _, _, _, _, hrc, hown, _, _, hb, _⟩ :=
        c08_withdraw env w s s' rc h
      have := hb a
      by_cases e : a = signer
      · left; exact ⟨_, body, h1, rfl, e ▸ h2⟩
      · by_cases e' : a = account
        · right
          refine ⟨fun h0 => e ?_, amount, by rw [hrc, e']⟩
          rw [e'] at h0
          rw [e', hown h0]
        · simp only [pay, if_neg e, if_neg e'] at this; omega
    | clear c =>
      left
      by_cases h3 : ∃ e, c.execute.body = some e ∧ e.executionStatus = 3
      · obtain ⟨e, he, hst⟩ := h3
        obtain ⟨request, requester, tr, str, p, h1, h2, _, _, _, _, hb, _⟩ :=
          c12_punished env c s s' rc h e he hst
        have := hb a
        by_cases e : a = requester
        · exact ⟨_, request, h1, rfl, e ▸ h2⟩
        · simp only [pay, if_neg e] at this; omega
      · obtain ⟨request, bid, execute, requester, prover, tr, base, price, pgus, sp, op, h1, _, _, h2,
          _, _, _, _, _, _, _, _, hb, _⟩ := c12_fulfilled env c s s' rc h
            (fun e he h => h3 ⟨e, he, h⟩)
        have := hb a
        by_cases e : a = requester
        · exact ⟨_, request, h1, rfl, e ▸ h2⟩
        · simp only [pay, if_neg e] at this; omega

/-- Witness: the transfer lowers Alice's balance. -/
example : (Ledger.execute Toy.env (Toy.transfer Toy.bob 100 7) Toy.s2).2.bal Toy.alice <
    Toy.s2.bal Toy.alice := by decide +kernel

/-! ## C13 -/

/-- C13: a clear is accepted only if request, bid, settlement and execution are signed and refer to the
identity of the request being cleared, the bid is signed by the delegated signer recorded for the
prover it names, the settlement by the auctioneer and the execution by the executor named in the
request, and the prover is whitelisted when there is a whitelist. -/
theorem c13_signatures (env : Env) (c : ClearTx) (s s' : Ledger) (r : Result)
    (h : Ledger.execute env (.clear c) s = (r, s')) (hr : r.accepted = true) :
    ∃ request bid settle execute requester prover auctioneer executor,
      c.request.body = some request ∧ c.bid.body = some bid ∧ c.settle.body = some settle ∧
      c.execute.body = some execute ∧
      SignedBy env (.request request) c.request.format c.request.signature requester ∧
      bid.requestId = B256.bytes (identity env requester (.request request)) ∧
      settle.requestId = B256.bytes (identity env requester (.request request)) ∧
      execute.requestId = B256.bytes (identity env requester (.request request)) ∧
      bid.prover = Address.bytes prover ∧ (s.acct prover).isSome ∧
      SignedBy env (.bid bid) c.bid.format c.bid.signature (s.signer prover) ∧
      request.auctioneer = Address.bytes auctioneer ∧
      SignedBy env (.settle settle) c.settle.format c.settle.signature auctioneer ∧
      request.executor = Address.bytes executor ∧
      SignedBy env (.execute execute) c.execute.format c.execute.signature executor ∧
      (request.whitelist ≠ [] → Address.bytes prover ∈ request.whitelist) := by
  obtain ⟨out, s1, hp, _, rfl⟩ := execute_accepted h hr
  obtain ⟨x, g, hpre, _⟩ := hp
  have hid := hpre.requestId
  refine ⟨x.request, x.bid, x.settle, x.execute, x.requestSigner, x.proverAddress, g.settle, g.execute,
    hpre.request, hpre.bid, hpre.settle, hpre.execute, hpre.requestSigned, hid ▸ hpre.bidId,
    hid ▸ hpre.settleId, hid ▸ hpre.executeId, hpre.prover, hpre.present,
    hpre.delegated ▸ hpre.bidSigned, hpre.auctioneer, hpre.settleSigned, hpre.executor,
    hpre.executeSigned, fun hne => hpre.whitelist.resolve_left hne⟩

/-- Witness: an accepted clear with a whitelist. -/
example : (Ledger.execute Toy.env (.clear (Toy.clear Toy.request 2 Toy.prover Toy.owner)) Toy.s2).1 =
    .ok none ∧ Toy.request.whitelist ≠ [] := by decide +kernel

/-! ## C14 -/

/-- C14: a clear that is not a punishment is accepted only if the executor reported success, the
executed public values hash is the one the requester fixed (if any), and either the proof verifier
accepts the request's verification key with that hash (compressed proofs of the primary version) or
the verifier named in the request signed the identity of the fulfilment message for this request
(compressed proofs of other versions, plonk, groth16). -/
theorem c14_verified (env : Env) (c : ClearTx) (s s' : Ledger) (r : Result)
    (h : Ledger.execute env (.clear c) s = (r, s')) (hr : r.accepted = true)
    (hst : ∀ e, c.execute.body = some e → e.executionStatus ≠ 3) :
    ∃ request execute requester f fulfill fulfiller pvh,
      c.request.body = some request ∧ c.execute.body = some execute ∧
      SignedBy env (.request request) c.request.format c.request.signature requester ∧
      execute.executionStatus = 2 ∧ execute.publicValuesHash = some pvh ∧ pvh.length = 32 ∧
      (∀ fixed, request.publicValuesHash = some fixed → fixed = pvh) ∧
      c.fulfill = some f ∧ f.body = some fulfill ∧
      SignedBy env (.fulfill fulfill) f.format f.signature fulfiller ∧
      fulfill.requestId = B256.bytes (identity env requester (.request request)) ∧
      ((request.mode = 2 ∧ primaryVersionPrefix.isPrefixOf request.version = true ∧
          ∃ vk, bytesToWordsBE request.vkHash = some vk ∧ env.verify vk pvh = true) ∨
       ((request.mode = 2 ∧ primaryVersionPrefix.isPrefixOf request.version = false ∨
          request.mode = 3 ∨ request.mode = 4) ∧
        ∃ sig verifier, c.verify = some sig ∧ request.verifier = Address.bytes verifier ∧
          env.recover (B256.bytes (identity env fulfiller (.fulfill fulfill))) sig
            = some verifier)) := by
  obtain ⟨out, s1, hp, _, rfl⟩ := execute_accepted h hr
  obtain ⟨x, g, hpre, ⟨h3, _⟩ | ⟨⟨f, b, g', pvh, hpf⟩, _⟩⟩ := hp
  · exact absurd h3 (hst _ hpre.execute)
  exact ⟨x.request, x.execute, x.requestSigner, f, b, g', pvh, hpre.request, hpre.execute,
    hpre.requestSigned, hpf.executed, hpf.pvhSome, hpf.pvhLength, hpf.requestPvh, hpf.fulfill, hpf.body,
    hpf.signed, hpre.requestId ▸ hpf.requestId, hpf.verified⟩

/-- Witness: one clear through the verifier, one through the verifier's signature. -/
example :
    (Ledger.execute Toy.env (.clear (Toy.clear Toy.request 2 Toy.prover Toy.owner)) Toy.s2).1 = .ok none ∧
    (Ledger.execute Toy.env (.clear (Toy.clear Toy.requestGroth16 2 Toy.prover Toy.owner)) Toy.s2).1
      = .ok none := by decide +kernel

/-! ## C15: false of the code -/

/-- C15 as stated is false: there is a successful clear whose settlement names another winner than the
prover that is paid, and whose fulfilment is signed by neither that prover's owner nor its delegated
signer. -/
theorem c15_false : ∃ (env : Env) (c : ClearTx) (s : Ledger) (bid : BidBody) (settle : SettleBody)
    (f : Signed FulfillBody) (fulfill : FulfillBody) (prover winner fulfiller : Address),
    (Ledger.execute env (.clear c) s).1 = .ok none ∧
    c.bid.body = some bid ∧ bid.prover = Address.bytes prover ∧
    c.settle.body = some settle ∧ settle.winner = Address.bytes winner ∧
    c.fulfill = some f ∧ f.body = some fulfill ∧
    SignedBy env (.fulfill fulfill) f.format f.signature fulfiller ∧
    s.bal prover < (Ledger.execute env (.clear c) s).2.bal prover ∧
    (Ledger.execute env (.clear c) s).2.bal winner = s.bal winner ∧
    winner ≠ prover ∧ fulfiller ≠ s.owner prover ∧ fulfiller ≠ s.signer prover := by
  refine ⟨Toy.env, Toy.clear Toy.request 2 Toy.bob Toy.carol, Toy.s2, _, _, _, _, Toy.prover, Toy.bob,
    Toy.carol, by decide +kernel, rfl, rfl, rfl, rfl, rfl, rfl, .inl ⟨rfl, by decide +kernel⟩,
    by decide +kernel, by decide +kernel, by decide +kernel, by decide +kernel, by decide +kernel⟩

/-- C15, the part that holds: the prover that is paid (the only account other than treasury and the
prover's owner whose balance can grow) is the one named in a bid for this very request signed by its
delegated signer, and the auctioneer named by the requester signed a settlement of this very request.
Missing: that the settlement's winner is this prover. -/
theorem c15_paid_prover_partial (env : Env) (c : ClearTx) (s s' : Ledger) (r : Option Receipt)
    (h : Ledger.execute env (.clear c) s = (.ok r, s')) (a : Address) (hgt : s.bal a < s'.bal a) :
    ∃ request bid settle requester prover auctioneer,
      c.request.body = some request ∧ c.bid.body = some bid ∧ c.settle.body = some settle ∧
      bid.prover = Address.bytes prover ∧
      SignedBy env (.request request) c.request.format c.request.signature requester ∧
      SignedBy env (.bid bid) c.bid.format c.bid.signature (s.signer prover) ∧
      bid.requestId = B256.bytes (identity env requester (.request request)) ∧
      request.auctioneer = Address.bytes auctioneer ∧
      SignedBy env (.settle settle) c.settle.format c.settle.signature auctioneer ∧
      settle.requestId = B256.bytes (identity env requester (.request request)) ∧
      (a = prover ∨ a = s.owner prover ∨ request.treasury = Address.bytes a) := by
  obtain ⟨request, bid, settle, execute, requester, prover, auct, exr, h1, h2, h3, h4, h5, h6, h7, h8,
    h9, h10, h11, h12, h13, h14, h15, h16⟩ := c13_signatures env c s s' _ h rfl
  refine ⟨request, bid, settle, requester, prover, auct, h1, h2, h3, h9, h5, h11, h6, h12, h13, h7, ?_⟩
  by_cases h3' : execute.executionStatus = 3
  · obtain ⟨request', requester', tr, str, p, g1, _, g3, _, _, _, hb, _⟩ :=
      c12_punished env c s s' r h execute h4 h3'
    have := hb a
    rw [h1] at g1; cases g1
    by_cases e : a = tr
    · exact .inr (.inr (e ▸ g3))
    · simp only [pay, if_neg e] at this; omega
  · obtain ⟨request', bid', execute', requester', prover', tr, base, price, pgus, sp, op, g1, g2, _, _,
      g5, g6, _, _, _, _, _, _, hb, _⟩ := c12_fulfilled env c s s' r h
        (fun e he h => by rw [h4] at he; cases he; exact h3' h)
    have := hb a
    rw [h1] at g1; cases g1
    rw [h2] at g2; cases g2
    rw [h9] at g5
    have hpp := Address.bytes_inj g5
    rw [← hpp] at this
    by_cases e : a = tr
    · exact .inr (.inr (e ▸ g6))
    · by_cases e1 : a = prover
      · exact .inl e1
      · by_cases e2 : a = s.owner prover
        · exact .inr (.inl e2)
        · simp only [pay, if_neg e, if_neg e1, if_neg e2] at this; omega

/-! ## C16 -/

/-- C16: the fee function succeeds exactly when both rates are at most 100 percent and the two products
fit in 256 bits, and then the parts are the floor of the protocol share, the floor of the staker share
at the rate capped to what the protocol rate leaves, and the rest; they sum to the amount. -/
theorem c16_fee (amount protocolBips stakerBips p st o : U256) :
    fee amount protocolBips stakerBips = .ok (p, st, o) ↔
      protocolBips.toNat ≤ 10000 ∧ stakerBips.toNat ≤ 10000 ∧
      amount.toNat * protocolBips.toNat < 2 ^ 256 ∧
      amount.toNat * min stakerBips.toNat (10000 - protocolBips.toNat) < 2 ^ 256 ∧
      p.toNat = amount.toNat * protocolBips.toNat / 10000 ∧
      st.toNat = amount.toNat * min stakerBips.toNat (10000 - protocolBips.toNat) / 10000 ∧
      amount.toNat = p.toNat + st.toNat + o.toNat :=
  fee_ok_iff amount protocolBips stakerBips p st o

/-- C16: it fails in no other case. -/
theorem c16_fee_total (amount protocolBips stakerBips : U256) (h1 : protocolBips.toNat ≤ 10000)
    (h2 : stakerBips.toNat ≤ 10000) (h3 : amount.toNat * 10000 < 2 ^ 256) :
    ∃ p st o, fee amount protocolBips stakerBips = .ok (p, st, o) ∧ p.toNat ≤ amount.toNat ∧
      st.toNat ≤ amount.toNat ∧ o.toNat ≤ amount.toNat := by
  have hle := fee_parts_le amount.toNat protocolBips.toNat stakerBips.toNat h1
  have hcap : cappedStakerBips protocolBips.toNat stakerBips.toNat ≤ 10000 := by
    unfold cappedStakerBips; omega
  have hm1 : amount.toNat * protocolBips.toNat ≤ amount.toNat * 10000 := Nat.mul_le_mul_left _ h1
  have hm2 : amount.toNat * cappedStakerBips protocolBips.toNat stakerBips.toNat ≤
      amount.toNat * 10000 := Nat.mul_le_mul_left _ hcap
  generalize hP : amount.toNat * protocolBips.toNat / 10000 = P at hle
  generalize hS : amount.toNat * cappedStakerBips protocolBips.toNat stakerBips.toNat / 10000 = S at hle
  have ha := amount.isLt
  have e1 : (BitVec.ofNat 256 P).toNat = P := u256_ofNat_toNat (by omega)
  have e2 : (BitVec.ofNat 256 S).toNat = S := u256_ofNat_toNat (by omega)
  have e3 : (BitVec.ofNat 256 (amount.toNat - P - S)).toNat = amount.toNat - P - S :=
    u256_ofNat_toNat (by omega)
  refine ⟨_, _, _, (fee_ok_iff amount protocolBips stakerBips (BitVec.ofNat 256 P)
    (BitVec.ofNat 256 S) (BitVec.ofNat 256 (amount.toNat - P - S))).mpr
    ⟨h1, h2, by omega, by omega, by rw [e1, hP], by rw [e2, hS], by omega⟩, by omega, by omega, by omega⟩

/-- Witness: 12345 at 10 percent protocol and 95 percent staker fee (capped to 90 percent). -/
example : fee 12345 1000 9500 = .ok (1234, 11110, 1) := by
  rw [c16_fee]; decide +kernel

/-! ## C17 -/

/-- C17: if the sum of all balances (plus the deposit, for a deposit) fits in 256 bits, an arithmetic
failure can only come from the message's own numbers, never from balances. -/
theorem c17_no_balance_overflow (env : Env) (tx : Tx) (s : Ledger) (hT : s.total < 2 ^ 256)
    (hd : ∀ d, tx = .deposit d → s.total + d.action.amount.toNat < 2 ^ 256)
    (h : (Ledger.execute env tx s).1 = .panic .arithmeticOverflow) : OwnNumbersOverflow env tx := by
  have key : Safe (OwnNumbersOverflow env tx) (execInner env tx) s (fun _ _ => True) := by
    cases tx with
    | deposit d => exact wp_mono (deposit_safe d s (hd d rfl)) (fun _ _ h => h) (fun _ _ h e => (h e).elim)
    | createProver c => exact wp_mono (createProver_safe c s) (fun _ _ h => h) (fun _ _ h e => (h e).elim)
    | delegate d => exact wp_mono (delegate_safe env d s hT) (fun _ _ h => h) (fun _ _ h e => (h e).elim)
    | transfer t => exact transfer_safe env t s hT
    | withdraw w => exact withdraw_safe env w s hT
    | clear c => exact clear_safe env c s hT
  have k2 := (wp_iff.mp key).2
  unfold Prog.runL at k2
  unfold Ledger.execute execute at h
  split at h
  · cases h
  · cases h
  · rename_i e s' heq
    cases h
    exact k2 _ _ heq rfl

/-- The hypothesis of C17 holds in every state reached from genesis while the deposits fit. -/
theorem c17_reachable (env : Env) (domain : B256) (txs : List Tx) (s' : Ledger) (rs : List Result)
    (h : Ledger.runAll env txs (Ledger.new domain) = some (rs, s'))
    (hd : (rs.map Result.inflow).sum < 2 ^ 256) : s'.total < 2 ^ 256 := by
  have := c01_genesis env domain txs s' rs h
  omega

/-- Witness: a transfer whose amount plus fee overflows does fail, on a state with total 1000. -/
example :
    (Ledger.execute Toy.env (.transfer
      { format := 1, signature := Address.bytes Toy.alice,
        body := some { nonce := 5, to := Address.bytes Toy.bob, amount := List.replicate 32 255,
                       domain := B256.bytes Toy.dom, variant := 6,
                       auctioneer := Address.bytes Toy.auctioneer, fee := [1] } }) Toy.s2).1
      = .panic .arithmeticOverflow ∧ Toy.s2.total < 2 ^ 256 := by decide +kernel

/-! ## C18 -/

/-- C18: after any history from the initial state, panicking executions included, every index under
which the ledger stores an account or a processed flag is below 2^160, the key width of the Merkle
trees, so a proof can be generated for it; in particular every stored account sits at the index of an
address. -/
theorem c18_indices (env : Env) (domain : B256) (txs : List Tx) :
    (∀ p ∈ (Ledger.after env txs (Ledger.new domain)).accounts.list,
      ∃ a : Address, p.1 = Address.index a) ∧
    (∀ p ∈ (Ledger.after env txs (Ledger.new domain)).transactions.list, p.1 < 2 ^ 160) := by
  have aux : ∀ (txs : List Tx) (s : Ledger), KeysOk s → KeysOk (Ledger.after env txs s) := by
    intro txs
    induction txs with
    | nil => exact fun s h => h
    | cons tx txs ih =>
      intro s h
      apply ih
      show KeysOk (Ledger.execute env tx s).2
      have := execInner_keysOk env tx s h
      rcases execute_state env tx s with ⟨h1, _⟩ | ⟨h1, _⟩
      · exact h1.symm ▸ this
      · exact h1.symm ▸ this
  have h0 : KeysOk (Ledger.new domain) :=
    ⟨fun p hp => absurd hp (List.not_mem_nil), fun p hp => absurd hp (List.not_mem_nil)⟩
  have h1 := aux txs _ h0
  refine ⟨fun p hp => ⟨BitVec.ofNat 160 p.1, ?_⟩, h1.2⟩
  rw [Address.index_eq, BitVec.toNat_ofNat, Nat.mod_eq_of_lt (h1.1 p hp)]

/-- Witness: a history that leaves several accounts and flags behind. -/
example : (Ledger.after Toy.env Toy.history Toy.s0).accounts.list.length = 6 ∧
    (Ledger.after Toy.env Toy.history Toy.s0).transactions.list.length = 4 := by decide +kernel

/-! ## C19 -/

/-- C19: which receipt an execution produces. -/
theorem c19_receipts (env : Env) (tx : Tx) (s s' : Ledger) (r : Result)
    (h : Ledger.execute env tx s = (r, s')) (hr : r.accepted = true) :
    match tx with
    | .deposit d => r = .ok (some (.deposit d.onchainTx .completed d.action)) ∧
        d.onchainTx = s.sc.onchainTxId
    | .createProver c => r = .ok (some (.createProver c.onchainTx .completed c.action)) ∧
        c.onchainTx = s.sc.onchainTxId
    | .withdraw w => (∃ v, r = .revert v) ∨ ∃ body account amount, w.body = some body ∧
        body.account = Address.bytes account ∧ env.parseU256 body.amount = some amount ∧
        r = .ok (some (.withdraw .completed ⟨account, amount⟩))
    | .delegate _ => (∃ v, r = .revert v) ∨ r = .ok none
    | .transfer _ => (∃ v, r = .revert v) ∨ r = .ok none
    | .clear _ => (∃ v, r = .revert v) ∨ r = .ok none := by
  obtain ⟨out, s1, hp, rfl, rfl⟩ := execute_accepted h hr
  cases tx with
  | deposit d => obtain ⟨hin, rfl, _⟩ := hp; exact ⟨rfl, hin.1⟩
  | createProver c => obtain ⟨hin, rfl, _⟩ := hp; exact ⟨rfl, hin.1⟩
  | delegate d =>
    obtain ⟨x, hpre, ⟨bal, rfl, _⟩ | ⟨rfl, _⟩⟩ := hp
    · exact .inl ⟨_, rfl⟩
    · exact .inr rfl
  | transfer d =>
    obtain ⟨x, hpre, ⟨req, bal, rfl, _⟩ | ⟨rfl, _⟩⟩ := hp
    · exact .inl ⟨_, rfl⟩
    · exact .inr rfl
  | withdraw d =>
    obtain ⟨x, hpre, ⟨a, req, bal, rfl, _⟩ | ⟨rfl, _⟩⟩ := hp
    · exact .inl ⟨_, rfl⟩
    · exact .inr ⟨x.body, x.account, x.amount, hpre.body, hpre.account, hpre.amount, rfl⟩
  | clear c =>
    obtain ⟨x, g, hpre, ⟨_, str, p, _, _, _, ⟨bal, rfl, _⟩ | ⟨tr, rfl, _⟩⟩ |
      ⟨_, pgus, cost, _, _, _, _, ⟨bal, rfl, _⟩ | ⟨tr, p, st, o, rfl, _⟩⟩⟩ := hp
    · exact .inl ⟨_, rfl⟩
    · exact .inr rfl
    · exact .inl ⟨_, rfl⟩
    · exact .inr rfl

/-- The on-chain id a receipt carries. -/
def Receipt.onchainId : Receipt → Option U64
  | .deposit id _ _ => some id
  | .createProver id _ _ => some id
  | .withdraw _ _ => none

/-- C19, histories: the receipts alone determine the on-chain cursor (the carried ids are consecutive
from the old cursor) and, with `c01_history`, the change of the total. -/
theorem c19_history (env : Env) (txs : List Tx) (s s' : Ledger) (rs : List Result)
    (h : Ledger.runAll env txs s = some (rs, s')) :
    let ids := (rs.filterMap Result.receipt).filterMap Receipt.onchainId
    (∀ (i : Nat) (id : U64), ids[i]? = some id → id = s.sc.onchainTxId + BitVec.ofNat 64 i) ∧
    s'.sc.onchainTxId = s.sc.onchainTxId + BitVec.ofNat 64 ids.length := by
  have key : ∀ (txs : List Tx) (s s' : Ledger) (rs : List Result),
      Ledger.runAll env txs s = some (rs, s') →
      (rs.filterMap Result.receipt).filterMap Receipt.onchainId =
        (txs.filterMap Tx.onchainPos).map (·.1) := by
    intro txs
    induction txs with
    | nil =>
      intro s s' rs h
      simp only [Ledger.runAll, Option.some.injEq, Prod.mk.injEq] at h
      rw [← h.1]; rfl
    | cons tx txs ih =>
      intro s s' rs h
      obtain ⟨r, s1, rs', h1, h2, h3, rfl⟩ := runAll_cons.mp h
      have hi := ih s1 s' rs' h3
      have hc := c19_receipts env tx s s1 r h1 h2
      cases tx with
      | deposit d =>
        rw [hc.1]
        simp only [List.filterMap_cons, Result.receipt, Receipt.onchainId, Tx.onchainPos, List.map_cons, hi]
      | createProver d =>
        rw [hc.1]
        simp only [List.filterMap_cons, Result.receipt, Receipt.onchainId, Tx.onchainPos, List.map_cons, hi]
      | delegate d =>
        rcases hc with ⟨v, rfl⟩ | rfl <;>
        simp only [List.filterMap_cons, Result.receipt, Tx.onchainPos, hi]
      | transfer d =>
        rcases hc with ⟨v, rfl⟩ | rfl <;>
        simp only [List.filterMap_cons, Result.receipt, Tx.onchainPos, hi]
      | withdraw d =>
        rcases hc with ⟨v, rfl⟩ | ⟨_, _, _, _, _, _, rfl⟩ <;>
        simp only [List.filterMap_cons, Result.receipt, Receipt.onchainId, Tx.onchainPos, hi]
      | clear d =>
        rcases hc with ⟨v, rfl⟩ | rfl <;>
        simp only [List.filterMap_cons, Result.receipt, Tx.onchainPos, hi]
  simp only
  rw [key txs s s' rs h]
  obtain ⟨h1, _, h3⟩ := c04_in_order env txs s s' rs h
  refine ⟨fun i id hi => ?_, by rw [List.length_map]; exact h3⟩
  rw [List.getElem?_map] at hi
  rcases hp : (txs.filterMap Tx.onchainPos)[i]? with _ | p
  · rw [hp] at hi; cases hi
  · rw [hp] at hi
    simp only [Option.map_some, Option.some.injEq] at hi
    rw [← hi]
    exact h1 i p hp

/-- Witness: the receipts of the toy history. -/
example : (Ledger.resultsOf Toy.env Toy.history Toy.s0).filterMap Result.receipt =
    [.deposit 1 .completed ⟨Toy.alice, 1000⟩, .createProver 2 .completed ⟨Toy.prover, Toy.owner, 2500⟩,
     .withdraw .completed ⟨Toy.alice, 30⟩] := by decide +kernel

end Verif
