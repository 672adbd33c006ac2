import Verif.PropsAdmit
import Verif.PropsLedger2
/-
# C82: an acceptable transaction stays acceptable until its own parties act

Nobody can spoil somebody else's pending transfer, withdrawal, delegation or clear: whatever other
transactions are executed first, it is accepted later with the same result, unless one of them was signed by
one of its parties, withdraws from, creates or re-delegates one of them, or takes its slot.
-/

namespace Verif

/-! ## Specification -/

/-- The accounts whose state decides whether a transaction is accepted: its signer, and the account withdrawn from,
the prover delegated, the prover paid. -/
def Tx.party (env : Env) (a : Address) : Tx → Prop
  | .deposit _ => False
  | .createProver _ => False
  | .delegate d => ∃ x, d.body = some x ∧
      (SignedBy env (.delegate x) d.format d.signature a ∨ x.prover = Address.bytes a)
  | .transfer d => ∃ x, d.body = some x ∧ SignedBy env (.transfer x) d.format d.signature a
  | .withdraw d => ∃ x, d.body = some x ∧
      (SignedBy env (.withdraw x) d.format d.signature a ∨ x.account = Address.bytes a)
  | .clear c => (∃ x, c.request.body = some x ∧ SignedBy env (.request x) c.request.format c.request.signature a) ∨
      (∃ b, c.bid.body = some b ∧ b.prover = Address.bytes a)

/-- A transaction acts on an account: it was signed by it (for a clear: it signed the request), withdraws from it,
makes it a prover or sets its delegated signer. Receiving a deposit, a transfer, a fee or the payment of a clear is
not acting on it. -/
def Tx.actsOn (env : Env) (a : Address) : Tx → Prop
  | .deposit _ => False
  | .createProver c => c.action.prover = a
  | .delegate d => ∃ x, d.body = some x ∧
      (SignedBy env (.delegate x) d.format d.signature a ∨ x.prover = Address.bytes a)
  | .transfer d => ∃ x, d.body = some x ∧ SignedBy env (.transfer x) d.format d.signature a
  | .withdraw d => ∃ x, d.body = some x ∧
      (SignedBy env (.withdraw x) d.format d.signature a ∨ x.account = Address.bytes a)
  | .clear c => ∃ x, c.request.body = some x ∧ SignedBy env (.request x) c.request.format c.request.signature a

/-- Two transactions have identities in different slots (the first 20 bytes of the hash of signer and message). -/
def SlotsDiffer (env : Env) (t u : Tx) : Prop :=
  ∀ i j, t.hasId env i → u.hasId env j → (B256.bytes i).take 20 ≠ (B256.bytes j).take 20

/-! ## Lemmas -/

/-- What a history keeps of an account it does not act on. -/
structure Kept (s s' : Ledger) (a : Address) : Prop where
  bal : s.bal a ≤ s'.bal a
  owner : s'.owner a = s.owner a
  signer : s'.signer a = s.signer a
  bips : s'.bips a = s.bips a
  present : (s.acct a).isSome → (s'.acct a).isSome

theorem present_closed (a : Address) : Closed fun s s' => (s.acct a).isSome → (s'.acct a).isSome where
  refl _ h := h
  trans h1 h2 h := h2 (h1 h)
  setAcct s b v h := by
    unfold Ledger.acct Ledger.setAcct at *
    dsimp only
    rw [SMap.get?_insert]
    split
    · rfl
    · exact h
  mark s id h := h
  touchTx s id h := by rw [Ledger.acct_touchTx]; exact h

theorem execute_present (env : Env) (tx : Tx) (s : Ledger) (a : Address) (h : (s.acct a).isSome) :
    ((Ledger.execute env tx s).2.acct a).isSome := by
  have hi : (((execInner env tx).runL s).2.acct a).isSome := by
    cases ho : tx.offchain with
    | true => exact always_offchain (present_closed a) env tx ho s h
    | false =>
      refine wp_onchain (present_closed a) env tx ho s (fun s' => (s'.acct a).isSome) h ?_
      intro c _ _ s' h'
      exact h' h
  rcases execute_state env tx s with ⟨h1, _⟩ | ⟨h1, _⟩ <;> rw [h1] <;> exact hi

theorem signedAs_actsOn {env : Env} {tx : Tx} {b : Body} {a : Address} (h : tx.signedAs env b a) : tx.actsOn env a := by
  cases tx with
  | deposit d => exact h
  | createProver c => exact (h : False).elim
  | delegate d => obtain ⟨x, h1, rfl, h2⟩ := h; exact ⟨x, h1, .inl h2⟩
  | transfer d => obtain ⟨x, h1, rfl, h2⟩ := h; exact ⟨x, h1, h2⟩
  | withdraw d => obtain ⟨x, h1, rfl, h2⟩ := h; exact ⟨x, h1, .inl h2⟩
  | clear c => obtain ⟨x, h1, rfl, h2⟩ := h; exact ⟨x, h1, h2⟩

theorem withdraw_receipt {env : Env} {tx : Tx} {s s' : Ledger} {a : Address} {n : U256}
    (h : Ledger.execute env tx s = (.ok (some (.withdraw .completed ⟨a, n⟩)), s')) : tx.actsOn env a := by
  obtain ⟨out, s1, hp, hr, _⟩ := execute_accepted h rfl
  cases out with
  | reverted v => cases hr
  | applied r =>
    cases hr
    cases tx with
    | deposit d => obtain ⟨_, e, _⟩ := hp; cases e
    | createProver c => obtain ⟨_, e, _⟩ := hp; cases e
    | delegate d => obtain ⟨x, _, ⟨_, e, _⟩ | ⟨e, _⟩⟩ := hp <;> cases e
    | transfer d => obtain ⟨x, _, ⟨_, _, e, _⟩ | ⟨e, _⟩⟩ := hp <;> cases e
    | withdraw d =>
      obtain ⟨x, hx, ⟨_, _, _, e, _⟩ | ⟨e, _⟩⟩ := hp
      · cases e
      · injection e with e
        injection e with e
        injection e with _ e
        injection e with e1 _
        exact ⟨x.body, hx.body, .inr (by rw [e1]; exact hx.account)⟩
    | clear c =>
      obtain ⟨x, g, _, ⟨_, str, p, _, _, _, ⟨_, e, _⟩ | ⟨_, e, _⟩⟩ |
        ⟨_, _, _, _, _, _, _, ⟨_, e, _⟩ | ⟨_, _, _, _, e, _⟩⟩⟩ := hp <;> cases e

theorem kept_step {env : Env} {tx : Tx} {s s' : Ledger} {r : Result} {a : Address}
    (h : Ledger.execute env tx s = (r, s')) (hr : r.accepted = true) (hn : ¬ tx.actsOn env a) : Kept s s' a := by
  have hroles : s'.owner a = s.owner a ∧ s'.signer a = s.signer a ∧ s'.bips a = s.bips a := by
    by_cases hne : s'.owner a = s.owner a ∧ s'.signer a = s.signer a ∧ s'.bips a = s.bips a
    · exact hne
    · rcases c09_roles_frame env tx s s' r a h hr hne with ⟨c, rfl, e, _⟩ | ⟨d, body, dl, rfl, e1, e2, _⟩
      · exact absurd e hn
      · exact absurd ⟨body, e1, .inr e2⟩ hn
  refine ⟨?_, hroles.1, hroles.2.1, hroles.2.2, fun hp => ?_⟩
  · refine Nat.le_of_not_lt fun hlt => ?_
    rcases c10_authorised env tx s s' r a h hr hlt with ⟨b, hb⟩ | ⟨_, n, rfl⟩
    · exact hn (signedAs_actsOn hb)
    · exact hn (withdraw_receipt h)
  · have := execute_present env tx s a hp
    rw [h] at this
    exact this

theorem Kept.refl (s : Ledger) (a : Address) : Kept s s a := ⟨Nat.le_refl _, rfl, rfl, rfl, id⟩

theorem Kept.trans {s s1 s2 : Ledger} {a : Address} (h : Kept s s1 a) (h' : Kept s1 s2 a) : Kept s s2 a :=
  ⟨Nat.le_trans h.bal h'.bal, h'.owner.trans h.owner, h'.signer.trans h.signer, h'.bips.trans h.bips,
    fun hp => h'.present (h.present hp)⟩

/-- A history keeps accounts it does not act on, slots it does not use, and the domain. -/
theorem kept_history {env : Env} {txs : List Tx} {s s' : Ledger} {rs : List Result}
    (h : Ledger.runAll env txs s = some (rs, s')) :
    s'.sc.domain = s.sc.domain ∧ (∀ a, (∀ u ∈ txs, ¬ u.actsOn env a) → Kept s s' a) ∧
    (∀ i, (∀ u ∈ txs, ∀ j, u.hasId env j → (B256.bytes i).take 20 ≠ (B256.bytes j).take 20) → s'.done i = s.done i) := by
  induction txs generalizing s rs with
  | nil =>
    simp only [Ledger.runAll, Option.some.injEq, Prod.mk.injEq] at h
    rw [← h.2]
    exact ⟨rfl, fun a _ => Kept.refl _ a, fun _ _ => rfl⟩
  | cons tx txs ih =>
    obtain ⟨r, s1, rs', h1, h2, h3, _⟩ := runAll_cons.mp h
    obtain ⟨i1, i2, i3⟩ := ih h3
    refine ⟨?_, fun a ha => ?_, fun i hi => ?_⟩
    · rw [i1]
      have hm := (execInner_mono env tx s).1
      rcases execute_state env tx s with ⟨e, _⟩ | ⟨e, _⟩ <;> rw [h1] at e <;> rw [show s1 = _ from e] <;> exact hm
    · exact (kept_step h1 h2 (ha tx List.mem_cons_self)).trans (i2 a fun u hu => ha u (List.mem_cons_of_mem _ hu))
    · rw [i3 i fun u hu => hi u (List.mem_cons_of_mem _ hu)]
      obtain ⟨out, s2, hp, _, rfl⟩ := execute_accepted h1 h2
      rw [bump_done]
      cases ho : tx.offchain with
      | true =>
        obtain ⟨id, hid, _, ht⟩ := post_id hp ho
        unfold Ledger.done
        rw [ht, SMap.get?_insert, if_neg]
        intro e
        exact hi tx List.mem_cons_self id hid (beNat_inj (by simp [B256.bytes_length]) e)
      | false =>
        cases tx with
        | deposit d => obtain ⟨_, _, _, rfl⟩ := hp; rfl
        | createProver c => obtain ⟨_, _, rfl⟩ := hp; rfl
        | _ => cases ho

theorem GoodTransfer.kept {env : Env} {t : Signed TransferBody} {s s' : Ledger} {body : TransferBody}
    {signer to : Address} {amount fee : U256} (h : GoodTransfer env t s body signer to amount fee)
    (hd : s'.sc.domain = s.sc.domain)
    (hf : s'.done (identity env signer (.transfer body)) = s.done (identity env signer (.transfer body))) :
    GoodTransfer env t s' body signer to amount fee :=
  { h with domain := hd.symm ▸ h.domain, fresh := hf.trans h.fresh }

theorem GoodWithdraw.kept {env : Env} {t : Signed WithdrawBody} {s s' : Ledger} {body : WithdrawBody}
    {signer account : Address} {amount fee : U256} (h : GoodWithdraw env t s body signer account amount fee)
    (hd : s'.sc.domain = s.sc.domain) (ha : Kept s s' account)
    (hf : s'.done (identity env signer (.withdraw body)) = s.done (identity env signer (.withdraw body))) :
    GoodWithdraw env t s' body signer account amount fee :=
  { h with domain := hd.symm ▸ h.domain, fresh := hf.trans h.fresh, authorised := ha.owner.symm ▸ h.authorised }

theorem GoodDelegate.kept {env : Env} {t : Signed DelegateBody} {s s' : Ledger} {body : DelegateBody}
    {prover : Address} {fee : U256} (h : GoodDelegate env t s body prover fee)
    (hd : s'.sc.domain = s.sc.domain) (ha : Kept s s' prover)
    (hf : s'.done (identity env (s.owner prover) (.delegate body)) =
      s.done (identity env (s.owner prover) (.delegate body))) :
    GoodDelegate env t s' body prover fee :=
  { h with
    domain := hd.symm ▸ h.domain
    present := ha.present h.present
    signed := ha.owner.symm ▸ h.signed
    fresh := by rw [ha.owner]; exact hf.trans h.fresh }

theorem GoodClear.kept {env : Env} {c : ClearTx} {s s' : Ledger} {request : RequestBody} {bid : BidBody}
    {settle : SettleBody} {execute : ExecuteBody} {requester prover : Address} {id : B256}
    {baseFee maxPrice price : U256}
    (h : GoodClear env c s request bid settle execute requester prover id baseFee maxPrice price)
    (hd : s'.sc.domain = s.sc.domain) (ha : Kept s s' prover) (hf : s'.done id = s.done id) :
    GoodClear env c s' request bid settle execute requester prover id baseFee maxPrice price :=
  { h with
    domains := hd.symm ▸ h.domains
    present := ha.present h.present
    bidSigned := ha.signer.symm ▸ h.bidSigned
    fresh := hf.trans h.fresh }

theorem GoodFulfil.kept {env : Env} {c : ClearTx} {s s' : Ledger} {request : RequestBody}
    {execute : ExecuteBody} {id : B256} (h : GoodFulfil env c s request execute id)
    (hd : s'.sc.domain = s.sc.domain) : GoodFulfil env c s' request execute id :=
  { h with evidence := hd.symm ▸ h.evidence }

/-- The receipt of an accepted off-chain transaction depends on its messages only. -/
theorem receipt_fun {env : Env} {t : Tx} {s s' : Ledger} {r r' : Option Receipt} (ho : t.offchain = true)
    (h : (Ledger.execute env t s).1 = .ok r) (h' : (Ledger.execute env t s').1 = .ok r') : r' = r := by
  obtain ⟨s1, hp⟩ := (execute_results env t s).1 r h
  obtain ⟨s1', hp'⟩ := (execute_results env t s').1 r' h'
  cases t with
  | deposit d => cases ho
  | createProver c => cases ho
  | delegate d =>
    obtain ⟨x, _, ⟨_, e, _⟩ | ⟨e, _⟩⟩ := hp
    · cases e
    obtain ⟨x', _, ⟨_, e', _⟩ | ⟨e', _⟩⟩ := hp'
    · cases e'
    cases e; cases e'; rfl
  | transfer d =>
    obtain ⟨x, _, ⟨_, _, e, _⟩ | ⟨e, _⟩⟩ := hp
    · cases e
    obtain ⟨x', _, ⟨_, _, e', _⟩ | ⟨e', _⟩⟩ := hp'
    · cases e'
    cases e; cases e'; rfl
  | withdraw d =>
    obtain ⟨x, hx, ⟨_, _, _, e, _⟩ | ⟨e, _⟩⟩ := hp
    · cases e
    obtain ⟨x', hx', ⟨_, _, _, e', _⟩ | ⟨e', _⟩⟩ := hp'
    · cases e'
    have hb : x'.body = x.body := Option.some.inj (hx'.body.symm.trans hx.body)
    have e1 : x'.account = x.account := Address.bytes_inj ((hb ▸ hx'.account).symm.trans hx.account)
    have e2 : x'.amount = x.amount := Option.some.inj ((hb ▸ hx'.amount).symm.trans hx.amount)
    injection e with e
    injection e' with e'
    rw [e, e', e1, e2]
  | clear c =>
    have hn : ∀ {s s1 : Ledger} {r}, TxPost env s (.applied r) s1 (.clear c) → r = none := by
      intro s s1 r hp
      obtain ⟨x, g, _, ⟨_, str, p, _, _, _, ⟨_, e, _⟩ | ⟨_, e, _⟩⟩ |
        ⟨_, _, _, _, _, _, _, ⟨_, e, _⟩ | ⟨_, _, _, _, e, _⟩⟩⟩ := hp <;> cases e <;> rfl
    rw [hn hp, hn hp']

/-! ## C82 -/

/-- C82: a transfer, withdrawal, delegation or clear that would be accepted now is accepted, with the same
receipt, after any history of accepted transactions none of which acts on one of its parties or uses its slot.
(The sums of all balances fit in 256 bits, which `c17_reachable` shows for every history whose deposits do.) -/
theorem c82_stays_acceptable (env : Env) (t : Tx) (s s' : Ledger) (r : Option Receipt) (txs : List Tx)
    (rs : List Result) (ho : t.offchain = true) (ht : (Ledger.execute env t s).1 = .ok r)
    (h : Ledger.runAll env txs s = some (rs, s'))
    (hparty : ∀ u ∈ txs, ∀ a, t.party env a → ¬ u.actsOn env a)
    (hslot : ∀ u ∈ txs, SlotsDiffer env t u)
    (hT : s.total < 2 ^ 256) (hT' : s'.total < 2 ^ 256) :
    (Ledger.execute env t s').1 = .ok r := by
  obtain ⟨hd, hk, hf⟩ := kept_history h
  have hk' : ∀ a, t.party env a → Kept s s' a := fun a ha => hk a fun u hu => hparty u hu a ha
  have hf' : ∀ i, t.hasId env i → s'.done i = s.done i := fun i hi => hf i fun u hu j hj => hslot u hu i j hi hj
  suffices ∃ r', (Ledger.execute env t s').1 = .ok r' by
    obtain ⟨r', hr'⟩ := this
    rw [hr', receipt_fun ho ht hr']
  cases t with
  | deposit d => cases ho
  | createProver c => cases ho
  | transfer d =>
    obtain ⟨body, signer, to, amount, fee, hg, hle⟩ := (c56_transfer env d s hT).mp ⟨r, ht⟩
    have k := hk' signer ⟨body, hg.hasBody, hg.signed⟩
    exact (c56_transfer env d s' hT').mpr ⟨body, signer, to, amount, fee,
      hg.kept hd (hf' _ ⟨.transfer body, signer, ⟨body, hg.hasBody, rfl, hg.signed⟩, rfl⟩), Nat.le_trans hle k.bal⟩
  | withdraw d =>
    obtain ⟨body, signer, account, amount, fee, hg, hc⟩ := (c56_withdraw env d s hT).mp ⟨r, ht⟩
    have k := hk' signer ⟨body, hg.hasBody, .inl hg.signed⟩
    have k' := hk' account ⟨body, hg.hasBody, .inr hg.hasAccount⟩
    refine (c56_withdraw env d s' hT').mpr ⟨body, signer, account, amount, fee,
      hg.kept hd k' (hf' _ ⟨.withdraw body, signer, ⟨body, hg.hasBody, rfl, hg.signed⟩, rfl⟩), ?_⟩
    unfold WithdrawCovered at hc ⊢
    split
    · rename_i he
      rw [if_pos he] at hc
      exact Nat.le_trans hc k'.bal
    · rename_i hne
      rw [if_neg hne] at hc
      exact ⟨Nat.le_trans hc.1 k'.bal, Nat.le_trans hc.2 k.bal⟩
  | delegate d =>
    obtain ⟨body, prover, fee, hg, ha, hle⟩ := (c56_delegate env d s hT).mp ⟨r, ht⟩
    have k := hk' (s.owner prover) ⟨body, hg.hasBody, .inl hg.signed⟩
    have k' := hk' prover ⟨body, hg.hasBody, .inr hg.hasProver⟩
    exact (c56_delegate env d s' hT').mpr ⟨body, prover, fee,
      hg.kept hd k' (hf' _ ⟨.delegate body, _, ⟨body, hg.hasBody, rfl, hg.signed⟩, rfl⟩), ha,
      by rw [k'.owner]; exact Nat.le_trans hle k.bal⟩
  | clear c =>
    obtain ⟨request, requester, htr, ⟨prover, cost, ⟨bid, settle, execute, id, base, max, price, pgus, hg, hful,
      hpgus, hlim, hsome, hcost, hlt⟩, hle, hb, hm⟩ | ⟨p, ⟨bid, settle, execute, prover, id, base, max, price,
      str, p', hg, h3, hstr, hpar, hp, hmax, hlt⟩, hle⟩⟩ := (c56_clear env c s hT).mp ⟨r, ht⟩
    · have k := hk' requester (.inl ⟨request, hg.hasRequest, hg.requestSigned⟩)
      have k' := hk' prover (.inr ⟨bid, hg.hasBid, hg.hasProver⟩)
      exact (c56_clear env c s' hT').mpr ⟨request, requester, htr, .inl ⟨prover, cost, ⟨bid, settle, execute, id,
        base, max, price, pgus, hg.kept hd k' (hf' _ ⟨.request request, requester, ⟨request, hg.hasRequest, rfl, hg.requestSigned⟩, hg.hasId⟩),
        hful.kept hd, hpgus, hlim, k.present hsome, hcost, hlt⟩, Nat.le_trans hle k.bal,
        by rw [k'.bips]; exact hb, by rw [k'.bips]; exact hm⟩⟩
    · have k := hk' requester (.inl ⟨request, hg.hasRequest, hg.requestSigned⟩)
      have k' := hk' prover (.inr ⟨bid, hg.hasBid, hg.hasProver⟩)
      exact (c56_clear env c s' hT').mpr ⟨request, requester, htr, .inr ⟨p, ⟨bid, settle, execute, prover, id,
        base, max, price, str, p',
        hg.kept hd k' (hf' _ ⟨.request request, requester, ⟨request, hg.hasRequest, rfl, hg.requestSigned⟩, hg.hasId⟩),
        h3, hstr, hpar, hp, hmax, hlt⟩, Nat.le_trans hle k.bal⟩⟩


/-! ## Effects of successful off-chain transactions -/

/-- Update one record (absent ones read as the default record). -/
def Ledger.upd (s : Ledger) (a : Address) (g : Account → Account) : Ledger := s.setAcct a (g (s.acctD a))

/-- A move as an update modulo 2^256. -/
def Mv.gain (m : Mv) (v : Account) : Account :=
  match m with
  | .credit _ n => { v with balance := v.balance + n }
  | .debit _ n => { v with balance := v.balance - n }

def Mv.addr : Mv → Address
  | .credit a _ => a
  | .debit a _ => a

theorem Mv.app_upd (m : Mv) (s : Ledger) (h : m.ok s) : m.app s = s.upd m.addr m.gain := by
  cases m with
  | credit a n =>
    simp only [Mv.app, Ledger.credit, Ledger.upd, Mv.addr, Mv.gain]
    have e : BitVec.ofNat 256 (s.bal a + n.toNat) = (s.acctD a).balance + n := by
      apply BitVec.eq_of_toNat_eq
      simp [Ledger.bal]
    rw [e]
  | debit a n =>
    simp only [Mv.app, Ledger.debit, Ledger.upd, Mv.addr, Mv.gain]
    simp only [Mv.ok] at h
    have hb := s.bal_lt a
    have e : BitVec.ofNat 256 (s.bal a - n.toNat) = (s.acctD a).balance - n := by
      apply BitVec.eq_of_toNat_eq
      rw [BitVec.toNat_ofNat, BitVec.toNat_sub_of_le (BitVec.le_def.mpr h), Nat.mod_eq_of_lt (by omega)]
      rfl
    rw [e]

/-- A list of record updates. -/
def upds : List (Address × (Account → Account)) → Ledger → Ledger
  | [], s => s
  | (a, g) :: us, s => upds us (s.upd a g)

theorem moves_upds (ms : List Mv) (s : Ledger) (h : MovesOk ms s) :
    moves ms s = upds (ms.map fun m => (m.addr, m.gain)) s := by
  induction ms generalizing s with
  | nil => rfl
  | cons m ms ih =>
    simp only [moves, List.map_cons, upds]
    rw [ih _ h.2, m.app_upd s h.1]

/-- Two updates can be swapped. -/
def Swap (u w : Address × (Account → Account)) : Prop := u.1 ≠ w.1 ∨ ∀ v, u.2 (w.2 v) = w.2 (u.2 v)

/-- Swapping two updates of a map. -/
theorem insert_swap {V : Type} (m : SMap V) (i j : Nat) (g k : V → V) (d : V)
    (h : i = j → ∀ v, g (k v) = k (g v)) :
    (m.insert i (g ((m.get? i).getD d))).insert j (k (((m.insert i (g ((m.get? i).getD d))).get? j).getD d)) =
      (m.insert j (k ((m.get? j).getD d))).insert i (g (((m.insert j (k ((m.get? j).getD d))).get? i).getD d)) := by
  refine SMap.ext fun x => ?_
  by_cases e : i = j
  · rw [e] at h ⊢
    simp only [SMap.get?_insert, if_true, Option.getD_some]
    split
    · rw [h rfl]
    · rfl
  · have e' : ¬ j = i := fun h => e h.symm
    simp only [SMap.get?_insert, if_neg e, if_neg e']
    by_cases h1 : x = i <;> by_cases h2 : x = j
    · exact absurd (h1.symm.trans h2) e
    · rw [if_neg h2, if_pos h1, if_pos h1]
    · rw [if_pos h2, if_neg h1, if_pos h2]
    · rw [if_neg h2, if_neg h1, if_neg h1, if_neg h2]

theorem Ledger.eq_of {s s' : Ledger} (h1 : s.accounts = s'.accounts) (h2 : s.transactions = s'.transactions)
    (h3 : s.sc = s'.sc) : s = s' := by
  cases s; cases s'; dsimp only at h1 h2 h3; rw [h1, h2, h3]

theorem upd_accounts (s : Ledger) (a : Address) (g : Account → Account) : (s.upd a g).accounts =
    s.accounts.insert a.index (g ((s.accounts.get? a.index).getD {})) := rfl
theorem upd_transactions (s : Ledger) (a : Address) (g : Account → Account) :
    (s.upd a g).transactions = s.transactions := rfl
theorem upd_sc (s : Ledger) (a : Address) (g : Account → Account) : (s.upd a g).sc = s.sc := rfl

theorem upd_swap (s : Ledger) (u w : Address × (Account → Account)) (h : Swap u w) :
    (s.upd u.1 u.2).upd w.1 w.2 = (s.upd w.1 w.2).upd u.1 u.2 := by
  refine Ledger.eq_of ?_ (by rw [upd_transactions, upd_transactions, upd_transactions, upd_transactions])
    (by rw [upd_sc, upd_sc, upd_sc, upd_sc])
  rw [upd_accounts, upd_accounts, upd_accounts, upd_accounts]
  refine insert_swap s.accounts u.1.index w.1.index u.2 w.2 {} fun e => ?_
  rcases h with h | h
  · refine absurd (BitVec.eq_of_toNat_eq ?_) h
    rw [← Address.index_eq, ← Address.index_eq, e]
  · exact h

theorem upds_upd (us : List (Address × (Account → Account))) (w : Address × (Account → Account)) (s : Ledger)
    (h : ∀ u ∈ us, Swap w u) : upds us (s.upd w.1 w.2) = (upds us s).upd w.1 w.2 := by
  induction us generalizing s with
  | nil => rfl
  | cons u us ih =>
    obtain ⟨a, g⟩ := u
    simp only [upds]
    rw [← ih _ fun u hu => h u (List.mem_cons_of_mem _ hu), upd_swap s w (a, g) (h _ List.mem_cons_self)]

theorem upds_swap (us ws : List (Address × (Account → Account))) (s : Ledger)
    (h : ∀ u ∈ us, ∀ w ∈ ws, Swap u w) : upds ws (upds us s) = upds us (upds ws s) := by
  induction us generalizing s with
  | nil => rfl
  | cons u us ih =>
    simp only [upds]
    rw [ih _ fun u hu => h u (List.mem_cons_of_mem _ hu), upds_upd ws u s fun w hw => h u List.mem_cons_self w hw]

theorem upds_mark (us : List (Address × (Account → Account))) (s : Ledger) (i : B256) (b : Bool) :
    upds us (s.mark i b) = (upds us s).mark i b := by
  induction us generalizing s with
  | nil => rfl
  | cons u us ih => obtain ⟨a, g⟩ := u; exact ih (s.upd a g)

theorem upds_setSc (us : List (Address × (Account → Account))) (s : Ledger) (c : Scalars) :
    upds us (s.setSc c) = (upds us s).setSc c := by
  induction us generalizing s with
  | nil => rfl
  | cons u us ih => obtain ⟨a, g⟩ := u; exact ih (s.upd a g)

theorem upds_sc (us : List (Address × (Account → Account))) (s : Ledger) : (upds us s).sc = s.sc := by
  induction us generalizing s with
  | nil => rfl
  | cons u us ih => obtain ⟨a, g⟩ := u; exact ih (s.upd a g)

theorem upds_bump (us : List (Address × (Account → Account))) (s : Ledger) : upds us s.bump = (upds us s).bump := by
  unfold Ledger.bump
  rw [upds_setSc, upds_sc]

theorem mark_accounts (s : Ledger) (i : B256) (b : Bool) : (s.mark i b).accounts = s.accounts := rfl
theorem mark_transactions (s : Ledger) (i : B256) (b : Bool) :
    (s.mark i b).transactions = s.transactions.insert i.index b := rfl
theorem mark_sc (s : Ledger) (i : B256) (b : Bool) : (s.mark i b).sc = s.sc := rfl

theorem mark_swap (s : Ledger) (i j : B256) : (s.mark i true).mark j true = (s.mark j true).mark i true := by
  refine Ledger.eq_of (by rw [mark_accounts, mark_accounts, mark_accounts, mark_accounts]) ?_
    (by rw [mark_sc, mark_sc, mark_sc, mark_sc])
  refine SMap.ext fun k => ?_
  rw [mark_transactions, mark_transactions, mark_transactions, mark_transactions]
  rw [SMap.get?_insert, SMap.get?_insert, SMap.get?_insert, SMap.get?_insert]
  split <;> split <;> rfl

/-- The effect of a successful off-chain transaction: balance moves, then possibly a new delegated signer. -/
structure Eff where
  ms : List Mv
  del : Option (Address × Address)
  id : B256

def Eff.upds (e : Eff) : List (Address × (Account → Account)) :=
  (e.ms.map fun m => (m.addr, m.gain)) ++ (e.del.map fun p => (p.1, Account.setSigner p.2)).toList

def Eff.app (e : Eff) (s : Ledger) : Ledger := (Verif.upds e.upds (s.mark e.id true)).bump

theorem Eff.swap (e f : Eff) (s : Ledger) (h : ∀ u ∈ e.upds, ∀ w ∈ f.upds, Swap u w) :
    f.app (e.app s) = e.app (f.app s) := by
  unfold Eff.app
  have hb : ∀ (x : Ledger) i, x.bump.mark i true = (x.mark i true).bump := fun _ _ => rfl
  rw [hb, hb, upds_bump, upds_bump, ← upds_mark, ← upds_mark, upds_swap _ _ _ h, mark_swap]

theorem Eff.swap_of_del (e f : Eff) (h : ∀ p d q d', e.del = some (p, d) → f.del = some (q, d') → p ≠ q) :
    ∀ u ∈ e.upds, ∀ w ∈ f.upds, Swap u w := by
  have hmm : ∀ (m m' : Mv) v, m.gain (m'.gain v) = m'.gain (m.gain v) := by
    intro m m' v
    cases m <;> cases m' <;> simp only [Mv.gain] <;> congr 1 <;> bv_omega
  have hms : ∀ (m : Mv) d v, m.gain (Account.setSigner d v) = Account.setSigner d (m.gain v) := by
    intro m d v
    cases m <;> rfl
  intro u hu w hw
  unfold Eff.upds at hu hw
  rw [List.mem_append, List.mem_map, Option.mem_toList, Option.map_eq_some_iff] at hu hw
  rcases hu with ⟨m, _, rfl⟩ | ⟨⟨p, d⟩, hp, rfl⟩ <;> rcases hw with ⟨m', _, rfl⟩ | ⟨⟨q, d'⟩, hq, rfl⟩
  · exact .inr (hmm m m')
  · exact .inr fun v => hms m d' v
  · exact .inr fun v => (hms m' d v).symm
  · exact .inl (h p d q d' hp hq)

/-- A successful off-chain transaction has the same effect wherever the roles of its parties are the same. -/
theorem same_effect {env : Env} {t : Tx} {s s' s1 s1' : Ledger} {r r' : Option Receipt} (ho : t.offchain = true)
    (h : Ledger.execute env t s = (.ok r, s1)) (h' : Ledger.execute env t s' = (.ok r', s1'))
    (hroles : ∀ a, t.party env a → s'.owner a = s.owner a ∧ s'.bips a = s.bips a) :
    ∃ e : Eff, s1 = e.app s ∧ s1' = e.app s' ∧
      MovesOk e.ms (s.mark e.id true) ∧ MovesOk e.ms (s'.mark e.id true) ∧
      (∀ p d, e.del = some (p, d) → t.party env p ∧ t.actsOn env p) ∧ t.hasId env e.id := by
  obtain ⟨out, s2, hp, hr, rfl⟩ := execute_accepted h rfl
  obtain ⟨out', s2', hp', hr', rfl⟩ := execute_accepted h' rfl
  cases out with
  | reverted v => cases hr
  | applied q =>
  cases out' with
  | reverted v => cases hr'
  | applied q' =>
  have mk : ∀ (e : Eff) (x : Ledger), e.del = none → MovesOk e.ms (x.mark e.id true) →
      (moves e.ms (x.mark e.id true)).bump = e.app x := by
    intro e x hd hm
    unfold Eff.app Eff.upds
    rw [moves_upds _ _ hm, hd, Option.map_none, Option.toList_none, List.append_nil]
  cases t with
  | deposit d => cases ho
  | createProver c => cases ho
  | delegate d =>
    obtain ⟨x, hx, ⟨_, e, _⟩ | ⟨_, _, hm, dl, v, hdl, hv, hs⟩⟩ := hp
    · cases e
    obtain ⟨x', hx', ⟨_, e', _⟩ | ⟨_, _, hm', dl', v', hdl', hv', hs'⟩⟩ := hp'
    · cases e'
    obtain ⟨e1, e2, e3⟩ := delegate_unique hx hx
    have hb : x'.body = x.body := Option.some.inj (hx'.body.symm.trans hx.body)
    have hsg : x'.signer = x.signer := signedBy_unique (hb ▸ hx'.signed) hx.signed
    have hf : x'.fee = x.fee := Option.some.inj ((hb ▸ hx'.fee).symm.trans hx.fee)
    have ha : x'.auctioneer = x.auctioneer := Address.bytes_inj ((hb ▸ hx'.auctioneer).symm.trans hx.auctioneer)
    have hpv : x'.prover = x.prover := Address.bytes_inj ((hb ▸ hx'.prover).symm.trans hx.prover)
    have hdd : dl' = dl := Address.bytes_inj ((hb ▸ hdl').symm.trans hdl)
    have hms : x'.moves = x.moves := by unfold DelegateData.moves; rw [hsg, hf, ha]
    rw [hms, hsg, hb] at hm' hs' hv'
    rw [hpv] at hs' hv'
    rw [hdd] at hs'
    have mk' : ∀ (y : Ledger) (v : Account),
        MovesOk x.moves (y.mark (identity env x.signer (.delegate x.body)) true) →
        (moves x.moves (y.mark (identity env x.signer (.delegate x.body)) true)).acct x.prover = some v →
        ((moves x.moves (y.mark (identity env x.signer (.delegate x.body)) true)).setAcct x.prover
          (Account.setSigner dl v)).bump =
        Eff.app ⟨x.moves, some (x.prover, dl), identity env x.signer (.delegate x.body)⟩ y := by
      intro y v hm hv
      have hv' : v = (moves x.moves (y.mark (identity env x.signer (.delegate x.body)) true)).acctD x.prover := by
        unfold Ledger.acctD; rw [hv]; rfl
      rw [hv']
      have happ : ∀ (us ws : List (Address × (Account → Account))) (z : Ledger), upds (us ++ ws) z = upds ws (upds us z) := by
        intro us
        induction us with
        | nil => intro ws z; rfl
        | cons u us ih => intro ws z; exact ih ws _
      unfold Eff.app Eff.upds
      dsimp only
      rw [happ, ← moves_upds _ _ hm]
      rfl
    refine ⟨⟨x.moves, some (x.prover, dl), identity env x.signer (.delegate x.body)⟩, ?_, ?_, hm, hm', ?_,
      ⟨_, x.signer, ⟨x.body, hx.body, rfl, hx.signed⟩, rfl⟩⟩
    · rw [hs]; exact mk' s v hm hv
    · rw [hs']; exact mk' s' v' hm' hv'
    · intro p d' hpd
      have := congrArg (fun o => o.map Prod.fst) hpd
      simp only [Option.map_some, Option.some.injEq] at this
      rw [← this]
      exact ⟨⟨x.body, hx.body, .inr hx.prover⟩, ⟨x.body, hx.body, .inr hx.prover⟩⟩
  | transfer d =>
    obtain ⟨x, hx, ⟨_, _, e, _⟩ | ⟨_, _, hm, hs⟩⟩ := hp
    · cases e
    obtain ⟨x', hx', ⟨_, _, e', _⟩ | ⟨_, _, hm', hs'⟩⟩ := hp'
    · cases e'
    have hb : x'.body = x.body := Option.some.inj (hx'.body.symm.trans hx.body)
    have hsg : x'.signer = x.signer := signedBy_unique (hb ▸ hx'.signed) hx.signed
    have hf : x'.fee = x.fee := Option.some.inj ((hb ▸ hx'.fee).symm.trans hx.fee)
    have hn : x'.amount = x.amount := Option.some.inj ((hb ▸ hx'.amount).symm.trans hx.amount)
    have ha : x'.auctioneer = x.auctioneer := Address.bytes_inj ((hb ▸ hx'.auctioneer).symm.trans hx.auctioneer)
    have hto : x'.to = x.to := Address.bytes_inj ((hb ▸ hx'.to).symm.trans hx.to)
    have hms : x'.moves = x.moves := by unfold TransferData.moves; rw [hsg, hf, ha, hn, hto]
    rw [hms, hsg, hb] at hm' hs'
    refine ⟨⟨x.moves, none, identity env x.signer (.transfer x.body)⟩, ?_, ?_, hm, hm', (by intro p d' e; cases e),
      ⟨_, x.signer, ⟨x.body, hx.body, rfl, hx.signed⟩, rfl⟩⟩
    · rw [hs, ← mk _ _ rfl hm]
    · rw [hs', ← mk _ _ rfl hm']
  | withdraw d =>
    obtain ⟨x, hx, ⟨_, _, _, e, _⟩ | ⟨_, _, _, _, hm, hs⟩⟩ := hp
    · cases e
    obtain ⟨x', hx', ⟨_, _, _, e', _⟩ | ⟨_, _, _, _, hm', hs'⟩⟩ := hp'
    · cases e'
    have hb : x'.body = x.body := Option.some.inj (hx'.body.symm.trans hx.body)
    have hsg : x'.signer = x.signer := signedBy_unique (hb ▸ hx'.signed) hx.signed
    have hf : x'.fee = x.fee := Option.some.inj ((hb ▸ hx'.fee).symm.trans hx.fee)
    have hn : x'.amount = x.amount := Option.some.inj ((hb ▸ hx'.amount).symm.trans hx.amount)
    have ha : x'.auctioneer = x.auctioneer := Address.bytes_inj ((hb ▸ hx'.auctioneer).symm.trans hx.auctioneer)
    have hto : x'.account = x.account := Address.bytes_inj ((hb ▸ hx'.account).symm.trans hx.account)
    have hms : x'.moves = x.moves := by unfold WithdrawData.moves; rw [hsg, hf, ha, hn, hto]
    rw [hms, hsg, hb] at hm' hs'
    refine ⟨⟨x.moves, none, identity env x.signer (.withdraw x.body)⟩, ?_, ?_, hm, hm', (by intro p d' e; cases e),
      ⟨_, x.signer, ⟨x.body, hx.body, rfl, hx.signed⟩, rfl⟩⟩
    · rw [hs, ← mk _ _ rfl hm]
    · rw [hs', ← mk _ _ rfl hm']
  | clear c =>
    obtain ⟨x, g, hx, hc⟩ := hp
    obtain ⟨x', g', hx', hc'⟩ := hp'
    have hrq : x'.request = x.request := Option.some.inj (hx'.request.symm.trans hx.request)
    have hbd : x'.bid = x.bid := Option.some.inj (hx'.bid.symm.trans hx.bid)
    have hex : x'.execute = x.execute := Option.some.inj (hx'.execute.symm.trans hx.execute)
    have hsg : x'.requestSigner = x.requestSigner := signedBy_unique (hrq ▸ hx'.requestSigned) hx.requestSigned
    have hpv : x'.proverAddress = x.proverAddress := Address.bytes_inj ((hbd ▸ hx'.prover).symm.trans hx.prover)
    have hbf : x'.baseFee = x.baseFee := Option.some.inj ((hrq ▸ hx'.baseFee).symm.trans hx.baseFee)
    have hpr : x'.price = x.price := Option.some.inj ((hbd ▸ hx'.price).symm.trans hx.price)
    have hid : x'.requestId = x.requestId := by rw [hx'.requestId, hx.requestId, hsg, hrq]
    have hro := hroles x.proverAddress (.inr ⟨x.bid, hx.bid, hx.prover⟩)
    have how : x'.proverOwner = x.proverOwner := by rw [hx'.owner, hx.owner, hpv]; exact hro.1
    have hhas : (Tx.clear c).hasId env x.requestId :=
      ⟨_, x.requestSigner, ⟨x.request, hx.request, rfl, hx.requestSigned⟩, hx.requestId⟩
    rcases hc with ⟨h3, str, p, hstr, hpar, _, ⟨_, e, _⟩ | ⟨tr, _, _, htr, hm, hs⟩⟩ |
      ⟨⟨f, b, g2, pv, hpf⟩, pgus, cost, hpgus, hcost, _, _, ⟨_, e, _⟩ | ⟨tr, p, st, o, _, _, htr, hfee, hm, hs⟩⟩
    · cases e
    · rcases hc' with ⟨h3', str', p', hstr', hpar', _, ⟨_, e, _⟩ | ⟨tr', _, _, htr', hm', hs'⟩⟩ |
        ⟨⟨f, b, g2, pv, hpf⟩, _⟩
      · cases e
      · have es : str' = str := Option.some.inj ((hex ▸ hstr').symm.trans hstr)
        have ep : p' = p := Option.some.inj ((es ▸ hpar').symm.trans hpar)
        have et : tr' = tr := Address.bytes_inj ((hrq ▸ htr').symm.trans htr)
        have hms : punishMoves x' p' tr' = punishMoves x p tr := by unfold punishMoves; rw [hsg, ep, et]
        rw [hms, hid] at hm' hs'
        refine ⟨⟨punishMoves x p tr, none, x.requestId⟩, ?_, ?_, hm, hm', (by intro p d' e; cases e), hhas⟩
        · rw [hs, ← mk _ _ rfl hm]
        · rw [hs', ← mk _ _ rfl hm']
      · exact absurd (hpf.executed.symm.trans (hex ▸ h3)) (by decide)
    · cases e
    · rcases hc' with ⟨h3', _⟩ |
        ⟨_, pgus', cost', hpgus', hcost', _, _, ⟨_, e, _⟩ | ⟨tr', p', st', o', _, _, htr', hfee', hm', hs'⟩⟩
      · exact absurd (hpf.executed.symm.trans (hex ▸ h3')) (by decide)
      · cases e
      · have eg : pgus' = pgus := Option.some.inj ((hex ▸ hpgus').symm.trans hpgus)
        have ec : cost' = cost := BitVec.eq_of_toNat_eq (by rw [hcost', hcost, hpr, eg, hbf])
        have et : tr' = tr := Address.bytes_inj ((hrq ▸ htr').symm.trans htr)
        rw [ec, hpv, hro.2, hfee] at hfee'
        injection hfee' with hfee'
        injection hfee' with e1 e2
        injection e2 with e2 e3
        have hms : payMoves x' cost' tr' p' st' o' = payMoves x cost tr p st o := by
          unfold payMoves; rw [hsg, ec, et, hpv, how, e1, e2, e3]
        rw [hms, hid] at hm' hs'
        refine ⟨⟨payMoves x cost tr p st o, none, x.requestId⟩, ?_, ?_, hm, hm', (by intro p d' e; cases e), hhas⟩
        · rw [hs, ← mk _ _ rfl hm]
        · rw [hs', ← mk _ _ rfl hm']

theorem upds_append (us ws : List (Address × (Account → Account))) (z : Ledger) :
    upds (us ++ ws) z = upds ws (upds us z) := by
  induction us generalizing z with
  | nil => rfl
  | cons u us ih => obtain ⟨a, g⟩ := u; exact ih (z.upd a g)

theorem Eff.bal (e : Eff) (s : Ledger) (h : MovesOk e.ms (s.mark e.id true)) (a : Address) :
    (e.app s).bal a + (e.ms.map (Mv.db a)).sum = s.bal a + (e.ms.map (Mv.cr a)).sum := by
  have hm := bal_moves e.ms _ h a
  have hb : (e.app s).bal a = (moves e.ms (s.mark e.id true)).bal a := by
    unfold Eff.app Eff.upds
    rw [bump_bal, upds_append, ← moves_upds _ _ h]
    cases e.del with
    | none => rfl
    | some p =>
      simp only [Option.map_some, Option.toList_some, Verif.upds, Ledger.upd]
      rw [Ledger.bal_setAcct]
      split
      · rename_i ha; rw [ha]; rfl
      · rfl
  rw [hb]
  exact hm

theorem Eff.signer (e : Eff) (s : Ledger) (h : MovesOk e.ms (s.mark e.id true)) (a : Address) :
    (e.app s).signer a = match e.del with
      | none => s.signer a
      | some p => if a = p.1 then p.2 else s.signer a := by
  have hm := (moves_frame e.ms (s.mark e.id true)).2.1
  unfold Eff.app Eff.upds
  rw [bump_signer, upds_append, ← moves_upds _ _ h]
  cases e.del with
  | none => exact hm a
  | some p =>
    simp only [Option.map_some, Option.toList_some, Verif.upds, Ledger.upd]
    rw [Ledger.signer_setAcct]
    split
    · rfl
    · exact hm a

/-- C82, effect: when it is executed later it also has the same effect: every balance changes by the same amount,
and every delegated signer either stays in both cases or gets the same new value in both. -/
theorem c82_same_effect (env : Env) (t : Tx) (s s' s1 s1' : Ledger) (r : Option Receipt) (txs : List Tx)
    (rs : List Result) (ho : t.offchain = true) (ht : Ledger.execute env t s = (.ok r, s1))
    (h : Ledger.runAll env txs s = some (rs, s'))
    (hparty : ∀ u ∈ txs, ∀ a, t.party env a → ¬ u.actsOn env a)
    (ht' : Ledger.execute env t s' = (.ok r, s1')) :
    (∀ a, s1'.bal a + s.bal a = s'.bal a + s1.bal a) ∧
    (∀ a, (s1.signer a = s.signer a ∧ s1'.signer a = s'.signer a) ∨ s1.signer a = s1'.signer a) := by
  obtain ⟨_, hk, _⟩ := kept_history h
  obtain ⟨e, e1, e2, m1, m2, _⟩ := same_effect ho ht ht' fun a ha =>
    ⟨(hk a fun u hu => hparty u hu a ha).owner, (hk a fun u hu => hparty u hu a ha).bips⟩
  rw [e1, e2]
  refine ⟨fun a => ?_, fun a => ?_⟩
  · have h1 := e.bal s m1 a
    have h2 := e.bal s' m2 a
    omega
  · rw [e.signer s m1, e.signer s' m2]
    cases e.del with
    | none => exact .inl ⟨rfl, rfl⟩
    | some p =>
      dsimp only
      split
      · exact .inr rfl
      · exact .inl ⟨rfl, rfl⟩

/-! ## C83: independent transactions can be sequenced in any order -/

/-- Neither transaction acts on a party of the other, and they use different slots. -/
def Independent (env : Env) (t u : Tx) : Prop :=
  (∀ a, t.party env a → ¬ u.actsOn env a) ∧ (∀ a, u.party env a → ¬ t.actsOn env a) ∧ SlotsDiffer env t u

theorem Independent.symm {env : Env} {t u : Tx} (h : Independent env t u) : Independent env u t :=
  ⟨h.2.1, h.1, fun i j hi hj e => h.2.2 j i hj hi e.symm⟩

theorem offchain_total {env : Env} {t : Tx} {s s1 : Ledger} {r : Option Receipt} (ho : t.offchain = true)
    (h : Ledger.execute env t s = (.ok r, s1)) : s1.total ≤ s.total := by
  have hc := c01_step env t s s1 _ h rfl
  have hi : (Result.ok r).inflow = 0 := by
    obtain ⟨s2, hp⟩ := (execute_results env t s).1 r (by rw [h])
    cases t with
    | deposit d => cases ho
    | createProver c => cases ho
    | delegate d =>
      obtain ⟨x, _, ⟨_, e, _⟩ | ⟨e, _⟩⟩ := hp <;> cases e <;> rfl
    | transfer d => obtain ⟨x, _, ⟨_, _, e, _⟩ | ⟨e, _⟩⟩ := hp <;> cases e <;> rfl
    | withdraw d => obtain ⟨x, _, ⟨_, _, _, e, _⟩ | ⟨e, _⟩⟩ := hp <;> cases e <;> rfl
    | clear c =>
      obtain ⟨x, g, _, ⟨_, str, p, _, _, _, ⟨_, e, _⟩ | ⟨_, e, _⟩⟩ |
        ⟨_, _, _, _, _, _, _, ⟨_, e, _⟩ | ⟨_, _, _, _, e, _⟩⟩⟩ := hp <;> cases e <;> rfl
  omega

theorem runAll_one {env : Env} {t : Tx} {s s1 : Ledger} {r : Option Receipt}
    (h : Ledger.execute env t s = (.ok r, s1)) : Ledger.runAll env [t] s = some ([.ok r], s1) :=
  runAll_cons.mpr ⟨_, s1, [], h, rfl, rfl, rfl⟩

/-- An independent transaction keeps its result after another one. -/
theorem independent_next {env : Env} {t u : Tx} {s s1 : Ledger} {r q : Option Receipt} (hu : u.offchain = true)
    (ho : t.offchain = true) (hT : s.total < 2 ^ 256) (hi : Independent env t u)
    (ht : Ledger.execute env t s = (.ok r, s1)) (hq : (Ledger.execute env u s).1 = .ok q) :
    (Ledger.execute env u s1).1 = .ok q := by
  refine c82_stays_acceptable env u s s1 q [t] _ hu hq (runAll_one ht) ?_ ?_ hT
    (Nat.lt_of_le_of_lt (offchain_total ho ht) hT)
  · intro v hv
    cases List.mem_singleton.mp hv
    exact hi.2.1
  · intro v hv
    cases List.mem_singleton.mp hv
    exact hi.symm.2.2

/-- Two independent transactions commute. -/
theorem independent_swap {env : Env} {t u : Tx} {s st su : Ledger} {r q : Option Receipt} (ht : t.offchain = true)
    (hu : u.offchain = true) (hT : s.total < 2 ^ 256) (hi : Independent env t u)
    (h1 : Ledger.execute env t s = (.ok r, st)) (h2 : Ledger.execute env u s = (.ok q, su)) :
    ∃ s', Ledger.execute env u st = (.ok q, s') ∧ Ledger.execute env t su = (.ok r, s') := by
  have h3 := independent_next hu ht hT hi h1 (by rw [h2])
  have h4 := independent_next ht hu hT hi.symm h2 (by rw [h1])
  rcases h5 : Ledger.execute env u st with ⟨q', x⟩
  rcases h6 : Ledger.execute env t su with ⟨r', y⟩
  rw [h5] at h3
  rw [h6] at h4
  cases h3
  cases h4
  obtain ⟨_, k1, _⟩ := kept_history (runAll_one h1)
  obtain ⟨_, k2, _⟩ := kept_history (runAll_one h2)
  have hr1 : ∀ a, u.party env a → Kept s st a := fun a ha => k1 a fun v hv => by
    cases List.mem_singleton.mp hv; exact hi.2.1 a ha
  have hr2 : ∀ a, t.party env a → Kept s su a := fun a ha => k2 a fun v hv => by
    cases List.mem_singleton.mp hv; exact hi.1 a ha
  obtain ⟨e, e1, e2, _, _, e3, _⟩ := same_effect ht h1 h6 fun a ha => ⟨(hr2 a ha).owner, (hr2 a ha).bips⟩
  obtain ⟨f, f1, f2, _, _, f3, _⟩ := same_effect hu h2 h5 fun a ha => ⟨(hr1 a ha).owner, (hr1 a ha).bips⟩
  have : x = y := by
    rw [f2, e1, e2, f1]
    refine e.swap f s (e.swap_of_del f ?_)
    intro p d p' d' hp hp' hpp
    refine hi.1 p (e3 p d hp).1 ?_
    rw [hpp]
    exact (f3 p' d' hp').2
  rw [this]
  exact ⟨y, rfl, rfl⟩

/-- C83: transactions that are each acceptable now and pairwise independent are all accepted, with the results they
have now, in whatever order they are sequenced, and the final ledger (hence its state root) is the same. -/
theorem c83_any_order (env : Env) (txs txs' : List Tx) (s : Ledger) (hp : txs.Perm txs')
    (ho : ∀ t ∈ txs, t.offchain = true) (hT : s.total < 2 ^ 256)
    (hok : ∀ t ∈ txs, ∃ r, (Ledger.execute env t s).1 = .ok r) (hi : txs.Pairwise (Independent env)) :
    ∃ s', Ledger.runAll env txs s = some (txs.map fun t => (Ledger.execute env t s).1, s') ∧
      Ledger.runAll env txs' s = some (txs'.map fun t => (Ledger.execute env t s).1, s') := by
  -- running one of them keeps the others acceptable with the same results
  have next : ∀ (t : Tx) (l : List Tx) (s : Ledger), s.total < 2 ^ 256 → t.offchain = true →
      (∀ u ∈ l, u.offchain = true) → (∃ r, (Ledger.execute env t s).1 = .ok r) →
      (∀ u ∈ l, ∃ r, (Ledger.execute env u s).1 = .ok r) → (∀ u ∈ l, Independent env t u) →
      (Ledger.execute env t s).2.total < 2 ^ 256 ∧
      (∀ u ∈ l, (Ledger.execute env u (Ledger.execute env t s).2).1 = (Ledger.execute env u s).1) := by
    intro t l s hT ht hl ⟨r, hr⟩ hok hi
    have h1 : Ledger.execute env t s = (.ok r, (Ledger.execute env t s).2) := by rw [← hr]
    refine ⟨Nat.lt_of_le_of_lt (offchain_total ht h1) hT, fun u hu => ?_⟩
    obtain ⟨q, hq⟩ := hok u hu
    rw [hq]
    exact independent_next (hl u hu) ht hT (hi u hu) h1 hq
  -- prepending one
  have push : ∀ (t : Tx) (l : List Tx) (s s' : Ledger), s.total < 2 ^ 256 → t.offchain = true →
      (∀ u ∈ l, u.offchain = true) → (∃ r, (Ledger.execute env t s).1 = .ok r) →
      (∀ u ∈ l, ∃ r, (Ledger.execute env u s).1 = .ok r) → (∀ u ∈ l, Independent env t u) →
      Ledger.runAll env l (Ledger.execute env t s).2 =
        some (l.map fun u => (Ledger.execute env u (Ledger.execute env t s).2).1, s') →
      Ledger.runAll env (t :: l) s = some ((t :: l).map fun u => (Ledger.execute env u s).1, s') := by
    intro t l s s' hT ht hl hr hok hi hrun
    have hn := (next t l s hT ht hl hr hok hi).2
    rw [List.map_congr_left hn] at hrun
    obtain ⟨r, hr⟩ := hr
    exact runAll_cons.mpr ⟨(Ledger.execute env t s).1, (Ledger.execute env t s).2, _, rfl, by rw [hr]; rfl, hrun, rfl⟩
  -- any list runs
  have run : ∀ (l : List Tx) (s : Ledger), s.total < 2 ^ 256 → (∀ u ∈ l, u.offchain = true) →
      (∀ u ∈ l, ∃ r, (Ledger.execute env u s).1 = .ok r) → l.Pairwise (Independent env) →
      ∃ s', Ledger.runAll env l s = some (l.map fun u => (Ledger.execute env u s).1, s') := by
    intro l
    induction l with
    | nil => intro s _ _ _ _; exact ⟨s, rfl⟩
    | cons t l ih =>
      intro s hT hl hok hi
      have ht := hl t List.mem_cons_self
      have hl' : ∀ u ∈ l, u.offchain = true := fun u hu => hl u (List.mem_cons_of_mem _ hu)
      have hr := hok t List.mem_cons_self
      have hok' : ∀ u ∈ l, ∃ r, (Ledger.execute env u s).1 = .ok r := fun u hu => hok u (List.mem_cons_of_mem _ hu)
      have hi' := List.pairwise_cons.mp hi
      obtain ⟨n1, n2⟩ := next t l s hT ht hl' hr hok' hi'.1
      obtain ⟨s', hs'⟩ := ih _ n1 hl' (fun u hu => by rw [n2 u hu]; exact hok' u hu) hi'.2
      exact ⟨s', push t l s s' hT ht hl' hr hok' hi'.1 hs'⟩
  -- permutations
  suffices ∀ s, s.total < 2 ^ 256 → (∀ u ∈ txs, u.offchain = true) →
      (∀ u ∈ txs, ∃ r, (Ledger.execute env u s).1 = .ok r) → txs.Pairwise (Independent env) →
      ∀ s', Ledger.runAll env txs s = some (txs.map fun u => (Ledger.execute env u s).1, s') →
        Ledger.runAll env txs' s = some (txs'.map fun u => (Ledger.execute env u s).1, s') by
    obtain ⟨s', hs'⟩ := run txs s hT ho hok hi
    exact ⟨s', hs', this s hT ho hok hi s' hs'⟩
  clear hT ho hok hi s
  induction hp with
  | nil => intro s _ _ _ _ s' h; exact h
  | @cons t l l' hp ih =>
    intro s hT hl hok hi s' h
    have ht := hl t List.mem_cons_self
    have hl' : ∀ u ∈ l, u.offchain = true := fun u hu => hl u (List.mem_cons_of_mem _ hu)
    have hr := hok t List.mem_cons_self
    have hok' : ∀ u ∈ l, ∃ r, (Ledger.execute env u s).1 = .ok r := fun u hu => hok u (List.mem_cons_of_mem _ hu)
    have hi' := List.pairwise_cons.mp hi
    obtain ⟨n1, n2⟩ := next t l s hT ht hl' hr hok' hi'.1
    obtain ⟨r, s1, rs, h1, h2, h3, h4⟩ := runAll_cons.mp h
    have e1 : (Ledger.execute env t s).2 = s1 := by rw [h1]
    have e2 : rs = l.map fun u => (Ledger.execute env u s).1 := (List.cons.inj h4).2.symm
    rw [← e1, e2, ← List.map_congr_left n2] at h3
    have := ih _ n1 hl' (fun u hu => by rw [n2 u hu]; exact hok' u hu) hi'.2 s' h3
    exact push t l' s s' hT ht (fun u hu => hl' u (hp.mem_iff.mpr hu)) hr (fun u hu => hok' u (hp.mem_iff.mpr hu))
      (fun u hu => hi'.1 u (hp.mem_iff.mpr hu)) this
  | swap t u l =>
    intro s hT hl hok hi s' h
    -- `u :: t :: l` to `t :: u :: l`
    have hu := hl u List.mem_cons_self
    have ht := hl t (List.mem_cons_of_mem _ List.mem_cons_self)
    obtain ⟨q, hq⟩ := hok u List.mem_cons_self
    obtain ⟨r, hr⟩ := hok t (List.mem_cons_of_mem _ List.mem_cons_self)
    have hi' := List.pairwise_cons.mp hi
    have hind := hi'.1 t List.mem_cons_self
    have hxu : Ledger.execute env u s = (.ok q, (Ledger.execute env u s).2) := by rw [← hq]
    have hxt : Ledger.execute env t s = (.ok r, (Ledger.execute env t s).2) := by rw [← hr]
    obtain ⟨z, hz1, hz2⟩ := independent_swap hu ht hT hind hxu hxt
    obtain ⟨a, sa, ra, a1, a2, a3, a4⟩ := runAll_cons.mp h
    obtain ⟨b, sb, rb, b1, b2, b3, b4⟩ := runAll_cons.mp a3
    have esa : sa = (Ledger.execute env u s).2 := by rw [a1]
    rw [esa, hz1] at b1
    have eb := Prod.mk.inj b1
    have e4 := (List.cons.inj a4).2
    rw [b4] at e4
    have e5 := (List.cons.inj e4).2
    rw [← eb.2, ← e5] at b3
    refine runAll_cons.mpr ⟨.ok r, (Ledger.execute env t s).2, _, hxt, rfl,
      runAll_cons.mpr ⟨.ok q, z, _, hz2, rfl, b3, rfl⟩, ?_⟩
    rw [List.map_cons, List.map_cons, hr, hq]
  | @trans l1 l2 l3 p1 p2 ih1 ih2 =>
    intro s hT hl hok hi s' h
    exact ih2 s hT (fun u hu => hl u (p1.mem_iff.mpr hu)) (fun u hu => hok u (p1.mem_iff.mpr hu))
      (p1.pairwise hi Independent.symm) s' (ih1 s hT hl hok hi s' h)

/-! ## Witnesses -/

namespace PendingToy

/-- Alice holds 1000, Bob 500, and there is a prover. -/
def s3 : Ledger := (Ledger.execute Toy.env (.deposit ⟨11, 0, 3, ⟨Toy.bob, 500⟩⟩) Toy.s2).2

/-- Alice's request, fulfilled by the prover, and Bob's withdrawal. -/
def aliceClear : Tx := .clear (Toy.clear Toy.request 2 Toy.prover Toy.prover)
def bobWithdraw : Tx := Toy.withdraw Toy.bob Toy.bob 30 2

theorem recover_toy (m sig : Bytes) : Toy.env.recover m sig = Address.ofBytes? sig := rfl

theorem signed_toy {b : Body} {x a : Address} (h : SignedBy Toy.env b 1 (Address.bytes x) a) : a = x := by
  rcases h with ⟨_, h⟩ | ⟨h, _⟩
  · rw [recover_toy, Address.ofBytes?_bytes] at h
    exact (Option.some.inj h).symm
  · exact absurd h (by decide)

theorem party_alice {a : Address} (h : aliceClear.party Toy.env a) : a = Toy.alice ∨ a = Toy.prover := by
  rcases h with ⟨x, hx, h⟩ | ⟨b, hb, h⟩
  · exact .inl (signed_toy h)
  · rw [← Option.some.inj hb] at h
    exact .inr (Address.bytes_inj h).symm

theorem party_bob {a : Address} (h : bobWithdraw.party Toy.env a) : a = Toy.bob := by
  obtain ⟨x, hx, h | h⟩ := h
  · exact signed_toy h
  · rw [← Option.some.inj hx] at h
    exact (Address.bytes_inj h).symm

theorem acts_alice {a : Address} (h : aliceClear.actsOn Toy.env a) : a = Toy.alice := by
  obtain ⟨x, hx, h⟩ := h
  exact signed_toy h

theorem id_alice {i : B256} (h : aliceClear.hasId Toy.env i) :
    i = identity Toy.env Toy.alice (.request Toy.request) := by
  obtain ⟨_, a, ⟨x, hx, rfl, h⟩, rfl⟩ := h
  rw [signed_toy h, ← Option.some.inj hx]

theorem id_bob {i : B256} (h : bobWithdraw.hasId Toy.env i) : i = identity Toy.env Toy.bob (.withdraw
    { nonce := 6, account := Address.bytes Toy.bob, amount := Toy.num 30, domain := B256.bytes Toy.dom, variant := 7,
      auctioneer := Address.bytes Toy.auctioneer, fee := Toy.num 2 }) := by
  obtain ⟨_, a, ⟨x, hx, rfl, h⟩, rfl⟩ := h
  rw [signed_toy h, ← Option.some.inj hx]

/-- Witness: the two are independent. -/
theorem independent : Independent Toy.env aliceClear bobWithdraw := by
  refine ⟨fun a h h' => ?_, fun a h h' => ?_, fun i j hi hj => ?_⟩
  · have hb := party_bob h'
    rcases party_alice h with h | h <;> rw [hb] at h <;> exact absurd h (by decide +kernel)
  · have h1 := party_bob h
    rw [acts_alice h'] at h1
    exact absurd h1 (by decide +kernel)
  · rw [id_alice hi, id_bob hj]
    decide +kernel

/-- Witness: both are acceptable and stay so in either order; Alice pays 110, Bob 32. -/
example : s3.total < 2 ^ 256 ∧ (∀ t ∈ [aliceClear, bobWithdraw], t.offchain = true) ∧
    (∀ t ∈ [aliceClear, bobWithdraw], ∃ r, (Ledger.execute Toy.env t s3).1 = .ok r) ∧
    [aliceClear, bobWithdraw].Pairwise (Independent Toy.env) ∧ [aliceClear, bobWithdraw].Perm [bobWithdraw, aliceClear] ∧
    (∃ rs s', Ledger.runAll Toy.env [bobWithdraw, aliceClear] s3 = some (rs, s') ∧ s'.bal Toy.alice = 890 ∧
      s'.bal Toy.bob = 468) := by
  refine ⟨by decide +kernel, by decide +kernel, ?_, ?_, .swap _ _ _, ?_⟩
  · intro t ht
    rcases List.mem_cons.mp ht with rfl | ht
    · exact ⟨none, by decide +kernel⟩
    · cases List.mem_singleton.mp ht
      exact ⟨some (.withdraw .completed ⟨Toy.bob, 30⟩), by decide +kernel⟩
  · exact List.pairwise_cons.mpr ⟨fun t ht => by cases List.mem_singleton.mp ht; exact independent,
      List.pairwise_singleton _ _⟩
  · have h : (Ledger.runAll Toy.env [bobWithdraw, aliceClear] s3).map (fun p => (p.2.bal Toy.alice, p.2.bal Toy.bob)) =
        some (890, 468) := by decide +kernel
    rcases hr : Ledger.runAll Toy.env [bobWithdraw, aliceClear] s3 with _ | ⟨rs, s'⟩
    · rw [hr] at h; cases h
    · rw [hr] at h
      have := Option.some.inj h
      exact ⟨rs, s', rfl, (Prod.mk.inj this).1, (Prod.mk.inj this).2⟩

/-- Without independence it fails: after Alice has spent 950 of her 1000, her clear is a revert. -/
example : (Ledger.execute Toy.env aliceClear s3).1 = .ok none ∧
    (Ledger.execute Toy.env aliceClear (Ledger.execute Toy.env (Toy.transfer Toy.bob 950 0) s3).2).1 =
      .revert (.insufficientClearBalance Toy.alice 110 50) := by
  constructor <;> decide +kernel

end PendingToy

end Verif
