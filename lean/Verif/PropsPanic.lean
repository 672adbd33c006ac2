import Verif.PropsLedger2
import Verif.InversionClear
/-
# Property C104: what a rejected transaction leaves behind

`execute` does not undo what a transaction has done before it panics ("unrecoverable (halts block production)",
`crates/vapp/src/state.rs:158-159`). Here is what can be left.
-/

namespace Verif
open Prog

/-! ## Specification -/

/-- Who may be debited: the signer, for a withdrawal also the account it names, for a clear the signer of the request. -/
def Tx.payer (env : Env) (a : Address) : Tx → Prop
  | .deposit _ => False
  | .createProver _ => False
  | .delegate d => ∃ x, d.body = some x ∧ SignedBy env (.delegate x) d.format d.signature a
  | .transfer d => ∃ x, d.body = some x ∧ SignedBy env (.transfer x) d.format d.signature a
  | .withdraw d => ∃ x, d.body = some x ∧
      (SignedBy env (.withdraw x) d.format d.signature a ∨ x.account = Address.bytes a)
  | .clear c => ∃ x, c.request.body = some x ∧ SignedBy env (.request x) c.request.format c.request.signature a

/-- A delegation whose delegate is not an address, or a clear whose treasury is not an address or whose prover has a
staker fee above 100 percent. -/
def Tx.misnamed (s : Ledger) : Tx → Prop
  | .delegate d => ∃ x, d.body = some x ∧ x.delegate.length ≠ 20
  | .clear c => (∃ x, c.request.body = some x ∧ x.treasury.length ≠ 20) ∨
      ∃ b p, c.bid.body = some b ∧ b.prover = Address.bytes p ∧ 10000 < (s.bips p).toNat
  | _ => False

/-! ## Lemmas -/

/-- Two ledgers that differ at most in default records that have been written down. -/
structure SameAs (t t' : Ledger) : Prop where
  acct : ∀ a, t'.acctD a = t.acctD a
  total : t'.total = t.total
  sc : t'.sc = t.sc
  done : ∀ id, t'.done id = t.done id

theorem SameAs.rfl' {t : Ledger} : SameAs t t := ⟨fun _ => rfl, rfl, rfl, fun _ => rfl⟩

theorem SameAs.touch (t : Ledger) (a : Address) : SameAs t (t.touch a) := by
  unfold Ledger.touch
  split
  · exact SameAs.rfl'
  · rename_i h
    refine ⟨fun b => ?_, ?_, rfl, fun _ => rfl⟩
    · rw [Ledger.acctD_setAcct]
      split
      · rename_i e; subst e; simp [Ledger.acctD, h]
      · rfl
    · have := t.total_setAcct a {}
      have hb : t.bal a = 0 := by simp [Ledger.bal, Ledger.acctD, h]
      rw [hb] at this
      simpa using this

/-- The state at the time of the first balance update. -/
def Start (env : Env) (tx : Tx) (s s1 : Ledger) : Prop :=
  s1 = s ∨ (∃ id, s1 = s.touchTx id) ∨ ∃ id, tx.hasId env id ∧ s1 = s.mark id true

theorem Start.accounts {env : Env} {tx : Tx} {s s1 : Ledger} (h : Start env tx s s1) : s1.accounts = s.accounts := by
  rcases h with rfl | ⟨id, rfl⟩ | ⟨id, _, rfl⟩ <;> simp

theorem Start.sc {env : Env} {tx : Tx} {s s1 : Ledger} (h : Start env tx s s1) : s1.sc = s.sc := by
  rcases h with rfl | ⟨id, rfl⟩ | ⟨id, _, rfl⟩ <;> simp

theorem Start.acctD {env : Env} {tx : Tx} {s s1 : Ledger} (h : Start env tx s s1) (a : Address) :
    s1.acctD a = s.acctD a := by
  unfold Ledger.acctD Ledger.acct; rw [h.accounts]

theorem Start.bal {env : Env} {tx : Tx} {s s1 : Ledger} (h : Start env tx s s1) (a : Address) : s1.bal a = s.bal a := by
  unfold Ledger.bal; rw [h.acctD]

theorem Start.total {env : Env} {tx : Tx} {s s1 : Ledger} (h : Start env tx s s1) : s1.total = s.total := by
  unfold Ledger.total; rw [h.accounts]

theorem Start.done {env : Env} {tx : Tx} {s s1 : Ledger} (h : Start env tx s s1) (id : B256) (hd : s1.done id = true) :
    s.done id = true ∨ ∃ id', tx.hasId env id' ∧ B256.index id = B256.index id' := by
  rcases h with rfl | ⟨i, rfl⟩ | ⟨i, hi, rfl⟩
  · exact .inl hd
  · rw [Ledger.done_touchTx] at hd; exact .inl hd
  · rw [Ledger.done_mark] at hd
    split at hd
    · rename_i e; exact .inr ⟨i, hi, e⟩
    · exact .inl hd

theorem Start.done_keep {env : Env} {tx : Tx} {s s1 : Ledger} (h : Start env tx s s1) (id : B256) (hd : s.done id = true) :
    s1.done id = true := by
  rcases h with rfl | ⟨i, rfl⟩ | ⟨i, hi, rfl⟩
  · exact hd
  · rw [Ledger.done_touchTx]; exact hd
  · rw [Ledger.done_mark]
    split
    · rfl
    · exact hd

/-- What an off-chain transaction that panics leaves. -/
def Left (env : Env) (tx : Tx) (s s' : Ledger) : Prop :=
  ∃ s1 ms, Start env tx s s1 ∧ MovesOk ms s1 ∧ (ms.map Mv.crT).sum ≤ (ms.map Mv.dbT).sum ∧
    (∀ a n, Mv.debit a n ∈ ms → tx.payer env a) ∧ SameAs (moves ms s1) s' ∧
    (ms = [] ∨ 2 ^ 256 ≤ 10000 * s.total ∨ tx.misnamed s)

section
variable {env : Env} {tx : Tx} {s s1 : Ledger}

theorem Left.early (h : Start env tx s s1) : Left env tx s s1 :=
  ⟨s1, [], h, trivial, Nat.le_refl _, (fun _ _ h => nomatch h), SameAs.rfl', .inl rfl⟩

theorem Left.earlyTouch (h : Start env tx s s1) (a : Address) : Left env tx s (s1.touch a) :=
  ⟨s1, [], h, trivial, Nat.le_refl _, (fun _ _ h => nomatch h), SameAs.touch _ _, .inl rfl⟩

theorem Left.late (h : Start env tx s s1) (ms : List Mv) (hm : MovesOk ms s1)
    (hc : (ms.map Mv.crT).sum ≤ (ms.map Mv.dbT).sum) (hp : ∀ a n, Mv.debit a n ∈ ms → tx.payer env a)
    (hx : 2 ^ 256 ≤ 10000 * s.total ∨ tx.misnamed s) : Left env tx s (moves ms s1) :=
  ⟨s1, ms, h, hm, hc, hp, SameAs.rfl', .inr hx⟩

theorem Left.over (h : Start env tx s s1) (ms : List Mv) (hm : MovesOk ms s1) (a : Address) (n : U256)
    (hc : (ms.map Mv.crT).sum + n.toNat ≤ (ms.map Mv.dbT).sum) (hp : ∀ a n, Mv.debit a n ∈ ms → tx.payer env a)
    (ho : ¬ (moves ms s1).bal a + n.toNat < 2 ^ 256) : Left env tx s ((moves ms s1).touch a) := by
  refine ⟨s1, ms, h, hm, by omega, hp, SameAs.touch _ _, .inr (.inl ?_)⟩
  have h1 := total_moves ms s1 hm
  have h2 := (moves ms s1).bal_le_total a
  rw [h.total] at h1
  omega

end

theorem ofBytes_none {bs : Bytes} (h : Address.ofBytes? bs = none) : bs.length ≠ 20 := by
  intro hl
  unfold Address.ofBytes? at h
  rw [if_pos hl] at h
  exact nomatch h

theorem delegate_left (env : Env) (d : Signed DelegateBody) (s : Ledger) :
    wp (delegateProg env d) s (fun _ _ => True) (fun _ s' => Left env (.delegate d) s s') := by
  have e1 : Left env (.delegate d) s s := .early (.inl rfl)
  have e2 : ∀ id, Left env (.delegate d) s (s.touchTx id) := fun id => .early (.inr (.inl ⟨id, rfl⟩))
  unfold delegateProg
  simp only [wp_bind, wp_liftO, wp_checkVariant, wp_checkDomain, wp_parseFormat, wp_liftE,
    wp_checkAndMark, wp_parseAddr, wp_getAcc, wp_require, wp_ite, wp_pure, wp_updAcc_add,
    wp_updAcc_deduct, wp_modAcc, imp_true_iff, and_true, true_and, e1, e2]
  intro body hbody hvar hdom f hf signer hs hfresh
  have hsg := verifySigned_ok hf hs
  have hst : Start env (.delegate d) s (s.mark (hashWithSigner env signer (.delegate body)) true) :=
    .inr (.inr ⟨_, ⟨_, signer, ⟨body, hbody, rfl, hsg⟩, rfl⟩, rfl⟩)
  have e3 := Left.early hst
  have hpay : Tx.payer env signer (.delegate d) := ⟨body, hbody, hsg⟩
  simp only [e3, imp_true_iff, and_true]
  intro prover hprover fee hfee auct hauct acc hacc hown hge
  simp only [Ledger.acct_mark, balanceOrZero_acct] at hge
  simp only [Ledger.acct_mark] at hacc
  have hp1 : ∀ a n, Mv.debit a n ∈ [Mv.debit signer fee] → Tx.payer env a (.delegate d) := by
    intro a n h
    simp only [List.mem_singleton, Mv.debit.injEq] at h
    exact h.1 ▸ hpay
  have hp2 : ∀ a n, Mv.debit a n ∈ [Mv.debit signer fee, Mv.credit auct fee] → Tx.payer env a (.delegate d) := by
    intro a n h
    simp only [List.mem_cons, Mv.debit.injEq, List.not_mem_nil, or_false, reduceCtorEq] at h
    exact h.1 ▸ hpay
  refine ⟨fun h1 => ⟨fun h2 => ⟨fun del hdel => ⟨fun _ _ hn => absurd trivial hn, fun hn _ => ?_⟩, fun hn => ?_⟩, fun h2 => ?_⟩, fun h1 => ?_⟩
  · exfalso
    have := (moves_frame [Mv.debit signer fee, Mv.credit auct fee]
      (s.mark (hashWithSigner env signer (.delegate body)) true)).2.2.2.2.2 prover (by simp [hacc])
    simp only [moves, Mv.app] at this
    rw [hn] at this
    exact nomatch this
  · exact Left.late hst [.debit signer fee, .credit auct fee] ⟨h1, h2, trivial⟩ (by simp [Mv.crT, Mv.dbT]) hp2
      (.inr ⟨body, hbody, ofBytes_none hn⟩)
  · exact Left.over hst [.debit signer fee] ⟨h1, trivial⟩ auct fee (by simp [Mv.crT, Mv.dbT]) hp1 h2
  · exact absurd (by simpa using hge) h1

theorem transfer_left (env : Env) (d : Signed TransferBody) (s : Ledger) :
    wp (transferProg env d) s (fun _ _ => True) (fun _ s' => Left env (.transfer d) s s') := by
  have e1 : Left env (.transfer d) s s := .early (.inl rfl)
  have e2 : ∀ id, Left env (.transfer d) s (s.touchTx id) := fun id => .early (.inr (.inl ⟨id, rfl⟩))
  unfold transferProg
  simp only [wp_bind, wp_liftO, wp_checkVariant, wp_checkDomain, wp_parseFormat, wp_liftE,
    wp_checkAndMark, wp_parseAddr, wp_getAcc, wp_ite, wp_pure, wp_updAcc_add,
    wp_updAcc_deduct, imp_true_iff, and_true, true_and, e1, e2]
  intro body hbody hvar f hf signer hs hdom hfresh
  have hsg := verifySigned_ok hf hs
  have hst : Start env (.transfer d) s (s.mark (hashWithSigner env signer (.transfer body)) true) :=
    .inr (.inr ⟨_, ⟨_, signer, ⟨body, hbody, rfl, hsg⟩, rfl⟩, rfl⟩)
  have e3 := Left.early hst
  have hpay : Tx.payer env signer (.transfer d) := ⟨body, hbody, hsg⟩
  simp only [e3, imp_true_iff, and_true]
  intro to hto amount hamount fee hfee auct hauct total htot hge
  rw [u256add_ok] at htot
  simp only [Ledger.acct_mark, balanceOrZero_acct] at hge
  have hp : ∀ ms : List Mv, (∀ m ∈ ms, (∃ n, m = Mv.debit signer n) ∨ ∃ a n, m = Mv.credit a n) →
      ∀ a n, Mv.debit a n ∈ ms → Tx.payer env a (.transfer d) := by
    intro ms h a n hm
    rcases h _ hm with ⟨_, e⟩ | ⟨_, _, e⟩
    · cases e; exact hpay
    · cases e
  refine ⟨fun h1 => ⟨fun h2 => ⟨fun h3 => fun h4 => ?_, fun h3 => ?_⟩, fun h2 => ?_⟩, fun h1 => ?_⟩
  · exact Left.over hst [.debit signer amount, .credit to amount, .debit signer fee] ⟨h1, h2, h3, trivial⟩ auct fee
      (by simp [Mv.crT, Mv.dbT]) (hp _ (by simp)) h4
  · exfalso
    have := bal_moves [.debit signer amount, .credit to amount]
      (s.mark (hashWithSigner env signer (.transfer body)) true) ⟨h1, h2, trivial⟩ signer
    simp only [moves, Mv.app, List.map_cons, List.map_nil, List.sum_cons, List.sum_nil, Mv.db, Mv.cr, if_true,
      Ledger.bal_mark] at this
    omega
  · exact Left.over hst [.debit signer amount] ⟨h1, trivial⟩ to amount (by simp [Mv.crT, Mv.dbT]) (hp _ (by simp)) h2
  · exact absurd (by simp only [Ledger.bal_mark]; omega) h1

theorem withdraw_left (env : Env) (d : Signed WithdrawBody) (s : Ledger) :
    wp (withdrawProg env d) s (fun _ _ => True) (fun _ s' => Left env (.withdraw d) s s') := by
  have e1 : Left env (.withdraw d) s s := .early (.inl rfl)
  have e2 : ∀ id, Left env (.withdraw d) s (s.touchTx id) := fun id => .early (.inr (.inl ⟨id, rfl⟩))
  unfold withdrawProg
  simp only [wp_bind, wp_liftO, wp_checkVariant, wp_checkDomain, wp_parseFormat, wp_liftE,
    wp_checkAndMark, wp_parseAddr, wp_getAcc, wp_ite, wp_pure, wp_updAcc_add, wp_require,
    wp_updAcc_deduct, imp_true_iff, and_true, true_and, e1, e2]
  intro body hbody hvar f hf signer hs hdom hfresh
  have hsg := verifySigned_ok hf hs
  have hst : Start env (.withdraw d) s (s.mark (hashWithSigner env signer (.withdraw body)) true) :=
    .inr (.inr ⟨_, ⟨_, signer, ⟨body, hbody, rfl, hsg⟩, rfl⟩, rfl⟩)
  have e3 := Left.early hst
  simp only [e3, imp_true_iff, and_true]
  intro account haccount hauth amount hamount fee hfee auct hauct
  have hp : ∀ ms : List Mv, (∀ m ∈ ms, (∃ n, m = Mv.debit signer n) ∨ (∃ n, m = Mv.debit account n) ∨
        ∃ a n, m = Mv.credit a n) → ∀ a n, Mv.debit a n ∈ ms → Tx.payer env a (.withdraw d) := by
    intro ms h a n hm
    rcases h _ hm with ⟨_, e⟩ | ⟨_, e⟩ | ⟨_, _, e⟩
    · cases e; exact ⟨body, hbody, .inl hsg⟩
    · cases e; exact ⟨body, hbody, .inr haccount⟩
    · cases e
  simp only [Ledger.acct_mark, balanceOrZero_acct]
  constructor
  · intro heq total htot hge
    rw [u256add_ok] at htot
    subst heq
    refine ⟨fun h1 => ⟨fun h2 h3 => ?_, fun h2 => ?_⟩, fun h1 => ?_⟩
    · exact Left.over hst [.debit account amount, .debit account fee] ⟨h1, h2, trivial⟩ auct fee
        (by simp [Mv.crT, Mv.dbT]) (hp _ (by simp)) h3
    · exfalso
      have := bal_moves [.debit account amount]
        (s.mark (hashWithSigner env account (.withdraw body)) true) ⟨h1, trivial⟩ account
      simp only [moves, Mv.app, List.map_cons, List.map_nil, List.sum_cons, List.sum_nil, Mv.db, Mv.cr, if_true,
        Ledger.bal_mark] at this
      omega
    · exact absurd (by simp only [Ledger.bal_mark]; omega) h1
  · intro hne hge hge'
    refine ⟨fun h1 => ⟨fun h2 h3 => ?_, fun h2 => ?_⟩, fun h1 => ?_⟩
    · exact Left.over hst [.debit account amount, .debit signer fee] ⟨h1, h2, trivial⟩ auct fee
        (by simp [Mv.crT, Mv.dbT]) (hp _ (by simp)) h3
    · exfalso
      have := bal_moves [.debit account amount]
        (s.mark (hashWithSigner env signer (.withdraw body)) true) ⟨h1, trivial⟩ signer
      simp only [moves, Mv.app, List.map_cons, List.map_nil, List.sum_cons, List.sum_nil, Mv.db, Mv.cr,
        Ledger.bal_mark, if_neg (Ne.symm hne)] at this
      omega
    · exact absurd (by simp only [Ledger.bal_mark]; omega) h1

/-- With a staker fee of at most 100 percent and a cost below 2^256 / 10000 the split succeeds. -/
theorem fee_error_absurd {cost sb : U256} {e : Panic} (hb : sb.toNat ≤ 10000) (hc : 10000 * cost.toNat < 2 ^ 256)
    (h : fee cost protocolFeeBips sb = .error e) : False := by
  obtain ⟨p, st, o, h1, _⟩ := c16_fee_total cost protocolFeeBips sb (by decide) hb (by omega)
  rw [h] at h1
  exact nomatch h1

theorem clearAuth_left (env : Env) (c : ClearTx) (s : Ledger) :
    wp (clearAuth env c) s (fun x s' => (∃ g, ClearPre env c s x g) ∧ s' = s.touchTx x.requestId)
      (fun _ s' => Left env (.clear c) s s') := by
  refine wp_iff.mpr ⟨(wp_iff.mp (clearAuth_wp env c s)).1, (wp_iff (Q := fun _ _ => True).mp ?_).2⟩
  have e1 : Left env (.clear c) s s := .early (.inl rfl)
  have e2 : ∀ id, Left env (.clear c) s (s.touchTx id) := fun id => .early (.inr (.inl ⟨id, rfl⟩))
  unfold clearAuth clearMessages clearParties
  simp only [wp_bind, wp_liftO, wp_checkVariant, wp_checkDomain, wp_parseFormat, wp_liftE,
    wp_parseAddr, wp_getAcc, wp_require, wp_pure, wp_processed, imp_true_iff, and_true, e1, e2]

theorem clearProof_left (env : Env) (c : ClearTx) (x : ClearCtx) (s : Ledger) :
    wp (clearProof env c x) s (fun _ s' => s' = s) (fun _ s' => s' = s) := by
  unfold clearProof checkPvh
  simp only [wp_bind, wp_liftO, wp_checkVariant, wp_checkDomain, wp_parseFormat, wp_liftE,
    wp_require, imp_true_iff, and_true]
  intros
  split <;> simp only [wp_bind, wp_ite, wp_liftO, wp_liftE, wp_pure', wp_panic, wp_parseAddr, wp_require, imp_true_iff, and_true]

theorem clear_left (env : Env) (c : ClearTx) (s : Ledger) :
    wp (clearProg env c) s (fun _ _ => True) (fun _ s' => Left env (.clear c) s s') := by
  unfold clearProg
  rw [wp_bind]
  refine wp_mono (clearAuth_left env c s) ?_ (fun _ _ h => h)
  rintro x s1 ⟨⟨g, hpre⟩, rfl⟩
  have hst : Start env (.clear c) s (s.touchTx x.requestId) := .inr (.inl ⟨_, rfl⟩)
  have hst2 : Start env (.clear c) s (s.mark x.requestId true) :=
    .inr (.inr ⟨_, ⟨_, x.requestSigner, ⟨x.request, hpre.request, rfl, hpre.requestSigned⟩, hpre.requestId⟩, rfl⟩)
  have e2 := Left.early hst
  have e3 := Left.early hst2
  have hp : ∀ ms : List Mv, (∀ m ∈ ms, (∃ n, m = Mv.debit x.requestSigner n) ∨ ∃ a n, m = Mv.credit a n) →
      ∀ a n, Mv.debit a n ∈ ms → Tx.payer env a (.clear c) := by
    intro ms h a n hm
    rcases h _ hm with ⟨_, e⟩ | ⟨_, _, e⟩
    · cases e; exact ⟨x.request, hpre.request, hpre.requestSigned⟩
    · cases e
  rw [wp_ite]
  constructor
  · intro h3
    unfold clearPunish
    simp only [wp_bind, wp_liftO, wp_liftE, wp_parseAddr, wp_getAcc, wp_require, wp_pure, wp_ite,
      wp_markTx, wp_updAcc_add, wp_updAcc_deduct, imp_true_iff, and_true, true_and, e2]
    intro str hstr p hp' m hm mx hmx hle hge
    simp only [Ledger.acct_touchTx, balanceOrZero_acct] at hge
    refine ⟨fun h1 => ⟨fun tr htr h2 => ?_, fun hn => ?_⟩, fun h1 => ?_⟩
    · exact Left.over hst [.debit x.requestSigner p] ⟨h1, trivial⟩ tr p (by simp [Mv.crT, Mv.dbT]) (hp _ (by simp)) h2
    · exact Left.late hst [.debit x.requestSigner p] ⟨h1, trivial⟩ (by simp [Mv.crT, Mv.dbT]) (hp _ (by simp))
        (.inr (.inl ⟨x.request, hpre.request, ofBytes_none hn⟩))
    · exact absurd (by simp only [Ledger.bal_touchTx]; omega) h1
  · intro h3
    rw [wp_bind]
    refine wp_mono (clearProof_left env c x _) ?_ (fun _ _ h => h ▸ e2)
    rintro _ s2 rfl
    unfold clearPay
    simp only [wp_bind, wp_liftO, wp_liftE, wp_parseAddr, wp_getAcc, wp_require, wp_pure, wp_ite,
      wp_markTx, wp_updAcc_add, wp_updAcc_deduct, imp_true_iff, and_true, true_and, Ledger.mark_touchTx,
      Ledger.acct_touchTx, e2]
    intro pgus hpgus m hm cost hcost hle acct hacct hge
    have hbal : acct.balance.toNat = s.bal x.requestSigner := by
      simp [Ledger.bal, Ledger.acctD, hacct]
    rw [hbal] at hge
    refine ⟨fun h1 => ⟨fun tr htr => ⟨fun pa hpa => ⟨fun r hr => ⟨fun h2 => ⟨fun h3 h4 => ?_, fun h3 => ?_⟩, fun h2 => ?_⟩,
      fun e he => ?_⟩, fun hn => ?_⟩, fun hn => ?_⟩, fun h1 => ?_⟩
    · have hf := fee_sum (show fee cost protocolFeeBips pa.stakerFeeBips = .ok (r.1, r.2.1, r.2.2) from hr)
      exact Left.over hst2 [.debit x.requestSigner cost, .credit tr r.1, .credit x.proverAddress r.2.1]
        ⟨h1, h2, h3, trivial⟩ x.proverOwner r.2.2 (by simp [Mv.crT, Mv.dbT]; omega) (hp _ (by simp)) h4
    · have hf := fee_sum (show fee cost protocolFeeBips pa.stakerFeeBips = .ok (r.1, r.2.1, r.2.2) from hr)
      exact Left.over hst2 [.debit x.requestSigner cost, .credit tr r.1]
        ⟨h1, h2, trivial⟩ x.proverAddress r.2.1 (by simp [Mv.crT, Mv.dbT]; omega) (hp _ (by simp)) h3
    · have hf := fee_sum (show fee cost protocolFeeBips pa.stakerFeeBips = .ok (r.1, r.2.1, r.2.2) from hr)
      exact Left.over hst2 [.debit x.requestSigner cost]
        ⟨h1, trivial⟩ tr r.1 (by simp [Mv.crT, Mv.dbT]; omega) (hp _ (by simp)) h2
    · refine Left.late hst2 [.debit x.requestSigner cost] ⟨h1, trivial⟩ (by simp [Mv.crT, Mv.dbT]) (hp _ (by simp)) ?_
      have hbips : pa.stakerFeeBips = s.bips x.proverAddress := by
        have : ((s.mark x.requestId true).debit x.requestSigner cost).bips x.proverAddress
            = s.bips x.proverAddress := by simp
        rw [← this]
        simp [Ledger.bips, Ledger.acctD, hpa]
      rw [hbips] at he
      by_cases hb : (s.bips x.proverAddress).toNat ≤ 10000
      · left
        have hct := s.bal_le_total x.requestSigner
        refine Nat.le_of_not_lt fun hlt => ?_
        exact fee_error_absurd hb (by omega) he
      · exact .inr (.inr ⟨x.bid, x.proverAddress, hpre.bid, hpre.prover, by omega⟩)
    · exfalso
      have := (moves_frame [Mv.debit x.requestSigner cost] (s.mark x.requestId true)).2.2.2.2.2 x.proverAddress
        (by simpa using hpre.present)
      simp only [moves, Mv.app] at this
      rw [hn] at this
      exact nomatch this
    · exact Left.late hst2 [.debit x.requestSigner cost] ⟨h1, trivial⟩ (by simp [Mv.crT, Mv.dbT]) (hp _ (by simp))
        (.inr (.inl ⟨x.request, hpre.request, ofBytes_none hn⟩))
    · exact absurd (by simp only [Ledger.bal_mark]; omega) h1

theorem offchain_left (env : Env) (tx : Tx) (s s' : Ledger) (e : Panic) (ho : tx.offchain = true)
    (h : Ledger.execute env tx s = (.panic e, s')) : Left env tx s s' := by
  have key : wp (execInner env tx) s (fun _ _ => True) (fun _ s' => Left env tx s s') := by
    cases tx with
    | deposit d => exact nomatch ho
    | createProver c => exact nomatch ho
    | delegate d => exact delegate_left env d s
    | transfer d => exact transfer_left env d s
    | withdraw d => exact withdraw_left env d s
    | clear c => exact clear_left env c s
  refine (wp_iff.mp key).2 e s' ?_
  unfold Ledger.execute execute at h
  unfold Prog.runL
  split at h
  · exact nomatch (Prod.mk.inj h).1
  · exact nomatch (Prod.mk.inj h).1
  · rename_i e' s'' hr
    obtain ⟨h1, h2⟩ := Prod.mk.inj h
    cases h1
    rw [hr, h2]

/-- A rejected on-chain transaction changes no record; the cursor moves only if it was a deposit in order that does not
fit into the balance. -/
theorem onchain_left (env : Env) (tx : Tx) (s s' : Ledger) (e : Panic) (ho : tx.offchain = false)
    (h : Ledger.execute env tx s = (.panic e, s')) :
    SameAs s s' ∨ ∃ d, tx = .deposit d ∧ InOrder d s.sc ∧ 2 ^ 256 ≤ s.bal d.action.account + d.action.amount.toNat ∧
      SameAs (s.setSc (nextCursor d s.sc)) s' := by
  have key : wp (execInner env tx) s (fun _ _ => True) (fun _ s' => SameAs s s' ∨ ∃ d, tx = .deposit d ∧ InOrder d s.sc ∧
      2 ^ 256 ≤ s.bal d.action.account + d.action.amount.toNat ∧ SameAs (s.setSc (nextCursor d s.sc)) s') := by
    cases tx with
    | deposit d =>
      simp only [execInner, depositProg, wp_bind]
      refine wp_acceptOnchain _ (fun h => ?_) (fun _ _ => .inl SameAs.rfl')
      simp only [wp_updAcc_add, wp_pure, imp_true_iff, true_and]
      exact fun hn => .inr ⟨d, rfl, h, by simp only [Ledger.bal_setSc] at hn; omega, SameAs.touch _ _⟩
    | createProver c =>
      simp only [execInner, createProverProg, wp_bind]
      refine wp_acceptOnchain _ (fun h => ?_) (fun _ _ => .inl SameAs.rfl')
      simp only [wp_updAcc_setProver, wp_pure]
    | delegate d => exact nomatch ho
    | transfer d => exact nomatch ho
    | withdraw d => exact nomatch ho
    | clear c => exact nomatch ho
  refine (wp_iff.mp key).2 e s' ?_
  unfold Ledger.execute execute at h
  unfold Prog.runL
  split at h
  · exact nomatch (Prod.mk.inj h).1
  · exact nomatch (Prod.mk.inj h).1
  · rename_i e' s'' hr
    obtain ⟨h1, h2⟩ := Prod.mk.inj h
    cases h1
    rw [hr, h2]

theorem SameAs.bal {t t' : Ledger} (h : SameAs t t') (a : Address) : t'.bal a = t.bal a := by
  unfold Ledger.bal; rw [h.acct]

theorem SameAs.roles {t t' : Ledger} (h : SameAs t t') : SameRoles t t' := by
  intro a
  unfold Ledger.owner Ledger.signer Ledger.bips
  rw [h.acct]
  exact ⟨rfl, rfl, rfl⟩

/-! ## The property -/

/-- **C104 (what a rejected transaction leaves).** A transaction that is rejected with a panic, in any ledger: nobody's
owner, delegated signer or staker fee has changed; no money has appeared; only the accounts that signed it (or that the
withdrawal names) may have less; no transaction counts as processed that did not before, except the rejected one itself
(or one with the same first 20 bytes of its identity). -/
theorem c104_panic (env : Env) (tx : Tx) (s s' : Ledger) (e : Panic)
    (h : Ledger.execute env tx s = (.panic e, s')) :
    SameRoles s s' ∧ s'.total ≤ s.total ∧ (∀ a, s'.bal a < s.bal a → tx.payer env a) ∧
    (∀ id, s.done id = true → s'.done id = true) ∧
    (∀ id, s'.done id = true → s.done id = true ∨
      ∃ id', tx.hasId env id' ∧ (B256.bytes id).take 20 = (B256.bytes id').take 20) := by
  cases ho : tx.offchain with
  | false =>
    rcases onchain_left env tx s s' e ho h with g | ⟨d, rfl, _, _, g⟩
    · exact ⟨g.roles, Nat.le_of_eq g.total, fun a ha => by rw [g.bal] at ha; omega,
        fun id hd => by rw [g.done]; exact hd, fun id hd => .inl (by rw [g.done] at hd; exact hd)⟩
    · exact ⟨fun a => g.roles a, Nat.le_of_eq g.total, fun a ha => by rw [g.bal, Ledger.bal_setSc] at ha; omega,
        fun id hd => by rw [g.done]; exact hd, fun id hd => .inl (by rw [g.done] at hd; exact hd)⟩
  | true =>
    obtain ⟨s1, ms, hst, hm, hc, hp, hs, hx⟩ := offchain_left env tx s s' e ho h
    clear hx
    have hf := moves_frame ms s1
    have hdm : ∀ id, (moves ms s1).done id = s1.done id := by intro id; unfold Ledger.done; rw [hf.2.2.2.2.1]
    refine ⟨fun a => ?_, ?_, fun a ha => ?_, fun id hd => by rw [hs.done, hdm]; exact hst.done_keep id hd, fun id hd => ?_⟩
    · obtain ⟨h1, h2, h3⟩ := hs.roles a
      rw [h1, h2, h3, hf.1, hf.2.1, hf.2.2.1]
      unfold Ledger.owner Ledger.signer Ledger.bips
      rw [hst.acctD]
      exact ⟨rfl, rfl, rfl⟩
    · have := total_moves ms s1 hm
      rw [hst.total] at this
      rw [hs.total]
      omega
    · have hb := bal_moves ms s1 hm a
      rw [hs.bal] at ha
      rw [hst.bal] at hb
      have hpos : 0 < (ms.map (Mv.db a)).sum := by omega
      obtain ⟨m, hmem, hmp⟩ : ∃ m ∈ ms, 0 < Mv.db a m := by
        clear hb hs hc hm hf hp ha hdm
        induction ms with
        | nil => simp at hpos
        | cons m ms ih =>
          simp only [List.map_cons, List.sum_cons] at hpos
          by_cases h0 : 0 < Mv.db a m
          · exact ⟨m, List.mem_cons_self .., h0⟩
          · obtain ⟨m', h1, h2⟩ := ih (by omega)
            exact ⟨m', List.mem_cons_of_mem _ h1, h2⟩
      cases m with
      | credit b n => exact absurd hmp (by simp [Mv.db])
      | debit b n =>
        by_cases hab : a = b
        · subst hab; exact hp a n hmem
        · simp [Mv.db, hab] at hmp
    · rw [hs.done, hdm] at hd
      rcases hst.done id hd with h1 | ⟨id', h1, h2⟩
      · exact .inl h1
      · exact .inr ⟨id', h1, beNat_inj (by simp [B256.bytes_length]) h2⟩

/-- **C104 (the cursors).** A rejected transaction leaves the domain and both cursors as they were, unless it is a deposit
in order that does not fit into the balance of its account. -/
theorem c104_cursor (env : Env) (tx : Tx) (s s' : Ledger) (e : Panic)
    (h : Ledger.execute env tx s = (.panic e, s')) :
    s'.sc = s.sc ∨ ∃ d, tx = .deposit d ∧ d.onchainTx = s.sc.onchainTxId ∧
      2 ^ 256 ≤ s.bal d.action.account + d.action.amount.toNat := by
  cases ho : tx.offchain with
  | false =>
    rcases onchain_left env tx s s' e ho h with g | ⟨d, rfl, h1, h2, g⟩
    · exact .inl g.sc
    · exact .inr ⟨d, rfl, h1.1, h2⟩
  | true =>
    obtain ⟨s1, ms, hst, hm, hc, hp, hs, _⟩ := offchain_left env tx s s' e ho h
    left
    rw [hs.sc, (moves_frame ms s1).2.2.2.1, hst.sc]

/-- **C104 (all or nothing).** If 10000 times the sum of all balances fits in 256 bits, a rejected transaction leaves
every balance as it was, unless it is a delegation to a malformed address, or a clear with a malformed treasury or for a
prover with a staker fee above 100 percent. -/
theorem c104_balances (env : Env) (tx : Tx) (s s' : Ledger) (e : Panic) (hT : 10000 * s.total < 2 ^ 256)
    (hn : ¬ tx.misnamed s) (h : Ledger.execute env tx s = (.panic e, s')) : ∀ a, s'.bal a = s.bal a := by
  intro a
  cases ho : tx.offchain with
  | false =>
    rcases onchain_left env tx s s' e ho h with g | ⟨d, rfl, _, _, g⟩
    · exact g.bal a
    · rw [g.bal, Ledger.bal_setSc]
  | true =>
    obtain ⟨s1, ms, hst, hm, hc, hp, hs, hx⟩ := offchain_left env tx s s' e ho h
    rcases hx with rfl | hx | hx
    · rw [hs.bal]; exact hst.bal a
    · omega
    · exact absurd hx hn

/-- **C104 (carrying on).** Even if one carried on after rejected transactions, no money would appear: in any sequence of
executions the sum of the balances plus what was withdrawn is at most the sum before plus what was deposited, both read
off the receipts. -/
theorem c104_no_money (env : Env) (txs : List Tx) (s : Ledger) :
    (Ledger.after env txs s).total + ((Ledger.resultsOf env txs s).map Result.outflow).sum ≤
      s.total + ((Ledger.resultsOf env txs s).map Result.inflow).sum := by
  induction txs generalizing s with
  | nil => exact Nat.le_refl _
  | cons tx txs ih =>
    have h1 := ih (Ledger.execute env tx s).2
    simp only [Ledger.after, List.foldl_cons, Ledger.resultsOf, List.map_cons, List.sum_cons] at *
    rcases hr : Ledger.execute env tx s with ⟨r, s1⟩
    rw [hr] at h1
    cases r with
    | panic e =>
      have := (c104_panic env tx s s1 e hr).2.1
      have e1 : Result.outflow (.panic e) = 0 := rfl
      have e2 : Result.inflow (.panic e) = 0 := rfl
      dsimp only at *
      omega
    | ok o =>
      have := c01_step env tx s s1 _ hr rfl
      dsimp only at *
      omega
    | revert v =>
      have := c01_step env tx s s1 _ hr rfl
      dsimp only at *
      omega

/-! ## Concrete cases -/

namespace Toy

/-- Alice's request with a treasury that is not an address. -/
def requestBad : RequestBody := { request with treasury := [1, 2, 3] }

/-- Alice's transfer of 100 to Bob, naming an auctioneer that is not an address. -/
def transferBad : Tx := .transfer
  { format := 1, signature := Address.bytes alice,
    body := some { nonce := 5, to := Address.bytes bob, amount := num 100, domain := B256.bytes dom,
                   variant := 6, auctioneer := [1], fee := num 7 } }
/-- Alice's delegation of the prover, signed by the owner, to something that is not an address, for a fee of 7. -/
def delegateBad : Tx := .delegate
  { format := 1, signature := Address.bytes owner,
    body := some { nonce := 6, delegate := [1], prover := Address.bytes prover,
                   domain := B256.bytes dom, variant := 5, auctioneer := Address.bytes auctioneer,
                   fee := num 7 } }
/-- A deposit in order that does not fit. -/
def depositBig : Tx := .deposit ⟨11, 5, 3, ⟨alice, BitVec.ofNat 256 (2 ^ 256 - 1)⟩⟩
/-- The ledger in which the owner of the prover holds 50. -/
def s3 : Ledger := (Ledger.execute env (.deposit ⟨11, 5, 3, ⟨owner, 50⟩⟩) s2).2

/-- The transfer is rejected, moves nothing, and uses up its identity: the second attempt is rejected as a replay. -/
example : (Ledger.execute env transferBad s2).1 = .panic .addressDeserializationFailed ∧
    ((Ledger.execute env transferBad s2).2.bal alice, (Ledger.execute env transferBad s2).2.bal bob) = (1000, 0) ∧
    (Ledger.execute env transferBad (Ledger.execute env transferBad s2).2).1.accepted = false ∧
    (match (Ledger.execute env transferBad (Ledger.execute env transferBad s2).2).1 with
      | .panic (.transactionAlreadyProcessed _) => true | _ => false) = true ∧
    10000 * s2.total < 2 ^ 256 := by decide +kernel
example : ¬ Tx.misnamed s2 transferBad := id
/-- The delegation is rejected after the owner paid the fee to the auctioneer. -/
example : (Ledger.execute env delegateBad s3).1 = .panic .addressDeserializationFailed ∧
    ((Ledger.execute env delegateBad s3).2.bal owner, (Ledger.execute env delegateBad s3).2.bal auctioneer) = (43, 7) ∧
    (Ledger.execute env delegateBad s3).2.signer prover = s3.signer prover := by decide +kernel
/-- The deposit is rejected and the cursor has moved past it. -/
example : (Ledger.execute env depositBig s2).1 = .panic .arithmeticOverflow ∧ s2.sc.onchainTxId = 3 ∧
    (Ledger.execute env depositBig s2).2.sc.onchainTxId = 4 ∧ (Ledger.execute env depositBig s2).2.total = 1000 := by
  decide +kernel
/-- A clear whose treasury is malformed is rejected after the requester was charged: 110 of their 1000 are gone. -/
example : (Ledger.execute env (.clear (clear requestBad 2 prover prover)) s2).1 = .panic .addressDeserializationFailed ∧
    (Ledger.execute env (.clear (clear requestBad 2 prover prover)) s2).2.bal alice = 890 ∧
    (Ledger.execute env (.clear (clear requestBad 2 prover prover)) s2).2.total = 890 := by decide +kernel

end Toy
end Verif
