import Verif.Overflow
/-
# Converse of the closed forms: what suffices for acceptance (proof infrastructure for C56, C57)
-/

namespace Verif

open Prog

theorem signedBy_verify {env : Env} {b : Body} {sig : Bytes} {format : I32} {a : Address}
    (h : SignedBy env b format sig a) :
    ∃ f, MessageFormat.ofI32? format = some f ∧ verifySigned env b sig f = .ok a := by
  rcases h with ⟨rfl, h⟩ | ⟨rfl, m, hm, h⟩
  · exact ⟨.binary, rfl, by simp [verifySigned, messageBytes, ethSignVerify, h]⟩
  · exact ⟨.json, rfl, by simp [verifySigned, messageBytes, ethSignVerify, hm, h]⟩

theorem signedBy_unique {env : Env} {b : Body} {sig : Bytes} {format : I32} {a a' : Address}
    (h : SignedBy env b format sig a) (h' : SignedBy env b format sig a') : a = a' := by
  obtain ⟨f, hf, hv⟩ := signedBy_verify h
  obtain ⟨f', hf', hv'⟩ := signedBy_verify h'
  have hff := Option.some.inj (hf.symm.trans hf')
  subst hff
  have := hv.symm.trans hv'
  injection this

theorem variant_iff (v : I32) :
    (Variant.ofI32? v = some .request ↔ v = 0) ∧ (Variant.ofI32? v = some .bid ↔ v = 1) ∧
    (Variant.ofI32? v = some .settle ↔ v = 2) ∧ (Variant.ofI32? v = some .execute ↔ v = 3) ∧
    (Variant.ofI32? v = some .fulfill ↔ v = 4) ∧ (Variant.ofI32? v = some .delegate ↔ v = 5) ∧
    (Variant.ofI32? v = some .transfer ↔ v = 6) ∧ (Variant.ofI32? v = some .withdraw ↔ v = 7) := by
  unfold Variant.ofI32?
  refine ⟨?_, ?_, ?_, ?_, ?_, ?_, ?_, ?_⟩
  all_goals
    constructor
    · intro h
      repeat' split at h
      all_goals first | assumption | cases h
    · rintro rfl; rfl

/-- The outcome of a run that cannot panic. -/
theorem wp_total {α : Type} {p : Prog α} {s : Ledger} {Q : α → Ledger → Prop}
    (h : wp p s Q (fun _ _ => False)) : ∃ a s', p.runL s = (.ok a, s') ∧ Q a s' := by
  unfold wp at h
  rcases hr : p.runL s with ⟨e | a, s'⟩
  · rw [hr] at h; exact h.elim
  · rw [hr] at h; exact ⟨a, s', rfl, h⟩

theorem execute_of_wp {env : Env} {tx : Tx} {s : Ledger} {Q : Outcome → Ledger → Prop}
    (h : wp (execInner env tx) s Q (fun _ _ => False)) :
    ∃ out s1, Q out s1 ∧ Ledger.execute env tx s = (out.result, s1.bump) := by
  obtain ⟨out, s1, hr, hq⟩ := wp_total h
  refine ⟨out, s1, hq, ?_⟩
  unfold Ledger.execute execute
  unfold Prog.runL at hr
  rw [hr]
  cases out <;> rfl

theorem addr_none (a : Address) : Address.ofBytes? (Address.bytes a) ≠ none := by
  rw [(Address.ofBytes?_eq_some (bs := Address.bytes a) (a := a)).mpr rfl]; simp

theorem b256_none (a : B256) : B256.ofBytes? (B256.bytes a) ≠ none := by
  rw [(B256.ofBytes?_eq_some (bs := B256.bytes a) (a := a)).mpr rfl]; simp

section
variable {s : Ledger} {E : Panic → Ledger → Prop}

theorem wp_liftO_some {α : Type} {Q : α → Ledger → Prop} {o : Option α} {a : α} (e : Panic)
    (h : o = some a) (hq : Q a s) : wp (liftO o e) s Q E := by
  subst h; exact hq

theorem wp_liftE_ok {α : Type} {Q : α → Ledger → Prop} {o : Except Panic α} {a : α}
    (h : o = .ok a) (hq : Q a s) : wp (liftE o) s Q E := by
  subst h; exact hq

theorem wp_parseAddr_ok {Q : Address → Ledger → Prop} {bs : Bytes} {a : Address}
    (h : bs = Address.bytes a) (hq : Q a s) : wp (parseAddr bs) s Q E :=
  wp_liftO_some _ (Address.ofBytes?_eq_some.mpr h) hq

theorem wp_require_ok {Q : Unit → Ledger → Prop} {c : Prop} [Decidable c] {e : Panic} (h : c)
    (hq : Q () s) : wp (require c e) s Q E := by
  rw [wp_require]; exact ⟨fun _ => hq, fun hn => absurd h hn⟩

theorem wp_checkDomain_ok {Q : Unit → Ledger → Prop} {d : Bytes} {e : Panic}
    (h : d = B256.bytes s.sc.domain) (hq : Q () s) : wp (checkDomain d e) s Q E := by
  rw [wp_checkDomain]
  refine ⟨fun _ => hq, fun h' => ?_, fun x hx hne => ?_⟩
  · rw [h] at h'; exact absurd h' (b256_none _)
  · exact absurd (B256.bytes_inj (hx.symm.trans h)) hne

theorem wp_signed_ok {Q : Address → Ledger → Prop} {env : Env} {b : Body} {sig : Bytes}
    {format : I32} {a : Address} (h : SignedBy env b format sig a) (hq : Q a s) :
    wp (parseFormat format) s (fun f s' => wp (liftE (verifySigned env b sig f)) s' Q E) E := by
  obtain ⟨f, h1, h2⟩ := signedBy_verify h
  exact wp_liftO_some _ h1 (wp_liftE_ok h2 hq)

theorem wp_checkAndMark_ok {Q : Unit → Ledger → Prop} {id : B256} (h : s.done id = false)
    (hq : Q () (s.mark id true)) : wp (checkAndMark id) s Q E := by
  rw [wp_checkAndMark]; exact ⟨fun _ => hq, fun h' => by rw [h] at h'; cases h'⟩

theorem wp_add_ok {Q : Unit → Ledger → Prop} {a : Address} {n : U256} (h : s.bal a + n.toNat < 2 ^ 256)
    (hq : Q () (s.credit a n)) : wp (updAcc a (Account.addBalance n)) s Q E := by
  rw [wp_updAcc_add]; exact ⟨fun _ => hq, fun hn => absurd h hn⟩

theorem wp_deduct_ok {Q : Unit → Ledger → Prop} {a : Address} {n : U256} (h : n.toNat ≤ s.bal a)
    (hq : Q () (s.debit a n)) : wp (updAcc a (Account.deductBalance n)) s Q E := by
  rw [wp_updAcc_deduct]; exact ⟨fun _ => hq, fun hn => absurd h hn⟩
end

theorem u256add_some {a b : U256} (h : a.toNat + b.toNat < 2 ^ 256) :
    ∃ c, u256add a b = .ok c ∧ c.toNat = a.toNat + b.toNat := by
  refine ⟨_, by unfold u256add; rw [if_pos h], u256_ofNat_toNat h⟩

theorem u256mul_some {a b : U256} (h : a.toNat * b.toNat < 2 ^ 256) :
    ∃ c, u256mul a b = .ok c ∧ c.toNat = a.toNat * b.toNat := by
  refine ⟨_, by unfold u256mul; rw [if_pos h], u256_ofNat_toNat h⟩

theorem onchain_ok {T : Type} {o : Onchain T} {s : Ledger} {Q : Unit → Ledger → Prop}
    {E : Panic → Ledger → Prop} (h : InOrder o s.sc) (hq : Q () (s.setSc (nextCursor o s.sc))) :
    wp (acceptOnchain o) s Q E := by
  unfold acceptOnchain
  simp only [wp_bind, wp_scalars]
  exact wp_require_ok h.1 (wp_require_ok h.2.1 (wp_require_ok h.2.2 hq))

theorem deposit_runs {d : Onchain Deposit} {s : Ledger} (h : InOrder d s.sc)
    (hb : s.bal d.action.account + d.action.amount.toNat < 2 ^ 256) :
    wp (depositProg d) s (fun out _ => ∃ r, out = .applied r) (fun _ _ => False) := by
  unfold depositProg
  rw [wp_bind]
  refine onchain_ok h ?_
  simp only [wp_bind]
  exact wp_add_ok hb ⟨_, rfl⟩

theorem createProver_runs {c : Onchain CreateProver} {s : Ledger} (h : InOrder c s.sc) :
    wp (createProverProg c) s (fun out _ => ∃ r, out = .applied r) (fun _ _ => False) := by
  unfold createProverProg
  rw [wp_bind]
  refine onchain_ok h ?_
  simp only [wp_bind, wp_updAcc_setProver, wp_pure]
  exact ⟨_, rfl⟩

theorem transfer_runs {env : Env} {d : Signed TransferBody} {s : Ledger} {x : TransferData}
    (hT : s.total < 2 ^ 256) (h : TransferPre env d s x)
    (ho : x.amount.toNat + x.fee.toNat < 2 ^ 256) :
    wp (transferProg env d) s (fun out _ =>
      (∃ v, out = .reverted v ∧ s.bal x.signer < x.amount.toNat + x.fee.toNat) ∨
      (∃ r, out = .applied r ∧ x.amount.toNat + x.fee.toNat ≤ s.bal x.signer)) (fun _ _ => False) := by
  have hT' := hT
  refine wp_mono (wp_and (transfer_wp env d s) ?_) ?_ (fun _ _ h => h) (Q := fun a s' => _ ∧ True)
  · unfold transferProg
    simp only [wp_bind]
    refine wp_liftO_some _ h.body ?_
    refine wp_require_ok h.variant ?_
    refine wp_signed_ok h.signed ?_
    refine wp_checkDomain_ok h.domain ?_
    refine wp_checkAndMark_ok h.fresh ?_
    refine wp_parseAddr_ok h.to ?_
    refine wp_liftO_some _ h.amount ?_
    refine wp_liftO_some _ h.fee ?_
    refine wp_parseAddr_ok h.auctioneer ?_
    simp only [wp_getAcc]
    obtain ⟨total, ht, htot⟩ := u256add_some ho
    refine wp_liftE_ok ht ?_
    rw [Ledger.acct_mark, wp_ite, balanceOrZero_acct]
    refine ⟨fun _ => trivial, fun hge => ?_⟩
    show wp _ (s.mark (hashWithSigner env x.signer (.transfer x.body)) true) _ _
    generalize hm : s.mark (hashWithSigner env x.signer (.transfer x.body)) true = m
    have hmT : m.total < 2 ^ 256 := by rw [← hm]; simpa using hT
    have hmb : ∀ a, m.bal a = s.bal a := fun a => by rw [← hm]; rfl
    have h1 : x.amount.toNat ≤ m.bal x.signer := by rw [hmb]; omega
    have e1 := m.bal_debit x.signer x.signer x.amount h1
    rw [if_pos rfl] at e1
    have h2 : (m.debit x.signer x.amount).bal x.to + x.amount.toNat < 2 ^ 256 :=
      credit_after_debit hmT h1
    have h3 : x.fee.toNat ≤ ((m.debit x.signer x.amount).credit x.to x.amount).bal x.signer := by
      have := bal_credit_ge (b := x.signer) h2
      have := hmb x.signer
      omega
    have hT2 : ((m.debit x.signer x.amount).credit x.to x.amount).total < 2 ^ 256 := by
      rw [Ledger.total_credit _ _ _ h2]
      have := m.total_debit x.signer x.amount h1
      omega
    have h4 := credit_after_debit (b := x.auctioneer) hT2 h3
    simp only [wp_bind]
    exact wp_deduct_ok h1 (wp_add_ok h2 (wp_deduct_ok h3 (wp_add_ok h4 trivial)))
  · rintro out s' ⟨⟨y, hy, hc⟩, _⟩
    have hb : y.body = x.body := Option.some.inj (hy.body.symm.trans h.body)
    have e1 : y.signer = x.signer := signedBy_unique (hb ▸ hy.signed) h.signed
    have e2 : y.amount = x.amount := Option.some.inj ((hb ▸ hy.amount).symm.trans h.amount)
    have e3 : y.fee = x.fee := Option.some.inj ((hb ▸ hy.fee).symm.trans h.fee)
    rw [e1, e2, e3] at hc
    rcases hc with ⟨req, bal, ho, _, _, hlt, _⟩ | ⟨ho, hge, _⟩
    · exact .inl ⟨_, ho, hlt⟩
    · exact .inr ⟨_, ho, hge⟩

theorem delegate_runs {env : Env} {d : Signed DelegateBody} {s : Ledger} {x : DelegateData}
    (hT : s.total < 2 ^ 256) (h : DelegatePre env d s x)
    (hd : x.fee.toNat ≤ s.bal x.signer → ∃ a, x.body.delegate = Address.bytes a) :
    wp (delegateProg env d) s (fun _ _ => True) (fun _ _ => False) := by
  unfold delegateProg
  simp only [wp_bind]
  refine wp_liftO_some _ h.body ?_
  refine wp_require_ok h.variant ?_
  refine wp_checkDomain_ok h.domain ?_
  refine wp_signed_ok h.signed ?_
  refine wp_checkAndMark_ok h.fresh ?_
  refine wp_parseAddr_ok h.prover ?_
  refine wp_liftO_some _ h.fee ?_
  refine wp_parseAddr_ok h.auctioneer ?_
  simp only [wp_getAcc, Ledger.acct_mark]
  obtain ⟨acc, hacc⟩ := Option.isSome_iff_exists.mp h.present
  refine wp_liftO_some _ hacc ?_
  refine wp_require_ok (by have := h.owner; simp [Ledger.owner, Ledger.acctD, hacc] at this; exact this.symm) ?_
  rw [wp_ite, balanceOrZero_acct]
  refine ⟨fun _ => trivial, fun hge => ?_⟩
  rw [Ledger.bal_mark] at hge
  have hge' : x.fee.toNat ≤ s.bal x.signer := by omega
  obtain ⟨a, ha⟩ := hd hge'
  simp only [wp_bind]
  refine wp_deduct_ok hge' (wp_add_ok ?_ (wp_parseAddr_ok ha ?_))
  · exact credit_after_debit (s := s.mark (hashWithSigner env x.signer (.delegate x.body)) true) hT hge'
  · rw [wp_modAcc]
    refine ⟨fun v hv => wp_require_ok rfl trivial, fun hn => ?_⟩
    have : ((((s.mark (hashWithSigner env x.signer (.delegate x.body)) true).debit x.signer x.fee).credit
        x.auctioneer x.fee).acct x.prover).isSome := by
      rw [Ledger.acct_isSome_credit, Ledger.acct_isSome_debit, Ledger.acct_mark, hacc]; simp
    rw [hn] at this; cases this

theorem withdraw_runs {env : Env} {d : Signed WithdrawBody} {s : Ledger} {x : WithdrawData}
    (hT : s.total < 2 ^ 256) (h : WithdrawPre env d s x)
    (ho : x.account = x.signer → x.amount.toNat + x.fee.toNat < 2 ^ 256) :
    wp (withdrawProg env d) s (fun _ _ => True) (fun _ _ => False) := by
  unfold withdrawProg
  simp only [wp_bind]
  refine wp_liftO_some _ h.body ?_
  refine wp_require_ok h.variant ?_
  refine wp_signed_ok h.signed ?_
  refine wp_checkDomain_ok h.domain ?_
  refine wp_checkAndMark_ok h.fresh ?_
  refine wp_parseAddr_ok h.account ?_
  simp only [wp_getAcc, Ledger.acct_mark]
  refine wp_require_ok (by rw [ownerOrZero_acct]; exact fun hh => hh.2 (h.authorised hh.1)) ?_
  refine wp_liftO_some _ h.amount ?_
  refine wp_liftO_some _ h.fee ?_
  refine wp_parseAddr_ok h.auctioneer ?_
  show wp _ (s.mark (hashWithSigner env x.signer (.withdraw x.body)) true) _ _
  have hacc : ∀ a, (s.mark (hashWithSigner env x.signer (.withdraw x.body)) true).acct a = s.acct a :=
    fun a => rfl
  generalize hm : s.mark (hashWithSigner env x.signer (.withdraw x.body)) true = m at hacc
  have hmT : m.total < 2 ^ 256 := by rw [← hm]; simpa using hT
  have hmb : ∀ a, m.bal a = s.bal a := fun a => by rw [← hm]; rfl
  have key : ∀ (h1 : x.amount.toNat ≤ m.bal x.account)
      (h2 : x.fee.toNat ≤ (m.debit x.account x.amount).bal x.signer),
      ((m.debit x.account x.amount).debit x.signer x.fee).bal x.auctioneer + x.fee.toNat < 2 ^ 256 := by
    intro h1 h2
    apply credit_after_debit _ h2
    have := m.total_debit x.account x.amount h1
    omega
  rw [wp_ite]
  constructor
  · intro heq
    simp only [wp_bind, wp_getAcc]
    obtain ⟨total, ht, htot⟩ := u256add_some (ho heq)
    refine wp_liftE_ok ht ?_
    rw [wp_ite, balanceOrZero_acct, hmb]
    refine ⟨fun _ => trivial, fun hge => ?_⟩
    simp only [wp_bind]
    have h1 : x.amount.toNat ≤ m.bal x.account := by rw [hmb]; omega
    have h2 : x.fee.toNat ≤ (m.debit x.account x.amount).bal x.signer := by
      rw [m.bal_debit x.account x.signer x.amount h1, if_pos heq.symm, hmb]; omega
    have h3 := key h1 h2
    refine wp_deduct_ok h1 ?_
    rw [← heq] at h2 h3
    exact wp_deduct_ok h2 (wp_add_ok h3 trivial)
  · intro hne
    simp only [wp_bind, wp_getAcc]
    rw [wp_ite, balanceOrZero_acct, hmb]
    refine ⟨fun _ => trivial, fun hge => ?_⟩
    simp only [wp_bind, wp_getAcc]
    rw [wp_ite, balanceOrZero_acct, hmb]
    refine ⟨fun _ => trivial, fun hge' => ?_⟩
    simp only [wp_bind]
    have h1 : x.amount.toNat ≤ m.bal x.account := by rw [hmb]; omega
    have h2 : x.fee.toNat ≤ (m.debit x.account x.amount).bal x.signer := by
      rw [m.bal_debit x.account x.signer x.amount h1, if_neg (fun e => hne e.symm), hmb]; omega
    exact wp_deduct_ok h1 (wp_deduct_ok h2 (wp_add_ok (key h1 h2) trivial))

theorem clearAuth_runs {env : Env} {c : ClearTx} {s : Ledger} {x : ClearCtx} {g : ClearSigners}
    (h : ClearPre env c s x g) :
    wp (clearAuth env c) s (fun y s' => y = x ∧ s' = s.touchTx x.requestId) (fun _ _ => False) := by
  obtain ⟨f1, hf1, hv1⟩ := signedBy_verify h.requestSigned
  obtain ⟨f2, hf2, hv2⟩ := signedBy_verify h.bidSigned
  obtain ⟨f3, hf3, hv3⟩ := signedBy_verify h.settleSigned
  obtain ⟨f4, hf4, hv4⟩ := signedBy_verify h.executeSigned
  obtain ⟨acc, hacc⟩ := Option.isSome_iff_exists.mp h.present
  have hid : hashWithSigner env x.requestSigner (.request x.request) = x.requestId := h.requestId.symm
  unfold clearAuth clearMessages clearParties
  simp only [wp_bind]
  refine wp_liftO_some _ h.request (wp_liftO_some _ h.bid (wp_liftO_some _ h.settle
    (wp_liftO_some _ h.execute ?_)))
  refine wp_liftO_some _ hf1 (wp_liftO_some _ hf2 (wp_liftO_some _ hf3 (wp_liftO_some _ hf4 ?_)))
  refine wp_liftE_ok hv1 (wp_liftE_ok hv2 (wp_liftE_ok hv3 (wp_liftE_ok hv4 ?_)))
  refine wp_require_ok h.requestVariant (wp_require_ok h.bidVariant (wp_require_ok h.settleVariant
    (wp_require_ok h.executeVariant ?_)))
  refine wp_checkDomain_ok h.requestDomain (wp_checkDomain_ok h.bidDomain
    (wp_checkDomain_ok h.settleDomain (wp_checkDomain_ok h.executeDomain ?_)))
  have e1 : B256.bytes (hashWithSigner env x.requestSigner (.request x.request)) = x.bid.requestId := by
    rw [hid]; exact h.bidId.symm
  have e2 : B256.bytes (hashWithSigner env x.requestSigner (.request x.request)) = x.settle.requestId := by
    rw [hid]; exact h.settleId.symm
  have e3 : B256.bytes (hashWithSigner env x.requestSigner (.request x.request)) = x.execute.requestId := by
    rw [hid]; exact h.executeId.symm
  rw [wp_require]
  refine ⟨fun _ => ?_, fun hn => absurd e1 hn⟩
  rw [wp_require]
  refine ⟨fun _ => ?_, fun hn => absurd e2 hn⟩
  rw [wp_require]
  refine ⟨fun _ => ?_, fun hn => absurd e3 hn⟩
  simp only [hid]
  simp only [wp_processed]
  refine wp_require_ok h.fresh ?_
  simp only [wp_pure]
  refine wp_parseAddr_ok h.prover ?_
  simp only [wp_getAcc, Ledger.acct_touchTx]
  refine wp_liftO_some _ hacc ?_
  refine wp_require_ok (by have := h.delegated; simp [Ledger.signer, Ledger.acctD, hacc] at this; exact this.symm) ?_
  refine wp_require_ok h.whitelist (wp_parseAddr_ok h.auctioneer (wp_require_ok rfl
    (wp_parseAddr_ok h.executor (wp_require_ok rfl ?_))))
  refine wp_liftO_some _ h.baseFee (wp_liftO_some _ h.maxPrice (wp_liftO_some _ h.price
    (wp_require_ok h.priceLe ?_)))
  simp only [and_true]
  have hown : acc.owner = x.proverOwner := by
    have := h.owner; simp [Ledger.owner, Ledger.acctD, hacc] at this; exact this.symm
  rw [hown]

theorem clearPunish_runs {env : Env} {x : ClearCtx} {s : Ledger} {str : Bytes} {p : U256}
    (hT : s.total < 2 ^ 256) (h1 : x.execute.punishment = some str) (h2 : env.parseU256 str = some p)
    (h3 : x.maxPricePerPgu.toNat * x.request.gasLimit.toNat + x.baseFee.toNat < 2 ^ 256)
    (h4 : p.toNat ≤ x.maxPricePerPgu.toNat * x.request.gasLimit.toNat + x.baseFee.toNat)
    (h5 : p.toNat ≤ s.bal x.requestSigner → ∃ t, x.request.treasury = Address.bytes t) :
    wp (clearPunish env x) (s.touchTx x.requestId) (fun _ _ => True) (fun _ _ => False) := by
  unfold clearPunish
  simp only [wp_bind]
  refine wp_liftO_some _ h1 (wp_liftO_some _ h2 ?_)
  obtain ⟨m, hm, hmn⟩ := u256mul_some (a := x.maxPricePerPgu) (b := u256OfU64 x.request.gasLimit)
    (by rw [u256OfU64_toNat]; omega)
  rw [u256OfU64_toNat] at hmn
  obtain ⟨mx, hmx, hmxn⟩ := u256add_some (a := m) (b := x.baseFee) (by omega)
  refine wp_liftE_ok hm (wp_liftE_ok hmx (wp_require_ok (by omega) ?_))
  simp only [wp_getAcc]
  rw [wp_ite, balanceOrZero_acct, Ledger.bal_touchTx]
  refine ⟨fun _ => by simp only [wp_bind, wp_markTx, wp_pure], fun hge => ?_⟩
  have hle : p.toNat ≤ s.bal x.requestSigner := by omega
  obtain ⟨t, ht⟩ := h5 hle
  simp only [wp_bind]
  have hle' : p.toNat ≤ (s.touchTx x.requestId).bal x.requestSigner := by rwa [Ledger.bal_touchTx]
  refine wp_deduct_ok hle' (wp_parseAddr_ok ht (wp_add_ok ?_ ?_))
  · refine credit_after_debit ?_ hle'
    unfold Ledger.total; rw [Ledger.touchTx_accounts]; exact hT
  · simp only [wp_markTx, wp_pure]

theorem clearProof_runs {env : Env} {c : ClearTx} {x : ClearCtx} {s : Ledger}
    {f : Signed FulfillBody} {b : FulfillBody} {signer : Address} {pvh : Bytes}
    (h : ProofPre env c s x f b signer pvh) :
    wp (clearProof env c x) s (fun _ s' => s' = s) (fun _ _ => False) := by
  have hvk' : ∃ vk, bytesToWordsBE x.request.vkHash = some vk := by
    unfold bytesToWordsBE; rw [if_pos h.vkLength]; exact ⟨_, rfl⟩
  obtain ⟨vk, hvkw⟩ := hvk'
  unfold clearProof
  simp only [wp_bind]
  refine wp_require_ok h.executed (wp_liftO_some _ h.fulfill (wp_liftO_some _ h.body
    (wp_signed_ok h.signed ?_)))
  refine wp_checkDomain_ok h.domain (wp_require_ok h.variant (wp_require_ok h.requestId
    (wp_liftO_some _ h.pvhSome (wp_require_ok h.pvhLength ?_))))
  have hp : ∀ {Q : Unit → Ledger → Prop}, Q () s →
      wp (checkPvh x.request.publicValuesHash pvh) s Q (fun _ _ => False) := by
    intro Q hq
    unfold checkPvh
    cases hr : x.request.publicValuesHash with
    | none => exact hq
    | some h' =>
      have := h.requestPvh h' hr
      simp only [wp_bind]
      exact wp_require_ok (by rw [this]; exact h.pvhLength) (wp_require_ok this hq)
  refine hp (wp_liftO_some _ hvkw ?_)
  rw [wp_ite]
  rcases h.verified with ⟨hm, hpre, vk', hvk2, hver⟩ | ⟨hmode, sig, ver, hsig, hexp, hrec⟩
  · have := Option.some.inj (hvkw.symm.trans hvk2)
    subst this
    exact ⟨fun _ => wp_require_ok hver rfl, fun hn => absurd ⟨hm, hpre⟩ hn⟩
  · have hn : ¬ (x.request.mode = 2 ∧ primaryVersionPrefix.isPrefixOf x.request.version = true) := by
      rintro ⟨h1, h2⟩
      rcases hmode with ⟨_, h3⟩ | h3 | h3
      · rw [h2] at h3; cases h3
      · rw [h1] at h3; exact absurd h3 (by decide)
      · rw [h1] at h3; exact absurd h3 (by decide)
    refine ⟨fun hy => absurd hy hn, fun _ => ?_⟩
    rw [wp_ite]
    refine ⟨fun _ => ?_, fun hno => hno.elim ?_⟩
    · simp only [wp_bind]
      refine wp_liftO_some _ hsig (wp_liftE_ok (a := ver) ?_ (wp_parseAddr_ok hexp (wp_require_ok rfl rfl)))
      unfold ethSignVerify
      have : hashWithSigner env signer (.fulfill b) = identity env signer (.fulfill b) := rfl
      rw [this, hrec]
    · rcases hmode with ⟨h3, _⟩ | h3 | h3
      · exact .inl h3
      · exact .inr (.inl h3)
      · exact .inr (.inr h3)

theorem clearPay_runs {x : ClearCtx} {s : Ledger} {pgus : U64}
    (hT : s.total < 2 ^ 256) (h1 : x.execute.pgus = some pgus)
    (h2 : x.price.toNat * pgus.toNat + x.baseFee.toNat < 2 ^ 256)
    (h3 : pgus.toNat ≤ x.request.gasLimit.toNat) (h4 : (s.acct x.requestSigner).isSome)
    (hp : (s.acct x.proverAddress).isSome)
    (h5 : x.price.toNat * pgus.toNat + x.baseFee.toNat ≤ s.bal x.requestSigner →
      (∃ t, x.request.treasury = Address.bytes t) ∧ (s.bips x.proverAddress).toNat ≤ 10000 ∧
      (x.price.toNat * pgus.toNat + x.baseFee.toNat) * (s.bips x.proverAddress).toNat < 2 ^ 256) :
    wp (clearPay x) (s.touchTx x.requestId) (fun _ _ => True) (fun _ _ => False) := by
  obtain ⟨acct, hacct⟩ := Option.isSome_iff_exists.mp h4
  unfold clearPay
  simp only [wp_bind]
  refine wp_liftO_some _ h1 ?_
  obtain ⟨m, hm, hmn⟩ := u256mul_some (a := x.price) (b := u256OfU64 pgus)
    (by rw [u256OfU64_toNat]; omega)
  rw [u256OfU64_toNat] at hmn
  obtain ⟨cost, hc, hcn⟩ := u256add_some (a := m) (b := x.baseFee) (by omega)
  refine wp_liftE_ok hm (wp_liftE_ok hc (wp_require_ok (by simpa [u256OfU64_toNat] using h3) ?_))
  simp only [wp_getAcc, Ledger.acct_touchTx]
  refine wp_liftO_some _ hacct ?_
  have hbal : acct.balance.toNat = s.bal x.requestSigner := by
    simp [Ledger.bal, Ledger.acctD, hacct]
  rw [wp_ite, hbal]
  refine ⟨fun _ => by simp only [wp_bind, wp_markTx, wp_pure], fun hge => ?_⟩
  obtain ⟨⟨tr, htr⟩, hb, hov⟩ := h5 (by omega)
  simp only [wp_bind, wp_markTx, Ledger.mark_touchTx]
  generalize hk : Ledger.mark s x.requestId true = k
  have hkT : k.total < 2 ^ 256 := by rw [← hk]; exact hT
  have hle : cost.toNat ≤ k.bal x.requestSigner := by rw [← hk, Ledger.bal_mark]; omega
  refine wp_deduct_ok hle (wp_parseAddr_ok htr ?_)
  simp only [wp_getAcc]
  have hsome : ((k.debit x.requestSigner cost).acct x.proverAddress).isSome := by
    rw [Ledger.acct_isSome_debit, ← hk, Ledger.acct_mark, hp]; simp
  obtain ⟨pa, hpa⟩ := Option.isSome_iff_exists.mp hsome
  refine wp_liftO_some _ hpa ?_
  have hbips : pa.stakerFeeBips = s.bips x.proverAddress := by
    have : (k.debit x.requestSigner cost).bips x.proverAddress = s.bips x.proverAddress := by
      rw [← hk]; simp
    rw [← this]
    simp [Ledger.bips, Ledger.acctD, hpa]
  rw [hbips]
  have hcost : cost.toNat = x.price.toNat * pgus.toNat + x.baseFee.toNat := by omega
  have hst : cost.toNat * (s.bips x.proverAddress).toNat / 10000 ≤ cost.toNat := by
    apply Nat.div_le_of_le_mul
    rw [Nat.mul_comm 10000]
    exact Nat.mul_le_mul_left _ hb
  have hcl := cost.isLt
  have hcap : cappedStakerBips 0 (s.bips x.proverAddress).toNat = (s.bips x.proverAddress).toNat := by
    unfold cappedStakerBips; omega
  have hfee := (fee_ok_iff cost protocolFeeBips (s.bips x.proverAddress) 0
      (BitVec.ofNat 256 (cost.toNat * (s.bips x.proverAddress).toNat / 10000))
      (BitVec.ofNat 256 (cost.toNat - cost.toNat * (s.bips x.proverAddress).toNat / 10000))).mpr (by
        have hp0 : protocolFeeBips.toNat = 0 := rfl
        rw [hp0, hcap]
        refine ⟨by omega, hb, by omega, by rw [hcost]; exact hov, by simp, u256_ofNat_toNat (by omega), ?_⟩
        rw [u256_ofNat_toNat (n := cost.toNat * (s.bips x.proverAddress).toNat / 10000) (by omega),
          u256_ofNat_toNat (by omega)]
        have : (0 : U256).toNat = 0 := rfl
        omega)
  refine wp_liftE_ok hfee ?_
  generalize (BitVec.ofNat 256 (cost.toNat * (s.bips x.proverAddress).toNat / 10000)) = st at hfee
  generalize (BitVec.ofNat 256 (cost.toNat - cost.toNat * (s.bips x.proverAddress).toNat / 10000)) = o at hfee
  have hsum := fee_sum hfee
  generalize (0 : U256) = p at hfee hsum
  have t1 := k.total_debit x.requestSigner cost hle
  have g2 : (k.debit x.requestSigner cost).bal tr + p.toNat < 2 ^ 256 := by
    have := (k.debit x.requestSigner cost).bal_le_total tr; omega
  have t2 := (k.debit x.requestSigner cost).total_credit tr p g2
  have g3 : ((k.debit x.requestSigner cost).credit tr p).bal x.proverAddress + st.toNat
      < 2 ^ 256 := by
    have := ((k.debit x.requestSigner cost).credit tr p).bal_le_total x.proverAddress; omega
  have t3 := ((k.debit x.requestSigner cost).credit tr p).total_credit x.proverAddress st g3
  have g4 : (((k.debit x.requestSigner cost).credit tr p).credit x.proverAddress st).bal
      x.proverOwner + o.toNat < 2 ^ 256 := by
    have := (((k.debit x.requestSigner cost).credit tr p).credit x.proverAddress st).bal_le_total
      x.proverOwner
    omega
  exact wp_add_ok g2 (wp_add_ok g3 (wp_add_ok g4 trivial))

end Verif
