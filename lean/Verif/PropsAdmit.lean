import Verif.Admit
import Verif.Toy
import Verif.PropsLedger
/-
# C56: exactly which transactions succeed and which are charged as reverts

C02 - C15 say what an accepted transaction implies. Here the converse is added: the listed conditions
are also sufficient, so no well-formed, fresh, correctly signed and covered transaction can be
refused. The conditions are written out below in terms of the messages, of `SignedBy`/`identity`
(`Verif/Spec.lean`) and of what can be read off the ledger.

All theorems assume that the sum of all balances fits in 256 bits, which `c17_reachable` shows for
every history whose deposits do.
-/

namespace Verif

/-- An on-chain transaction is the next one: the expected id, at a later position on L1. -/
def NextOnchain (s : Ledger) (id block logIndex : U64) : Prop :=
  id = s.sc.onchainTxId ∧
    (s.sc.onchainBlock.toNat < block.toNat ∨
      (block = s.sc.onchainBlock ∧ s.sc.onchainLogIndex.toNat < logIndex.toNat))

/-- A transfer message (variant 6) for this ledger, signed by `signer` and not yet processed. -/
structure GoodTransfer (env : Env) (t : Signed TransferBody) (s : Ledger) (body : TransferBody)
    (signer to : Address) (amount fee : U256) : Prop where
  hasBody : t.body = some body
  variant : body.variant = 6
  domain : body.domain = B256.bytes s.sc.domain
  signed : SignedBy env (.transfer body) t.format t.signature signer
  fresh : s.done (identity env signer (.transfer body)) = false
  hasTo : body.to = Address.bytes to
  hasAmount : env.parseU256 body.amount = some amount
  hasFee : env.parseU256 body.fee = some fee
  auctioneer : ∃ a, body.auctioneer = Address.bytes a

/-- A withdrawal message (variant 7) for this ledger, signed by `signer` and not yet processed. An
account without owner can only be withdrawn by itself. -/
structure GoodWithdraw (env : Env) (t : Signed WithdrawBody) (s : Ledger) (body : WithdrawBody)
    (signer account : Address) (amount fee : U256) : Prop where
  hasBody : t.body = some body
  variant : body.variant = 7
  domain : body.domain = B256.bytes s.sc.domain
  signed : SignedBy env (.withdraw body) t.format t.signature signer
  fresh : s.done (identity env signer (.withdraw body)) = false
  hasAccount : body.account = Address.bytes account
  authorised : s.owner account = 0 → account = signer
  hasAmount : env.parseU256 body.amount = some amount
  hasFee : env.parseU256 body.fee = some fee
  auctioneer : ∃ a, body.auctioneer = Address.bytes a

/-- A delegation message (variant 5) for this ledger, signed by the owner of an existing prover and
not yet processed. -/
structure GoodDelegate (env : Env) (t : Signed DelegateBody) (s : Ledger) (body : DelegateBody)
    (prover : Address) (fee : U256) : Prop where
  hasBody : t.body = some body
  variant : body.variant = 5
  domain : body.domain = B256.bytes s.sc.domain
  hasProver : body.prover = Address.bytes prover
  present : (s.acct prover).isSome
  signed : SignedBy env (.delegate body) t.format t.signature (s.owner prover)
  fresh : s.done (identity env (s.owner prover) (.delegate body)) = false
  hasFee : env.parseU256 body.fee = some fee
  auctioneer : ∃ a, body.auctioneer = Address.bytes a

/-- The request, bid, settlement and execution messages of a clear fit together: right variants and
domain, same fresh request, signed by the requester, the prover's delegated signer, the request's
auctioneer and the request's executor, prover whitelisted, price within the request's maximum. -/
structure GoodClear (env : Env) (c : ClearTx) (s : Ledger) (request : RequestBody) (bid : BidBody)
    (settle : SettleBody) (execute : ExecuteBody) (requester prover : Address) (id : B256)
    (baseFee maxPrice price : U256) : Prop where
  hasRequest : c.request.body = some request
  hasBid : c.bid.body = some bid
  hasSettle : c.settle.body = some settle
  hasExecute : c.execute.body = some execute
  variants : request.variant = 0 ∧ bid.variant = 1 ∧ settle.variant = 2 ∧ execute.variant = 3
  domains : request.domain = B256.bytes s.sc.domain ∧ bid.domain = B256.bytes s.sc.domain ∧
    settle.domain = B256.bytes s.sc.domain ∧ execute.domain = B256.bytes s.sc.domain
  hasId : id = identity env requester (.request request)
  ids : bid.requestId = B256.bytes id ∧ settle.requestId = B256.bytes id ∧
    execute.requestId = B256.bytes id
  fresh : s.done id = false
  requestSigned : SignedBy env (.request request) c.request.format c.request.signature requester
  hasProver : bid.prover = Address.bytes prover
  present : (s.acct prover).isSome
  bidSigned : SignedBy env (.bid bid) c.bid.format c.bid.signature (s.signer prover)
  whitelist : request.whitelist = [] ∨ Address.bytes prover ∈ request.whitelist
  settleSigned : ∃ a, request.auctioneer = Address.bytes a ∧
    SignedBy env (.settle settle) c.settle.format c.settle.signature a
  executeSigned : ∃ a, request.executor = Address.bytes a ∧
    SignedBy env (.execute execute) c.execute.format c.execute.signature a
  hasBaseFee : env.parseU256 request.baseFee = some baseFee
  hasMaxPrice : env.parseU256 request.maxPricePerPgu = some maxPrice
  hasPrice : env.parseU256 bid.amount = some price
  priceLe : price.toNat ≤ maxPrice.toNat

/-- The clear carries a fulfilment (variant 4) of request `id` and the required evidence: a proof for
compressed proofs of the current version, the verifier's signature over the fulfilment for the other
modes. -/
structure GoodFulfil (env : Env) (c : ClearTx) (s : Ledger) (request : RequestBody)
    (execute : ExecuteBody) (id : B256) : Prop where
  executed : execute.executionStatus = 2
  vkHash : request.vkHash.length = 32
  evidence : ∃ f body signer pvh, c.fulfill = some f ∧ f.body = some body ∧
    SignedBy env (.fulfill body) f.format f.signature signer ∧
    body.domain = B256.bytes s.sc.domain ∧ body.variant = 4 ∧ body.requestId = B256.bytes id ∧
    execute.publicValuesHash = some pvh ∧ pvh.length = 32 ∧
    (∀ h, request.publicValuesHash = some h → h = pvh) ∧
    ((request.mode = 2 ∧ primaryVersionPrefix.isPrefixOf request.version = true ∧
        ∃ vk, bytesToWordsBE request.vkHash = some vk ∧ env.verify vk pvh = true) ∨
     (((request.mode = 2 ∧ primaryVersionPrefix.isPrefixOf request.version = false) ∨
          request.mode = 3 ∨ request.mode = 4) ∧
       ∃ sig verifier, c.verify = some sig ∧ request.verifier = Address.bytes verifier ∧
         env.recover (B256.bytes (identity env signer (.fulfill body))) sig = some verifier))

theorem inOrder_iff {T : Type} (o : Onchain T) (s : Ledger) :
    InOrder o s.sc ↔ NextOnchain s o.onchainTx o.block o.logIndex := by
  unfold InOrder NextOnchain
  refine and_congr_right fun _ => ?_
  constructor
  · rintro ⟨h1, h2⟩
    by_cases he : o.block = s.sc.onchainBlock
    · refine .inr ⟨he, ?_⟩
      rw [BitVec.le_def] at h2
      exact Nat.lt_of_not_le fun h => h2 ⟨he, h⟩
    · left
      rw [BitVec.lt_def] at h1
      have hn : o.block.toNat ≠ s.sc.onchainBlock.toNat := fun h => he (BitVec.eq_of_toNat_eq h)
      omega
  · rintro (h | ⟨h1, h2⟩)
    · rw [BitVec.lt_def, BitVec.le_def]
      refine ⟨by omega, fun hh => ?_⟩
      rw [hh.1] at h; omega
    · rw [BitVec.lt_def, BitVec.le_def, h1]
      exact ⟨by omega, fun hh => by omega⟩

/-- The two accepting results of `execute` in terms of the closed form of the run. -/
theorem execute_results (env : Env) (tx : Tx) (s : Ledger) :
    (∀ r, (Ledger.execute env tx s).1 = .ok r → ∃ s1, TxPost env s (.applied r) s1 tx) ∧
    (∀ v, (Ledger.execute env tx s).1 = .revert v → ∃ s1, TxPost env s (.reverted v) s1 tx) := by
  rcases he : Ledger.execute env tx s with ⟨res, s'⟩
  constructor
  · intro r hr
    simp only at hr
    subst hr
    obtain ⟨out, s1, hp, hres, _⟩ := execute_accepted he rfl
    cases out with
    | applied r' => cases hres; exact ⟨s1, hp⟩
    | reverted v => cases hres
  · intro v hr
    simp only at hr
    subst hr
    obtain ⟨out, s1, hp, hres, _⟩ := execute_accepted he rfl
    cases out with
    | applied r' => cases hres
    | reverted v => cases hres; exact ⟨s1, hp⟩

/-- A run that cannot panic gives a result that satisfies the closed form. -/
theorem execute_runs {env : Env} {tx : Tx} {s : Ledger} {Q : Outcome → Ledger → Prop}
    (h : wp (execInner env tx) s Q (fun _ _ => False)) :
    (∃ r s1, (Ledger.execute env tx s).1 = .ok r ∧ TxPost env s (.applied r) s1 tx) ∨
    (∃ v s1, (Ledger.execute env tx s).1 = .revert v ∧ TxPost env s (.reverted v) s1 tx) := by
  obtain ⟨out, s1, _, he⟩ := execute_of_wp h
  cases out with
  | applied r =>
    have hr : (Ledger.execute env tx s).1 = .ok r := by rw [he]; rfl
    obtain ⟨s2, hp⟩ := (execute_results env tx s).1 r hr
    exact .inl ⟨r, s2, hr, hp⟩
  | reverted v =>
    have hr : (Ledger.execute env tx s).1 = .revert v := by rw [he]; rfl
    obtain ⟨s2, hp⟩ := (execute_results env tx s).2 v hr
    exact .inr ⟨v, s2, hr, hp⟩

/-! ## Deposits and prover creation -/

/-- C56: a deposit succeeds exactly when it is the next on-chain transaction and the credited balance
still fits. It is never a revert. -/
theorem c56_deposit (env : Env) (d : Onchain Deposit) (s : Ledger) :
    ((∃ r, (Ledger.execute env (.deposit d) s).1 = .ok r) ↔
      NextOnchain s d.onchainTx d.block d.logIndex ∧
        s.bal d.action.account + d.action.amount.toNat < 2 ^ 256) ∧
    ∀ v, (Ledger.execute env (.deposit d) s).1 ≠ .revert v := by
  rw [← inOrder_iff]
  refine ⟨⟨?_, ?_⟩, ?_⟩
  · rintro ⟨r, hr⟩
    obtain ⟨s1, h1, _, h2, _⟩ := (execute_results env _ s).1 r hr
    exact ⟨h1, h2.1⟩
  · rintro ⟨h1, h2⟩
    obtain ⟨out, s1, ⟨r, rfl⟩, he⟩ := execute_of_wp (env := env) (tx := .deposit d) (deposit_runs h1 h2)
    exact ⟨r, by rw [he]; rfl⟩
  · intro v hv
    obtain ⟨s1, _, h, _⟩ := (execute_results env _ s).2 v hv
    cases h

/-- C56: a prover creation succeeds exactly when it is the next on-chain transaction. -/
theorem c56_create_prover (env : Env) (c : Onchain CreateProver) (s : Ledger) :
    ((∃ r, (Ledger.execute env (.createProver c) s).1 = .ok r) ↔
      NextOnchain s c.onchainTx c.block c.logIndex) ∧
    ∀ v, (Ledger.execute env (.createProver c) s).1 ≠ .revert v := by
  rw [← inOrder_iff]
  refine ⟨⟨?_, ?_⟩, ?_⟩
  · rintro ⟨r, hr⟩
    obtain ⟨s1, h1, _⟩ := (execute_results env _ s).1 r hr
    exact h1
  · intro h1
    obtain ⟨out, s1, ⟨r, rfl⟩, he⟩ :=
      execute_of_wp (env := env) (tx := .createProver c) (createProver_runs h1)
    exact ⟨r, by rw [he]; rfl⟩
  · intro v hv
    obtain ⟨s1, _, h, _⟩ := (execute_results env _ s).2 v hv
    cases h

/-- Witness: the concrete deposit and creation are next in line. -/
example : NextOnchain Toy.s0 1 10 3 ∧ NextOnchain Toy.s1 2 10 4 := by
  refine ⟨⟨by decide +kernel, .inl (by decide +kernel)⟩, ⟨by decide +kernel, .inr (by decide +kernel)⟩⟩

/-! ## Transfers -/

theorem goodTransfer_iff {env : Env} {t : Signed TransferBody} {s : Ledger} {x : TransferData} :
    TransferPre env t s x → GoodTransfer env t s x.body x.signer x.to x.amount x.fee := fun h =>
  ⟨h.body, (variant_iff _).2.2.2.2.2.2.1.mp h.variant, h.domain, h.signed, h.fresh, h.to, h.amount, h.fee,
    ⟨_, h.auctioneer⟩⟩

theorem GoodTransfer.pre {env : Env} {t : Signed TransferBody} {s : Ledger} {body : TransferBody}
    {signer to : Address} {amount fee : U256} (h : GoodTransfer env t s body signer to amount fee) :
    ∃ a, TransferPre env t s ⟨body, signer, to, amount, fee, a⟩ := by
  obtain ⟨a, ha⟩ := h.auctioneer
  exact ⟨a, h.hasBody, (variant_iff _).2.2.2.2.2.2.1.mpr h.variant, h.domain, h.signed, h.fresh, h.hasTo, h.hasAmount,
    h.hasFee, ha⟩

/-- C56: a transfer succeeds exactly when it is good and the signer's balance covers amount and fee. -/
theorem c56_transfer (env : Env) (t : Signed TransferBody) (s : Ledger) (hT : s.total < 2 ^ 256) :
    (∃ r, (Ledger.execute env (.transfer t) s).1 = .ok r) ↔
      ∃ body signer to amount fee, GoodTransfer env t s body signer to amount fee ∧
        amount.toNat + fee.toNat ≤ s.bal signer := by
  constructor
  · rintro ⟨r, hr⟩
    obtain ⟨s1, x, hpre, ⟨req, bal, ho, _⟩ | ⟨_, hle, _⟩⟩ := (execute_results env _ s).1 r hr
    · cases ho
    · exact ⟨_, _, _, _, _, goodTransfer_iff hpre, hle⟩
  · rintro ⟨body, signer, to, amount, fee, hg, hle⟩
    obtain ⟨a, hpre⟩ := hg.pre
    have hb := s.bal_lt signer
    obtain ⟨out, s1, hq, he⟩ := execute_of_wp (env := env) (tx := .transfer t)
      (transfer_runs hT hpre (by simp only; omega))
    rcases hq with ⟨v, rfl, hlt⟩ | ⟨r, rfl, _⟩
    · simp only at hlt; omega
    · exact ⟨r, by rw [he]; rfl⟩

/-- C56: a transfer is a revert exactly when it is good but not covered. -/
theorem c56_transfer_revert (env : Env) (t : Signed TransferBody) (s : Ledger)
    (hT : s.total < 2 ^ 256) :
    (∃ v, (Ledger.execute env (.transfer t) s).1 = .revert v) ↔
      ∃ body signer to amount fee, GoodTransfer env t s body signer to amount fee ∧
        s.bal signer < amount.toNat + fee.toNat ∧ amount.toNat + fee.toNat < 2 ^ 256 := by
  constructor
  · rintro ⟨v, hr⟩
    obtain ⟨s1, x, hpre, ⟨req, bal, ho, _, hreq, hlt, _⟩ | ⟨ho, _⟩⟩ := (execute_results env _ s).2 v hr
    · exact ⟨_, _, _, _, _, goodTransfer_iff hpre, hlt, hreq ▸ req.isLt⟩
    · cases ho
  · rintro ⟨body, signer, to, amount, fee, hg, hlt, hov⟩
    obtain ⟨a, hpre⟩ := hg.pre
    obtain ⟨out, s1, hq, he⟩ := execute_of_wp (env := env) (tx := .transfer t)
      (transfer_runs hT hpre hov)
    rcases hq with ⟨v, rfl, _⟩ | ⟨r, rfl, hle⟩
    · exact ⟨v, by rw [he]; rfl⟩
    · simp only at hle; omega

/-- Witness: Alice's transfer of 100 with fee 7 is good and covered; her transfer of 5000 is good and
not covered; the total of the state is 1000. -/
example : Toy.s2.total < 2 ^ 256 ∧
    (∃ r, (Ledger.execute Toy.env (Toy.transfer Toy.bob 100 7) Toy.s2).1 = .ok r) ∧
    (∃ v, (Ledger.execute Toy.env (Toy.transfer Toy.bob 5000 7) Toy.s2).1 = .revert v) := by
  refine ⟨by decide +kernel, ⟨none, by decide +kernel⟩, ⟨_, (by decide +kernel :
    (Ledger.execute Toy.env (Toy.transfer Toy.bob 5000 7) Toy.s2).1 = .revert (.insufficientTransferBalance Toy.alice 5007 1000))⟩⟩

/-! ## Withdrawals -/

theorem goodWithdraw_of {env : Env} {t : Signed WithdrawBody} {s : Ledger} {x : WithdrawData}
    (h : WithdrawPre env t s x) : GoodWithdraw env t s x.body x.signer x.account x.amount x.fee :=
  ⟨h.body, (variant_iff _).2.2.2.2.2.2.2.mp h.variant, h.domain, h.signed, h.fresh, h.account, h.authorised,
    h.amount, h.fee, ⟨_, h.auctioneer⟩⟩

theorem GoodWithdraw.pre {env : Env} {t : Signed WithdrawBody} {s : Ledger} {body : WithdrawBody}
    {signer account : Address} {amount fee : U256}
    (h : GoodWithdraw env t s body signer account amount fee) :
    ∃ a, WithdrawPre env t s ⟨body, signer, account, amount, fee, a⟩ := by
  obtain ⟨a, ha⟩ := h.auctioneer
  exact ⟨a, h.hasBody, (variant_iff _).2.2.2.2.2.2.2.mpr h.variant, h.domain, h.signed, h.fresh, h.hasAccount,
    h.authorised, h.hasAmount, h.hasFee, ha⟩

/-- A withdrawal is covered: by one balance if the account withdraws for itself, otherwise the account
covers the amount and the signer the fee. -/
def WithdrawCovered (s : Ledger) (signer account : Address) (amount fee : U256) : Prop :=
  if account = signer then amount.toNat + fee.toNat ≤ s.bal account
  else amount.toNat ≤ s.bal account ∧ fee.toNat ≤ s.bal signer

theorem withdraw_unique {env : Env} {t : Signed WithdrawBody} {s : Ledger} {x y : WithdrawData}
    (h : WithdrawPre env t s x) (h' : WithdrawPre env t s y) :
    y.signer = x.signer ∧ y.account = x.account ∧ y.amount = x.amount ∧ y.fee = x.fee := by
  have hb : y.body = x.body := Option.some.inj (h'.body.symm.trans h.body)
  exact ⟨signedBy_unique (hb ▸ h'.signed) h.signed,
    Address.bytes_inj ((hb ▸ h'.account).symm.trans h.account),
    Option.some.inj ((hb ▸ h'.amount).symm.trans h.amount),
    Option.some.inj ((hb ▸ h'.fee).symm.trans h.fee)⟩

/-- The reported balance of a reverted withdrawal shows that it is not covered. -/
theorem withdraw_reverted {env : Env} {t : Signed WithdrawBody} {s : Ledger} :
    wp (withdrawProg env t) s (fun out _ => ∀ v, out = .reverted v → ∃ x, WithdrawPre env t s x ∧
      ¬ WithdrawCovered s x.signer x.account x.amount x.fee ∧
      (x.account = x.signer → x.amount.toNat + x.fee.toNat < 2 ^ 256)) (fun _ _ => True) := by
  unfold withdrawProg
  simp only [wp_bind, wp_liftO, wp_checkVariant, wp_checkDomain, wp_parseFormat, wp_liftE,
    wp_checkAndMark, wp_parseAddr, wp_getAcc, wp_ite, wp_pure, wp_updAcc_add, wp_require,
    wp_updAcc_deduct, imp_true_iff, and_true]
  intro body hbody hvar f hf signer hs hdom hfresh account haccount hauth amount hamount fee hfee auct
    hauct
  have hpre : WithdrawPre env t s ⟨body, signer, account, amount, fee, auct⟩ :=
    ⟨hbody, hvar, hdom, verifySigned_ok hf hs, hfresh, haccount, by
      rw [Ledger.acct_mark, ownerOrZero_acct] at hauth
      intro h0
      exact Decidable.byContradiction fun hne => hauth ⟨h0, hne⟩, hamount, hfee, hauct⟩
  simp only [Ledger.acct_mark, balanceOrZero_acct]
  constructor
  · intro heq total htot
    rw [u256add_ok] at htot
    refine ⟨fun hlt v _ => ⟨_, hpre, ?_, fun _ => htot ▸ total.isLt⟩, fun hge => ?_⟩
    · unfold WithdrawCovered; simp only [if_pos heq]; omega
    · intro _ _ _ v hv; cases hv
  · intro hne
    refine ⟨fun hlt v _ => ⟨_, hpre, ?_, fun he => absurd he hne⟩, fun hge => ?_⟩
    · unfold WithdrawCovered; simp only [if_neg hne]; omega
    refine ⟨fun hlt v _ => ⟨_, hpre, ?_, fun he => absurd he hne⟩, fun hge' => ?_⟩
    · unfold WithdrawCovered; simp only [if_neg hne]; omega
    · intro _ _ _ v hv; cases hv

theorem withdraw_applied {env : Env} {t : Signed WithdrawBody} {s s1 : Ledger} {r : Option Receipt}
    (h : TxPost env s (.applied r) s1 (.withdraw t)) : ∃ x, WithdrawPre env t s x ∧
      WithdrawCovered s x.signer x.account x.amount x.fee := by
  obtain ⟨x, hpre, ⟨_, _, _, ho, _⟩ | ⟨_, h1, h2, h3, _⟩⟩ := h
  · cases ho
  · refine ⟨x, hpre, ?_⟩
    unfold WithdrawCovered
    split
    · rename_i he; exact h2 he
    · rename_i hne; exact ⟨h1, h3 hne⟩

theorem execute_reverted_wp {env : Env} {tx : Tx} {s : Ledger} {P : Revert → Prop}
    (h : wp (execInner env tx) s (fun out _ => ∀ v, out = .reverted v → P v) (fun _ _ => True))
    {v : Revert} (hv : (Ledger.execute env tx s).1 = .revert v) : P v := by
  have k := (wp_iff.mp h).1
  unfold Prog.runL at k
  unfold Ledger.execute execute at hv
  split at hv
  · cases hv
  · rename_i heq
    cases hv
    exact k _ _ heq _ rfl
  · cases hv

/-- C56: a withdrawal succeeds exactly when it is good and covered. -/
theorem c56_withdraw (env : Env) (t : Signed WithdrawBody) (s : Ledger) (hT : s.total < 2 ^ 256) :
    (∃ r, (Ledger.execute env (.withdraw t) s).1 = .ok r) ↔
      ∃ body signer account amount fee, GoodWithdraw env t s body signer account amount fee ∧
        WithdrawCovered s signer account amount fee := by
  constructor
  · rintro ⟨r, hr⟩
    obtain ⟨s1, hp⟩ := (execute_results env _ s).1 r hr
    obtain ⟨x, hpre, hc⟩ := withdraw_applied hp
    exact ⟨_, _, _, _, _, goodWithdraw_of hpre, hc⟩
  · rintro ⟨body, signer, account, amount, fee, hg, hc⟩
    obtain ⟨a, hpre⟩ := hg.pre
    have hb := s.bal_lt account
    have hruns := withdraw_runs hT hpre (by
      intro he; simp only at he ⊢
      unfold WithdrawCovered at hc; rw [if_pos he] at hc; omega)
    rcases execute_runs (tx := .withdraw t) hruns with ⟨r, _, hr, _⟩ | ⟨v, s1, hv, _⟩
    · exact ⟨r, hr⟩
    · obtain ⟨x, hx, hnc, _⟩ := execute_reverted_wp (tx := .withdraw t) withdraw_reverted hv
      obtain ⟨e1, e2, e3, e4⟩ := withdraw_unique hpre hx
      rw [e1, e2, e3, e4] at hnc
      exact absurd hc hnc

/-- C56: a withdrawal is a revert exactly when it is good but not covered. -/
theorem c56_withdraw_revert (env : Env) (t : Signed WithdrawBody) (s : Ledger)
    (hT : s.total < 2 ^ 256) :
    (∃ v, (Ledger.execute env (.withdraw t) s).1 = .revert v) ↔
      ∃ body signer account amount fee, GoodWithdraw env t s body signer account amount fee ∧
        ¬ WithdrawCovered s signer account amount fee ∧
        (account = signer → amount.toNat + fee.toNat < 2 ^ 256) := by
  constructor
  · rintro ⟨v, hr⟩
    obtain ⟨x, hx, hnc, ho⟩ := execute_reverted_wp (tx := .withdraw t) withdraw_reverted hr
    exact ⟨_, _, _, _, _, goodWithdraw_of hx, hnc, ho⟩
  · rintro ⟨body, signer, account, amount, fee, hg, hnc, ho⟩
    obtain ⟨a, hpre⟩ := hg.pre
    rcases execute_runs (tx := .withdraw t) (withdraw_runs hT hpre ho) with ⟨r, s1, _, hp⟩ | ⟨v, _, hv, _⟩
    · obtain ⟨x, hx, hc⟩ := withdraw_applied hp
      obtain ⟨e1, e2, e3, e4⟩ := withdraw_unique hpre hx
      rw [e1, e2, e3, e4] at hc
      exact absurd hc hnc
    · exact ⟨v, hv⟩

/-- Witness: a covered and an uncovered withdrawal. -/
example : (∃ r, (Ledger.execute Toy.env (Toy.withdraw Toy.alice Toy.alice 30 2) Toy.s2).1 = .ok r) ∧
    (∃ v, (Ledger.execute Toy.env (Toy.withdraw Toy.alice Toy.alice 999 2) Toy.s2).1 = .revert v) := by
  refine ⟨⟨_, (by decide +kernel :
    (Ledger.execute Toy.env (Toy.withdraw Toy.alice Toy.alice 30 2) Toy.s2).1 = .ok (some (.withdraw .completed ⟨Toy.alice, 30⟩)))⟩,
    ⟨_, (by decide +kernel :
    (Ledger.execute Toy.env (Toy.withdraw Toy.alice Toy.alice 999 2) Toy.s2).1 = .revert (.insufficientWithdrawBalance Toy.alice 1001 1000))⟩⟩

/-! ## Delegations -/

theorem goodDelegate_of {env : Env} {t : Signed DelegateBody} {s : Ledger} {x : DelegateData}
    (h : DelegatePre env t s x) : GoodDelegate env t s x.body x.prover x.fee :=
  ⟨h.body, (variant_iff _).2.2.2.2.2.1.mp h.variant, h.domain, h.prover, h.present, h.owner.symm ▸ h.signed,
    h.owner.symm ▸ h.fresh, h.fee, ⟨_, h.auctioneer⟩⟩

theorem GoodDelegate.pre {env : Env} {t : Signed DelegateBody} {s : Ledger} {body : DelegateBody}
    {prover : Address} {fee : U256} (h : GoodDelegate env t s body prover fee) :
    ∃ a, DelegatePre env t s ⟨body, s.owner prover, prover, fee, a⟩ := by
  obtain ⟨a, ha⟩ := h.auctioneer
  exact ⟨a, h.hasBody, (variant_iff _).2.2.2.2.2.1.mpr h.variant, h.domain, h.signed, h.fresh, h.hasProver, h.hasFee,
    ha, h.present, rfl⟩

theorem delegate_unique {env : Env} {t : Signed DelegateBody} {s : Ledger} {x y : DelegateData}
    (h : DelegatePre env t s x) (h' : DelegatePre env t s y) :
    y.signer = x.signer ∧ y.fee = x.fee ∧ y.body = x.body := by
  have hb : y.body = x.body := Option.some.inj (h'.body.symm.trans h.body)
  exact ⟨signedBy_unique (hb ▸ h'.signed) h.signed,
    Option.some.inj ((hb ▸ h'.fee).symm.trans h.fee), hb⟩

/-- C56: a delegation succeeds exactly when it is good, names a well-formed delegate and the owner's
balance covers the fee. -/
theorem c56_delegate (env : Env) (t : Signed DelegateBody) (s : Ledger) (hT : s.total < 2 ^ 256) :
    (∃ r, (Ledger.execute env (.delegate t) s).1 = .ok r) ↔
      ∃ body prover fee, GoodDelegate env t s body prover fee ∧
        (∃ a, body.delegate = Address.bytes a) ∧ fee.toNat ≤ s.bal (s.owner prover) := by
  constructor
  · rintro ⟨r, hr⟩
    obtain ⟨s1, x, hpre, ⟨bal, ho, _⟩ | ⟨_, hle, _, dl, _, hdl, _⟩⟩ := (execute_results env _ s).1 r hr
    · cases ho
    · exact ⟨_, _, _, goodDelegate_of hpre, ⟨dl, hdl⟩, hpre.owner ▸ hle⟩
  · rintro ⟨body, prover, fee, hg, ha, hle⟩
    obtain ⟨a, hpre⟩ := hg.pre
    rcases execute_runs (tx := .delegate t) (delegate_runs hT hpre (fun _ => ha)) with
      ⟨r, _, hr, _⟩ | ⟨v, s1, _, x, hx, ⟨bal, _, _, hlt, _⟩ | ⟨ho, _⟩⟩
    · exact ⟨r, hr⟩
    · obtain ⟨e1, e2, _⟩ := delegate_unique hpre hx
      rw [e1, e2] at hlt; simp only at hlt; omega
    · cases ho

/-- C56: a delegation is a revert exactly when it is good and the owner's balance does not cover the
fee (the delegate's address is not looked at in that case). -/
theorem c56_delegate_revert (env : Env) (t : Signed DelegateBody) (s : Ledger)
    (hT : s.total < 2 ^ 256) :
    (∃ v, (Ledger.execute env (.delegate t) s).1 = .revert v) ↔
      ∃ body prover fee, GoodDelegate env t s body prover fee ∧ s.bal (s.owner prover) < fee.toNat := by
  constructor
  · rintro ⟨v, hr⟩
    obtain ⟨s1, x, hpre, ⟨bal, _, _, hlt, _⟩ | ⟨ho, _⟩⟩ := (execute_results env _ s).2 v hr
    · exact ⟨_, _, _, goodDelegate_of hpre, hpre.owner ▸ hlt⟩
    · cases ho
  · rintro ⟨body, prover, fee, hg, hlt⟩
    obtain ⟨a, hpre⟩ := hg.pre
    rcases execute_runs (tx := .delegate t) (delegate_runs hT hpre (fun hle => by
        simp only at hle; omega)) with
      ⟨r, s1, _, x, hx, ⟨bal, ho, _⟩ | ⟨_, hle, _⟩⟩ | ⟨v, _, hv, _⟩
    · cases ho
    · obtain ⟨e1, e2, _⟩ := delegate_unique hpre hx
      rw [e1, e2] at hle; simp only at hle; omega
    · exact ⟨v, hv⟩

/-- Witness: the owner delegates without fee; a fee of 5 is not covered. -/
example : (∃ r, (Ledger.execute Toy.env (Toy.delegate Toy.owner 0) Toy.s2).1 = .ok r) ∧
    (∃ v, (Ledger.execute Toy.env (Toy.delegate Toy.owner 5) Toy.s2).1 = .revert v) := by
  refine ⟨⟨none, by decide +kernel⟩,
    ⟨_, (by decide +kernel :
    (Ledger.execute Toy.env (Toy.delegate Toy.owner 5) Toy.s2).1 = .revert (.insufficientDelegateBalance Toy.owner 5 0))⟩⟩

/-! ## Clears -/

theorem goodClear_of {env : Env} {c : ClearTx} {s : Ledger} {x : ClearCtx} {g : ClearSigners}
    (h : ClearPre env c s x g) : GoodClear env c s x.request x.bid x.settle x.execute x.requestSigner
      x.proverAddress x.requestId x.baseFee x.maxPricePerPgu x.price where
  hasRequest := h.request
  hasBid := h.bid
  hasSettle := h.settle
  hasExecute := h.execute
  variants := ⟨(variant_iff _).1.mp h.requestVariant, (variant_iff _).2.1.mp h.bidVariant,
    (variant_iff _).2.2.1.mp h.settleVariant, (variant_iff _).2.2.2.1.mp h.executeVariant⟩
  domains := ⟨h.requestDomain, h.bidDomain, h.settleDomain, h.executeDomain⟩
  hasId := h.requestId
  ids := ⟨h.bidId, h.settleId, h.executeId⟩
  fresh := h.fresh
  requestSigned := h.requestSigned
  hasProver := h.prover
  present := h.present
  bidSigned := h.delegated ▸ h.bidSigned
  whitelist := h.whitelist
  settleSigned := ⟨_, h.auctioneer, h.settleSigned⟩
  executeSigned := ⟨_, h.executor, h.executeSigned⟩
  hasBaseFee := h.baseFee
  hasMaxPrice := h.maxPrice
  hasPrice := h.price
  priceLe := h.priceLe

/-- The context of a good clear. -/
def clearCtx (s : Ledger) (request : RequestBody) (bid : BidBody)
    (settle : SettleBody) (execute : ExecuteBody) (requester prover : Address) (id : B256)
    (baseFee maxPrice price : U256) : ClearCtx :=
  { request, bid, settle, execute, requestSigner := requester, requestId := id,
    proverAddress := prover, proverOwner := s.owner prover, baseFee, maxPricePerPgu := maxPrice, price }

theorem GoodClear.pre {env : Env} {c : ClearTx} {s : Ledger} {request : RequestBody} {bid : BidBody}
    {settle : SettleBody} {execute : ExecuteBody} {requester prover : Address} {id : B256}
    {baseFee maxPrice price : U256}
    (h : GoodClear env c s request bid settle execute requester prover id baseFee maxPrice price) :
    ∃ g, ClearPre env c s
      (clearCtx s request bid settle execute requester prover id baseFee maxPrice price) g := by
  obtain ⟨a, ha, hsa⟩ := h.settleSigned
  obtain ⟨e, he, hse⟩ := h.executeSigned
  refine ⟨⟨s.signer prover, a, e⟩, ?_⟩
  exact {
    request := h.hasRequest, bid := h.hasBid, settle := h.hasSettle, execute := h.hasExecute
    requestSigned := h.requestSigned, bidSigned := h.bidSigned, settleSigned := hsa
    executeSigned := hse
    requestVariant := (variant_iff _).1.mpr h.variants.1
    bidVariant := (variant_iff _).2.1.mpr h.variants.2.1
    settleVariant := (variant_iff _).2.2.1.mpr h.variants.2.2.1
    executeVariant := (variant_iff _).2.2.2.1.mpr h.variants.2.2.2
    requestDomain := h.domains.1, bidDomain := h.domains.2.1, settleDomain := h.domains.2.2.1
    executeDomain := h.domains.2.2.2
    requestId := h.hasId, bidId := h.ids.1, settleId := h.ids.2.1, executeId := h.ids.2.2
    fresh := h.fresh, prover := h.hasProver, present := h.present, owner := rfl, delegated := rfl
    whitelist := h.whitelist, auctioneer := ha, executor := he
    baseFee := h.hasBaseFee, maxPrice := h.hasMaxPrice, price := h.hasPrice, priceLe := h.priceLe }

theorem goodFulfil_iff {env : Env} {c : ClearTx} {s : Ledger} {x : ClearCtx} :
    (∃ f b g p, ProofPre env c s x f b g p) ↔ GoodFulfil env c s x.request x.execute x.requestId := by
  constructor
  · rintro ⟨f, b, g, p, h⟩
    exact ⟨h.executed, h.vkLength, f, b, g, p, h.fulfill, h.body, h.signed, h.domain,
      (variant_iff _).2.2.2.2.1.mp h.variant, h.requestId, h.pvhSome, h.pvhLength, h.requestPvh, h.verified⟩
  · rintro ⟨h1, h2, f, b, g, p, h3, h4, h5, h6, h7, h8, h9, h10, h11, h12⟩
    exact ⟨f, b, g, p, h1, h3, h4, h5, h6, (variant_iff _).2.2.2.2.1.mpr h7, h8, h9, h10, h11, h2, h12⟩

theorem clear_ctx_unique {env : Env} {c : ClearTx} {s : Ledger} {x y : ClearCtx} {g g' : ClearSigners}
    (h : ClearPre env c s x g) (h' : ClearPre env c s y g') : x = y := by
  obtain ⟨_, s1, hr, hx, _⟩ := wp_total (clearAuth_runs h)
  obtain ⟨_, s2, hr', hy, _⟩ := wp_total (clearAuth_runs h')
  rw [hr] at hr'
  have := (Prod.mk.inj hr').1
  injection this with this
  rw [← hx, ← hy, this]

/-- The run of a good clear whose requester is to be punished. -/
theorem punished_runs {env : Env} {c : ClearTx} {s : Ledger} {x : ClearCtx} {g : ClearSigners}
    {str : Bytes} {p : U256} (hT : s.total < 2 ^ 256) (hpre : ClearPre env c s x g)
    (h0 : x.execute.executionStatus = 3) (h1 : x.execute.punishment = some str)
    (h2 : env.parseU256 str = some p)
    (h3 : x.maxPricePerPgu.toNat * x.request.gasLimit.toNat + x.baseFee.toNat < 2 ^ 256)
    (h4 : p.toNat ≤ x.maxPricePerPgu.toNat * x.request.gasLimit.toNat + x.baseFee.toNat)
    (h5 : p.toNat ≤ s.bal x.requestSigner → ∃ t, x.request.treasury = Address.bytes t) :
    wp (clearProg env c) s (fun _ _ => True) (fun _ _ => False) := by
  unfold clearProg
  rw [wp_bind]
  refine wp_mono (clearAuth_runs hpre) ?_ (fun _ _ h => h)
  rintro y s1 ⟨rfl, rfl⟩
  rw [wp_ite]
  exact ⟨fun _ => clearPunish_runs hT h1 h2 h3 h4 h5, fun hn => absurd h0 hn⟩

/-- The run of a good and fulfilled clear. -/
theorem paid_runs {env : Env} {c : ClearTx} {s : Ledger} {x : ClearCtx} {g : ClearSigners}
    {pgus : U64} (hT : s.total < 2 ^ 256) (hpre : ClearPre env c s x g)
    (h0 : GoodFulfil env c s x.request x.execute x.requestId) (h1 : x.execute.pgus = some pgus)
    (h2 : x.price.toNat * pgus.toNat + x.baseFee.toNat < 2 ^ 256)
    (h3 : pgus.toNat ≤ x.request.gasLimit.toNat) (h4 : (s.acct x.requestSigner).isSome)
    (h5 : x.price.toNat * pgus.toNat + x.baseFee.toNat ≤ s.bal x.requestSigner →
      (∃ t, x.request.treasury = Address.bytes t) ∧ (s.bips x.proverAddress).toNat ≤ 10000 ∧
      (x.price.toNat * pgus.toNat + x.baseFee.toNat) * (s.bips x.proverAddress).toNat < 2 ^ 256) :
    wp (clearProg env c) s (fun _ _ => True) (fun _ _ => False) := by
  obtain ⟨f, b, g', p, hp⟩ := goodFulfil_iff.mpr h0
  unfold clearProg
  rw [wp_bind]
  refine wp_mono (clearAuth_runs hpre) ?_ (fun _ _ h => h)
  rintro y s1 ⟨rfl, rfl⟩
  rw [wp_ite]
  refine ⟨fun hn => absurd (h0.executed.symm.trans hn) (by decide), fun _ => ?_⟩
  rw [wp_bind]
  have hp' : ProofPre env c (s.touchTx y.requestId) y f b g' p :=
    { hp with domain := by simpa using hp.domain }
  refine wp_mono (clearProof_runs hp') ?_ (fun _ _ h => h)
  rintro _ s2 rfl
  exact clearPay_runs hT h1 h2 h3 h4 hpre.present h5

/-- In the punishment branch the ceiling itself fits in 256 bits. -/
theorem clear_ceiling_fits (env : Env) (c : ClearTx) (s : Ledger) :
    wp (clearProg env c) s (fun _ _ => ∃ x g, ClearPre env c s x g ∧ (x.execute.executionStatus = 3 →
      x.maxPricePerPgu.toNat * x.request.gasLimit.toNat + x.baseFee.toNat < 2 ^ 256))
      (fun _ _ => True) := by
  unfold clearProg
  rw [wp_bind]
  refine wp_mono (clearAuth_wp env c s) ?_ (fun _ _ h => h)
  rintro x s1 ⟨⟨g, hpre⟩, rfl⟩
  rw [wp_ite]
  refine ⟨fun h3 => ?_, fun h3 => ?_⟩
  · unfold clearPunish
    rw [wp_bind]
    simp only [wp_liftO, imp_true_iff, and_true]
    intro str _
    rw [wp_bind]
    simp only [wp_liftO, imp_true_iff, and_true]
    intro p _
    rw [wp_bind]
    simp only [wp_liftE, imp_true_iff, and_true]
    intro m hm
    rw [wp_bind]
    simp only [wp_liftE, imp_true_iff, and_true]
    intro mx hmx
    rw [u256mul_ok, u256OfU64_toNat] at hm
    rw [u256add_ok] at hmx
    have hlt := mx.isLt
    refine wp_mono (Q := fun _ _ => True) ?_ (fun _ _ _ => ⟨x, g, hpre, fun _ => by omega⟩) (fun _ _ h => h)
    rw [wp_iff]
    exact ⟨fun _ _ _ => trivial, fun _ _ _ => trivial⟩
  · refine wp_mono (Q := fun _ _ => True) ?_ (fun _ _ _ => ⟨x, g, hpre, fun h => absurd h h3⟩)
      (fun _ _ h => h)
    rw [wp_iff]
    exact ⟨fun _ _ _ => trivial, fun _ _ _ => trivial⟩

theorem execute_ok_wp {env : Env} {tx : Tx} {s : Ledger} {P : Prop}
    (h : wp (execInner env tx) s (fun _ _ => P) (fun _ _ => True))
    (hr : (Ledger.execute env tx s).1.accepted = true) : P := by
  have k := (wp_iff.mp h).1
  unfold Prog.runL at k
  unfold Ledger.execute execute at hr
  split at hr
  · rename_i heq; exact k _ _ heq
  · rename_i heq; exact k _ _ heq
  · cases hr

/-- `c` is a good clear of `request` by `requester`, carried out by `prover` with the required evidence,
that charges `cost = price * pgus + base fee`, with `pgus` within the gas limit. -/
def FulfilledClear (env : Env) (c : ClearTx) (s : Ledger) (request : RequestBody)
    (requester prover : Address) (cost : Nat) : Prop :=
  ∃ bid settle execute id baseFee maxPrice price, ∃ pgus : U64,
    GoodClear env c s request bid settle execute requester prover id baseFee maxPrice price ∧
    GoodFulfil env c s request execute id ∧ execute.pgus = some pgus ∧
    pgus.toNat ≤ request.gasLimit.toNat ∧ (s.acct requester).isSome ∧
    cost = price.toNat * pgus.toNat + baseFee.toNat ∧ cost < 2 ^ 256

/-- `c` is a good clear of `request` by `requester` whose execution was found unexecutable (status 3),
that charges `punishment`, which is within the request's ceiling. -/
def FailedClear (env : Env) (c : ClearTx) (s : Ledger) (request : RequestBody) (requester : Address)
    (punishment : Nat) : Prop :=
  ∃ bid settle execute prover id baseFee maxPrice price, ∃ str, ∃ p : U256,
    GoodClear env c s request bid settle execute requester prover id baseFee maxPrice price ∧
    execute.executionStatus = 3 ∧ execute.punishment = some str ∧ env.parseU256 str = some p ∧
    punishment = p.toNat ∧
    punishment ≤ maxPrice.toNat * request.gasLimit.toNat + baseFee.toNat ∧
    maxPrice.toNat * request.gasLimit.toNat + baseFee.toNat < 2 ^ 256

/-- C56: a clear succeeds exactly when the request names a well-formed treasury and either it is
fulfilled, the requester's balance covers the cost and the prover's staker fee is at most 100 percent
(and cost times fee fits in 256 bits), or its execution failed and the requester's balance covers the
punishment. -/
theorem c56_clear (env : Env) (c : ClearTx) (s : Ledger) (hT : s.total < 2 ^ 256) :
    (∃ r, (Ledger.execute env (.clear c) s).1 = .ok r) ↔
      ∃ request requester, (∃ t, request.treasury = Address.bytes t) ∧
        ((∃ prover cost, FulfilledClear env c s request requester prover cost ∧
            cost ≤ s.bal requester ∧ (s.bips prover).toNat ≤ 10000 ∧
            cost * (s.bips prover).toNat < 2 ^ 256) ∨
         (∃ punishment, FailedClear env c s request requester punishment ∧
            punishment ≤ s.bal requester)) := by
  constructor
  · rintro ⟨r, hr⟩
    obtain ⟨s1, x, g, hpre, ⟨h3, str, p, hstr, hpar, hmax, ⟨bal, ho, _⟩ | ⟨tr, _, hle, htr, _⟩⟩ |
      ⟨hful, pgus, cost, hpgus, hcost, hlim, hsome, ⟨bal, ho, _⟩ | ⟨tr, p, st, o, _, hle, htr, hfee, _⟩⟩⟩ :=
      (execute_results env _ s).1 r hr
    · cases ho
    · obtain ⟨y, g', hy, hb⟩ := execute_ok_wp (tx := .clear c) (clear_ceiling_fits env c s)
        (by rw [hr]; rfl)
      have := clear_ctx_unique hy hpre
      subst this
      exact ⟨_, _, ⟨tr, htr⟩, .inr ⟨p.toNat, ⟨_, _, _, _, _, _, _, _, str, p, goodClear_of hpre, h3, hstr, hpar,
        rfl, hmax, hb h3⟩, hle⟩⟩
    · cases ho
    · obtain ⟨_, hb, _, hm, _⟩ := (fee_ok_iff _ _ _ _ _ _).mp hfee
      have hcap : cappedStakerBips protocolFeeBips.toNat (s.bips x.proverAddress).toNat =
          (s.bips x.proverAddress).toNat := by
        have : protocolFeeBips.toNat = 0 := rfl
        unfold cappedStakerBips; omega
      rw [hcap] at hm
      exact ⟨_, _, ⟨tr, htr⟩, .inl ⟨_, cost.toNat, ⟨_, _, _, _, _, _, _, pgus, goodClear_of hpre,
        goodFulfil_iff.mp hful, hpgus, hlim, hsome, hcost, cost.isLt⟩, hle, hb, hm⟩⟩
  · rintro ⟨request, requester, ht, ⟨prover, cost, ⟨bid, settle, execute, id, base, max, price, pgus, hg, hf,
      hpgus, hlim, hsome, rfl, hlt⟩, hle, hb, hm⟩ | ⟨_, ⟨bid, settle, execute, prover, id, base, max, price,
      str, p, hg, h3, hstr, hpar, rfl, hmax, hlt⟩, hle⟩⟩
    · obtain ⟨g, hpre⟩ := hg.pre
      rcases execute_runs (tx := .clear c) (paid_runs hT hpre hf hpgus hlt hlim hsome
        (fun _ => ⟨ht, hb, hm⟩)) with ⟨r, _, hr, _⟩ | ⟨v, s1, _, x, g', hx, hcase⟩
      · exact ⟨r, hr⟩
      · exfalso
        have := clear_ctx_unique hx hpre
        subst this
        rcases hcase with ⟨h3, _⟩ | ⟨_, pgus', cost, hpgus', hcost, _, _, ⟨bal, _, _, hlt', _⟩ |
          ⟨_, _, _, _, ho, _⟩⟩
        · exact absurd (hf.executed.symm.trans h3) (by decide)
        · have := Option.some.inj (hpgus.symm.trans hpgus')
          subst this
          simp only [clearCtx] at hcost hlt'
          omega
        · cases ho
    · obtain ⟨g, hpre⟩ := hg.pre
      rcases execute_runs (tx := .clear c) (punished_runs hT hpre h3 hstr hpar hlt hmax
        (fun _ => ht)) with ⟨r, _, hr, _⟩ | ⟨v, s1, _, x, g', hx, hcase⟩
      · exact ⟨r, hr⟩
      · exfalso
        have := clear_ctx_unique hx hpre
        subst this
        rcases hcase with ⟨_, str', p', hstr', hpar', _, ⟨bal, _, _, hlt', _⟩ | ⟨_, ho, _⟩⟩ | ⟨hful, _⟩
        · have := Option.some.inj (hstr.symm.trans hstr')
          subst this
          have := Option.some.inj (hpar.symm.trans hpar')
          subst this
          simp only [clearCtx] at hlt'
          omega
        · cases ho
        · have := (goodFulfil_iff.mp hful).executed
          exact absurd (this.symm.trans h3) (by decide)

/-- C56: a clear is a revert exactly when it is good and fulfilled, respectively failed, and the
requester's balance does not cover the cost, respectively the punishment. -/
theorem c56_clear_revert (env : Env) (c : ClearTx) (s : Ledger) (hT : s.total < 2 ^ 256) :
    (∃ v, (Ledger.execute env (.clear c) s).1 = .revert v) ↔
      ∃ request requester,
        (∃ prover cost, FulfilledClear env c s request requester prover cost ∧ s.bal requester < cost) ∨
        (∃ punishment, FailedClear env c s request requester punishment ∧
          s.bal requester < punishment) := by
  constructor
  · rintro ⟨v, hr⟩
    obtain ⟨s1, x, g, hpre, ⟨h3, str, p, hstr, hpar, hmax, ⟨bal, _, _, hlt, _⟩ | ⟨tr, ho, _⟩⟩ |
      ⟨hful, pgus, cost, hpgus, hcost, hlim, hsome, ⟨bal, _, _, hlt, _⟩ | ⟨_, _, _, _, ho, _⟩⟩⟩ :=
      (execute_results env _ s).2 v hr
    · obtain ⟨y, g', hy, hb⟩ := execute_ok_wp (tx := .clear c) (clear_ceiling_fits env c s)
        (by rw [hr]; rfl)
      have := clear_ctx_unique hy hpre
      subst this
      exact ⟨_, _, .inr ⟨p.toNat, ⟨_, _, _, _, _, _, _, _, str, p, goodClear_of hpre, h3, hstr, hpar,
        rfl, hmax, hb h3⟩, hlt⟩⟩
    · cases ho
    · exact ⟨_, _, .inl ⟨_, cost.toNat, ⟨_, _, _, _, _, _, _, pgus, goodClear_of hpre,
        goodFulfil_iff.mp hful, hpgus, hlim, hsome, hcost, cost.isLt⟩, hlt⟩⟩
    · cases ho
  · rintro ⟨request, requester, ⟨prover, cost, ⟨bid, settle, execute, id, base, max, price, pgus, hg, hf,
      hpgus, hlim, hsome, rfl, hlt⟩, hle⟩ | ⟨_, ⟨bid, settle, execute, prover, id, base, max, price,
      str, p, hg, h3, hstr, hpar, rfl, hmax, hlt⟩, hle⟩⟩
    · obtain ⟨g, hpre⟩ := hg.pre
      rcases execute_runs (tx := .clear c) (paid_runs hT hpre hf hpgus hlt hlim hsome
        (fun h => absurd h (by simp only [clearCtx]; omega))) with
        ⟨r, s1, _, x, g', hx, hcase⟩ | ⟨v, _, hr, _⟩
      · exfalso
        have := clear_ctx_unique hx hpre
        subst this
        rcases hcase with ⟨h3, _⟩ | ⟨_, pgus', cost, hpgus', hcost, _, _, ⟨bal, ho, _⟩ |
          ⟨_, _, _, _, _, hle', _⟩⟩
        · exact absurd (hf.executed.symm.trans h3) (by decide)
        · cases ho
        · have := Option.some.inj (hpgus.symm.trans hpgus')
          subst this
          simp only [clearCtx] at hcost hle'
          omega
      · exact ⟨v, hr⟩
    · obtain ⟨g, hpre⟩ := hg.pre
      rcases execute_runs (tx := .clear c) (punished_runs hT hpre h3 hstr hpar hlt hmax
        (fun h => absurd h (by simp only [clearCtx]; omega))) with
        ⟨r, s1, _, x, g', hx, hcase⟩ | ⟨v, _, hr, _⟩
      · exfalso
        have := clear_ctx_unique hx hpre
        subst this
        rcases hcase with ⟨_, str', p', hstr', hpar', _, ⟨bal, ho, _⟩ | ⟨_, _, hle', _⟩⟩ | ⟨hful, _⟩
        · cases ho
        · have := Option.some.inj (hstr.symm.trans hstr')
          subst this
          have := Option.some.inj (hpar.symm.trans hpar')
          subst this
          simp only [clearCtx] at hle'
          omega
        · have := (goodFulfil_iff.mp hful).executed
          exact absurd (this.symm.trans h3) (by decide)
      · exact ⟨v, hr⟩

/-- Witness: a fulfilled clear that is paid, a failed one that is punished, and a fulfilled one that
reverts because the requester has withdrawn everything. -/
example :
    (∃ r, (Ledger.execute Toy.env (.clear (Toy.clear Toy.request 2 Toy.prover Toy.owner)) Toy.s2).1
      = .ok r) ∧
    (∃ r, (Ledger.execute Toy.env (.clear (Toy.clear Toy.request 3 Toy.prover Toy.owner)) Toy.s2).1
      = .ok r) ∧
    (∃ v, (Ledger.execute Toy.env (.clear (Toy.clear Toy.request 2 Toy.prover Toy.owner))
      (Ledger.execute Toy.env (Toy.withdraw Toy.alice Toy.alice 1000 0) Toy.s2).2).1 = .revert v) := by
  refine ⟨⟨none, by decide +kernel⟩, ⟨none, by decide +kernel⟩,
    ⟨_, (by decide +kernel : (Ledger.execute Toy.env (.clear (Toy.clear Toy.request 2 Toy.prover Toy.owner))
      (Ledger.execute Toy.env (Toy.withdraw Toy.alice Toy.alice 1000 0) Toy.s2).2).1 =
        .revert (.insufficientClearBalance Toy.alice 110 0))⟩⟩

end Verif
