import Verif.PropsAdmit
import Verif.PropsLedger2
import Verif.PropsBatch
import Verif.GenesisRoot
/-
# Property C105: the deadline of a request

The requester signs a deadline, a cycle limit, a strategy and a minimum auction period. The ledger and the state
transition program do not look at them (`crates/vapp/src/state.rs:606-981`, `programs/vapp/stf/src/main.rs:29-102`).
-/

namespace Verif

/-! ## Specification -/

/-- A request with its nonce, strategy, inputs, deadline, cycle limit and minimum auction period blanked out
(`RequestProofRequestBody`, `crates/types/network/src/types.rs:104-171`). -/
def RequestBody.terms (q : RequestBody) : RequestBody :=
  { q with nonce := 0, strategy := 0, stdinUri := [], deadline := 0, cycleLimit := 0, minAuctionPeriod := 0,
           stdinPrivate := false }

/-- Whoever signed the first message signed the second one. -/
def SameSigner (env : Env) (b b' : Body) (f f' : I32) (sig sig' : Bytes) : Prop :=
  ∀ a, SignedBy env b f sig a → SignedBy env b' f' sig' a

/-- `c'` is the clear `c` issued again for a request `q'` in place of `q`: all messages are signed by the same keys
again, and say the same but for the identity of the request. -/
structure Reissued (env : Env) (c c' : ClearTx) (q q' : RequestBody) (requester : Address) : Prop where
  request : c.request.body = some q
  request' : c'.request.body = some q'
  signed : SignedBy env (.request q) c.request.format c.request.signature requester
  signed' : SignedBy env (.request q') c'.request.format c'.request.signature requester
  bid : ∃ b, c.bid.body = some b ∧
    c'.bid.body = some { b with requestId := B256.bytes (identity env requester (.request q')) } ∧
    SameSigner env (.bid b) (.bid { b with requestId := B256.bytes (identity env requester (.request q')) })
      c.bid.format c'.bid.format c.bid.signature c'.bid.signature
  settle : ∃ b, c.settle.body = some b ∧
    c'.settle.body = some { b with requestId := B256.bytes (identity env requester (.request q')) } ∧
    SameSigner env (.settle b) (.settle { b with requestId := B256.bytes (identity env requester (.request q')) })
      c.settle.format c'.settle.format c.settle.signature c'.settle.signature
  execute : ∃ b, c.execute.body = some b ∧
    c'.execute.body = some { b with requestId := B256.bytes (identity env requester (.request q')) } ∧
    SameSigner env (.execute b) (.execute { b with requestId := B256.bytes (identity env requester (.request q')) })
      c.execute.format c'.execute.format c.execute.signature c'.execute.signature
  fulfill : ∀ f b, c.fulfill = some f → f.body = some b → ∃ f', c'.fulfill = some f' ∧
    f'.body = some { b with requestId := B256.bytes (identity env requester (.request q')) } ∧
    SameSigner env (.fulfill b) (.fulfill { b with requestId := B256.bytes (identity env requester (.request q')) })
      f.format f'.format f.signature f'.signature ∧
    ∀ a sig v, c.verify = some sig → env.recover (B256.bytes (identity env a (.fulfill b))) sig = some v →
      ∃ sig', c'.verify = some sig' ∧ env.recover (B256.bytes (identity env a
        (.fulfill { b with requestId := B256.bytes (identity env requester (.request q')) }))) sig' = some v

/-! ## Lemmas -/

section
variable {env : Env} {c c' : ClearTx} {q q' : RequestBody} {requester : Address} {s : Ledger}

theorem Reissued.good (h : Reissued env c c' q q' requester) (ht : q'.terms = q.terms)
    (hf : s.done (identity env requester (.request q')) = false) {request : RequestBody} {bid : BidBody}
    {settle : SettleBody} {execute : ExecuteBody} {r prover : Address} {id : B256} {baseFee maxPrice price : U256}
    (g : GoodClear env c s request bid settle execute r prover id baseFee maxPrice price) :
    request = q ∧ r = requester ∧
    GoodClear env c' s q' { bid with requestId := B256.bytes (identity env requester (.request q')) }
      { settle with requestId := B256.bytes (identity env requester (.request q')) }
      { execute with requestId := B256.bytes (identity env requester (.request q')) } requester prover
      (identity env requester (.request q')) baseFee maxPrice price := by
  have e1 : request = q := Option.some.inj (g.hasRequest.symm.trans h.request)
  subst e1
  have e2 : r = requester := signedBy_fun g.requestSigned h.signed
  subst e2
  have t := RequestBody.mk.inj ht
  obtain ⟨b, hb, hb', hbs⟩ := h.bid
  obtain ⟨u, hu, hu', hus⟩ := h.settle
  obtain ⟨x, hx, hx', hxs⟩ := h.execute
  have e3 : b = bid := Option.some.inj (hb.symm.trans g.hasBid)
  have e4 : u = settle := Option.some.inj (hu.symm.trans g.hasSettle)
  have e5 : x = execute := Option.some.inj (hx.symm.trans g.hasExecute)
  subst e3 e4 e5
  obtain ⟨_, t2, t3, t4, _, _, _, _, t9, _, t11, t12, t13, t14, t15, t16, t17, t18, t19, t20, _⟩ := t
  refine ⟨rfl, rfl, h.request', hb', hu', hx', ?_, ?_, rfl, ⟨rfl, rfl, rfl⟩, hf, h.signed', g.hasProver, g.present,
    hbs _ g.bidSigned, ?_, ?_, ?_, ?_, ?_, g.hasPrice, g.priceLe⟩
  · rw [t19]; exact g.variants
  · rw [t12]; exact g.domains
  · rw [t11]; exact g.whitelist
  · rw [t13]; obtain ⟨a, h1, h2⟩ := g.settleSigned; exact ⟨a, h1, hus _ h2⟩
  · rw [t14]; obtain ⟨a, h1, h2⟩ := g.executeSigned; exact ⟨a, h1, hxs _ h2⟩
  · rw [t17]; exact g.hasBaseFee
  · rw [t18]; exact g.hasMaxPrice

theorem Reissued.goodFulfil (h : Reissued env c c' q q' requester) (ht : q'.terms = q.terms) {execute : ExecuteBody}
    {id : B256} (g : GoodFulfil env c s q execute id) :
    GoodFulfil env c' s q' { execute with requestId := B256.bytes (identity env requester (.request q')) }
      (identity env requester (.request q')) := by
  have t := RequestBody.mk.inj ht
  obtain ⟨_, t2, t3, t4, _, _, _, _, t9, _, t11, t12, t13, t14, t15, t16, t17, t18, t19, t20, _⟩ := t
  obtain ⟨f, body, signer, pvh, h1, h2, h3, h4, h5, h6, h7, h8, h9, h10⟩ := g.evidence
  obtain ⟨f', k1, k2, k3, k4⟩ := h.fulfill f body h1 h2
  refine ⟨g.executed, by rw [t2]; exact g.vkHash, f', _, signer, pvh, k1, k2, k3 _ h3, h4, h5, rfl, h7, h8,
    by rw [t16]; exact h9, ?_⟩
  rw [t4, t3, t2, t15]
  rcases h10 with h10 | ⟨hm, sig, v, v1, v2, v3⟩
  · exact .inl h10
  · obtain ⟨sig', w1, w2⟩ := k4 signer sig v v1 v3
    exact .inr ⟨hm, sig', v, w1, v2, w2⟩

/-- **C105 (the ledger).** If a clear succeeds, then so does the same clear issued again for a request that differs in its
deadline, cycle limit, strategy, minimum auction period, inputs and nonce (in any way), by the same signers, and
every account ends with the same balance. -/
theorem c105_ignored (hT : s.total < 2 ^ 256) (h : Reissued env c c' q q' requester) (ht : q'.terms = q.terms)
    (hf : s.done (identity env requester (.request q')) = false) (r : Option Receipt) (s1 : Ledger)
    (hs : Ledger.execute env (.clear c) s = (.ok r, s1)) :
    ∃ r' s2, Ledger.execute env (.clear c') s = (.ok r', s2) ∧ ∀ a, s2.bal a = s1.bal a := by
  have t := RequestBody.mk.inj ht
  obtain ⟨_, t2, t3, t4, _, _, _, _, t9, _, t11, t12, t13, t14, t15, t16, t17, t18, t19, t20, _⟩ := t
  have hgood := (c56_clear env c s hT).mp ⟨r, by rw [hs]⟩
  obtain ⟨request, rq, htr, hcase⟩ := hgood
  have hgood' : ∃ request requester, (∃ t, request.treasury = Address.bytes t) ∧
        ((∃ prover cost, FulfilledClear env c' s request requester prover cost ∧
            cost ≤ s.bal requester ∧ (s.bips prover).toNat ≤ 10000 ∧
            cost * (s.bips prover).toNat < 2 ^ 256) ∨
         (∃ punishment, FailedClear env c' s request requester punishment ∧
            punishment ≤ s.bal requester)) := by
    rcases hcase with ⟨prover, cost, ⟨bid, settle, execute, id, base, max, price, pgus, hg, hful,
      hpgus, hlim, hsome, rfl, hlt⟩, hle, hb, hm⟩ | ⟨_, ⟨bid, settle, execute, prover, id, base, max, price,
      str, p, hg, h3, hstr, hpar, rfl, hmax, hlt⟩, hle⟩
    · obtain ⟨e1, e2, g'⟩ := h.good ht hf hg
      subst e1 e2
      exact ⟨q', rq, by rw [t20]; exact htr, .inl ⟨prover, _, ⟨_, _, _, _, base, max, price, pgus, g',
        h.goodFulfil ht hful, hpgus, by rw [t9]; exact hlim, hsome, rfl, hlt⟩, hle, hb, hm⟩⟩
    · obtain ⟨e1, e2, g'⟩ := h.good ht hf hg
      subst e1 e2
      exact ⟨q', rq, by rw [t20]; exact htr, .inr ⟨_, ⟨_, _, _, prover, _, base, max, price, str, p, g', h3, hstr, hpar,
        rfl, by rw [t9]; exact hmax, by rw [t9]; exact hlt⟩, hle⟩⟩
  obtain ⟨r', hr'⟩ := (c56_clear env c' s hT).mpr hgood'
  refine ⟨r', (Ledger.execute env (.clear c') s).2, by rw [← hr'], fun a => ?_⟩
  have hs' : Ledger.execute env (.clear c') s = (.ok r', (Ledger.execute env (.clear c') s).2) := by rw [← hr']
  generalize (Ledger.execute env (.clear c') s).2 = s2 at hs' ⊢
  obtain ⟨b, hb, hb', _⟩ := h.bid
  obtain ⟨x, hx, hx', _⟩ := h.execute
  by_cases h3 : x.executionStatus = 3
  · obtain ⟨_, _, tr, str, p, a1, a2, a3, a4, a5, _, a7, _⟩ := c12_punished env c s s1 r hs x hx h3
    obtain ⟨_, _, tr', str', p', b1, b2, b3, b4, b5, _, b7, _⟩ := c12_punished env c' s s2 r' hs' _ hx' h3
    cases h.request.symm.trans a1
    cases h.request'.symm.trans b1
    cases signedBy_fun h.signed a2
    cases signedBy_fun h.signed' b2
    have e1 : tr' = tr := Address.bytes_inj (b3.symm.trans (t20.trans a3))
    cases a4.symm.trans b4
    cases a5.symm.trans b5
    subst e1
    have := a7 a
    have := b7 a
    omega
  · have n1 : ∀ e, c.execute.body = some e → e.executionStatus ≠ 3 := fun e he => by
      cases hx.symm.trans he; exact h3
    have n2 : ∀ e, c'.execute.body = some e → e.executionStatus ≠ 3 := fun e he => by
      cases hx'.symm.trans he; exact h3
    obtain ⟨_, _, _, _, pr, tr, base, price, pgus, st, ow, a1, a2, a3, a4, a5, a6, a7, a8, a9, _, a11, a12, a13, _⟩ :=
      c12_fulfilled env c s s1 r hs n1
    obtain ⟨_, _, _, _, pr', tr', base', price', pgus', st', ow', b1, b2, b3, b4, b5, b6, b7, b8, b9, _, b11, b12, b13, _⟩ :=
      c12_fulfilled env c' s s2 r' hs' n2
    cases h.request.symm.trans a1
    cases h.request'.symm.trans b1
    cases hb.symm.trans a2
    cases hb'.symm.trans b2
    cases hx.symm.trans a3
    cases hx'.symm.trans b3
    cases signedBy_fun h.signed a4
    cases signedBy_fun h.signed' b4
    have e1 : tr' = tr := Address.bytes_inj (b6.symm.trans (t20.trans a6))
    have e2 : pr' = pr := Address.bytes_inj (b5.symm.trans a5)
    subst e1 e2
    rw [t17] at b7
    cases a7.symm.trans b7
    cases a8.symm.trans b8
    cases a9.symm.trans b9
    have e3 : st' = st := b11.trans a11.symm
    have e4 : ow' = ow := by omega
    subst e3 e4
    have := a13 a
    have := b13 a
    omega

end

/-! ## The deadline -/

namespace Toy

/-- Alice's request with deadline `d`. -/
def requestBy (d : U64) : RequestBody := { request with deadline := d }

theorem requestId_identity (r : RequestBody) : identity env alice (.request r) = requestId r := rfl

theorem any_signer (b b' : Body) (f : I32) (sig : Bytes) : SameSigner env b b' f f sig sig := by
  rintro a (⟨h1, h2⟩ | ⟨_, m, h2, _⟩)
  · exact .inl ⟨h1, h2⟩
  · exact nomatch h2

theorem reissued (d : U64) : Reissued env (clear request 2 prover prover) (clear (requestBy d) 2 prover prover) request
    (requestBy d) alice where
  request := rfl
  request' := rfl
  signed := .inl ⟨rfl, by decide +kernel⟩
  signed' := .inl ⟨rfl, show Address.ofBytes? (Address.bytes alice) = some alice by decide +kernel⟩
  bid := by
    rw [requestId_identity]
    exact ⟨_, rfl, rfl, any_signer _ _ _ _⟩
  settle := by
    rw [requestId_identity]
    exact ⟨_, rfl, rfl, any_signer _ _ _ _⟩
  execute := by
    rw [requestId_identity]
    exact ⟨_, rfl, rfl, any_signer _ _ _ _⟩
  fulfill := fun f b hf hb => by
    rw [requestId_identity]
    cases hf
    cases hb
    exact ⟨_, rfl, rfl, any_signer _ _ _ _, fun a sig v h1 h2 => ⟨sig, h1, h2⟩⟩

/-- The hypotheses of `c105_ignored` hold for every deadline. -/
theorem paid_by (d : U64) : ∃ r s', Ledger.execute env (.clear (clear (requestBy d) 2 prover prover)) s2 = (.ok r, s') ∧
    s'.bal prover = 27 := by
  have h1 : (Ledger.execute env (.clear (clear request 2 prover prover)) s2).1 = .ok none := by decide +kernel
  have h2 : (Ledger.execute env (.clear (clear request 2 prover prover)) s2).2.bal prover = 27 := by decide +kernel
  obtain ⟨r', s', h, hb⟩ := c105_ignored (s := s2) (by decide +kernel) (reissued d) rfl
    (by
      have : s2.transactions.list = [] := by decide +kernel
      unfold Ledger.done SMap.get?
      rw [this]
      rfl) none
    (Ledger.execute env (.clear (clear request 2 prover prover)) s2).2 (by rw [← h1])
  exact ⟨r', s', h, by rw [hb, h2]⟩

/-- A deposit, the creation of a prover, and a clear of Alice's request with deadline `d`. -/
def lateTxs (d : U64) : List (Int × Tx) := [(0, deposit1), (1, create2), (2, .clear (clear (requestBy d) 2 prover prover))]

theorem lateTxs_run (d : U64) : ∃ (rs : List Receipt) (s' : FullState), runTxs merkleOps merkleOps env (lateTxs d) (FullState.new dom) = some (rs, s') ∧
    s'.plain.bal prover = 27 := by
  obtain ⟨r, t, h, hb⟩ := paid_by d
  have e1 : Ledger.execute env deposit1 s0 = (.ok (some (.deposit 1 .completed ⟨alice, 1000⟩)), s1) :=
    Prod.ext (by decide +kernel) rfl
  have e2 : Ledger.execute env create2 s1 = (.ok (some (.createProver 2 .completed ⟨prover, owner, 2500⟩)), s2) :=
    Prod.ext (by decide +kernel) rfl
  have hp : ∃ rs, runTxs (mapOps Address Account) (mapOps B256 Bool) env (lateTxs d) s0 = some (rs, t) := by
    unfold lateTxs
    unfold Ledger.execute at e1 e2 h
    cases r with
    | none => simp only [runTxs, e1, e2, h]; exact ⟨_, rfl⟩
    | some r => simp only [runTxs, e1, e2, h]; exact ⟨_, rfl⟩
  obtain ⟨rs, hp⟩ := hp
  have hm := c20_merkle_batch env (lateTxs d) (FullState.new dom)
  have h0 : (FullState.new dom).plain = s0 := rfl
  rw [h0, hp] at hm
  cases hr : runTxs merkleOps merkleOps env (lateTxs d) (FullState.new dom) with
  | none => rw [hr] at hm; exact nomatch hm
  | some x =>
    rw [hr] at hm
    have := Option.some.inj hm
    refine ⟨x.1, x.2, rfl, ?_⟩
    rw [← (Prod.mk.inj this).2, hb]

end Toy

/-- **C105 as stated is false**, for every deadline and every time: there is a run of the state transition program
with that time, which it commits for the L1 contract, that pays a prover for a request with that deadline. -/
theorem c105_false (deadline time : U64) : ∃ (env : Env) (input : StfInput) (out : StepValues) (s s' : FullState)
    (rs : List Receipt) (i : Int) (c : ClearTx) (q : RequestBody) (prover : Address),
    stf env input = some out ∧ out.timestamp = time ∧ (i, .clear c) ∈ input.txs ∧ c.request.body = some q ∧
    q.deadline = deadline ∧ out.oldRoot = s.root env.keccak ∧
    runTxs merkleOps merkleOps env input.txs s = some (rs, s') ∧ out.newRoot = s'.root env.keccak ∧
    s.plain.bal prover < s'.plain.bal prover := by
  obtain ⟨rs, s', h, hb⟩ := Toy.lateTxs_run deadline
  obtain ⟨input, h1, h2, h3⟩ := prove_batch Toy.env ⟨Toy.lateTxs deadline, time⟩ (FullState.new Toy.dom) s' rs
    ⟨[], [], rfl, rfl⟩ h
  refine ⟨Toy.env, input, _, FullState.new Toy.dom, s', rs, 2, Toy.clear (Toy.requestBy deadline) 2 Toy.prover Toy.prover,
    Toy.requestBy deadline, Toy.prover, h3, rfl, by rw [h1]; simp [Toy.lateTxs], rfl, rfl, rfl, by rw [h1]; exact h, rfl, ?_⟩
  rw [hb]
  decide +kernel

/-- **C105, the part that holds.** A fulfilled request was signed by the requester, the price is at most the one they
allowed, the gas used is at most their gas limit (also if that is zero: the cycle limit is not used in its place), the
auctioneer and the executor are the ones they named and the prover is on their whitelist, if they gave one. Missing:
deadline, cycle limit and minimum auction period (`c105_ignored`). -/
theorem c105_terms_partial (env : Env) (c : ClearTx) (s s' : Ledger) (r : Option Receipt)
    (h : Ledger.execute env (.clear c) s = (.ok r, s'))
    (hst : ∀ e, c.execute.body = some e → e.executionStatus ≠ 3) :
    ∃ q bid settle execute requester prover auctioneer executor price maxPrice pgus,
      c.request.body = some q ∧ c.bid.body = some bid ∧ c.settle.body = some settle ∧ c.execute.body = some execute ∧
      SignedBy env (.request q) c.request.format c.request.signature requester ∧
      env.parseU256 bid.amount = some price ∧ env.parseU256 q.maxPricePerPgu = some maxPrice ∧
      price.toNat ≤ maxPrice.toNat ∧
      execute.pgus = some pgus ∧ pgus.toNat ≤ q.gasLimit.toNat ∧
      q.auctioneer = Address.bytes auctioneer ∧ SignedBy env (.settle settle) c.settle.format c.settle.signature auctioneer ∧
      q.executor = Address.bytes executor ∧ SignedBy env (.execute execute) c.execute.format c.execute.signature executor ∧
      bid.prover = Address.bytes prover ∧ (q.whitelist ≠ [] → Address.bytes prover ∈ q.whitelist) := by
  obtain ⟨q, b, x, price, max, pgus, h1, h2, h3, h4, h5, h6, h7, h8⟩ := c11_factors env c s s' r h hst
  obtain ⟨q', b', u, x', rq, pr, au, ex, k1, k2, k3, k4, k5, _, _, _, k9, _, _, k12, k13, k14, k15, k16⟩ :=
    c13_signatures env c s s' (.ok r) h rfl
  cases h1.symm.trans k1
  cases h2.symm.trans k2
  cases h3.symm.trans k4
  exact ⟨q, b, u, x, rq, pr, au, ex, price, max, pgus, h1, h2, k3, h3, k5, h4, h5, h7, h6, h8, k12, k13, k14, k15, k9, k16⟩

end Verif
