import Verif.PropsNodeRun
import Verif.PropsAdmit
import Verif.PropsLedger2
import Verif.PropsBid
/-
# C75 and C76: what the node signs settles on the ledger, and at which price
-/

namespace Verif.Node

/-! ## Specification -/

/-- The ledger is the one the node is set up for: its key signs, numbers are written in decimal, the domain is the
node's, and its prover exists there and has delegated to the node's key. -/
structure Fits (env : Env) (cfg : Config) (s : Ledger) : Prop where
  signs : ∀ m, env.recover m (cfg.sign m) = some cfg.signer
  parses : ∀ bs (n : U256), bs ≠ [] → (∀ c ∈ bs, 48 ≤ c.toNat ∧ c.toNat ≤ 57) → decVal bs = n.toNat →
    env.parseU256 bs = some n
  domain : s.sc.domain = cfg.mainnetDomain
  present : (s.acct cfg.prover).isSome
  delegated : s.signer cfg.prover = cfg.signer

/-- The messages of the other parties in the clear `c` of the request `id`: request, settlement and execution are
for this ledger, fresh and signed, the prover is allowed, the price acceptable, and the execution succeeded with
`pgus` units of gas within the limit. -/
structure Others (env : Env) (cfg : Config) (c : ClearTx) (s : Ledger) (request : RequestBody) (requester : Address)
    (id : B256) (baseFee : U256) (pgus : U64) (pvh : Bytes) : Prop where
  goodRequest : c.request.body = some request ∧ request.variant = 0 ∧ request.domain = B256.bytes s.sc.domain ∧
    SignedBy env (.request request) c.request.format c.request.signature requester
  goodId : id = identity env requester (.request request) ∧ s.done id = false
  goodSettle : ∃ settle a, c.settle.body = some settle ∧ settle.variant = 2 ∧ settle.domain = B256.bytes s.sc.domain ∧
    settle.requestId = B256.bytes id ∧ request.auctioneer = Address.bytes a ∧
    SignedBy env (.settle settle) c.settle.format c.settle.signature a
  goodExecute : ∃ execute a, c.execute.body = some execute ∧ execute.variant = 3 ∧ execute.domain = B256.bytes s.sc.domain ∧
    execute.requestId = B256.bytes id ∧ request.executor = Address.bytes a ∧
    SignedBy env (.execute execute) c.execute.format c.execute.signature a ∧
    execute.executionStatus = 2 ∧ execute.pgus = some pgus ∧ execute.publicValuesHash = some pvh
  allowed : request.whitelist = [] ∨ Address.bytes cfg.prover ∈ request.whitelist
  goodBaseFee : env.parseU256 request.baseFee = some baseFee
  goodPrice : ∃ maxPrice, env.parseU256 request.maxPricePerPgu = some maxPrice ∧ cfg.price.toNat ≤ maxPrice.toNat
  gas : pgus.toNat ≤ request.gasLimit.toNat
  values : pvh.length = 32 ∧ request.vkHash.length = 32 ∧ ∀ h, request.publicValuesHash = some h → h = pvh

/-- The proof is accepted: the ledger's verifier accepts a compressed proof of the current version, or the request's
verifier has signed the node's fulfilment in the other cases. -/
def Accepted (env : Env) (cfg : Config) (c : ClearTx) (request : RequestBody) (pvh : Bytes) (body : FulfillBody) : Prop :=
  (request.mode = 2 ∧ primaryVersionPrefix.isPrefixOf request.version = true ∧
      ∃ vk, bytesToWordsBE request.vkHash = some vk ∧ env.verify vk pvh = true) ∨
  (((request.mode = 2 ∧ primaryVersionPrefix.isPrefixOf request.version = false) ∨ request.mode = 3 ∨ request.mode = 4) ∧
    ∃ sig verifier, c.verify = some sig ∧ request.verifier = Address.bytes verifier ∧
      env.recover (B256.bytes (identity env cfg.signer (.fulfill body))) sig = some verifier)

/-! ## Lemmas -/

theorem submits_fulfill {cfg : Config} {w : World} {M : U64 → Query → Prop} {L seg : List Query}
    (h : Submits cfg w M L seg) {f : Signed FulfillBody} (hf : Query.fulfill f ∈ seg) : ∃ nonce, M nonce (.fulfill f) := by
  obtain ⟨pre, post, hsplit⟩ := List.append_of_mem hf
  obtain ⟨_, nonce, _, _, hM⟩ := h.kind pre _ post hsplit rfl
  exact ⟨nonce, hM⟩

theorem answered_fulfill {cfg : Config} {w : World} {L seg : List Query} {r : Req} (h : Answered cfg w L r seg)
    {f : Signed FulfillBody} (hf : Query.fulfill f ∈ seg) : ∃ proof nonce, IsFulfill cfg r.requestId proof nonce (.fulfill f) := by
  cases h with
  | unexecutable tail _ hs =>
    rcases List.mem_cons.1 hf with h | h
    · cases h
    · obtain ⟨_, _, h, _⟩ := submits_fulfill hs h; cases h
  | failed _ _ _ _ _ tail _ _ _ _ _ hs =>
    rcases List.mem_append.1 hf with h | h
    · simp [fetchSeg] at h
    · obtain ⟨_, _, h, _⟩ := submits_fulfill hs h; cases h
  | fulfilled _ _ _ _ _ proof _ _ tail _ _ _ _ _ hs =>
    rcases List.mem_append.1 hf with h | h
    · simp [fetchSeg] at h
    · obtain ⟨nonce, h⟩ := submits_fulfill hs h
      exact ⟨proof, nonce, h⟩

theorem handled_fulfill {cfg : Config} {w : World} {L seg : List Query} {reqs : List Req} {o : Retry.Outcome Unit}
    (h : Handled cfg w L reqs seg o) {f : Signed FulfillBody} (hf : Query.fulfill f ∈ seg) :
    ∃ r ∈ reqs, ∃ proof nonce, IsFulfill cfg r.requestId proof nonce (.fulfill f) := by
  induction h with
  | done => cases hf
  | answered ha _ ih =>
    rcases List.mem_append.1 hf with h | h
    · exact ⟨_, List.mem_cons_self, answered_fulfill ha h⟩
    · obtain ⟨r, hr, h⟩ := ih h
      exact ⟨r, List.mem_cons_of_mem _ hr, h⟩
  | abandoned hb =>
    have := c53_abandoned _ _ _ _ _ _ hb _ hf
    cases this

/-- A fulfilment sent in a round is one of the node's. -/
theorem fulfill_in_round {cfg : Config} {w : World} {f : Signed FulfillBody} (hf : Query.fulfill f ∈ (proveRound cfg w []).2) :
    ∃ rid proof nonce, IsFulfill cfg rid proof nonce (.fulfill f) := by
  match ho : w.owner [] (Address.bytes cfg.signer) with
  | .error e =>
    unfold proveRound at hf
    rw [ask_owner, ho, andThen_error] at hf
    simp at hf
  | .ok owner =>
    generalize ht : w.now [.getOwner (Address.bytes cfg.signer)] = t
    match ha : w.filtered ((proveHeader cfg owner t).take 2) (assignedFilter owner t) with
    | .error e =>
      unfold proveRound at hf
      rw [ask_owner, ho, andThen_ok, ask_now, ask_filtered] at hf
      simp only [List.nil_append, List.cons_append, ht] at hf
      have ha' : w.filtered [.getOwner (Address.bytes cfg.signer), .now]
        { status := .assigned, minimumDeadline := t, fulfiller := some owner, limit := 1 } = .error e := ha
      rw [ha', andThen_error] at hf
      simp at hf
    | .ok reqs =>
      obtain ⟨seg, o, h1, h2⟩ := c53_round_partial cfg w owner t reqs ho ht ha
      rw [h1] at hf
      rcases List.mem_append.1 hf with h | h
      · simp [proveHeader] at h
      · obtain ⟨r, _, proof, nonce, h⟩ := handled_fulfill h2 h
        exact ⟨_, proof, nonce, h⟩

/-- A bid sent in a round is one of the node's. -/
theorem bid_in_round {cfg : Config} {w : World} {b : Signed BidBody} (hb : Query.bid b ∈ (bidRound cfg w []).2) :
    ∃ pre, Justified cfg w pre b := by
  obtain ⟨pre, post, hsplit⟩ := List.append_of_mem hb
  exact ⟨pre, c52_bids cfg w _ _ rfl pre post b hsplit⟩

/-! ## C75 -/

/-- C75: a bid and a fulfilment that the node submits for a request settle: together with valid messages of the
other parties the ledger accepts the clear, charges the requester the base fee plus the configured price for each
unit of gas, and pays it to the node's prover and the prover's owner. -/
theorem c75_settles (env : Env) (cfg : Config) (s : Ledger) (hfit : Fits env cfg s) (hT : s.total < 2 ^ 256)
    (wb wp : World) (c : ClearTx) (f : Signed FulfillBody) (bid : BidBody) (body : FulfillBody)
    (hbid : Query.bid c.bid ∈ (bidRound cfg wb []).2) (hful : Query.fulfill f ∈ (proveRound cfg wp []).2)
    (hcf : c.fulfill = some f) (hbb : c.bid.body = some bid) (hfb : f.body = some body)
    (request : RequestBody) (requester : Address) (id : B256) (baseFee : U256) (pgus : U64) (pvh : Bytes)
    (hidb : bid.requestId = B256.bytes id) (hidf : body.requestId = B256.bytes id)
    (ho : Others env cfg c s request requester id baseFee pgus pvh) (hacc : Accepted env cfg c request pvh body)
    (htr : ∃ t, request.treasury = Address.bytes t) (hacct : (s.acct requester).isSome)
    (hbal : baseFee.toNat + cfg.price.toNat * pgus.toNat ≤ s.bal requester)
    (hbips : (s.bips cfg.prover).toNat ≤ 10000)
    (hfits : (baseFee.toNat + cfg.price.toNat * pgus.toNat) * 10000 < 2 ^ 256) :
    ∃ r s' stakerPart ownerPart, Ledger.execute env (.clear c) s = (.ok r, s') ∧
      stakerPart + ownerPart = baseFee.toNat + cfg.price.toNat * pgus.toNat ∧
      stakerPart = (baseFee.toNat + cfg.price.toNat * pgus.toNat) * (s.bips cfg.prover).toNat / 10000 ∧
      ∀ a, s'.bal a + pay (a = requester) (baseFee.toNat + cfg.price.toNat * pgus.toNat) =
        s.bal a + pay (a = cfg.prover) stakerPart + pay (a = s.owner cfg.prover) ownerPart := by
  obtain ⟨_, owner, t1, t2, req, pre', nonce, d, amount, _, _, _, _, _, _, _, hb, hdec, hne, hdig, hfmt, body', hb', hsig⟩ :=
    bid_in_round hbid
  rw [hb] at hb' hbb
  obtain rfl := Option.some.inj hb'
  obtain rfl := Option.some.inj hbb
  obtain ⟨rid, proof, nonce', f', body'', hq, hfmt', hb'', hsig', hbody⟩ := fulfill_in_round hful
  obtain rfl : f = f' := by injection hq
  rw [hb''] at hfb
  obtain rfl := Option.some.inj hfb
  have hprice := hfit.parses amount cfg.price hne hdig hdec
  have hdom : beBytes 32 cfg.mainnetDomain.toNat = B256.bytes s.sc.domain := by rw [hfit.domain]; rfl
  obtain ⟨hr1, hr2, hr3, hr4⟩ := ho.goodRequest
  obtain ⟨settle, a, hs1, hs2, hs3, hs4, hs5, hs6⟩ := ho.goodSettle
  obtain ⟨execute, ae, he1, he2, he3, he4, he5, he6, he7, he8, he9⟩ := ho.goodExecute
  obtain ⟨maxPrice, hm1, hm2⟩ := ho.goodPrice
  have hbs : SignedBy env (.bid ⟨nonce, req.requestId, amount, beBytes 32 cfg.mainnetDomain.toNat, Address.bytes cfg.prover, 1⟩)
      c.bid.format c.bid.signature (s.signer cfg.prover) := by
    left
    rw [hsig, hfit.delegated]
    exact ⟨hfmt, hfit.signs _⟩
  have hfs : SignedBy env (.fulfill body'') f.format f.signature cfg.signer := by
    left
    rw [hsig']
    exact ⟨hfmt', hfit.signs _⟩
  have hgood : GoodClear env c s request _ settle execute requester cfg.prover id baseFee maxPrice cfg.price :=
    { hasRequest := hr1, hasBid := hb, hasSettle := hs1, hasExecute := he1
      variants := ⟨hr2, rfl, hs2, he2⟩, domains := ⟨hr3, hdom, hs3, he3⟩, hasId := ho.goodId.1
      ids := ⟨hidb, hs4, he4⟩, fresh := ho.goodId.2, requestSigned := hr4, hasProver := rfl
      present := hfit.present, bidSigned := hbs, whitelist := ho.allowed, settleSigned := ⟨a, hs5, hs6⟩
      executeSigned := ⟨ae, he5, he6⟩, hasBaseFee := ho.goodBaseFee, hasMaxPrice := hm1, hasPrice := hprice, priceLe := hm2 }
  have hgf : GoodFulfil env c s request execute id :=
    { executed := he7, vkHash := ho.values.2.1
      evidence := by
        refine ⟨f, body'', cfg.signer, pvh, hcf, hb'', hfs, ?_, ?_, hidf, he9, ho.values.1, ho.values.2.2, hacc⟩
        · rw [hbody]; exact hdom
        · rw [hbody] }
  have hcost : cfg.price.toNat * pgus.toNat + baseFee.toNat = baseFee.toNat + cfg.price.toNat * pgus.toNat := Nat.add_comm _ _
  have hmul : (baseFee.toNat + cfg.price.toNat * pgus.toNat) * (s.bips cfg.prover).toNat ≤
      (baseFee.toNat + cfg.price.toNat * pgus.toNat) * 10000 := Nat.mul_le_mul_left _ hbips
  obtain ⟨r, hr⟩ := (c56_clear env c s hT).mpr ⟨request, requester, htr, .inl ⟨cfg.prover, _,
    ⟨_, settle, execute, id, baseFee, maxPrice, cfg.price, pgus, hgood, hgf, he8, ho.gas, hacct, hcost.symm, by omega⟩,
    hbal, hbips, by omega⟩⟩
  have hx : Ledger.execute env (.clear c) s = (.ok r, (Ledger.execute env (.clear c) s).2) := Prod.ext hr rfl
  obtain ⟨request', bid', execute', requester', prover', tr, base, price, pgus', st, ow, k1, k2, k3, k4, k5, k6, k7, k8,
    k9, k10, k11, k12, k13, _⟩ := c12_fulfilled env c s _ r hx (by
      intro e he; rw [he1] at he; obtain rfl := Option.some.inj he; rw [he7]; decide)
  rw [hr1] at k1; obtain rfl := Option.some.inj k1
  rw [hb] at k2; obtain rfl := Option.some.inj k2
  rw [he1] at k3; obtain rfl := Option.some.inj k3
  obtain rfl := signedBy_unique hr4 k4
  obtain rfl := Address.bytes_inj k5
  rw [ho.goodBaseFee] at k7; obtain rfl := Option.some.inj k7
  rw [hprice] at k8; obtain rfl := Option.some.inj k8
  rw [he8] at k9; obtain rfl := Option.some.inj k9
  refine ⟨r, _, st, ow, hx, by omega, k11, fun a => ?_⟩
  have := k13 a
  have h0 : pay (a = tr) 0 = 0 := by unfold pay; split <;> rfl
  omega

/-- C75: for a request whose mode is not compressed, Plonk or Groth16 the node is never paid, although it bids on such
requests and proves them (a core proof): no clear that reports the execution as successful is accepted. -/
theorem c75_core_unpaid (env : Env) (s : Ledger) (hT : s.total < 2 ^ 256) (c : ClearTx) (request : RequestBody)
    (execute : ExecuteBody) (hr : c.request.body = some request) (he : c.execute.body = some execute)
    (hmode : request.mode ∉ [2, 3, 4]) (hex : execute.executionStatus ≠ 3) :
    ∀ r, (Ledger.execute env (.clear c) s).1 ≠ .ok r := by
  intro r h
  obtain ⟨request', requester, _, ⟨prover, cost, ⟨bid, settle, execute', id, base, max, price, pgus, hg, hf, _⟩, _⟩ |
    ⟨p, ⟨bid, settle, execute', prover, id, base, max, price, str, p', hg, h3, _⟩, _⟩⟩ := (c56_clear env c s hT).mp ⟨r, h⟩
  · have := hg.hasRequest
    rw [hr] at this
    obtain rfl := Option.some.inj this
    obtain ⟨_, _, _, _, _, _, _, _, _, _, _, _, _, hm⟩ := hf.evidence
    apply hmode
    rcases hm with ⟨h, _⟩ | ⟨⟨h, _⟩ | h | h, _⟩ <;> rw [h] <;> simp
  · have := hg.hasExecute
    rw [he] at this
    obtain rfl := Option.some.inj this
    exact hex h3

/-! ## The hypotheses of C75 can be met -/

/-- The toy environment with decimal numbers. -/
def nodeEnv : Env :=
  { Toy.env with
    parseU256 := fun bs => if bs ≠ [] ∧ (∀ c ∈ bs, 48 ≤ c.toNat ∧ c.toNat ≤ 57) ∧ decVal bs < 2 ^ 256 then
      some (BitVec.ofNat 256 (decVal bs)) else none }

/-- A node that bids 2 for the toy prover, whose owner's key it holds. -/
def nodeConfig : Config where
  signer := Toy.owner
  sign := fun _ => Address.bytes Toy.owner
  price := 2
  prover := Toy.prover
  requiredTime := fun g => g / 10
  mainnetDomain := Toy.dom
  lower := id

/-- The toy request with decimal numbers: base fee 10, at most 3 per unit of gas. -/
def nodeRequest : RequestBody := { Toy.request with baseFee := [49, 48], maxPricePerPgu := [51] }

/-- Its identifier. -/
def nodeRequestId : B256 := identity nodeEnv Toy.alice (.request nodeRequest)

/-- The request as the network lists it. -/
def nodeReq : Req :=
  { requestId := B256.bytes nodeRequestId, mode := 2, programUri := "s3://b/programs/p".toList,
    stdinUri := "s3://b/stdins/s".toList, deadline := 1000, gasLimit := 100 }

/-- A network where the request is open. -/
def openWorld : World := fun past q =>
  match q with
  | .filtered f => if f.status = .requested then Except.ok [nodeReq] else Except.ok []
  | .details _ => Except.ok (some nodeReq)
  | q => demoWorld past q

/-- A network where the request is assigned to the node. -/
def wonWorld : World := fun past q =>
  match q with
  | .filtered _ => Except.ok [nodeReq]
  | q => demoWorld past q

/-- The settlement of the toy auctioneer. -/
def nodeSettle : SettleBody :=
  { requestId := B256.bytes nodeRequestId, winner := Address.bytes Toy.prover, domain := B256.bytes Toy.dom, variant := 2 }

/-- The execution report of the toy executor. -/
def nodeExecute : ExecuteBody :=
  { requestId := B256.bytes nodeRequestId, executionStatus := 2, publicValuesHash := some (List.replicate 32 9),
    pgus := some 50, domain := B256.bytes Toy.dom, variant := 3 }

/-- The clear with the toy messages of the other parties. -/
def nodeClear (b : Signed BidBody) (f : Signed FulfillBody) : ClearTx :=
  { request := ⟨1, Address.bytes Toy.alice, some nodeRequest⟩
    bid := b
    settle := ⟨1, Address.bytes Toy.auctioneer, some nodeSettle⟩
    execute := ⟨1, Address.bytes Toy.executor, some nodeExecute⟩
    fulfill := some f
    verify := none }

theorem nodeFits : Fits nodeEnv nodeConfig Toy.s2 where
  signs _ := by
    show Address.ofBytes? (Address.bytes Toy.owner) = some Toy.owner
    exact Address.ofBytes?_bytes _
  parses bs n h1 h2 h3 := by
    show (if bs ≠ [] ∧ (∀ c ∈ bs, 48 ≤ c.toNat ∧ c.toNat ≤ 57) ∧ decVal bs < 2 ^ 256 then _ else _) = _
    rw [if_pos ⟨h1, h2, by rw [h3]; exact n.isLt⟩, h3, BitVec.ofNat_toNat, BitVec.setWidth_eq]
  domain := by decide +kernel
  present := by decide +kernel
  delegated := by decide +kernel

/-- Bid and fulfilment of the node in the demo. -/
theorem demo_messages : ∃ b f bid body, Query.bid b ∈ (bidRound nodeConfig openWorld []).2 ∧
    Query.fulfill f ∈ (proveRound nodeConfig wonWorld []).2 ∧ b.body = some bid ∧ f.body = some body ∧
    bid.requestId = B256.bytes nodeRequestId ∧ body.requestId = B256.bytes nodeRequestId := by
  obtain ⟨b, post, hb⟩ := c52_does_bid nodeConfig openWorld (bidRound nodeConfig openWorld []).1
    (bidRound nodeConfig openWorld []).2 rfl (Address.bytes Toy.owner) 900 900 nodeReq nodeReq 4
    rfl rfl rfl rfl rfl rfl rfl (by decide)
  obtain ⟨owner, t1, t2, req, pre', nonce, d, amount, _, _, hf, hp, _, _, _, hbody, _⟩ := c52_bids nodeConfig openWorld _ _ rfl _ _ b hb
  have hreq : req = nodeReq := by
    have : openWorld.filtered ((bidHeader nodeConfig owner t1 t2).take 4) (openFilter owner t2) = .ok [nodeReq] := rfl
    rw [this] at hf
    injection hf with hf
    injection hf with hf _
    exact hf.symm
  obtain ⟨seg, h1, h2⟩ := c53_all_answered_partial nodeConfig wonWorld (Address.bytes Toy.owner) 900 [nodeReq] rfl rfl rfl
    (fun _ _ _ _ => ⟨[], rfl⟩) (by intro r hr; rw [List.mem_singleton] at hr; subst hr; decide)
    (by intro L p s m c t h; cases h)
  cases h2 with
  | cons ha hr =>
    cases hr
    cases ha with
    | unexecutable _ hu => cases hu
    | failed _ _ _ _ _ _ _ _ _ _ hne => exact absurd rfl (hne _ _ _)
    | fulfilled pid sid p s m proof cyc ms tail _ _ _ _ _ hs =>
      rcases hs.sent with ⟨q, hq, hsub⟩ | ⟨_, _, _, he⟩
      · obtain ⟨pre, post', hsplit⟩ := List.append_of_mem hq
        obtain ⟨_, nonce', _, _, f, body, rfl, _, hfb, _, hb2⟩ := hs.kind pre q post' hsplit hsub
        refine ⟨b, f, _, body, ?_, ?_, hbody, hfb, ?_, ?_⟩
        · rw [hb]; exact List.mem_append_right _ (List.mem_cons_self)
        · rw [h1]
          exact List.mem_append_right _ (List.mem_append_left _ (List.mem_append_right _ hq))
        · rw [hreq]; rfl
        · rw [hb2]; rfl
      · cases he

theorem toy_domain : Toy.s2.sc.domain = Toy.dom := by decide +kernel

theorem nodeEnv_recover (a : Address) (m : Bytes) : nodeEnv.recover m (Address.bytes a) = some a := by
  simp only [nodeEnv, Toy.env, Address.ofBytes?_bytes]

theorem demo_fresh : Toy.s2.done nodeRequestId = false := by decide +kernel

theorem demo_others (b : Signed BidBody) (f : Signed FulfillBody) :
    Others nodeEnv nodeConfig (nodeClear b f) Toy.s2 nodeRequest Toy.alice nodeRequestId 10 50 (List.replicate 32 9) := by
  have hd := congrArg B256.bytes toy_domain.symm
  constructor
  · exact ⟨rfl, rfl, hd, .inl ⟨rfl, nodeEnv_recover Toy.alice _⟩⟩
  · exact ⟨rfl, demo_fresh⟩
  · exact ⟨nodeSettle, Toy.auctioneer, rfl, rfl, hd, rfl, rfl, .inl ⟨rfl, nodeEnv_recover Toy.auctioneer _⟩⟩
  · exact ⟨nodeExecute, Toy.executor, rfl, rfl, hd, rfl, rfl, .inl ⟨rfl, nodeEnv_recover Toy.executor _⟩, rfl, rfl, rfl⟩
  · exact .inr (by decide +kernel)
  · decide +kernel
  · exact ⟨3, by decide +kernel, by decide +kernel⟩
  · decide +kernel
  · exact ⟨by decide +kernel, by decide +kernel, fun h hh => (nomatch hh)⟩

theorem demo_settles : ∃ b f r s', Query.bid b ∈ (bidRound nodeConfig openWorld []).2 ∧
    Query.fulfill f ∈ (proveRound nodeConfig wonWorld []).2 ∧
    Ledger.execute nodeEnv (.clear (nodeClear b f)) Toy.s2 = (.ok r, s') ∧ s'.bal Toy.alice + 110 = Toy.s2.bal Toy.alice := by
  obtain ⟨b, f, bid, body, h1, h2, h3, h4, h5, h6⟩ := demo_messages
  obtain ⟨r, s', st, ow, hx, _, _, hbal⟩ := c75_settles nodeEnv nodeConfig Toy.s2 nodeFits (by decide +kernel) openWorld wonWorld
    (nodeClear b f) f bid body h1 h2 rfl h3 h4 nodeRequest Toy.alice nodeRequestId 10 50 _ h5 h6 (demo_others b f)
    (.inl ⟨rfl, by decide +kernel, _, by rfl, rfl⟩) ⟨Toy.treasury, rfl⟩ (by decide +kernel) (by decide +kernel)
    (by decide +kernel) (by decide +kernel)
  refine ⟨b, f, r, s', h1, h2, hx, ?_⟩
  have := hbal Toy.alice
  have e1 : pay (Toy.alice = Toy.alice) ((10 : U256).toNat + nodeConfig.price.toNat * (50 : U64).toNat) = 110 := by decide +kernel
  have e2 : pay (Toy.alice = nodeConfig.prover) st = 0 := by unfold pay; rw [if_neg (by decide +kernel)]
  have e3 : pay (Toy.alice = Toy.s2.owner nodeConfig.prover) ow = 0 := by unfold pay; rw [if_neg (by decide +kernel)]
  omega

/-! ## C76 -/

/-- Smallest units in a $PROVE. -/
def weiPerProve : Nat := 10 ^ 18

/-- `paid` for `pgus` units of gas is `bid` $PROVE per billion units. -/
def PaidAsDocumented (bid pgus paid : Nat) : Prop := paid * 10 ^ 9 = bid * weiPerProve * pgus

/-- C76, what does hold: a node started with `--bid n`, `n` a whole number up to 2^52 however it is written, is paid `n` of the smallest units for each unit of gas (plus
the base fee). Missing from the full property: the flag is documented as $PROVE per billion units of gas, which would
be `n * 10^9` for each unit. -/
theorem c76_paid_partial (env : Env) (cfg : Config) (s : Ledger) (hfit : Fits env cfg s) (hT : s.total < 2 ^ 256)
    (n : Nat) (hn : n ≤ 2 ^ 52) (l : Numeral) (hl : l.Valid) (hs : l.sign ≠ some true) (hnum : l.num = n * l.den)
    (hcli : Cli.bidArg l.text = some cfg.price)
    (wb wp : World) (c : ClearTx) (f : Signed FulfillBody) (bid : BidBody) (body : FulfillBody)
    (hbid : Query.bid c.bid ∈ (bidRound cfg wb []).2) (hful : Query.fulfill f ∈ (proveRound cfg wp []).2)
    (hcf : c.fulfill = some f) (hbb : c.bid.body = some bid) (hfb : f.body = some body)
    (request : RequestBody) (requester : Address) (id : B256) (baseFee : U256) (pgus : U64) (pvh : Bytes)
    (hidb : bid.requestId = B256.bytes id) (hidf : body.requestId = B256.bytes id)
    (ho : Others env cfg c s request requester id baseFee pgus pvh) (hacc : Accepted env cfg c request pvh body)
    (htr : ∃ t, request.treasury = Address.bytes t) (hacct : (s.acct requester).isSome)
    (hbal : baseFee.toNat + n * pgus.toNat ≤ s.bal requester) (hbips : (s.bips cfg.prover).toNat ≤ 10000)
    (hfits : (baseFee.toNat + n * pgus.toNat) * 10000 < 2 ^ 256)
    (hself : requester ≠ cfg.prover ∧ requester ≠ s.owner cfg.prover) :
    ∃ r s', Ledger.execute env (.clear c) s = (.ok r, s') ∧
      s'.bal requester + (baseFee.toNat + n * pgus.toNat) = s.bal requester := by
  have hp : cfg.price.toNat = n := by
    have h := Cli.c92_exact (m := n) (k := 0) hl hs (by omega) (.inr hn) (by rw [Nat.pow_zero, Nat.mul_one]; exact hnum) (by omega)
    rw [hcli, Nat.pow_zero, Nat.mul_one] at h
    rw [Option.some.inj h, BitVec.toNat_ofNat]
    exact Nat.mod_eq_of_lt (by omega)
  rw [← hp] at hbal hfits ⊢
  obtain ⟨r, s', st, ow, hx, _, _, h⟩ := c75_settles env cfg s hfit hT wb wp c f bid body hbid hful hcf hbb hfb request
    requester id baseFee pgus pvh hidb hidf ho hacc htr hacct hbal hbips hfits
  refine ⟨r, s', hx, ?_⟩
  have := h requester
  have e1 : pay (requester = requester) (baseFee.toNat + cfg.price.toNat * pgus.toNat) =
      baseFee.toNat + cfg.price.toNat * pgus.toNat := by unfold pay; rw [if_pos rfl]
  have e2 : pay (requester = cfg.prover) st = 0 := by unfold pay; rw [if_neg hself.1]
  have e3 : pay (requester = s.owner cfg.prover) ow = 0 := by unfold pay; rw [if_neg hself.2]
  omega

/-- C76: the documented payment is `10^9` times the one of `c76_paid_partial`, for every bid and amount of gas. -/
theorem c76_factor (n pgus paid : Nat) : PaidAsDocumented n pgus paid ↔ paid = 10 ^ 9 * (n * pgus) := by
  unfold PaidAsDocumented weiPerProve
  rw [show n * 10 ^ 18 * pgus = 10 ^ 9 * (n * pgus) * 10 ^ 9 by
    rw [show (10 : Nat) ^ 18 = 10 ^ 9 * 10 ^ 9 by rfl]; simp only [Nat.mul_comm, Nat.mul_left_comm, Nat.mul_assoc]]
  exact Nat.mul_left_inj (by decide)

/-- C76 is false as documented: a node started with `--bid 2` settles a request of 50 units of gas with base fee 10,
and is paid 110 in all, while 2 $PROVE per billion units of gas are `10^11` for the 50 units alone. -/
theorem c76_false : ∃ (env : Env) (cfg : Config) (s s' : Ledger) (b : Signed BidBody) (f : Signed FulfillBody)
    (c : ClearTx) (r : Option Receipt) (wb wp : World),
    Cli.bidArg "2".toList = some cfg.price ∧ Fits env cfg s ∧
    Query.bid b ∈ (bidRound cfg wb []).2 ∧ Query.fulfill f ∈ (proveRound cfg wp []).2 ∧
    c.bid = b ∧ c.fulfill = some f ∧ (∃ e, c.execute.body = some e ∧ e.pgus = some 50) ∧
    Ledger.execute env (.clear c) s = (.ok r, s') ∧
    (∃ requester, SignedBy env (.request nodeRequest) c.request.format c.request.signature requester ∧
      s'.bal requester + 110 = s.bal requester) ∧
    ∀ base, ¬ PaidAsDocumented 2 50 (110 - base) := by
  obtain ⟨b, f, r, s', h1, h2, h3, h4⟩ := demo_settles
  refine ⟨nodeEnv, nodeConfig, Toy.s2, s', b, f, nodeClear b f, r, openWorld, wonWorld, by decide +kernel, nodeFits, h1, h2, rfl,
    rfl, ⟨nodeExecute, rfl, rfl⟩, h3, ⟨Toy.alice, (demo_others b f).goodRequest.2.2.2, h4⟩, ?_⟩
  intro base h
  unfold PaidAsDocumented weiPerProve at h
  omega

end Verif.Node
