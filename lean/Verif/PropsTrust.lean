import Verif.PropsTerms
/-
# Properties C108 to C110: what `PROTOCOL.md` says about the trusted parties, and what the ledger does

`/repo/PROTOCOL.md` describes what the verifier, the executor and the auctioneer can and cannot do.
-/

namespace Verif

/-! ## Specification -/

/-- A request that the ledger checks with the SP1 verifier itself: a compressed proof (mode 2) of a version that starts
with `sp1-v6`. -/
def NativeProof (q : RequestBody) : Prop := q.mode = 2 ∧ ∃ rest, q.version = "sp1-v6".toUTF8.toList ++ rest

/-! ## Lemmas -/

theorem nativeProof_iff (q : RequestBody) :
    NativeProof q ↔ q.mode = 2 ∧ primaryVersionPrefix.isPrefixOf q.version = true := by
  unfold NativeProof
  rw [show "sp1-v6".toUTF8.toList = primaryVersionPrefix by decide +kernel, List.isPrefixOf_iff_prefix]
  refine and_congr_right fun _ => ?_
  constructor
  · rintro ⟨rest, h⟩; exact ⟨rest, h.symm⟩
  · rintro ⟨rest, h⟩; exact ⟨rest, h.symm⟩

theorem execute_clear_congr {env env' : Env} {c c' : ClearTx} {s : Ledger} (ha : clearAuth env' c' = clearAuth env c)
    (hp : ∀ x, clearPunish env' x = clearPunish env x)
    (hf : ∀ x : ClearCtx, c.request.body = some x.request → clearProof env' c' x = clearProof env c x) :
    Ledger.execute env' (.clear c') s = Ledger.execute env (.clear c) s := by
  have hrun : (clearProg env' c').run (mapOps Address Account) (mapOps B256 Bool) s =
      (clearProg env c).run (mapOps Address Account) (mapOps B256 Bool) s := by
    show ((clearAuth env' c').bind _).run _ _ s = ((clearAuth env c).bind _).run _ _ s
    rw [run_bind, run_bind, ha]
    have hw := (wp_iff.mp (clearAuth_wp env c s)).1
    unfold Prog.runL at hw
    rcases hx : (clearAuth env c).run (mapOps Address Account) (mapOps B256 Bool) s with ⟨e | x, s1⟩
    · rfl
    · obtain ⟨⟨g, hg⟩, _⟩ := hw x s1 hx
      simp only [hp, hf x hg.request]
  unfold Ledger.execute Verif.execute
  rw [show (execInner env' (.clear c')).run (mapOps Address Account) (mapOps B256 Bool) s =
    (execInner env (.clear c)).run (mapOps Address Account) (mapOps B256 Bool) s from hrun]

/-! ## C108 -/

/-- **C108 (native proofs).** Whether and how a compressed request of version 6 is cleared does not depend on the
verifier: with any other signature of theirs, or none, the result and the new state are the same. -/
theorem c108_native (env : Env) (c : ClearTx) (s : Ledger) (q : RequestBody) (hq : c.request.body = some q)
    (hn : NativeProof q) (signature : Option Bytes) :
    Ledger.execute env (.clear { c with verify := signature }) s = Ledger.execute env (.clear c) s := by
  refine execute_clear_congr rfl (fun _ => rfl) fun x hx => ?_
  obtain rfl := Option.some.inj (hq.symm.trans hx)
  have h := (nativeProof_iff _).mp hn
  unfold clearProof
  simp only [if_pos h]

/-- **C108 (other proofs).** Whether and how any other request is cleared does not depend on the proof system: with any
other idea of which proofs are valid the result and the new state are the same. -/
theorem c108_attested (env : Env) (c : ClearTx) (s : Ledger) (q : RequestBody) (hq : c.request.body = some q)
    (hn : ¬ NativeProof q) (valid : List (BitVec 32) → Bytes → Bool) :
    Ledger.execute { env with verify := valid } (.clear c) s = Ledger.execute env (.clear c) s := by
  refine execute_clear_congr rfl (fun _ => rfl) fun x hx => ?_
  obtain rfl := Option.some.inj (hq.symm.trans hx)
  have h := fun e => hn ((nativeProof_iff _).mpr e)
  unfold clearProof
  simp only [if_neg h]
  rfl

/-- **C108 (the fulfilment itself).** In no case does the ledger look at the proof in the fulfilment, or at who signed it:
if a clear of a request that was executed succeeds, it also succeeds with a fulfilment of that request by anyone, with
anything in it (for a request that is not checked natively: if the verifier signs it), and every account ends with the
same balance. -/
theorem c108_fulfilment (env : Env) (c : ClearTx) (s s1 : Ledger) (r : Option Receipt) (hT : s.total < 2 ^ 256)
    (hs : Ledger.execute env (.clear c) s = (.ok r, s1)) (q : RequestBody) (hq : c.request.body = some q)
    (execute : ExecuteBody) (he : c.execute.body = some execute) (hst : execute.executionStatus ≠ 3)
    (f f' : Signed FulfillBody) (body body' : FulfillBody) (signer : Address)
    (hf : c.fulfill = some f) (hb : f.body = some body) (hb' : f'.body = some body')
    (hsame : body'.requestId = body.requestId ∧ body'.domain = body.domain ∧ body'.variant = body.variant)
    (hsig : SignedBy env (.fulfill body') f'.format f'.signature signer) (signature : Option Bytes)
    (hv : ¬ NativeProof q → ∃ sig verifier, signature = some sig ∧ q.verifier = Address.bytes verifier ∧
      env.recover (B256.bytes (identity env signer (.fulfill body'))) sig = some verifier) :
    ∃ r' s2, Ledger.execute env (.clear { c with fulfill := some f', verify := signature }) s = (.ok r', s2) ∧
      ∀ a, s2.bal a = s1.bal a := by
  obtain ⟨request, rq, htr, hcase⟩ := (c56_clear env c s hT).mp ⟨r, by rw [hs]⟩
  rcases hcase with ⟨prover, cost, ⟨bid, settle, ex, id, base, max, price, pgus, hg, hful, hpgus, hlim, hsome, rfl, hlt⟩,
    hle, hbips, hm⟩ | ⟨_, ⟨bid, settle, ex, prover, id, base, max, price, str, p, hg, h3, _⟩, _⟩
  · obtain rfl := Option.some.inj (hq.symm.trans hg.hasRequest)
    have hgood' : GoodClear env { c with fulfill := some f', verify := signature } s q bid settle ex rq prover id base max
        price := { hg with }
    have hful' : GoodFulfil env { c with fulfill := some f', verify := signature } s q ex id := by
      obtain ⟨g, gb, gs, pvh, h1, h2, h3, h4, h5, h6, h7, h8, h9, h10⟩ := hful.evidence
      obtain rfl := Option.some.inj (hf.symm.trans h1)
      obtain rfl := Option.some.inj (hb.symm.trans h2)
      refine ⟨hful.executed, hful.vkHash, f', body', signer, pvh, rfl, hb', hsig, by rw [hsame.2.1]; exact h4,
        by rw [hsame.2.2]; exact h5, by rw [hsame.1]; exact h6, h7, h8, h9, ?_⟩
      rcases h10 with h10 | ⟨hm', _⟩
      · exact .inl h10
      · refine .inr ⟨hm', hv fun hn => ?_⟩
        obtain ⟨n1, n2⟩ := (nativeProof_iff q).mp hn
        rw [n1, n2] at hm'
        rcases hm' with ⟨_, h⟩ | h | h
        · cases h
        · exact absurd h (by decide)
        · exact absurd h (by decide)
    obtain ⟨r', hr'⟩ := (c56_clear env { c with fulfill := some f', verify := signature } s hT).mpr
      ⟨q, rq, htr, .inl ⟨prover, _, ⟨bid, settle, ex, id, base, max, price, pgus, hgood', hful', hpgus, hlim, hsome, rfl,
        hlt⟩, hle, hbips, hm⟩⟩
    refine ⟨r', (Ledger.execute env (.clear { c with fulfill := some f', verify := signature }) s).2, by rw [← hr'], fun a => ?_⟩
    have hs' : Ledger.execute env (.clear { c with fulfill := some f', verify := signature }) s =
      (.ok r', (Ledger.execute env (.clear { c with fulfill := some f', verify := signature }) s).2) := by rw [← hr']
    generalize (Ledger.execute env (.clear { c with fulfill := some f', verify := signature }) s).2 = s2 at hs' ⊢
    have n1 : ∀ e, c.execute.body = some e → e.executionStatus ≠ 3 := fun e h => by cases he.symm.trans h; exact hst
    obtain ⟨_, _, _, _, pr, tr, base1, price1, pgus1, st, ow, a1, a2, a3, a4, a5, a6, a7, a8, a9, _, a11, a12, a13, _⟩ :=
      c12_fulfilled env c s s1 r hs n1
    obtain ⟨_, _, _, _, pr', tr', base2, price2, pgus2, st', ow', b1, b2, b3, b4, b5, b6, b7, b8, b9, _, b11, b12, b13, _⟩ :=
      c12_fulfilled env { c with fulfill := some f', verify := signature } s s2 r' hs' n1
    dsimp only at b1 b2 b3 b4
    cases a1.symm.trans b1
    cases a2.symm.trans b2
    cases a3.symm.trans b3
    cases signedBy_fun a4 b4
    have e1 : tr' = tr := Address.bytes_inj (b6.symm.trans a6)
    have e2 : pr' = pr := Address.bytes_inj (b5.symm.trans a5)
    subst e1 e2
    cases a7.symm.trans b7
    cases a8.symm.trans b8
    cases a9.symm.trans b9
    have e3 : st' = st := b11.trans a11.symm
    have e4 : ow' = ow := by omega
    subst e3 e4
    have := a13 a
    have := b13 a
    omega
  · exact absurd h3 (by cases he.symm.trans hg.hasExecute; exact hst)

namespace Toy

/-- Alice's compressed request for version 5. -/
def requestV5 : RequestBody := { request with version := "sp1-v5.0.0".toUTF8.toList, nonce := 11 }

/-- A fulfilment of Alice's first request without a proof. -/
def emptyFulfilment : FulfillBody :=
  { requestId := B256.bytes (requestId request), proof := [], domain := B256.bytes dom, variant := 4 }

/-- The toy environment in which no proof is valid. -/
def noProofs : Env := { env with verify := fun _ _ => false }

end Toy

/-- **C108 is false:** compressed proofs of other versions rely on the verifier alone. There is a ledger on which a
prover is paid for a compressed request although no proof is valid at all. -/
theorem c108_false : ∃ (env : Env) (c : ClearTx) (s : Ledger) (q : RequestBody) (prover : Address),
    (∀ vk h, env.verify vk h = false) ∧ c.request.body = some q ∧ q.mode = 2 ∧
    (Ledger.execute env (.clear c) s).1 = .ok none ∧ s.bal prover < (Ledger.execute env (.clear c) s).2.bal prover :=
  ⟨Toy.noProofs, Toy.clear Toy.requestV5 2 Toy.prover Toy.owner, Toy.s2, Toy.requestV5, Toy.prover, fun _ _ => rfl, rfl, rfl,
    by decide +kernel, by decide +kernel⟩

/-- The hypotheses of `c108_native` and `c108_attested` hold, and what they say is not trivial: a request of version 6 is
cleared without the verifier and only with a proof, one of version 5 without a proof and only with the verifier. -/
example : NativeProof Toy.request ∧ ¬ NativeProof Toy.requestV5 ∧
    (Ledger.execute Toy.env (.clear { Toy.clear Toy.request 2 Toy.prover Toy.owner with verify := none }) Toy.s2).1 = .ok none ∧
    (Ledger.execute Toy.noProofs (.clear (Toy.clear Toy.request 2 Toy.prover Toy.owner)) Toy.s2).1 = .panic .invalidProof ∧
    (Ledger.execute Toy.env (.clear { Toy.clear Toy.requestV5 2 Toy.prover Toy.owner with verify := none }) Toy.s2).1 =
      .panic .missingVerifierSignature := by
  refine ⟨(nativeProof_iff _).mpr (by decide +kernel), fun h => absurd ((nativeProof_iff _).mp h) (by decide +kernel),
    by decide +kernel, by decide +kernel, by decide +kernel⟩

/-- The hypotheses of `c108_fulfilment` hold: Bob's empty fulfilment does as well. -/
example : ∃ r' s2, Ledger.execute Toy.env (.clear { Toy.clear Toy.request 2 Toy.prover Toy.owner with
      fulfill := some ⟨1, Address.bytes Toy.bob, some Toy.emptyFulfilment⟩, verify := none }) Toy.s2 = (.ok r', s2) ∧
    ∀ a, s2.bal a = (Ledger.execute Toy.env (.clear (Toy.clear Toy.request 2 Toy.prover Toy.owner)) Toy.s2).2.bal a := by
  have h1 : (Ledger.execute Toy.env (.clear (Toy.clear Toy.request 2 Toy.prover Toy.owner)) Toy.s2).1 = .ok none := by
    decide +kernel
  exact c108_fulfilment Toy.env (Toy.clear Toy.request 2 Toy.prover Toy.owner) Toy.s2
    (Ledger.execute Toy.env (.clear (Toy.clear Toy.request 2 Toy.prover Toy.owner)) Toy.s2).2 none (by decide +kernel)
    (by rw [← h1]) Toy.request rfl _ rfl (by decide) _ ⟨1, Address.bytes Toy.bob, some Toy.emptyFulfilment⟩ _
    Toy.emptyFulfilment Toy.bob rfl rfl rfl ⟨rfl, rfl, rfl⟩
    (.inl ⟨rfl, show Address.ofBytes? (Address.bytes Toy.bob) = some Toy.bob by decide +kernel⟩) none
    (fun h => absurd ((nativeProof_iff _).mpr (by decide +kernel)) h)

/-! ## C109 -/

/-- `c` with the executor's report replaced by `e'`, signed by whoever signed the first one. -/
structure OtherReport (env : Env) (c c' : ClearTx) (e e' : ExecuteBody) : Prop where
  body : c.execute.body = some e
  body' : c'.execute.body = some e'
  same : e'.requestId = e.requestId ∧ e'.domain = e.domain ∧ e'.variant = e.variant
  signed : SameSigner env (.execute e) (.execute e') c.execute.format c'.execute.format c.execute.signature
    c'.execute.signature
  others : { c' with execute := c.execute } = c

theorem OtherReport.good {env : Env} {c c' : ClearTx} {e e' : ExecuteBody} (h : OtherReport env c c' e e') {s : Ledger}
    {q : RequestBody} {bid : BidBody} {settle : SettleBody} {x : ExecuteBody} {r prover : Address} {id : B256}
    {base max price : U256} (g : GoodClear env c s q bid settle x r prover id base max price) :
    x = e ∧ GoodClear env c' s q bid settle e' r prover id base max price := by
  have e1 : x = e := Option.some.inj (g.hasExecute.symm.trans h.body)
  subst e1
  obtain ⟨s1, s2, s3⟩ := h.same
  have ho := h.others
  have o1 : c'.request = c.request := by rw [← ho]
  have o2 : c'.bid = c.bid := by rw [← ho]
  have o3 : c'.settle = c.settle := by rw [← ho]
  refine ⟨rfl, by rw [o1]; exact g.hasRequest, by rw [o2]; exact g.hasBid, by rw [o3]; exact g.hasSettle, h.body', ?_, ?_,
    g.hasId, ?_, g.fresh, by rw [o1]; exact g.requestSigned, g.hasProver, g.present, by rw [o2]; exact g.bidSigned,
    g.whitelist, by rw [o3]; exact g.settleSigned, ?_, g.hasBaseFee, g.hasMaxPrice, g.hasPrice, g.priceLe⟩
  · rw [s3]; exact g.variants
  · rw [s2]; exact g.domains
  · rw [s1]; exact g.ids
  · obtain ⟨a, h1, h2⟩ := g.executeSigned
    exact ⟨a, h1, h.signed _ h2⟩

/-- **C109 (the gas used is the executor's word).** If a clear of an executed request succeeds, it also succeeds with any
other amount of gas within the limit in the report (if the requester can pay for it), and costs the requester
accordingly: everything between the base fee and the ceiling. -/
theorem c109_report (env : Env) (c c' : ClearTx) (s s1 : Ledger) (r : Option Receipt) (hT : s.total < 2 ^ 256)
    (hs : Ledger.execute env (.clear c) s = (.ok r, s1)) (e e' : ExecuteBody) (hst : e.executionStatus ≠ 3)
    (pgus : U64) (h : OtherReport env c c' e e') (he' : e' = { e with pgus := some pgus }) :
    ∃ q bid requester prover base price, c.request.body = some q ∧ c.bid.body = some bid ∧
      SignedBy env (.request q) c.request.format c.request.signature requester ∧ bid.prover = Address.bytes prover ∧
      env.parseU256 q.baseFee = some base ∧ env.parseU256 bid.amount = some price ∧
      (pgus.toNat ≤ q.gasLimit.toNat → base.toNat + price.toNat * pgus.toNat ≤ s.bal requester →
        (base.toNat + price.toNat * pgus.toNat) * 10000 < 2 ^ 256 →
        ∃ r' s2 stakerPart ownerPart, Ledger.execute env (.clear c') s = (.ok r', s2) ∧
          stakerPart + ownerPart = base.toNat + price.toNat * pgus.toNat ∧
          ∀ a, s2.bal a + pay (a = requester) (base.toNat + price.toNat * pgus.toNat) =
            s.bal a + pay (a = prover) stakerPart + pay (a = s.owner prover) ownerPart) := by
  obtain ⟨request, rq, htr, hcase⟩ := (c56_clear env c s hT).mp ⟨r, by rw [hs]⟩
  rcases hcase with ⟨prover, cost, ⟨bid, settle, ex, id, base, max, price, pgus0, hg, hful, hpgus, hlim, hsome, rfl, hlt⟩,
    hle, hbips, hm⟩ | ⟨_, ⟨bid, settle, ex, prover, id, base, max, price, str, p, hg, h3, _⟩, _⟩
  · obtain ⟨hx, g'⟩ := h.good hg
    subst hx
    have o4 : c'.fulfill = c.fulfill := by rw [← h.others]
    have o5 : c'.verify = c.verify := by rw [← h.others]
    refine ⟨request, bid, rq, prover, base, price, hg.hasRequest, hg.hasBid, hg.requestSigned, hg.hasProver, hg.hasBaseFee,
      hg.hasPrice, fun l1 l2 l3 => ?_⟩
    have hcost : base.toNat + price.toNat * pgus.toNat = price.toNat * pgus.toNat + base.toNat := Nat.add_comm _ _
    have hful' : GoodFulfil env c' s request e' id := by
      obtain ⟨k1, k2, k3⟩ := hful
      refine ⟨by rw [he']; exact k1, k2, ?_⟩
      rw [o4, o5, he']
      exact k3
    have hmul : (price.toNat * pgus.toNat + base.toNat) * (s.bips prover).toNat < 2 ^ 256 := by
      rw [hcost] at l3
      exact Nat.lt_of_le_of_lt (Nat.mul_le_mul_left _ hbips) l3
    obtain ⟨r', hr'⟩ := (c56_clear env c' s hT).mpr
      ⟨request, rq, htr, .inl ⟨prover, _, ⟨bid, settle, e', id, base, max, price, pgus, g', hful', by rw [he'], l1, hsome,
        rfl, by omega⟩, by omega, hbips, hmul⟩⟩
    have hs' : Ledger.execute env (.clear c') s = (.ok r', (Ledger.execute env (.clear c') s).2) := by rw [← hr']
    generalize (Ledger.execute env (.clear c') s).2 = s2 at hs'
    have n2 : ∀ x, c'.execute.body = some x → x.executionStatus ≠ 3 := fun x hx => by
      cases h.body'.symm.trans hx; rw [he']; exact hst
    obtain ⟨_, _, _, _, pr', tr', base2, price2, pgus2, st', ow', b1, b2, b3, b4, b5, b6, b7, b8, b9, _, b11, b12, b13, _⟩ :=
      c12_fulfilled env c' s s2 r' hs' n2
    cases g'.hasRequest.symm.trans b1
    cases g'.hasBid.symm.trans b2
    cases g'.hasExecute.symm.trans b3
    cases signedBy_fun g'.requestSigned b4
    have e2 : pr' = prover := Address.bytes_inj (b5.symm.trans g'.hasProver)
    subst e2
    cases g'.hasBaseFee.symm.trans b7
    cases g'.hasPrice.symm.trans b8
    have e5 : pgus = pgus2 := by rw [he'] at b9; exact Option.some.inj b9
    subst e5
    refine ⟨r', s2, st', ow', hs', by omega, fun a => ?_⟩
    have h0 : pay (a = tr') 0 = 0 := by unfold pay; split <;> rfl
    have := b13 a
    rw [h0] at this
    omega
  · exact absurd h3 (by cases h.body.symm.trans hg.hasExecute; exact hst)

/-- **C109 (so is the punishment).** Instead of such a report the executor can report the request as unexecutable, with any
punishment within the ceiling: the clear succeeds, the requester pays the punishment to the treasury, and nobody else
gets anything. -/
theorem c109_punish (env : Env) (c c' : ClearTx) (s s1 : Ledger) (r : Option Receipt) (hT : s.total < 2 ^ 256)
    (hs : Ledger.execute env (.clear c) s = (.ok r, s1)) (e e' : ExecuteBody)
    (str : Bytes) (punishment : U256) (h : OtherReport env c c' e e')
    (he' : e' = { e with executionStatus := 3, punishment := some str }) (hp : env.parseU256 str = some punishment) :
    ∃ q requester treasury base max, c.request.body = some q ∧
      SignedBy env (.request q) c.request.format c.request.signature requester ∧
      q.treasury = Address.bytes treasury ∧ env.parseU256 q.baseFee = some base ∧
      env.parseU256 q.maxPricePerPgu = some max ∧
      (max.toNat * q.gasLimit.toNat + base.toNat < 2 ^ 256 →
        punishment.toNat ≤ max.toNat * q.gasLimit.toNat + base.toNat → punishment.toNat ≤ s.bal requester →
        ∃ r' s2, Ledger.execute env (.clear c') s = (.ok r', s2) ∧
          ∀ a, s2.bal a + pay (a = requester) punishment.toNat = s.bal a + pay (a = treasury) punishment.toNat) := by
  obtain ⟨request, rq, ⟨tr, htr⟩, hcase⟩ := (c56_clear env c s hT).mp ⟨r, by rw [hs]⟩
  have key : ∀ bid settle x prover id base max price,
      GoodClear env c s request bid settle x rq prover id base max price →
      ∃ q requester treasury base max, c.request.body = some q ∧
      SignedBy env (.request q) c.request.format c.request.signature requester ∧
      q.treasury = Address.bytes treasury ∧ env.parseU256 q.baseFee = some base ∧
      env.parseU256 q.maxPricePerPgu = some max ∧
      (max.toNat * q.gasLimit.toNat + base.toNat < 2 ^ 256 →
        punishment.toNat ≤ max.toNat * q.gasLimit.toNat + base.toNat → punishment.toNat ≤ s.bal requester →
        ∃ r' s2, Ledger.execute env (.clear c') s = (.ok r', s2) ∧
          ∀ a, s2.bal a + pay (a = requester) punishment.toNat = s.bal a + pay (a = treasury) punishment.toNat) := by
    intro bid settle x prover id base max price hg
    obtain ⟨_, g'⟩ := h.good hg
    refine ⟨request, rq, tr, base, max, hg.hasRequest, hg.requestSigned, htr, hg.hasBaseFee, hg.hasMaxPrice, fun l1 l2 l3 => ?_⟩
    have h3 : e'.executionStatus = 3 := by rw [he']
    have hstr : e'.punishment = some str := by rw [he']
    obtain ⟨r', hr'⟩ := (c56_clear env c' s hT).mpr
      ⟨request, rq, ⟨tr, htr⟩, .inr ⟨_, ⟨bid, settle, e', prover, id, base, max, price, str, punishment, g', h3, hstr, hp,
        rfl, l2, l1⟩, l3⟩⟩
    have hs' : Ledger.execute env (.clear c') s = (.ok r', (Ledger.execute env (.clear c') s).2) := by rw [← hr']
    generalize (Ledger.execute env (.clear c') s).2 = s2 at hs'
    obtain ⟨_, _, tr', str', p', b1, b2, b3, b4, b5, _, b7, _⟩ := c12_punished env c' s s2 r' hs' e' h.body' h3
    cases g'.hasRequest.symm.trans b1
    cases signedBy_fun g'.requestSigned b2
    have e1 : tr' = tr := Address.bytes_inj (b3.symm.trans htr)
    cases hstr.symm.trans b4
    cases hp.symm.trans b5
    subst e1
    exact ⟨r', s2, hs', b7⟩
  rcases hcase with ⟨prover, cost, ⟨bid, settle, ex, id, base, max, price, _, hg, _⟩, _⟩ |
    ⟨_, ⟨bid, settle, ex, prover, id, base, max, price, _, _, hg, _⟩, _⟩
  · exact key _ _ _ _ _ _ _ _ hg
  · exact key _ _ _ _ _ _ _ _ hg

/-- **C109 is false:** if the reported gas exceeds the gas limit, nobody but the treasury gets anything: the prover is not
compensated, whatever the status in the report. -/
theorem c109_false (env : Env) (c : ClearTx) (s s' : Ledger) (r : Option Receipt)
    (h : Ledger.execute env (.clear c) s = (.ok r, s')) (q : RequestBody) (hq : c.request.body = some q)
    (e : ExecuteBody) (he : c.execute.body = some e) (pgus : U64) (hp : e.pgus = some pgus)
    (hover : q.gasLimit.toNat < pgus.toNat) :
    e.executionStatus = 3 ∧ ∀ a, q.treasury ≠ Address.bytes a → s'.bal a ≤ s.bal a := by
  by_cases h3 : e.executionStatus = 3
  · refine ⟨h3, fun a ha => ?_⟩
    obtain ⟨_, rq, tr, _, p, a1, _, a3, _, _, _, a7, _⟩ := c12_punished env c s s' r h e he h3
    cases hq.symm.trans a1
    have hne : a ≠ tr := fun hh => ha (by rw [hh]; exact a3)
    have h0 : pay (a = tr) p.toNat = 0 := by unfold pay; rw [if_neg hne]
    have := a7 a
    omega
  · obtain ⟨_, _, _, _, _, _, k1, _, k3, _, _, k6, _, k8⟩ := c11_factors env c s s' r h
      (fun x hx => by cases he.symm.trans hx; exact h3)
    cases hq.symm.trans k1
    cases he.symm.trans k3
    cases hp.symm.trans k6
    omega

namespace Toy

/-- The report of the toy executor. -/
def report : ExecuteBody :=
  { requestId := B256.bytes (requestId request), executionStatus := 2, publicValuesHash := some (List.replicate 32 9),
    pgus := some 50, domain := B256.bytes dom, punishment := some (num 40), variant := 3 }

/-- The toy clear with another report. -/
def reported (e : ExecuteBody) : ClearTx :=
  { clear request 2 prover owner with execute := ⟨1, Address.bytes executor, some e⟩ }

theorem otherReport (e : ExecuteBody)
    (h : e.requestId = report.requestId ∧ e.domain = report.domain ∧ e.variant = report.variant) :
    OtherReport env (clear request 2 prover owner) (reported e) report e where
  body := rfl
  body' := rfl
  same := h
  signed := any_signer _ _ _ _
  others := rfl

end Toy

/-- The hypotheses of `c109_report` and `c109_punish` hold: instead of 50 units of gas for 110 the executor can report 100
for 210, or have 310 taken as a punishment. With 101 units the clear is rejected. -/
example :
    OtherReport Toy.env (Toy.clear Toy.request 2 Toy.prover Toy.owner) (Toy.reported { Toy.report with pgus := some 100 })
      Toy.report { Toy.report with pgus := some 100 } ∧
    OtherReport Toy.env (Toy.clear Toy.request 2 Toy.prover Toy.owner)
      (Toy.reported { Toy.report with executionStatus := 3, punishment := some (Toy.num 310) })
      Toy.report { Toy.report with executionStatus := 3, punishment := some (Toy.num 310) } ∧
    (Ledger.execute Toy.env (.clear (Toy.reported Toy.report)) Toy.s2).2.bal Toy.alice = 890 ∧
    (Ledger.execute Toy.env (.clear (Toy.reported { Toy.report with pgus := some 100 })) Toy.s2).2.bal Toy.alice = 790 ∧
    (Ledger.execute Toy.env (.clear (Toy.reported { Toy.report with executionStatus := 3, punishment := some (Toy.num 310) }))
      Toy.s2).2.bal Toy.alice = 690 ∧
    (Ledger.execute Toy.env (.clear (Toy.reported { Toy.report with pgus := some 101 })) Toy.s2).1 =
      .panic (.gasLimitExceeded 101 100) :=
  ⟨Toy.otherReport _ ⟨rfl, rfl, rfl⟩, Toy.otherReport _ ⟨rfl, rfl, rfl⟩, by decide +kernel, by decide +kernel,
    by decide +kernel, by decide +kernel⟩

/-- The hypotheses of `c109_false` hold: 101 units of gas, reported as unexecutable, cost Alice the punishment of 40. -/
example : (Ledger.execute Toy.env (.clear (Toy.reported { Toy.report with executionStatus := 3, pgus := some 101 })) Toy.s2).1 =
      .ok none ∧ Toy.request.gasLimit.toNat < (101 : U64).toNat ∧
    (Ledger.execute Toy.env (.clear (Toy.reported { Toy.report with executionStatus := 3, pgus := some 101 })) Toy.s2).2.bal
      Toy.treasury = 40 := by decide +kernel

/-! ## C110 -/

/-- **C110 is false:** a withdrawal of `2^256 - 1` never goes through, on any ledger with less than that in all. -/
theorem c110_false (env : Env) (w : Signed WithdrawBody) (s : Ledger) (hT : s.total < 2 ^ 256 - 1) (body : WithdrawBody)
    (amount : U256) (hb : w.body = some body) (ha : env.parseU256 body.amount = some amount)
    (hmax : amount.toNat = 2 ^ 256 - 1) (r : Option Receipt) :
    (Ledger.execute env (.withdraw w) s).1 ≠ .ok r := by
  intro h
  have hs : Ledger.execute env (.withdraw w) s = (.ok r, (Ledger.execute env (.withdraw w) s).2) := by rw [← h]
  obtain ⟨b, signer, account, amount', fee, auct, h1, _, _, h4, _, _, _, _, h9, h10, _⟩ := c08_withdraw env w s _ r hs
  cases hb.symm.trans h1
  cases ha.symm.trans h4
  have hle : amount.toNat ≤ s.bal account := by
    by_cases hh : signer = account
    · have := h9 hh; omega
    · exact (h10 hh).1
  have := s.bal_le_total account
  omega

/-- **C110, what does hold:** a withdrawal by an account of all it has less the fee, if it goes through, leaves it
nothing (unless it is the auctioneer that gets the fee), and delivers exactly that amount. Missing: the amount
`2^256 - 1` has no special meaning. -/
theorem c110_all_partial (env : Env) (w : Signed WithdrawBody) (s s' : Ledger) (r : Option Receipt)
    (h : Ledger.execute env (.withdraw w) s = (.ok r, s')) (body : WithdrawBody) (hb : w.body = some body)
    (account auctioneer : Address) (amount fee : U256) (ha : body.account = Address.bytes account)
    (hs : SignedBy env (.withdraw body) w.format w.signature account) (hm : env.parseU256 body.amount = some amount)
    (hf : env.parseU256 body.fee = some fee) (hau : body.auctioneer = Address.bytes auctioneer)
    (hne : auctioneer ≠ account) (hall : amount.toNat + fee.toNat = s.bal account) :
    s'.bal account = 0 ∧ r = some (.withdraw .completed ⟨account, amount⟩) := by
  obtain ⟨b, signer, account', amount', fee', auct', h1, h2, h3, h4, h5, h6, h7, _, _, _, h11, _⟩ := c08_withdraw env w s s' r h
  cases hb.symm.trans h1
  cases hm.symm.trans h4
  cases hf.symm.trans h5
  cases Address.bytes_inj (ha.symm.trans h3)
  cases Address.bytes_inj (hau.symm.trans h6)
  cases signedBy_fun hs h2
  refine ⟨?_, h7⟩
  have := h11 account
  have e1 : pay (account = account) amount.toNat = amount.toNat := by unfold pay; rw [if_pos rfl]
  have e2 : pay (account = account) fee.toNat = fee.toNat := by unfold pay; rw [if_pos rfl]
  have e3 : pay (account = auctioneer) fee.toNat = 0 := by unfold pay; rw [if_neg (Ne.symm hne)]
  omega

/-- The hypotheses of C110 hold: Alice asks for `2^256 - 1` and gets nothing, and for 993 of her 1000 at a fee of 7. -/
example : Toy.s2.total < 2 ^ 256 - 1 ∧ (Toy.env.parseU256 (List.replicate 32 255)).map BitVec.toNat = some (2 ^ 256 - 1) ∧
    (match Toy.withdraw Toy.alice Toy.alice 0 7 with
      | .withdraw w => match (Ledger.execute Toy.env (.withdraw { w with body := w.body.map fun b => { b with
          amount := List.replicate 32 255, fee := Toy.num 0 } }) Toy.s2).1 with
        | .revert _ => true
        | _ => false
      | _ => false) = true ∧
    (Ledger.execute Toy.env (Toy.withdraw Toy.alice Toy.alice 993 7) Toy.s2).1 =
      .ok (some (.withdraw .completed ⟨Toy.alice, 993⟩)) ∧
    (Ledger.execute Toy.env (Toy.withdraw Toy.alice Toy.alice 993 7) Toy.s2).2.bal Toy.alice = 0 := by decide +kernel

end Verif
