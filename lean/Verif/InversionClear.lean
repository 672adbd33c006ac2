import Verif.Inversion
/-
# Closed form of the `Clear` transaction (proof infrastructure)
-/

namespace Verif

open Prog

theorem moves_mark (ms : List Mv) (s : Ledger) (id : B256) (v : Bool) :
    (moves ms s).mark id v = moves ms (s.mark id v) := by
  induction ms generalizing s with
  | nil => rfl
  | cons m ms ih =>
    simp only [moves]
    rw [ih]
    cases m <;> rfl

theorem movesOk_congr (ms : List Mv) (s t : Ledger) (h : s.accounts = t.accounts) :
    MovesOk ms s → MovesOk ms t := by
  induction ms generalizing s t with
  | nil => exact id
  | cons m ms ih =>
    rintro ⟨h1, h2⟩
    have hb : ∀ a, s.bal a = t.bal a := fun a => by
      unfold Ledger.bal Ledger.acctD Ledger.acct; rw [h]
    have hd : ∀ a, s.acctD a = t.acctD a := fun a => by
      unfold Ledger.acctD Ledger.acct; rw [h]
    refine ⟨?_, ih (m.app s) (m.app t) ?_ h2⟩
    · cases m <;> simp only [Mv.ok] at * <;> rw [← hb] <;> exact h1
    · cases m <;> simp only [Mv.app, Ledger.credit, Ledger.debit, Ledger.setAcct, hb, hd, h]

theorem moves_touchTx_mark (ms : List Mv) (s : Ledger) (id : B256) (v : Bool) :
    (moves ms (s.touchTx id)).mark id v = moves ms (s.mark id v) := by
  rw [moves_mark, Ledger.mark_touchTx]

/-- Signers of the four messages of a clear. -/
structure ClearSigners where
  bid : Address
  settle : Address
  execute : Address

/-- Checks passed by the authorisation part of a clear. -/
structure ClearPre (env : Env) (c : ClearTx) (s : Ledger) (x : ClearCtx) (g : ClearSigners) :
    Prop where
  request : c.request.body = some x.request
  bid : c.bid.body = some x.bid
  settle : c.settle.body = some x.settle
  execute : c.execute.body = some x.execute
  requestSigned : SignedBy env (.request x.request) c.request.format c.request.signature x.requestSigner
  bidSigned : SignedBy env (.bid x.bid) c.bid.format c.bid.signature g.bid
  settleSigned : SignedBy env (.settle x.settle) c.settle.format c.settle.signature g.settle
  executeSigned : SignedBy env (.execute x.execute) c.execute.format c.execute.signature g.execute
  requestVariant : Variant.ofI32? x.request.variant = some .request
  bidVariant : Variant.ofI32? x.bid.variant = some .bid
  settleVariant : Variant.ofI32? x.settle.variant = some .settle
  executeVariant : Variant.ofI32? x.execute.variant = some .execute
  requestDomain : x.request.domain = B256.bytes s.sc.domain
  bidDomain : x.bid.domain = B256.bytes s.sc.domain
  settleDomain : x.settle.domain = B256.bytes s.sc.domain
  executeDomain : x.execute.domain = B256.bytes s.sc.domain
  requestId : x.requestId = identity env x.requestSigner (.request x.request)
  bidId : x.bid.requestId = B256.bytes x.requestId
  settleId : x.settle.requestId = B256.bytes x.requestId
  executeId : x.execute.requestId = B256.bytes x.requestId
  fresh : s.done x.requestId = false
  prover : x.bid.prover = Address.bytes x.proverAddress
  present : (s.acct x.proverAddress).isSome
  owner : x.proverOwner = s.owner x.proverAddress
  delegated : g.bid = s.signer x.proverAddress
  whitelist : x.request.whitelist = [] ∨ Address.bytes x.proverAddress ∈ x.request.whitelist
  auctioneer : x.request.auctioneer = Address.bytes g.settle
  executor : x.request.executor = Address.bytes g.execute
  baseFee : env.parseU256 x.request.baseFee = some x.baseFee
  maxPrice : env.parseU256 x.request.maxPricePerPgu = some x.maxPricePerPgu
  price : env.parseU256 x.bid.amount = some x.price
  priceLe : x.price.toNat ≤ x.maxPricePerPgu.toNat

theorem clearAuth_wp (env : Env) (c : ClearTx) (s : Ledger) :
    wp (clearAuth env c) s (fun x s' => (∃ g, ClearPre env c s x g) ∧ s' = s.touchTx x.requestId)
      (fun _ _ => True) := by
  unfold clearAuth clearMessages clearParties
  simp only [wp_bind, wp_liftO, wp_checkVariant, wp_checkDomain, wp_parseFormat, wp_liftE,
    wp_parseAddr, wp_getAcc, wp_require, wp_pure, wp_processed, imp_true_iff, and_true]
  intro request hreq bid hbid settle hsettle execute hexe rf hrf bf hbf sf hsf ef hef rs hrs bs hbs ss
    hss es hes v1 v2 v3 v4 d1 d2 d3 d4 i1 i2 i3 hfresh prover hprover acc hacc hsig hwl auct hauct hauct'
    exe hexec hexec' bf' hbf' mp hmp price hprice hle
  rw [Ledger.acct_touchTx] at hacc
  refine ⟨⟨bs, ss, es⟩, ?_⟩
  exact {
    request := hreq, bid := hbid, settle := hsettle, execute := hexe
    requestSigned := verifySigned_ok hrf hrs
    bidSigned := verifySigned_ok hbf hbs
    settleSigned := verifySigned_ok hsf hss
    executeSigned := verifySigned_ok hef hes
    requestVariant := v1, bidVariant := v2, settleVariant := v3, executeVariant := v4
    requestDomain := d1, bidDomain := d2, settleDomain := d3, executeDomain := d4
    requestId := rfl, bidId := i1.symm, settleId := i2.symm, executeId := i3.symm
    fresh := hfresh, prover := hprover, present := by simp [hacc]
    owner := by simp [Ledger.owner, Ledger.acctD, hacc]
    delegated := by simp [Ledger.signer, Ledger.acctD, hacc, hsig]
    whitelist := hwl, auctioneer := hauct' ▸ hauct, executor := hexec' ▸ hexec
    baseFee := hbf', maxPrice := hmp, price := hprice, priceLe := hle }

theorem u256OfU64_toNat (x : U64) : (u256OfU64 x).toNat = x.toNat := by
  unfold u256OfU64
  exact u256_ofNat_toNat (Nat.lt_trans x.isLt (by decide))

/-- Moves of a punished clear. -/
def punishMoves (x : ClearCtx) (punishment : U256) (treasury : Address) : List Mv :=
  [.debit x.requestSigner punishment, .credit treasury punishment]

/-- Outcome of the punishment branch. -/
def PunishPost (env : Env) (x : ClearCtx) (s : Ledger) (out : Outcome) (s' : Ledger) : Prop :=
  ∃ str punishment, x.execute.punishment = some str ∧ env.parseU256 str = some punishment ∧
    punishment.toNat ≤ x.maxPricePerPgu.toNat * x.request.gasLimit.toNat + x.baseFee.toNat ∧
    ((∃ bal, out = .reverted (.insufficientPunishmentBalance x.requestSigner punishment bal) ∧
        bal.toNat = s.bal x.requestSigner ∧ s.bal x.requestSigner < punishment.toNat ∧
        s' = s.mark x.requestId true) ∨
     (∃ treasury, out = .applied none ∧ punishment.toNat ≤ s.bal x.requestSigner ∧
        x.request.treasury = Address.bytes treasury ∧
        MovesOk (punishMoves x punishment treasury) (s.mark x.requestId true) ∧
        s' = moves (punishMoves x punishment treasury) (s.mark x.requestId true)))

theorem clearPunish_wp (env : Env) (x : ClearCtx) (s : Ledger) :
    wp (clearPunish env x) (s.touchTx x.requestId) (PunishPost env x s) (fun _ _ => True) := by
  unfold clearPunish
  simp only [wp_bind, wp_liftO, wp_liftE, wp_parseAddr, wp_getAcc, wp_require, wp_pure, wp_ite,
    wp_markTx, wp_updAcc_add, wp_updAcc_deduct, imp_true_iff, and_true]
  intro str hstr p hp m hm mx hmx hle
  rw [u256mul_ok, u256OfU64_toNat] at hm
  rw [u256add_ok] at hmx
  simp only [Ledger.acct_touchTx, Ledger.mark_touchTx, balanceOrZero_acct]
  refine ⟨fun hlt => ⟨str, p, hstr, hp, by omega, .inl ⟨_, rfl, balanceOrZero_acct _ _, hlt, rfl⟩⟩,
    fun hge => ?_⟩
  intro h1 tr htr h2
  refine ⟨str, p, hstr, hp, by omega, .inr ⟨tr, by trivial, by omega, htr, ?_, ?_⟩⟩
  · exact movesOk_congr _ (s.touchTx x.requestId) _ (by simp) ⟨h1, h2, trivial⟩
  · rw [← moves_touchTx_mark]; rfl

/-- What the proof checks of a fulfilled clear establish. -/
structure ProofPre (env : Env) (c : ClearTx) (s : Ledger) (x : ClearCtx) (f : Signed FulfillBody)
    (b : FulfillBody) (signer : Address) (pvh : Bytes) : Prop where
  executed : x.execute.executionStatus = 2
  fulfill : c.fulfill = some f
  body : f.body = some b
  signed : SignedBy env (.fulfill b) f.format f.signature signer
  domain : b.domain = B256.bytes s.sc.domain
  variant : Variant.ofI32? b.variant = some .fulfill
  requestId : b.requestId = B256.bytes x.requestId
  pvhSome : x.execute.publicValuesHash = some pvh
  pvhLength : pvh.length = 32
  requestPvh : ∀ h, x.request.publicValuesHash = some h → h = pvh
  vkLength : x.request.vkHash.length = 32
  verified :
    (x.request.mode = 2 ∧ primaryVersionPrefix.isPrefixOf x.request.version = true ∧
      ∃ vk, bytesToWordsBE x.request.vkHash = some vk ∧ env.verify vk pvh = true) ∨
    (((x.request.mode = 2 ∧ primaryVersionPrefix.isPrefixOf x.request.version = false) ∨
        x.request.mode = 3 ∨ x.request.mode = 4) ∧
      ∃ sig verifier, c.verify = some sig ∧ x.request.verifier = Address.bytes verifier ∧
        env.recover (B256.bytes (identity env signer (.fulfill b))) sig = some verifier)

theorem wp_checkPvh (r : Option Bytes) (e : Bytes) {s : Ledger} {Q : Unit → Ledger → Prop}
    (h : (∀ h, r = some h → h = e) → Q () s) : wp (checkPvh r e) s Q (fun _ _ => True) := by
  unfold checkPvh
  cases r with
  | none => simp only [wp_pure']; exact h (by simp)
  | some h' =>
    simp only [wp_bind, wp_require, imp_true_iff, and_true]
    intro _ he
    exact h (by simp [he])

theorem ethSignVerify_ok {env : Env} {m sig : Bytes} {a : Address}
    (h : ethSignVerify env m sig = .ok a) : env.recover m sig = some a := by
  unfold ethSignVerify at h
  split at h
  · cases h; assumption
  · cases h

theorem clearProof_wp (env : Env) (c : ClearTx) (x : ClearCtx) (s : Ledger) :
    wp (clearProof env c x) s (fun _ s' => (∃ f b g p, ProofPre env c s x f b g p) ∧ s' = s)
      (fun _ _ => True) := by
  unfold clearProof
  simp only [wp_bind, wp_liftO, wp_checkVariant, wp_checkDomain, wp_parseFormat, wp_liftE,
    wp_require, imp_true_iff, and_true]
  intro hex f hf b hb fmt hfmt g hg hdom hvar hid pvh hpvh hlen
  apply wp_checkPvh
  intro hreq
  simp only [wp_ite, wp_bind, wp_liftO, wp_liftE, wp_parseAddr, wp_require, wp_panic, imp_true_iff,
    and_true]
  intro vk hvk
  have hvl : x.request.vkHash.length = 32 := by
    unfold bytesToWordsBE at hvk
    split at hvk
    · assumption
    · cases hvk
  refine ⟨fun hm hv => ⟨f, b, g, pvh, ⟨hex, hf, hb, verifySigned_ok hfmt hg, hdom, hvar, hid, hpvh, hlen,
    hreq, hvl, .inl ⟨hm.1, hm.2, vk, hvk, hv⟩⟩⟩, fun hm => ?_⟩
  intro hm2 sig hsig ver hver exp hexp heq
  refine ⟨f, b, g, pvh, ⟨hex, hf, hb, verifySigned_ok hfmt hg, hdom, hvar, hid, hpvh, hlen,
    hreq, hvl, .inr ⟨?_, sig, exp, hsig, hexp, ?_⟩⟩⟩
  · rcases hm2 with h | h | h
    · left; refine ⟨h, ?_⟩
      cases hp : primaryVersionPrefix.isPrefixOf x.request.version with
      | false => rfl
      | true => exact absurd ⟨h, hp⟩ hm
    · exact .inr (.inl h)
    · exact .inr (.inr h)
  · rw [← heq]; exact ethSignVerify_ok hver

/-- Moves of a paid clear. -/
def payMoves (x : ClearCtx) (cost : U256) (treasury : Address) (p st o : U256) : List Mv :=
  [.debit x.requestSigner cost, .credit treasury p, .credit x.proverAddress st, .credit x.proverOwner o]

/-- Outcome of the payment part. -/
def PayPost (x : ClearCtx) (s : Ledger) (out : Outcome) (s' : Ledger) : Prop :=
  ∃ (pgus : U64) (cost : U256), x.execute.pgus = some pgus ∧
    cost.toNat = x.price.toNat * pgus.toNat + x.baseFee.toNat ∧
    pgus.toNat ≤ x.request.gasLimit.toNat ∧ (s.acct x.requestSigner).isSome ∧
    ((∃ bal, out = .reverted (.insufficientClearBalance x.requestSigner cost bal) ∧
        bal.toNat = s.bal x.requestSigner ∧ s.bal x.requestSigner < cost.toNat ∧
        s' = s.mark x.requestId true) ∨
     (∃ treasury p st o, out = .applied none ∧ cost.toNat ≤ s.bal x.requestSigner ∧
        x.request.treasury = Address.bytes treasury ∧
        fee cost protocolFeeBips (s.bips x.proverAddress) = .ok (p, st, o) ∧
        MovesOk (payMoves x cost treasury p st o) (s.mark x.requestId true) ∧
        s' = moves (payMoves x cost treasury p st o) (s.mark x.requestId true)))

theorem clearPay_wp (x : ClearCtx) (s : Ledger) :
    wp (clearPay x) (s.touchTx x.requestId) (PayPost x s) (fun _ _ => True) := by
  unfold clearPay
  simp only [wp_bind, wp_liftO, wp_liftE, wp_parseAddr, wp_getAcc, wp_require, wp_pure, wp_ite,
    wp_markTx, wp_updAcc_add, wp_updAcc_deduct, imp_true_iff, and_true, Ledger.mark_touchTx,
    Ledger.acct_touchTx]
  intro pgus hpgus m hm cost hcost hle acct hacct
  rw [u256mul_ok, u256OfU64_toNat] at hm
  rw [u256add_ok] at hcost
  rw [u256OfU64_toNat, u256OfU64_toNat] at hle
  have hbal : acct.balance.toNat = s.bal x.requestSigner := by
    simp [Ledger.bal, Ledger.acctD, hacct]
  rw [hbal]
  refine ⟨fun hlt => ⟨pgus, cost, hpgus, by omega, hle, by simp [hacct],
    .inl ⟨_, rfl, hbal, hlt, rfl⟩⟩, fun hge => ?_⟩
  intro h1 tr htr pa hpa r hr h2 h3 h4
  obtain ⟨p, st, o⟩ := r
  have hbips : pa.stakerFeeBips = s.bips x.proverAddress := by
    have : ((s.mark x.requestId true).debit x.requestSigner cost).bips x.proverAddress
        = s.bips x.proverAddress := by simp
    rw [← this]
    simp [Ledger.bips, Ledger.acctD, hpa]
  rw [hbips] at hr
  exact ⟨pgus, cost, hpgus, by omega, hle, by simp [hacct],
    .inr ⟨tr, p, st, o, by trivial, by omega, htr, hr, ⟨h1, h2, h3, h4, trivial⟩, rfl⟩⟩

theorem clear_wp (env : Env) (c : ClearTx) (s : Ledger) :
    wp (clearProg env c) s (fun out s' => ∃ x g, ClearPre env c s x g ∧
      ((x.execute.executionStatus = 3 ∧ PunishPost env x s out s') ∨
       ((∃ f b g p, ProofPre env c s x f b g p) ∧ PayPost x s out s')))
      (fun _ _ => True) := by
  unfold clearProg
  rw [wp_bind]
  refine wp_mono (clearAuth_wp env c s) ?_ (fun _ _ h => h)
  rintro x s1 ⟨⟨g, hpre⟩, rfl⟩
  rw [wp_ite]
  constructor
  · intro h3
    exact wp_mono (clearPunish_wp env x s) (fun out s' h => ⟨x, g, hpre, .inl ⟨h3, h⟩⟩) (fun _ _ h => h)
  · intro h3
    rw [wp_bind]
    refine wp_mono (clearProof_wp env c x _) ?_ (fun _ _ h => h)
    rintro _ s2 ⟨⟨f, b, g', p, hp⟩, rfl⟩
    refine wp_mono (clearPay_wp x s) (fun out s' h => ⟨x, g, hpre, .inr ⟨⟨f, b, g', p, ?_⟩, h⟩⟩)
      (fun _ _ h => h)
    exact { hp with domain := by simpa using hp.domain }

end Verif
