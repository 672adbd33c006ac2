import Verif.Prog
/-
# The vApp transaction processor, `crates/vapp/src/state.rs`

Each `VAppTransaction` kind is one program; the order of checks and of mutations is that of the
source. `info!`/`debug!` calls are omitted.
-/

namespace Verif

open Prog

/-! ## Signed messages -/

/-- `enum MessageFormat`, `crates/types/network/src/types.rs:2134-2141`. -/
inductive MessageFormat where
  | unspecified | binary | json
  deriving DecidableEq

/-- `MessageFormat::try_from(i32)` (prost derive; use: `crates/vapp/src/state.rs:280`). -/
def MessageFormat.ofI32? (v : I32) : Option MessageFormat :=
  if v = 0 then some .unspecified else if v = 1 then some .binary else if v = 2 then some .json
  else none

/-- The bytes that `verify_signed_message` checks the signature against,
`crates/vapp/src/signing.rs:25-43`. -/
def messageBytes (env : Env) (b : Body) : MessageFormat → Except Panic Bytes
  | .binary => .ok b.encode
  | .json => match env.json b with | some bs => .ok bs | none => .error .failedToSerializeMessage
  | .unspecified => .error .invalidMessageFormat

/-- `eth_sign_verify`, `crates/vapp/src/signing.rs:50-57`. -/
def ethSignVerify (env : Env) (msg sig : Bytes) : Except Panic Address :=
  match env.recover msg sig with | some a => .ok a | none => .error .invalidSignature

/-- `verify_signed_message`, `crates/vapp/src/signing.rs:20-47`. -/
def verifySigned (env : Env) (b : Body) (sig : Bytes) (f : MessageFormat) : Except Panic Address :=
  match messageBytes env b f with
  | .ok m => ethSignVerify env m sig
  | .error e => .error e

/-- `hash_with_signer`, `crates/types/network/src/lib.rs:35-45`. Encoding into a `Vec` cannot fail, so
`VAppPanic::HashingBodyFailed` is unreachable and omitted. -/
def hashWithSigner (env : Env) (signer : Address) (b : Body) : B256 :=
  env.keccak (Address.bytes signer ++ b.encode)

/-- `bytes_to_words_be`, `crates/vapp/src/utils.rs:11-20`, on a slice that was converted with
`try_into::<[u8; 32]>` (`crates/vapp/src/state.rs:859-865`): `none` for every other length. -/
def bytesToWordsBE (bs : Bytes) : Option (List (BitVec 32)) :=
  if bs.length = 32 then
    some ((List.range 8).map fun i => BitVec.ofNat 32 (beNat ((bs.drop (i * 4)).take 4)))
  else none

/-- `utils::address`, `crates/vapp/src/utils.rs:22-24`, and the inlined `Address::try_from`. -/
def parseAddr (bs : Bytes) : Prog Address := liftO (Address.ofBytes? bs) .addressDeserializationFailed

/-- `tx_variant(v)?` followed by the comparison with the expected variant
(`crates/vapp/src/state.rs:261-264`); both failures are `InvalidTransactionVariant`. -/
def checkVariant (v : I32) (expected : Variant) : Prog Unit :=
  require (Variant.ofI32? v = some expected) .invalidTransactionVariant

/-- Domain check, `crates/vapp/src/state.rs:268-275` (the error for a bad length differs in `Clear`). -/
def checkDomain (d : Bytes) (lenErr : Panic) : Prog Unit := do
  let domain ← liftO (B256.ofBytes? d) lenErr
  let sc ← scalars
  require (domain = sc.domain) (.domainMismatch sc.domain domain)

/-- Format parsing, `crates/vapp/src/state.rs:279-281`. -/
def parseFormat (v : I32) : Prog MessageFormat := liftO (MessageFormat.ofI32? v) .invalidMessageFormat

/-- Replay check and marking, `crates/vapp/src/state.rs:289-296`, `402-409`, `495-502`. -/
def checkAndMark (id : B256) : Prog Unit := do
  let done ← processed id
  require (done = false) (.transactionAlreadyProcessed id)
  markTx id true

/-- `self.accounts.get(&a)?.map_or(U256::ZERO, Account::get_balance)`. -/
def balanceOrZero (o : Option Account) : U256 :=
  match o with | some a => a.balance | none => 0

/-- `map_or(Address::ZERO, Account::get_owner)`. -/
def ownerOrZero (o : Option Account) : Address :=
  match o with | some a => a.owner | none => 0

/-! ## On-chain transactions -/

/-- `validate_onchain_tx`, `crates/vapp/src/state.rs:124-154`, then the cursor update,
`crates/vapp/src/state.rs:194-196` and `225-227`. -/
def acceptOnchain {T : Type} (o : Onchain T) : Prog Unit := do
  let sc ← scalars
  require (o.onchainTx = sc.onchainTxId) (.onchainTxOutOfOrder sc.onchainTxId o.onchainTx)
  require (¬ o.block < sc.onchainBlock) (.blockNumberOutOfOrder sc.onchainBlock o.block)
  require (¬ (o.block = sc.onchainBlock ∧ o.logIndex ≤ sc.onchainLogIndex))
    (.logIndexOutOfOrder sc.onchainLogIndex o.logIndex)
  setScalars { sc with
    onchainTxId := sc.onchainTxId + 1, onchainBlock := o.block, onchainLogIndex := o.logIndex }

/-- `VAppTransaction::Deposit`, `crates/vapp/src/state.rs:184-214`. -/
def depositProg (d : Onchain Deposit) : Prog Outcome := do
  acceptOnchain d
  updAcc d.action.account (Account.addBalance d.action.amount)
  return .applied (some (.deposit d.onchainTx .completed d.action))

/-- `VAppTransaction::CreateProver`, `crates/vapp/src/state.rs:215-249`. -/
def createProverProg (c : Onchain CreateProver) : Prog Outcome := do
  acceptOnchain c
  updAcc c.action.prover
    (fun a => .ok (Account.setProver c.action.owner c.action.stakerFeeBips a))
  return .applied (some (.createProver c.onchainTx .completed c.action))

/-! ## Off-chain transactions -/

/-- `VAppTransaction::Delegate`, `crates/vapp/src/state.rs:250-365`. -/
def delegateProg (env : Env) (d : Signed DelegateBody) : Prog Outcome := do
  let body ← liftO d.body .missingProtoBody
  checkVariant body.variant .delegate
  checkDomain body.domain .domainDeserializationFailed
  let format ← parseFormat d.format
  let proverOwner ← liftE (verifySigned env (.delegate body) d.signature format)
  checkAndMark (hashWithSigner env proverOwner (.delegate body))
  let prover ← parseAddr body.prover
  let auctioneerFee ← liftO (env.parseU256 body.fee) (.invalidU256Amount body.fee)
  let auctioneer ← parseAddr body.auctioneer
  let proverAccount ← getAcc prover
  let proverAccount ← liftO proverAccount (.proverDoesNotExist prover)
  require (proverOwner = proverAccount.owner) .onlyOwnerCanDelegate
  let ownerAccount ← getAcc proverOwner
  let ownerBalance := balanceOrZero ownerAccount
  if ownerBalance.toNat < auctioneerFee.toNat then
    return .reverted (.insufficientDelegateBalance proverOwner auctioneerFee ownerBalance)
  else
    updAcc proverOwner (Account.deductBalance auctioneerFee)
    updAcc auctioneer (Account.addBalance auctioneerFee)
    let delegate ← parseAddr body.delegate
    let found ← modAcc prover (Account.setSigner delegate)
    require (found = true) (.proverDoesNotExist prover)
    return .applied none

/-- `VAppTransaction::Transfer`, `crates/vapp/src/state.rs:366-458`. -/
def transferProg (env : Env) (t : Signed TransferBody) : Prog Outcome := do
  let body ← liftO t.body .missingProtoBody
  checkVariant body.variant .transfer
  let format ← parseFormat t.format
  let sender ← liftE (verifySigned env (.transfer body) t.signature format)
  checkDomain body.domain .domainDeserializationFailed
  checkAndMark (hashWithSigner env sender (.transfer body))
  let to ← parseAddr body.to
  let amount ← liftO (env.parseU256 body.amount) (.invalidTransferAmount body.amount)
  let auctioneerFee ← liftO (env.parseU256 body.fee) (.invalidU256Amount body.fee)
  let auctioneer ← parseAddr body.auctioneer
  let senderAccount ← getAcc sender
  let balance := balanceOrZero senderAccount
  let total ← liftE (u256add amount auctioneerFee)
  if balance.toNat < total.toNat then
    return .reverted (.insufficientTransferBalance sender total balance)
  else
    updAcc sender (Account.deductBalance amount)
    updAcc to (Account.addBalance amount)
    updAcc sender (Account.deductBalance auctioneerFee)
    updAcc auctioneer (Account.addBalance auctioneerFee)
    return .applied none

/-- `VAppTransaction::Withdraw`, `crates/vapp/src/state.rs:459-605`. -/
def withdrawProg (env : Env) (w : Signed WithdrawBody) : Prog Outcome := do
  let body ← liftO w.body .missingProtoBody
  checkVariant body.variant .withdraw
  let format ← parseFormat w.format
  let sender ← liftE (verifySigned env (.withdraw body) w.signature format)
  checkDomain body.domain .domainDeserializationFailed
  checkAndMark (hashWithSigner env sender (.withdraw body))
  let account ← parseAddr body.account
  let acct ← getAcc account
  let owner := ownerOrZero acct
  require (¬ (owner = 0 ∧ account ≠ sender)) .onlyAccountCanWithdraw
  let amount ← liftO (env.parseU256 body.amount) (.invalidU256Amount body.amount)
  let auctioneerFee ← liftO (env.parseU256 body.fee) (.invalidU256Amount body.fee)
  let auctioneer ← parseAddr body.auctioneer
  if account = sender then
    let acct ← getAcc account
    let balance := balanceOrZero acct
    let total ← liftE (u256add amount auctioneerFee)
    if balance.toNat < total.toNat then
      return .reverted (.insufficientWithdrawBalance account total balance)
    else
      updAcc account (Account.deductBalance amount)
      updAcc account (Account.deductBalance auctioneerFee)
      updAcc auctioneer (Account.addBalance auctioneerFee)
      return .applied (some (.withdraw .completed ⟨account, amount⟩))
  else
    let proverAccount ← getAcc account
    let proverBalance := balanceOrZero proverAccount
    if proverBalance.toNat < amount.toNat then
      return .reverted (.insufficientWithdrawBalance account amount proverBalance)
    else
      let senderAccount ← getAcc sender
      let senderBalance := balanceOrZero senderAccount
      if senderBalance.toNat < auctioneerFee.toNat then
        return .reverted (.insufficientWithdrawBalance sender auctioneerFee senderBalance)
      else
        updAcc account (Account.deductBalance amount)
        updAcc sender (Account.deductBalance auctioneerFee)
        updAcc auctioneer (Account.addBalance auctioneerFee)
        return .applied (some (.withdraw .completed ⟨account, amount⟩))

/-- What the authorisation part of `Clear` establishes, `crates/vapp/src/state.rs:608-736`. -/
structure ClearCtx where
  request : RequestBody
  bid : BidBody
  settle : SettleBody
  execute : ExecuteBody
  requestSigner : Address
  requestId : B256
  proverAddress : Address
  proverOwner : Address
  baseFee : U256
  maxPricePerPgu : U256
  price : U256

/-- First part of `VAppTransaction::Clear`: bodies, signatures, variants, domains, request identity
and replay check, `crates/vapp/src/state.rs:607-683`. -/
def clearMessages (env : Env) (c : ClearTx) :
    Prog (RequestBody × BidBody × SettleBody × ExecuteBody ×
      Address × Address × Address × Address × B256) := do
  let request ← liftO c.request.body .missingProtoBody
  let bid ← liftO c.bid.body .missingProtoBody
  let settle ← liftO c.settle.body .missingProtoBody
  let execute ← liftO c.execute.body .missingProtoBody
  let requestFormat ← parseFormat c.request.format
  let bidFormat ← parseFormat c.bid.format
  let settleFormat ← parseFormat c.settle.format
  let executeFormat ← parseFormat c.execute.format
  let requestSigner ← liftE (verifySigned env (.request request) c.request.signature requestFormat)
  let bidSigner ← liftE (verifySigned env (.bid bid) c.bid.signature bidFormat)
  let settleSigner ← liftE (verifySigned env (.settle settle) c.settle.signature settleFormat)
  let executeSigner ← liftE (verifySigned env (.execute execute) c.execute.signature executeFormat)
  checkVariant request.variant .request
  checkVariant bid.variant .bid
  checkVariant settle.variant .settle
  checkVariant execute.variant .execute
  checkDomain request.domain .failedToParseBytes
  checkDomain bid.domain .failedToParseBytes
  checkDomain settle.domain .failedToParseBytes
  checkDomain execute.domain .failedToParseBytes
  let requestId := hashWithSigner env requestSigner (.request request)
  require (B256.bytes requestId = bid.requestId)
    (.requestIdMismatch (B256.bytes requestId) bid.requestId)
  require (B256.bytes requestId = settle.requestId)
    (.requestIdMismatch (B256.bytes requestId) settle.requestId)
  require (B256.bytes requestId = execute.requestId)
    (.requestIdMismatch (B256.bytes requestId) execute.requestId)
  let done ← processed requestId
  require (done = false) (.transactionAlreadyProcessed requestId)
  return (request, bid, settle, execute, requestSigner, bidSigner, settleSigner, executeSigner,
    requestId)

/-- Second part of `Clear`: the bidder's right to bid, whitelist, auctioneer, executor and price,
`crates/vapp/src/state.rs:685-736`. -/
def clearParties (env : Env) (request : RequestBody) (bid : BidBody)
    (bidSigner settleSigner executeSigner : Address) :
    Prog (Address × Address × U256 × U256 × U256) := do
  let proverAddress ← parseAddr bid.prover
  let proverAccount ← getAcc proverAddress
  let proverAccount ← liftO proverAccount (.proverDoesNotExist proverAddress)
  let proverOwner := proverAccount.owner
  require (proverAccount.signer = bidSigner)
    (.proverDelegatedSignerMismatch proverAddress proverAccount.signer)
  require (request.whitelist = [] ∨ Address.bytes proverAddress ∈ request.whitelist)
    (.proverNotInWhitelist proverAddress)
  let requestAuctioneer ← parseAddr request.auctioneer
  require (requestAuctioneer = settleSigner) (.auctioneerMismatch requestAuctioneer settleSigner)
  let requestExecutor ← parseAddr request.executor
  require (requestExecutor = executeSigner) (.executorMismatch requestExecutor executeSigner)
  let baseFee ← liftO (env.parseU256 request.baseFee) .u256ParseError
  let maxPricePerPgu ← liftO (env.parseU256 request.maxPricePerPgu) .u256ParseError
  let price ← liftO (env.parseU256 bid.amount) .u256ParseError
  require (price.toNat ≤ maxPricePerPgu.toNat) (.maxPricePerPguExceeded maxPricePerPgu price)
  return (proverAddress, proverOwner, baseFee, maxPricePerPgu, price)

/-- The authorisation part of `Clear`, `crates/vapp/src/state.rs:607-736`. -/
def clearAuth (env : Env) (c : ClearTx) : Prog ClearCtx := do
  let (request, bid, settle, execute, requestSigner, bidSigner, settleSigner, executeSigner,
    requestId) ← clearMessages env c
  let (proverAddress, proverOwner, baseFee, maxPricePerPgu, price) ←
    clearParties env request bid bidSigner settleSigner executeSigner
  return { request, bid, settle, execute, requestSigner, requestId, proverAddress, proverOwner,
           baseFee, maxPricePerPgu, price }

/-- `U256::from(u64)`. -/
def u256OfU64 (x : U64) : U256 := BitVec.ofNat 256 x.toNat

/-- The punishment branch of `Clear`, `crates/vapp/src/state.rs:742-789`. -/
def clearPunish (env : Env) (x : ClearCtx) : Prog Outcome := do
  let p ← liftO x.execute.punishment .missingPunishment
  let punishment ← liftO (env.parseU256 p) .u256ParseError
  let gasLimit := u256OfU64 x.request.gasLimit
  let m ← liftE (u256mul x.maxPricePerPgu gasLimit)
  let maxPrice ← liftE (u256add m x.baseFee)
  require (punishment.toNat ≤ maxPrice.toNat) (.punishmentExceedsMaxCost punishment maxPrice)
  let acct ← getAcc x.requestSigner
  let balance := balanceOrZero acct
  if balance.toNat < punishment.toNat then
    markTx x.requestId true
    return .reverted (.insufficientPunishmentBalance x.requestSigner punishment balance)
  else
    updAcc x.requestSigner (Account.deductBalance punishment)
    let treasury ← parseAddr x.request.treasury
    updAcc treasury (Account.addBalance punishment)
    markTx x.requestId true
    return .applied none

/-- `"sp1-v6"`, `crates/vapp/src/state.rs:871`. -/
def primaryVersionPrefix : Bytes := [115, 112, 49, 45, 118, 54]

/-- Agreement of the request's public values hash, if any, with the executed one,
`crates/vapp/src/state.rs:844-856`. -/
def checkPvh (requested : Option Bytes) (executed : Bytes) : Prog Unit :=
  match requested with
  | some h => do
    require (h.length = 32) .failedToParseBytes
    require (h = executed) .publicValuesHashMismatch
  | none => .pure ()

/-- Fulfilment and proof checks of `Clear`, `crates/vapp/src/state.rs:791-898`. -/
def clearProof (env : Env) (c : ClearTx) (x : ClearCtx) : Prog Unit := do
  require (x.execute.executionStatus = 2) (.executionFailed x.execute.executionStatus)
  let fulfill ← liftO c.fulfill .missingFulfill
  let body ← liftO fulfill.body .missingProtoBody
  let format ← parseFormat fulfill.format
  let fulfillSigner ← liftE (verifySigned env (.fulfill body) fulfill.signature format)
  checkDomain body.domain .domainDeserializationFailed
  checkVariant body.variant .fulfill
  require (body.requestId = B256.bytes x.requestId)
    (.requestIdMismatch body.requestId (B256.bytes x.requestId))
  let executePvh ← liftO x.execute.publicValuesHash .missingPublicValuesHash
  require (executePvh.length = 32) .failedToParseBytes
  checkPvh x.request.publicValuesHash executePvh
  let vk ← liftO (bytesToWordsBE x.request.vkHash) .failedToParseBytes
  let primary := primaryVersionPrefix.isPrefixOf x.request.version
  if x.request.mode = 2 ∧ primary = true then
    require (env.verify vk executePvh = true) .invalidProof
  else if x.request.mode = 2 ∨ x.request.mode = 3 ∨ x.request.mode = 4 then
    let sig ← liftO c.verify .missingVerifierSignature
    let verifier ← liftE (ethSignVerify env
      (B256.bytes (hashWithSigner env fulfillSigner (.fulfill body))) sig)
    let expected ← parseAddr x.request.verifier
    require (verifier = expected) .invalidVerifierSignature
  else
    .panic (.unsupportedProofMode x.request.mode)

/-- Cost, affordability and payment of `Clear`, `crates/vapp/src/state.rs:900-980`. -/
def clearPay (x : ClearCtx) : Prog Outcome := do
  let pgus64 ← liftO x.execute.pgus .missingPgusUsed
  let pgus := u256OfU64 pgus64
  let m ← liftE (u256mul x.price pgus)
  let cost ← liftE (u256add m x.baseFee)
  let gasLimit := u256OfU64 x.request.gasLimit
  require (pgus.toNat ≤ gasLimit.toNat) (.gasLimitExceeded pgus gasLimit)
  let acct ← getAcc x.requestSigner
  let acct ← liftO acct (.accountDoesNotExist x.requestSigner)
  if acct.balance.toNat < cost.toNat then
    markTx x.requestId true
    return .reverted (.insufficientClearBalance x.requestSigner cost acct.balance)
  else
    markTx x.requestId true
    updAcc x.requestSigner (Account.deductBalance cost)
    let treasury ← parseAddr x.request.treasury
    let prover ← getAcc x.proverAddress
    let prover ← liftO prover (.accountDoesNotExist x.proverAddress)
    let (protocolFee, stakerFee, ownerFee) ←
      liftE (fee cost protocolFeeBips prover.stakerFeeBips)
    updAcc treasury (Account.addBalance protocolFee)
    updAcc x.proverAddress (Account.addBalance stakerFee)
    updAcc x.proverOwner (Account.addBalance ownerFee)
    return .applied none

/-- `VAppTransaction::Clear`, `crates/vapp/src/state.rs:606-981`. -/
def clearProg (env : Env) (c : ClearTx) : Prog Outcome := do
  let x ← clearAuth env c
  if x.execute.executionStatus = 3 then
    clearPunish env x
  else
    clearProof env c x
    clearPay x

/-- `execute_inner`, `crates/vapp/src/state.rs:179-983`. -/
def execInner (env : Env) : Tx → Prog Outcome
  | .deposit d => depositProg d
  | .createProver c => createProverProg c
  | .delegate d => delegateProg env d
  | .transfer t => transferProg env t
  | .withdraw w => withdrawProg env w
  | .clear c => clearProg env c

/-- `Result<Option<VAppReceipt>, VAppError>`, `crates/vapp/src/state.rs:163`, with the two error
kinds of `VAppError` (`crates/vapp/src/errors.rs:16-22`). -/
inductive Result where
  | ok (r : Option Receipt)
  | revert (r : Revert)
  | panic (e : Panic)
  deriving DecidableEq

/-- `execute`, `crates/vapp/src/state.rs:160-175`, on any storage backend. -/
def execute {A T : Type} (SA : StoreOps Address Account A) (ST : StoreOps B256 Bool T)
    (env : Env) (tx : Tx) (s : St A T) : Result × St A T :=
  match (execInner env tx).run SA ST s with
  | (.ok (.applied r), s') => (.ok r, { s' with sc := { s'.sc with txId := s'.sc.txId + 1 } })
  | (.ok (.reverted v), s') => (.revert v, { s' with sc := { s'.sc with txId := s'.sc.txId + 1 } })
  | (.error e, s') => (.panic e, s')

/-- `VAppState::new`, `crates/vapp/src/state.rs:108-118`, over plain maps. -/
def Ledger.new (domain : B256) : Ledger :=
  { sc := { domain, txId := 1, onchainTxId := 1, onchainBlock := 0, onchainLogIndex := 0 },
    accounts := SMap.empty, transactions := SMap.empty }

/-- `execute` over plain maps. -/
def Ledger.execute (env : Env) (tx : Tx) (s : Ledger) : Result × Ledger :=
  Verif.execute (mapOps Address Account) (mapOps B256 Bool) env tx s

end Verif
