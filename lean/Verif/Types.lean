import Verif.Messages
/-
# Accounts, errors, transactions, receipts and the cryptographic environment of the vApp
-/

namespace Verif

/-- `sol::Account`, `crates/vapp/src/sol.rs:105-112`; `Default` is all zeros. -/
structure Account where
  balance : U256 := 0
  owner : Address := 0
  signer : Address := 0
  stakerFeeBips : U256 := 0
  deriving DecidableEq

instance : Inhabited Account := ⟨{}⟩

/-- `VAppPanic`, `crates/vapp/src/errors.rs:57-196`.
Simplification: textual payloads (`InvalidSignature.error`, `FailedToSerializeMessage.error`,
`U256ParseError.0`) are dropped, `TransactionAlreadyProcessed.id` keeps the 32 bytes instead of
their hex rendering; `InsufficientBalance` is never constructed by the code and is omitted;
`StorageError` has the single payload `KeyNotAllowed`. -/
inductive Panic where
  | onchainTxOutOfOrder (expected actual : U64)
  | blockNumberOutOfOrder (expected actual : U64)
  | logIndexOutOfOrder (current next : U64)
  | invalidMessageFormat
  | failedToSerializeMessage
  | invalidSignature
  | missingProtoBody
  | onlyOwnerCanDelegate
  | requestIdMismatch (found expected : Bytes)
  | invalidU256Amount (amount : Bytes)
  | missingPgusUsed
  | gasLimitExceeded (pgus gasLimit : U256)
  | accountDoesNotExist (account : Address)
  | proverNotInWhitelist (prover : Address)
  | executionFailed (status : I32)
  | transactionAlreadyProcessed (id : B256)
  | unsupportedProofMode (mode : I32)
  | invalidProof
  | invalidTransferAmount (amount : Bytes)
  | domainMismatch (expected actual : B256)
  | proverDelegatedSignerMismatch (prover delegatedSigner : Address)
  | auctioneerMismatch (requestAuctioneer settleSigner : Address)
  | executorMismatch (requestExecutor executeSigner : Address)
  | addressDeserializationFailed
  | domainDeserializationFailed
  | invalidVerifierSignature
  | failedToParseBytes
  | missingPublicValuesHash
  | maxPricePerPguExceeded (maxPricePerPgu price : U256)
  | u256ParseError
  | missingFulfill
  | missingVerifierSignature
  | missingPunishment
  | punishmentExceedsMaxCost (punishment maxPrice : U256)
  | publicValuesHashMismatch
  | proverDoesNotExist (prover : Address)
  | protocolFeeTooHigh (bips : U256)
  | stakerFeeTooHigh (bips : U256)
  | totalFeeTooHigh (protocolBips stakerBips : U256)
  | invalidTransactionVariant
  | storageKeyNotAllowed
  | onlyAccountCanWithdraw
  | arithmeticOverflow
  deriving DecidableEq

/-- `VAppRevert`, `crates/vapp/src/errors.rs:27-52`. -/
inductive Revert where
  | insufficientClearBalance (account : Address) (required balance : U256)
  | insufficientPunishmentBalance (account : Address) (required balance : U256)
  | insufficientDelegateBalance (account : Address) (required balance : U256)
  | insufficientTransferBalance (account : Address) (required balance : U256)
  | insufficientWithdrawBalance (account : Address) (required balance : U256)
  deriving DecidableEq

/-- A signed protobuf request wrapper (`SetDelegationRequest`, `TransferRequest`, ...):
`format`, `signature`, optional `body` (`crates/types/network/src/types.rs:40-48` and analogues). -/
structure Signed (B : Type) where
  format : I32
  signature : Bytes
  body : Option B

/-- `sol::Deposit`, `crates/vapp/src/sol.rs:62-67`. -/
structure Deposit where
  account : Address
  amount : U256
  deriving DecidableEq

/-- `sol::Withdraw`, `crates/vapp/src/sol.rs:69-74`. -/
structure Withdraw where
  account : Address
  amount : U256
  deriving DecidableEq

/-- `sol::CreateProver`, `crates/vapp/src/sol.rs:76-82`. -/
structure CreateProver where
  prover : Address
  owner : Address
  stakerFeeBips : U256
  deriving DecidableEq

/-- `OnchainTransaction<T>`, `crates/vapp/src/transactions.rs:50-63`; `tx_hash` is never read and is
omitted. -/
structure Onchain (T : Type) where
  block : U64
  logIndex : U64
  onchainTx : U64
  action : T

/-- `ClearTransaction`, `crates/vapp/src/transactions.rs:79-99`; the `vk` hint is skipped by serde, is
never read by the state transition function and is omitted. -/
structure ClearTx where
  request : Signed RequestBody
  bid : Signed BidBody
  settle : Signed SettleBody
  execute : Signed ExecuteBody
  fulfill : Option (Signed FulfillBody)
  verify : Option Bytes

/-- `VAppTransaction`, `crates/vapp/src/transactions.rs:17-48`. -/
inductive Tx where
  | deposit (d : Onchain Deposit)
  | createProver (c : Onchain CreateProver)
  | delegate (d : Signed DelegateBody)
  | transfer (t : Signed TransferBody)
  | withdraw (w : Signed WithdrawBody)
  | clear (c : ClearTx)

/-- `sol::TransactionStatus`, `crates/vapp/src/sol.rs:49-60`. -/
inductive TxStatus where
  | none | pending | completed | reverted
  deriving DecidableEq

/-- `VAppReceipt` with `OnchainReceipt`/`OffchainReceipt` inlined, `crates/vapp/src/receipts.rs:14-41`. -/
inductive Receipt where
  | deposit (onchainTxId : U64) (status : TxStatus) (action : Deposit)
  | createProver (onchainTxId : U64) (status : TxStatus) (action : CreateProver)
  | withdraw (status : TxStatus) (action : Withdraw)
  deriving DecidableEq

/-- `ExecuteOutcome`, `crates/vapp/src/state.rs:31-35`. -/
inductive Outcome where
  | applied (receipt : Option Receipt)
  | reverted (r : Revert)
  deriving DecidableEq

/-- The external functions the vApp relies on, left abstract.
* `keccak`: `alloy_primitives::keccak256`;
* `recover message signature`: `eth_sign_verify`, `crates/vapp/src/signing.rs:50-57` (`none` for any
  failure);
* `json`: `serde_json::to_vec` of a body, `crates/vapp/src/signing.rs:35-38`;
* `parseU256`: `str::parse::<U256>` (use: `crates/vapp/src/state.rs:307`);
* `verify vk pv`: `VAppVerifier::verify`, `crates/vapp/src/verifier.rs:17-24`. -/
structure Env where
  keccak : Bytes → B256
  recover : Bytes → Bytes → Option Address
  json : Body → Option Bytes
  parseU256 : Bytes → Option U256
  verify : List (BitVec 32) → Bytes → Bool

/-! ## Checked arithmetic, `crates/vapp/src/u256.rs` -/

/-- `u256::add`, `crates/vapp/src/u256.rs:10-12`. -/
def u256add (a b : U256) : Except Panic U256 :=
  if a.toNat + b.toNat < 2 ^ 256 then .ok (BitVec.ofNat 256 (a.toNat + b.toNat))
  else .error .arithmeticOverflow

/-- `u256::sub`, `crates/vapp/src/u256.rs:15-17`. -/
def u256sub (a b : U256) : Except Panic U256 :=
  if b.toNat ≤ a.toNat then .ok (BitVec.ofNat 256 (a.toNat - b.toNat))
  else .error .arithmeticOverflow

/-- `u256::mul`, `crates/vapp/src/u256.rs:20-22`. -/
def u256mul (a b : U256) : Except Panic U256 :=
  if a.toNat * b.toNat < 2 ^ 256 then .ok (BitVec.ofNat 256 (a.toNat * b.toNat))
  else .error .arithmeticOverflow

/-- `u256::div`, `crates/vapp/src/u256.rs:25-27`. -/
def u256div (a b : U256) : Except Panic U256 :=
  if b.toNat = 0 then .error .arithmeticOverflow else .ok (BitVec.ofNat 256 (a.toNat / b.toNat))

theorem u256_ofNat_toNat {n : Nat} (h : n < 2 ^ 256) : (BitVec.ofNat 256 n).toNat = n := by
  rw [BitVec.toNat_ofNat, Nat.mod_eq_of_lt h]

theorem u256add_ok {a b c : U256} :
    u256add a b = .ok c ↔ c.toNat = a.toNat + b.toNat := by
  unfold u256add
  split
  · rename_i h
    constructor
    · intro hc; cases hc; exact u256_ofNat_toNat h
    · intro hc; congr 1; apply BitVec.eq_of_toNat_eq; rw [u256_ofNat_toNat h, hc]
  · rename_i h
    constructor
    · intro hc; cases hc
    · intro hc; have := c.isLt; omega

theorem u256sub_ok {a b c : U256} :
    u256sub a b = .ok c ↔ a.toNat = c.toNat + b.toNat := by
  unfold u256sub
  have ha := a.isLt
  split
  · rename_i h
    constructor
    · intro hc; cases hc; rw [u256_ofNat_toNat (by omega)]; omega
    · intro hc; congr 1; apply BitVec.eq_of_toNat_eq; rw [u256_ofNat_toNat (by omega)]; omega
  · rename_i h
    constructor
    · intro hc; cases hc
    · intro hc; omega

theorem u256mul_ok {a b c : U256} :
    u256mul a b = .ok c ↔ c.toNat = a.toNat * b.toNat := by
  unfold u256mul
  split
  · rename_i h
    constructor
    · intro hc; cases hc; exact u256_ofNat_toNat h
    · intro hc; congr 1; apply BitVec.eq_of_toNat_eq; rw [u256_ofNat_toNat h, hc]
  · rename_i h
    constructor
    · intro hc; cases hc
    · intro hc; have := c.isLt; omega

theorem u256div_ok {a b c : U256} :
    u256div a b = .ok c ↔ b.toNat ≠ 0 ∧ c.toNat = a.toNat / b.toNat := by
  unfold u256div
  have hlt : a.toNat / b.toNat < 2 ^ 256 := Nat.lt_of_le_of_lt (Nat.div_le_self _ _) a.isLt
  split
  · rename_i h
    constructor
    · intro hc; cases hc
    · intro hc; exact absurd h hc.1
  · rename_i h
    constructor
    · intro hc; cases hc; exact ⟨h, u256_ofNat_toNat hlt⟩
    · rintro ⟨_, hc⟩; congr 1; apply BitVec.eq_of_toNat_eq; rw [u256_ofNat_toNat hlt, hc]

/-! ## Account mutators, `crates/vapp/src/sol.rs:120-185` -/

/-- `Account::add_balance`, `crates/vapp/src/sol.rs:128-131`. -/
def Account.addBalance (n : U256) (a : Account) : Except Panic Account := do
  let b ← u256add a.balance n
  return { a with balance := b }

/-- `Account::deduct_balance`, `crates/vapp/src/sol.rs:134-137`. -/
def Account.deductBalance (n : U256) (a : Account) : Except Panic Account := do
  let b ← u256sub a.balance n
  return { a with balance := b }

/-- `set_owner`, `set_signer`, `set_staker_fee_bips` (`crates/vapp/src/sol.rs:140-184`) chained as in `crates/vapp/src/state.rs:237-239`. -/
def Account.setProver (owner : Address) (bips : U256) (a : Account) : Account :=
  { a with owner := owner, signer := owner, stakerFeeBips := bips }

/-- `Account::set_signer`, `crates/vapp/src/sol.rs:163-166`. -/
def Account.setSigner (s : Address) (a : Account) : Account := { a with signer := s }

/-! ## Fee split, `crates/vapp/src/fee.rs` -/

/-- `PROTOCOL_FEE_BIPS`, `crates/vapp/src/fee.rs:10`. -/
def protocolFeeBips : U256 := 0

/-- `return Err(e)` when `bad`. -/
def failIf (bad : Prop) [Decidable bad] (e : Panic) : Except Panic Unit :=
  if bad then .error e else .ok ()

/-- The staker rate, reduced so that the total does not exceed 100 percent,
`crates/vapp/src/fee.rs:39-44`. -/
def adjustedStakerBips (totalBips stakerBips denominator : U256) : Except Panic U256 :=
  if totalBips.toNat > denominator.toNat then do
    let overflow ← u256sub totalBips denominator
    u256sub stakerBips overflow
  else .ok stakerBips

/-- `fee`, `crates/vapp/src/fee.rs:15-59`. -/
def fee (amount protocolBips stakerBips : U256) : Except Panic (U256 × U256 × U256) := do
  let denominator : U256 := 10000
  failIf (protocolBips.toNat > denominator.toNat) (.protocolFeeTooHigh protocolBips)
  failIf (stakerBips.toNat > denominator.toNat) (.stakerFeeTooHigh stakerBips)
  let total ← u256add protocolBips stakerBips
  let adjusted ← adjustedStakerBips total stakerBips denominator
  let check ← u256add protocolBips adjusted
  failIf (check.toNat > denominator.toNat) (.totalFeeTooHigh protocolBips stakerBips)
  let pm ← u256mul amount protocolBips
  let protocolReward ← u256div pm denominator
  let sm ← u256mul amount adjusted
  let stakerReward ← u256div sm denominator
  let rest ← u256sub amount protocolReward
  let ownerReward ← u256sub rest stakerReward
  return (protocolReward, stakerReward, ownerReward)

/-! ## ABI encoding of stored values -/

/-- A 32-byte ABI word. -/
def abiWord (n : Nat) : Bytes := beBytes 32 n

/-- `Account::abi_encode` (static struct: four words), `crates/vapp/src/merkle.rs:553-555` with
`crates/vapp/src/sol.rs:107-112`. -/
def Account.abi (a : Account) : Bytes :=
  abiWord a.balance.toNat ++ (abiWord a.owner.toNat ++ (abiWord a.signer.toNat ++
    abiWord a.stakerFeeBips.toNat))

/-- `bool::abi_encode`. -/
def abiBool (b : Bool) : Bytes := abiWord b.toNat

end Verif
