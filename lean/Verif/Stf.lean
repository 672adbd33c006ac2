import Verif.Sparse
import Verif.Exec
/-
# The state transition program and the aggregation program

Models of `programs/vapp/stf/src/main.rs`, `programs/vapp/aggregation/src/main.rs`,
`crates/vapp/src/input.rs`, the `root` functions of `crates/vapp/src/state.rs` and
`crates/vapp/src/receipts.rs`.
-/

namespace Verif

/-- `VAppStateContainer::abi_encode` (static struct: seven words), `crates/vapp/src/sol.rs:95-103`. -/
def containerAbi (c : Scalars) (accountsRoot transactionsRoot : B256) : Bytes :=
  B256.bytes c.domain ++ (abiWord c.txId.toNat ++ (abiWord c.onchainTxId.toNat ++
    (abiWord c.onchainBlock.toNat ++ (abiWord c.onchainLogIndex.toNat ++
      (B256.bytes accountsRoot ++ B256.bytes transactionsRoot)))))

/-- `VAppState<SparseStorage, SparseStorage>::root`, `crates/vapp/src/state.rs:88-103`. -/
def stateRoot (kc : Bytes → B256) (c : Scalars) (accountsRoot transactionsRoot : B256) : B256 :=
  kc (containerAbi c accountsRoot transactionsRoot)

/-- A vApp state over Merkle storages. -/
abbrev FullState := St (Merkle Address Account) (Merkle B256 Bool)

/-- `VAppState<MerkleStorage, MerkleStorage>::root`, `crates/vapp/src/state.rs:72-86`. -/
def FullState.root (kc : Bytes → B256) (s : FullState) : B256 :=
  stateRoot kc s.sc (s.accounts.root kc Account.abi) (s.transactions.root kc abiBool)

/-- A vApp state over sparse storages, as in the STF input. -/
abbrev SparseState := St (Sparse Account) (Sparse Bool)

/-- `TransactionVariant`, `contracts/src/libraries/PublicValues.sol:29-33`, `crates/vapp/src/sol.rs:20-28`. -/
inductive TxVariant where
  | deposit | withdraw | createProver
  deriving DecidableEq

/-- The Solidity `Receipt`, `contracts/src/libraries/PublicValues.sol:17-26`. -/
structure SolReceipt where
  variant : TxVariant
  status : TxStatus
  onchainTxId : U64
  action : Bytes
  deriving DecidableEq

/-- `Deposit::abi_encode` (two words), `contracts/src/libraries/PublicValues.sol:48-51`. -/
def Deposit.abi (d : Deposit) : Bytes := abiWord d.account.toNat ++ abiWord d.amount.toNat
/-- `Withdraw::abi_encode` (two words), `contracts/src/libraries/PublicValues.sol:54-57`. -/
def Withdraw.abi (d : Withdraw) : Bytes := abiWord d.account.toNat ++ abiWord d.amount.toNat
/-- `CreateProver::abi_encode` (three words), `contracts/src/libraries/PublicValues.sol:60-64`. -/
def CreateProver.abi (d : CreateProver) : Bytes :=
  abiWord d.prover.toNat ++ (abiWord d.owner.toNat ++ abiWord d.stakerFeeBips.toNat)

/-- `VAppReceipt::sol`, `crates/vapp/src/receipts.rs:46-67`. -/
def Receipt.sol : Receipt → SolReceipt
  | .deposit id st a => ⟨.deposit, st, id, a.abi⟩
  | .createProver id st a => ⟨.createProver, st, id, a.abi⟩
  | .withdraw st a => ⟨.withdraw, st, BitVec.allOnes 64, a.abi⟩

/-- `StepPublicValues`, `contracts/src/libraries/PublicValues.sol:67-72`. -/
structure StepValues where
  oldRoot : B256
  newRoot : B256
  timestamp : U64
  receipts : List SolReceipt
  deriving DecidableEq

/-- `VAppStfInput`, `crates/vapp/src/input.rs:14-32`; all of it is untrusted. -/
structure StfInput where
  root : B256
  accountsRoot : B256
  requestsRoot : B256
  state : SparseState
  accountProofs : List (MerkleProof Address Account)
  requestProofs : List (MerkleProof B256 Bool)
  txs : List (Int × Tx)
  timestamp : U64

/-- The loop over the transactions, `programs/vapp/stf/src/main.rs:54-74`, on any storage backend:
receipts are collected, reverts are skipped, a panic aborts. -/
def runTxs {A T : Type} (SA : StoreOps Address Account A) (ST : StoreOps B256 Bool T) (env : Env) :
    List (Int × Tx) → St A T → Option (List Receipt × St A T)
  | [], s => some ([], s)
  | (_, tx) :: txs, s =>
    match execute SA ST env tx s with
    | (.panic _, _) => none
    | (.revert _, s') => runTxs SA ST env txs s'
    | (.ok none, s') => runTxs SA ST env txs s'
    | (.ok (some r), s') =>
      match runTxs SA ST env txs s' with
      | none => none
      | some (rs, s'') => some (r :: rs, s'')

/-- `main` of the STF program, `programs/vapp/stf/src/main.rs:29-102`; `none` is an abort of the guest.
`env.verify` is the recursive verifier; the guest aborts inside `verify_sp1_proof` where the model
gets `false` and panics in `execute`, which aborts too. The result is the value committed (before its
ABI encoding). -/
def stf (env : Env) (input : StfInput) : Option StepValues :=
  if stateRoot env.keccak input.state.sc input.accountsRoot input.requestsRoot ≠ input.root then none
  else
    match input.state.accounts.recover env.keccak Account.abi input.accountsRoot input.accountProofs with
    | .error _ => none
    | .ok accounts =>
      match input.state.transactions.recover env.keccak abiBool input.requestsRoot input.requestProofs with
      | .error _ => none
      | .ok transactions =>
        match runTxs sparseOps sparseOps env input.txs ⟨input.state.sc, accounts, transactions⟩ with
        | none => none
        | some (receipts, s) =>
          match calculateNewRootSparse env.keccak Account.abi input.accountsRoot input.accountProofs
              s.accounts with
          | .error _ => none
          | .ok newAccountsRoot =>
            match calculateNewRootSparse env.keccak abiBool input.requestsRoot input.requestProofs
                s.transactions with
            | .error _ => none
            | .ok newRequestsRoot =>
              some
                { oldRoot := input.root
                  newRoot := stateRoot env.keccak s.sc newAccountsRoot newRequestsRoot
                  timestamp := input.timestamp
                  receipts := receipts.map Receipt.sol }

end Verif
