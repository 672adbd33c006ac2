# Formal model of succinctlabs/network in Lean 4

The model lives in `lean/Verif/`. It is written by reading `/repo` as text; nothing from
`/repo` is executed. Every definition cites the file and lines it models.

## 1. Trusted base

* Lean 4.33.0's kernel.
* Axioms: only Lean's standard `propext`, `Classical.choice` and `Quot.sound`. No axiom is
  declared in this project, there is no `sorry`, no `native_decide`, no `bv_decide`.
  Section 6 lists the axioms per theorem group.
* The faithfulness of the model to the Rust and Solidity sources (section 4). It is checked by reading and, for the
  ledger, by running the 131 scenarios of `crates/vapp/tests` on the model (`Conform`, `ConformVapp`, `ConformClear`) with
  the results that those tests assert. These runs use a toy hash and toy signatures.
  `ConformReal` runs the model with Keccak-256 and secp256k1 on values that the real code produced or accepts: the six
  signed messages in the tests of `signing.rs`, the public values of the two proof fixtures, and the tests of `clear.rs`
  whose outcome depends on the actual signatures (one of these, `test_clear_invalid_fulfill_signature`, cannot be set up
  with toy signatures).
  The contracts are checked the same way: all but two of the tests in `contracts/test` are transcribed into a small monad
  (`ConformL1`) and run on the contract model: 175 staking tests in `ConformSol*` (translated by a script, which then also
  wrote the citations), the vApp and token tests in `ConformVappSol`, and the governor and initialization tests in
  `ConformGovSol`. Left out are `test_Misc_MaxUint256Operations` (it accepts either outcome) and
  `test_RevertInitialize_WhenNotProxy` (bare implementations are not modelled). A fuzz test is run on three arguments.
  The events that the tests expect (`vm.expectEmit`, `vm.recordLogs`) are in `ConformEvents`. The mock vApp of
  those tests is part of the monad, and permit signatures are symbolic.
  All of these are tests, not proofs. The real code was not run.
* `Keccak` and `Secp` are written from the published standards (Keccak-256 with its original padding; SEC 1 recovery).
  Only C95, one witness and `ConformReal` use them. A wrong `Keccak` would not give the two deployed roots.

`seeded/LOG.jsonl` is about the strength of the theorems, not about faithfulness. It says which proofs no longer go
through on an edited model. A proof that breaks does not by itself show that the theorem is false of the edited
program: a harmless edit can break a proof that follows the code closely (entries PR02 and PR10). Only where an entry's
note gives a value that refutes the theorem was that checked.

The parameters of the theorems:

* Cryptography and parsing enter as *parameters*, never as axioms: every theorem holds for every
  value of the parameters, or names the condition it needs on the concrete inputs hashed:
  * `keccak : Bytes → B256` arbitrary. Binding theorems assume no collision *on the explicit set of
    inputs hashed by the two computations being compared* (a blanket injectivity assumption would be
    false by counting, and "or a collision exists" would be trivially true, so neither is used);
  * signature recovery, the SP1 proof verifier, JSON rendering, decimal `U256` parsing: arbitrary
    functions (the parser is only assumed to return values below 2^256 because its type is `U256`).

## 2. Architecture of the model

Model modules, then the proof modules that belong to them, then the modules with the property theorems
(`Props*`). Helper lemmas never live in a `Props*` file unless they are about one property only.

| Layer | Model | Specification vocabulary | Proof infrastructure | Property theorems |
|-------|-------|--------------------------|----------------------|-------------------|
| words, maps, messages | `Basic`, `SMap`, `Messages`, `Types` | | | |
| vApp ledger (`crates/vapp/src/state.rs`, `fee.rs`, `signing.rs`) | `Prog`, `Exec` | `Observe`, `Spec` | `Wp`, `Inversion`, `InversionClear`, `FeeProofs`, `Step`, `Frame`, `Overflow`, `Admit` | `PropsLedger`, `PropsLedger2` (C01-C19), `PropsAdmit` (C56), `PropsPending` (C82, C83) |
| network domains (`crates/network/utils/src/domain.rs`) | `Domain` | | | `PropsDomain` (C87) |
| Merkle storage (`merkle.rs`) | `Merkle` | `MerkleSpec` | `MerkleProofs`, `MerkleUpdate` | `PropsMerkle` (C21-C25) |
| sparse storage, STF program (`sparse.rs`, `programs/vapp/stf`) | `Sparse`, `Stf` | | `Sim`, `SparseProofs` | `PropsStf` (C20, C25-C28) |
| aggregation program, ABI coding (`programs/vapp/aggregation`, `sol.rs`) | `Abi`, `Aggregation` | | `AbiProofs` | `PropsAgg` (C29, C30, C55), `PropsBatch` (C84) |
| protobuf coding (prost output), JSON texts of messages | `Messages`, `Decode`, `Json` | `DecodeSpec` | `WireProofs`, `DecodeProofs`, `DecodeBodies`, `DecodeFields`, `Utf8`, `DecodeAll`, `JsonProofs` | `PropsWire` (C31-C33), `PropsDecode` (C91), `PropsJson` (C88) |
| amounts in messages (ruint's `FromStr`) | `Amount` | | | `PropsAmount` (C89) |
| L1 contracts (`contracts/src`) | `L1`, `L1Staking`, `L1Calls`, `L1Views`, `Permit`, `Deploy`, `Votes` | | `L1Lemmas`, `L1Vapp`, `L1VappInv`, `L1Tokens`, `L1Stake`, `L1StakeInv`, `L1StakeInv2`, `L1Fields`, `L1Claims`, `L1Held`, `L1Flow`, `L1Moves`, `L1Rates`, `L1Frames`, `L1Inv`, `L1Cover`, `L1Live`, `L1Live2`, `L1Live3`, `L1Size`, `Bridge`, `Custody`, `L1Spend`, `L1Units`, `VotesProofs`, `GovProofs` | `PropsVapp` (C34-C36), `PropsStaking`, `PropsStaking2` (C38-C45), `PropsSolvency` (C37), `PropsStaking3`, `PropsStaking4` (C57-C62), `PropsLive` (C63, C64), `PropsBridge` (C65, C67), `PropsExit` (C66), `PropsCustody` (C68), `PropsProgress` (C69), `PropsReceipts` (C19), `PropsPermit` (C70), `PropsDeploy` (C71), `PropsGov` (C72), `PropsCovered` (C90) |
| events of the contracts | `Events` | `EventSpec` | `EventProofs`, `EventFrames`, `EventTold`, `EventTold2`, `EventTold3`, `EventFlow`, `EventBacking` | `PropsEvents` (C96, C97), `PropsEventFlow` (C98), `PropsBacking` (C99) |
| pricing, floating point numbers and their texts | `Pricing`, `F64` | `Numeral` | `F64Proofs`, `NumeralProofs` | `PropsPricing` (C46, C47), `PropsPrice` (C85) |
| artifact download | `Artifacts` | | `ArtifactProofs` | `PropsArtifacts` (C48-C51) |
| artifact store: uploads, copies, downloads of several clients | `ArtifactStore` | | | `PropsStore` (C78, C79, C81), `PropsStorePar` (C80) |
| RPC retry | `Retry` | | | `PropsRetry` (C54) |
| serial node | `Node`, `NodeRun` | | `NodeProofs` | `PropsNode`, `PropsNode2` (C52, C53), `PropsNodeRun` (C73, C74), `PropsNodeLedger` (C75, C76), `PropsNodeTime` (C86) |
| claims of `PROTOCOL.md` | `Exec`, `L1*` | | | `PropsTrust` (C108-C110), `PropsSilence` (C111) |
| atomic deployment script | `Atomic` | | | `PropsAtomic` (C112) |
| claims of `contracts/DESIGN.md`, `OPERATIONS.md` | `L1*` | | | `PropsDocs` (C113-C115) |
| configuration of the deployment scripts | `Config` | | | `PropsConfig` (C116) |
| stakers who leave | `L1*` | | | `PropsBound` (C117), `PropsCaught` (C118), `L1Blind`, `PropsSpared` (C119) |
| set-up script | `Setup` | | | `PropsSetup` (C107) |
| script of a new prover | `L1Calls`, `PropsScript` | | | `PropsScript` (C106) |
| terms of a request | `Exec`, `Stf` | | | `PropsTerms` (C105) |
| panics of `execute` | `Exec` | | | `PropsPanic` (C104) |
| deployment script and its check | `PostDeploy` | | | `PropsPostDeploy` (C103) |
| metrics server | `MetricServer` | | | `PropsMetrics` (C100, C102) |
| panic capture | `ErrorCapture` | | | `PropsCapture` (C101) |
| node command line, calibrator | `Cli`, `Calibrate` | `Numeral` | `CalibrateProofs` | `PropsCli` (C77), `PropsBid` (C92), `PropsCalibrate` (C93) |
| example programs | `Prime` | | | `PropsPrime` (C94) |
| the deployed genesis roots (`contracts/deployments`), Keccak-256, secp256k1 | `Keccak`, `Secp` | | `GenesisRoot` | `PropsGenesis` (C95) |

Concrete instances used by the `example`s beside the theorems: `Toy`, `ToyStf`, `ToyL1`, `ToyStaking`.

How the parts work:

* `execute_inner` is written once, line by line, as a program tree over storage commands (`Prog`), with
  panics as explicit leaves, and *run* against a storage interface: a plain finite map (`Ledger`), the
  Merkle storage and the sparse storage. A panic keeps the partially mutated state, as `&mut self` does.
* The ledger theorems rest on one closed form per transaction kind (`Inversion`, `InversionClear`);
  histories are handled by induction on the transaction list.
* The specification of the Merkle storage is the recursively defined complete binary tree; the cache and
  the key tracking are invariants over operation sequences.
* STF and aggregation: soundness and completeness by simulation between sparse, Merkle and plain runs.
* The L1 contracts are functions `World → Except L1Err (α × World)`; a call history is a list of
  (context, call) pairs, a reverting call leaves the world as it is. Invariants are proved by induction
  on such histories, from any world that satisfies `Genesis`.
* Node, retry and download code talk to the outside; the outside is a parameter ("world" or answer
  stream), so the theorems hold for every behaviour of servers, clocks and schedulers.

## 3. Plan per property

| Id | Model | Proof |
|----|-------|-------|
| C01 | `execute` on the plain map | inversion per kind, sum over the map's entries is changed by credits/debits; induction on history |
| C02 | same, `transactions` map | processed flags are never cleared (all programs), accepted ⇒ flag was unset and is set; induction on history |
| C03 | same | inversion of the revert leaves: no account command executed before any revert leaf |
| C04 | same | inversion; induction on history with the cursor as invariant |
| C05 | same | direct on `execute` + induction |
| C06 | same | inversion |
| C07 C08 C09 | same | closed form of the accounts map after success, then pointwise effect with aliasing |
| C10 | same | from closed forms |
| C11 C12 C13 C14 | same | from closed form of clear |
| C15 | same | false of the code: negation with a witness, and the part that holds (`_partial`) |
| C16 | `fee` | arithmetic |
| C17 | same | balance ≤ total supply |
| C18 | same | invariant by induction over all program steps, panics included |
| C19 | same | inversion and induction |
| C20 | three storages | simulation by induction on program trees, for all programs |
| C21 C22 | Merkle storage with cache | invariant "every cached node equals its specification value" over operation sequences |
| C23 C24 C25 C26 | Merkle, sparse | induction on levels; collision-freeness on the hashed inputs |
| C27 C28 | STF | composition of C20, C23-C26 |
| C29 C30 | aggregation | list induction |
| C31 C32 C33 | wire format | parser round trip ⇒ injectivity |
| C34 C35 C36 | L1 contract LTS | invariants by induction on call histories |
| C37 | L1 contract × STF | product invariant |
| C38-C45 | staking LTS | invariants by induction on call histories; C41 is false of the code (witness) |
| C46 C47 | pricing | arithmetic |
| C48 C49 C50 | download scheduler | permutation of chunk writes; C49 is false of the code (witness + true bound) |
| C51 | string keys | list reasoning |
| C52 C53 C54 | decision logic | inversion / induction on answers; C53 is false of the code (witness + partial) |
| C55 | ABI coding of public values | decoder run on the encoder's output |
| C57 C61 | staking LTS | classification of the token movements of each call (`TokenFlow`, `Takes`) |
| C58 C59 C60 | staking LTS | price relation `Rate` is a preorder respected by deposits, redemptions and donations; induction on histories |
| C62 | views of the staking contract | induction on the claims settled, with rounding bounds |
| C63 C64 | staking LTS, vApp | only if: inversion of the call. If: forward execution (`Runs`) of every internal step from the invariants (`StakingInv`, `LiveInv`); sizes (`L1Size`) by induction on the history, so that no 256-bit operation overflows |
| C65 C67 | rollup ledger and L1 contracts together | the invariant `Linked` (next ids agree, every queued creation is of a registered prover, owners and fees of the rollup are those of finalised creations) is carried through `c37_run`; one batch is described by `runTxs_batch`; C65 then runs the step forward with C37 giving the tokens |
| C66 | staking LTS | cancel the open requests one by one (induction on their number, C63 for each); the counter is then 0 (C43) and the forward execution of C63 applies; the number of requests is at most the number of calls |
| C68 | rollup ledger and L1 contracts together | `runTxs_custody` by induction over a batch (C07-C11 per transaction, C02 makes the messages distinct), `c37_run` for the history, the logs of C35 split the deposits into processed and pending ones |
| C69 | rollup ledger and L1 contracts together | `run_line` by induction over the queue (C56: each is executed; C04: the cursor moves on; C01: the total grows by the deposits, which the contract holds), then `honest_step` of C65 |
| C70 | L1 contracts with signatures, nonces and deadlines (`Permit`), calling the functions of the model without them | `Effect` of one call; nonces only grow, so the used ones are distinct; `Erc20.Covers` (balance plus what may still go covers the start) is kept by every function |
| C71 | `AtomicDeployer`, the two initializers and the upgrade guards (`Deploy`) around the model of the contracts | `deploy_ok` (closed form of the deployment), `LifeInv` by induction over the history |
| C72 | $iPROVE's vote checkpoints and the governor (`Votes`) around the model of the contracts; every movement of $iPROVE in a call is replayed on the checkpoints | `exec_moves` (the movements of a call), `GInv` (votes = stake, by induction over the history), `PInv` (a proposal's record = what the history says of it) |
| C73 | the life of a node: passes with arbitrary surroundings and monitor results (`NodeRun.life`) | induction over the passes; a proving pass panics iff it reaches a request of mode 0 (`prove_panic_poisoned`, `poisoned_prove_panic`) |
| C74 | the watching task's passes, the registry, the supervised proof (`NodeRun`) | induction over passes and over task events |
| C75 | the node's messages (`Node`) given to the ledger (`Exec`) | C52/C53 say what is submitted, C56 what is accepted, C12 what is paid |
| C76 | as C75, with the flag `--bid` (`Cli.bidArg`) | from C75; the documented unit is a separate specification; counterexample run |
| C77 | calibration and the printed bid over the rationals (`Cli`) | field identities |
| C78 | clients as trees of requests, a store, turns of the client and of others with a luck each (`ArtifactStore`) | case analysis of runs (`upload_cases`, `tries_cases`), keys injective (C51) |
| C79 | as C78 | case analysis of runs; two counterexample runs |
| C80 | the tasks of the parallel download (`Artifacts`) answered from a store that others write (`parRun`) | invariant: every chunk received, waiting or written is of a version; counterexample run at the real chunk size |
| C81 | `downloadFromUri`, the URL parser a parameter | C51 for names; counterexample run |
| C82 | histories of the ledger (`Exec`) between now and the execution of a pending transaction | induction over the history: roles, presence, domain and slots kept, balances not lower (C09, C10), then the conditions of C56 hold again; the effect as a list of updates determined by the messages and the kept roles |
| C83 | lists of transactions and their permutations | effects are commuting updates of records (`Eff.swap`), then induction over the permutation |
| C84 | cuts of a transaction list into batches for `stf`, then `aggregate` | `runTxs` splits along the cut; execution is made of storage operations (`run_reached`), so C28 gives an input for each batch; C26 for the converse |
| C85 | `parse_usd_micros`, `ProvePrice::parse`, decimal texts | `F64` as multiples of 2^-1074 with one rounding function; error, monotonicity and exactness of rounding; round trip between numerals and their texts |
| C86 | `F64` division in the bidder's estimate | error bound of rounding, C52 |
| C87 | `get_domain`, EIP-712 separators | injectivity of the encoded domain under collision-freeness, then C06 and C52 |
| C88 | JSON texts of the message bodies, `personal_sign` prefix | texts read back from the left (each value ends before a comma or a bracket), then C31 |
| C89 | `str::parse::<U256>` | induction over the text with the number read so far; then C07, C08, C12 |
| C90 | staking LTS | invariant: in units of a common multiple of the claims' factors, the claims times the pool's factor are at most the pool; then C40, C58, C59, C62 |
| C91 | wire format, both directions | readers consume a prefix and see no further; merges of different fields commute; chain of states for each kind |
| C92 | the flag `--bid` from text to integer (`F64`, `Cli.bidArg`) | doubles with few binary places are exact; ties; error of two roundings |
| C93 | the calibrator over doubles (`Calibrate`) | each operation multiplies the exact value by at most one rounding factor; ranges exclude overflow and underflow |
| C94 | the example program (`Prime`; `fibonacci` is a copy of `is-prime`), wrapping arithmetic | a divisor up to the root is met before squares wrap; a prime ends the loop at its root, or, above (2^32-5)^2, at the latest where the wrapped square is 2^64-7 |
| C95 | `VAppState::new` and its root over Keccak-256 (`Keccak`), the deployed constants | the 160 hashes of empty subtrees as literals, each checked by the kernel from the one before; then C25, C27, C37 and C87 with Keccak-256 as the hash function |
| C96 | the state changing functions again, with their events (`Events`), and a reader of the log (`EventSpec`) | without events they are the functions of the contract model; each call's events turn the record before into the record after; induction over the history |
| C97 | as C96 | each event fits the record at its point, by the checks made before it; numbers and slash requests along the log |
| C98 | as C96, with the amounts | each call moves $PROVE as its events say; the vApp's withdrawals need the provers known at that point; induction over the history |
| C99 | as C96, with the amounts of $iPROVE | each call moves the $iPROVE in vault and escrow as its events say; induction over the history |
| C100 | the three tasks of `MetricServer::serve` as one transition system (`MetricServer`) | invariant over all schedules; a measure for termination |
| C101 | `ErrorCapture` with the panic hook of the process (`ErrorCapture`) | induction over histories; counting for "once"; counterexample run |
| C102 | as C100 | counterexample schedule; the same invariant |
| C103 | `All.s.sol` with initialisations by others in its three gaps, and `PostDeployment.s.sol` (`PostDeploy`) | normal form of the result of the script; counterexample for every governor; `Registry`, `StakeInv` for the last part |
| C104 | what `execute` leaves when it panics | weakest preconditions of the error side of every transaction kind: a mark, then a prefix of the payments |
| C105 | the clear with a request that differs in the fields nobody reads | `c56_clear` and C12 on both clears; counterexample for every deadline and time through `prove_batch` |
| C106 | the script as a function from a world to its transactions, then those transactions among others' calls | C63 and C64 in the world after each transaction; C59 for the effect; the cover of an account's balance (C61) for the cost; counterexample |
| C107 | the script's check and flags, the parsers of the flags, the node (C52), the domains (C87) | regular expression and address parser against the hexadecimal numerals by induction; C87, C75 and C86 for the node that starts |
| C108 | the clear with another signature of the verifier, another proof system, another fulfilment | the check of the proof as a function of what it looks at; `c56_clear` and C12 on both clears |
| C109 | the clear with another report by the same executor | `c56_clear` for acceptance, C12 for the payments |
| C110 | the withdrawal of `2^256 - 1` and of the balance less the fee | C08 with the bound of a balance by the total |
| C111 | all calls of the contracts but those of the auctioneer | induction over the history; only `step` lets $PROVE out of the vApp contract (C37), only `updateAuctioneer` changes the auctioneer |
| C112 | `AtomicDeployer` with its storage, the script with strangers in its gaps (`Atomic`) | strangers leave the deployer alone, by induction over what they send; then C71 and C103 |
| C113 | the unstake, slash and dispense functions against `contracts/DESIGN.md` | C40 and frames for unstaking, C63 for slashing and dispensing; a witness for the slash |
| C114 | `maxDispense`, transfer, dispense with others' calls in between | induction: what has accrued never falls; C115 for the balance, C63 for the dispense; a witness against the second recipe |
| C115 | the $PROVE of the staking contract | every call leaves it alone or passes on what it received (`exec_keeps`), then induction over the history |
| C116 | the helpers of `Base.s.sol` and the scripts of `contracts/script/deploy` over an environment and a file (`Config`) | inversion of each read; invariant over runs: none of the four addresses is known; witnesses for what is false |
| C117 | the unstake claims and the prover of a staker over histories | C40 for the claims, frames for the attachment, induction over the history |
| C118 | an unstake request, a later slash request and the history until it is resolved | C117 until the slash request, then the gate of C43 by induction over the history, C42 for the finishing call |
| C119 | two runs of the contracts, with and without a slash request that is cancelled | a lemma for each function that it commutes with replacing the list of slash requests, then induction over the history |
| C56 | acceptance of each transaction kind | converse of the closed forms: run every check under the stated conditions |

## 4. What is modelled and what is not

Modelled, function by function (each definition cites its lines):

* `crates/vapp/src`: `state.rs` (all six transaction kinds), `fee.rs`, `signing.rs`, `utils.rs`, `u256.rs`,
  `storage.rs`, `merkle.rs`, `sparse.rs`, `sol.rs`, `receipts.rs`, `verifier.rs` as a parameter;
  `crates/types/network` (message bodies, protobuf coding, `hash_with_signer`);
* `programs/vapp/stf`, `programs/vapp/aggregation`;
* `contracts/src`: `SuccinctVApp.sol`, `SuccinctStaking.sol`, `libraries/ProverRegistry.sol`,
  `tokens/*.sol`, with the OpenZeppelin functions they inherit, and the events of the first three (`Events`: the same
  functions once more, with `emit`; C96 proves that they are otherwise the same);
* `crates/network/artifacts` (uploads, copies, raw download, parallel download, S3 keys and URIs), `crates/network/pricing`,
  `crates/network/rpc` (retry), `crates/network/utils` (domains, `ErrorCapture`), `crates/node/metrics` (the life of the server), `crates/node/core` (serial bidder, prover, monitor, with the metrics they update,
  `Node::run`, the registry of unexecutable requests), `crates/node/calibrator` (the formulas), the `--bid` flag and the
  printed bid of `bin/node`;
* scripts: all of `contracts/script/deploy`, `Base.s.sol`, `PostDeployment.s.sol`, `CreateProverAndStake.s.sol`, and the
  questions and flags of `prove.sh` (C71, C103, C106, C107, C112, C116).

Not modelled, and therefore trusted or out of scope:

* cryptography: keccak, ECDSA recovery and the SP1 verifier are parameters (section 1); the zkVM that runs
  the STF program; `verifyProof` of the gateway contract is a parameter of each call;
* serde JSON rendering of message bodies: a parameter of the ledger, which C88 instantiates with the texts of `Json`
  (serde_json's compact format as we read it; the shortest decimal of an `f32` stays a parameter); parsing of `U256`: a parameter
  of the ledger, which C89 instantiates with `Amount` (ruint's `FromStr` as we read it);
* OpenZeppelin semantics as we read it (ERC20, ERC4626 rounding and virtual offset, ERC20Permit and Nonces,
  Ownable, Pausable, Initializable): the libraries are empty submodules here. Permits carry nonces and deadlines in
  `Permit` (C70) and are reduced there to the model without them, which the other properties use. Proxies and
  initializers are modelled in `Deploy` (C71); code behind an upgraded proxy and `CREATE2` address computation are
  not. Votes and the governor are modelled in `Votes` (C72) after v5.2.0 as published: the binary search in
  checkpoints is a search from the newest; proposal ids and description hashes are parameters; not modelled are
  `relay`, votes with parameters, ERC-1271 signatures, ETH, and what proposals do outside the modelled contracts.
  Not modelled: events of the tokens and proxies, the account in `Paused` and `Unpaused`, EVM gas, reentrancy (no modelled contract calls an untrusted one); `block.timestamp` is arbitrary
  per call, except that it does not decrease in C72;
* gRPC transport, tracing, the contents of the metrics, `axum` (graceful shutdown as documented), AWS and reqwest internals, tokio scheduling (arbitrary
  interleavings where it matters), the backoff crate's jitter (arbitrary waits), the sp1-sdk prover
  (arbitrary answers). `f64` arithmetic is modelled (`F64`, after IEEE 754 and the documentation of Rust's `f64`) for
  the price of $PROVE (C85), the bidder's time estimate (C86; a parameter in the other properties of the node), the flag
  `--bid` (C92, with the conversion of `ruint` 1.17.0 as published) and the calibrator (C93; C77 is about the exact
  formulas). Printing of doubles is not modelled.

Simplifications common to all modules:
* Rust integers are `BitVec n` for stored words and `Nat` with explicit range checks for checked
  arithmetic; unchecked `u64` cursors wrap around (the release profile has no overflow checks).
* Byte strings are `List UInt8`; `BTreeMap` is a sorted association list keyed by the storage index.
* Error payloads are kept where the code makes them observable.

## 5. Disagreements between the code and its expected behaviour

Properties that are false of the code. For each the negation is proved with a concrete witness and the part
that holds is proved under a `_partial` name.

* **C15.** `settle.winner` is never compared with `bid.prover`, and the signer of the fulfilment is never
  compared with the prover or its delegate. An auctioneer's settlement for one prover clears another one's bid.
* **C41.** A slashed unstake claim can be revived. After a slash that burns the whole stake of a prover, new
  stake restores the exchange rate the old claim is computed with. C90 proves that this is the only way: without
  such a slash, pools cover their claims. (Only the vApp may call `requestSlash`, and
  the present vApp never does.)
* **C49.** The parallel download starts up to `2 * concurrency - 1` tasks: the chunk size is the floor of
  size / concurrency, so 5 bytes with concurrency 3 are 5 tasks. Concurrency 0 is a division by zero.
* **C53.** The serial prover does not answer every request: a failed program or stdin download aborts the round
  without any report; proof mode 0 reaches `unreachable!()` and kills the task; a failed nonce request or
  serialisation sends nothing; a failed fulfilment submission is only logged. `metrics.fulfilled` counts proofs
  generated, even if their submission fails.
* **C30, converse.** Parts may aggregate although the whole list does not (`c30_merge_false`).

Other observations made while modelling:

* A delegation with a malformed delegate, or a clear with a malformed treasury, is a charged revert if the payer
  lacks the funds and a panic otherwise (`c56_delegate_revert`, `c56_clear_revert`).
* The vApp does not check the staker fee of a created prover; above 100 percent every clear for it panics (the L1
  contract refuses such a prover).
* A fulfilled clear at cost 0 for a requester without a record is refused (`AccountDoesNotExist`).
* No nonce is checked anywhere: two transactions with the same body and signer are one transaction.
* The `RequestId` index keeps the first 20 of 32 bytes of an identity; a clash makes the later one rejected.
* `StorageError::KeyNotAllowed` does not name the key.
* `verify_proof` does not check that the index fits the tree height (harmless for lawful keys).
* Anyone may trigger a withdrawal of a prover's balance (to the prover's vault, paying the fee).
* Panics inside `execute` are not atomic; the callers treat them as fatal. What they can leave behind is C104.
* A fulfilment signed as JSON can be resubmitted with its absent on-demand ratio replaced by NaN or an infinity, since
  serde renders all of them as `null` (`c88_ratio`). The ledger does not read the ratio.
* An empty text is the amount 0 (`c89_parse`), so an unset base fee, price or fee means zero, and amounts may be
  written in hexadecimal, octal or binary and with underscores; no canonical form is demanded.
* A short range body leaves zero bytes unnoticed in the parallel download (`c48_short_body_unnoticed`).
* `download_raw_from_uri` for `s3://` uses the key built from id and type, not the path of the URI.
* L1: anyone may call `permitAndDeposit`/`permitAndStake` for an account whose allowance equals the amount.
  With `minDepositAmount = 0` anyone can queue zero deposits for anybody.
* L1: `contracts/script/deploy/All.s.sol` creates the staking proxy in one transaction and initialises it in a later
  one. In between anyone can initialise it as its owner, and the script's own call then reverts (`c71_window`).
  `AtomicDeployer` does both in one transaction.
* L1: $iPROVE escrowed for a leaving staker is held by the staking contract, which has no votes, but it is part of the
  supply the quorum is a fraction of (`c72_supply`): a wave of unstaking makes quorums harder to reach.
* L1: `cancelSlash` reads the governor's current voting delay and period. If they have been shortened, a slash can be
  cancelled while a proposal made under the longer ones is still being voted on (the hypothesis of `c72_slash_window`).
* L1: an on-chain id of `2^64 - 1` would be treated as off-chain (unreachable in practice).
* L1: a withdrawal receipt that names the vApp contract itself strands the tokens (the strays of C37); one to the
  zero address, or to a prover when the iPROVE supply cap would be exceeded, makes the whole step revert.
* L1: if the vApp owner points the vApp at another staking contract, that contract can queue any prover, owner and fee
  (the hypothesis `Stays` of C65 and C67).
* C73: `Node::run` swallows the monitor's error: `select!` only matches a failed join, so `run` returns `Ok(())`; the
  results of bidding and proving are ignored in each round. An assigned request of unspecified mode makes the proving
  task panic (`unreachable!()`), which ends the whole node (`c73_one_request`).
* C74: the flag that a watching task was started is a static, so in a process with several provers only the first has
  its registry of unexecutable requests filled (`c74_first_prover_only`).
* C75: the node bids on and proves requests of core mode, which the ledger never pays (`c75_core_unpaid`).
* **C76**: `bin/node prove` rounds the bid (a float, documented as $PROVE per billion PGUs) to an integer and the
  bidder sends it as the bid amount, which the ledger treats as a price per PGU in base units (`c76_false`).
* **C77**: the calibrator's printed bid multiplies the USD price per PGU by the USD price of $PROVE; it should divide
  (`c77_false`, `c77_square`).
* **C79**: `ArtifactClient::copy` takes any failure of the request that looks at the destination for absence and then
  replaces what is there; a writer between that request and the put is overwritten too (`c79_false`).
* **C80**: the range requests of `download_s3_file_par` name no version, so an object replaced meanwhile is returned
  in pieces of both versions (`c80_false`).
* **C81**: `download_raw_from_uri` uses only the bucket of an `s3://` URI; the key is built from the kind and the id
  (`c81_false`).
* **C101**: dropping an `ErrorCapture` installs a printing hook whoever's hook is installed, so a younger capture loses
  later panics (`c101_false`); it also does so while unwinding, where `take_hook` panics, which ends the process
  (`c101_abort`). The previous hook is never restored.
* **C102**: the metrics server sends its ready signal before its address is bound, and also if binding fails
  afterwards (`c102_ready_false`). An error of the HTTP server is logged and `serve` returns `Ok`.
* **C103**: `PostDeployment.s.sol` "reverts if any deployment invariant is violated"; it compares neither the governor that
  the staking contract stores (`c103_false`) nor `paused`, and the assertion about the dispense rate is commented out.
* **C105**: the ledger does not look at the deadline, the cycle limit, the strategy and the minimum auction period of a
  request (`c105_ignored`): a request can be settled at any time after its deadline. `types.rs:129` says that the cycle
  limit stands in for a gas limit of 0; the ledger then accepts only executions that used no gas.
* **C106**: `CreateProverAndStake.s.sol` can be broken by anyone (also by accident): `_deployProver` puts the number of
  provers into the constructor arguments, so the address of the new prover changes if another prover is created after
  the script was simulated, and the planned `stake` is refused (`c106_front_run`). The script cannot be run again
  (`c106_rerun`), and its approval stays; the caller has to stake by hand. That forge simulates first and then sends the
  recorded calls is taken from its documentation, it is not in the repository.
* **C107**: `prove.sh` starts the node with `--rpc-url https://rpc.sepolia.succinct.xyz`, and the node signs all its
  messages with `SPN_MAINNET_V1_DOMAIN` (`serial.rs:236,720`), so its work settles on no ledger of Sepolia
  (`c107_false`). Its `--bid 1.01` is truncated to 1 and means one of the smallest units for each unit of gas (see C76).
* **C108-C111**: `PROTOCOL.md` says that compressed proofs do not rely on the verifier (true only of versions that start
  with `sp1-v6`, `c108_false`), that a request whose execution exceeds the gas limit pays the base fee and the capped
  gas amount to the prover (nobody but the treasury can get anything, `c109_false`), that `uint256.max` withdraws the
  whole balance (it never goes through, `c110_false`), and that requesters keep full control over their deposits while
  the auctioneer refuses service (there is no way out of the vApp contract but `step`, `c111_false`).
* `PROTOCOL.md` disagrees with the code in further points that other properties cover: withdrawals are paid out by `step`
  itself, there is nothing to claim (C37, C65); a gas limit of 0 is not replaced by the cycle limit (C105); the ledger
  checks neither that the lowest bid wins nor the stake of a bidder (C15); accounts have no nonces (C02
  rests on the identities of the messages).
* **C113, C114**: `contracts/DESIGN.md` says that unstaking withdraws the prover's rewards first (it does not touch the
  vApp contract), that the owner can cancel a slash at any time but finish it only after the cancellation period (it is
  the reverse: finishing needs no wait, cancelling does), and that the owner dispenses (only the dispenser can).
  `contracts/OPERATIONS.md` offers to dispense the maximum instead of the amount that was read and sent before: what
  accrues in between is then missing and the call fails, unless the contract held enough already. Its
  `finishUnstake()` without argument does not exist in the contract.
* **C116**: `contracts/DEPLOYMENT.md` describes how to deploy the contracts one by one: the staking contract first,
  without initialising it. Its script does initialise it and needs the addresses of the other three, of which $iPROVE and
  the vApp need that of the staking contract and the governor that of $iPROVE, so from the documented configuration none
  of the four scripts can ever succeed (`c116_stuck`); the script has no `initialize()`. An address in the environment, as
  `contracts/OPERATIONS.md` has one export it, wins over the one that a new deployment wrote to the file
  (`c116_handed_on_false`). A voting delay or period that does not fit 48 or 32 bits is cut (`c116_atomic_false`).
  `DISPENSE_RATE` of `.env.example` is read by no script.
* `contracts/.env.example` says that the voting delay lets stakers change their delegation by `requestUnstake` before a
  vote starts. With the values given there (1 day, unstake period 14 days) they can only withdraw it: until the unstake
  period is over every stake with another prover is refused (`c117_bound`).
* C85: two roundings to `f64` before the rounding to micro-dollars: 1.49999999999999999999 micro-dollars are read as 2,
  although the comment says nearest (`c85_nearest_false`).
* C86: `--throughput` is not checked: NaN, negative and infinite ones make the node bid on every request
  (`c86_degenerate`). The estimate drops fractions of a second.
* C92: odd bids between 2^52 and 2^53 are sent as one more (`c92_nearest_false`).
* `with_retry` may submit a bid or fulfilment several times (only after transient errors, at most 241 times).

## 6. Axioms per theorem

Printed by `#print axioms` for every theorem named in MANIFEST.json (namespace `Verif` omitted).

* no axioms (3): Node.c74_first_prover_only, c23_length, c71_once.

* `propext` (16): Capture.c101_false, Config.c116_handed_on_partial, Config.c116_reads, Config.c116_reads_hash, Metrics.c102_ready_false, Node.c74_aborted, Node.c76_factor, c30_merge_false, c31_declaration_needed, c32_one_identity, c46_zero, c47_no_tick, c48_short_body_unnoticed, c49_false, c71_upgrade, c71_window.

* `propext`, `Quot.sound` (85): Config.c116_atomic_partial, Config.c116_stuck, Node.c53_abandoned, Node.c74_abort, Node.c74_registry, c05_history, c05_step, c06_domain_constant, c103_false, c103_passes, c103_same, c103_sound_partial, c108_false, c111_owner_partial, c112_undisturbed, c112_works, c113_dispense, c113_owner, c113_slash_false, c114_max, c15_false, c20_merkle, c20_merkle_batch, c20_sparse, c20_sparse_batch, c24_success_iff, c26_accepts_iff, c26_junk, c29_accepts_iff, c30_same, c30_split, c34_fork, c34_history, c34_only_step_or_fork, c34_step, c34_timestamps, c35_step, c36_createProver, c36_history, c36_others, c36_owner, c36_paused, c36_step, c41_false, c43_cancel_deadline, c43_request, c43_resolved_refused, c43_resolves, c44_dispense, c45_create, c47_idempotent, c47_largest, c47_monotone, c48_whole, c49_bound_partial, c50_bounds, c50_download_raw, c51_total, c57_authority, c63_cancelSlash, c63_dispense, c63_requestSlash, c63_updateDispenseRate, c64_createProver, c64_deposit, c64_fork, c64_step, c68_paid, c70_frontrun_deposit, c70_frontrun_stake, c70_once, c70_refines, c70_valid, c71_accepted, c71_genesis, c71_life, c72_snapshot, c96_from_deployment, c96_log_tells, c96_reverted, c96_same_contract, c97_fits, c97_numbers, c97_queued_first, c97_slash_once.

* `propext`, `Classical.choice`, `Quot.sound` (311): Amount.c89_clear, Amount.c89_decimal, Amount.c89_node, Amount.c89_parse, Amount.c89_plain, Amount.c89_refused, Amount.c89_transfer, Amount.c89_unique, Amount.c89_withdraw, Calibrate.c93_formula, Calibrate.c93_no_gas, Calibrate.c93_target, Capture.c101_abort, Capture.c101_alone_partial, Capture.c101_once, Capture.c101_report, Cli.c77_divided, Cli.c77_false, Cli.c77_parity_partial, Cli.c77_square, Cli.c77_throughput, Cli.c92_accepts, Cli.c92_close, Cli.c92_exact, Cli.c92_monotone, Cli.c92_nearest_false, Cli.c92_refuses, Config.c116_atomic_false, Config.c116_handed_on_false, Metrics.c100_bounded, Metrics.c100_can_finish, Metrics.c100_clean_end, Metrics.c100_closed, Metrics.c100_error, Metrics.c100_no_early_stop, Metrics.c100_progress, Metrics.c102_ready_partial, Node.c52_bids, Node.c52_bounded, Node.c52_does_bid, Node.c52_once, Node.c53_all_answered_partial, Node.c53_counted_were_generated, Node.c53_false, Node.c53_metrics, Node.c53_round_partial, Node.c53_unexecutable, Node.c73_one_request, Node.c73_runs_on, Node.c73_stops, Node.c74_attempted, Node.c74_forever, Node.c75_core_unpaid, Node.c75_settles, Node.c76_false, Node.c76_paid_partial, Node.c86_bids_on_all, Node.c86_degenerate, Node.c86_does_bid, Node.c86_in_time, Prime.c94_committed, Retry.c54_bounded, Retry.c54_first_call, Retry.c54_policy, Setup.c107_false, Setup.c107_in_time, Setup.c107_node, Setup.c107_price_partial, Setup.c107_starts, c01_genesis, c01_history, c01_step, c02_at_most_once, c02_history, c03_revert, c04_in_order, c04_no_repeat, c04_step, c06_domain, c06_no_cross_domain, c07_transfer, c08_withdraw, c09_delegate, c09_roles_frame, c103_later, c104_balances, c104_cursor, c104_no_money, c104_panic, c105_false, c105_ignored, c105_terms_partial, c106_false, c106_front_run, c106_money_partial, c106_plan, c106_rerun, c106_undisturbed_partial, c108_attested, c108_fulfilment, c108_native, c109_false, c109_punish, c109_report, c10_authorised, c110_all_partial, c110_false, c111_false, c113_slash, c113_unstake, c114_exact, c114_max_false, c115_call, c115_fund, c117_bound, c117_max, c117_stays, c118_caught, c119_spared, c11_ceiling, c11_factors, c12_fulfilled, c12_punished, c13_signatures, c14_verified, c15_paid_prover_partial, c16_fee, c16_fee_total, c17_no_balance_overflow, c17_reachable, c18_indices, c19_history, c19_published, c19_receipts, c21_contents, c21_root, c21_same_contents, c22_proof_verifies, c23_accepted_true, c24_new_root, c25_state, c25_storage, c26_recover, c27_stf_sound, c28_stf_complete, c29_end_to_end, c29_one_run, c31_accepted_declared, c31_not_a_verification, c31_same_kind, c31_signed_bytes, c31_unambiguous, c32_identity, c32_slot_clash, c33_words, c34_roots_set, c35_history, c37_exact, c37_paid, c37_payable, c37_solvent, c38_escrow, c38_finish, c39_attached, c39_backed, c39_nontransferable, c39_stable, c40_finish, c40_history, c40_only, c40_request, c41_factor_partial, c41_worth_falls_partial, c42_finishSlash, c42_proportional, c43_count, c43_gate, c43_once, c44_budget, c45_inactive_refused, c45_one_per_owner, c45_permanent, c45_registry, c46_ceiling, c46_conservative, c46_convert, c46_monotone, c48_partition, c48_plan, c48_reassembles, c48_terminates, c51_key_injective, c51_name, c55_injective, c55_roundtrip, c56_clear, c56_clear_revert, c56_create_prover, c56_delegate, c56_delegate_revert, c56_deposit, c56_transfer, c56_transfer_revert, c56_withdraw, c56_withdraw_revert, c57_history, c57_settings, c58_leaves, c58_price, c58_staked, c58_vault, c59_no_profit, c59_stake, c60_sums, c60_supply, c61_consent, c62_pending, c62_total, c63_finishSlash, c63_finishUnstake, c63_permitAndStake, c63_requestUnstake, c63_stake, c64_permitAndDeposit, c65_honest_step, c65_honest_step, c66_finish, c66_request, c67_provers, c68_custody, c68_silent, c69_progress, c70_cost, c72_cancel_accepted, c72_control, c72_executed, c72_owner, c72_passed_iff, c72_proposer, c72_settings, c72_slash_window, c72_supply, c72_tally, c72_unblocked, c72_vote_accepted, c72_votes, c78_frame, c78_read_back, c78_real, c78_typed, c78_upload, c79_copied, c79_false, c79_kept_partial, c80_chunks_partial, c80_false, c80_unchanged_partial, c81_false, c81_named_partial, c81_path_ignored, c82_same_effect, c82_stays_acceptable, c83_any_order, c84_any_cut, c84_same_result, c85_accepts, c85_close, c85_exact, c85_monotone, c85_nearest_false, c85_reading, c85_refuses, c87_distinct, c87_names, c87_node, c87_one_network, c87_separator, c88_formats, c88_json, c88_not_a_verification, c88_personal, c88_ratio, c88_signed, c90_back, c90_covered, c90_payout, c90_pending, c90_round_trip, c90_stake, c90_worth, c91_accepted, c91_cut, c91_last, c91_merged, c91_order, c91_passed_on, c91_refused, c91_round_trip, c91_unknown, c95_deployed, c95_first_step, c95_history, c95_one_network, c95_only_empty, c98_balances, c98_supply, c99_backing, c99_backing_least, c99_escrow, c99_escrow_most, c99_from_deployment.
