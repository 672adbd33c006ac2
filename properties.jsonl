{"id": "C01", "title": "Token conservation", "statement": "Executing a transaction never creates or destroys PROVE inside the vApp. The sum of all account balances changes by exactly plus the deposited amount for a completed deposit, minus the withdrawn amount for a completed withdrawal, and zero for everything else (transfers, delegations, prover creation, clearing, and every reverted transaction). Over any history the total equals deposits minus withdrawals, read off the receipts.", "quantifier": "every state, every transaction with every signer/address aliasing (sender = recipient = auctioneer = treasury = prover = owner), and every finite history of executed transactions", "why_tests_cant": "A test fixes a handful of addresses and amounts; the aliasing patterns between the up to five accounts of one clear and the unbounded histories cannot be enumerated.", "anchors": ["crates/vapp/src/state.rs::VAppState::execute", "crates/vapp/src/state.rs::execute_inner", "crates/vapp/src/sol.rs::Account::add_balance", "crates/vapp/src/sol.rs::Account::deduct_balance", "crates/vapp/src/fee.rs::fee"]}
{"id": "C02", "title": "A signed off-chain transaction takes effect at most once", "statement": "Once a delegate, transfer, withdraw or clear transaction has been executed with outcome Ok or Revert, every later execution of a transaction with the same identity (hash of signer and body; for a clear, the identity of the proof request) is rejected with a panic error, whatever happened in between. In any history no identity is accepted twice, across all four kinds.", "quantifier": "every state, every pair of positions in every finite history, every kind of transaction", "why_tests_cant": "Replays can be arbitrarily far apart in the history; a test only replays immediately or after a few steps.", "anchors": ["crates/vapp/src/state.rs::execute_inner (Delegate/Transfer/Withdraw/Clear replay checks)", "crates/types/network/src/lib.rs::HashableWithSender"]}
{"id": "C03", "title": "A reverted transaction only retires its identity", "statement": "If execute returns Revert, then every account (balance, owner, delegated signer, fee) is exactly as before and no account leaf appears or disappears, the domain and on-chain cursor are unchanged, the transaction cursor advances by one, and the only change to the processed set is that this transaction's identity is now marked processed.", "quantifier": "every state and every transaction whose execution reverts", "why_tests_cant": "Reverts are reached through many early exits; a test exercises one exit at one state.", "anchors": ["crates/vapp/src/state.rs::execute (160-175)", "crates/vapp/src/state.rs::execute_inner revert branches"]}
{"id": "C04", "title": "On-chain transactions are processed in order, exactly once", "statement": "The on-chain transactions (deposit, create prover) accepted over any history carry consecutive on-chain ids starting from the cursor, with no gap and no repeat, and strictly increasing (block, log index) positions in lexicographic order. Over a history of accepted transactions the cursor only moves by such a transaction (what a rejected one does to it is C104).", "quantifier": "every starting state and every finite history mixing on-chain and off-chain transactions (within the u64 id range)", "why_tests_cant": "Ordering violations depend on interleavings of arbitrary length.", "anchors": ["crates/vapp/src/state.rs::validate_onchain_tx", "crates/vapp/src/state.rs::execute_inner Deposit/CreateProver"]}
{"id": "C05", "title": "The transaction cursor counts accepted transactions", "statement": "Each execution that returns Ok or Revert advances the transaction id by exactly one; an execution that returns a panic error leaves it unchanged.", "quantifier": "every state, transaction and finite history (modulo 2^64)", "why_tests_cant": "Requires all control-flow paths of a 800 line match.", "anchors": ["crates/vapp/src/state.rs::execute"]}
{"id": "C06", "title": "Domain separation", "statement": "No off-chain transaction is accepted (Ok or Revert) unless every signed message it relies on carries exactly the 32-byte domain of the state it is executed on (for a clear: request, bid, settlement and execution, and the fulfilment unless the request is punished, in which case the fulfilment is ignored), and execution never changes the domain. A transaction accepted on one domain is rejected by every state with another domain.", "quantifier": "every pair of states with different domains, every transaction", "why_tests_cant": "The check is repeated at eight places; tests cover some of them with one wrong domain.", "anchors": ["crates/vapp/src/state.rs::execute_inner domain checks"]}
{"id": "C07", "title": "Transfer has exactly its stated effect", "statement": "A transfer that succeeds moves exactly `amount` from the recovered signer to `to` and exactly `fee` from the signer to the named auctioneer, for all coincidences of the three addresses, and changes nothing else (owners, signers, fee rates, other balances). It succeeds only if the signer's prior balance covers amount + fee.", "quantifier": "every state, transfer message, and aliasing of signer/recipient/auctioneer", "why_tests_cant": "Aliasing (self transfer, recipient is auctioneer) with arbitrary amounts and boundary balances.", "anchors": ["crates/vapp/src/state.rs::execute_inner Transfer (366-458)"]}
{"id": "C08", "title": "Withdrawals are authorised, covered and receipted exactly", "statement": "A successful withdrawal debits exactly the amount named in its receipt from the account named in its receipt, plus the fee from the signer, credits the fee to the auctioneer and changes nothing else. Funds of an account that is not a prover can only be withdrawn by that account's own signature. It succeeds only if the balances cover the debits.", "quantifier": "every state, withdraw message, aliasing of account/signer/auctioneer", "why_tests_cant": "The receipt drives an L1 payout; any mismatch for any input is theft or loss.", "anchors": ["crates/vapp/src/state.rs::execute_inner Withdraw (459-605)", "crates/vapp/src/receipts.rs"]}
{"id": "C09", "title": "Only the prover's owner can change its delegated signer", "statement": "A successful delegation is signed by the account recorded as the prover's owner, sets the prover's delegated signer to exactly the named delegate, moves exactly the fee from the owner to the auctioneer, and changes no other balance, owner, delegated signer or staker fee. Outside CreateProver and such a delegation no account's owner, delegated signer or staker fee ever changes.", "quantifier": "every state, every transaction kind", "why_tests_cant": "Frame property over all kinds and all accounts.", "anchors": ["crates/vapp/src/state.rs::execute_inner Delegate (250-365)", "crates/vapp/src/sol.rs::Account setters"]}
{"id": "C10", "title": "No debit without authorisation", "statement": "If a successful transaction lowers an account's balance then either that account's key signed the transfer, withdrawal, delegation or proof request being executed, or the account is a registered prover and the transaction is a withdrawal whose receipt pays that same account on L1.", "quantifier": "every state, every transaction, every account", "why_tests_cant": "Universal over accounts: a test can only look at the accounts it created.", "anchors": ["crates/vapp/src/state.rs::execute_inner"]}
{"id": "C11", "title": "The requester never pays more than the signed ceiling", "statement": "A clear (fulfilled or punished) debits the requester by at most base_fee + max_price_per_pgu * gas_limit, all three taken from the request the requester signed; when fulfilled the debit is exactly base_fee + bid price * pgus used, with bid price at most max_price_per_pgu and pgus at most gas_limit.", "quantifier": "every state and every clear transaction", "why_tests_cant": "Numeric bound over all 256-bit prices and 64-bit gas values including overflow boundaries.", "anchors": ["crates/vapp/src/state.rs::execute_inner Clear (606-981)", "crates/vapp/src/u256.rs"]}
{"id": "C12", "title": "A clear pays out exactly what it charges, split by the staker fee", "statement": "In a fulfilled clear the requester's payment is split with no remainder between treasury (protocol fee), prover vault (staker fee) and prover owner: the three parts sum to the payment, the protocol part is payment*0/10000, the staker part is floor(payment*bips/10000) and the owner gets the rest. In a punished clear the whole punishment goes to the treasury.", "quantifier": "every state, clear transaction, fee rate and aliasing of requester/treasury/prover/owner", "why_tests_cant": "Rounding at every amount and every aliasing pattern.", "anchors": ["crates/vapp/src/state.rs::execute_inner Clear", "crates/vapp/src/fee.rs::fee"]}
{"id": "C13", "title": "A clear needs every party's signature over the same request", "statement": "A clear is accepted only if the request, bid, settlement and execution messages are all signed, refer to the identity of the very request being cleared, the bid is signed by the delegated signer of the prover it names, the settlement by the auctioneer and the execution by the executor that the requester named, and the prover is in the request's whitelist when that is non-empty.", "quantifier": "every state and every clear transaction", "why_tests_cant": "Needs all paths; negative tests drop one check at a time on one example.", "anchors": ["crates/vapp/src/state.rs::execute_inner Clear"]}
{"id": "C14", "title": "Provers are paid only against a verified proof", "statement": "A fulfilled clear is accepted only if execution succeeded, the proved public values match the ones the requester fixed (if fixed), and either the proof verifier accepts the request's verification key with the executed public values hash, or the verifier named by the requester signed the identity of the fulfilment message.", "quantifier": "every state, clear transaction and verifier behaviour", "why_tests_cant": "Quantifies over an arbitrary verifier and every mode/version combination.", "anchors": ["crates/vapp/src/state.rs::execute_inner Clear (fulfil part)", "crates/vapp/src/verifier.rs"]}
{"id": "C15", "title": "The settled winner is the prover that is paid", "statement": "The prover paid by a clear is the winner named in the auctioneer's settlement message, and the fulfilment is signed on behalf of that prover.", "quantifier": "every state and every clear transaction", "why_tests_cant": "A universally quantified binding between two independently signed messages.", "anchors": ["crates/vapp/src/state.rs::execute_inner Clear", "crates/types/network/src/types.rs::SettleRequestBody"]}
{"id": "C16", "title": "Fee split arithmetic", "statement": "For every amount and every pair of fee rates the three parts returned by the fee function sum to the amount, each is at most the amount, the protocol part is floor(amount*protocol/10000), and the staker rate is capped so that the rates never exceed 100 percent together; it fails only for rates above 100 percent or when amount*rate does not fit 256 bits.", "quantifier": "all 256-bit amounts and rates", "why_tests_cant": "2^768 inputs.", "anchors": ["crates/vapp/src/fee.rs::fee", "crates/vapp/src/u256.rs"]}
{"id": "C17", "title": "Accepted transactions can always be applied", "statement": "After the balance checks pass no debit can underflow, and as long as the total supply in the vApp plus the incoming deposit fits in 256 bits no credit can overflow: arithmetic errors can only come from the message's own numbers (amount + fee, price * gas), never from balances.", "quantifier": "every reachable state with total supply below 2^256 and every transaction", "why_tests_cant": "Absence of a failure over all states.", "anchors": ["crates/vapp/src/state.rs::execute_inner", "crates/vapp/src/sol.rs::Account::add_balance/deduct_balance"]}
{"id": "C18", "title": "Every stored index is provable", "statement": "After any history from the initial state, including executions that end in a panic error, every index under which the ledger stores an account is the index of an address, and every index under which it stores a processed flag is below 2^160, the key width of the Merkle trees, so that a Merkle proof can be generated for every stored record.", "quantifier": "every finite history from the initial state", "why_tests_cant": "The claim is about every reachable state after arbitrary histories, including the partially updated states left behind by panicking executions.", "anchors": ["crates/vapp/src/state.rs::new", "crates/vapp/src/state.rs::execute", "crates/vapp/src/storage.rs"]}
{"id": "C19", "title": "Receipts report exactly the L1-relevant effects", "statement": "Deposit and create-prover executions produce a Completed receipt carrying the transaction's own on-chain id and action; withdrawals produce a Completed withdraw receipt; transfers, delegations and clears produce none; reverts produce none. The list of receipts of a history therefore determines the change of total supply and the on-chain cursor.", "quantifier": "every state, transaction and history", "why_tests_cant": "Whole-history correspondence.", "anchors": ["crates/vapp/src/state.rs::execute_inner", "crates/vapp/src/receipts.rs::VAppReceipt"]}
{"id": "C20", "title": "Execution does not depend on the storage backend", "statement": "Executing any transaction on Merkle storage and on a plain map gives the same outcome and the same contents; executing it on sparse storage restored from proofs either gives the same outcome and contents on the witnessed keys, or fails with the storage error for a key that was not witnessed. It never silently reads a default value for an unwitnessed key.", "quantifier": "every transaction sequence, every storage content and witness set", "why_tests_cant": "Simulation between two implementations for all programs and states.", "anchors": ["crates/vapp/src/storage.rs::Storage", "crates/vapp/src/merkle.rs::MerkleStorage", "crates/vapp/src/sparse.rs::SparseStorage"]}
{"id": "C21", "title": "The Merkle root is a function of the contents", "statement": "The root returned by Merkle storage depends only on the key/value contents (not on insertion order, overwrites, reads, proof generation or cached nodes) and equals the root of the complete binary tree with hashed leaves at the stored indices and zero elsewhere.", "quantifier": "every key width, every sequence of storage operations interleaved with root and proof computations", "why_tests_cant": "Cache-coherence over arbitrary operation sequences on a tree with 2^160 leaves.", "anchors": ["crates/vapp/src/merkle.rs::MerkleStorage::root", "crates/vapp/src/merkle.rs::compute_node", "crates/vapp/src/merkle.rs::is_subtree_empty"]}
{"id": "C22", "title": "Generated proofs verify", "statement": "For every key, present or absent, the proof produced by Merkle storage verifies against its root together with the stored value (or absence).", "quantifier": "every key width, contents, key, and cache state reachable by any operations", "why_tests_cant": "All trees and all keys.", "anchors": ["crates/vapp/src/merkle.rs::MerkleStorage::proof", "crates/vapp/src/merkle.rs::verify_proof"]}
{"id": "C23", "title": "Accepted proofs are true", "statement": "If proof verification accepts a key and value (or absence) against the root of some storage then the storage holds exactly that value (or nothing) at that key, unless the hash function collides on inputs hashed by the two computations or a leaf hashes to the zero word.", "quantifier": "every storage, key, claimed value and (adversarial) proof", "why_tests_cant": "Adversarial proofs are unbounded.", "anchors": ["crates/vapp/src/merkle.rs::verify_proof", "crates/vapp/src/merkle.rs::verify_proof_with_hash"]}
{"id": "C24", "title": "Root update from proofs is correct", "statement": "Given proofs that verify against the old root and new values for (a subset of) the proved keys, the computed new root is the root of the old contents with those values written; unproved updates and bad proofs are rejected. As in C23 this supposes that the hash does not collide on the inputs hashed and that no leaf involved hashes to the zero word.", "quantifier": "every tree, every set and order of proofs (including proofs that share path nodes), every set of updates", "why_tests_cant": "Sharing patterns of authentication paths in a 160-level tree.", "anchors": ["crates/vapp/src/merkle.rs::calculate_new_root", "crates/vapp/src/merkle.rs::calculate_new_root_sparse"]}
{"id": "C25", "title": "Roots bind contents", "statement": "Two storages with the same root hold the same contents, and two vApp states with the same state root have the same domain, cursors and storages, unless the hash collides on the inputs hashed or a stored leaf hashes to the zero word.", "quantifier": "every pair of states", "why_tests_cant": "Pairs of unbounded states.", "anchors": ["crates/vapp/src/merkle.rs::root", "crates/vapp/src/state.rs::root"]}
{"id": "C26", "title": "Sparse storage recovery is exact", "statement": "Recovering sparse storage from proofs against the root of some full storage succeeds only if every proof is true, yields exactly the full storage's values on the proved keys and nothing else, discards whatever the untrusted input pre-loaded, and rejects duplicate proofs. As in C23 this supposes that the hash does not collide on the inputs hashed and that no leaf involved hashes to the zero word.", "quantifier": "every untrusted sparse storage, every proof list, every root", "why_tests_cant": "Adversarial witnesses are unbounded.", "anchors": ["crates/vapp/src/sparse.rs::SparseStorage::recover"]}
{"id": "C27", "title": "State transition function soundness", "statement": "If the STF program accepts an input and outputs (old root, new root, timestamp, receipts), then for every full state whose root is the old root, executing the same transactions on the full state never panics, ends in a state whose root is the new root, and produces the same receipts - unless the hash collides on inputs hashed in the two runs or a leaf involved hashes to the zero word.", "quantifier": "every untrusted STF input (state, sparse contents, proofs, transactions) and every full state", "why_tests_cant": "The STF runs on adversarial input; soundness is a universally quantified simulation.", "anchors": ["programs/vapp/stf/src/main.rs", "crates/vapp/src/merkle.rs::calculate_new_root_sparse", "crates/vapp/src/sparse.rs::recover"]}
{"id": "C28", "title": "State transition function completeness", "statement": "For every full state and every transaction list that executes without panic on it, the witness built from the touched keys (proofs for exactly the keys the execution touched) makes the STF program accept and output the same roots and receipts.", "quantifier": "every full state and transaction list", "why_tests_cant": "A missing touched key would only show on particular transactions.", "anchors": ["crates/vapp/src/merkle.rs::get_touched_keys", "crates/vapp/src/merkle.rs::track_touched", "programs/vapp/stf/src/main.rs"]}
{"id": "C29", "title": "Aggregation chains steps soundly", "statement": "If the aggregation program accepts a list of step outputs, it is non-empty, each step proof verified under the fixed STF key, consecutive roots match and timestamps do not decrease, and the output is (first old root, last new root, last timestamp, concatenated receipts); combined with the STF this equals one run over the concatenated transactions.", "quantifier": "every list of steps of any length", "why_tests_cant": "Unbounded lists.", "anchors": ["programs/vapp/aggregation/src/main.rs"]}
{"id": "C30", "title": "Aggregation is associative", "statement": "If aggregating a list of steps in one go is accepted, then aggregating the parts of any split of it into consecutive non-empty parts, and then the parts' outputs, is accepted too and gives the same public output; whenever both ways are accepted the outputs agree.", "quantifier": "every list and every split point", "why_tests_cant": "Unbounded lists and splits.", "anchors": ["programs/vapp/aggregation/src/main.rs"]}
{"id": "C31", "title": "Message encodings are unambiguous", "statement": "Two message bodies of the same kind with the same binary encoding are equal, and bodies of different kinds that each pass the vApp's variant and domain-length checks never share an encoding. Hence a signature over one message can never be presented as a signature over another message or another kind of message.", "quantifier": "all bodies of all eight kinds", "why_tests_cant": "Encodings of seven kinds are wire-compatible; separation rests on one field each.", "anchors": ["crates/types/network/src/types.rs", "crates/types/network/src/lib.rs::HashableWithSender", "crates/vapp/src/signing.rs"]}
{"id": "C32", "title": "Transaction identities separate signers and messages", "statement": "Two accepted off-chain transactions with the same identity have the same signer and the same body, unless the hash collides; storage slots are the first 20 bytes of the identity, so a slot clash can only make the later transaction rejected, never accepted twice.", "quantifier": "all pairs of transactions", "why_tests_cant": "Pairs of unbounded messages.", "anchors": ["crates/types/network/src/lib.rs::hash_with_signer", "crates/vapp/src/storage.rs::RequestId"]}
{"id": "C33", "title": "Verification key bytes map to unique words", "statement": "The conversion of 32-byte verification key hashes to eight 32-bit big-endian words is a bijection on 32-byte strings and fails on every other length.", "quantifier": "all byte strings", "why_tests_cant": "2^256 inputs.", "anchors": ["crates/vapp/src/utils.rs::bytes_to_words_be"]}
{"id": "C34", "title": "L1 root chain", "statement": "Every accepted step extends the root chain by exactly one block whose old root is the latest root, with a non-zero new root and a timestamp that does not decrease, is not in the future and is at most one hour old; roots of earlier blocks never change.", "quantifier": "every history of contract calls by arbitrary callers", "why_tests_cant": "Histories are unbounded.", "anchors": ["contracts/src/SuccinctVApp.sol::step", "contracts/src/SuccinctVApp.sol::fork"]}
{"id": "C35", "title": "L1 transactions are finalised in order, exactly once, with the queued data", "statement": "Every on-chain receipt in an accepted step refers to the next unfinalised on-chain transaction and carries the same variant and data that was queued; each queued transaction is finalised at most once and never skipped; ids are consecutive.", "quantifier": "every history of contract calls", "why_tests_cant": "Histories are unbounded.", "anchors": ["contracts/src/SuccinctVApp.sol::_handleOnchainReceipt", "contracts/src/SuccinctVApp.sol::_createTransaction", "contracts/src/libraries/Receipts.sol"]}
{"id": "C36", "title": "L1 access control", "statement": "Only the auctioneer can step, only the owner can fork, pause or change parameters, only staking can create provers, and while paused neither deposits nor steps succeed.", "quantifier": "every caller, every state, every call", "why_tests_cant": "All callers and states.", "anchors": ["contracts/src/SuccinctVApp.sol modifiers"]}
{"id": "C37", "title": "Cross-layer solvency", "statement": "If every accepted step proof is a true STF/aggregation output, then after any history without a fork the PROVE held by the vApp contract is at least (with no stray transfers: exactly) the sum of vApp balances plus the deposits not yet processed; hence every withdrawal receipt finds the tokens it pays out, and its payment is accepted, for a prover payee as long as the $iPROVE vault can take the deposit.", "quantifier": "every interleaving of deposits, prover creations and steps with any batch contents", "why_tests_cant": "A two-system invariant over unbounded histories.", "anchors": ["contracts/src/SuccinctVApp.sol::_deposit", "contracts/src/SuccinctVApp.sol::_processWithdraw", "crates/vapp/src/state.rs::execute_inner Deposit/Withdraw"]}
{"id": "C38", "title": "Escrow accounting in staking", "statement": "The iPROVE held by the staking contract always equals the sum of all provers' escrow pools; each unstake finish pays at most the pool of its own prover.", "quantifier": "every history of stake, unstake, finish, slash, dispense calls", "why_tests_cant": "Histories are unbounded.", "anchors": ["contracts/src/SuccinctStaking.sol::requestUnstake", "contracts/src/SuccinctStaking.sol::_finishUnstakeRequest", "contracts/src/SuccinctStaking.sol::finishSlash"]}
{"id": "C39", "title": "Staked receipts are backed one-to-one", "statement": "The stPROVE supply equals the total of prover vault shares held by stakers of all provers; a staker's stPROVE is always attached to exactly one prover while non-zero.", "quantifier": "every history of staking calls", "why_tests_cant": "Histories are unbounded.", "anchors": ["contracts/src/SuccinctStaking.sol::_stake", "contracts/src/SuccinctStaking.sol::_unstake", "contracts/src/SuccinctStaking.sol::stakerToProver"]}
{"id": "C40", "title": "Unstaking respects the unbonding period", "statement": "A claim is only paid once unstakePeriod seconds have passed since it was requested, each claim is paid at most once, and claims still inside the period are kept unchanged (up to order).", "quantifier": "every claim list and time", "why_tests_cant": "The swap-and-pop loop over lists of arbitrary length.", "anchors": ["contracts/src/SuccinctStaking.sol::_finishUnstake"]}
{"id": "C41", "title": "A slashed claim is never revived", "statement": "Once slashing has reduced an outstanding unstake claim, no later event makes that claim pay more than its reduced value.", "quantifier": "every history", "why_tests_cant": "Needs interleavings of two stakers, a full slash and later rewards.", "anchors": ["contracts/src/SuccinctStaking.sol::requestUnstake", "contracts/src/SuccinctStaking.sol::finishUnstake", "contracts/src/SuccinctStaking.sol::finishSlash"]}
{"id": "C42", "title": "Slashing is proportional and never exceeds the request or the stake", "statement": "finishSlash burns min(requested, vault + escrow), split between escrow and vault in proportion (escrow part rounded down), and scales the slash factor down, never up.", "quantifier": "all amounts and pool states", "why_tests_cant": "256-bit amounts.", "anchors": ["contracts/src/SuccinctStaking.sol::finishSlash"]}
{"id": "C43", "title": "Slash claims resolve once and gate (un)staking", "statement": "Each slash claim is cancelled or finished at most once, the per-prover counter equals the number of unresolved claims, stake, unstake and finishing are refused while it is non-zero, and cancellation is refused before its deadline.", "quantifier": "every history", "why_tests_cant": "Histories are unbounded.", "anchors": ["contracts/src/SuccinctStaking.sol::requestSlash", "contracts/src/SuccinctStaking.sol::cancelSlash", "contracts/src/SuccinctStaking.sol::finishSlash"]}
{"id": "C44", "title": "Dispensing never exceeds the accrued budget", "statement": "Over any history of dispense calls and rate changes the total dispensed never exceeds the integral of the rate over time, and maxDispense is exactly the remainder.", "quantifier": "every history of rate updates, dispenses and time steps", "why_tests_cant": "Histories are unbounded.", "anchors": ["contracts/src/SuccinctStaking.sol::maxDispense", "contracts/src/SuccinctStaking.sol::dispense", "contracts/src/SuccinctStaking.sol::updateDispenseRate"]}
{"id": "C45", "title": "One prover per owner", "statement": "Every prover has a unique id between 1 and the prover count and a unique owner; an owner never gets a second prover; a deactivated prover never becomes active again.", "quantifier": "every history of registry calls", "why_tests_cant": "Histories are unbounded.", "anchors": ["contracts/src/libraries/ProverRegistry.sol"]}
{"id": "C46", "title": "USD price conversion rounds down", "statement": "The PROVE ceiling computed from a USD target and a PROVE/USD rate is the exact floor, never errors for a non-zero rate, never makes the realised USD value exceed the target, and is monotone in both arguments.", "quantifier": "all u64 targets and rates", "why_tests_cant": "2^128 inputs.", "anchors": ["crates/network/pricing/src/math.rs"]}
{"id": "C47", "title": "Tick rounding", "statement": "Rounding to a bid tick returns the largest multiple of the tick not above the price, is idempotent, monotone, and leaves the price unchanged for ticks 0 and 1.", "quantifier": "all 256-bit prices and ticks", "why_tests_cant": "2^512 inputs.", "anchors": ["crates/network/pricing/src/math.rs::round_down_to_tick"]}
{"id": "C48", "title": "Parallel download reassembles the file", "statement": "When the server answers every range request either with exactly the bytes of that range or with an error, the parallel download returns the whole file byte for byte, for every file size, concurrency setting >= 1, order of chunk arrival and number of retries, unless one of its tasks meets a broken body or five errors in a row; then it fails. The ranges requested partition the file.", "quantifier": "every size, concurrency, schedule of chunk arrivals and retry pattern", "why_tests_cant": "Schedules and sizes (files above 32 MiB) are unbounded.", "anchors": ["crates/network/artifacts/src/lib.rs::download_s3_file_par", "crates/network/artifacts/src/lib.rs::download_https_file_par"]}
{"id": "C49", "title": "Parallel download respects the concurrency limit", "statement": "The number of tasks downloading at the same time never exceeds the requested concurrency.", "quantifier": "every size and concurrency", "why_tests_cant": "All pairs.", "anchors": ["crates/network/artifacts/src/lib.rs::download_s3_file_par"]}
{"id": "C50", "title": "Download retries are bounded", "statement": "A raw download makes at most five attempts, returns the first success, returns the last error after five failures, and sleeps 1+2+4+8 seconds in total at most.", "quantifier": "every sequence of server answers", "why_tests_cant": "All failure patterns of any length.", "anchors": ["crates/network/artifacts/src/lib.rs::download_raw"]}
{"id": "C51", "title": "Artifact keys of different kinds never collide", "statement": "Storage keys are injective in the artifact kind and id, provided ids contain no slash (the kind is recoverable in any case), and the artifact name extracted from a URI built from a key is the id.", "quantifier": "all kinds and id strings", "why_tests_cant": "All strings.", "anchors": ["crates/network/artifacts/src/lib.rs::get_s3_key", "crates/network/artifacts/src/lib.rs::extract_artifact_name"]}
{"id": "C52", "title": "The serial bidder bids at most once and only when it can serve", "statement": "One bidding round submits at most one bid (per attempt), never while an assigned request exists or when not exactly one open request was returned, never when the remaining time is below gas_limit / throughput, and the bid carries the configured price, prover, request id and the mainnet domain.", "quantifier": "every network answer, clock and configuration", "why_tests_cant": "All answers of a remote service.", "anchors": ["crates/node/core/src/serial.rs::SerialBidder::bid"]}
{"id": "C53", "title": "The serial prover answers every request it takes", "statement": "For every assigned request handled in a proving round the node submits exactly one of fulfilment or failure report, a request registered as unexecutable is never proved but reported as failed, and metrics count exactly the proofs generated.", "quantifier": "every list of requests, registry content and outcome of proving tasks", "why_tests_cant": "All outcomes and lists.", "anchors": ["crates/node/core/src/serial.rs::SerialProver::prove"]}
{"id": "C54", "title": "RPC retry policy", "statement": "A retried RPC returns the first success, stops at the first permanent error without further calls, and retries exactly the transient classes until the time budget is exhausted.", "quantifier": "every sequence of answers", "why_tests_cant": "Unbounded answer sequences.", "anchors": ["crates/network/rpc/src/retry.rs::retry_operation"]}
{"id": "C55", "title": "Public values survive encoding", "statement": "What the STF or aggregation program commits is decoded by the aggregation program and by the L1 contract to the same roots, timestamp and receipts; two different public values never have the same encoding.", "quantifier": "all public values with any number of receipts and action lengths (encoding shorter than 2^256 bytes)", "why_tests_cant": "The encoding has nested offsets for lists of variable-size receipts; tests only see a few shapes.", "anchors": ["programs/vapp/stf/src/main.rs:main", "programs/vapp/aggregation/src/main.rs:main", "contracts/src/SuccinctVApp.sol:step", "contracts/src/libraries/PublicValues.sol:StepPublicValues"]}
{"id": "C56", "title": "Exactly the admissible transactions succeed", "statement": "For each transaction kind, `execute` returns Ok exactly when the documented conditions hold, and returns a revert exactly when all conditions but the payer's balance hold. In particular a fresh, well-formed, correctly signed message for this ledger whose payer has the funds is never refused: a transfer or withdrawal whose balance covers amount and fee, a delegation signed by the prover's owner, a clear whose messages fit together and carry the required evidence, and a deposit or prover creation that is next in L1 order all succeed.", "quantifier": "all environments (signature recovery, hashing, number parsing, proof verification), all transactions, all ledger states whose balances sum to less than 2^256", "why_tests_cant": "The conditions range over all messages and all states, and sufficiency means that no other hidden check can ever fail; tests only show that particular good transactions pass.", "anchors": ["crates/vapp/src/state.rs: VAppState::execute, execute_inner", "crates/vapp/src/signing.rs: verify_signed_message", "crates/vapp/src/fee.rs: fee"]}
{"id": "C57", "title": "Privileged staking functions need their role", "statement": "Only the owner of the staking contract can execute a slash, choose the dispenser, set the dispense rate or hand over ownership; only the vApp contract can request a slash; only the dispenser can dispense. Without a call by the owner these settings, the accrued dispense amount and the set of deactivated provers never change, and no call at all changes the minimum stake, the bound on open unstake requests or the two waiting periods.", "quantifier": "all calls in all worlds; all histories without calls by the owner", "why_tests_cant": "Authority must hold against every caller and every sequence of other calls, not just the callers a test tries.", "anchors": ["contracts/src/SuccinctStaking.sol:finishSlash", "contracts/src/SuccinctStaking.sol:setDispenser", "contracts/src/SuccinctStaking.sol:updateDispenseRate", "contracts/src/SuccinctStaking.sol:requestSlash", "contracts/src/SuccinctStaking.sol:dispense"]}
{"id": "C58", "title": "Share prices never fall", "statement": "The price of $iPROVE in $PROVE never falls, whatever anybody does (slashes included). The price in $iPROVE of the shares of a prover's vault never falls unless that prover is slashed, and $iPROVE leaves the vault only by an unstake request of one of its own stakers (at most the worth of the shares given up) or a slash. Hence what `staked` reports for an account never falls unless the account requests to unstake or its prover is slashed.", "quantifier": "all reachable worlds and all histories of calls from there", "why_tests_cant": "Rounding and donation attacks on vault prices need particular amounts and orders of calls; the claim is about all of them.", "anchors": ["contracts/src/SuccinctStaking.sol:stake", "contracts/src/SuccinctStaking.sol:staked", "contracts/src/tokens/IntermediateSuccinct.sol", "contracts/src/tokens/SuccinctProver.sol"]}
{"id": "C59", "title": "A stake moves exactly what it says", "statement": "A successful `stake` or `permitAndStake` takes exactly the amount from the payer, puts it into the $iPROVE vault, the $iPROVE for it (rounded down) into the prover's vault, and gives the payer as much $stPROVE as the staking contract gets shares (rounded down, not zero); the payer is attached to the prover; nothing else changes. It succeeds only for an active prover without open slash requests, at least the minimum amount, and a payer not staked elsewhere. Right afterwards the new shares are worth at most the amount paid.", "quantifier": "all reachable worlds, payers, provers, amounts and exchange rates", "why_tests_cant": "Depends on exchange rates and rounding at two vaults in arbitrary states.", "anchors": ["contracts/src/SuccinctStaking.sol:stake", "contracts/src/SuccinctStaking.sol:permitAndStake", "contracts/src/SuccinctStaking.sol:_stake"]}
{"id": "C60", "title": "Token supplies are accounted for", "statement": "For $PROVE, $iPROVE, $stPROVE and the shares of every prover's vault, the supply is the sum of the balances; only the staking contract and provers' vaults hold $iPROVE. $PROVE is created only by its owner's mint and destroyed only by a burn of the holder's own tokens, a burn with an allowance, or an executed slash; $iPROVE is created only by stakes and by steps that pay withdrawals to provers, and destroyed only by finished unstakes and executed slashes.", "quantifier": "all reachable worlds (any deployment, any history of calls by any accounts) and every call", "why_tests_cant": "Must hold for every call in every reachable state.", "anchors": ["contracts/src/tokens/Succinct.sol", "contracts/src/tokens/IntermediateSuccinct.sol", "contracts/src/SuccinctStaking.sol:finishSlash", "contracts/src/SuccinctVApp.sol:_processWithdraw"]}
{"id": "C61", "title": "Nobody's $PROVE moves without consent", "statement": "The $PROVE balance of an account that is not one of the system's contracts goes down only by its own call, by someone using an allowance it gave them, with a permit it signed, or in a deposit or stake for which it gave the vApp contract (the prover) an allowance of exactly the amount; and then by exactly the amount named in the call.", "quantifier": "all reachable worlds (any deployment, any history of calls by any accounts) and every call", "why_tests_cant": "Consent must hold against every caller, call and history.", "anchors": ["contracts/src/SuccinctVApp.sol:permitAndDeposit", "contracts/src/SuccinctVApp.sol:deposit", "contracts/src/SuccinctStaking.sol:permitAndStake", "contracts/src/SuccinctStaking.sol:stake", "contracts/src/SuccinctStaking.sol:finishUnstake"]}
{"id": "C62", "title": "Views agree with what is paid", "statement": "What `unstakePending` reports is what `finishUnstake` then pays: never more than one base unit per claim beyond it, and not less if all claims are past the unstake period and the prover's escrow covers them. What `staked` reports for distinct stakers of a prover adds up to at most what `proverStaked` reports.", "quantifier": "all reachable worlds, stakers, claims and exchange rates", "why_tests_cant": "Sums of rounded conversions over any number of claims or stakers.", "anchors": ["contracts/src/SuccinctStaking.sol:unstakePending", "contracts/src/SuccinctStaking.sol:staked", "contracts/src/SuccinctStaking.sol:proverStaked", "contracts/src/SuccinctStaking.sol:finishUnstake"]}
{"id": "C63", "title": "Exactly which staking calls go through", "statement": "After any ordinary history (amounts and times far below the limits of 256-bit arithmetic) a staking call is accepted exactly under these conditions, and no internal step (token transfers, share conversions, escrow bookkeeping, bounded additions) can make it revert otherwise. stake/permitAndStake: payer holds and has approved (or signed for) the amount, amount non-zero and at least the minimum, prover registered, active and without open slash request, staker bound to no other prover, amount buys a share. requestUnstake: non-zero amount held as $stPROVE, staker bound, fewer claims than the maximum, no open slash request. finishUnstake: staker bound, has a claim, no open slash request; whoever calls. requestSlash: the vApp contract, a registered prover, a non-zero amount. cancelSlash: unresolved claim past its waiting time; whoever calls. finishSlash: the owner, unresolved claim. dispense: the dispenser, a non-zero accrued amount that is held. updateDispenseRate: the owner.", "quantifier": "all deployments, all ordinary histories, callers, amounts and times", "why_tests_cant": "Liveness after every history: a rounding or bookkeeping error anywhere in the past could make funds stuck.", "anchors": ["contracts/src/SuccinctStaking.sol:stake", "contracts/src/SuccinctStaking.sol:permitAndStake", "contracts/src/SuccinctStaking.sol:requestUnstake", "contracts/src/SuccinctStaking.sol:finishUnstake", "contracts/src/SuccinctStaking.sol:requestSlash", "contracts/src/SuccinctStaking.sol:cancelSlash", "contracts/src/SuccinctStaking.sol:finishSlash", "contracts/src/SuccinctStaking.sol:dispense", "contracts/src/SuccinctStaking.sol:updateDispenseRate"]}
{"id": "C64", "title": "Exactly which vApp calls go through", "statement": "A deposit is accepted exactly if the contract is not paused, the payer holds the amount and has approved it (or signed a permit), the amount is at least the minimum and ids are left. A prover is created exactly if the caller owns none yet, the fee is at most 100 %, the vApp is not paused and names this staking contract, and ids are left. A fork is accepted exactly from the owner with a non-zero key and root. A step is accepted exactly if not paused, from the auctioneer, with an accepted proof of public values that continue the latest root, with a non-zero new root, a timestamp not in the future, not before the latest one and at most an hour old, and receipts that can be handled.", "quantifier": "all worlds, callers, amounts, public values and proofs", "why_tests_cant": "Acceptance must be characterised for every state and input, including that no internal step reverts.", "anchors": ["contracts/src/SuccinctVApp.sol:deposit", "contracts/src/SuccinctVApp.sol:permitAndDeposit", "contracts/src/SuccinctVApp.sol:createProver", "contracts/src/SuccinctVApp.sol:fork", "contracts/src/SuccinctVApp.sol:step", "contracts/src/libraries/ProverRegistry.sol:createProver"]}
{"id": "C65", "title": "An honest step is never rejected, so withdrawals cannot get stuck", "statement": "After every history of calls from a deployment in which every accepted step carries a genuine output of the state transition program, no fork is made and the vApp keeps its staking contract, there is a rollup state with the contract's latest root from which every honest batch settles: whatever transactions the operator executes on it, as long as those that come from L1 are copies of what the contract queued under their ids, the contract accepts the step with the resulting roots and receipts (if it is not paused, the proof verifies, the caller is the auctioneer and the timestamp is in range). In particular every receipt matches the queue, every withdrawal is covered by tokens the contract holds and every payment succeeds.", "quantifier": "all deployments, all histories of calls by anybody, all batches of transactions", "why_tests_cant": "Liveness of settlement after every history: one receipt that cannot be handled blocks every later step for ever.", "anchors": ["contracts/src/SuccinctVApp.sol:step", "contracts/src/SuccinctVApp.sol:_handleReceipts", "contracts/src/SuccinctVApp.sol:_processWithdraw", "crates/vapp/src/state.rs:execute", "programs/vapp/stf/src/main.rs:main"]}
{"id": "C66", "title": "A staker can always leave", "statement": "After every ordinary history, for every staker: once the cancellation time of the open slash requests on their prover is over, anyone can make a list of cancellations that are all accepted, after which finishing the staker's unstake is accepted (whoever calls it). It settles exactly the claims whose unstaking period is over, at the same value as if there had been no slash request, pays the staker, and a staker with nothing left is free to choose another prover. In the same way the staker can always request to unstake any part of what they hold, below the maximal number of claims.", "quantifier": "all deployments, all ordinary histories, all stakers, callers, amounts and times", "why_tests_cant": "Liveness after every history: any bookkeeping error in the past (counters, pools, factors, allowances) could freeze a stake for ever.", "anchors": ["contracts/src/SuccinctStaking.sol:requestUnstake", "contracts/src/SuccinctStaking.sol:finishUnstake", "contracts/src/SuccinctStaking.sol:cancelSlash", "contracts/src/SuccinctStaking.sol:requestSlash", "contracts/src/SuccinctStaking.sol:_finishUnstake"]}
{"id": "C67", "title": "The rollup's provers are exactly the finalised provers of L1", "statement": "After every history as in C65 (steps genuine, no fork, same staking contract) the rollup state behind the contract's latest root has an owner for an address exactly if the contract has finalised an on-chain transaction creating a prover at this address. Owner and staker fee are those of that transaction and those recorded by the staking contract, which has registered the prover; the fee is at most 100 %. The next on-chain transaction the rollup will execute is the next one the contract will finalise.", "quantifier": "all deployments, all histories of calls by anybody, all batches executed by the operator", "why_tests_cant": "It relates the state of two systems after every history of both.", "anchors": ["contracts/src/SuccinctVApp.sol:step", "contracts/src/SuccinctVApp.sol:createProver", "contracts/src/libraries/ProverRegistry.sol:createProver", "crates/vapp/src/state.rs:execute"]}
{"id": "C68", "title": "A deposit stays its owner's until signed away", "statement": "After every history of calls to the contracts in which every accepted step carries a true output of the rollup program: everything an account ever deposited (and started with) is still its balance on the rollup, or waits in the deposit queue, or was delivered to L1 as a withdrawal for that account, or was taken under distinct messages signed by the account's key, each at most once and within the limit it states (amount and fee of a transfer, fee of a delegation or withdrawal, base fee plus gas limit at the maximal price of a proof request). An account whose key signed nothing loses nothing other than by withdrawals for it. An accepted step pays every withdrawal it delivers to the account itself in $PROVE (for accounts that are not provers).", "quantifier": "all accounts, all histories of the contracts and of the rollup of any length, all transactions, schedules of steps and inputs of the sequencer", "why_tests_cant": "It joins both sides of the bridge over unbounded histories: a wrong id, amount, account, signature check, replay check, fee limit or receipt anywhere could lose or steal a deposit.", "anchors": ["contracts/src/SuccinctVApp.sol:deposit", "contracts/src/SuccinctVApp.sol:step", "contracts/src/SuccinctVApp.sol:_processWithdraw", "crates/vapp/src/state.rs:VAppState::execute", "programs/vapp/stf/src/main.rs:main"]}
{"id": "C69", "title": "The deposit queue can be emptied and covered withdrawals can be paid", "statement": "After every history of calls to the contracts in which every accepted step carries a true output of the rollup program, an honest sequencer can make progress from the current rollup state: all transactions waiting in the queue can be executed, at whatever increasing event positions they are seen, crediting every waiting deposit to its account and nothing else, and the step that submits them is accepted and leaves nothing waiting; and every withdrawal that is well-formed, correctly signed, not yet processed and covered is executed, and the step that submits it is accepted and pays the amount to the account on L1.", "quantifier": "all histories of the contracts and of the rollup of any length, all queue contents and event positions, all withdrawal requests", "why_tests_cant": "Freedom from deadlock of the two-sided system after every history: one queued transaction that the rollup cannot execute, or one receipt the contract cannot accept, would block the bridge for everybody forever.", "anchors": ["contracts/src/SuccinctVApp.sol:step", "contracts/src/SuccinctVApp.sol:_handleOnchainReceipt", "contracts/src/SuccinctVApp.sol:_processWithdraw", "crates/vapp/src/state.rs:VAppState::execute"]}
{"id": "C70", "title": "A signed permit is used at most once, and costs at most its amount", "statement": "With signatures, nonces and deadlines: a token permit is accepted only until its deadline, with the owner's signature over exactly this token, owner, spender, amount, nonce and deadline, and only if its nonce is the next one, which it uses up; so over any history of calls by anyone no permit is used twice, whether presented to the token itself or inside permitAndDeposit or permitAndStake. Whatever others do, an account loses at most what it transfers, burns or approves itself, the allowances it had already given, and the amounts of the permits it signed, each counted once. Taking a permit out of somebody's pending permitAndDeposit or permitAndStake and submitting it first does not make that call fail or change its effect. Everything proved about the contracts without signatures holds with them.", "quantifier": "all histories of calls by anybody, of any length, with any signatures, deadlines and times; all accounts and sets of signed permits", "why_tests_cant": "Replay, cross-function reuse and front-running are statements about every interleaving of calls by adversaries.", "anchors": ["contracts/src/SuccinctVApp.sol:permitAndDeposit", "contracts/src/SuccinctStaking.sol:permitAndStake", "contracts/src/tokens/SuccinctProver.sol:transferProveToStaking", "contracts/src/tokens/Succinct.sol"]}
{"id": "C71", "title": "Deployment establishes the initial state, once, and nobody can redo it", "statement": "The atomic deployment is accepted exactly if nothing is deployed yet and no parameter that must not be zero is zero; it leaves the contracts in the initial state all the other properties start from, with the given owner, auctioneer, verifier, periods, limits and genesis root, knowing each other's true addresses, and moves no tokens. Afterwards no initialize call, by anyone and with any arguments, is ever accepted again, and an upgrade is accepted only from the owner; so over every history of the chain from the creation of the $PROVE token in which no owner upgrades a contract, the state of the deployed contracts is one the other properties are about. With the non-atomic script, anyone can initialise the staking contract as its owner before the script does.", "quantifier": "all histories of calls by anybody of any length before and after the deployment, all parameters", "why_tests_cant": "The other theorems assume an initial state; that every way through deployment and re-initialisation leads there is a statement about all histories.", "anchors": ["contracts/script/utils/AtomicDeployer.sol:deploy", "contracts/src/SuccinctVApp.sol:initialize", "contracts/src/SuccinctStaking.sol:initialize", "contracts/src/SuccinctVApp.sol:_authorizeUpgrade", "contracts/src/SuccinctStaking.sol:_authorizeUpgrade", "contracts/script/deploy/All.s.sol:run"]}
{"id": "C72", "title": "Governance follows stake", "statement": "The votes an account has at a past time are the stake of the prover with that address at the end of that second, and nothing for anybody who is not a prover, whatever was delegated; nothing done later changes them, and votes plus the $iPROVE escrowed for leaving stakers add up to the supply. What a prover votes, proposes or cancels, its owner has sent. A proposal's counts are the stakes, at the start of voting, behind the votes cast on it, each voter counted once, and never exceed the supply. A vote is accepted exactly while voting runs, from who has not voted, for one of three options; a proposal is cancelled exactly by who proposed it, once, until voting starts; a proposal only from somebody with the threshold of stake in the second before. A proposal can be executed exactly if proposed, not cancelled, not executed, its voting over, more stake for than against, and stake for plus abstaining at the quorum; nothing is executed twice. While the governor owns the contracts, no setting of the contracts or the governor changes and no prover is slashed, except by an executed proposal. When a slash request can be cancelled, voting is over on every proposal made before the cancellation period ended, unless the voting delay or period were shortened since. Vote keeping never stops a call the contracts accept, nor changes its effect.", "quantifier": "all histories of calls by anybody of any length with any times; all proposals, votes, delegations and interleavings of staking, slashing and voting", "why_tests_cant": "Checkpointed votes and their counting are statements about every interleaving of stake movements with proposals over time; tests fix a schedule.", "anchors": ["contracts/src/SuccinctGovernor.sol", "contracts/src/tokens/IntermediateSuccinct.sol", "contracts/src/tokens/SuccinctProver.sol:propose", "contracts/src/tokens/SuccinctProver.sol:castVote", "contracts/src/tokens/SuccinctProver.sol:cancel", "contracts/src/SuccinctStaking.sol:cancelSlash"]}
{"id": "C73", "title": "A node keeps running", "statement": "Whatever the network, the artifact store, the prover and the clock answer, a running node goes on: no error or crash of a bidding pass and no error of a proving pass ends it. It ends only when a proving pass gets to an assigned request of unspecified mode, or when the monitor fails, and on a network that honours the limit of its query it then always ends. `run` reports an error except when the monitor returned one.", "quantifier": "all configurations; all sequences of passes and monitor results of any length, with arbitrary answers of the outside in each", "why_tests_cant": "Survival over an unbounded life with arbitrary failures is a statement about every sequence of failures; tests inject a few.", "anchors": ["crates/node/core/src/lib.rs:Node::run", "crates/node/core/src/serial.rs:SerialProver", "crates/node/core/src/serial.rs:SerialBidder"]}
{"id": "C74", "title": "Unexecutable requests are given up, and only those", "statement": "The node's registry of unexecutable requests holds exactly the requests the network has listed as assigned to it and unexecutable in some pass of the watching task, whatever passes failed in between. A request that is answered was proved if and only if it was not listed by then; a listed one is reported as failed in every later round, without downloads or a fulfilment. A running proof is aborted only if its request was listed, and a proof whose request is found listed ends as cancelled at the next point an abort takes effect unless it ends before. Only the first prover of a process has its registry filled.", "quantifier": "all sequences of passes with arbitrary answers; all requests, rounds and interleavings of proof progress, registry checks and aborts", "why_tests_cant": "Interleavings of the watcher, the supervisor and the proving task are unbounded; tests run one schedule.", "anchors": ["crates/node/core/src/serial.rs:ensure_unexecutable_check_task_running", "crates/node/core/src/serial.rs:SerialProver::prove"]}
{"id": "C75", "title": "What the node submits settles at its price", "statement": "A bid and a fulfilment submitted by the node for a request, put in a clear with valid messages of the other parties, is accepted by the ledger, charges the requester the base fee plus the configured price for each unit of gas and pays all of that to the node's prover and the prover's owner (the protocol fee is zero). For a request of another mode than compressed, Plonk or Groth16 no clear with a successful execution is ever accepted, although the node bids on such requests and proves them.", "quantifier": "all configurations, networks, ledgers, requests, nonces and messages of the other parties that meet the stated conditions", "why_tests_cant": "It relates what one program signs to what another accepts, for every state of both; the repo has no test that runs both.", "anchors": ["crates/node/core/src/serial.rs:SerialBidder::bid", "crates/node/core/src/serial.rs:SerialProver::prove", "crates/vapp/src/state.rs:execute_inner"]}
{"id": "C76", "title": "The bid on the command line is what is paid", "statement": "A node started with --bid n is paid n $PROVE per billion units of gas, as the flag is documented. (False of the code: it is paid n of the smallest units per unit of gas, which is the documented amount divided by 10^9, for every n and every request.)", "quantifier": "all bids given on the command line, all requests that settle", "why_tests_cant": "It spans the command line, the node and the ledger; a unit error passes every test of each part.", "anchors": ["bin/node/src/main.rs:ProveArgs", "crates/node/core/src/serial.rs:SerialBidder::bid", "crates/vapp/src/state.rs:execute_inner"]}
{"id": "C77", "title": "The calibrator's bid earns the target", "statement": "A prover that works at the calibrated rate for the given share of the time and is paid the printed bid earns its cost per hour plus the profit margin. (False of the code: it earns that times the square of the $PROVE price in USD; it holds exactly at a price of one.)", "quantifier": "all throughputs, costs, utilization rates, margins and prices", "why_tests_cant": "A unit error in a formula shows for every price but one; the repo's tests do not compare with the target.", "anchors": ["crates/node/calibrator/src/lib.rs:SinglePassCalibrator::calibrate", "bin/node/src/main.rs:Args::Calibrate"]}
{"id": "C78", "title": "Uploaded artifacts read back", "statement": "An upload is all or nothing: if it succeeds the stored artifact is the data, if it fails it is the data or what was there before. A download after a successful upload returns the uploaded data unless five of its requests in a row fail, whatever artifacts of other buckets, kinds or ids others store meanwhile; for typed artifacts it returns the uploaded value. Whatever others do, a successful download returns what the artifact was at one moment during it. Uploads and copies change no other artifact, and downloads change nothing.", "quantifier": "all stores, artifacts, data and interleavings with the requests of others, each request served, refused, cut off or with its answer lost", "why_tests_cant": "It ranges over every interleaving with other clients and every pattern of failing requests; a test with a store runs a few.", "anchors": ["crates/network/artifacts/src/lib.rs:ArtifactClient::upload", "crates/network/artifacts/src/lib.rs:ArtifactClient::upload_raw", "crates/network/artifacts/src/lib.rs:ArtifactClient::download_raw", "crates/network/artifacts/src/lib.rs:get_s3_key"]}
{"id": "C79", "title": "Copying keeps an artifact that is already there", "statement": "A copy to a bucket that already has the artifact succeeds and leaves it as it is; otherwise it stores there what the source has. (False of the code in general: if the request that looks at the destination fails, or the artifact is stored there between that request and the last one, the copy replaces it.)", "quantifier": "all stores, artifacts, buckets, interleavings with others and patterns of failing requests", "why_tests_cant": "The failure needs a request failing at one moment or a race with another client.", "anchors": ["crates/network/artifacts/src/lib.rs:ArtifactClient::copy"]}
{"id": "C80", "title": "A parallel download returns one version of the object", "statement": "A parallel download that succeeds returns what the object was at some moment. (False of the code in general: if the object is replaced meanwhile, the result can be a mixture; each chunk is from some version.) If the object is not replaced it returns the object.", "quantifier": "all objects, chunk sizes, concurrency, schedules of tasks and of the requests of others", "why_tests_cant": "It ranges over every interleaving of the tasks with writers; tests cannot place a write between two range requests.", "anchors": ["crates/network/artifacts/src/lib.rs:download_s3_file_par", "crates/network/artifacts/src/lib.rs:ArtifactClient::download_raw_from_uri_par"]}
{"id": "C81", "title": "A download from a URI returns the object the URI names", "statement": "A download from an s3:// URI returns the object with the bucket and path of the URI. (False of the code in general: only the bucket is taken from the URI, the path is built from the kind and id given; so it holds only for URIs made of the prefix of the kind and the id.) Schemes other than s3 and https are refused without a request.", "quantifier": "all URIs, kinds, ids and stores", "why_tests_cant": "It ranges over every URI; tests use those the client itself makes.", "anchors": ["crates/network/artifacts/src/lib.rs:ArtifactClient::download_raw_from_uri", "crates/network/artifacts/src/lib.rs:extract_artifact_name", "crates/network/artifacts/src/lib.rs:get_s3_key"]}
{"id": "C82", "title": "Nobody can spoil somebody else's pending transaction", "statement": "A transfer, withdrawal, delegation or clear that would succeed now also succeeds, with the same receipt and the same effect on every balance and delegated signer, after any further accepted transactions, unless one of them was signed by one of its parties (the signer, the account withdrawn from, the prover), withdraws from, creates or re-delegates one of them, or has an identity in the same slot. Deposits, payments, fees and clears of others cannot make it fail.", "quantifier": "all ledgers, off-chain transactions that succeed in them, and histories of any length that do not act on its parties", "why_tests_cant": "It ranges over every history that may come in between; tests execute transactions in one order.", "anchors": ["crates/vapp/src/state.rs:VAppState::execute", "crates/vapp/src/state.rs:VAppState::execute_inner"]}
{"id": "C83", "title": "Independent transactions can be sequenced in any order", "statement": "Off-chain transactions that would each succeed now, none of which acts on a party of another and no two in the same slot, all succeed with the results they have now in whatever order they are executed, and the resulting ledger, hence its state root, is the same for all orders.", "quantifier": "all ledgers, all lists of pairwise independent transactions and all permutations of them", "why_tests_cant": "It ranges over every permutation of every such list; tests execute one.", "anchors": ["crates/vapp/src/state.rs:VAppState::execute", "crates/vapp/src/state.rs:VAppState::execute_inner"]}
{"id": "C84", "title": "How transactions are cut into batches does not matter", "statement": "However a list of transactions that executes is cut into a non-empty list of batches with timestamps that never decrease, every batch has an input the state transition program accepts, the aggregation program accepts the committed values, and it commits the same old root, new root, last timestamp and receipts. Two accepted aggregations of the same transactions, cut differently and starting from the same root, commit the same new root and the same receipts.", "quantifier": "all full states reached by storage operations, all executable transaction lists, all ways of cutting them into batches and all accepted inputs", "why_tests_cant": "It ranges over every cut of every list of transactions; tests aggregate a few fixed batches.", "anchors": ["programs/vapp/stf/src/main.rs:main", "programs/vapp/aggregation/src/main.rs:main"]}
{"id": "C85", "title": "Reading the price of $PROVE", "statement": "A text is accepted as a USD price only if it is a decimal numeral without a minus sign (with optional whitespace, plus sign, fraction and exponent). A price that is a whole number of micro-dollars below 2^51 is read exactly; every accepted price is positive and off by at most half a micro-dollar and one part in 2^51; every price between one and 2^63 micro-dollars is accepted; text that is no number, negative numbers, zero, and prices that are too small or too large are refused; a higher price is never read as a lower one. A reading is accepted exactly if also its time is in range, and every conversion with an accepted reading succeeds.", "quantifier": "all texts, all numerals and all timestamps", "why_tests_cant": "It ranges over all decimal texts and two roundings of floating point arithmetic; tests parse a few strings.", "anchors": ["crates/network/pricing/src/math.rs:parse_usd_micros", "crates/network/pricing/src/provider.rs:ProvePrice::parse"]}
{"id": "C86", "title": "Bids are for work that can be done in time", "statement": "A node that bids has just been told the gas limit and the deadline of the request, and the gas limit is at most what its throughput proves in the seconds left and one second more, up to one part in 2^52. Conversely, if the work can be done in the time left, the node bids. With a throughput that is not a number, negative or infinite it bids on every request.", "quantifier": "all positive throughputs that are binary64 numbers, all gas limits, deadlines, clocks and all answers of the network", "why_tests_cant": "It ranges over all floating point throughputs and all histories of answers; tests use one configuration.", "anchors": ["crates/node/core/src/serial.rs:SerialBidder::bid"]}
{"id": "C87", "title": "Networks are kept apart", "statement": "Exactly the two network names are accepted, and each stands for the EIP-712 domain of the protocol on its chain. Domains that differ in name, version or chain id have different separators. Two ledgers set up for different networks never both accept the same off-chain transaction, whatever they executed before, and what a node signs counts on mainnet only.", "quantifier": "all names, all domains, all histories of both ledgers, all transactions and all runs of a node", "why_tests_cant": "It ranges over all transactions and histories on two ledgers; tests use one domain.", "anchors": ["crates/network/utils/src/domain.rs:get_domain", "crates/network/utils/src/domain.rs:SPN_MAINNET_V1_DOMAIN", "crates/network/utils/src/domain.rs:SPN_SEPOLIA_V1_DOMAIN", "crates/vapp/src/state.rs:VAppState::execute", "crates/node/core/src/serial.rs:SerialBidder::bid"]}
{"id": "C88", "title": "A signature counts for one message in one format", "statement": "The text signed for a message in JSON determines the message, up to a ratio in the metadata of a fulfilment that is no finite number. It is the binary encoding of no message and never the 32 bytes a verifier signs, and the prefix added before hashing keeps different texts different. So what was signed for one message on which a ledger acts, in either format, never counts for another message or in the other format.", "quantifier": "all messages of all eight kinds, in both formats, all transactions and all ledgers that accept them", "why_tests_cant": "It ranges over all pairs of messages and formats; tests sign a few messages in binary.", "anchors": ["crates/vapp/src/signing.rs:verify_signed_message", "crates/vapp/src/signing.rs:eth_sign_verify", "crates/types/network/src/types.rs", "crates/types/network/build.rs"]}
{"id": "C89", "title": "An amount means the number it is written as", "statement": "The text of an amount, fee or price in a message is accepted exactly if it is a numeral (decimal, or hexadecimal, octal or binary with its prefix, with underscores anywhere) for a number below 2^256, and then stands for this number; it has at most one meaning. What the node prints for a number is read as this number. A text with a sign, a point or a space is refused. Transfers move, withdrawal receipts name and clears charge the numbers written.", "quantifier": "all texts, all numbers, all ledgers and transactions", "why_tests_cant": "It ranges over all texts and numbers up to 2^256.", "anchors": ["crates/vapp/src/state.rs:VAppState::execute", "crates/node/core/src/serial.rs:SerialBidder::bid"]}
{"id": "C90", "title": "Claims are covered and a stake comes back", "statement": "As long as no slash takes everything from a prover while unstake claims on it are open: its escrow covers what all open claims on it are worth together; what an open claim is worth changes only by a slash of the prover, and then falls; finishing pays at least what the pending view reported. So whoever stakes, asks for everything back, waits and finishes gets at least what their stake was worth right after staking, unless their prover is slashed in between; and a first stake is worth at most what was paid for it and at least that less the rounding (x * (y + 2) base units, if $iPROVE costs at most x $PROVE and a vault share at most y $iPROVE).", "quantifier": "all histories of contract calls by anyone in which no slash empties a pool with open claims, all stakers, amounts and times", "why_tests_cant": "It is about sums over all stakers after any history of interleaved stakes, requests, slashes, dispenses and payouts with rounding at every step.", "anchors": ["contracts/src/SuccinctStaking.sol:finishUnstake", "contracts/src/SuccinctStaking.sol:requestUnstake", "contracts/src/SuccinctStaking.sol:finishSlash", "contracts/src/SuccinctStaking.sol:stake", "contracts/src/SuccinctStaking.sol:unstakePending"]}
{"id": "C91", "title": "What is read from a message is what was put into it", "statement": "A receiver of any of the eight kinds of messages reads exactly the message that was sent, every field of it; a message that was read and is passed on stays what it is. The order of fields does not matter; of several values for one field the last counts; fields the message does not have (from newer senders, including groups) change nothing, wherever they are; a field of the wrong type, a text that is not UTF-8 and a message that is cut off within a field are refused.", "quantifier": "all messages of the eight kinds, all lists of fields with any tags and payloads, all byte strings, all cut points", "why_tests_cant": "It ranges over all values of up to 21 fields at once and over all ways to write them.", "anchors": ["crates/types/network/src/types.rs:RequestProofRequestBody", "crates/types/network/src/types.rs:BidRequestBody", "crates/types/network/src/types.rs:SettleRequestBody", "crates/types/network/src/types.rs:ExecuteProofRequestBody", "crates/types/network/src/types.rs:FulfillProofRequestBody", "crates/types/network/src/types.rs:TransferRequestBody", "crates/types/network/src/types.rs:WithdrawRequestBody", "crates/types/network/src/types.rs:SetDelegationRequestBody"]}
{"id": "C92", "title": "The bid on the command line is the node's bid", "statement": "A node started with --bid x bids the whole number x, however it is written (digits, a point, an exponent), if x is a whole number up to 2^52 or a larger even one of 53 significant binary digits; any other bid is off by at most half a unit and one part in 2^51; a higher x never gives a lower bid. Every x from 0 to 2^255 is accepted; what is not a decimal numeral, negative (by 2^-1074 or more) or at least 2^256 ends the program before it bids. (It is not always the nearest whole number: 2^52+1 becomes 2^52+2.)", "quantifier": "all texts given with --bid", "why_tests_cant": "It ranges over all texts, and over two roundings that agree with the exact value on nearly all samples.", "anchors": ["bin/node/src/main.rs:ProveArgs", "bin/node/src/main.rs:main"]}
{"id": "C93", "title": "The calibrator computes its formula", "statement": "For every amount of gas, every duration and all parameters of an ordinary size (2^-100 to 2^100) the throughput, the price and the bid that calibration computes in floating point are finite and equal to the exact formulas up to one part in 2^49; at a $PROVE worth one USD the bid earns the cost plus the margin up to one part in 2^49. If the execution reports no gas, the price is infinite.", "quantifier": "all amounts of gas, durations, costs, utilization rates, margins and prices", "why_tests_cant": "Rounding errors depend on all inputs at once; a test compares a few values with a tolerance.", "anchors": ["crates/node/calibrator/src/lib.rs:SinglePassCalibrator::calibrate", "bin/node/src/main.rs:Args::Calibrate"]}
{"id": "C94", "title": "The example program recognises primes", "statement": "For every u64 the example program that the node is calibrated with ends without a panic and commits to true exactly if its input is a prime number, to false otherwise, also where its squares exceed 64 bits.", "quantifier": "all 2^64 inputs", "why_tests_cant": "A test runs a few inputs; the inputs whose squares overflow take billions of rounds.", "anchors": ["programs/examples/is-prime/src/main.rs:is_prime", "programs/examples/fibonacci/src/main.rs:is_prime"]}
{"id": "C95", "title": "The deployed contracts start from the empty ledger of their network", "statement": "The genesis state root deployed on mainnet is the root of the ledger that the vApp makes for the domain SPN_MAINNET_V1_DOMAIN, and the one deployed on Sepolia is that for SPN_SEPOLIA_V1_DOMAIN. With the actual Keccak-256: no signed transaction is accepted on both networks whatever their histories; a state with the deployed root has no account, no processed request and the initial counters; the first step that the STF program proves from it executes its transactions on that empty ledger; and contracts initialised with it always hold the root of a ledger of the mainnet domain that started empty, with the matching amount of tokens.", "quantifier": "all states, all inputs of the STF program, all transaction histories of the two networks, all call histories of the contracts", "why_tests_cant": "A test can compare the two constants but not exclude other states behind them, nor follow every history from them.", "anchors": ["contracts/deployments/1.json", "contracts/deployments/11155111.json", "crates/vapp/src/state.rs:VAppState::new,root", "crates/vapp/src/merkle.rs:MerkleStorage::root", "crates/network/utils/src/domain.rs:SPN_MAINNET_V1_DOMAIN,SPN_SEPOLIA_V1_DOMAIN", "contracts/src/SuccinctVApp.sol:initialize,step"]}
{"id": "C96", "title": "The event log of the contracts tells their whole state", "statement": "Whoever starts with the state of the vApp and staking contracts and then sees only their events can at any time name, without reading the contracts, everything that these store and that can change: owners, pause, verification key, auctioneer, staking and verifier addresses, minimum deposit, the state root of every block, every queued transaction with its status, all provers with owner, number and fee, who is bound to which prover, every holder's $stPROVE, every slash request with its outcome, dispenser, rate and the amount dispensed. Starting from nothing at the deployment, the same holds except for the first dispenser, which is set without an event. Calls that revert leave no event and no change.", "quantifier": "all states, all histories of calls with any senders, times and arguments", "why_tests_cant": "Tests expect single events; that no change goes without its event, and none is reported that did not happen, is about every path of every call.", "anchors": ["contracts/src/SuccinctVApp.sol", "contracts/src/SuccinctStaking.sol", "contracts/src/libraries/ProverRegistry.sol", "contracts/src/interfaces/ISuccinctVApp.sol", "contracts/src/interfaces/ISuccinctStaking.sol", "contracts/src/interfaces/IProverRegistry.sol"]}
{"id": "C97", "title": "Events are consistent with what was announced before", "statement": "Transactions are queued, finalised and blocks produced under consecutive numbers; a transaction is reported completed or reverted only after it was reported pending with the same number, kind and contents; a slash request is resolved at most once, by an event whose amount is not more than was requested; updates report the value that was last reported; a staker binds, stakes, requests and unbinds only as their earlier events allow; provers are deployed once, deactivated once, and new when deployed.", "quantifier": "all states, all histories of calls", "why_tests_cant": "An indexer must handle every order of events that any history can produce.", "anchors": ["contracts/src/SuccinctVApp.sol", "contracts/src/SuccinctStaking.sol", "contracts/src/libraries/ProverRegistry.sol", "contracts/src/interfaces/ISuccinctVApp.sol", "contracts/src/interfaces/ISuccinctStaking.sol", "contracts/src/interfaces/IProverRegistry.sol"]}
{"id": "C98", "title": "The event log accounts for all $PROVE", "statement": "Over any history, the $PROVE of every account changes by exactly what the Deposit, Withdraw, Stake, Unstake, Dispense and Slash events say, plus what successful calls of the token itself moved; and the supply by the token's own mints and burns less the amounts in the Slash events. A withdrawal of a prover known at that point of the log goes to the $iPROVE vault.", "quantifier": "all states that admissible histories lead to, all further histories during which the vApp keeps its staking contract, all accounts", "why_tests_cant": "Reconciliation must hold for every account and every interleaving of the calls.", "anchors": ["contracts/src/SuccinctVApp.sol", "contracts/src/SuccinctStaking.sol", "contracts/src/libraries/ProverRegistry.sol", "contracts/src/interfaces/ISuccinctVApp.sol", "contracts/src/interfaces/ISuccinctStaking.sol", "contracts/src/interfaces/IProverRegistry.sol", "contracts/src/tokens/IntermediateSuccinct.sol"]}
{"id": "C99", "title": "The event log accounts for the $iPROVE behind every prover", "statement": "Over any history, the $iPROVE behind a prover, in its vault and in its escrow together, changes by exactly the $iPROVE amounts of its Stake events less those of its Unstake and Slash events, unless a Withdraw event pays the prover itself, in which case there is at least that much. The $iPROVE in its escrow changes by exactly the amounts of its UnstakeRequest events less those of its Unstake events, unless the prover is slashed, in which case there is at most that much. Nothing else moves either.", "quantifier": "all states that admissible histories lead to, all further histories, all provers", "why_tests_cant": "Exchange rates, rounding, capped payments and slashes make every amount in an event a result of the history before it.", "anchors": ["contracts/src/SuccinctStaking.sol", "contracts/src/interfaces/ISuccinctStaking.sol", "contracts/src/SuccinctVApp.sol"]}
{"id": "C100", "title": "The metrics server ends when told to, and only then", "statement": "Under every interleaving of the future of `serve`, the HTTP task, the listening task, requests and the shutdown channel: the endpoint stops accepting requests only after the shutdown channel was used or closed (or the HTTP server failed); once it has, it accepts none; `serve` returns Ok only after the endpoint has ended, with every accepted request answered unless the HTTP server failed; it returns an error only if the address could not be bound; and once the channel was used or closed, `serve` returns within a bounded number of steps, whenever that happened. Dropping the future of `serve` does not stop the endpoint.", "quantifier": "all schedules of the three tasks, requests, signals and aborts", "why_tests_cant": "Three tasks, a broadcast and a oneshot channel: a signal may come before anybody listens, during requests, or never; a test sees one schedule.", "anchors": ["crates/node/metrics/src/server.rs: MetricServer::serve, MetricServer::start_endpoint", "crates/node/metrics/src/recorder.rs"]}
{"id": "C101", "title": "Captured panics are reported, once", "statement": "A report of an `ErrorCapture` consists of the given error and of the messages of all panics since the capture was made and since its last report, in order; no panic is reported twice, by one capture or by two.", "quantifier": "all histories of captures, panics, reports and ends of captures, on any threads", "why_tests_cant": "The panic hook belongs to the whole process: any number of captures may be made, overlap and end in any order.", "anchors": ["crates/network/utils/src/error.rs: ErrorCapture"]}
{"id": "C102", "title": "The metrics server can be reached once it says it is ready", "statement": "When the ready signal of the configuration has been sent, the address is bound.", "quantifier": "all schedules", "why_tests_cant": "The signal and the bind are in different tasks.", "anchors": ["crates/node/metrics/src/server.rs: MetricServer::serve, MetricServer::start_endpoint", "crates/node/metrics/src/recorder.rs"]}
{"id": "C103", "title": "The check after the deployment sees a meddled deployment", "statement": "The script deploys the contracts in several transactions, and anyone may initialise the staking proxy in between, with any arguments and as often as they like. The check that follows passes after an undisturbed deployment, and if it passes then the contracts are exactly as the atomic deployment with the same parameters leaves them. If it passes on contracts already in use, then there are no provers, no $iPROVE, no stakes, no unstakes and no roots but the one of genesis.", "quantifier": "all parameters, all states before the deployment, all lists of initialisations by others in each gap; all reachable states for the last part", "why_tests_cant": "What comes in between is up to strangers; a test of the script sees none of them.", "anchors": ["contracts/script/deploy/All.s.sol: run", "contracts/script/utils/PostDeployment.s.sol: run", "contracts/script/utils/AtomicDeployer.sol: deploy"]}
{"id": "C104", "title": "What a rejected transaction leaves behind", "statement": "A transaction that execute rejects with a panic changes nobody's owner, delegated signer or staker fee, creates no money, takes money only from those who signed it (or the account a withdrawal names), and marks nothing as processed but itself. The domain and the cursors stay, unless it is a deposit in order that does not fit into its account. As long as 10000 times the sum of the balances fits in 256 bits every balance stays too, unless it is a delegation to a malformed address, or a clear with a malformed treasury or for a prover whose staker fee is above 100 percent. In any sequence of executions, rejected ones included, the balances plus what was withdrawn never exceed what there was plus what was deposited.", "quantifier": "every transaction, every ledger and every panic; every sequence of transactions for the last sentence", "why_tests_cant": "A panic can come from any of some fifty places, in any ledger.", "anchors": ["crates/vapp/src/state.rs::execute", "crates/vapp/src/state.rs::execute_inner"]}
{"id": "C105", "title": "A request is settled on all the terms its requester signed", "statement": "A request is settled only on the terms that its requester signed: at most their price and their gas limit, with the auctioneer and the executor they named and a prover on their whitelist, and also before their deadline, within their cycle limit and after the minimum auction period.", "quantifier": "every ledger state, every clear transaction, every time of a run of the state transition program", "why_tests_cant": "Deadlines matter in runs at late times, of which there are as many as there are times and requests.", "anchors": ["crates/vapp/src/state.rs::execute_inner Clear", "programs/vapp/stf/src/main.rs::main", "crates/types/network/src/types.rs::RequestProofRequestBody"]}
{"id": "C106", "title": "Whoever starts as a prover with the script ends up with a prover and a stake", "statement": "If an account that is able to (no prover and no stake yet, 10,000 $PROVE, contracts open) runs the script CreateProverAndStake, its transactions are fixed against the current state and then sent one by one while others use the contracts; afterwards the account owns a prover with a staker fee of 10 % and stakes 10,000 $PROVE with it, or nothing has changed and the script can be run again. It never costs more than the 10,000 $PROVE.", "quantifier": "all ordinary histories before the run, all accounts outside the system, all transactions of others between the planned ones", "why_tests_cant": "The Solidity tests do not run the script, and a run in an undisturbed simulation says nothing about other transactions in between.", "anchors": ["contracts/script/operations/CreateProverAndStake.s.sol::run", "contracts/script/utils/Base.s.sol::broadcaster", "contracts/src/libraries/ProverRegistry.sol::_deployProver", "contracts/src/SuccinctStaking.sol::stake"]}
{"id": "C107", "title": "A node started by the set-up script is paid its default bid by the network it connects to", "statement": "For every well-formed address and key typed into prove.sh (an address is well-formed exactly if it is 0x and 40 hexadecimal digits), the node starts with that address as its prover, and whatever it bids on and fulfils on the network it is connected to settles there, at the default bid of 1.01 $PROVE per billion units of gas, for requests it can prove in time at the default throughput.", "quantifier": "all texts typed into the script, all keys, all networks' answers, all histories of the ledger, all clears with the node's messages", "why_tests_cant": "The script is not tested at all; the unit tests of the node use neither its flags nor a ledger.", "anchors": ["prove.sh", "bin/node/src/main.rs::main", "crates/node/core/src/serial.rs::bid_requests", "crates/node/core/src/serial.rs::process_proof_requests", "crates/network/utils/src/domain.rs::SPN_MAINNET_V1_DOMAIN", "crates/vapp/src/state.rs::execute"]}
{"id": "C108", "title": "Who has to be trusted for a proof", "statement": "A compressed proof is checked by the ledger itself: the payment of a compressed request never depends on the verifier. Every other proof is accepted on the verifier's signature alone, whatever the proof system says of it. The proof that travels in the fulfilment, and who signed the fulfilment, never matter for who is paid what.", "quantifier": "all ledgers, all clears, all signatures of the verifier, all ideas of which proofs are valid, all fulfilments", "why_tests_cant": "A unit test clears one request with one proof; that a result does not depend on something is a statement about all values of it.", "anchors": ["PROTOCOL.md", "crates/vapp/src/state.rs::execute", "crates/vapp/src/verifier.rs::VAppVerifier"]}
{"id": "C109", "title": "What the executor's report decides", "statement": "The gas used is the executor's word: any amount within the limit is charged, at the bid price plus the base fee. So is the punishment: any amount within the ceiling goes to the treasury. If the gas exceeds the limit, the request fails, the requester pays the base fee and the capped gas amount, and the prover is compensated.", "quantifier": "all ledgers with a total supply below 2^256, all clears that succeed, all reports by the same executor", "why_tests_cant": "A test has one report per request; the claim compares every report the executor could have signed.", "anchors": ["PROTOCOL.md", "crates/vapp/src/state.rs::execute"]}
{"id": "C110", "title": "The whole balance can be withdrawn", "statement": "A withdrawal of the amount 2^256-1 pays out the whole balance of the account; a withdrawal of the balance less the fee leaves nothing.", "quantifier": "all ledgers with a total supply below 2^256-1, all withdrawals", "why_tests_cant": "A test withdraws from one account; the special amount must work for every balance.", "anchors": ["PROTOCOL.md", "crates/vapp/src/state.rs::execute"]}
{"id": "C111", "title": "Deposits can be taken back without the auctioneer", "statement": "While the auctioneer refuses service, accounts keep full control over the $PROVE they deposited on Ethereum: they can take it back, or the owner can put another auctioneer in place.", "quantifier": "all reachable states of the contracts, all sequences of calls by everybody but the auctioneer", "why_tests_cant": "That no sequence of calls, however long and by whomever, gets a token out is out of reach of any set of test cases.", "anchors": ["PROTOCOL.md", "contracts/src/SuccinctVApp.sol::step", "contracts/src/SuccinctVApp.sol::_processWithdraw", "contracts/src/SuccinctVApp.sol::updateAuctioneer"]}
{"id": "C112", "title": "The atomic deployment script cannot be disturbed", "statement": "Whatever others send while the atomic deployment script runs - calls of its deployer contract, dealings in $PROVE, attempts to initialise or upgrade - it succeeds exactly if its parameters are not zero where they must not be, deploys with its own parameters, and leaves the contracts in a genesis state that passes the check after the deployment.", "quantifier": "all parameters, all sequences of transactions of others before and between those of the script", "why_tests_cant": "There are no tests of the scripts with other parties, and interleavings are without bound.", "anchors": ["contracts/script/deploy/AllAtomic.s.sol::run", "contracts/script/utils/AtomicDeployer.sol::deploy", "contracts/script/utils/AtomicDeployer.sol::setParams1", "contracts/script/utils/PostDeployment.s.sol::run"]}
{"id": "C113", "title": "The contracts' design document on unstaking, slashing and dispensing", "statement": "Unstaking withdraws the rewards the prover has accrued and finishes that withdrawal first; the owner can cancel a requested slash at any time and finish it once the cancellation period has passed; dispensing is done by the owner of the staking contract.", "quantifier": "all reachable states of the contracts, all callers, times, provers, claims and amounts", "why_tests_cant": "Tests follow the code and not the document, and the three sentences are about every state and caller.", "anchors": ["contracts/DESIGN.md", "contracts/src/SuccinctStaking.sol::requestUnstake", "contracts/src/SuccinctStaking.sol::finishUnstake", "contracts/src/SuccinctStaking.sol::cancelSlash", "contracts/src/SuccinctStaking.sol::finishSlash", "contracts/src/SuccinctStaking.sol::dispense", "contracts/src/SuccinctStaking.sol::setDispenser"]}
{"id": "C114", "title": "The operators' recipes for dispensing work", "statement": "After reading the maximum that can be dispensed and sending that much $PROVE to the staking contract, the dispenser can dispense this amount, or just as well the maximum, however much later and whatever else is called in between, as long as nobody else dispenses.", "quantifier": "all reachable states, all amounts and senders, all admissible histories of calls with non-decreasing times between the transfer and the dispense", "why_tests_cant": "Time passes and others act between the three commands; tests run them in one block.", "anchors": ["contracts/OPERATIONS.md", "contracts/src/SuccinctStaking.sol::maxDispense", "contracts/src/SuccinctStaking.sol::dispense", "contracts/src/SuccinctStaking.sol::updateDispenseRate"]}
{"id": "C115", "title": "The $PROVE put aside for dispensing is spent on nothing else", "statement": "No call but a dispense lowers the $PROVE the staking contract holds - no stake, unstake, slash, reward, settlement, transfer or approval of anybody - so that over any history it keeps what it had and was sent, less at most what was dispensed.", "quantifier": "all reachable states, all admissible calls and histories", "why_tests_cant": "The staking contract passes the stakers' $PROVE through its own balance; that no combination of calls touches the rest is a statement about all of them.", "anchors": ["contracts/src/SuccinctStaking.sol::_stake", "contracts/src/SuccinctStaking.sol::permitAndStake", "contracts/src/SuccinctStaking.sol::finishUnstake", "contracts/src/SuccinctStaking.sol::finishSlash", "contracts/src/SuccinctStaking.sol::dispense"]}
{"id": "C116", "title": "The deployment scripts do what the deployment guide says", "statement": "A script takes each address, hash and number from its key in the environment or else in the deployments file. The contracts of an atomic deployment get exactly the configured parameters; the scripts run later use the contracts it deployed; and the four contracts can also be deployed one by one with their own scripts from the documented configuration.", "quantifier": "all environments, deployments files, parsers and answers of the chain; all sequences of runs of the single scripts", "why_tests_cant": "The scripts are not tested; the claims are about every configuration and every order of runs.", "anchors": ["contracts/script/utils/Base.s.sol::readAddress", "contracts/script/utils/Base.s.sol::readUint48", "contracts/script/utils/Base.s.sol::writeAddress", "contracts/script/deploy/AllAtomic.s.sol::run", "contracts/script/deploy/SuccinctStaking.s.sol::run", "contracts/script/deploy/IntermediateSuccinct.s.sol::run", "contracts/script/deploy/SuccinctGovernor.s.sol::run", "contracts/script/deploy/SuccinctVApp.s.sol::run", "contracts/DEPLOYMENT.md"]}
{"id": "C117", "title": "A staker who leaves is bound to the prover for the unstake period", "statement": "A request to unstake takes its $iPROVE, and with it voting weight, from the prover at once. But until the unstake period after the request is over, whatever anybody calls, the request stays open and its staker stays attached to the prover: every stake with another prover, by themselves or with a permit, is refused. Nobody ever has more open requests than the configured maximum.", "quantifier": "all reachable states, all requests, all admissible histories within the unstake period, all callers and provers", "why_tests_cant": "That no combination of calls - finishing, staking again, further requests, slashes, calls by others - detaches the staker early is a statement about every history.", "anchors": ["contracts/src/SuccinctStaking.sol::requestUnstake", "contracts/src/SuccinctStaking.sol::finishUnstake", "contracts/src/SuccinctStaking.sol::_stake", "contracts/.env.example"]}
{"id": "C118", "title": "Unstaking early does not escape a slash", "statement": "If a slash of a prover is requested before the unstake period of a staker's request is over, the staker is not paid before that slash is cancelled or finished, however long that takes and whatever anybody calls. When it is finished, the request is still there and is scaled down together with all the others, by the part of the prover's stake and escrow that is slashed.", "quantifier": "all reachable states, all unstake requests and slash requests, all admissible histories before the slash request (within the unstake period) and after it (of any length below 2^256), all amounts", "why_tests_cant": "That no order of the calls of stakers, provers, governance and third parties lets a staker out between the slash request and its resolution is a statement about every history.", "anchors": ["contracts/src/SuccinctStaking.sol::requestUnstake", "contracts/src/SuccinctStaking.sol::finishUnstake", "contracts/src/SuccinctStaking.sol::requestSlash", "contracts/src/SuccinctStaking.sol::finishSlash"]}
{"id": "C119", "title": "A slash that is cancelled leaves no trace", "statement": "If a slash of a prover is requested and cancelled, everything goes on as if it had never been requested. After any further calls other than slash calls about the same prover, the whole state of all contracts is the one these calls would have led to without the slash request, except for one more resolved request on record. Each such call goes through if and only if it would have gone through without the slash request.", "quantifier": "all reachable states, provers, amounts and times of request and cancellation, all later histories and calls except slash calls about the same prover", "why_tests_cant": "That no function of any of the contracts lets the record of resolved slash requests influence what is paid, accepted or counted is a statement about every call in every state.", "anchors": ["contracts/src/SuccinctStaking.sol::requestSlash", "contracts/src/SuccinctStaking.sol::cancelSlash"]}
