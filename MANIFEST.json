{
 "claims": [
  {
   "property": "C01",
   "status": "proved",
   "theorems": [
    "Verif.c01_step",
    "Verif.c01_history",
    "Verif.c01_genesis"
   ],
   "note": "One step, any history, and from genesis."
  },
  {
   "property": "C02",
   "status": "proved",
   "theorems": [
    "Verif.c02_at_most_once",
    "Verif.c02_history"
   ],
   "note": "The state in between may have survived panicking executions."
  },
  {
   "property": "C03",
   "status": "proved",
   "theorems": [
    "Verif.c03_revert"
   ],
   "note": ""
  },
  {
   "property": "C04",
   "status": "proved",
   "theorems": [
    "Verif.c04_step",
    "Verif.c04_in_order",
    "Verif.c04_no_repeat"
   ],
   "note": "Ids are consecutive modulo 2^64; distinct below 2^64 on-chain transactions."
  },
  {
   "property": "C05",
   "status": "proved",
   "theorems": [
    "Verif.c05_step",
    "Verif.c05_history"
   ],
   "note": ""
  },
  {
   "property": "C06",
   "status": "proved",
   "theorems": [
    "Verif.c06_domain",
    "Verif.c06_domain_constant",
    "Verif.c06_no_cross_domain"
   ],
   "note": ""
  },
  {
   "property": "C07",
   "status": "proved",
   "theorems": [
    "Verif.c07_transfer"
   ],
   "note": ""
  },
  {
   "property": "C08",
   "status": "proved",
   "theorems": [
    "Verif.c08_withdraw"
   ],
   "note": ""
  },
  {
   "property": "C09",
   "status": "proved",
   "theorems": [
    "Verif.c09_delegate",
    "Verif.c09_roles_frame"
   ],
   "note": ""
  },
  {
   "property": "C10",
   "status": "proved",
   "theorems": [
    "Verif.c10_authorised"
   ],
   "note": ""
  },
  {
   "property": "C11",
   "status": "proved",
   "theorems": [
    "Verif.c11_ceiling",
    "Verif.c11_factors"
   ],
   "note": ""
  },
  {
   "property": "C12",
   "status": "proved",
   "theorems": [
    "Verif.c12_fulfilled",
    "Verif.c12_punished"
   ],
   "note": ""
  },
  {
   "property": "C13",
   "status": "proved",
   "theorems": [
    "Verif.c13_signatures"
   ],
   "note": ""
  },
  {
   "property": "C14",
   "status": "proved",
   "theorems": [
    "Verif.c14_verified"
   ],
   "note": "The proof verifier and signature recovery are abstract functions."
  },
  {
   "property": "C15",
   "status": "partial",
   "theorems": [
    "Verif.c15_false",
    "Verif.c15_paid_prover_partial"
   ],
   "note": "False of the code: c15_false exhibits a clear paying a prover other than the settled winner. The partial theorem states what does hold."
  },
  {
   "property": "C16",
   "status": "proved",
   "theorems": [
    "Verif.c16_fee",
    "Verif.c16_fee_total"
   ],
   "note": ""
  },
  {
   "property": "C17",
   "status": "proved",
   "theorems": [
    "Verif.c17_no_balance_overflow",
    "Verif.c17_reachable"
   ],
   "note": ""
  },
  {
   "property": "C18",
   "status": "proved",
   "theorems": [
    "Verif.c18_indices"
   ],
   "note": ""
  },
  {
   "property": "C19",
   "status": "proved",
   "theorems": [
    "Verif.c19_receipts",
    "Verif.c19_history",
    "Verif.c19_published"
   ],
   "note": ""
  },
  {
   "property": "C20",
   "status": "proved",
   "theorems": [
    "Verif.c20_merkle",
    "Verif.c20_sparse",
    "Verif.c20_merkle_batch",
    "Verif.c20_sparse_batch"
   ],
   "note": "Plain map, Merkle and sparse backends; one transaction and whole batches."
  },
  {
   "property": "C21",
   "status": "proved",
   "theorems": [
    "Verif.c21_root",
    "Verif.c21_same_contents",
    "Verif.c21_contents"
   ],
   "note": "Any history of storage operations."
  },
  {
   "property": "C22",
   "status": "proved",
   "theorems": [
    "Verif.c22_proof_verifies"
   ],
   "note": "Any history, present and absent keys."
  },
  {
   "property": "C23",
   "status": "proved",
   "theorems": [
    "Verif.c23_accepted_true",
    "Verif.c23_length"
   ],
   "note": "Collision freeness only on the inputs hashed by the check and on the true path."
  },
  {
   "property": "C24",
   "status": "proved",
   "theorems": [
    "Verif.c24_new_root",
    "Verif.c24_success_iff"
   ],
   "note": ""
  },
  {
   "property": "C25",
   "status": "proved",
   "theorems": [
    "Verif.c25_storage",
    "Verif.c25_state"
   ],
   "note": ""
  },
  {
   "property": "C26",
   "status": "proved",
   "theorems": [
    "Verif.c26_recover",
    "Verif.c26_accepts_iff",
    "Verif.c26_junk"
   ],
   "note": ""
  },
  {
   "property": "C27",
   "status": "proved",
   "theorems": [
    "Verif.c27_stf_sound"
   ],
   "note": ""
  },
  {
   "property": "C28",
   "status": "proved",
   "theorems": [
    "Verif.c28_stf_complete"
   ],
   "note": ""
  },
  {
   "property": "C29",
   "status": "proved",
   "theorems": [
    "Verif.c29_accepts_iff",
    "Verif.c29_one_run",
    "Verif.c29_end_to_end"
   ],
   "note": ""
  },
  {
   "property": "C30",
   "status": "proved",
   "theorems": [
    "Verif.c30_split",
    "Verif.c30_same",
    "Verif.c30_merge_false"
   ],
   "note": "c30_merge_false shows that the converse of c30_split needs a condition on timestamps."
  },
  {
   "property": "C31",
   "status": "proved",
   "theorems": [
    "Verif.c31_same_kind",
    "Verif.c31_unambiguous",
    "Verif.c31_declaration_needed",
    "Verif.c31_accepted_declared",
    "Verif.c31_signed_bytes",
    "Verif.c31_not_a_verification"
   ],
   "note": "Binary (protobuf) format. The JSON rendering is an uninterpreted function of the environment."
  },
  {
   "property": "C32",
   "status": "proved",
   "theorems": [
    "Verif.c32_identity",
    "Verif.c32_one_identity",
    "Verif.c32_slot_clash"
   ],
   "note": "Collision freedom is assumed only for the two signed strings compared."
  },
  {
   "property": "C33",
   "status": "proved",
   "theorems": [
    "Verif.c33_words"
   ],
   "note": ""
  },
  {
   "property": "C34",
   "status": "proved",
   "theorems": [
    "Verif.c34_step",
    "Verif.c34_only_step_or_fork",
    "Verif.c34_fork",
    "Verif.c34_history",
    "Verif.c34_roots_set",
    "Verif.c34_timestamps"
   ],
   "note": "L1 model of SuccinctVApp with all modelled contracts in one world; timestamps for non-decreasing 64-bit clocks"
  },
  {
   "property": "C35",
   "status": "proved",
   "theorems": [
    "Verif.c35_history",
    "Verif.c35_step"
   ],
   "note": "table of transactions and receipts determined by the logs of queued transactions and accepted receipts"
  },
  {
   "property": "C36",
   "status": "proved",
   "theorems": [
    "Verif.c36_step",
    "Verif.c36_owner",
    "Verif.c36_createProver",
    "Verif.c36_paused",
    "Verif.c36_others",
    "Verif.c36_history"
   ],
   "note": ""
  },
  {
   "property": "C37",
   "status": "proved",
   "theorems": [
    "Verif.c37_exact",
    "Verif.c37_solvent",
    "Verif.c37_payable",
    "Verif.c37_paid"
   ],
   "note": "For every history from genesis in which no fork is accepted and every accepted step carries the output of the STF program (or of an aggregation of its outputs): contract balance = rollup balances + pending deposits + strays (tokens sent to the contract other than by deposits), exactly; each withdrawal receipt finds enough tokens, and its payment succeeds (for a prover payee unless the iPROVE supply cap is hit). Side conditions as in C27 (no collision among the strings hashed, no zero leaf hash)."
  },
  {
   "property": "C38",
   "status": "proved",
   "theorems": [
    "Verif.c38_escrow",
    "Verif.c38_finish"
   ],
   "note": ""
  },
  {
   "property": "C39",
   "status": "proved",
   "theorems": [
    "Verif.c39_backed",
    "Verif.c39_attached",
    "Verif.c39_nontransferable",
    "Verif.c39_stable"
   ],
   "note": ""
  },
  {
   "property": "C40",
   "status": "proved",
   "theorems": [
    "Verif.c40_finish",
    "Verif.c40_request",
    "Verif.c40_only",
    "Verif.c40_history"
   ],
   "note": ""
  },
  {
   "property": "C41",
   "status": "partial",
   "theorems": [
    "Verif.c41_false",
    "Verif.c41_factor_partial",
    "Verif.c41_worth_falls_partial"
   ],
   "note": "The property is false of the code: c41_false is a reachable counterexample (a completely slashed pool gets its factor back at the next unstake request while old claims are open). What holds, as long as the pool's factor and escrow do not reach 0, is in the _partial theorems."
  },
  {
   "property": "C42",
   "status": "proved",
   "theorems": [
    "Verif.c42_finishSlash",
    "Verif.c42_proportional"
   ],
   "note": "$iPROVE burnt exactly min(requested, vault + escrow); exact amounts of $PROVE burnt with it"
  },
  {
   "property": "C43",
   "status": "proved",
   "theorems": [
    "Verif.c43_count",
    "Verif.c43_gate",
    "Verif.c43_resolved_refused",
    "Verif.c43_resolves",
    "Verif.c43_request",
    "Verif.c43_once",
    "Verif.c43_cancel_deadline"
   ],
   "note": ""
  },
  {
   "property": "C44",
   "status": "proved",
   "theorems": [
    "Verif.c44_budget",
    "Verif.c44_dispense"
   ],
   "note": "histories with non-decreasing block times"
  },
  {
   "property": "C45",
   "status": "proved",
   "theorems": [
    "Verif.c45_registry",
    "Verif.c45_one_per_owner",
    "Verif.c45_create",
    "Verif.c45_permanent",
    "Verif.c45_inactive_refused"
   ],
   "note": ""
  },
  {
   "property": "C46",
   "status": "proved",
   "theorems": [
    "Verif.c46_convert",
    "Verif.c46_zero",
    "Verif.c46_ceiling",
    "Verif.c46_conservative",
    "Verif.c46_monotone"
   ],
   "note": "Integer part of the pricing helpers; the f64 parsing of the dollar amount (parse_usd_micros) is C85."
  },
  {
   "property": "C47",
   "status": "proved",
   "theorems": [
    "Verif.c47_largest",
    "Verif.c47_no_tick",
    "Verif.c47_idempotent",
    "Verif.c47_monotone"
   ],
   "note": "Tick rounding returns the largest tick not above the price."
  },
  {
   "property": "C48",
   "status": "proved",
   "theorems": [
    "Verif.c48_partition",
    "Verif.c48_reassembles",
    "Verif.c48_terminates",
    "Verif.c48_plan",
    "Verif.c48_whole",
    "Verif.c48_short_body_unnoticed"
   ],
   "note": "Every interleaving of the range tasks, for honest range servers; c48_short_body_unnoticed records that a short body is not detected."
  },
  {
   "property": "C49",
   "status": "partial",
   "theorems": [
    "Verif.c49_false",
    "Verif.c49_bound_partial"
   ],
   "note": "False as stated: 5 chunks at concurrency 3 start 5 tasks. Proved: never more than 2c-1 tasks."
  },
  {
   "property": "C50",
   "status": "proved",
   "theorems": [
    "Verif.c50_download_raw",
    "Verif.c50_bounds"
   ],
   "note": "Retry loop of the raw download, for every answer sequence."
  },
  {
   "property": "C51",
   "status": "proved",
   "theorems": [
    "Verif.c51_key_injective",
    "Verif.c51_name",
    "Verif.c51_total"
   ],
   "note": "Artifact keys and URI name extraction."
  },
  {
   "property": "C52",
   "status": "proved",
   "theorems": [
    "Verif.Node.c52_bids",
    "Verif.Node.c52_once",
    "Verif.Node.c52_does_bid",
    "Verif.Node.c52_bounded"
   ],
   "note": "Every behaviour of the network, the clock and the other tasks (an arbitrary answer function); the f64 expression for the required time is a parameter."
  },
  {
   "property": "C53",
   "status": "partial",
   "theorems": [
    "Verif.Node.c53_false",
    "Verif.Node.c53_round_partial",
    "Verif.Node.c53_all_answered_partial",
    "Verif.Node.c53_abandoned",
    "Verif.Node.c53_unexecutable",
    "Verif.Node.c53_counted_were_generated",
    "Verif.Node.c53_metrics"
   ],
   "note": "False as stated: a failed download, an unspecified mode or a proof that cannot be serialised ends the round without any submission (c53_false). Proved: requests are answered in order until one is abandoned, every request is answered when downloads succeed and modes are specified, and metrics count exactly the generated proofs."
  },
  {
   "property": "C54",
   "status": "proved",
   "theorems": [
    "Verif.Retry.c54_policy",
    "Verif.Retry.c54_first_call",
    "Verif.Retry.c54_bounded"
   ],
   "note": "The external crate backoff is modelled as documented."
  },
  {
   "property": "C55",
   "status": "proved",
   "theorems": [
    "Verif.c55_roundtrip",
    "Verif.c55_injective"
   ],
   "note": ""
  },
  {
   "property": "C56",
   "status": "proved",
   "theorems": [
    "Verif.c56_deposit",
    "Verif.c56_create_prover",
    "Verif.c56_transfer",
    "Verif.c56_transfer_revert",
    "Verif.c56_withdraw",
    "Verif.c56_withdraw_revert",
    "Verif.c56_delegate",
    "Verif.c56_delegate_revert",
    "Verif.c56_clear",
    "Verif.c56_clear_revert"
   ],
   "note": "necessary and sufficient conditions for success and for a charged revert, for every transaction kind"
  },
  {
   "property": "C57",
   "status": "proved",
   "theorems": [
    "Verif.c57_authority",
    "Verif.c57_settings",
    "Verif.c57_history"
   ],
   "note": "for every call and every history"
  },
  {
   "property": "C58",
   "status": "proved",
   "theorems": [
    "Verif.c58_price",
    "Verif.c58_vault",
    "Verif.c58_leaves",
    "Verif.c58_staked"
   ],
   "note": "prices as (assets+1)/(shares+1), compared by cross-multiplication, over every history from a reachable world"
  },
  {
   "property": "C59",
   "status": "proved",
   "theorems": [
    "Verif.c59_stake",
    "Verif.c59_no_profit"
   ],
   "note": "complete effect of a successful stake"
  },
  {
   "property": "C60",
   "status": "proved",
   "theorems": [
    "Verif.c60_sums",
    "Verif.c60_supply"
   ],
   "note": "supplies are sums of balances, and every change of supply is classified"
  },
  {
   "property": "C61",
   "status": "proved",
   "theorems": [
    "Verif.c61_consent"
   ],
   "note": "consent is the inductive relation Takes in L1Moves"
  },
  {
   "property": "C62",
   "status": "proved",
   "theorems": [
    "Verif.c62_pending",
    "Verif.c62_total"
   ],
   "note": "with the exact rounding slack: number of claims minus one"
  },
  {
   "property": "C63",
   "status": "proved",
   "theorems": [
    "Verif.c63_stake",
    "Verif.c63_permitAndStake",
    "Verif.c63_requestUnstake",
    "Verif.c63_finishUnstake",
    "Verif.c63_requestSlash",
    "Verif.c63_cancelSlash",
    "Verif.c63_finishSlash",
    "Verif.c63_dispense",
    "Verif.c63_updateDispenseRate"
   ],
   "note": "if and only if; Ordinary (L1Size) = at most 2^64 calls, times and unstake period below 2^64, $PROVE supply below 2^160"
  },
  {
   "property": "C64",
   "status": "proved",
   "theorems": [
    "Verif.c64_deposit",
    "Verif.c64_permitAndDeposit",
    "Verif.c64_createProver",
    "Verif.c64_fork",
    "Verif.c64_step"
   ],
   "note": "if and only if, in every world"
  },
  {
   "property": "C65",
   "status": "proved",
   "theorems": [
    "Verif.c65_honest_step"
   ],
   "note": "For genuine histories (as in C37) with Stays (the vApp owner never points the vApp at another staking contract) and the $PROVE supply below 2^160; the state s is given by the proof and is reached from the first state by executed transactions. Also assumed: no message recovers to the zero address (NoZeroSigner), the new root is not zero, ids and block numbers are not exhausted."
  },
  {
   "property": "C66",
   "status": "proved",
   "theorems": [
    "Verif.c66_finish",
    "Verif.c66_request"
   ],
   "note": "For ordinary histories (as in C63). New slash requests can be made for ever by an upgraded vApp; each can be cancelled when its time is over."
  },
  {
   "property": "C67",
   "status": "proved",
   "theorems": [
    "Verif.c67_provers"
   ],
   "note": "Same histories as C65."
  },
  {
   "property": "C68",
   "status": "proved",
   "theorems": [
    "Verif.c68_custody",
    "Verif.c68_silent",
    "Verif.c68_paid"
   ],
   "note": "For genuine histories (as in C37). What a withdrawal takes is counted by its receipt; a prover's account can be withdrawn by anybody, to the prover only (C08)."
  },
  {
   "property": "C69",
   "status": "proved",
   "theorems": [
    "Verif.c69_progress",
    "Verif.c65_honest_step"
   ],
   "note": "For genuine histories (as in C37) in which the vApp keeps its staking contract, ids and block numbers not exhausted, supply below 2^160. Gas limits are not modelled. Payment to a prover goes into its vault (C39)."
  },
  {
   "property": "C70",
   "status": "proved",
   "theorems": [
    "Verif.c70_once",
    "Verif.c70_valid",
    "Verif.c70_cost",
    "Verif.c70_frontrun_deposit",
    "Verif.c70_frontrun_stake",
    "Verif.c70_refines"
   ],
   "note": "ERC20Permit and Nonces as documented for OpenZeppelin v5 (the library is an empty submodule); signature recovery is a parameter. c70_cost is about accounts outside the system and $PROVE."
  },
  {
   "property": "C71",
   "status": "proved",
   "theorems": [
    "Verif.c71_accepted",
    "Verif.c71_genesis",
    "Verif.c71_once",
    "Verif.c71_upgrade",
    "Verif.c71_life",
    "Verif.c71_window"
   ],
   "note": "Contract addresses are those of the configuration (CREATE2); the address computations are not modelled. After an accepted upgrade nothing is claimed."
  },
  {
   "property": "C72",
   "status": "proved",
   "theorems": [
    "Verif.c72_votes",
    "Verif.c72_supply",
    "Verif.c72_owner",
    "Verif.c72_tally",
    "Verif.c72_vote_accepted",
    "Verif.c72_cancel_accepted",
    "Verif.c72_proposer",
    "Verif.c72_passed_iff",
    "Verif.c72_executed",
    "Verif.c72_control",
    "Verif.c72_slash_window",
    "Verif.c72_settings",
    "Verif.c72_unblocked",
    "Verif.c72_snapshot"
   ],
   "note": "Governor, GovernorCountingSimple, GovernorVotesQuorumFraction, GovernorSettings, Votes and Checkpoints as published in OpenZeppelin v5.2.0 (empty submodules here). Proposal ids are a parameter; actions outside the modelled contracts do nothing to the modelled state; block times do not decrease."
  },
  {
   "property": "C73",
   "status": "proved",
   "theorems": [
    "Verif.Node.c73_runs_on",
    "Verif.Node.c73_stops",
    "Verif.Node.c73_one_request"
   ],
   "note": "Passes and monitor results are arbitrary; tokio's select and join are modelled as in lib.rs:113-168. A proving pass ends the node by a panic (unreachable!) on a request of unspecified mode."
  },
  {
   "property": "C74",
   "status": "proved",
   "theorems": [
    "Verif.Node.c74_registry",
    "Verif.Node.c74_attempted",
    "Verif.Node.c74_forever",
    "Verif.Node.c74_abort",
    "Verif.Node.c74_aborted",
    "Verif.Node.c74_first_prover_only"
   ],
   "note": "The registry is shared between tasks; what the prover sees of it at a point is the registry after an arbitrary number of passes, which grows. Abort takes effect at await points."
  },
  {
   "property": "C75",
   "status": "proved",
   "theorems": [
    "Verif.Node.c75_settles",
    "Verif.Node.c75_core_unpaid"
   ],
   "note": "Joins the node model and the ledger model. The other parties' messages and the signature scheme are hypotheses, met by a concrete run of both."
  },
  {
   "property": "C76",
   "status": "partial",
   "theorems": [
    "Verif.Node.c76_false",
    "Verif.Node.c76_paid_partial",
    "Verif.Node.c76_factor"
   ],
   "note": "False as documented: the payment is the documented one divided by 10^9. Proved: what is paid for every integral bid up to 2^52, from the text of the flag on, and the factor. Other bids: C92."
  },
  {
   "property": "C77",
   "status": "partial",
   "theorems": [
    "Verif.Cli.c77_false",
    "Verif.Cli.c77_parity_partial",
    "Verif.Cli.c77_square",
    "Verif.Cli.c77_divided",
    "Verif.Cli.c77_throughput"
   ],
   "note": "False unless a $PROVE is worth one USD. Proved over the rationals: earnings are the target times the square of the price; dividing instead of multiplying would be right. f64 rounding: C93."
  },
  {
   "property": "C78",
   "status": "proved",
   "theorems": [
    "Verif.c78_upload",
    "Verif.c78_read_back",
    "Verif.c78_typed",
    "Verif.c78_real",
    "Verif.c78_frame"
   ],
   "note": "The store is modelled as S3 documents it: puts are atomic and reads see them. bincode is a pair of functions of which the decoder undoes the encoder (hypothesis)."
  },
  {
   "property": "C79",
   "status": "partial",
   "theorems": [
    "Verif.c79_false",
    "Verif.c79_kept_partial",
    "Verif.c79_copied"
   ],
   "note": "False as documented when the first request fails or in a race with another writer. Proved: the artifact is kept if the first request is served and nobody else stores it; what a copy leaves in every case without other writers."
  },
  {
   "property": "C80",
   "status": "partial",
   "theorems": [
    "Verif.c80_false",
    "Verif.c80_chunks_partial",
    "Verif.c80_unchanged_partial"
   ],
   "note": "False if the object is replaced during the download. Proved: each chunk is from a version the object had, all versions having the length first seen; an object that is not replaced is returned."
  },
  {
   "property": "C81",
   "status": "partial",
   "theorems": [
    "Verif.c81_false",
    "Verif.c81_named_partial",
    "Verif.c81_path_ignored"
   ],
   "note": "False for paths that are not those the client makes. Proved: which object is read for every URI. The URL parser is a parameter."
  },
  {
   "property": "C82",
   "status": "proved",
   "theorems": [
    "Verif.c82_stays_acceptable",
    "Verif.c82_same_effect"
   ],
   "note": "Balances are assumed to sum to less than 2^256 before and after, which c17_reachable gives for every history whose deposits do."
  },
  {
   "property": "C83",
   "status": "proved",
   "theorems": [
    "Verif.c83_any_order"
   ],
   "note": "Equality of whole ledgers (accounts, processed flags, cursors)."
  },
  {
   "property": "C84",
   "status": "proved",
   "theorems": [
    "Verif.c84_any_cut",
    "Verif.c84_same_result"
   ],
   "note": "The second theorem assumes collision-freeness of keccak on the inputs at hand, as C26 does."
  },
  {
   "property": "C85",
   "status": "proved",
   "theorems": [
    "Verif.c85_exact",
    "Verif.c85_close",
    "Verif.c85_accepts",
    "Verif.c85_refuses",
    "Verif.c85_monotone",
    "Verif.c85_reading",
    "Verif.c85_nearest_false"
   ],
   "note": "The comment of the code, rounded to the nearest micro-dollar, holds only up to the precision of f64: c85_nearest_false."
  },
  {
   "property": "C86",
   "status": "proved",
   "theorems": [
    "Verif.Node.c86_in_time",
    "Verif.Node.c86_does_bid",
    "Verif.Node.c86_degenerate",
    "Verif.Node.c86_bids_on_all"
   ],
   "note": "The estimate truncates to whole seconds, hence the one second more."
  },
  {
   "property": "C87",
   "status": "proved",
   "theorems": [
    "Verif.c87_separator",
    "Verif.c87_names",
    "Verif.c87_distinct",
    "Verif.c87_one_network",
    "Verif.c87_node"
   ],
   "note": "Assumes that keccak has no collision among the six inputs from which the two separators are made."
  },
  {
   "property": "C88",
   "status": "proved",
   "theorems": [
    "Verif.c88_json",
    "Verif.c88_formats",
    "Verif.c88_not_a_verification",
    "Verif.c88_personal",
    "Verif.c88_signed",
    "Verif.c88_ratio"
   ],
   "note": "The rendering of finite f32 numbers is a parameter, assumed injective and without commas and closing braces (structure Ryu); c88_ratio shows that the exception is real."
  },
  {
   "property": "C89",
   "status": "proved",
   "theorems": [
    "Verif.Amount.c89_parse",
    "Verif.Amount.c89_refused",
    "Verif.Amount.c89_unique",
    "Verif.Amount.c89_decimal",
    "Verif.Amount.c89_plain",
    "Verif.Amount.c89_transfer",
    "Verif.Amount.c89_withdraw",
    "Verif.Amount.c89_clear",
    "Verif.Amount.c89_node"
   ],
   "note": "ruint's FromStr is modelled as we read it (external crate). An empty text stands for zero."
  },
  {
   "property": "C90",
   "status": "proved",
   "theorems": [
    "Verif.c90_covered",
    "Verif.c90_worth",
    "Verif.c90_payout",
    "Verif.c90_pending",
    "Verif.c90_back",
    "Verif.c90_round_trip",
    "Verif.c90_stake"
   ],
   "note": "The condition on slashes is needed: c41_false and the example on w6 show a wiped pool that does not cover its claims."
  },
  {
   "property": "C91",
   "status": "proved",
   "theorems": [
    "Verif.c91_round_trip",
    "Verif.c91_passed_on",
    "Verif.c91_order",
    "Verif.c91_last",
    "Verif.c91_merged",
    "Verif.c91_accepted",
    "Verif.c91_refused",
    "Verif.c91_unknown",
    "Verif.c91_cut"
   ],
   "note": "The decoder derived by prost is modelled down to keys, varints, groups and UTF-8; the messages of the tests in signing.rs are read and written back byte for byte."
  },
  {
   "property": "C92",
   "status": "proved",
   "theorems": [
    "Verif.Cli.c92_exact",
    "Verif.Cli.c92_close",
    "Verif.Cli.c92_monotone",
    "Verif.Cli.c92_accepts",
    "Verif.Cli.c92_refuses",
    "Verif.Cli.c92_nearest_false"
   ],
   "note": "From the text to the integer: f64::from_str and the conversion of ruint 1.17.0 as published."
  },
  {
   "property": "C93",
   "status": "proved",
   "theorems": [
    "Verif.Calibrate.c93_formula",
    "Verif.Calibrate.c93_target",
    "Verif.Calibrate.c93_no_gas"
   ],
   "note": "All operations of the calibrator over doubles, up to the printing with two decimals."
  },
  {
   "property": "C94",
   "status": "proved",
   "theorems": [
    "Verif.Prime.c94_committed"
   ],
   "note": "The whole program, with the wrapping arithmetic of a release build; reading the input and committing are the SDK's."
  },
  {
   "property": "C95",
   "status": "proved",
   "theorems": [
    "Verif.c95_deployed",
    "Verif.c95_one_network",
    "Verif.c95_only_empty",
    "Verif.c95_first_step",
    "Verif.c95_history"
   ],
   "note": "With Keccak-256 itself, evaluated by the kernel. c95_deployed and c95_one_network assume nothing about it; c95_only_empty, c95_first_step and c95_history assume no collision among the inputs hashed in the computations at hand, as C25, C27 and C37 do."
  },
  {
   "property": "C96",
   "status": "proved",
   "theorems": [
    "Verif.c96_log_tells",
    "Verif.c96_same_contract",
    "Verif.c96_reverted",
    "Verif.c96_from_deployment"
   ],
   "note": "The functions with events (Events.lean) are shown to accept and do the same as those of the contract model (c96_same_contract). Not in the log or the record: events of the tokens and proxies, and the account in Paused and Unpaused."
  },
  {
   "property": "C97",
   "status": "proved",
   "theorems": [
    "Verif.c97_fits",
    "Verif.c97_numbers",
    "Verif.c97_queued_first",
    "Verif.c97_slash_once"
   ],
   "note": "Seen.fits lists, for each event, what the earlier ones imply about it. A TransactionReverted with number 2^64-1 stands for a transaction that is not in the queue; it is excluded where numbers are counted."
  },
  {
   "property": "C98",
   "status": "proved",
   "theorems": [
    "Verif.c98_balances",
    "Verif.c98_supply"
   ],
   "note": "For $PROVE. For the $iPROVE amounts see C99."
  },
  {
   "property": "C99",
   "status": "proved",
   "theorems": [
    "Verif.c99_backing",
    "Verif.c99_backing_least",
    "Verif.c99_escrow",
    "Verif.c99_escrow_most",
    "Verif.c99_from_deployment"
   ],
   "note": "For every address but that of the staking contract itself, which holds all escrows. A Withdraw event that pays a prover carries no $iPROVE amount, and a Slash event does not say how it is split between vault and escrow; hence the two inequalities."
  },
  {
   "property": "C100",
   "status": "proved",
   "theorems": [
    "Verif.Metrics.c100_clean_end",
    "Verif.Metrics.c100_error",
    "Verif.Metrics.c100_no_early_stop",
    "Verif.Metrics.c100_closed",
    "Verif.Metrics.c100_bounded",
    "Verif.Metrics.c100_progress",
    "Verif.Metrics.c100_can_finish"
   ],
   "note": "axum's graceful shutdown is used as documented; requests are units that are accepted and answered."
  },
  {
   "property": "C101",
   "status": "partial",
   "theorems": [
    "Verif.Capture.c101_report",
    "Verif.Capture.c101_alone_partial",
    "Verif.Capture.c101_false",
    "Verif.Capture.c101_once",
    "Verif.Capture.c101_abort"
   ],
   "note": "The first half is false of the code: an older capture that goes out of scope removes the hook of a younger one (c101_false), and a panic in a scope that holds a capture ends the process (c101_abort). c101_report says exactly what a report contains in every history; c101_alone_partial is the claim for a capture that no other one disturbs; c101_once is the second half."
  },
  {
   "property": "C102",
   "status": "partial",
   "theorems": [
    "Verif.Metrics.c102_ready_false",
    "Verif.Metrics.c102_ready_partial"
   ],
   "note": "False of the code: the signal is sent after the task that binds the address was spawned, not after it has run; the bind may then fail. What holds is that the recorder is installed."
  },
  {
   "property": "C103",
   "status": "partial",
   "theorems": [
    "Verif.c103_passes",
    "Verif.c103_same",
    "Verif.c103_sound_partial",
    "Verif.c103_false",
    "Verif.c103_later"
   ],
   "note": "False of the code for one field: the check does not compare the governor that the staking contract stores, so whoever initialises the proxy with the intended arguments and another governor passes it (c103_false). c103_sound_partial: everything else is as intended. In between, only initialisations of the staking proxy are modelled; an example shows that a stranger who also sets a dispense rate and hands the ownership over passes the check too."
  },
  {
   "property": "C104",
   "status": "proved",
   "theorems": [
    "Verif.c104_panic",
    "Verif.c104_cursor",
    "Verif.c104_balances",
    "Verif.c104_no_money"
   ],
   "note": "Examples: a clear with a malformed treasury burns what the requester was charged, a delegation to a malformed address keeps the fee, a rejected transfer uses up its identity, a deposit that does not fit moves the cursor. The callers treat panics as fatal."
  },
  {
   "property": "C105",
   "status": "partial",
   "theorems": [
    "Verif.c105_terms_partial",
    "Verif.c105_false",
    "Verif.c105_ignored"
   ],
   "note": "False of the code: for every deadline and every time there is a run of the state transition program at that time that pays for a request with that deadline (c105_false), and the deadline, cycle limit, strategy, minimum auction period, inputs and nonce never change what a clear does (c105_ignored). The other terms are honoured (c105_terms_partial)."
  },
  {
   "property": "C106",
   "status": "partial",
   "theorems": [
    "Verif.c106_undisturbed_partial",
    "Verif.c106_money_partial",
    "Verif.c106_false",
    "Verif.c106_front_run",
    "Verif.c106_rerun",
    "Verif.c106_plan"
   ],
   "note": "False of the code: the address of a prover depends on the number of provers, so a prover that anyone creates between the two phases makes the planned stake fail for good (c106_front_run), while the account's own prover is created, after which the script always fails (c106_rerun); c106_false is such a history. Proved: exactly when the first phase goes through (c106_plan), the full result if nobody interferes (c106_undisturbed_partial), and the bound on the cost whatever others do, for an account that has approved nobody before (c106_money_partial). Forge's two phases are modelled from its documentation."
  },
  {
   "property": "C107",
   "status": "partial",
   "theorems": [
    "Verif.Setup.c107_starts",
    "Verif.Setup.c107_node",
    "Verif.Setup.c107_false",
    "Verif.Setup.c107_price_partial",
    "Verif.Setup.c107_in_time"
   ],
   "note": "False of the code: the script connects to the RPC of Sepolia, but the node signs for mainnet, so no ledger of Sepolia takes its messages (c107_false; that this RPC serves the ledger of the Sepolia domain is an assumption, it is not in the repository). On a ledger of mainnet the node is paid one of the smallest units for each unit of gas (c107_price_partial), a billionth of 1.01 $PROVE per billion units (and without the .01). Proved: which answers the script takes (c107_starts), the configuration of the node (c107_node), bids only on what can be proved in time (c107_in_time)."
  },
  {
   "property": "C108",
   "status": "partial",
   "theorems": [
    "Verif.c108_native",
    "Verif.c108_attested",
    "Verif.c108_fulfilment",
    "Verif.c108_false"
   ],
   "note": "False of the code in one respect: PROTOCOL.md says that compressed proofs do not rely on the verifier, but the ledger checks only those of versions that start with sp1-v6 (c108_native); a compressed request of version 5 is paid although no proof is valid (c108_false). The rest holds: c108_attested, c108_fulfilment."
  },
  {
   "property": "C109",
   "status": "partial",
   "theorems": [
    "Verif.c109_report",
    "Verif.c109_punish",
    "Verif.c109_false"
   ],
   "note": "The first two sentences hold (c109_report, c109_punish). The third, from PROTOCOL.md, is false: if the reported gas exceeds the limit, the clear goes through only as unexecutable, and nobody but the treasury gets anything (c109_false)."
  },
  {
   "property": "C110",
   "status": "partial",
   "theorems": [
    "Verif.c110_false",
    "Verif.c110_all_partial"
   ],
   "note": "PROTOCOL.md gives the amount 2^256-1 a special meaning that it does not have in the ledger: such a withdrawal never goes through (c110_false). A withdrawal of the balance less the fee leaves nothing (c110_all_partial)."
  },
  {
   "property": "C111",
   "status": "partial",
   "theorems": [
    "Verif.c111_false",
    "Verif.c111_owner_partial"
   ],
   "note": "False of the code: while the auctioneer makes no call and the owner names no other one, no $PROVE leaves the vApp contract, whatever anybody calls (c111_false). What holds: the owner can name another auctioneer at any time (c111_owner_partial), who can then pay out what the ledger owes (C65, C69). An upgrade of the contract is not a call of the model."
  },
  {
   "property": "C112",
   "status": "proved",
   "theorems": [
    "Verif.c112_undisturbed",
    "Verif.c112_works"
   ],
   "note": "The addresses that CREATE2 gives are parameters. Compare C103, the script in several transactions."
  },
  {
   "property": "C113",
   "status": "partial",
   "theorems": [
    "Verif.c113_unstake",
    "Verif.c113_slash",
    "Verif.c113_slash_false",
    "Verif.c113_dispense",
    "Verif.c113_owner"
   ],
   "note": "All three sentences of contracts/DESIGN.md are false of the code. Unstaking touches neither the vApp contract nor adds to any prover's assets (c113_unstake). The owner can finish a slash at once and nobody can cancel it before the period has passed (c113_slash, c113_slash_false). The owner as such cannot dispense (c113_dispense); they can make themselves the dispenser (c113_owner)."
  },
  {
   "property": "C114",
   "status": "partial",
   "theorems": [
    "Verif.c114_exact",
    "Verif.c114_max",
    "Verif.c114_max_false"
   ],
   "note": "The first recipe of contracts/OPERATIONS.md works (c114_exact). The second, dispensing the maximum, goes through only if the contract already held what has accrued since the maximum was read (c114_max), and fails otherwise (c114_max_false). That the accrued amount fits 256 bits is assumed."
  },
  {
   "property": "C115",
   "status": "proved",
   "theorems": [
    "Verif.c115_call",
    "Verif.c115_fund"
   ],
   "note": "In the sense of the model: the modelled contracts make no calls but those in the model (Admissible)."
  },
  {
   "property": "C116",
   "status": "partial",
   "theorems": [
    "Verif.Config.c116_reads",
    "Verif.Config.c116_reads_hash",
    "Verif.Config.c116_atomic_partial",
    "Verif.Config.c116_atomic_false",
    "Verif.Config.c116_handed_on_partial",
    "Verif.Config.c116_handed_on_false",
    "Verif.Config.c116_stuck"
   ],
   "note": "Reading is as stated (c116_reads, c116_reads_hash). The atomic script gets the configured parameters, but drops the upper bits of a voting delay of 2^48 or a voting period of 2^32 seconds and more without failing (c116_atomic_partial, c116_atomic_false). Later scripts use what was deployed unless the environment has an address under the same key (c116_handed_on_partial, c116_handed_on_false). Deploying one by one is impossible from the documented configuration: each of the four scripts needs the address of another one (c116_stuck). Foundry's parsers are parameters."
  },
  {
   "property": "C117",
   "status": "proved",
   "theorems": [
    "Verif.c117_max",
    "Verif.c117_stays",
    "Verif.c117_bound"
   ],
   "note": "Contradicts a comment of contracts/.env.example in part: during the voting delay a staker can withdraw the weight of a prover, but with a voting delay below the unstake period they cannot give it to another one."
  },
  {
   "property": "C118",
   "status": "proved",
   "theorems": [
    "Verif.c118_caught"
   ],
   "note": "Assumes that fewer than 2^256 slash requests are ever made of one prover (each costs a transaction)."
  },
  {
   "property": "C119",
   "status": "proved",
   "theorems": [
    "Verif.c119_spared"
   ],
   "note": "The cancellation follows the request with no call in between: while a slash request is open, staking calls of the prover are refused (C43), so what happens then does differ. Slash calls about the same prover are left out since the indices of later requests shift by one."
  }
 ]
}