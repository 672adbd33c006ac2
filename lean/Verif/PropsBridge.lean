import Verif.Bridge
/-
# C65, C67: L1 contracts and rollup together

C65: an honest step is accepted. C67: the rollup's provers are the finalised ones of L1.

Both speak of *genuine* histories (`PropsSolvency.lean`): calls to the contracts by anybody, no fork, and every accepted
step carries an output of the STF program or of an aggregation of its outputs.
-/

namespace Verif
open L1

/-! ## The invariant -/

/-- A queued creation is that of a registered prover. -/
def QueuedOk (w : World) (q : TxVariant × Bytes) : Prop :=
  q.1 = .createProver → ∃ d : CreateProver, q.2 = d.abi ∧ d.owner ≠ 0 ∧ d.stakerFeeBips.toNat ≤ 10000 ∧
    w.staking.provers d.prover = true ∧ ∃ n, w.info d.prover = ⟨d.owner, n, d.stakerFeeBips.toNat⟩

/-- How the rollup state `s` and the contracts fit together. -/
def Linked (cfg : Cfg) (w : World) (s : FullState) : Prop :=
  w.vapp.staking = cfg.staking ∧
  s.sc.onchainTxId = w.vapp.finalizedOnchainTxId + 1 ∧
  ∃ Q F, QueueOk w Q F ∧ (∀ q ∈ Q, QueuedOk w q) ∧
    (∀ a, s.plain.owner a ≠ 0 → ∃ (j : Nat) (d : CreateProver), j < F.length ∧ Q[j]? = some (.createProver, d.abi) ∧
      d.prover = a ∧ s.plain.owner a = d.owner ∧ s.plain.bips a = d.stakerFeeBips) ∧
    (∀ (j : Nat) (d : CreateProver), j < F.length → Q[j]? = some (.createProver, d.abi) →
      s.plain.owner d.prover = d.owner ∧ s.plain.bips d.prover = d.stakerFeeBips)

theorem createProver_abi_inj {c d : CreateProver} (h : c.abi = d.abi) : c = d := by
  have h1 := decCreateProver_abi c
  rw [h, decCreateProver_abi] at h1
  cases c; cases d
  simp only [Option.some.injEq, Prod.mk.injEq] at h1
  simp only [CreateProver.mk.injEq]
  exact ⟨h1.1.symm, h1.2.1.symm, h1.2.2.symm⟩

theorem QueuedOk.grows {w w' : World} {q : TxVariant × Bytes} (h : QueuedOk w q) (g : RegistryGrows w w') : QueuedOk w' q := by
  intro e
  obtain ⟨d, h1, h2, h3, h4, n, h5⟩ := h e
  obtain ⟨g1, g2⟩ := g.1 _ h4
  exact ⟨d, h1, h2, h3, g1, n, g2.trans h5⟩

theorem exec_grows {cfg : Cfg} {c : Ctx} {k : Call} {w w' : World} (h : exec cfg c k w = .ok ((), w')) : RegistryGrows w w' := by
  have := c45_permanent (cfg := cfg) w [(c, k)]
  have e : runCalls cfg w [(c, k)] = w' := by
    rw [runCalls_cons, runCalls_nil]
    show call cfg c k w = w'
    unfold call; rw [h]
  rwa [e] at this

/-- The owner of the vApp contract does not point it at another staking contract. -/
def Stays (cfg : Cfg) (k : Call) : Prop := ∀ a, k = .updateStaking a → a = cfg.staking

theorem exec_stays {cfg : Cfg} {c : Ctx} {k : Call} {w w' : World} (h : exec cfg c k w = .ok ((), w')) (hk : Stays cfg k)
    (hw : w.vapp.staking = cfg.staking) : w'.vapp.staking = cfg.staking := by
  rcases exec_vapp_cases h with ⟨_, _, _, _, e⟩ | ⟨v, d, hq, hQ⟩ | ⟨pv, pr, x, rfl, hx⟩ | ⟨a, b, x, rfl, hx⟩ | ⟨hp, _, _⟩
  · rw [e]; exact hw
  · rw [hQ.2]; exact hw
  · obtain ⟨_, _, _, v, h1, _, _, _, _, _, _, _, hr⟩ := vappStep_ok hx
    obtain ⟨⟨f, t, e⟩, _⟩ := handleReceipts_ok hr
    rw [e]; exact hw
  · obtain ⟨_, _, _, _, rfl⟩ := vappFork_ok hx
    exact hw
  · cases k <;> first | (exact nomatch (show false = true from hp)) | skip
    case updateStaking a =>
      simp only [exec, vappUpdateStaking, bind_ok, vappOnlyOwner_ok, modVapp_ok] at h
      obtain ⟨_, _, ⟨h, rfl⟩, rfl⟩ := h
      exact hk a rfl
    case pause =>
      simp only [exec, vappPause, bind_ok, vappOnlyOwner_ok, modVapp_ok, whenNotPaused_ok] at h
      obtain ⟨_, _, ⟨h, rfl⟩, _, _, ⟨_, rfl⟩, rfl⟩ := h
      exact hw
    case unpause =>
      simp only [exec, vappUnpause, bind_ok, vappOnlyOwner_ok, modVapp_ok, require_ok, get_ok] at h
      obtain ⟨_, _, ⟨h, rfl⟩, _, _, ⟨rfl, rfl⟩, _, _, ⟨_, rfl⟩, rfl⟩ := h
      exact hw
    all_goals
      simp only [exec, vappUpdateAuctioneer, vappUpdateVerifier, vappUpdateMinDeposit, vappSetOwner, bind_ok, vappOnlyOwner_ok,
        modVapp_ok] at h
      obtain ⟨_, _, ⟨h, rfl⟩, rfl⟩ := h
      exact hw

theorem Linked.carries {env : Env} {cfg : Cfg} {x : Ctx × Call} (hadm : Admissible cfg x) (hk : Stays cfg x.2) :
    Carries env cfg (Linked cfg) x := by
  obtain ⟨c, k⟩ := x
  intro w w' s hl hx
  obtain ⟨l1, l2, Q, F, l3, l4, l5, l6⟩ := hl
  have hg := exec_grows hx
  have hst := exec_stays hx hk l1
  have hq' := exec_queueOk l3 hx
  have hold : ∀ q ∈ Q, QueuedOk w' q := fun q hq => (l4 q hq).grows hg
  refine ⟨fun hs hf => ?_, fun pv pr v txs rs s' hkk hv hrs hrun => ?_⟩
  · change ∀ pv pr, k ≠ .step pv pr at hs
    change ∀ a b, k ≠ .fork a b at hf
    have hrec : k.receipts = [] := by
      cases k <;> first | rfl | exact absurd rfl (hs _ _)
    have hfin : w'.vapp.finalizedOnchainTxId = w.vapp.finalizedOnchainTxId := by
      rcases exec_vapp_cases hx with ⟨_, _, _, _, e⟩ | ⟨v, d, hq, hQ⟩ | ⟨pv, pr, _, rfl, _⟩ | ⟨a, b, _, rfl, _⟩ | ⟨_, _, e⟩
      · rw [e]
      · rw [hQ.2]
      · exact absurd rfl (hs _ _)
      · exact absurd rfl (hf _ _)
      · exact e.2.2.2.1
    rw [hrec, List.append_nil] at hq'
    have hpre : ∀ (j : Nat) (q : TxVariant × Bytes), j < F.length →
        (Q ++ (k.queues cfg c w).toList)[j]? = some q → Q[j]? = some q := by
      intro j q hj e
      have := l3.2.2.1
      rwa [List.getElem?_append_left (by omega)] at e
    refine ⟨hst, by rw [hfin]; exact l2, _, F, hq', fun q hq => ?_, fun a ha => ?_, fun j d hj e => l6 j d hj (hpre j _ hj e)⟩
    · rcases List.mem_append.mp hq with hq | hq
      · exact hold q hq
      · intro e
        cases k <;> simp only [Call.queues, Option.toList_none, Option.toList_some, List.not_mem_nil, List.mem_singleton] at hq
        case deposit => rw [hq] at e; exact nomatch e
        case permitAndDeposit => rw [hq] at e; exact nomatch e
        case vappCreateProver p o f =>
          obtain ⟨_, hy⟩ := drop_ok.mp hx
          obtain ⟨h1, _⟩ := vappCreateProver_ok hy
          rw [l1] at h1
          exact absurd (Or.inr (Or.inr (Or.inl h1))) hadm
        case createProver f =>
          obtain ⟨p, hy⟩ := drop_ok.mp hx
          obtain ⟨h1, _, h3, rfl, _, _, _, _, _, t, _, rfl⟩ := createProver_ok hy
          rw [hq]
          exact ⟨_, rfl, h3, h1, upd_same _ _ _, _, upd_same _ _ _⟩
    · obtain ⟨j, d, hj, e, h1⟩ := l5 a ha
      refine ⟨j, d, hj, ?_, h1⟩
      have := l3.2.2.1
      rw [List.getElem?_append_left (by omega)]; exact e
  · change k = .step pv pr at hkk
    subst hkk
    have hplain := runTxs_merkle env txs s
    rw [hrun] at hplain
    simp only [Option.map_some] at hplain
    have hdone := (runTxs_flow env _ _ _ _ hplain).1
    have hb := runTxs_batch env _ _ _ _ hplain
    obtain ⟨_, hy⟩ := drop_ok.mp hx
    obtain ⟨_, _, _, v', g1, _, _, _, _, _, _, _, hh⟩ := vappStep_ok hy
    obtain rfl : v' = v := Option.some.inj (g1.symm.trans hv)
    rw [hrs] at hh
    have hids := handleReceipts_ids rs hdone hh
    have hmap := onchainOf_map hids
    obtain ⟨v'', g2, hfin, hent⟩ := c35_step hx
    obtain rfl : v'' = v' := Option.some.inj (g2.symm.trans hv)
    rw [hrs, hmap, List.length_map] at hfin
    rw [hrs, hmap] at hent
    have hrcp : (Call.step pv pr).receipts = (rs.filter Receipt.onchain).map Receipt.sol := by
      simp only [Call.receipts, hv]
      rw [hrs, hmap]
    rw [hrcp] at hq'
    simp only [Call.queues, Option.toList_none, List.append_nil] at hq'
    -- the receipt of a creation and its place in the queue
    have hplace : ∀ id st d, Receipt.createProver id st d ∈ rs → ∃ j, F.length ≤ j ∧
        j < (F ++ (rs.filter Receipt.onchain).map Receipt.sol).length ∧ Q[j]? = some (.createProver, d.abi) := by
      intro id st d hm
      obtain ⟨j, hj⟩ := List.getElem?_of_mem (List.mem_filter.mpr ⟨hm, (rfl : Receipt.onchain (.createProver id st d) = true)⟩)
      have hjl : j < (rs.filter Receipt.onchain).length := (List.getElem?_eq_some_iff.mp hj).1
      obtain ⟨_, _, q, hq, e1, e2⟩ := hq'.2.2.2.1 (F.length + j) _ (by
        rw [List.getElem?_append_right (Nat.le_add_right ..), Nat.add_sub_cancel_left, List.getElem?_map, hj]; rfl)
      refine ⟨F.length + j, Nat.le_add_right .., by rw [List.length_append, List.length_map]; omega, ?_⟩
      obtain ⟨d', q1, q2, q3, q4⟩ := l4 q (List.mem_of_getElem? hq) e1
      obtain ⟨x, x1, x2⟩ := e2
      rw [q1, decCreateProver_abi] at x1
      rw [show (Receipt.createProver id st d).sol.action = d.abi from rfl, decCreateProver_abi] at x2
      have : d' = d := by
        cases d; cases d'
        rw [← x2] at x1
        simp only [Option.some.injEq, Prod.mk.injEq] at x1
        simp only [CreateProver.mk.injEq]
        exact x1
      rw [hq, ← this, ← q1]
      have e1' : q.1 = .createProver := e1
      rw [← e1']
    -- owner and fee of a queued creation are determined by the registry
    have huniq : ∀ (i j : Nat) (c d : CreateProver), Q[i]? = some (.createProver, c.abi) → Q[j]? = some (.createProver, d.abi) →
        c.prover = d.prover → c.owner = d.owner ∧ c.stakerFeeBips = d.stakerFeeBips := by
      intro i j c d h1 h2 he
      obtain ⟨c', a1, _, _, _, n, a2⟩ := l4 _ (List.mem_of_getElem? h1) rfl
      obtain ⟨d', b1, _, _, _, m, b2⟩ := l4 _ (List.mem_of_getElem? h2) rfl
      obtain rfl := createProver_abi_inj a1
      obtain rfl := createProver_abi_inj b1
      rw [he, b2] at a2
      simp only [ProverInfo.mk.injEq] at a2
      exact ⟨a2.1.symm, (BitVec.eq_of_toNat_eq a2.2.2).symm⟩
    refine ⟨hst, ?_, Q, _, hq', hold, fun a ha => ?_, fun j d hj e => ?_⟩
    · have hcur := hb.cursor
      change s'.sc.onchainTxId = s.sc.onchainTxId + _ at hcur
      rw [hcur, l2]
      apply BitVec.eq_of_toNat_eq
      simp only [BitVec.toNat_add, BitVec.toNat_ofNat, hfin]
      omega
    · rcases hb.roles a with ⟨e1, e2⟩ | ⟨id, d, h1, h2, h3, h4⟩
      · rw [e1] at ha
        obtain ⟨j, d, hj, e, f1, f2, f3⟩ := l5 a ha
        exact ⟨j, d, by rw [List.length_append]; omega, e, f1, e1.trans f2, e2.trans f3⟩
      · obtain ⟨j, _, hj, e⟩ := hplace _ _ _ h1
        exact ⟨j, d, hj, e, h2, h3, h4⟩
    · by_cases hjF : j < F.length
      · obtain ⟨i1, i2⟩ := l6 j d hjF e
        rcases hb.roles d.prover with ⟨e1, e2⟩ | ⟨id, d', h1, h2, h3, h4⟩
        · exact ⟨e1.trans i1, e2.trans i2⟩
        · obtain ⟨i, _, _, ei⟩ := hplace _ _ _ h1
          obtain ⟨u1, u2⟩ := huniq i j d' d ei e h2
          exact ⟨h3.trans u1, h4.trans u2⟩
      · -- finalised by this step
        rw [List.length_append, List.length_map] at hj
        have hj' : j - F.length < (rs.filter Receipt.onchain).length := by omega
        obtain ⟨r, hr⟩ : ∃ r, (rs.filter Receipt.onchain)[j - F.length]? = some r := ⟨_, List.getElem?_eq_getElem hj'⟩
        have hmem := List.mem_filter.mp (List.mem_of_getElem? hr)
        obtain ⟨_, _, q, hq, e1, e2⟩ := hq'.2.2.2.1 j r.sol (by
          rw [List.getElem?_append_right (by omega), List.getElem?_map, hr]; rfl)
        rw [e] at hq
        obtain rfl := Option.some.inj hq
        have hvar : r.sol.variant = .createProver := e1.symm
        cases r with
        | deposit => exact nomatch hvar
        | withdraw => exact nomatch hvar
        | createProver id st c =>
          obtain ⟨x, x1, x2⟩ := e2
          rw [show (Receipt.createProver id st c).sol.action = c.abi from rfl, decCreateProver_abi] at x2
          rw [show ((TxVariant.createProver, d.abi) : TxVariant × Bytes).2 = d.abi from rfl, decCreateProver_abi] at x1
          have hcd : c = d := by
            cases c; cases d
            rw [← x2] at x1
            simp only [Option.some.injEq, Prod.mk.injEq] at x1
            simp only [CreateProver.mk.injEq]
            exact ⟨x1.1.symm, x1.2.1.symm, x1.2.2.symm⟩
          obtain ⟨id', d', h1, h2, h3, h4⟩ := hb.created _ _ _ hmem.1
          rw [hcd] at h2 h3 h4
          obtain ⟨i, _, _, ei⟩ := hplace _ _ _ h1
          obtain ⟨u1, u2⟩ := huniq i j d' d ei e h2
          exact ⟨h3.trans u1, h4.trans u2⟩

/-! ## C67 -/

/-- The rollup state before the first transaction: no account has an owner, the first on-chain id is 1
(`crates/vapp/src/state.rs:52-66`). -/
structure FreshRollup (s : FullState) : Prop where
  first : s.sc.onchainTxId = 1
  owners : ∀ a, s.plain.owner a = 0

theorem Linked.genesis {cfg : Cfg} {w : World} {s : FullState} (hg : Genesis cfg w) (hs : FreshRollup s) : Linked cfg w s := by
  refine ⟨hg.vapp_params.2.1, by rw [hs.first, hg.vapp_ids.2.2]; rfl, _, _, c35_history hg [], by simp [queueLog],
    fun a ha => absurd (hs.owners a) ha, fun j d hj _ => by simp [receiptLog] at hj⟩

/-- Along a genuine history: the final rollup state, and how it fits the contracts. -/
theorem linked_history {env : Env} {cfg : Cfg} (hc : cfg.WF) {w₀ : World} {s₀ : FullState} (h : List (Ctx × Call))
    (hg : Genesis cfg w₀) (hroot : s₀.root env.keccak = w₀.vapp.roots 0) (ha : ∀ x ∈ h, Admissible cfg x)
    (hgen : Genuine env cfg w₀ s₀ h) (hfresh : FreshRollup s₀) (hst : ∀ x ∈ h, Stays cfg x.2) :
    ∃ (txs : List (Int × Tx)) (rs : List Receipt) (s : FullState), runTxs merkleOps merkleOps env txs s₀ = some (rs, s) ∧
      s.root env.keccak = (runCalls cfg w₀ h).vapp.roots (runCalls cfg w₀ h).vapp.blockNumber ∧
      Linked cfg (runCalls cfg w₀ h) s ∧
      (runCalls cfg w₀ h).prove.bal cfg.vapp + s₀.plain.total =
        s.plain.total + (runCalls cfg w₀ h).pendingDeposits + strays cfg w₀ h + w₀.prove.bal cfg.vapp := by
  obtain ⟨txs, rs, s, _, _, h1, h2, h3, _, _, h5, _⟩ := c37_run hc (Linked cfg) h
    (fun x hx => Linked.carries (ha x hx) (hst x hx)) w₀ s₀ _ _ (Linked.genesis hg hfresh) (genesis_inv hc hg)
    (c35_history hg []) (by rw [hg.vapp_ids.1]; exact hroot) ha hgen
  rw [genesis_pending hg] at h5
  exact ⟨txs, rs, s, h1, h2, h3, by omega⟩

/-- Transaction `i` of the contract's table creates the prover `d`, and its receipt has arrived. -/
def FinalisedCreation (w : World) (i : U64) (d : CreateProver) : Prop :=
  i ≠ 0 ∧ i.toNat ≤ w.vapp.finalizedOnchainTxId.toNat ∧ (w.vapp.transactions i).variant = .createProver ∧
  (w.vapp.transactions i).action = d.abi

theorem QueueOk.creation {w : World} {Q F} (h : QueueOk w Q F) {j : Nat} {d : CreateProver} (hj : j < F.length)
    (hq : Q[j]? = some (.createProver, d.abi)) : FinalisedCreation w (BitVec.ofNat 64 (j + 1)) d := by
  obtain ⟨h1, h2, h3, _, h5⟩ := h
  have hlt := w.vapp.finalizedOnchainTxId.isLt
  have hi : (BitVec.ofNat 64 (j + 1)).toNat = j + 1 := by
    rw [BitVec.toNat_ofNat]; exact Nat.mod_eq_of_lt (by omega)
  have h0 : BitVec.ofNat 64 (j + 1) ≠ 0 := by
    intro e
    rw [e] at hi
    exact absurd hi (by simp)
  have ht : w.vapp.transactions (BitVec.ofNat 64 (j + 1)) =
      ⟨.createProver, (F[j]?.map (·.status)).getD .pending, BitVec.ofNat 64 (j + 1), d.abi⟩ := by
    rw [h5]
    unfold queueEntry
    rw [if_neg h0, hi, Nat.add_sub_cancel, hq]
  exact ⟨h0, by omega, by rw [ht], by rw [ht]⟩

theorem QueueOk.of_creation {w : World} {Q F} (h : QueueOk w Q F) {i : U64} {d : CreateProver} (hf : FinalisedCreation w i d) :
    ∃ j, j < F.length ∧ Q[j]? = some (.createProver, d.abi) := by
  obtain ⟨h1, h2, h3, _, h5⟩ := h
  obtain ⟨f1, f2, f3, f4⟩ := hf
  have hi : i.toNat ≠ 0 := fun e => f1 (BitVec.eq_of_toNat_eq e)
  refine ⟨i.toNat - 1, by omega, ?_⟩
  rw [h5 i] at f3 f4
  unfold queueEntry at f3 f4
  rw [if_neg f1] at f3 f4
  cases hq : Q[i.toNat - 1]? with
  | none =>
    have := List.getElem?_eq_none_iff.mp hq
    omega
  | some q =>
    rw [hq] at f3 f4
    simp only at f3 f4
    rw [← f3, ← f4]

/-- **C67.** After every genuine history in which the vApp contract keeps its staking contract there is a rollup state
with the contract's latest root in which an account has an owner exactly if an on-chain transaction that
creates a prover with this address is finalised, with exactly the owner and the fee of the transaction; the staking
contract has registered that prover, with the same owner and the same fee, and the fee is at most 100 %. The next
on-chain transaction the rollup will execute is the next one the contract will finalise. -/
theorem c67_provers {env : Env} {cfg : Cfg} (hc : cfg.WF) {w₀ : World} {s₀ : FullState} (h : List (Ctx × Call))
    (hg : Genesis cfg w₀) (hroot : s₀.root env.keccak = w₀.vapp.roots 0) (ha : ∀ x ∈ h, Admissible cfg x)
    (hgen : Genuine env cfg w₀ s₀ h) (hfresh : FreshRollup s₀) (hst : ∀ x ∈ h, Stays cfg x.2) {w : World}
    (hw : w = runCalls cfg w₀ h) :
    ∃ (txs : List (Int × Tx)) (rs : List Receipt) (s : FullState), runTxs merkleOps merkleOps env txs s₀ = some (rs, s) ∧
      s.root env.keccak = w.vapp.roots w.vapp.blockNumber ∧
      s.sc.onchainTxId = w.vapp.finalizedOnchainTxId + 1 ∧
      (∀ a, s.plain.owner a ≠ 0 ↔ ∃ i d, FinalisedCreation w i d ∧ d.prover = a) ∧
      (∀ i d, FinalisedCreation w i d → s.plain.owner d.prover = d.owner ∧ s.plain.bips d.prover = d.stakerFeeBips) ∧
      (∀ a, s.plain.owner a ≠ 0 → w.staking.provers a = true ∧ (∃ n, w.info a = ⟨s.plain.owner a, n, (s.plain.bips a).toNat⟩) ∧
        (s.plain.bips a).toNat ≤ 10000) := by
  subst hw
  obtain ⟨txs, rs, s, h1, h2, ⟨_, l2, Q, F, l3, l4, l5, l6⟩, _⟩ := linked_history hc h hg hroot ha hgen hfresh hst
  have hset : ∀ i d, FinalisedCreation (runCalls cfg w₀ h) i d →
      s.plain.owner d.prover = d.owner ∧ s.plain.bips d.prover = d.stakerFeeBips := by
    intro i d hf
    obtain ⟨j, hj, hq⟩ := l3.of_creation hf
    exact l6 j d hj hq
  refine ⟨txs, rs, s, h1, h2, l2, fun a => ⟨fun ha => ?_, ?_⟩, hset, fun a ha => ?_⟩
  · obtain ⟨j, d, hj, hq, hd, _⟩ := l5 a ha
    exact ⟨_, d, l3.creation hj hq, hd⟩
  · rintro ⟨i, d, hf, rfl⟩
    obtain ⟨j, hj, hq⟩ := l3.of_creation hf
    obtain ⟨d', e, ho, _⟩ := l4 _ (List.mem_of_getElem? hq) rfl
    obtain rfl := createProver_abi_inj e
    rw [(hset i d hf).1]; exact ho
  · obtain ⟨j, d, hj, hq, rfl, e1, e2⟩ := l5 a ha
    obtain ⟨d', e, _, hfee, hp, n, hn⟩ := l4 _ (List.mem_of_getElem? hq) rfl
    obtain rfl := createProver_abi_inj e
    rw [e1, e2]
    exact ⟨hp, ⟨n, hn⟩, hfee⟩

/-! ## C65 -/

/-- The executed on-chain transactions are copies of what the contract's table holds under their ids. -/
def FromQueue (w : World) (txs : List (Int × Tx)) : Prop :=
  (∀ n d, (n, Tx.deposit d) ∈ txs → (w.vapp.transactions d.onchainTx).variant = .deposit ∧
    (w.vapp.transactions d.onchainTx).action = d.action.abi) ∧
  (∀ n d, (n, Tx.createProver d) ∈ txs → (w.vapp.transactions d.onchainTx).variant = .createProver ∧
    (w.vapp.transactions d.onchainTx).action = d.action.abi)

theorem FromQueue.follows {env : Env} {w : World} {s s' : FullState} {txs : List (Int × Tx)} {rs : List Receipt}
    (h : FromQueue w txs) (hq : QueueInv w) (hmax : w.vapp.currentOnchainTxId.toNat + 1 < 2 ^ 64)
    (hid : s.sc.onchainTxId = w.vapp.finalizedOnchainTxId + 1) (hb : BatchFacts env txs s.plain s'.plain rs) : FollowsQueue w rs := by
  have hcont : ∀ (j : Nat) r, (rs.filter Receipt.onchain)[j]? = some r →
      (w.vapp.transactions r.sol.onchainTxId).variant = r.sol.variant ∧
      (w.vapp.transactions r.sol.onchainTxId).action = r.sol.action := by
    intro j r hj
    have hm := List.mem_filter.mp (List.mem_of_getElem? hj)
    rcases hb.origin r hm.1 hm.2 with ⟨n, d, h1, rfl⟩ | ⟨n, d, h1, rfl⟩
    · exact h.1 n d h1
    · exact h.2 n d h1
  have hle : ∀ (j : Nat) r, (rs.filter Receipt.onchain)[j]? = some r → r.sol.onchainTxId.toNat ≤ w.vapp.currentOnchainTxId.toNat := by
    intro j r hj
    refine Nat.le_of_not_lt fun hlt => ?_
    have := (hcont j r hj).2
    rw [hq.2 _ hlt] at this
    exact r.action_ne this.symm
  have hnum : ∀ (j : Nat) r, (rs.filter Receipt.onchain)[j]? = some r →
      r.sol.onchainTxId.toNat = w.vapp.finalizedOnchainTxId.toNat + 1 + j := by
    intro j
    induction j with
    | zero =>
      intro r hj
      rw [hb.ids 0 r hj]
      change (s.sc.onchainTxId + _).toNat = _
      rw [hid]
      have := hq.1
      simp only [BitVec.toNat_add, BitVec.toNat_ofNat, show (1 : U64).toNat = 1 from rfl]
      omega
    | succ j ih =>
      intro r hj
      have hjl := (List.getElem?_eq_some_iff.mp hj).1
      obtain ⟨r', hr'⟩ : ∃ r', (rs.filter Receipt.onchain)[j]? = some r' := ⟨_, List.getElem?_eq_getElem (by omega)⟩
      have e := ih r' hr'
      have e1 := hle j r' hr'
      have e2 := hb.ids _ r hj
      rw [e2]
      change (s.sc.onchainTxId + _).toNat = _
      rw [hid]
      simp only [BitVec.toNat_add, BitVec.toNat_ofNat, show (1 : U64).toNat = 1 from rfl]
      omega
  exact fun j r hj => ⟨hnum j r hj, hcont j r hj⟩

/-- No withdrawal among the transactions is signed with a key that belongs to the zero address. -/
def NoZeroSigner (env : Env) (txs : List (Int × Tx)) : Prop :=
  ∀ n t body, (n, Tx.withdraw t) ∈ txs → t.body = some body → ¬ SignedBy env (.withdraw body) t.format t.signature 0

/-- An honest step on a state that fits the contracts is accepted. -/
theorem honest_step {env : Env} {cfg : Cfg} (hc : cfg.WF) {w : World} {s : FullState} (hreach : Reachable cfg w)
    (h2 : s.root env.keccak = w.vapp.roots w.vapp.blockNumber) (hlink : Linked cfg w s)
    (hsolv : s.plain.total + w.pendingDeposits ≤ w.prove.bal cfg.vapp)
    (hsupply : w.prove.supply < 2 ^ 160) (hids : w.vapp.currentOnchainTxId.toNat + 1 < 2 ^ 64)
    (hblocks : w.vapp.blockNumber.toNat + 1 < 2 ^ 64) {txs : List (Int × Tx)} {rs : List Receipt} {s' : FullState}
    (hrun : runTxs merkleOps merkleOps env txs s = some (rs, s')) (hfrom : FromQueue w txs) (hsig : NoZeroSigner env txs)
    (hne : s'.root env.keccak ≠ 0) {c : Ctx} {pv pr : Bytes} {ts : U64}
    (hdec : StepValues.decode pv = some ⟨s.root env.keccak, s'.root env.keccak, ts, rs.map Receipt.sol⟩)
    (hver : c.verifyProof w.vapp.verifier w.vapp.vkey pv pr = true) (hsend : c.sender = w.vapp.auctioneer)
    (hpause : w.vapp.paused = false) (ht1 : (w.vapp.timestamps w.vapp.blockNumber).toNat ≤ ts.toNat)
    (ht2 : ts.toNat ≤ c.now) (ht3 : c.now ≤ ts.toNat + 3600) :
    ∃ w', exec cfg c (.step pv pr) w = .ok ((), w') ∧ w'.vapp.roots w'.vapp.blockNumber = s'.root env.keccak := by
  have hi := StakingInv.reachable hc _ hreach
  have hl := LiveInv.reachable hc _ hreach
  obtain ⟨l1, l2, Q, F, l3, l4, l5, _⟩ := hlink
  have hq := QueueInv.of_ok l3
  have hplain := runTxs_merkle env txs s
  rw [hrun] at hplain
  simp only [Option.map_some] at hplain
  have hb := runTxs_batch env _ _ _ _ hplain
  have hfol := hfrom.follows hq hids l2 hb
  have hzero : ∀ st d, Receipt.withdraw st d ∈ rs → d.account ≠ 0 := by
    intro st d hm e
    have hreg : w.staking.provers 0 = false := by
      cases hp : w.staking.provers 0 with
      | false => rfl
      | true => exact absurd rfl (hi.reg.ne hc hp).1
    have hqueue : ∀ q ∈ Q, ∀ d : CreateProver, q = (.createProver, d.abi) → d.prover ≠ 0 := by
      intro q hq' d hd e0
      obtain ⟨d', e1, _, _, hp, _⟩ := l4 q hq' (by rw [hd])
      rw [hd] at e1
      obtain rfl := createProver_abi_inj e1
      rw [e0, hreg] at hp
      exact nomatch hp
    rcases hb.withdrawals st d hm with ⟨n, t, body, e1, e2, hsb⟩ | ho | ⟨id, c', h1, h3⟩
    · rw [e] at hsb; exact hsig n t body e1 e2 hsb
    · obtain ⟨j, d', _, hq', h4, _⟩ := l5 _ ho
      exact hqueue _ (List.mem_of_getElem? hq') d' rfl (h4.trans e)
    · obtain ⟨j, hj⟩ := List.getElem?_of_mem (List.mem_filter.mpr ⟨h1, (rfl : Receipt.onchain (.createProver id .completed c') = true)⟩)
      obtain ⟨f1, f2, f3⟩ := hfol j _ hj
      have hids := hfol.id_ne hq hids _ h1 rfl
      have hfin : (Receipt.createProver id .completed c').sol.onchainTxId ≠ 0 := by
        intro e0
        rw [e0] at f1
        rw [show (0 : U64).toNat = 0 from rfl] at f1
        omega
      rw [l3.2.2.2.2] at f2 f3
      unfold queueEntry at f2 f3
      rw [if_neg hfin] at f2 f3
      cases hq' : Q[(Receipt.createProver id .completed c').sol.onchainTxId.toNat - 1]? with
      | none =>
        rw [hq'] at f3
        exact Receipt.action_ne _ f3.symm
      | some q =>
        rw [hq'] at f2 f3
        simp only at f2 f3
        refine hqueue q (List.mem_of_getElem? hq') c' ?_ (h3.trans e)
        obtain ⟨q1, q2⟩ := q
        exact Prod.ext f2 f3
  have hpay : PayInv cfg { w with vapp := { w.vapp with
      blockNumber := w.vapp.blockNumber + 1
      roots := upd w.vapp.roots (w.vapp.blockNumber + 1) (s'.root env.keccak)
      timestamps := upd w.vapp.timestamps (w.vapp.blockNumber + 1) ts } } :=
    ⟨hi.prove.balanced, hsupply, hl.supply, hl.allowV, l1⟩
  have hrecs := handleReceipts_run hc (c := c) hreach hsolv hrun hids hfol hzero
    (w.vapp.blockNumber + 1)
    (upd w.vapp.roots (w.vapp.blockNumber + 1) (s'.root env.keccak))
    (upd w.vapp.timestamps (w.vapp.blockNumber + 1) ts) rs [] _ rfl rfl hpay
  obtain ⟨x, w', hx⟩ := vappStep_run hsend hpause hver hdec hne h2.symm ht2 ht1 (by simp only; omega) hblocks hrecs
  have he : exec cfg c (.step pv pr) w = .ok ((), w') := drop_ok.mpr ⟨x, hx⟩
  refine ⟨w', he, ?_⟩
  obtain ⟨v, d1, _, _, d4, _⟩ := c34_step he
  obtain rfl := Option.some.inj (d1.symm.trans hdec)
  exact d4

/-- **C65.** After every genuine history in which the vApp contract keeps its staking contract there is a rollup state
`s`, reached from the first one, with the contract's latest root, such that every honest step is accepted: if transactions are executed on `s`, those
from L1 being copies of queued ones, then the auctioneer can submit the resulting roots and receipts - if the
contract is not paused, the proof verifies, the timestamp is neither in the future nor before the latest one nor more than an
hour old, the new root is not zero, and block numbers and ids are not exhausted. In particular no
withdrawal can be stuck or block the step. -/
theorem c65_honest_step {env : Env} {cfg : Cfg} (hc : cfg.WF) {w₀ : World} {s₀ : FullState} (h : List (Ctx × Call))
    (hg : Genesis cfg w₀) (hroot : s₀.root env.keccak = w₀.vapp.roots 0) (ha : ∀ x ∈ h, Admissible cfg x)
    (hgen : Genuine env cfg w₀ s₀ h) (hfresh : FreshRollup s₀) (hst : ∀ x ∈ h, Stays cfg x.2)
    (hstart : s₀.plain.total ≤ w₀.prove.bal cfg.vapp) {w : World} (hw : w = runCalls cfg w₀ h)
    (hsupply : w.prove.supply < 2 ^ 160) (hids : w.vapp.currentOnchainTxId.toNat + 1 < 2 ^ 64)
    (hblocks : w.vapp.blockNumber.toNat + 1 < 2 ^ 64) :
    ∃ s : FullState, (∃ past rs, runTxs merkleOps merkleOps env past s₀ = some (rs, s)) ∧
      s.root env.keccak = w.vapp.roots w.vapp.blockNumber ∧
      ∀ (txs : List (Int × Tx)) (rs : List Receipt) (s' : FullState),
        runTxs merkleOps merkleOps env txs s = some (rs, s') → FromQueue w txs → NoZeroSigner env txs →
        s'.root env.keccak ≠ 0 →
        ∀ (c : Ctx) (pv pr : Bytes) (ts : U64),
          StepValues.decode pv = some ⟨s.root env.keccak, s'.root env.keccak, ts, rs.map Receipt.sol⟩ →
          c.verifyProof w.vapp.verifier w.vapp.vkey pv pr = true →
          c.sender = w.vapp.auctioneer → w.vapp.paused = false →
          (w.vapp.timestamps w.vapp.blockNumber).toNat ≤ ts.toNat → ts.toNat ≤ c.now → c.now ≤ ts.toNat + 3600 →
          ∃ w', exec cfg c (.step pv pr) w = .ok ((), w') ∧ w'.vapp.roots w'.vapp.blockNumber = s'.root env.keccak := by
  have hreach : Reachable cfg w := ⟨w₀, h, hg, ha, hw⟩
  subst hw
  obtain ⟨past, rs₀, s, h1, h2, hlink, hacc⟩ := linked_history hc h hg hroot ha hgen hfresh hst
  exact ⟨s, ⟨past, rs₀, h1⟩, h2, fun txs rs s' hrun hfrom hsig hne c pv pr ts hdec hver hsend hpause ht1 ht2 ht3 =>
    honest_step hc hreach h2 hlink (by omega) hsupply hids hblocks hrun hfrom hsig hne hdec hver hsend hpause ht1 ht2 ht3⟩

/-! ## Witnesses -/

set_option maxRecDepth 20000

theorem Toy.fs_fresh : FreshRollup Toy.fs := by
  have h1 : Toy.fs.sc.onchainTxId = 1 := by decide +kernel
  refine ⟨h1, fun a => ?_⟩
  have e : Toy.fs.plain.acct a = Toy.single (StoreKey.index Toy.alice) Toy.aliceAcct (Address.index a) :=
    congrFun Toy.fs_accounts (Address.index a)
  unfold Ledger.owner Ledger.acctD
  rw [e]
  unfold Toy.single
  split <;> rfl

theorem ToyL1.fs_stays : ∀ x ∈ ToyL1.fsHistory, Stays ToyL1.cfg x.2 := by
  intro x hx
  simp only [ToyL1.fsHistory, ToyL1.fsQueued, List.cons_append, List.nil_append, List.mem_cons, List.not_mem_nil, or_false] at hx
  rcases hx with rfl | rfl | rfl | rfl | rfl <;> intro a h <;> exact nomatch h

/-- C67: the hypotheses hold of the history of C37. -/
example : Genesis ToyL1.cfg ToyL1.fsGenesis ∧ Toy.fs.root Toy.envMax.keccak = ToyL1.fsGenesis.vapp.roots 0 ∧
    (∀ x ∈ ToyL1.fsHistory, Admissible ToyL1.cfg x) ∧
    Genuine Toy.envMax ToyL1.cfg ToyL1.fsGenesis Toy.fs ToyL1.fsHistory ∧
    FreshRollup Toy.fs ∧ (∀ x ∈ ToyL1.fsHistory, Stays ToyL1.cfg x.2) :=
  ⟨ToyL1.fsGenesis_ok, by rw [Toy.envMax_keccak, ToyL1.fsGenesis_root, ToyL1.fsRoot_eq], ToyL1.fs_admissible,
    by with_reducible exact ToyL1.fs_genuine, Toy.fs_fresh, ToyL1.fs_stays⟩

/-- C67: at its end a prover exists on both sides, with the owner and the fee of the second on-chain transaction. -/
example : FinalisedCreation (runCalls ToyL1.cfg ToyL1.fsGenesis ToyL1.fsHistory) 2 ⟨Toy.fsProver, Toy.owner, 2500⟩ ∧
    (FullState.plain Toy.fsEnd.2).owner Toy.fsProver = Toy.owner ∧ (FullState.plain Toy.fsEnd.2).bips Toy.fsProver = 2500 ∧
    (runCalls ToyL1.cfg ToyL1.fsGenesis ToyL1.fsHistory).staking.provers Toy.fsProver = true ∧
    (runCalls ToyL1.cfg ToyL1.fsGenesis ToyL1.fsHistory).info Toy.fsProver = ⟨Toy.owner, 1, 2500⟩ ∧
    (runCalls ToyL1.cfg ToyL1.fsGenesis ToyL1.fsHistory).vapp.finalizedOnchainTxId + 1 = 3 := by
  unfold FinalisedCreation
  decide +kernel

/-- C65: the hypotheses hold before the step of that history. -/
example : (∀ x ∈ ToyL1.fsQueued, Admissible ToyL1.cfg x) ∧
    Genuine Toy.envMax ToyL1.cfg ToyL1.fsGenesis Toy.fs ToyL1.fsQueued ∧ (∀ x ∈ ToyL1.fsQueued, Stays ToyL1.cfg x.2) ∧
    Toy.fs.plain.total ≤ ToyL1.fsGenesis.prove.bal ToyL1.cfg.vapp ∧
    (runCalls ToyL1.cfg ToyL1.fsGenesis ToyL1.fsQueued).prove.supply < 2 ^ 160 ∧
    (runCalls ToyL1.cfg ToyL1.fsGenesis ToyL1.fsQueued).vapp.currentOnchainTxId = 2 ∧
    (runCalls ToyL1.cfg ToyL1.fsGenesis ToyL1.fsQueued).vapp.blockNumber = 0 := by
  refine ⟨fun x hx => ToyL1.fs_admissible x (List.mem_append_left _ hx), ?_,
    fun x hx => ToyL1.fs_stays x (List.mem_append_left _ hx), by decide +kernel, by decide +kernel, by decide +kernel,
    by decide +kernel⟩
  have all : ∀ w, Genuine Toy.envMax ToyL1.cfg w Toy.fs ToyL1.fsQueued := by
    intro w
    unfold ToyL1.fsQueued
    rw [Genuine]
    have h3 : ∀ w, Genuine Toy.envMax ToyL1.cfg w Toy.fs [(ToyL1.ctx Toy.owner 1602, .createProver 2500)] := by
      intro w
      rw [Genuine]
      split <;> exact trivial
    have h2 : ∀ w, Genuine Toy.envMax ToyL1.cfg w Toy.fs ((ToyL1.ctx Toy.alice 1601, .deposit 1000) ::
        [(ToyL1.ctx Toy.owner 1602, .createProver 2500)]) := by
      intro w
      rw [Genuine]
      split <;> exact h3 _
    split <;> exact h2 _
  exact all _

/-- C65: and the transactions of `Toy.fsTxs` meet the conditions, with the public values that the step carries. -/
example : runTxs merkleOps merkleOps Toy.envMax Toy.fsTxs Toy.fs = some (Toy.fsEnd.1, Toy.fsEnd.2) ∧
    FromQueue (runCalls ToyL1.cfg ToyL1.fsGenesis ToyL1.fsQueued) Toy.fsTxs ∧ NoZeroSigner Toy.envMax Toy.fsTxs ∧
    Toy.fsEnd.2.root Toy.envMax.keccak ≠ 0 ∧
    StepValues.decode ToyL1.fsValues.encode = some ⟨Toy.fs.root Toy.envMax.keccak, Toy.fsEnd.2.root Toy.envMax.keccak, 1700,
      Toy.fsEnd.1.map Receipt.sol⟩ ∧
    (runCalls ToyL1.cfg ToyL1.fsGenesis ToyL1.fsQueued).vapp.auctioneer = (ToyL1.ctx ToyL1.auc 1800).sender := by
  refine ⟨Toy.fsRun, ⟨?_, ?_⟩, ?_, ?_, ?_, by decide +kernel⟩
  · intro n d h
    have e : d = ⟨10, 3, 1, ⟨Toy.alice, 1000⟩⟩ := by
      simp only [Toy.fsTxs, Toy.deposit1, Toy.fsCreate, Toy.transfer, Toy.withdraw, List.mem_cons, List.not_mem_nil, or_false,
        Prod.mk.injEq, Tx.deposit.injEq, reduceCtorEq, and_false] at h
      exact h.2
    rw [e]
    decide +kernel
  · intro n d h
    have e : d = ⟨10, 4, 2, ⟨Toy.fsProver, Toy.owner, 2500⟩⟩ := by
      simp only [Toy.fsTxs, Toy.deposit1, Toy.fsCreate, Toy.transfer, Toy.withdraw, List.mem_cons, List.not_mem_nil, or_false,
        false_or, Prod.mk.injEq, Tx.createProver.injEq, reduceCtorEq, and_false] at h
      exact h.2
    rw [e]
    decide +kernel
  · intro n t body h _ hs
    have e : t.format = 1 ∧ t.signature = Address.bytes Toy.alice := by
      simp only [Toy.fsTxs, Toy.deposit1, Toy.fsCreate, Toy.transfer, Toy.withdraw, List.mem_cons, List.not_mem_nil, or_false,
        false_or, Prod.mk.injEq, Tx.withdraw.injEq, reduceCtorEq, and_false] at h
      rw [h.2]
      exact ⟨rfl, rfl⟩
    rcases hs with ⟨_, hs⟩ | ⟨hf, _⟩
    · rw [e.2] at hs
      exact absurd (show Address.ofBytes? (Address.bytes Toy.alice) = some 0 from hs) (by decide +kernel)
    · rw [e.1] at hf
      exact absurd hf (by decide)
  · rw [Toy.envMax_keccak, ← ToyL1.fsNewRoot_eq]; decide +kernel
  · rw [Toy.envMax_keccak, ← ToyL1.fsValues_eq]
    exact decode_encode _ (by decide +kernel)

end Verif
