import Verif.GenesisRoot
import Verif.Secp
import Verif.Amount
import Verif.PropsBridge
import Verif.PropsDomain
/-
# C95: the deployed contracts start from the empty ledgers of their networks

The only theorems that are about the real hash function. `Keccak.keccak256` is Keccak-256; the two roots are those in
`contracts/deployments`.
-/

namespace Verif
open GenesisRoot

/-- **C95, the deployed roots.** The genesis root deployed on mainnet is the root of the ledger that `VAppState::new`
makes for the domain named `SPN_MAINNET_V1_DOMAIN`, and the one deployed on Sepolia is that of `SPN_SEPOLIA_V1_DOMAIN`. -/
theorem c95_deployed :
    (∃ d, Domain.getDomain Keccak.keccak256 "SPN_MAINNET_V1_DOMAIN".toList = some d ∧
      (FullState.new d).root Keccak.keccak256 = 0x7f1150ec996e291947d4a9a30a49155b5f042042f841f25db4d41da04cef63f4) ∧
    (∃ d, Domain.getDomain Keccak.keccak256 "SPN_SEPOLIA_V1_DOMAIN".toList = some d ∧
      (FullState.new d).root Keccak.keccak256 = 0x2e0d7ea0c88e868939c612bae663102c86e77b33efa43835a3afcd0e4410acb2) :=
  ⟨⟨_, (c87_names _).1, mainnetRoot_eq⟩, ⟨_, (c87_names _).2.1, sepoliaRoot_eq⟩⟩

/-- Keccak-256 has no collision on what the two separators hash. -/
theorem networksDiffer_keccak : NetworksDiffer Keccak.keccak256 := by
  have h : ∀ x ∈ [Domain.protocolName, Domain.protocolVersion, Domain.preimage Keccak.keccak256 Domain.protocolName Domain.protocolVersion 1,
      Domain.preimage Keccak.keccak256 Domain.protocolName Domain.protocolVersion 11155111],
      ∀ y ∈ [Domain.protocolName, Domain.protocolVersion, Domain.preimage Keccak.keccak256 Domain.protocolName Domain.protocolVersion 1,
      Domain.preimage Keccak.keccak256 Domain.protocolName Domain.protocolVersion 11155111],
      Keccak.keccak256 x = Keccak.keccak256 y → x = y := by
    decide +kernel
  intro x y hx hy
  refine h x ?_ y ?_
  · simp only [DomainInputs, List.mem_cons, List.not_mem_nil, or_false] at hx ⊢
    rcases hx with e | e | e | e | e | e <;> simp [e]
  · simp only [DomainInputs, List.mem_cons, List.not_mem_nil, or_false] at hy ⊢
    rcases hy with e | e | e | e | e | e <;> simp [e]

/-- **C95, no transaction counts on both networks.** C87 for Keccak-256, without an assumption on the hash function. -/
theorem c95_one_network (env : Env) (hk : env.keccak = Keccak.keccak256) (before before' : List Tx) (tx : Tx)
    (ho : tx.offchain = true)
    (hacc : (Ledger.execute env tx
      (Ledger.after env before (Ledger.new (Domain.mainnet Keccak.keccak256)))).1.accepted = true) :
    (Ledger.execute env tx
      (Ledger.after env before' (Ledger.new (Domain.sepolia Keccak.keccak256)))).1.accepted = false := by
  have hn : NetworksDiffer env.keccak := by rw [hk]; exact networksDiffer_keccak
  refine c87_one_network env hn (name := "SPN_MAINNET_V1_DOMAIN".toList) (name' := "SPN_SEPOLIA_V1_DOMAIN".toList) ?_ ?_
    (by decide) before before' tx ho hacc
  · rw [hk]; exact (c87_names _).1
  · rw [hk]; exact (c87_names _).2.1

/-- **C95, only the empty ledger has the deployed root.** A state with the genesis root of mainnet is in the domain of
mainnet, has processed nothing, has no account and has cleared no request - if Keccak-256 has no collision between what
is hashed for this state and for the empty one, and no leaf of the state hashes to zero. -/
theorem c95_only_empty (s : FullState) (h : s.root Keccak.keccak256 = mainnetRoot)
    (hcf : CollisionFree Keccak.keccak256 (fun x => s.Hashed Keccak.keccak256 x ∨
      (FullState.new (Domain.mainnet Keccak.keccak256)).Hashed Keccak.keccak256 x))
    (hz : s.NoZero Keccak.keccak256) :
    s.sc = { domain := Domain.mainnet Keccak.keccak256, txId := 1, onchainTxId := 1, onchainBlock := 0, onchainLogIndex := 0 } ∧
    (∀ a : Address, s.accounts.leaves.get? (StoreKey.index a) = none) ∧
    (∀ i : B256, s.transactions.leaves.get? (StoreKey.index i) = none) := by
  have hz' : (FullState.new (Domain.mainnet Keccak.keccak256)).NoZero Keccak.keccak256 :=
    ⟨fun i v hv => (nomatch (show none = some v from hv)), fun i v hv => (nomatch (show none = some v from hv))⟩
  obtain ⟨h1, h2, h3⟩ := c25_state _ s _ hcf hz hz' (h.trans mainnetRoot_eq.symm)
  exact ⟨h1, h2, h3⟩

/-- **C95, the first step.** What the STF program commits with the deployed root as old root is the result of executing
its transactions on the empty ledger of mainnet. -/
theorem c95_first_step (env : Env) (hk : env.keccak = Keccak.keccak256) (input : StfInput) (out : StepValues)
    (hacc : stf env input = some out) (hroot : out.oldRoot = mainnetRoot)
    (hcf : CollisionFree Keccak.keccak256
      (StfHashed Keccak.keccak256 input (FullState.new (Domain.mainnet Keccak.keccak256))))
    (hza : ∀ p ∈ input.accountProofs, ∀ v, p.value = some v → Keccak.keccak256 v.abi ≠ 0)
    (hzt : ∀ p ∈ input.requestProofs, ∀ v, p.value = some v → Keccak.keccak256 (abiBool v) ≠ 0) :
    ∃ (rs : List Receipt) (s' : FullState),
      runTxs merkleOps merkleOps env input.txs (FullState.new (Domain.mainnet Keccak.keccak256)) = some (rs, s') ∧
      out.receipts = rs.map Receipt.sol ∧ out.newRoot = s'.root Keccak.keccak256 ∧ out.timestamp = input.timestamp := by
  have h := c27_stf_sound env input out (FullState.new (Domain.mainnet Keccak.keccak256)) hacc
    (by rw [hk, hroot]; exact mainnetRoot_eq) (by rw [hk]; exact hcf) ?_ ?_
  · rw [hk] at h; exact h
  · intro p hp x hx
    rw [hk]
    have hx' : x ∈ leafInputs Account.abi p.value ++ leafInputs Account.abi none := hx
    rw [List.mem_append] at hx'
    rcases hx' with hx' | hx'
    · cases hv : p.value with
      | none => rw [hv] at hx'; exact nomatch hx'
      | some v =>
        rw [hv] at hx'
        rw [List.mem_singleton.mp hx']
        exact hza p hp v hv
    · exact nomatch hx'
  · intro p hp x hx
    rw [hk]
    have hx' : x ∈ leafInputs abiBool p.value ++ leafInputs abiBool none := hx
    rw [List.mem_append] at hx'
    rcases hx' with hx' | hx'
    · cases hv : p.value with
      | none => rw [hv] at hx'; exact nomatch hx'
      | some v =>
        rw [hv] at hx'
        rw [List.mem_singleton.mp hx']
        exact hzt p hp v hv
    · exact nomatch hx'

theorem runTxs_plain_domain (env : Env) : ∀ (txs : List (Int × Tx)) (s s' : Ledger) (rs : List Receipt),
    runTxs (mapOps Address Account) (mapOps B256 Bool) env txs s = some (rs, s') → s'.sc.domain = s.sc.domain
  | [], s, s', rs, h => by
    rw [runTxs] at h
    rw [(Prod.mk.inj (Option.some.inj h)).2]
  | (i, tx) :: txs, s, s', rs, h => by
    have h1 : (execute (mapOps Address Account) (mapOps B256 Bool) env tx s).2.sc.domain = s.sc.domain :=
      c06_domain_constant env [tx] s
    rw [runTxs] at h
    split at h
    · exact nomatch h
    · rename_i _ s1 e
      rw [e] at h1
      exact (runTxs_plain_domain env txs s1 s' rs h).trans h1
    · rename_i s1 e
      rw [e] at h1
      exact (runTxs_plain_domain env txs s1 s' rs h).trans h1
    · rename_i _ s1 e
      rw [e] at h1
      split at h
      · exact nomatch h
      · rename_i rs1 s2 e2
        have e3 := (Prod.mk.inj (Option.some.inj h)).2
        rw [← e3]
        exact (runTxs_plain_domain env txs s1 s2 rs1 e2).trans h1

/-- Executing transactions does not change the domain of a ledger. -/
theorem runTxs_domain (env : Env) (txs : List (Int × Tx)) (s s' : FullState) (rs : List Receipt)
    (h : runTxs merkleOps merkleOps env txs s = some (rs, s')) : s'.sc.domain = s.sc.domain := by
  have hm := runTxs_merkle env txs s
  rw [h] at hm
  exact runTxs_plain_domain env txs s.plain _ _ hm

theorem freshRollup_new (d : B256) : FreshRollup (FullState.new d) := ⟨rfl, fun _ => rfl⟩

theorem total_new (d : B256) : (FullState.new d).plain.total = 0 := rfl
theorem domain_new (d : B256) : (FullState.new d).sc.domain = d := rfl

/-- **C95, the deployed contract.** Contracts initialised with the deployed root of mainnet always hold, as their current
root, the root of a ledger of the mainnet domain that starts empty, and the vApp's $PROVE is the sum of that ledger's
balances, the pending deposits, what was sent to it otherwise, and what it held before (C37, C67). -/
theorem c95_history {env : Env} (hk : env.keccak = Keccak.keccak256) {cfg : Cfg} (hc : cfg.WF) {w₀ : World}
    (h : List (Ctx × Call)) (hg : Genesis cfg w₀) (hroot : w₀.vapp.roots 0 = mainnetRoot) (ha : ∀ x ∈ h, Admissible cfg x)
    (hgen : Genuine env cfg w₀ (FullState.new (Domain.mainnet Keccak.keccak256)) h) (hst : ∀ x ∈ h, Stays cfg x.2)
    {w : World} (hw : w = runCalls cfg w₀ h) :
    ∃ (txs : List (Int × Tx)) (rs : List Receipt) (s : FullState),
      runTxs merkleOps merkleOps env txs (FullState.new (Domain.mainnet Keccak.keccak256)) = some (rs, s) ∧
      s.sc.domain = Domain.mainnet Keccak.keccak256 ∧
      s.root Keccak.keccak256 = w.vapp.roots w.vapp.blockNumber ∧
      s.sc.onchainTxId = w.vapp.finalizedOnchainTxId + 1 ∧
      w.prove.bal cfg.vapp = s.plain.total + w.pendingDeposits + strays cfg w₀ h + w₀.prove.bal cfg.vapp := by
  subst hw
  obtain ⟨txs, rs, s, h1, h2, hl, h4⟩ := linked_history (env := env) hc h hg
    (s₀ := FullState.new (Domain.mainnet Keccak.keccak256)) (by rw [hk, hroot]; exact mainnetRoot_eq) ha hgen
    (freshRollup_new _) hst
  rw [total_new] at h4
  rw [hk] at h2
  exact ⟨txs, rs, s, h1, (runTxs_domain env txs _ s rs h1).trans (domain_new _), h2, hl.2.1, h4⟩

/-! ## Witnesses -/

theorem chained_get (kc : Bytes → B256) : ∀ (l : List B256) (n i : Nat) (z : B256), (∀ a, l.head? = some a → a = zeroHash kc n) →
    chained kc l = true → l[i]? = some z → z = zeroHash kc (n + i)
  | [], _, _, _, _, _, hz => nomatch hz
  | a :: t, n, 0, z, ha, _, hz => by
    rw [← Option.some.inj hz]; exact ha a rfl
  | [_], _, _ + 1, _, _, _, hz => nomatch hz
  | a :: b :: t, n, i + 1, z, ha, h, hz => by
    rw [chained, Bool.and_eq_true] at h
    have hb : ∀ x, (b :: t).head? = some x → x = zeroHash kc (n + 1) := by
      intro x hx
      rw [← Option.some.inj hx, zeroHash, ← ha a rfl]
      exact (eq_of_beq h.1).symm
    have := chained_get kc (b :: t) (n + 1) i z hb h.2 hz
    rw [this]
    congr 1
    omega

theorem zeroHash_get (n : Nat) (hn : n ≤ 160) : emptyHashes[n]? = some (zeroHash Keccak.keccak256 n) := by
  have hl : emptyHashes.length = 161 := by decide +kernel
  have h : n < emptyHashes.length := by omega
  rw [List.getElem?_eq_getElem h]
  congr 1
  have := chained_get Keccak.keccak256 emptyHashes 0 n emptyHashes[n]
    (fun a ha => by rw [show emptyHashes.head? = some 0 by decide +kernel] at ha; exact (Option.some.inj ha).symm)
    chained_emptyHashes (List.getElem?_eq_getElem h)
  rw [this, Nat.zero_add]

theorem emptyHashes_nodup : emptyHashes.Nodup := by decide +kernel

theorem zeroHash_inj {m n : Nat} (hm : m ≤ 160) (hn : n ≤ 160)
    (h : zeroHash Keccak.keccak256 m = zeroHash Keccak.keccak256 n) : m = n := by
  have h1 := zeroHash_get m hm
  rw [h, ← zeroHash_get n hn] at h1
  exact (List.getElem?_inj (i := n) (j := m) (by rw [show emptyHashes.length = 161 by decide +kernel]; omega) emptyHashes_nodup).mp h1.symm |>.symm

theorem zeroHash_ne_root {n : Nat} (hn : n ≤ 160) : zeroHash Keccak.keccak256 n ≠ mainnetRoot := by
  intro h
  have h1 := zeroHash_get n hn
  rw [h] at h1
  exact absurd (List.mem_of_getElem? h1) (by decide +kernel)

/-- What is hashed for an empty ledger: the seven words, or two equal nodes of an empty tree. -/
theorem new_hashed (kc : Bytes → B256) (d : B256) {x : Bytes} (h : (FullState.new d).Hashed kc x) :
    x = (FullState.new d).container kc ∨ ∃ l, l < 160 ∧ x = B256.bytes (zeroHash kc l) ++ B256.bytes (zeroHash kc l) := by
  rcases h with h | h | h
  · exact Or.inl h
  · rcases h with ⟨i, v, _, hv, _⟩ | ⟨l, i, hl, _, hx⟩
    · exact nomatch (show none = some v from hv)
    · refine Or.inr ⟨l, hl, hx.trans ?_⟩
      have e : ∀ j, nodeHash kc Account.abi (FullState.new d).accounts.leaves.get? l j = zeroHash kc l := nodeHash_none _ _ l
      rw [e, e]
  · rcases h with ⟨i, v, _, hv, _⟩ | ⟨l, i, hl, _, hx⟩
    · exact nomatch (show none = some v from hv)
    · refine Or.inr ⟨l, hl, hx.trans ?_⟩
      have e : ∀ j, nodeHash kc abiBool (FullState.new d).transactions.leaves.get? l j = zeroHash kc l := nodeHash_none _ _ l
      rw [e, e]

theorem new_collisionFree_of (kc : Bytes → B256) (d : B256)
    (hinj : ∀ m n, m ≤ 160 → n ≤ 160 → zeroHash kc m = zeroHash kc n → m = n)
    (hne : ∀ n, n ≤ 160 → zeroHash kc n ≠ (FullState.new d).root kc) : CollisionFree kc ((FullState.new d).Hashed kc) := by
  have hc : kc ((FullState.new d).container kc) = (FullState.new d).root kc := rfl
  have hn : ∀ l, kc (B256.bytes (zeroHash kc l) ++ B256.bytes (zeroHash kc l)) = zeroHash kc (l + 1) := fun l => rfl
  intro x y hx hy h
  rcases new_hashed kc d hx with ex | ⟨l, hl, ex⟩
  · rcases new_hashed kc d hy with ey | ⟨m, hm, ey⟩
    · exact ex.trans ey.symm
    · rw [ex, ey, hc, hn] at h
      exact absurd h.symm (hne _ (by omega))
  · rcases new_hashed kc d hy with ey | ⟨m, hm, ey⟩
    · rw [ex, ey, hc, hn] at h
      exact absurd h (hne _ (by omega))
    · rw [ex, ey, hn, hn] at h
      have e := hinj _ _ (by omega) (by omega) h
      have e' : l = m := by omega
      rw [ex, ey, e']

/-- Keccak-256 has no collision on what is hashed for the empty ledger of mainnet. -/
theorem new_collisionFree : CollisionFree Keccak.keccak256
    ((FullState.new (Domain.mainnet Keccak.keccak256)).Hashed Keccak.keccak256) :=
  new_collisionFree_of _ _ (fun _ _ => zeroHash_inj) (fun _ hn => by rw [mainnetRoot_eq]; exact zeroHash_ne_root hn)

/-- The hypotheses of `c95_only_empty` hold of the empty ledger. -/
example : (FullState.new (Domain.mainnet Keccak.keccak256)).root Keccak.keccak256 = mainnetRoot ∧
    CollisionFree Keccak.keccak256 (fun x => (FullState.new (Domain.mainnet Keccak.keccak256)).Hashed Keccak.keccak256 x ∨
      (FullState.new (Domain.mainnet Keccak.keccak256)).Hashed Keccak.keccak256 x) ∧
    (FullState.new (Domain.mainnet Keccak.keccak256)).NoZero Keccak.keccak256 :=
  ⟨mainnetRoot_eq, fun x y hx hy => new_collisionFree x y (hx.elim id id) (hy.elim id id),
    fun i v hv => (nomatch (show none = some v from hv)), fun i v hv => (nomatch (show none = some v from hv))⟩

namespace Toy
/-- The toy environment with another hash function. -/
def envWith (kc : Bytes → B256) : Env := { Toy.env with keccak := kc }
theorem envWith_keccak (kc : Bytes → B256) : (envWith kc).keccak = kc := rfl
/-- What executing the deposit of the toy ledger on an empty ledger gives. -/
def gEnd (kc : Bytes → B256) (d : B256) : List Receipt × FullState :=
  (runTxs merkleOps merkleOps (envWith kc) [(0, deposit1)] (FullState.new d)).getD ([], FullState.new d)
theorem gRun (kc : Bytes → B256) (d : B256) :
    runTxs merkleOps merkleOps (envWith kc) [(0, deposit1)] (FullState.new d) = some ((gEnd kc d).1, (gEnd kc d).2) := rfl
theorem gReceipts (kc : Bytes → B256) (d : B256) : (gEnd kc d).1 = [Receipt.deposit 1 .completed ⟨Toy.alice, 1000⟩] := rfl
theorem gTouched (kc : Bytes → B256) (d : B256) : (gEnd kc d).2.accounts.touched = [alice] ∧ (gEnd kc d).2.transactions.touched = [] := ⟨rfl, rfl⟩

/-- The input the host builds for it. -/
def gInput (kc : Bytes → B256) (d : B256) : StfInput :=
  { root := (FullState.new d).root kc
    accountsRoot := (FullState.new d).accounts.root kc Account.abi
    requestsRoot := (FullState.new d).transactions.root kc abiBool
    state := ⟨(FullState.new d).sc, ⟨SMap.empty, []⟩, ⟨SMap.empty, []⟩⟩
    accountProofs := proofsFor kc Account.abi (FullState.new d).accounts [alice]
    requestProofs := proofsFor kc abiBool (FullState.new d).transactions []
    txs := [(0, deposit1)], timestamp := 1700 }

def gValues (kc : Bytes → B256) (d : B256) : StepValues :=
  ⟨(FullState.new d).root kc, (gEnd kc d).2.root kc, 1700, (gEnd kc d).1.map Receipt.sol⟩

theorem gAccepted (kc : Bytes → B256) (d : B256) : stf (envWith kc) (gInput kc d) = some (gValues kc d) :=
  c28_stf_complete (envWith kc) [(0, deposit1)] 1700 (FullState.new d).sc [] [] ⟨SMap.empty, []⟩ ⟨SMap.empty, []⟩ [alice] []
    (FullState.new d) (gEnd kc d).2 (gEnd kc d).1 rfl (gRun kc d)
    (by rw [(gTouched kc d).1]; intro a ha; exact List.mem_map.mpr ⟨a, ha, rfl⟩)
    (by rw [(gTouched kc d).2]; intro a ha; exact nomatch ha)
    (by decide) (by decide)

theorem gInput_trueA (kc : Bytes → B256) (d : B256) :
    ∀ p ∈ (gInput kc d).accountProofs, TrueProof kc Account.abi (FullState.new d).accounts.leaves.get? p :=
  proofsFor_true kc Account.abi [] [alice]

theorem gHashed (kc : Bytes → B256) (d : B256) (x : Bytes) (h : StfHashed kc (gInput kc d) (FullState.new d) x) :
    (FullState.new d).Hashed kc x := by
  rcases h with h | h | h | h
  · exact Or.inl h
  · exact Or.inl h
  · exact Or.inr (Or.inl (proofsInput_tree kc Account.abi _ _ (gInput_trueA kc d) x h))
  · obtain ⟨p, hp, _⟩ := h
    exact nomatch hp

theorem gNone (kc : Bytes → B256) (d : B256) : ∀ p ∈ (gInput kc d).accountProofs, p.value = none := by
  intro p hp
  rw [(gInput_trueA kc d p hp).1]
  rfl
theorem gNone' (kc : Bytes → B256) (d : B256) : ∀ p ∈ (gInput kc d).requestProofs, p.value = none := by
  intro p hp
  exact nomatch hp
/-- The input for a step without transactions. -/
def eInput (kc : Bytes → B256) (d : B256) : StfInput :=
  { root := (FullState.new d).root kc
    accountsRoot := (FullState.new d).accounts.root kc Account.abi
    requestsRoot := (FullState.new d).transactions.root kc abiBool
    state := ⟨(FullState.new d).sc, ⟨SMap.empty, []⟩, ⟨SMap.empty, []⟩⟩
    accountProofs := [], requestProofs := [], txs := [], timestamp := 1700 }

theorem eAccepted (kc : Bytes → B256) (d : B256) : stf (envWith kc) (eInput kc d) =
    some ⟨(FullState.new d).root kc, (FullState.new d).root kc, 1700, []⟩ :=
  c28_stf_complete (envWith kc) [] 1700 (FullState.new d).sc [] [] ⟨SMap.empty, []⟩ ⟨SMap.empty, []⟩ [] []
    (FullState.new d) (FullState.new d) [] rfl rfl (fun a ha => (nomatch ha)) (fun a ha => (nomatch ha)) (by decide) (by decide)

theorem eHashed (kc : Bytes → B256) (d : B256) (x : Bytes) (h : StfHashed kc (eInput kc d) (FullState.new d) x) :
    (FullState.new d).Hashed kc x := by
  rcases h with h | h | h | h
  · exact Or.inl h
  · exact Or.inl h
  · obtain ⟨p, hp, _⟩ := h
    exact nomatch hp
  · obtain ⟨p, hp, _⟩ := h
    exact nomatch hp
end Toy

/-- The hypotheses of `c95_first_step` hold of a deposit of 1000 as the first transaction of mainnet. -/
example : stf (Toy.envWith Keccak.keccak256) (Toy.gInput Keccak.keccak256 (Domain.mainnet Keccak.keccak256)) =
      some (Toy.gValues Keccak.keccak256 (Domain.mainnet Keccak.keccak256)) ∧
    (Toy.gValues Keccak.keccak256 (Domain.mainnet Keccak.keccak256)).oldRoot = mainnetRoot ∧
    CollisionFree Keccak.keccak256 (StfHashed Keccak.keccak256
      (Toy.gInput Keccak.keccak256 (Domain.mainnet Keccak.keccak256)) (FullState.new (Domain.mainnet Keccak.keccak256))) ∧
    (∀ p ∈ (Toy.gInput Keccak.keccak256 (Domain.mainnet Keccak.keccak256)).accountProofs, p.value = none) ∧
    (∀ p ∈ (Toy.gInput Keccak.keccak256 (Domain.mainnet Keccak.keccak256)).requestProofs, p.value = none) :=
  ⟨Toy.gAccepted _ _, mainnetRoot_eq, fun x y hx hy => new_collisionFree x y (Toy.gHashed _ _ x hx) (Toy.gHashed _ _ y hy),
    Toy.gNone _ _, Toy.gNone' _ _⟩

namespace ToyL1
/-- Contracts initialised with the deployed root of mainnet. -/
def mainnetGenesis : World := { genesis with
  prove := {
    supply := 5000
    bal := fun a => if a = Toy.alice then 5000 else 0
    allow := fun a s => if (a = cfg.vapp ∨ a = cfg.staking) ∧ s = cfg.iprove then max256 else 0 }
  vapp := { genesis.vapp with roots := fun b => if b = 0 then mainnetRoot else 0 } }

theorem mainnetGenesis_root : mainnetGenesis.vapp.roots 0 = mainnetRoot := by
  simp only [mainnetGenesis, if_true]

theorem mainnetGenesis_ok : Genesis cfg mainnetGenesis where
  prove_sum := ⟨[Toy.alice], by decide +kernel, by
    intro a ha
    simp only [List.mem_cons, List.not_mem_nil, or_false] at ha
    show (if a = Toy.alice then 5000 else 0) = 0
    rw [if_neg ha], by decide +kernel⟩
  prove_max := by decide
  prove_allow _ _ _ := rfl
  iprove := rfl
  st := rfl
  dispense := ⟨rfl, rfl, rfl, rfl⟩
  maps := ⟨rfl, rfl, rfl, rfl, rfl⟩
  registry := ⟨rfl, rfl, rfl, rfl⟩
  periods := by decide
  vapp_ids := ⟨rfl, rfl, rfl⟩
  vapp_root := ⟨by rw [mainnetGenesis_root]; decide +kernel, by
    intro b hb
    show (if b = 0 then mainnetRoot else 0) = 0
    rw [if_neg hb]⟩
  vapp_maps := ⟨rfl, rfl⟩
  vapp_params := ⟨rfl, rfl, by decide⟩

/-- What the STF program outputs for no transactions. -/
def mainnetValues : StepValues := ⟨mainnetRoot, mainnetRoot, 1700, []⟩

/-- A deposit, and a step without transactions. -/
def mainnetHistory : List (Ctx × Call) :=
  [ (ctx Toy.alice 1600, .proveApprove cfg.vapp 1500), (ctx Toy.alice 1601, .deposit 1000),
    (ctx auc 1800, .step mainnetValues.encode []) ]

theorem mainnet_admissible : ∀ x ∈ mainnetHistory, Admissible cfg x := by
  intro x hx
  simp only [mainnetHistory, List.mem_cons, List.not_mem_nil, or_false] at hx
  have h1 : ∀ n, ¬ cfg.System (ctx Toy.alice n).sender :=
    fun _ => not_system Toy.alice (by decide +kernel) (by decide +kernel)
  have h2 : ∀ n, ¬ cfg.System (ctx auc n).sender :=
    fun _ => not_system auc (by decide +kernel) (by decide +kernel)
  rcases hx with rfl | rfl | rfl
  · exact h1 _
  · exact h1 _
  · exact h2 _

theorem mainnet_stays : ∀ x ∈ mainnetHistory, Stays cfg x.2 := by
  intro x hx a ha
  simp only [mainnetHistory, List.mem_cons, List.not_mem_nil, or_false] at hx
  rcases hx with rfl | rfl | rfl <;> exact nomatch ha

theorem genuine_of (kc : Bytes → B256) (d r : B256) (hr : (FullState.new d).root kc = r) (bs : Bytes)
    (hd : StepValues.decode bs = some ⟨r, r, 1700, []⟩) (hcf : CollisionFree kc ((FullState.new d).Hashed kc)) :
    Genuine (Toy.envWith kc) cfg mainnetGenesis (FullState.new d)
      [ (ctx Toy.alice 1600, .proveApprove cfg.vapp 1500), (ctx Toy.alice 1601, .deposit 1000), (ctx auc 1800, .step bs []) ] := by
  have step : ∀ w, Genuine (Toy.envWith kc) cfg w (FullState.new d) [(ctx auc 1800, .step bs [])] := by
    intro w
    rw [Genuine]
    split
    · exact trivial
    · refine ⟨⟨r, r, 1700, []⟩, [Toy.eInput kc d], hd, ⟨[⟨r, r, 1700, []⟩], ?_, isChain_singleton _,
        ⟨rfl, rfl, rfl, by simp⟩⟩, ⟨fun x y hx hy => hcf x y (Toy.eHashed kc d x hx) (Toy.eHashed kc d y hy), fun p hp => (nomatch hp), fun p hp => (nomatch hp), fun _ _ _ => trivial⟩,
        fun _ _ _ => trivial⟩
      rw [List.map_singleton, Toy.eAccepted, ← hr]
      rfl
  have dep : ∀ w, Genuine (Toy.envWith kc) cfg w (FullState.new d)
      [(ctx Toy.alice 1601, .deposit 1000), (ctx auc 1800, .step bs [])] := by
    intro w
    rw [Genuine]
    split <;> exact step _
  rw [Genuine]
  split <;> exact dep _

attribute [local irreducible] Genuine in
theorem mainnet_genuine : Genuine (Toy.envWith Keccak.keccak256) cfg mainnetGenesis
    (FullState.new (Domain.mainnet Keccak.keccak256)) mainnetHistory := by
  have hd : StepValues.decode mainnetValues.encode = some ⟨mainnetRoot, mainnetRoot, 1700, []⟩ := by decide +kernel
  have h : ∀ (kc : Bytes → B256) (d : B256), kc = Keccak.keccak256 → d = Domain.mainnet Keccak.keccak256 →
      Genuine (Toy.envWith kc) cfg mainnetGenesis (FullState.new d) mainnetHistory := by
    intro kc d e e'
    refine genuine_of kc d mainnetRoot ?_ _ hd ?_
    · rw [e, e']; with_reducible exact mainnetRoot_eq
    · rw [e, e']; with_reducible exact new_collisionFree
  exact h _ _ (Eq.refl _) (Eq.refl _)

end ToyL1

/-- The hypotheses of `c95_history` hold of this history. Its calls are accepted, and the deposit is pending. -/
example : ToyL1.cfg.WF ∧ Genesis ToyL1.cfg ToyL1.mainnetGenesis ∧ ToyL1.mainnetGenesis.vapp.roots 0 = mainnetRoot ∧
    (∀ x ∈ ToyL1.mainnetHistory, Admissible ToyL1.cfg x) ∧
    Genuine (Toy.envWith Keccak.keccak256) ToyL1.cfg ToyL1.mainnetGenesis
      (FullState.new (Domain.mainnet Keccak.keccak256)) ToyL1.mainnetHistory ∧
    (∀ x ∈ ToyL1.mainnetHistory, Stays ToyL1.cfg x.2) ∧
    (runCalls ToyL1.cfg ToyL1.mainnetGenesis ToyL1.mainnetHistory).vapp.blockNumber = 1 ∧
    (runCalls ToyL1.cfg ToyL1.mainnetGenesis ToyL1.mainnetHistory).vapp.roots 1 = mainnetRoot ∧
    (runCalls ToyL1.cfg ToyL1.mainnetGenesis ToyL1.mainnetHistory).pendingDeposits = 1000 ∧
    (runCalls ToyL1.cfg ToyL1.mainnetGenesis ToyL1.mainnetHistory).prove.bal ToyL1.cfg.vapp = 1000 :=
  ⟨ToyL1.cfg_wf, ToyL1.mainnetGenesis_ok, ToyL1.mainnetGenesis_root, ToyL1.mainnet_admissible,
    by with_reducible exact ToyL1.mainnet_genuine,
    ToyL1.mainnet_stays, by decide +kernel, by decide +kernel, by decide +kernel, by decide +kernel⟩

/-- The environment of C95's witness: Keccak-256 and signature recovery on secp256k1. -/
def realEnv : Env where
  keccak := Keccak.keccak256
  recover := Secp.recover
  json b := some (Json.body (fun _ => []) b)
  parseU256 := Amount.parse
  verify _ _ := true

/-- A payment of 100 on mainnet, with its ECDSA signature by the key `keccak256("requester")`. -/
def realTransfer : Tx := .transfer
  { format := 1
    signature := beBytes 65 0x093802ff82942aa457fd2c24ea06c0efe5014993dc4a4d37c094cb90d0f79c9673d39e9390312ad8d151d3230324956e939075e5a32d9fe1f61991441d8651fc1b
    body := some { nonce := 1, to := beBytes 20 0x79d91b679ded1b5e48d095d2f6af98fb2d32cd47, amount := [49, 48, 48],
                   domain := B256.bytes mainnetDomain, variant := 6,
                   auctioneer := beBytes 20 0x8a26777b5bc7849f58716378d97a544802df3b1b, fee := [55] } }

/-- The signer's deposit. -/
def realDeposit : Tx := .deposit ⟨10, 3, 1, ⟨0x5e23ecff53fc9d493fd07cec190106e44c4a536a, 1000⟩⟩

/-- The hypotheses of `c95_one_network` hold of a signed payment after a deposit. -/
example : realEnv.keccak = Keccak.keccak256 ∧ realTransfer.offchain = true ∧
    (Ledger.execute realEnv realTransfer
      (Ledger.after realEnv [realDeposit] (Ledger.new (Domain.mainnet Keccak.keccak256)))).1.accepted = true := by
  refine ⟨Eq.refl _, Eq.refl _, ?_⟩
  rw [mainnetDomain_eq]
  decide +kernel

end Verif
