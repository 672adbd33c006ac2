import Verif.Domain
import Verif.MerkleSpec
import Verif.PropsNodeLedger
/-
# C87: the networks are kept apart by their domains
-/

namespace Verif
open Domain

/-- The inputs whose hashes decide whether two domains differ. -/
def DomainInputs (kc : Bytes → B256) (n v : Bytes) (c : Nat) (n' v' : Bytes) (c' : Nat) (x : Bytes) : Prop :=
  x ∈ [n, n', v, v', preimage kc n v c, preimage kc n' v' c']

/-- **C87, separators.** Two domains have the same separator only if name, version and chain id agree. -/
theorem c87_separator {kc : Bytes → B256} {n v n' v' : Bytes} {c c' : Nat} (hc : c < 2 ^ 256) (hc' : c' < 2 ^ 256)
    (hcf : CollisionFree kc (DomainInputs kc n v c n' v' c')) (h : separator kc n v c = separator kc n' v' c') :
    n = n' ∧ v = v' ∧ c = c' := by
  have hp := hcf _ _ (by simp [DomainInputs]) (by simp [DomainInputs]) h
  unfold preimage at hp
  obtain ⟨h1, h2⟩ := List.append_inj hp (by simp only [List.length_append, B256.bytes_length])
  obtain ⟨h3, h4⟩ := List.append_inj h1 (by simp only [List.length_append, B256.bytes_length])
  obtain ⟨_, h6⟩ := List.append_inj h3 (by simp only [B256.bytes_length])
  exact ⟨hcf _ _ (by simp [DomainInputs]) (by simp [DomainInputs]) (B256.bytes_inj h6),
    hcf _ _ (by simp [DomainInputs]) (by simp [DomainInputs]) (B256.bytes_inj h4),
    beBytes_inj (k := 32) hc hc' h2⟩

/-- **C87, names.** Exactly the names of the two networks are accepted: the domain of mainnet is the one of chain 1, the
domain of Sepolia that of chain 11155111, both of the protocol "Succinct Prover Network" in version "1.0.0". -/
theorem c87_names (kc : Bytes → B256) :
    getDomain kc "SPN_MAINNET_V1_DOMAIN".toList =
      some (separator kc (ascii "Succinct Prover Network".toList) (ascii "1.0.0".toList) 1) ∧
    getDomain kc "SPN_SEPOLIA_V1_DOMAIN".toList =
      some (separator kc (ascii "Succinct Prover Network".toList) (ascii "1.0.0".toList) 11155111) ∧
    ∀ name, name ≠ "SPN_MAINNET_V1_DOMAIN".toList → name ≠ "SPN_SEPOLIA_V1_DOMAIN".toList → getDomain kc name = none := by
  refine ⟨if_pos rfl, ?_, fun name h1 h2 => ?_⟩
  · unfold getDomain
    rw [if_neg (by decide), if_pos rfl]; rfl
  · unfold getDomain
    rw [if_neg h1, if_neg h2]

/-- Keccak has no collision on what the two networks' separators hash. -/
def NetworksDiffer (kc : Bytes → B256) : Prop :=
  CollisionFree kc (DomainInputs kc protocolName protocolVersion 1 protocolName protocolVersion 11155111)

/-- **C87, the names of different networks give different domains.** -/
theorem c87_distinct {kc : Bytes → B256} (hcf : NetworksDiffer kc) {name name' : List Char} {d d' : B256}
    (h : getDomain kc name = some d) (h' : getDomain kc name' = some d') : d = d' ↔ name = name' := by
  have hne : mainnet kc ≠ sepolia kc := fun e =>
    absurd (c87_separator (by decide) (by decide) hcf e).2.2 (by decide)
  unfold getDomain at h h'
  split at h
  · rename_i e
    cases Option.some.inj h
    split at h'
    · rename_i e'
      cases Option.some.inj h'
      exact ⟨fun _ => e.trans e'.symm, fun _ => rfl⟩
    · split at h'
      · rename_i _ e'
        cases Option.some.inj h'
        exact ⟨fun x => absurd x hne, fun x => absurd (e.symm.trans (x.trans e')) (by decide)⟩
      · exact nomatch h'
  · split at h
    · rename_i _ e
      cases Option.some.inj h
      split at h'
      · rename_i e'
        cases Option.some.inj h'
        exact ⟨fun x => absurd x.symm hne, fun x => absurd (e.symm.trans (x.trans e')) (by decide)⟩
      · split at h'
        · rename_i _ e'
          cases Option.some.inj h'
          exact ⟨fun _ => e.trans e'.symm, fun _ => rfl⟩
        · exact nomatch h'
    · exact nomatch h

/-- **C87, no message counts on two networks.** Two ledgers set up for networks of different names never both accept
the same off-chain transaction, whatever they have executed before. -/
theorem c87_one_network (env : Env) (hcf : NetworksDiffer env.keccak) {name name' : List Char} {d d' : B256}
    (h : getDomain env.keccak name = some d) (h' : getDomain env.keccak name' = some d') (hne : name ≠ name')
    (before before' : List Tx) (tx : Tx) (ho : tx.offchain = true)
    (hacc : (Ledger.execute env tx (Ledger.after env before (Ledger.new d))).1.accepted = true) :
    (Ledger.execute env tx (Ledger.after env before' (Ledger.new d'))).1.accepted = false := by
  refine c06_no_cross_domain env tx _ _ ho hacc ?_
  rw [c06_domain_constant, c06_domain_constant]
  exact fun e => hne ((c87_distinct hcf h h').mp e)

/-- **C87, what a node signs counts on mainnet only.** A clear that contains a bid of a node, or pays for its
fulfilment, is accepted by no ledger set up for Sepolia. -/
theorem c87_node (env : Env) (hcf : NetworksDiffer env.keccak) (cfg : Node.Config)
    (hcfg : cfg.mainnetDomain = mainnet env.keccak) (before : List Tx) (c : ClearTx)
    (hacc : (Ledger.execute env (.clear c) (Ledger.after env before (Ledger.new (sepolia env.keccak)))).1.accepted = true) :
    (∀ (w : Node.World) r log pre post, Node.bidRound cfg w [] = (r, log) → log ≠ pre ++ .bid c.bid :: post) ∧
    (∀ e f rid proof nonce, c.execute.body = some e → e.executionStatus ≠ 3 → c.fulfill = some f →
      ¬ Node.IsFulfill cfg rid proof nonce (.fulfill f)) := by
  have hne : mainnet env.keccak ≠ sepolia env.keccak := fun e =>
    absurd (c87_separator (by decide) (by decide) hcf e).2.2 (by decide)
  obtain ⟨h1, _, h3⟩ := c06_domain env _ _ _ _ rfl hacc
  rw [c06_domain_constant] at h1
  rw [c06_domain_constant] at h3
  have key : ∀ d : Bytes, d = beBytes 32 cfg.mainnetDomain.toNat → d ≠ B256.bytes (Ledger.new (sepolia env.keccak)).sc.domain := by
    intro d hd e
    rw [hd, hcfg] at e
    exact hne (B256.bytes_inj e)
  constructor
  · intro w r log pre post hb hlog
    obtain ⟨_, _, _, _, _, _, _, _, _, _, _, _, _, _, _, hbody, _⟩ := Node.c52_bids cfg w r log hb pre post c.bid hlog
    refine key _ rfl (h1 _ ?_)
    simp [Tx.domains, hbody]
  · rintro e f rid proof nonce he hst hf ⟨f', body, hq, _, hb, _, hbody⟩
    obtain ⟨g, b, hg, hgb, hd⟩ := h3 c e rfl he hst
    have e1 : f = f' := by injection hq
    have e2 : f = g := Option.some.inj (hf.symm.trans hg)
    rw [← e1, e2] at hb
    have e3 : b = body := Option.some.inj (hgb.symm.trans hb)
    rw [e3] at hd
    exact key _ (by rw [hbody]) hd

/-! ## Witnesses -/

/-- A clear with all its messages moved to another domain. -/
def Toy.moved (d : B256) : ClearTx :=
  let c := Toy.clear { Toy.request with domain := B256.bytes d } 2 Toy.prover Toy.owner
  { c with
    bid := { c.bid with body := c.bid.body.map fun b => { b with domain := B256.bytes d } }
    settle := { c.settle with body := c.settle.body.map fun b => { b with domain := B256.bytes d } }
    execute := { c.execute with body := c.execute.body.map fun b => { b with domain := B256.bytes d } }
    fulfill := c.fulfill.map fun f => { f with body := f.body.map fun b => { b with domain := B256.bytes d } } }

/-- The hash of the toy environment has no collision on the inputs of the two domains. -/
theorem networksDiffer_toy : NetworksDiffer Toy.env.keccak := by
  have h : ∀ x ∈ [protocolName, protocolName, protocolVersion, protocolVersion, preimage Toy.env.keccak protocolName protocolVersion 1,
      preimage Toy.env.keccak protocolName protocolVersion 11155111],
      ∀ y ∈ [protocolName, protocolName, protocolVersion, protocolVersion, preimage Toy.env.keccak protocolName protocolVersion 1,
      preimage Toy.env.keccak protocolName protocolVersion 11155111], Toy.env.keccak x = Toy.env.keccak y → x = y := by
    decide +kernel
  exact fun x y hx hy => h x hx y hy

/-- The hypotheses of `c87_one_network` and `c87_node` hold: the same clear, signed for one network, is accepted there
and not on the other. -/
example :
    (Ledger.execute Toy.env (.clear (Toy.moved (sepolia Toy.env.keccak)))
      (Ledger.after Toy.env [Toy.deposit1, Toy.create2] (Ledger.new (sepolia Toy.env.keccak)))).1.accepted = true ∧
    (Ledger.execute Toy.env (.clear (Toy.moved (mainnet Toy.env.keccak)))
      (Ledger.after Toy.env [Toy.deposit1, Toy.create2] (Ledger.new (mainnet Toy.env.keccak)))).1.accepted = true ∧
    (Ledger.execute Toy.env (.clear (Toy.moved (mainnet Toy.env.keccak)))
      (Ledger.after Toy.env [Toy.deposit1, Toy.create2] (Ledger.new (sepolia Toy.env.keccak)))).1.accepted = false := by
  decide +kernel

end Verif
