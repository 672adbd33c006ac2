import Verif.Setup
import Verif.PropsNodeLedger
/-
# C107: a node started by the set-up script is paid its bid by the network it connects to

False of the code: the script connects the node to Sepolia, but the node signs for mainnet (`c107_false`), and the
script's bid of `1.01` counts as one of the smallest units for each unit of gas (`c107_price_partial`).
-/

namespace Verif.Setup

/-! ## Specification -/

/-- `cs` is `n` in hexadecimal, with digits of either case. -/
inductive HexOf : List Char → Nat → Prop
  | nil : HexOf [] 0
  | digit {cs : List Char} {n : Nat} (d : Fin 16) (c : Char) :
      HexOf cs n → (c = "0123456789abcdef".toList[d] ∨ c = "0123456789ABCDEF".toList[d]) → HexOf (cs ++ [c]) (16 * n + d)

/-! ## Proofs about addresses -/

theorem char_eq {c d : Char} (h : c.toNat = d.toNat) : c = d := by
  apply Char.ext; apply UInt32.toNat_inj.mp; exact h

theorem hexDigit_iff (c : Char) (d : Nat) : hexDigit c = some d ↔
    ∃ e : Fin 16, e.val = d ∧ (c = "0123456789abcdef".toList[e] ∨ c = "0123456789ABCDEF".toList[e]) := by
  constructor
  · intro h
    have hd : d < 16 := by
      unfold hexDigit at h
      split at h
      · injection h; omega
      · split at h
        · injection h; omega
        · split at h
          · injection h; omega
          · cases h
    refine ⟨⟨d, hd⟩, rfl, ?_⟩
    have hc : (c.toNat = 48 + d ∧ d < 10) ∨ (c.toNat = 87 + d ∧ 10 ≤ d) ∨ (c.toNat = 55 + d ∧ 10 ≤ d) := by
      unfold hexDigit at h
      split at h
      · injection h; omega
      · split at h
        · injection h; omega
        · split at h
          · injection h; omega
          · cases h
    have key : ∀ k : Fin 16, (k.val < 10 → ("0123456789abcdef".toList[k]).toNat = 48 + k.val) ∧
        (10 ≤ k.val → ("0123456789abcdef".toList[k]).toNat = 87 + k.val ∧
          ("0123456789ABCDEF".toList[k]).toNat = 55 + k.val) := by decide +kernel
    have hk := key ⟨d, hd⟩
    rcases hc with ⟨h1, h2⟩ | ⟨h1, h2⟩ | ⟨h1, h2⟩
    · exact .inl (char_eq (h1.trans (hk.1 h2).symm))
    · exact .inl (char_eq (h1.trans (hk.2 h2).1.symm))
    · exact .inr (char_eq (h1.trans (hk.2 h2).2.symm))
  · rintro ⟨e, rfl, h⟩
    have key : ∀ k : Fin 16, hexDigit ("0123456789abcdef".toList[k]) = some k.val ∧
        hexDigit ("0123456789ABCDEF".toList[k]) = some k.val := by decide +kernel
    rcases h with rfl | rfl
    · exact (key e).1
    · exact (key e).2

theorem hexFold_snoc (cs : List Char) (c : Char) : ∀ m, hexFold (cs ++ [c]) m =
    (hexFold cs m).bind fun n => (hexDigit c).map fun d => 16 * n + d := by
  induction cs with
  | nil =>
    intro m
    simp only [List.nil_append, hexFold, Option.bind_some]
    cases hexDigit c <;> rfl
  | cons x xs ih =>
    intro m
    simp only [List.cons_append, hexFold]
    cases hexDigit x with
    | none => rfl
    | some d => exact ih _

theorem hexFold_iff {cs : List Char} {n : Nat} : hexFold cs 0 = some n ↔ HexOf cs n := by
  constructor
  · have h : ∀ (r : List Char) n, hexFold r.reverse 0 = some n → HexOf r.reverse n := by
      intro r
      induction r with
      | nil => intro n h; cases h; exact .nil
      | cons c r ih =>
        intro n h
        rw [List.reverse_cons] at h ⊢
        rw [hexFold_snoc] at h
        match hm : hexFold r.reverse 0, hd : hexDigit c, h with
        | some m, some d, h =>
          obtain rfl : 16 * m + d = n := by injection h
          obtain ⟨e, rfl, he⟩ := (hexDigit_iff c d).mp hd
          exact .digit e c (ih m hm) he
        | none, _, h => cases h
        | some m, none, h => cases h
    have := h cs.reverse n
    rw [List.reverse_reverse] at this
    exact this
  · intro h
    induction h with
    | nil => rfl
    | digit d c _ hc ih =>
      rw [hexFold_snoc, ih, (hexDigit_iff c d).mpr ⟨d, rfl, hc⟩]
      rfl

theorem hexFold_some (cs : List Char) : ∀ m, (hexFold cs m).isSome = cs.all fun c => (hexDigit c).isSome := by
  induction cs with
  | nil => intro m; rfl
  | cons c cs ih =>
    intro m
    rw [hexFold, List.all_cons]
    cases hexDigit c with
    | none => rfl
    | some d => rw [ih]; rfl

theorem HexOf.lt {cs : List Char} {n : Nat} (h : HexOf cs n) : n < 16 ^ cs.length := by
  induction h with
  | nil => decide
  | digit d c _ _ ih =>
    rw [List.length_append, List.length_singleton, Nat.pow_succ]
    have := d.isLt
    omega

theorem addressOk_iff (t : List Char) : addressOk t = true ↔
    ∃ ds n, t = "0x".toList ++ ds ∧ ds.length = 40 ∧ HexOf ds n := by
  unfold addressOk
  split
  · rename_i ds
    rw [Bool.and_eq_true, beq_iff_eq, ← hexFold_some ds 0, Option.isSome_iff_exists]
    constructor
    · rintro ⟨h1, n, h2⟩
      exact ⟨ds, n, rfl, h1, hexFold_iff.mp h2⟩
    · rintro ⟨ds', n, h1, h2, h3⟩
      have e : ds = ds' := by
        have := List.append_cancel_left (as := "0x".toList) (bs := ds) (cs := ds') h1
        exact this
      subst e
      exact ⟨h2, n, hexFold_iff.mpr h3⟩
  · rename_i hn
    constructor
    · intro h; cases h
    · rintro ⟨ds, n, h1, _⟩
      exact absurd h1 (hn ds)

theorem parseAddress_hex {ds : List Char} {n : Nat} (hl : ds.length = 40) (h : HexOf ds n) :
    ∃ a : Address, parseAddress ("0x".toList ++ ds) = some a ∧ a.toNat = n := by
  refine ⟨BitVec.ofNat 160 n, ?_, ?_⟩
  · show (if ds.length = 40 then (hexFold ds 0).map (BitVec.ofNat 160) else none) = _
    rw [if_pos hl, hexFold_iff.mpr h]
    rfl
  · rw [BitVec.toNat_ofNat]
    have := h.lt
    rw [hl] at this
    exact Nat.mod_eq_of_lt (Nat.lt_of_lt_of_le this (by decide))

/-! ## C107 -/

/-- C107, the script takes exactly the well-formed answers: it starts the node if and only if a key is given and the
address is `0x` followed by 40 hexadecimal digits. -/
theorem c107_starts (proverAddress privateKey : List Char) : (script proverAddress privateKey).isSome ↔
    privateKey ≠ [] ∧ ∃ ds n, proverAddress = "0x".toList ++ ds ∧ ds.length = 40 ∧ HexOf ds n := by
  rw [← addressOk_iff]
  unfold script
  split
  · cases privateKey <;> simp_all
  · simp_all

/-- C107, the node the script starts: whatever well-formed answers are given, if the key is one, the node starts with
the address that was typed as its prover, one of the smallest units as its price for a unit of gas, the default
throughput of 10485606 units of gas a second, and the domain of mainnet. -/
theorem c107_node (kc : Bytes → B256) (lower : Retry.Str → Retry.Str)
    (keyOf : List Char → Option (Address × (Bytes → Bytes))) (proverAddress privateKey ds : List Char) (n : Nat)
    (signer : Address) (sign : Bytes → Bytes) (hkey : privateKey ≠ []) (hk : keyOf privateKey = some (signer, sign))
    (ha : proverAddress = "0x".toList ++ ds) (hl : ds.length = 40) (hn : HexOf ds n) :
    ∃ flags cfg, script proverAddress privateKey = some flags ∧
      flags.rpcUrl = "https://rpc.sepolia.succinct.xyz".toList ∧
      config kc lower keyOf flags = some cfg ∧
      cfg.prover.toNat = n ∧ cfg.signer = signer ∧ cfg.sign = sign ∧ cfg.price = 1 ∧
      cfg.requiredTime = Node.estimate (.fin false (10485606 * F64.one)) ∧
      cfg.mainnetDomain = Domain.mainnet kc ∧ cfg.lower = lower := by
  obtain ⟨a, h1, h2⟩ := parseAddress_hex hl hn
  have ho : addressOk proverAddress = true := (addressOk_iff _).mpr ⟨ds, n, ha, hl, hn⟩
  obtain ⟨f, hf⟩ : ∃ f, f = Node.estimate (.fin false (10485606 * F64.one)) := ⟨_, rfl⟩
  refine ⟨⟨"https://rpc.sepolia.succinct.xyz".toList, "10485606".toList, "1.01".toList, privateKey, proverAddress⟩,
    ⟨signer, sign, 1, a, f, Domain.mainnet kc, lower⟩, ?_, rfl, ?_, h2, rfl, rfl, rfl, hf, rfl, rfl⟩
  · unfold script
    rw [if_pos ho, if_neg (by cases privateKey <;> simp_all)]
  · have hb : Cli.bidArg "1.01".toList = some 1 := by decide +kernel
    have ht : F64.fromStr "10485606".toList = some (.fin false (10485606 * F64.one)) := by decide +kernel
    unfold config
    rw [ht, hb, ha, h1, hk, hf]

/-- The configuration of a node that the script starts for the address `n`. -/
def StartedBy (env : Env) (cfg : Node.Config) (n : Nat) : Prop :=
  ∃ lower keyOf proverAddress privateKey ds flags, proverAddress = "0x".toList ++ ds ∧ ds.length = 40 ∧ HexOf ds n ∧
    script proverAddress privateKey = some flags ∧ config env.keccak lower keyOf flags = some cfg

theorem started {env : Env} {cfg : Node.Config} {n : Nat} (h : StartedBy env cfg n) :
    cfg.prover.toNat = n ∧ cfg.price = 1 ∧ cfg.requiredTime = Node.estimate (.fin false (10485606 * F64.one)) ∧
      cfg.mainnetDomain = Domain.mainnet env.keccak := by
  obtain ⟨lower, keyOf, pa, pk, ds, flags, h1, h2, h3, h4, h5⟩ := h
  have hpk := ((c107_starts pa pk).mp (by rw [h4]; rfl)).1
  match hk : keyOf pk with
  | some (signer, sign) =>
    obtain ⟨flags', cfg', g1, _, g3, g4, _, _, g5, g6, g7, _⟩ := c107_node env.keccak lower keyOf pa pk ds n signer sign hpk hk h1 h2 h3
    rw [h4] at g1
    obtain rfl := Option.some.inj g1
    rw [h5] at g3
    obtain rfl := Option.some.inj g3
    exact ⟨g4, g5, g6, g7⟩
  | none =>
    exfalso
    have : flags.privateKey = pk := by
      unfold script at h4
      split at h4
      · split at h4
        · cases h4
        · obtain rfl := Option.some.inj h4; rfl
      · cases h4
    unfold config at h5
    rw [this, hk] at h5
    split at h5
    · rename_i h; cases h
    · cases h5

/-- C107 is false: a node that the script starts, connected to the RPC of Sepolia, works for nothing. No ledger of
Sepolia, with whatever history, accepts a clear that contains a bid of the node or pays for a fulfilment of it. (Keccak-256
meets `hcf`, see `networksDiffer_keccak`.) -/
theorem c107_false (env : Env) (hcf : NetworksDiffer env.keccak) (cfg : Node.Config) (n : Nat)
    (hs : StartedBy env cfg n) (before : List Tx) (c : ClearTx)
    (hacc : (Ledger.execute env (.clear c)
      (Ledger.after env before (Ledger.new (Domain.sepolia env.keccak)))).1.accepted = true) :
    (∀ (w : Node.World), Node.Query.bid c.bid ∉ (Node.bidRound cfg w []).2) ∧
    (∀ (w : Node.World) e f, c.execute.body = some e → e.executionStatus ≠ 3 → c.fulfill = some f →
      Node.Query.fulfill f ∉ (Node.proveRound cfg w []).2) := by
  obtain ⟨_, _, _, hd⟩ := started hs
  obtain ⟨h1, h2⟩ := c87_node env hcf cfg hd before c hacc
  constructor
  · intro w hb
    obtain ⟨pre, post, hsplit⟩ := List.append_of_mem hb
    exact h1 w _ _ pre post rfl hsplit
  · intro w e f he hst hf hful
    obtain ⟨rid, proof, nonce, h⟩ := Node.fulfill_in_round hful
    exact h2 e f rid proof nonce he hst hf h

/-- C107, what does hold: against a ledger of mainnet a bid and a fulfilment of the node settle, for the base fee and
one of the smallest units for each unit of gas. Missing from the full property: the script connects to Sepolia, and
its default bid of `1.01` $PROVE per billion units of gas would be `1.01 * 10^9` for each unit. -/
theorem c107_price_partial (env : Env) (cfg : Node.Config) (n : Nat) (hs : StartedBy env cfg n)
    (s : Ledger) (hfit : Node.Fits env cfg s) (hT : s.total < 2 ^ 256)
    (wb wp : Node.World) (c : ClearTx) (f : Signed FulfillBody) (bid : BidBody) (body : FulfillBody)
    (hbid : Node.Query.bid c.bid ∈ (Node.bidRound cfg wb []).2)
    (hful : Node.Query.fulfill f ∈ (Node.proveRound cfg wp []).2)
    (hcf : c.fulfill = some f) (hbb : c.bid.body = some bid) (hfb : f.body = some body)
    (request : RequestBody) (requester : Address) (id : B256) (baseFee : U256) (pgus : U64) (pvh : Bytes)
    (hidb : bid.requestId = B256.bytes id) (hidf : body.requestId = B256.bytes id)
    (ho : Node.Others env cfg c s request requester id baseFee pgus pvh)
    (hacc : Node.Accepted env cfg c request pvh body)
    (htr : ∃ t, request.treasury = Address.bytes t) (hacct : (s.acct requester).isSome)
    (hbal : baseFee.toNat + pgus.toNat ≤ s.bal requester) (hbips : (s.bips cfg.prover).toNat ≤ 10000)
    (hfits : (baseFee.toNat + pgus.toNat) * 10000 < 2 ^ 256) :
    ∃ r s' stakerPart ownerPart, Ledger.execute env (.clear c) s = (.ok r, s') ∧
      stakerPart + ownerPart = baseFee.toNat + pgus.toNat ∧
      ∀ a, s'.bal a + pay (a = requester) (baseFee.toNat + pgus.toNat) =
        s.bal a + pay (a.toNat = n) stakerPart + pay (a = s.owner cfg.prover) ownerPart := by
  obtain ⟨hprover, hprice, _, _⟩ := started hs
  have e : ∀ p : Nat, cfg.price.toNat * p = p := fun p => by rw [hprice]; exact Nat.one_mul p
  obtain ⟨r, s', st, ow, h1, h2, _, h4⟩ := Node.c75_settles env cfg s hfit hT wb wp c f bid body hbid hful hcf hbb hfb
    request requester id baseFee pgus pvh hidb hidf ho hacc htr hacct (by rw [e]; exact hbal) hbips (by rw [e]; exact hfits)
  rw [e] at h2
  refine ⟨r, s', st, ow, h1, h2, fun a => ?_⟩
  have h := h4 a
  rw [e] at h
  have hp : pay (a.toNat = n) st = pay (a = cfg.prover) st := by
    unfold pay
    rw [← hprover]
    by_cases hh : a = cfg.prover
    · rw [if_pos hh, if_pos (by rw [hh])]
    · rw [if_neg hh, if_neg (fun g => hh (BitVec.eq_of_toNat_eq g))]
  rw [hp]
  exact h

/-- C107, with the default throughput the node bids only on what it can prove in time at 10485606 units of gas a
second, up to the rounding of the division (see C86). -/
theorem c107_in_time (env : Env) (cfg : Node.Config) (n : Nat) (hs : StartedBy env cfg n) (w : Node.World)
    (r : Retry.Outcome Unit) (log : List Node.Query) (h : Node.bidRound cfg w [] = (r, log))
    (pre post : List Node.Query) (b : Signed BidBody) (hb : log = pre ++ .bid b :: post) :
    ∃ pre' id d left, pre = pre' ++ [.getNonce (Address.bytes cfg.signer), .details id, .now] ∧
      (∃ body, b.body = some body ∧ body.requestId = id) ∧
      w.details (pre' ++ [.getNonce (Address.bytes cfg.signer)]) id = .ok (some d) ∧
      left = d.deadline.toNat - (w.now (pre' ++ [.getNonce (Address.bytes cfg.signer), .details id])).toNat ∧
      (left + 1 < 2 ^ 64 → (2 ^ 52 - 1) * d.gasLimit.toNat ≤ 2 ^ 52 * ((left + 1) * 10485606)) := by
  obtain ⟨_, _, ht, _⟩ := started hs
  have h0 : 0 < F64.one := Nat.two_pow_pos _
  obtain ⟨pre', id, d, left, h1, h2, h3, h4, h5⟩ := Node.c86_in_time (t := 10485606 * F64.one) (Nat.mul_pos (by decide) h0) cfg w r log
    ht h pre post b hb
  refine ⟨pre', id, d, left, h1, h2, h3, h4, fun hl => ?_⟩
  have := h5 hl
  rw [← Nat.mul_assoc, ← Nat.mul_assoc (left + 1), ← Nat.mul_assoc (2 ^ 52)] at this
  exact Nat.le_of_mul_le_mul_right this h0

/-! ## Non-vacuity -/

/-- The answers of a prover, and one the script refuses: a digit short, a wrong letter, no `0x`, no key. -/
example :
    (script "0x00000000000000000000000000000000000000aF".toList "k".toList).isSome = true ∧
    (script "0x00000000000000000000000000000000000000a".toList "k".toList).isSome = false ∧
    (script "0x00000000000000000000000000000000000000ag".toList "k".toList).isSome = false ∧
    (script "0000000000000000000000000000000000000000aF".toList "k".toList).isSome = false ∧
    (script "0x00000000000000000000000000000000000000aF".toList []).isSome = false := by decide +kernel

/-- The hypotheses of `c107_false` hold: a ledger of Sepolia accepts a clear signed for it. -/
example : NetworksDiffer Toy.env.keccak ∧
    (Ledger.execute Toy.env (.clear (Toy.moved (Domain.sepolia Toy.env.keccak)))
      (Ledger.after Toy.env [Toy.deposit1, Toy.create2] (Ledger.new (Domain.sepolia Toy.env.keccak)))).1.accepted = true :=
  ⟨networksDiffer_toy, by decide +kernel⟩

/-- An environment in which the domain of mainnet is the one of the toy ledger. -/
def mainEnv : Env := { Node.nodeEnv with keccak := fun _ => Toy.dom }

/-- The owner of the toy prover runs the script. -/
def typed : List Char := "0x0000000000000000000000000000000000009999".toList

/-- The node that starts. -/
def startConfig (f : U64 → U64) : Node.Config where
  signer := Toy.owner
  sign := fun _ => Address.bytes Toy.owner
  price := 1
  prover := Toy.prover
  requiredTime := f
  mainnetDomain := Domain.mainnet mainEnv.keccak
  lower := id

theorem start_started (f : U64 → U64) (hf : f = Node.estimate (.fin false (10485606 * F64.one))) :
    StartedBy mainEnv (startConfig f) 0x9999 := by
  have hl : (typed.drop 2).length = 40 := by decide +kernel
  have hn : HexOf (typed.drop 2) 0x9999 := hexFold_iff.mp (by decide +kernel)
  obtain ⟨flags, cfg, h1, _, h2, h3, h4, h5, h6, h7, h8, h9⟩ := c107_node mainEnv.keccak id
    (fun _ => some (Toy.owner, fun _ => Address.bytes Toy.owner)) typed "k".toList (typed.drop 2) 0x9999 Toy.owner
    (fun _ => Address.bytes Toy.owner) (by decide) rfl (by decide +kernel) hl hn
  refine ⟨id, fun _ => some (Toy.owner, fun _ => Address.bytes Toy.owner), typed, "k".toList, typed.drop 2, flags,
    by decide +kernel, hl, hn, h1, ?_⟩
  rw [h2]
  obtain ⟨signer, sign, price, prover, time, domain, lower⟩ := cfg
  obtain rfl : prover = Toy.prover := BitVec.eq_of_toNat_eq h3
  subst hf h4 h5 h6 h8 h9
  rw [show time = _ from h7]
  rfl

/-- The toy request is listed under its identifier. -/
def startReq : Node.Req := { Node.nodeReq with requestId := B256.bytes Toy.dom }

/-- A network where the request is open. -/
def startOpen : Node.World := fun past q =>
  match q with
  | .filtered f => if f.status = .requested then Except.ok [startReq] else Except.ok []
  | .details _ => Except.ok (some startReq)
  | q => Node.demoWorld past q

/-- A network where the request is assigned to the node. -/
def startWon : Node.World := fun past q =>
  match q with
  | .filtered _ => Except.ok [startReq]
  | q => Node.demoWorld past q

/-- The clear with the toy messages of the other parties. -/
def startClear (b : Signed BidBody) (f : Signed FulfillBody) : ClearTx :=
  { Node.nodeClear b f with
    settle := ⟨1, Address.bytes Toy.auctioneer, some { Node.nodeSettle with requestId := B256.bytes Toy.dom }⟩
    execute := ⟨1, Address.bytes Toy.executor, some { Node.nodeExecute with requestId := B256.bytes Toy.dom }⟩ }

theorem start_fits (f : U64 → U64) : Node.Fits mainEnv (startConfig f) Toy.s2 where
  signs := Node.nodeFits.signs
  parses := Node.nodeFits.parses
  domain := Node.toy_domain
  present := by show (Toy.s2.acct Toy.prover).isSome = true; decide +kernel
  delegated := by show Toy.s2.signer Toy.prover = Toy.owner; decide +kernel

open Node in
theorem start_messages (f : U64 → U64) (hf : f = estimate (.fin false (10485606 * F64.one))) :
    ∃ b g bid body, Query.bid b ∈ (bidRound (startConfig f) startOpen []).2 ∧
    Query.fulfill g ∈ (proveRound (startConfig f) startWon []).2 ∧ b.body = some bid ∧ g.body = some body ∧
    bid.requestId = B256.bytes Toy.dom ∧ body.requestId = B256.bytes Toy.dom := by
  obtain ⟨b, post, hb⟩ := c86_does_bid (t := 10485606 * F64.one) (Nat.mul_pos (by decide) (Nat.two_pow_pos _)) (startConfig f)
    startOpen (bidRound (startConfig f) startOpen []).1
    (bidRound (startConfig f) startOpen []).2 hf rfl (Address.bytes Toy.owner) 900 900 startReq startReq 4 100
    rfl rfl rfl rfl rfl rfl rfl (show 100 = (1000 : U64).toNat - (900 : U64).toNat by decide) (by decide) (by
      rw [← Nat.mul_assoc]
      exact Nat.mul_le_mul_right _ (by decide))
  obtain ⟨owner, t1, t2, req, pre', nonce, d, amount, _, _, hf', hp, _, _, _, hbody, _⟩ :=
    c52_bids (startConfig f) startOpen _ _ rfl _ _ b hb
  have hreq : req = startReq := by
    have : startOpen.filtered ((bidHeader (startConfig f) owner t1 t2).take 4) (openFilter owner t2) = .ok [startReq] := rfl
    rw [this] at hf'
    injection hf' with hf'
    injection hf' with hf' _
    exact hf'.symm
  obtain ⟨seg, h1, h2⟩ := c53_all_answered_partial (startConfig f) startWon (Address.bytes Toy.owner) 900 [startReq] rfl rfl rfl
    (fun _ _ _ _ => ⟨[], rfl⟩) (by intro r hr; rw [List.mem_singleton] at hr; subst hr; decide)
    (by intro L p s m c t h; cases h)
  cases h2 with
  | cons ha hr =>
    cases hr
    cases ha with
    | unexecutable _ hu => cases hu
    | failed _ _ _ _ _ _ _ _ _ _ hne => exact absurd rfl (hne _ _ _)
    | fulfilled pid sid p s m proof cyc ms tail _ _ _ _ _ hs =>
      rcases hs.sent with ⟨q, hq, hsub⟩ | ⟨_, _, _, he⟩
      · obtain ⟨pre, post', hsplit⟩ := List.append_of_mem hq
        obtain ⟨_, nonce', _, _, g, body, rfl, _, hfb, _, hb2⟩ := hs.kind pre q post' hsplit hsub
        refine ⟨b, g, _, body, ?_, ?_, hbody, hfb, ?_, ?_⟩
        · rw [hb]; exact List.mem_append_right _ (List.mem_cons_self)
        · rw [h1]
          exact List.mem_append_right _ (List.mem_append_left _ (List.mem_append_right _ hq))
        · rw [hreq]; rfl
        · rw [hb2]; rfl
      · cases he

theorem mainEnv_recover (a : Address) (m : Bytes) : mainEnv.recover m (Address.bytes a) = some a := by
  simp only [mainEnv, Node.nodeEnv, Toy.env, Address.ofBytes?_bytes]

open Node in
theorem start_others (f : U64 → U64) (b : Signed BidBody) (g : Signed FulfillBody) :
    Others mainEnv (startConfig f) (startClear b g) Toy.s2 nodeRequest Toy.alice Toy.dom 10 50 (List.replicate 32 9) := by
  have hd := congrArg B256.bytes toy_domain.symm
  constructor
  · exact ⟨rfl, rfl, hd, .inl ⟨rfl, mainEnv_recover Toy.alice _⟩⟩
  · exact ⟨rfl, by decide +kernel⟩
  · exact ⟨_, Toy.auctioneer, rfl, rfl, hd, rfl, rfl, .inl ⟨rfl, mainEnv_recover Toy.auctioneer _⟩⟩
  · exact ⟨_, Toy.executor, rfl, rfl, hd, rfl, rfl, .inl ⟨rfl, mainEnv_recover Toy.executor _⟩, rfl, rfl, rfl⟩
  · exact .inr (by show Address.bytes Toy.prover ∈ _; decide +kernel)
  · decide +kernel
  · exact ⟨3, by decide +kernel, by show (1 : U256).toNat ≤ _; decide +kernel⟩
  · decide +kernel
  · exact ⟨by decide +kernel, by decide +kernel, fun h hh => (nomatch hh)⟩

/-- The hypotheses of `c107_price_partial` hold: the node that the script starts for the toy prover wins the toy
request, and gets 60 for it: 10 of base fee and 1 for each of the 50 units of gas. -/
example (f : U64 → U64) (hf : f = Node.estimate (.fin false (10485606 * F64.one))) :
    ∃ b g r s' stakerPart ownerPart, StartedBy mainEnv (startConfig f) 0x9999 ∧
      Ledger.execute mainEnv (.clear (startClear b g)) Toy.s2 = (.ok r, s') ∧
      stakerPart + ownerPart = 60 ∧
      s'.bal Toy.alice + 60 = Toy.s2.bal Toy.alice := by
  obtain ⟨b, g, bid, body, h1, h2, h3, h4, h5, h6⟩ := start_messages f hf
  obtain ⟨r, s', st, ow, hx, hs, hbal⟩ := c107_price_partial mainEnv (startConfig f) 0x9999 (start_started f hf) Toy.s2
    (start_fits f) (by decide +kernel) startOpen startWon (startClear b g) g bid body h1 h2 rfl h3 h4 Node.nodeRequest Toy.alice
    Toy.dom 10 50 _ h5 h6 (start_others f b g) (.inl ⟨rfl, by decide +kernel, _, by rfl, rfl⟩) ⟨Toy.treasury, rfl⟩
    (by decide +kernel) (by decide +kernel) (by show (Toy.s2.bips Toy.prover).toNat ≤ _; decide +kernel) (by decide +kernel)
  refine ⟨b, g, r, s', st, ow, start_started f hf, hx, hs, ?_⟩
  have := hbal Toy.alice
  have e1 : pay (Toy.alice = Toy.alice) ((10 : U256).toNat + (50 : U64).toNat) = 60 := by decide +kernel
  have e2 : pay (Toy.alice.toNat = 0x9999) st = 0 := by unfold pay; rw [if_neg (by decide +kernel)]
  have e3 : pay (Toy.alice = Toy.s2.owner (startConfig f).prover) ow = 0 := by
    unfold pay; rw [if_neg (by show ¬ Toy.alice = Toy.s2.owner Toy.prover; decide +kernel)]
  omega

end Verif.Setup
