import Verif.NodeProofs
/-
# C52: the serial bidder
-/

namespace Verif.Node
open Retry (RpcError TransientClass)

/-! ## Specification -/

/-- Value of a string of decimal digits. -/
def decVal (bs : Bytes) : Nat := bs.foldl (fun n b => n * 10 + (b.toNat - 48)) 0

/-- Why a bid `b` that the round submits after asking `pre` is one the node should make: it has no assigned
request, the network returned exactly one open request, the three questions just before the bid were the nonce,
the details of that request and the time, the remaining time suffices, and the signed message carries the
configured price and prover, the request identifier, the fresh nonce, the domain and the bid variant. -/
def Justified (cfg : Config) (w : World) (pre : List Query) (b : Signed BidBody) : Prop :=
  ∃ owner t1 t2 req pre' nonce d amount,
    bidHeader cfg owner t1 t2 <+: pre ∧
    w.filtered ((bidHeader cfg owner t1 t2).take 2) (assignedFilter owner t1) = .ok [] ∧
    w.filtered ((bidHeader cfg owner t1 t2).take 4) (openFilter owner t2) = .ok [req] ∧
    pre = pre' ++ [.getNonce (Address.bytes cfg.signer), .details req.requestId, .now] ∧
    w.nonce pre' (Address.bytes cfg.signer) = .ok nonce ∧
    w.details (pre' ++ [.getNonce (Address.bytes cfg.signer)]) req.requestId = .ok (some d) ∧
    (cfg.requiredTime d.gasLimit).toNat ≤ d.deadline.toNat -
      (w.now (pre' ++ [.getNonce (Address.bytes cfg.signer), .details req.requestId])).toNat ∧
    b.body = some ⟨nonce, req.requestId, amount, beBytes 32 cfg.mainnetDomain.toNat, Address.bytes cfg.prover, 1⟩ ∧
    decVal amount = cfg.price.toNat ∧ amount ≠ [] ∧ (∀ c ∈ amount, 48 ≤ c.toNat ∧ c.toNat ≤ 57) ∧
    b.format = 1 ∧ ∃ body, b.body = some body ∧ b.signature = cfg.sign (Body.bid body).encode

/-- Whether a question is a bid. -/
def Query.isBid : Query → Bool
  | .bid _ => true
  | _ => false

/-! ## Lemmas -/

theorem decVal_append (a : Bytes) (b : UInt8) : decVal (a ++ [b]) = decVal a * 10 + (b.toNat - 48) := by
  simp [decVal]

theorem digit_toNat (k : Nat) (h : k < 10) : (UInt8.ofNat (48 + k)).toNat = 48 + k := by
  simp only [UInt8.toNat_ofNat']
  omega

theorem decVal_decimal (n : Nat) : decVal (decimal n) = n := by
  induction n using Nat.strongRecOn with
  | ind n ih =>
    rw [decimal]
    split
    · next h => simp only [decVal, List.foldl_cons, List.foldl_nil]; rw [digit_toNat n h]; omega
    · rw [decVal_append, ih (n / 10) (by omega), digit_toNat _ (Nat.mod_lt _ (by decide))]
      omega

theorem decimal_ne_nil (n : Nat) : decimal n ≠ [] := by
  rw [decimal]
  split <;> simp

theorem decimal_digits (n : Nat) : ∀ c ∈ decimal n, 48 ≤ c.toNat ∧ c.toNat ≤ 57 := by
  induction n using Nat.strongRecOn with
  | ind n ih =>
    intro c hc
    rw [decimal] at hc
    split at hc
    · next h =>
      rw [List.mem_singleton] at hc
      rw [hc, digit_toNat n h]; omega
    · rcases List.mem_append.1 hc with h | h
      · exact ih (n / 10) (by omega) c h
      · rw [List.mem_singleton] at h
        have := Nat.mod_lt n (show 0 < 10 by decide)
        rw [h, digit_toNat _ this]; omega

/-- The log of a round that retried a bid: header, failed tries, last try. -/
theorem bid_log (cfg : Config) (w : World) (r : Retry.Outcome Unit) (log : List Query)
    (h : bidRound cfg w [] = (r, log)) :
    (∀ b, Query.bid b ∉ log) ∨
    ∃ owner t1 t2 req n L1 L2 r, w.owner [] (Address.bytes cfg.signer) = .ok owner ∧
      w.filtered ((bidHeader cfg owner t1 t2).take 2) (assignedFilter owner t1) = .ok [] ∧
      w.filtered ((bidHeader cfg owner t1 t2).take 4) (openFilter owner t2) = .ok [req] ∧ n ≤ 240 ∧
      Tries cfg.lower (bidAttempt cfg req.requestId) w n (bidHeader cfg owner t1 t2) L1 ∧
      bidAttempt cfg req.requestId w L1 = (r, L2) ∧ log = L2 ++ [.retryTime] := by
  rcases bidRound_cases cfg w with ⟨r', log', h', _, hn⟩ | ⟨owner, t1, t2, req, ho, _, ha, _, hu, hr⟩
  · rw [h] at h'; cases h'
    exact .inl hn
  · obtain ⟨n, L1, L2, r', hn, htr, hop, hw⟩ :=
      withRetry_cases cfg (bidAttempt cfg req.requestId) w (bidHeader cfg owner t1 t2)
    rw [← hr, h] at hw
    cases hw
    exact .inr ⟨owner, t1, t2, req, n, L1, L2, r, ho, ha, hu, hn, htr, hop, rfl⟩

theorem append_eq_split {α : Type} {a b pre post : List α} {q : α} (h : a ++ b = pre ++ q :: post) :
    (∃ x, a = pre ++ q :: x ∧ post = x ++ b) ∨ (∃ x, pre = a ++ x ∧ b = x ++ q :: post) := by
  rcases List.append_eq_append_iff.1 h with ⟨x, h1, h2⟩ | ⟨x, h1, h2⟩
  · exact .inr ⟨x, h1, h2⟩
  · cases x with
    | nil => exact .inr ⟨[], by simpa using h1.symm, by simpa using h2.symm⟩
    | cons y x =>
      rw [List.cons_append, List.cons.injEq] at h2
      exact .inl ⟨x, by rw [h1, h2.1], h2.2⟩

theorem bidAttempt_extends (cfg : Config) (rid : Bytes) (w : World) (L L' : List Query) (r : Retry.Outcome Unit)
    (h : bidAttempt cfg rid w L = (r, L')) : ∃ seg, L' = L ++ seg ∧ (seg.filter Query.isBid).length ≤ 1 := by
  rcases bidAttempt_cases cfg rid w L with ⟨r'', seg, h', hs⟩ | ⟨nonce, d, _, _, _, h4⟩
  · rw [h] at h'; cases h'
    refine ⟨seg, rfl, ?_⟩
    rw [List.filter_eq_nil_iff.2]
    · exact Nat.zero_le _
    · intro q hq hqb
      cases q <;> simp [Query.isBid] at hqb
      exact hs _ hq
  · rw [h] at h4; cases h4
    exact ⟨_, rfl, Nat.le_refl 1⟩

theorem tries_extend (cfg : Config) (rid : Bytes) (w : World) (n : Nat) (L L' : List Query)
    (h : Tries cfg.lower (bidAttempt cfg rid) w n L L') :
    ∃ seg, L' = L ++ seg ∧ (seg.filter Query.isBid).length ≤ n := by
  induction h with
  | nil L => exact ⟨[], by simp, by simp⟩
  | cons ho _ _ ih =>
    obtain ⟨s1, rfl, h1⟩ := bidAttempt_extends cfg rid w _ _ _ ho
    obtain ⟨s2, rfl, h2⟩ := ih
    refine ⟨s1 ++ .retryTime :: s2, by simp, ?_⟩
    rw [List.filter_append, List.filter_cons_of_neg (by simp [Query.isBid]), List.length_append]
    omega

/-! ## C52 -/

/-- Every bid a round submits is justified. -/
theorem c52_bids (cfg : Config) (w : World) (r : Retry.Outcome Unit) (log : List Query)
    (h : bidRound cfg w [] = (r, log)) (pre post : List Query) (b : Signed BidBody)
    (hb : log = pre ++ .bid b :: post) : Justified cfg w pre b := by
  rcases bid_log cfg w r log h with hn | ⟨owner, t1, t2, req, n, L1, L2, r', ho, ha, hu, hn, htr, hop, rfl⟩
  · exact absurd (by rw [hb]; simp) (hn b)
  · let P : List Query → Query → Prop := fun pre q => ∀ b, q = .bid b → bidHeader cfg owner t1 t2 <+: pre →
      Justified cfg w pre b
    have hatt : ∀ L r L', bidAttempt cfg req.requestId w L = (r, L') → ∃ seg, L' = L ++ seg ∧ Each P L seg := by
      intro L r L' hL
      rcases bidAttempt_cases cfg req.requestId w L with ⟨r'', seg, h', hs⟩ | ⟨nonce, d, h1, h2, h3, h4⟩
      · rw [hL] at h'; cases h'
        refine ⟨seg, rfl, each_of_mem ?_⟩
        intro q hq L b hqb
        subst hqb
        exact absurd hq (hs b)
      · rw [hL] at h4; cases h4
        refine ⟨_, rfl, ?_⟩
        refine ⟨fun b hq => (nomatch hq), fun b hq => (nomatch hq), fun b hq => (nomatch hq), ?_, trivial⟩
        intro b hq hpre
        cases hq
        refine ⟨owner, t1, t2, req, L, nonce, d, decimal cfg.price.toNat, hpre, ha, hu, by simp, h1, h2, h3, rfl,
          decVal_decimal _, decimal_ne_nil _, decimal_digits _, rfl, _, rfl, rfl⟩
    obtain ⟨s1, rfl, h1⟩ := tries_each (fun L e L' h _ => hatt L (.err e) L' h) (fun L b hq => nomatch hq) htr
    obtain ⟨s2, rfl, h2⟩ := hatt _ _ _ hop
    have hall : Each P (bidHeader cfg owner t1 t2) (s1 ++ (s2 ++ [.retryTime])) := by
      rw [each_append, each_append]
      exact ⟨h1, h2, fun b hq => (nomatch hq), trivial⟩
    rw [List.append_assoc, List.append_assoc] at hb
    rcases append_eq_split hb with ⟨x, hx, _⟩ | ⟨x, rfl, hx⟩
    · have : Query.bid b ∈ bidHeader cfg owner t1 t2 := by rw [hx]; simp
      simp [bidHeader] at this
    · exact each_split hall x post _ hx b rfl ⟨x, rfl⟩

/-- A second bid is submitted only after the first one was answered with a transient error. -/
theorem c52_once (cfg : Config) (w : World) (r : Retry.Outcome Unit) (log : List Query)
    (h : bidRound cfg w [] = (r, log)) (pre post : List Query) (b b' : Signed BidBody)
    (hb : log = pre ++ .bid b :: post) (hb' : Query.bid b' ∈ post) :
    ∃ e, w.bid pre b = .error e ∧ TransientClass cfg.lower e := by
  rcases bid_log cfg w r log h with hn | ⟨owner, t1, t2, req, n, L1, L2, r', ho, ha, hu, hn, htr, hop, rfl⟩
  · exact absurd (by rw [hb]; simp) (hn b)
  · let P : List Query → Query → Prop := fun pre q => ∀ b, q = .bid b →
      ∃ e, w.bid pre b = .error e ∧ TransientClass cfg.lower e
    have hatt : ∀ L e L', bidAttempt cfg req.requestId w L = (.err e, L') → TransientClass cfg.lower e →
        ∃ seg, L' = L ++ seg ∧ Each P L seg := by
      intro L e L' hL ht
      rcases bidAttempt_cases cfg req.requestId w L with ⟨r'', seg, h', hs⟩ | ⟨nonce, d, h1, h2, h3, h4⟩
      · rw [hL] at h'; cases h'
        refine ⟨seg, rfl, each_of_mem ?_⟩
        intro q hq L b hqb
        subst hqb
        exact absurd hq (hs b)
      · rw [hL] at h4
        injection h4 with h4 h5
        refine ⟨_, h5, ?_⟩
        refine ⟨fun b hq => (nomatch hq), fun b hq => (nomatch hq), fun b hq => (nomatch hq), ?_, trivial⟩
        intro b hq
        cases hq
        simp only [List.append_assoc, List.cons_append, List.nil_append]
        cases hx : w.bid (L ++ [.getNonce (Address.bytes cfg.signer), .details req.requestId, .now])
            (mkBid cfg nonce req.requestId) with
        | error e' => rw [hx] at h4; cases h4; exact ⟨e, rfl, ht⟩
        | ok u => rw [hx] at h4; cases h4
    obtain ⟨s1, rfl, h1⟩ := tries_each hatt (fun L b hq => nomatch hq) htr
    have hlast := bidAttempt_extends cfg req.requestId w _ _ _ hop
    obtain ⟨s2, rfl, h2⟩ := hlast
    rw [List.append_assoc (bidHeader cfg owner t1 t2 ++ s1), List.append_assoc] at hb
    rcases append_eq_split hb with ⟨x, hx, _⟩ | ⟨x, rfl, hx⟩
    · have : Query.bid b ∈ bidHeader cfg owner t1 t2 := by rw [hx]; simp
      simp [bidHeader] at this
    · rcases append_eq_split hx with ⟨y, hy, _⟩ | ⟨y, rfl, hy⟩
      · exact each_split h1 x y _ hy b rfl
      · exfalso
        have hc : ((s2 ++ [Query.retryTime]).filter Query.isBid).length ≤ 1 := by
          rw [List.filter_append]
          simp [Query.isBid]
          simpa using h2
        rw [hy, List.filter_append, List.filter_cons_of_pos (by rfl), List.length_append, List.length_cons] at hc
        have : 0 < (post.filter Query.isBid).length :=
          List.length_pos_iff_exists_mem.2 ⟨_, List.mem_filter.2 ⟨hb', rfl⟩⟩
        omega

/-- When the node has no assigned request, one open request is returned and the first attempt learns the nonce and
the details in time, the node does bid. -/
theorem c52_does_bid (cfg : Config) (w : World) (r : Retry.Outcome Unit) (log : List Query)
    (h : bidRound cfg w [] = (r, log)) (owner : Bytes) (t1 t2 : U64) (req d : Req) (nonce : U64)
    (ho : w.owner [] (Address.bytes cfg.signer) = .ok owner)
    (ht1 : w.now ((bidHeader cfg owner t1 t2).take 1) = t1) (ht2 : w.now ((bidHeader cfg owner t1 t2).take 3) = t2)
    (ha : w.filtered ((bidHeader cfg owner t1 t2).take 2) (assignedFilter owner t1) = .ok [])
    (hu : w.filtered ((bidHeader cfg owner t1 t2).take 4) (openFilter owner t2) = .ok [req])
    (hn : w.nonce (bidHeader cfg owner t1 t2) (Address.bytes cfg.signer) = .ok nonce)
    (hd : w.details (bidHeader cfg owner t1 t2 ++ [.getNonce (Address.bytes cfg.signer)]) req.requestId = .ok (some d))
    (ht : (cfg.requiredTime d.gasLimit).toNat ≤ d.deadline.toNat -
      (w.now (bidHeader cfg owner t1 t2 ++ [.getNonce (Address.bytes cfg.signer), .details req.requestId])).toNat) :
    ∃ b post, log = bidHeader cfg owner t1 t2 ++
      [.getNonce (Address.bytes cfg.signer), .details req.requestId, .now] ++ .bid b :: post := by
  have hr : bidRound cfg w [] = withRetry cfg (bidAttempt cfg req.requestId) w (bidHeader cfg owner t1 t2) := by
    unfold bidRound
    rw [ask_owner, ho, andThen_ok, ask_now, ask_filtered]
    simp only [List.nil_append, List.cons_append]
    rw [show w.now [.getOwner (Address.bytes cfg.signer)] = t1 from ht1]
    have ha' : w.filtered [.getOwner (Address.bytes cfg.signer), .now]
      { status := .assigned, minimumDeadline := t1, fulfiller := some owner, limit := 1 } = .ok [] := ha
    rw [ha', andThen_ok, if_neg (by simp), ask_now, ask_filtered]
    simp only [List.nil_append, List.cons_append]
    have ht2' : w.now [.getOwner (Address.bytes cfg.signer), .now, .filtered { status := .assigned, minimumDeadline := t1, fulfiller := some owner, limit := 1 }] = t2 := ht2
    rw [ht2']
    have hu' : w.filtered [.getOwner (Address.bytes cfg.signer), .now, .filtered { status := .assigned, minimumDeadline := t1, fulfiller := some owner, limit := 1 }, .now]
      { status := .requested, minimumDeadline := t2, notBidBy := some owner, limit := 1 } = .ok [req] := hu
    rw [hu']
    rfl
  have hatt : ∃ r', bidAttempt cfg req.requestId w (bidHeader cfg owner t1 t2) =
      (r', bidHeader cfg owner t1 t2 ++ bidSeg cfg req.requestId nonce) := by
    generalize bidHeader cfg owner t1 t2 = H at hn hd ht
    unfold bidAttempt
    rw [ask_nonce, hn, andThen_ok, ask_details, List.append_assoc, hd, andThen_ok]
    dsimp only
    rw [ask_now, List.append_assoc, if_neg, ask_bid]
    · exact ⟨_, Prod.ext rfl (by simp [bidSeg])⟩
    · intro hlt
      have := BitVec.lt_def.1 hlt
      rw [satSub_toNat] at this
      simp only [List.cons_append, List.nil_append] at this
      omega
  obtain ⟨r', hatt⟩ := hatt
  obtain ⟨n, L1, L2, r'', _, htr, hop, hw⟩ :=
    withRetry_cases cfg (bidAttempt cfg req.requestId) w (bidHeader cfg owner t1 t2)
  rw [← hr, h] at hw
  cases hw
  have key : ∀ L2, (∃ seg, L2 = bidHeader cfg owner t1 t2 ++ bidSeg cfg req.requestId nonce ++ seg) →
      ∃ b post, L2 = bidHeader cfg owner t1 t2 ++
        [.getNonce (Address.bytes cfg.signer), .details req.requestId, .now] ++ .bid b :: post := by
    rintro L2 ⟨seg, rfl⟩
    exact ⟨mkBid cfg nonce req.requestId, seg, by simp [bidSeg]⟩
  apply key
  cases htr with
  | nil =>
    rw [hatt] at hop
    cases hop
    exact ⟨_, rfl⟩
  | cons hf _ hrest =>
    rw [hatt] at hf
    cases hf
    obtain ⟨s1, rfl, _⟩ := tries_extend _ _ _ _ _ _ hrest
    obtain ⟨s2, rfl, _⟩ := bidAttempt_extends _ _ _ _ _ _ hop
    exact ⟨.retryTime :: (s1 ++ (s2 ++ [.retryTime])), by simp⟩

/-- A round makes at most 241 bids (one per attempt). -/
theorem c52_bounded (cfg : Config) (w : World) (r : Retry.Outcome Unit) (log : List Query)
    (h : bidRound cfg w [] = (r, log)) : (log.filter Query.isBid).length ≤ 241 := by
  rcases bid_log cfg w r log h with hn | ⟨owner, t1, t2, req, n, L1, L2, r', ho, ha, hu, hn, htr, hop, rfl⟩
  · rw [List.filter_eq_nil_iff.2]
    · exact Nat.zero_le _
    · intro q hq hqb
      cases q <;> simp [Query.isBid] at hqb
      exact hn _ hq
  · obtain ⟨s1, rfl, h1⟩ := tries_extend _ _ _ _ _ _ htr
    obtain ⟨s2, rfl, h2⟩ := bidAttempt_extends _ _ _ _ _ _ hop
    simp only [List.filter_append, List.length_append]
    have e1 : ((bidHeader cfg owner t1 t2).filter Query.isBid).length = 0 := by
      simp [bidHeader, List.filter, Query.isBid]
    have e2 : ([Query.retryTime].filter Query.isBid).length = 0 := rfl
    omega

/-! ## Witness -/

/-- A node that bids 5 for `prover` 7 and proves ten units of gas per second. -/
def demoConfig : Config where
  signer := 3
  sign := fun bs => bs
  price := 5
  prover := 7
  requiredTime := fun g => g / 10
  mainnetDomain := 11
  lower := id

/-- The request of the demo. -/
def demoReq : Req :=
  { requestId := [1, 2], mode := 1, programUri := "s3://b/programs/p".toList, stdinUri := "s3://b/stdins/s".toList,
    deadline := 1000, gasLimit := 500 }

/-- A network with one open request and, once a bid has been made, nothing else; the time is 900. -/
def demoWorld : World := fun _ q =>
  match q with
  | .getOwner a => Except.ok a
  | .filtered f => if f.status = .requested then Except.ok [demoReq] else Except.ok []
  | .now => (900 : U64)
  | .getNonce _ => Except.ok (4 : U64)
  | .details _ => Except.ok (some demoReq)
  | .bid _ => Except.ok ()
  | .fulfill _ => Except.ok ()
  | .fail _ => Except.ok ()
  | .unexecutable _ => false
  | .download _ _ _ => Except.ok []
  | .runTask _ _ _ => .proof (some [9]) 100 7
  | .countProof _ _ => ()
  | .retryTime => (0, 0)

/-- The hypotheses of `c52_does_bid` hold in the demo: 100 seconds remain and 50 are needed. -/
example : ∃ b post, (bidRound demoConfig demoWorld []).2 =
    bidHeader demoConfig (Address.bytes 3) 900 900 ++ [.getNonce (Address.bytes 3), .details [1, 2], .now] ++
      .bid b :: post :=
  c52_does_bid demoConfig demoWorld _ _ rfl (Address.bytes 3) 900 900 demoReq demoReq 4 rfl rfl rfl rfl rfl rfl rfl
    (by decide)

end Verif.Node
