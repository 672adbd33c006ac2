import Verif.EventTold3
import Verif.PropsDeploy
import Verif.ToyStaking
/-
# Properties C96 and C97: the event log of the contracts

The events and the reader are in `EventSpec`; where the contracts emit them is in `Events`.
-/

namespace Verif
open L1

/-- **C96 (the log tells the state).** From any state and for any history of calls (any senders, times, arguments and
proofs, calls that revert included): a reader whose record agrees with the contracts at the start, and who then sees
only the events, has at the end exactly what the contracts store: owners, verification key, auctioneer, verifier, pause,
the state root of every block, every transaction of the queue with its status, the provers with their owners, numbers
and fees, who is bound to which prover, every holder's $stPROVE, the slash requests with their amounts and outcomes,
the dispenser, the rate and what was dispensed. -/
theorem c96_log_tells (cfg : Cfg) (w : World) (h : List (Ctx × Call)) :
    w.seen.readAll (logOf cfg w h) = (runCalls cfg w h).seen :=
  (log_told cfg w h).2

/-- **C96 (the same contracts).** The functions that emit events accept the same calls and have the same results as the
ones that all other theorems are about: `execE` with its events removed is `exec`. -/
theorem c96_same_contract (cfg : Cfg) (c : Ctx) (k : Call) (w : World) :
    (match execE cfg c k w with
      | .ok (r, w', _) => Except.ok (r, w')
      | .error e => Except.error e) = exec cfg c k w := by
  rw [← execE_erase (cfg := cfg) (c := c) (k := k)]
  unfold LM.erase
  cases execE cfg c k w <;> rfl

/-- **C96 (reverted calls).** A call that reverts leaves no event, and changes nothing. -/
theorem c96_reverted (cfg : Cfg) (c : Ctx) (k : Call) (w : World) (h : (exec cfg c k w).toBool = false) :
    callEvents cfg c k w = [] ∧ call cfg c k w = w := by
  have e := c96_same_contract cfg c k w
  unfold callEvents call
  revert e h
  cases execE cfg c k w with
  | error x =>
    intro h e
    rw [← e]
    exact ⟨rfl, rfl⟩
  | ok x =>
    intro h e
    rw [← e] at h
    exact nomatch h

/-- **C96 (from the deployment on).** A reader who starts with nothing, at the deployment, has the whole record except
for the first dispenser, which is set without an event. -/
theorem c96_from_deployment (cfg : Cfg) (hc : cfg.WF) (p : DeployParams) (hp : p.prove = cfg.prove) (s s' : Sys)
    (hd : deploy cfg p s = .ok s') :
    Seen.nothing.readAll (
      vappInitEvents ⟨p.owner, p.prove, cfg.iprove, p.auctioneer, cfg.staking, p.verifier, p.minDepositAmount, p.vkey,
        p.genesisStateRoot⟩ ++
      stakingInitEvents ⟨p.owner, p.governor, cfg.vapp, p.prove, cfg.iprove, p.dispenser, p.minStakeAmount,
        p.maxUnstakeRequests, p.unstakePeriod, p.slashCancellationPeriod⟩) = { s'.w.seen with dispenser := 0 } := by
  obtain ⟨_, _, t1, t2, _, _, rfl⟩ := (deploy_ok hc hp).mp hd
  rfl

/-- **C97 (every event fits).** From any state and for any history of calls, every event in the log fits the reader's
record at its point: old values are the ones on record, numbers are the next ones, a finalised transaction is the queued
one with its number and contents, stakers hold what they unstake from the prover they are bound to, slashes resolve open
requests and take no more than was requested, and provers are new when deployed and known afterwards
(`Seen.fits` lists all of them). -/
theorem c97_fits (cfg : Cfg) (w : World) (h : List (Ctx × Call)) : w.seen.fitsAll (logOf cfg w h) :=
  (log_told cfg w h).1

/-! ### Consecutive numbers -/

/-- The numbers in a log that some counter goes through. -/
theorem count_along (sel : Ev → Option U64) (ctr : Seen → U64)
    (hs : ∀ s e, s.fits e → (∃ id, sel e = some id ∧ id = ctr s + 1 ∧ ctr (s.read e) = id) ∨
      (sel e = none ∧ ctr (s.read e) = ctr s)) :
    ∀ (es : List Ev) (s : Seen), s.fitsAll es →
      ∀ (i : Nat) (id : U64), (es.filterMap sel)[i]? = some id → id = ctr s + BitVec.ofNat 64 (i + 1) := by
  intro es
  induction es with
  | nil => intro s _ i id g; simp at g
  | cons e es ih =>
    intro s hf i id g
    obtain ⟨h1, h2⟩ := hf
    rcases hs s e h1 with ⟨x, e1, e2, e3⟩ | ⟨e1, e3⟩
    · rw [List.filterMap_cons_some e1] at g
      cases i with
      | zero =>
        have : x = id := by simpa using g
        rw [← this, e2]
        rfl
      | succ i =>
        have g' : (es.filterMap sel)[i]? = some id := by simpa using g
        rw [ih _ h2 i id g', e3, e2, BitVec.add_assoc]
        congr 1
        apply BitVec.eq_of_toNat_eq
        simp
        omega
    · rw [List.filterMap_cons_none e1] at g
      rw [ih _ h2 i id g, e3]

/-- The number of a queued transaction, if the event reports one. -/
def Ev.pendingId : Ev → Option U64
  | .transactionPending id _ _ => some id
  | _ => none

/-- The number of a finalised transaction of the queue, if the event reports one. -/
def Ev.finalId : Ev → Option U64
  | .transactionCompleted id _ _ => some id
  | .transactionReverted id _ _ => if id = BitVec.allOnes 64 then none else some id
  | _ => none

/-- The number of an accepted block, if the event reports one. -/
def Ev.blockId : Ev → Option U64
  | .block b _ _ => some b
  | _ => none

/-- **C97 (numbers are consecutive).** In the log of any history, queued transactions, finalised transactions and blocks
are each numbered one after the other, without gap or repetition, from the contracts' counters on. -/
theorem c97_numbers (cfg : Cfg) (w : World) (h : List (Ctx × Call)) (i : Nat) (id : U64) :
    (((logOf cfg w h).filterMap Ev.pendingId)[i]? = some id → id = w.vapp.currentOnchainTxId + BitVec.ofNat 64 (i + 1)) ∧
    (((logOf cfg w h).filterMap Ev.finalId)[i]? = some id → id = w.vapp.finalizedOnchainTxId + BitVec.ofNat 64 (i + 1)) ∧
    (((logOf cfg w h).filterMap Ev.blockId)[i]? = some id → id = w.vapp.blockNumber + BitVec.ofNat 64 (i + 1)) := by
  refine ⟨count_along Ev.pendingId Seen.current ?_ _ _ (c97_fits cfg w h) i id,
    count_along Ev.finalId Seen.finalized ?_ _ _ (c97_fits cfg w h) i id,
    count_along Ev.blockId Seen.block ?_ _ _ (c97_fits cfg w h) i id⟩
  · intro s e hf
    cases e
    case transactionPending => exact Or.inl ⟨_, rfl, hf, rfl⟩
    case transactionReverted => refine Or.inr ⟨rfl, ?_⟩; simp only [Seen.read]; split <;> rfl
    all_goals exact Or.inr ⟨rfl, rfl⟩
  · intro s e hf
    cases e
    case transactionCompleted => exact Or.inl ⟨_, rfl, hf.1, rfl⟩
    case transactionReverted id' v d =>
      by_cases hx : id' = BitVec.allOnes 64
      · exact Or.inr ⟨if_pos hx, by simp only [Seen.read]; rw [if_pos hx]⟩
      · refine Or.inl ⟨id', if_neg hx, ?_, by simp only [Seen.read]; rw [if_neg hx]⟩
        exact (hf.resolve_left hx).1
    all_goals exact Or.inr ⟨rfl, rfl⟩
  · intro s e hf
    cases e
    case block => exact Or.inl ⟨_, rfl, hf.1, rfl⟩
    case transactionReverted => refine Or.inr ⟨rfl, ?_⟩; simp only [Seen.read]; split <;> rfl
    all_goals exact Or.inr ⟨rfl, rfl⟩

/-! ### What must have come before -/

theorem fitsAll_split {s : Seen} {a b : List Ev} (h : s.fitsAll (a ++ b)) : s.fitsAll a ∧ (s.readAll a).fitsAll b := by
  induction a generalizing s with
  | nil => exact ⟨trivial, h⟩
  | cons e a ih => exact ⟨⟨h.1, (ih h.2).1⟩, (ih h.2).2⟩

theorem fitsAll_at {s : Seen} {pre : List Ev} {e : Ev} {post : List Ev} (h : s.fitsAll (pre ++ e :: post)) :
    (s.readAll pre).fits e ∧ ((s.readAll pre).read e).fitsAll post :=
  (fitsAll_split h).2

/-- The queue on record holds what `TransactionPending` events put there. -/
theorem queue_from (es : List Ev) (s : Seen) (id : U64) :
    ((s.readAll es).queue id).variant = (s.queue id).variant ∧ ((s.readAll es).queue id).action = (s.queue id).action ∨
    Ev.transactionPending id ((s.readAll es).queue id).variant ((s.readAll es).queue id).action ∈ es := by
  induction es generalizing s with
  | nil => exact Or.inl ⟨rfl, rfl⟩
  | cons e es ih =>
    rcases ih (s.read e) with ⟨h1, h2⟩ | h
    · rw [Seen.readAll_cons, h1, h2]
      cases e
      case transactionPending x v d =>
        by_cases hx : id = x
        · right
          subst hx
          simp [Seen.read]
        · left; simp [Seen.read, hx]
      case transactionCompleted x v d =>
        left
        by_cases hx : id = x
        · subst hx; simp [Seen.read]
        · simp [Seen.read, hx]
      case transactionReverted x v d =>
        left
        by_cases hm : x = BitVec.allOnes 64
        · simp only [Seen.read]; rw [if_pos hm]; exact ⟨rfl, rfl⟩
        · simp only [Seen.read]; rw [if_neg hm]
          by_cases hx : id = x
          · subst hx; simp
          · simp [hx]
      all_goals exact Or.inl ⟨rfl, rfl⟩
    · rw [Seen.readAll_cons]
      exact Or.inr (List.mem_cons_of_mem _ h)

theorem sameData_nil {v : TxVariant} {d : Bytes} : ¬ sameData v [] d := by
  cases v <;> intro h
  · obtain ⟨_, h, _⟩ := h; exact nomatch h
  · exact h
  · obtain ⟨_, h, _⟩ := h; exact nomatch h

/-- **C97 (only what was queued is finalised).** After a deployment: whatever transaction the log reports as completed
or as reverted, an earlier event reported it as queued, under the same number, of the same kind and with the same
contents. (`TransactionReverted` with the number 2^64-1 is not about a queued transaction.) -/
theorem c97_queued_first (cfg : Cfg) (g : World) (hg : Genesis cfg g) (h : List (Ctx × Call))
    (pre post : List Ev) (id : U64) (v : TxVariant) (d : Bytes)
    (hl : logOf cfg g h = pre ++ .transactionCompleted id v d :: post ∨
      (logOf cfg g h = pre ++ .transactionReverted id v d :: post ∧ id ≠ BitVec.allOnes 64)) :
    ∃ d', Ev.transactionPending id v d' ∈ pre ∧ sameData v d' d := by
  have key : ((g.seen.readAll pre).queue id).variant = v ∧ sameData v ((g.seen.readAll pre).queue id).action d := by
    have hf := c97_fits cfg g h
    rcases hl with e | ⟨e, hne⟩
    · rw [e] at hf
      exact (fitsAll_at hf).1.2
    · rw [e] at hf
      exact ((fitsAll_at hf).1.resolve_left hne).2
  obtain ⟨k1, k2⟩ := key
  rcases queue_from pre g.seen id with ⟨_, q⟩ | q
  · have e0 : (g.seen.queue id).action = [] := by
      show (g.vapp.transactions id).action = []
      rw [hg.vapp_maps.2]
      rfl
    rw [q, e0] at k2
    exact absurd k2 sameData_nil
  · rw [k1] at q
    exact ⟨_, q, k2⟩

/-- The slash request that an event resolves. -/
def Ev.resolves (e : Ev) (p : Address) (i : Nat) : Prop :=
  (∃ v x, e = .slash p v x i) ∨ ∃ x, e = .slashCancel p x i

/-- A slash request on record keeps its amount, and stays resolved. -/
theorem slash_keeps (es : List Ev) (s : Seen) (p : Address) (i v : Nat) (b : Bool) (hf : s.fitsAll es)
    (h : s.slash p i = some (v, b)) : ∃ b', (s.readAll es).slash p i = some (v, b') ∧ (b = true → b' = true) := by
  induction es generalizing s b with
  | nil => exact ⟨b, h, id⟩
  | cons e es ih =>
    obtain ⟨h1, h2⟩ := hf
    have step : ∃ b1, (s.read e).slash p i = some (v, b1) ∧ (b = true → b1 = true) := by
      cases e
      case slashRequest q x j =>
        by_cases hx : p = q ∧ i = j
        · obtain ⟨rfl, rfl⟩ := hx
          rw [h1.2.2.1] at h
          exact nomatch h
        · refine ⟨b, ?_, id⟩
          simp only [Seen.read]
          by_cases hp : p = q
          · subst hp
            rw [if_pos rfl]
            rw [if_neg (fun e => hx ⟨rfl, e⟩)]
            exact h
          · rw [if_neg hp]; exact h
      case slashCancel q x j =>
        by_cases hx : p = q ∧ i = j
        · obtain ⟨rfl, rfl⟩ := hx
          have := h1.2
          rw [h] at this
          refine ⟨true, ?_, fun _ => rfl⟩
          simp only [Seen.read, if_true]
          rw [(Prod.mk.inj (Option.some.inj this)).1]
        · refine ⟨b, ?_, id⟩
          simp only [Seen.read]
          by_cases hp : p = q
          · subst hp
            rw [if_pos rfl]
            rw [if_neg (fun e => hx ⟨rfl, e⟩)]
            exact h
          · rw [if_neg hp]; exact h
      case slash q y x j =>
        by_cases hx : p = q ∧ i = j
        · obtain ⟨rfl, rfl⟩ := hx
          refine ⟨true, ?_, fun _ => rfl⟩
          simp only [Seen.read, if_true]
          rw [h]
          rfl
        · refine ⟨b, ?_, id⟩
          simp only [Seen.read]
          by_cases hp : p = q
          · subst hp
            rw [if_pos rfl]
            rw [if_neg (fun e => hx ⟨rfl, e⟩)]
            exact h
          · rw [if_neg hp]; exact h
      case transactionReverted => refine ⟨b, ?_, id⟩; simp only [Seen.read]; split <;> exact h
      all_goals exact ⟨b, h, id⟩
    obtain ⟨b1, g1, g2⟩ := step
    obtain ⟨b2, g3, g4⟩ := ih (s.read e) b1 h2 g1
    exact ⟨b2, g3, fun e => g4 (g2 e)⟩

/-- **C97 (a slash request is resolved once).** In the log of any history no slash request is executed or cancelled
after it has been executed or cancelled. -/
theorem c97_slash_once (cfg : Cfg) (w : World) (h : List (Ctx × Call)) (pre mid post : List Ev) (e e' : Ev)
    (hl : logOf cfg w h = pre ++ e :: mid ++ e' :: post) (p : Address) (i : Nat) (h1 : e.resolves p i)
    (h2 : e'.resolves p i) : False := by
  have hf := c97_fits cfg w h
  rw [hl] at hf
  obtain ⟨hf1, hf2⟩ := fitsAll_split hf
  obtain ⟨a1, a2⟩ := fitsAll_at hf1
  have open' : ∀ (s : Seen) (x : Ev), x.resolves p i → s.fits x → ∃ v, s.slash p i = some (v, false) := by
    rintro s x (⟨y, z, rfl⟩ | ⟨z, rfl⟩) hx
    · obtain ⟨_, v, g, _⟩ := hx; exact ⟨v, g⟩
    · exact ⟨z, hx.2⟩
  have done : ∀ (s : Seen) (x : Ev), x.resolves p i → s.fits x → ∃ v, (s.read x).slash p i = some (v, true) := by
    rintro s x (⟨y, z, rfl⟩ | ⟨z, rfl⟩) hx
    · obtain ⟨_, v, g, _⟩ := hx
      refine ⟨v, ?_⟩
      simp only [Seen.read, if_true]
      rw [g]
      rfl
    · exact ⟨z, by simp only [Seen.read, if_true]⟩
  obtain ⟨v, g⟩ := done _ _ h1 a1
  obtain ⟨b', g', gb⟩ := slash_keeps mid _ p i v true a2 g
  have e1 : (w.seen.readAll (pre ++ e :: mid)) = (((w.seen.readAll pre).read e).readAll mid) := by
    rw [Seen.readAll_append, Seen.readAll_cons]
  have := fitsAll_at (pre := []) hf2
  obtain ⟨v', g''⟩ := open' _ _ h2 this.1
  have g3 : (w.seen.readAll (pre ++ e :: mid)).slash p i = some (v', false) := g''
  rw [e1, g', gb rfl] at g3
  simp at g3

/-! ### Witnesses -/

namespace ToyL1

/-- The log of a deposit, a new prover and the step that finalises both and pays out 120. -/
def log1 : List Ev :=
  [ .transactionPending 1 .deposit (Deposit.mk alice 5000).abi,
    .deposit alice 5000,
    .transactionPending 2 .createProver (CreateProver.mk prover1 bob 500).abi,
    .proverDeploy prover1 bob 500,
    .transactionCompleted 1 .deposit (Deposit.mk alice 5000).abi,
    .transactionCompleted 2 .createProver (CreateProver.mk prover1 bob 500).abi,
    .withdraw alice 120,
    .block 1 99 111 ]

/-- After `stakes`: the slash of 300 is executed, alice's two claims are paid, a call reverts, a second slash request is
made and cancelled, and the owner forks and changes the dispenser. -/
def more : List (Ctx × Call) :=
  [ (ctx gov 1170, .finishSlash prover1 0), (ctx alice 1260, .finishUnstake alice), (ctx alice 1261, .requestUnstake 10000),
    (ctx cfg.vapp 1300, .requestSlash prover1 7), (ctx gov 1400, .cancelSlash prover1 1),
    (ctx gov 1401, .fork 8 222), (ctx gov 1402, .setDispenser bob) ]

/-- The log of `stakes` after `setup`, and of `more`. -/
def log2 : List Ev :=
  [ .proverBound alice prover1, .stake alice prover1 1000 1000 1000,
    .proverBound bob prover1, .stake bob prover1 500 500 500,
    .unstakeRequest alice prover1 400 400, .unstakeRequest alice prover1 100 100,
    .slashRequest prover1 300 0, .slash prover1 300 300 0,
    .unstake alice prover1 320 320, .unstake alice prover1 80 80,
    .slashRequest prover1 7 1, .slashCancel prover1 7 1,
    .fork 1 7 8, .block 1 99 222, .dispenserUpdate dsp bob ]

end ToyL1

open ToyL1

/-- C96, C97: the logs of two histories, with every kind of effect of both contracts. -/
example : logOf cfg genesis (setup ++ [step1]) = log1 ∧ logOf cfg genesis (stakes ++ more) = log1.take 4 ++ log2 := by
  decide +kernel

/-- C96: what the reader of the second log concludes, without seeing the contracts. -/
example :
    let s := genesis.seen.readAll (log1.take 4 ++ log2)
    s.stBal alice = 500 ∧ s.boundTo alice = prover1 ∧ s.slash prover1 0 = some (300, true) ∧ s.root 1 = 222 ∧
    s.vkey = 8 ∧ s.prover prover1 = some (bob, 1, 500) ∧ (s.queue 2).status = .pending ∧ s.current = 2 ∧
    s.dispenser = bob := by
  decide +kernel

/-- C96: a call that reverts (alice asks for more than alice holds). -/
example : (exec cfg (ctx alice 1261) (.requestUnstake 10000) w4).toBool = false ∧
    callEvents cfg (ctx alice 1261) (.requestUnstake 10000) w4 = [] := by
  decide +kernel

/-- C97: the numbers in the first log. -/
example : log1.filterMap Ev.pendingId = [1, 2] ∧ log1.filterMap Ev.finalId = [1, 2] ∧ log1.filterMap Ev.blockId = [1] := by
  decide +kernel

/-- C97: the completed deposit of the first log was queued before. -/
example : logOf cfg genesis (setup ++ [step1]) =
    log1.take 4 ++ .transactionCompleted 1 .deposit (Deposit.mk alice 5000).abi :: log1.drop 5 := by
  decide +kernel

/-- C97: logs that do not fit. A block number is skipped; a slash request is executed twice; more is unstaked than
held. -/
example : ¬ genesis.seen.fitsAll [.block 2 99 111] ∧
    ¬ genesis.seen.fitsAll (log1.take 4 ++ log2.take 8 ++ [.slash prover1 300 300 0]) ∧
    ¬ genesis.seen.fitsAll (log1.take 4 ++ log2.take 6 ++ [.unstakeRequest alice prover1 501 501]) := by
  refine ⟨fun h => absurd h.1.1 (by decide), fun h => ?_, fun h => ?_⟩
  · have := (fitsAll_at (post := []) h).1.2
    obtain ⟨v, e, _⟩ := this
    have e' : (genesis.seen.readAll (log1.take 4 ++ log2.take 8)).slash prover1 0 = some (300, true) := by decide +kernel
    rw [e'] at e
    exact absurd e (by simp)
  · have := (fitsAll_at (post := []) h).1.2.2.2
    have e' : (genesis.seen.readAll (log1.take 4 ++ log2.take 6)).stBal alice = 500 := by decide +kernel
    rw [e'] at this
    exact absurd this (by decide)

/-- C96: a deployment that is accepted (the one of C71). -/
example : (deploy cfg params blank).toBool = true := by decide +kernel

end Verif
