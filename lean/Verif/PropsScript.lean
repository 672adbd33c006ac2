import Verif.PropsLive
import Verif.PropsStaking4
import Verif.L1Spend
/-
# C106: the script with which a prover starts

`contracts/script/operations/CreateProverAndStake.s.sol` creates a prover with a staker fee of 10 %, approves the staking
contract and stakes 10,000 $PROVE with the new prover. Forge runs such a script in two phases (`Base.s.sol:11-17`): the
body is first run against the current state of the chain, which fixes the transactions with all their arguments, and
then these transactions are sent one by one. Anyone's transactions may come between.

`Ready` says when the first phase goes through. `c106_undisturbed_partial`: if nobody interferes, the caller ends up
with their prover and their stake. `c106_money_partial`: whatever others do, the script costs at most its 10,000 $PROVE.
`c106_front_run`: but any prover created by someone else between the two phases makes the stake go to an address
that is no prover, and as the caller's own prover is created all the same, the script cannot be run again
(`c106_rerun`); `c106_false` is a history in which this happens.
-/

namespace Verif
open L1

/-! ## The script -/

/-- `STAKER_FEE_BIPS`, `CreateProverAndStake.s.sol:15`. -/
def scriptFee : U256 := 1000
/-- `STAKE_AMOUNT = 10_000e18`, `CreateProverAndStake.s.sol:16`. -/
def scriptStake : U256 := 10000000000000000000000

/-- The calls go through one after the other (a revert ends the run of a script). -/
def goThrough (cfg : Cfg) (c : Ctx) : List Call → World → Bool
  | [], _ => true
  | k :: ks, w =>
    match exec cfg c k w with
    | .ok (_, w') => goThrough cfg c ks w'
    | .error _ => false

/-- The first phase, `CreateProverAndStake.s.sol:11-35`: run the body against the state `w` and collect the transactions,
or fail. `readAddress` is taken to give the addresses of `cfg`; writing the prover's address to the deployments file
(line 34) is not modelled. -/
def scriptPlan (cfg : Cfg) (c : Ctx) (w : World) : Option (List Call) :=
  -- lines 19-21
  if w.st.bal c.sender > 0 then none
  else
    -- line 24
    match createProver cfg c scriptFee w with
    | .error _ => none
    | .ok (p, w1) =>
      -- lines 27-29, 32
      let ks := (if w1.prove.allow c.sender cfg.staking < scriptStake.toNat then [.proveApprove cfg.staking scriptStake] else []) ++
        [.stake p scriptStake]
      if goThrough cfg c ks w1 then some (.createProver scriptFee :: ks) else none

/-- The second phase: `a` sends the transactions in order; calls of others, without a signature of `a`, come between. -/
inductive Broadcast (a : Address) : List Call → List (Ctx × Call) → Prop
  | done : Broadcast a [] []
  | send {c : Ctx} {k : Call} {ks : List Call} {h : List (Ctx × Call)} (hs : c.sender = a) (hb : Broadcast a ks h) :
      Broadcast a (k :: ks) ((c, k) :: h)
  | other {x : Ctx × Call} {ks : List Call} {h : List (Ctx × Call)} (hs : x.1.sender ≠ a)
      (hp : match x.2 with
        | .provePermit s _ _ _ | .permitAndDeposit s _ _ | .permitAndStake s _ _ _ => s ≠ a
        | _ => True)
      (hb : Broadcast a ks h) : Broadcast a ks (x :: h)

/-! ## When the first phase goes through -/

/-- The address of the prover that `a` would create now. -/
def newProver (cfg : Cfg) (a : Address) (w : World) : Address := cfg.create2 a (w.staking.proverCount + 1) 1000

/-- `a` can start as a prover with a stake of 10,000 $PROVE. -/
structure Ready (cfg : Cfg) (a : Address) (w : World) : Prop where
  /-- a real account that owns no prover, stakes with nobody and holds the amount -/
  account : a ≠ 0 ∧ w.staking.ownerToProver a = 0 ∧ w.staking.stakerToProver a = 0 ∧ 10000 * 10 ^ 18 ≤ w.prove.bal a
  /-- the address of the new prover is unused -/
  fresh : w.staking.provers (newProver cfg a w) = false ∧ w.staking.deactivatedProvers (newProver cfg a w) = false ∧
    w.staking.slashClaimCount (newProver cfg a w) = 0
  /-- the vApp contract is not paused, names the staking contract and has ids left -/
  vapp : w.vapp.staking = cfg.staking ∧ w.vapp.paused = false ∧ w.vapp.currentOnchainTxId.toNat + 1 < 2 ^ 64
  /-- the minimal stake is not above the amount, and one $iPROVE does not cost more -/
  amount : w.staking.minStakeAmount ≤ 10000 * 10 ^ 18 ∧ w.prove.bal cfg.iprove < 10000 * 10 ^ 18 * (w.iprove.supply + 1)

theorem scriptStake_toNat : scriptStake.toNat = 10000 * 10 ^ 18 := by decide
theorem scriptFee_toNat : scriptFee.toNat = 1000 := by decide

theorem Ordinary.snoc {cfg : Cfg} {w₀ : World} {h : List (Ctx × Call)} (ho : Ordinary cfg w₀ h) {x : Ctx × Call}
    (ha : Admissible cfg x) (hn : x.1.now < 2 ^ 64) (hl : h.length + 1 ≤ 2 ^ 64)
    (hp : (call cfg x.1 x.2 (runCalls cfg w₀ h)).prove.supply < 2 ^ 160) : Ordinary cfg w₀ (h ++ [x]) where
  genesis := ho.genesis
  admissible y hy := by
    rcases List.mem_append.mp hy with hy | hy
    · exact ho.admissible y hy
    · rw [List.mem_singleton.mp hy]; exact ha
  length := by rw [List.length_append]; exact hl
  times y hy := by
    rcases List.mem_append.mp hy with hy | hy
    · exact ho.times y hy
    · rw [List.mem_singleton.mp hy]; exact hn
  period := ho.period
  supply h₁ h₂ e := by
    rcases List.eq_nil_or_concat h₂ with rfl | ⟨l, y, rfl⟩
    · rw [List.append_nil] at e
      rw [← e, runCalls_append]
      exact hp
    · rw [List.concat_eq_append, ← List.append_assoc] at e
      exact ho.supply h₁ l (List.append_inj_left' e rfl)

theorem call_of {cfg : Cfg} {c : Ctx} {k : Call} {w w' : World} (h : exec cfg c k w = .ok ((), w')) : call cfg c k w = w' := by
  unfold call; rw [h]

theorem approve_goes {cfg : Cfg} (hc : cfg.WF) {c : Ctx} (h0 : c.sender ≠ 0) (v : U256) (w : World) :
    ∃ w', exec cfg c (.proveApprove cfg.staking v) w = .ok ((), w') :=
  ⟨_, onProve_run (f := (·.approve c.sender cfg.staking v.toNat)) (Erc20.approve_run h0 hc.nonzero.2.2.1)⟩

/-- The new prover can be staked with under these conditions, whether or not an approval is needed. -/
theorem stake_new {cfg : Cfg} (hc : cfg.WF) {w₀ : World} {h : List (Ctx × Call)} (ho : Ordinary cfg w₀ h) {w w1 w2 : World}
    (hw : w = runCalls cfg w₀ h) (hl : h.length + 2 ≤ 2 ^ 64) {a p : Address} (hs : ¬ cfg.System a) {c1 c2 c3 : Ctx}
    (e1 : c1.sender = a) (e2 : c2.sender = a) (e3 : c3.sender = a) (n1 : c1.now < 2 ^ 64) (n2 : c2.now < 2 ^ 64)
    (hp : createProver cfg c1 scriptFee w = .ok (p, w1))
    (h2 : scriptStake.toNat ≤ w.prove.allow a cfg.staking ∧ w2 = w1 ∨
      exec cfg c2 (.proveApprove cfg.staking scriptStake) w1 = .ok ((), w2)) :
    p = newProver cfg a w ∧ Reachable cfg w2 ∧ w2.prove.bal = w.prove.bal ∧
    w2.staking = w1.staking ∧ w2.info = w1.info ∧ w2.st = w.st ∧ w2.iprove.supply = w.iprove.supply ∧
    w2.iprove.bal p = 0 ∧ (w2.vault p).supply = 0 ∧
    (Succeeds cfg c3 (.stake p scriptStake) w2 ↔ w.staking.stakerToProver a = 0 ∧ 10000 * 10 ^ 18 ≤ w.prove.bal a ∧
      w.staking.deactivatedProvers p = false ∧ w.staking.slashClaimCount p = 0 ∧
      w.staking.minStakeAmount ≤ 10000 * 10 ^ 18 ∧ w.prove.bal cfg.iprove < 10000 * 10 ^ 18 * (w.iprove.supply + 1)) := by
  have hi := StakingInv.reachable hc w (hw ▸ ho.reachable)
  have hx1 : exec cfg c1 (.createProver scriptFee) w = .ok ((), w1) := drop_ok.mpr ⟨p, hp⟩
  obtain ⟨_, h3, h4, h5, h6, h7, h8, h9, _, t, ht, e⟩ := createProver_ok hp
  rw [e1] at h3 h4 h5
  obtain ⟨_, _, rfl⟩ := Erc20.approve_ok ht
  have hps : p ≠ cfg.staking := by rw [h5]; exact (hc.create2 _ _ _).2.2.2.1
  have hpp := (hi.stake.staked a)
  have hsup : w.prove.supply < 2 ^ 160 := by
    rw [hw]; exact ho.supply h [] (List.append_nil h).symm
  have ha1 : Admissible cfg (c1, .createProver scriptFee) := by show ¬ cfg.System c1.sender; rw [e1]; exact hs
  have ho1 : Ordinary cfg w₀ (h ++ [(c1, .createProver scriptFee)]) := by
    refine ho.snoc ha1 n1 (by omega) ?_
    rw [← hw]
    show (call cfg c1 (.createProver scriptFee) w).prove.supply < _
    rw [call_of hx1, e]
    exact hsup
  have hw1 : w1 = runCalls cfg w₀ (h ++ [(c1, .createProver scriptFee)]) := by
    rw [runCalls_append, ← hw]
    exact (call_of hx1).symm
  obtain ⟨h', ho2, hw2, hal, q⟩ : ∃ h', Ordinary cfg w₀ h' ∧ w2 = runCalls cfg w₀ h' ∧
      scriptStake.toNat ≤ w2.prove.allow a cfg.staking ∧
      ∃ t : Erc20, t.bal = w.prove.bal ∧ w2 = { w1 with prove := t } := by
    rcases h2 with ⟨g, rfl⟩ | g
    · exact ⟨_, ho1, hw1, by rw [e]; exact g, w.prove, rfl, by rw [e]⟩
    · obtain ⟨t, g1, g2⟩ := onProve_ok.mp (show onProve (·.approve c2.sender cfg.staking scriptStake.toNat) w1 = .ok ((), w2) from g)
      obtain ⟨_, _, rfl⟩ := Erc20.approve_ok g1
      refine ⟨h ++ [(c1, .createProver scriptFee)] ++ [(c2, .proveApprove cfg.staking scriptStake)],
        ho1.snoc (by show ¬ cfg.System c2.sender; rw [e2]; exact hs) n2 (by rw [List.length_append]; exact hl) ?_, ?_, ?_, _, ?_, g2⟩
      · rw [← hw1]
        show (call cfg c2 (.proveApprove cfg.staking scriptStake) w1).prove.supply < _
        rw [call_of g, g2, e]
        exact hsup
      · rw [runCalls_append, ← hw1]
        exact (call_of g).symm
      · rw [g2, e2]
        dsimp only
        rw [upd_same, upd_same]
        exact Nat.le_refl _
      · rw [e]
  obtain ⟨t, ht', q⟩ := q
  have hb : w2.prove.bal = w.prove.bal := by rw [q]; exact ht'
  have hst : w2.staking = w1.staking := by rw [q]
  have hib : w2.iprove.bal p = 0 := by
    rw [q, e]
    exact hi.stake.held p hps h6
  have hvs : (w2.vault p).supply = 0 := by
    rw [q, e]
    dsimp only
    rw [upd_same]; rfl
  have his : w2.iprove.supply = w.iprove.supply := by rw [q, e]
  have hsm : w2.staking.minStakeAmount = w.staking.minStakeAmount ∧ w2.staking.deactivatedProvers = w.staking.deactivatedProvers ∧
      w2.staking.slashClaimCount = w.staking.slashClaimCount ∧ w2.staking.stakerToProver = w.staking.stakerToProver := by
    rw [q, e]; exact ⟨rfl, rfl, rfl, rfl⟩
  have hpr : w2.staking.provers p = true := by
    rw [q, e]
    exact upd_same _ _ _
  refine ⟨by rw [h5, scriptFee_toNat]; rfl, hw2 ▸ ho2.reachable, hb, hst, by rw [q], by rw [q, e], his, hib, hvs, ?_⟩
  have hm := c63_stake hc ho2 hw2 (c := c3) (by rw [e3]; exact hs) p scriptStake
  rw [hm, e3, hb, hib, hvs, his, hsm.1, hsm.2.1, hsm.2.2.1, hsm.2.2.2, scriptStake_toNat]
  rw [scriptStake_toNat] at hal
  simp only [Nat.zero_add, Nat.mul_one, Nat.div_one]
  have hdiv : 10000 * 10 ^ 18 * (w.iprove.supply + 1) / (w.prove.bal cfg.iprove + 1) ≠ 0 ↔
      w.prove.bal cfg.iprove < 10000 * 10 ^ 18 * (w.iprove.supply + 1) := by
    rw [Ne, Nat.div_eq_zero_iff]
    omega
  rw [hdiv]
  constructor
  · rintro ⟨⟨_, a2, _⟩, ⟨_, a5⟩, ⟨_, a7, a8⟩, a9, a10⟩
    refine ⟨?_, a2, a7, a8, a5, a10⟩
    rcases a9 with a9 | a9
    · exact a9
    · refine absurd (hpp ?_) ?_
      · rw [a9, h5]; exact (hc.create2 _ _ _).1
      · rw [a9, h6]; exact Bool.false_ne_true
  · rintro ⟨a9, a2, a7, a8, a5, a10⟩
    exact ⟨⟨h4, a2, hal⟩, ⟨by decide, a5⟩, ⟨hpr, a7, a8⟩, Or.inl a9, a10⟩


theorem scriptPlan_some {cfg : Cfg} {c : Ctx} {w : World} {ks : List Call} (hp : scriptPlan cfg c w = some ks) :
    ∃ p w1 l, createProver cfg c scriptFee w = .ok (p, w1) ∧
      l = (if w.prove.allow c.sender cfg.staking < scriptStake.toNat then [.proveApprove cfg.staking scriptStake] else []) ++
        [.stake p scriptStake] ∧ goThrough cfg c l w1 = true ∧ ks = .createProver scriptFee :: l := by
  unfold scriptPlan at hp
  split at hp
  · exact nomatch hp
  split at hp
  · exact nomatch hp
  · rename_i p w1 hx
    obtain ⟨_, _, _, _, _, _, _, _, _, t, ht, e⟩ := createProver_ok hx
    have hal : w1.prove.allow c.sender cfg.staking = w.prove.allow c.sender cfg.staking := by rw [e]
    dsimp only at hp
    rw [hal] at hp
    generalize hl : (if w.prove.allow c.sender cfg.staking < scriptStake.toNat then [Call.proveApprove cfg.staking scriptStake] else []) ++
        [Call.stake p scriptStake] = l at hp
    by_cases hg : goThrough cfg c l w1 = true
    · rw [if_pos hg] at hp
      exact ⟨p, w1, l, hx, hl.symm, hg, (Option.some.inj hp).symm⟩
    · rw [if_neg hg] at hp
      exact nomatch hp

/-- **C106** (when the first phase goes through): after any ordinary history, for an account outside the system, exactly
if the account is `Ready`; the transactions are then these. -/
theorem c106_plan {cfg : Cfg} (hc : cfg.WF) {w₀ : World} {h : List (Ctx × Call)} (ho : Ordinary cfg w₀ h) {w : World}
    (hw : w = runCalls cfg w₀ h) (hl : h.length + 2 ≤ 2 ^ 64) {c : Ctx} (hs : ¬ cfg.System c.sender) (hn : c.now < 2 ^ 64) :
    (∀ ks, scriptPlan cfg c w = some ks ↔ Ready cfg c.sender w ∧ ks =
      [.createProver scriptFee] ++
      (if w.prove.allow c.sender cfg.staking < scriptStake.toNat then [.proveApprove cfg.staking scriptStake] else []) ++
      [.stake (newProver cfg c.sender w) scriptStake]) := by
  have hi := StakingInv.reachable hc w (hw ▸ ho.reachable)
  intro ks
  constructor
  · intro hp
    obtain ⟨p, w1, l, hx, hl', hg, rfl⟩ := scriptPlan_some hp
    obtain ⟨_, h3, h4, h5, h6, h7, h8, h9, _, t, ht, e⟩ := createProver_ok hx
    have hpn : p = newProver cfg c.sender w := by rw [h5, scriptFee_toNat]; rfl
    refine ⟨?_, by rw [hl', hpn]; rfl⟩
    have key : ∃ w2, (scriptStake.toNat ≤ w.prove.allow c.sender cfg.staking ∧ w2 = w1 ∨
        exec cfg c (.proveApprove cfg.staking scriptStake) w1 = .ok ((), w2)) ∧ Succeeds cfg c (.stake p scriptStake) w2 := by
      by_cases hlt : w.prove.allow c.sender cfg.staking < scriptStake.toNat
      · rw [if_pos hlt] at hl'
        rw [hl'] at hg
        simp only [List.cons_append, List.nil_append, goThrough] at hg
        split at hg
        · rename_i u w2 h2
          refine ⟨w2, Or.inr h2, ?_⟩
          split at hg
          · rename_i u' w3 h3'
            exact ⟨w3, h3'⟩
          · exact nomatch hg
        · exact nomatch hg
      · rw [if_neg hlt] at hl'
        rw [hl'] at hg
        simp only [List.nil_append, goThrough] at hg
        refine ⟨w1, Or.inl ⟨Nat.le_of_not_lt hlt, rfl⟩, ?_⟩
        split at hg
        · rename_i u' w3 h3'
          exact ⟨w3, h3'⟩
        · exact nomatch hg
    obtain ⟨w2, h2, hsu⟩ := key
    obtain ⟨_, _, _, _, _, _, _, _, _, q⟩ := stake_new hc ho hw hl hs (c3 := c) rfl rfl rfl hn hn hx h2
    obtain ⟨a1, a2, a3, a4, a5, a6⟩ := q.mp hsu
    exact { account := ⟨h4, h3, a1, a2⟩, fresh := by rw [← hpn]; exact ⟨h6, a3, a4⟩, vapp := ⟨h7.symm, h8, h9⟩, amount := ⟨a5, a6⟩ }
  · rintro ⟨hr, rfl⟩
    obtain ⟨b1, b2, b3, b4⟩ := hr.account
    obtain ⟨f1, f2, f3⟩ := hr.fresh
    obtain ⟨v1, v2, v3⟩ := hr.vapp
    obtain ⟨m1, m2⟩ := hr.amount
    obtain ⟨p, w1, hx⟩ := createProver_run (c := c) (f := scriptFee) hc (by decide) b2 b1 (by rw [scriptFee_toNat]; exact f1) v1 v2 v3
    obtain ⟨_, _, _, h5, _, _, _, _, _, t, ht, e⟩ := createProver_ok hx
    have hpn : p = newProver cfg c.sender w := by rw [h5, scriptFee_toNat]; rfl
    have hal : w1.prove.allow c.sender cfg.staking = w.prove.allow c.sender cfg.staking := by rw [e]
    have key : ∀ w2, (scriptStake.toNat ≤ w.prove.allow c.sender cfg.staking ∧ w2 = w1 ∨
        exec cfg c (.proveApprove cfg.staking scriptStake) w1 = .ok ((), w2)) → Succeeds cfg c (.stake p scriptStake) w2 := by
      intro w2 h2
      obtain ⟨_, _, _, _, _, _, _, _, _, q⟩ := stake_new hc ho hw hl hs (c3 := c) rfl rfl rfl hn hn hx h2
      exact q.mpr ⟨b3, b4, by rw [hpn]; exact f2, by rw [hpn]; exact f3, m1, m2⟩
    unfold scriptPlan
    rw [if_neg (by rw [(hi.stake.unstaked _ b3).1]; exact Nat.lt_irrefl _), hx]
    dsimp only
    rw [hal, hpn, if_pos]
    · rfl
    · split
      · obtain ⟨w2, h2⟩ := approve_goes hc b1 scriptStake w1
        obtain ⟨w3, h3⟩ := key _ (Or.inr h2)
        rw [hpn] at h3
        simp only [List.cons_append, List.nil_append, goThrough]
        rw [h2]
        dsimp only
        rw [h3]
      · rename_i hlt
        obtain ⟨w3, h3⟩ := key w1 (Or.inl ⟨Nat.le_of_not_lt hlt, rfl⟩)
        rw [hpn] at h3
        simp only [List.nil_append, goThrough]
        rw [h3]

/-! ## The second phase, undisturbed -/

/-- **C106**, partial (nobody interferes): the transactions, sent one after the other at any times, all go through. The
account then owns a prover with a staker fee of 10 %, has paid exactly 10,000 $PROVE, stakes with its prover and holds
as much $stPROVE as the amount is worth in $iPROVE. Missing: other transactions in between, see `c106_front_run`. -/
theorem c106_undisturbed_partial {cfg : Cfg} (hc : cfg.WF) {w₀ : World} {h : List (Ctx × Call)} (ho : Ordinary cfg w₀ h) {w : World}
    (hw : w = runCalls cfg w₀ h) (hl : h.length + 2 ≤ 2 ^ 64) {c : Ctx} (hs : ¬ cfg.System c.sender) (hn : c.now < 2 ^ 64)
    {ks : List Call} (hp : scriptPlan cfg c w = some ks) (l : List (Ctx × Call)) (hk : l.map (·.2) = ks)
    (hb : ∀ x ∈ l, x.1.sender = c.sender ∧ x.1.now < 2 ^ 64) :
    ∃ w' p, w' = runCalls cfg w l ∧
      w'.staking.ownerToProver c.sender = p ∧ w'.staking.provers p = true ∧
      w'.info p = ⟨c.sender, w.staking.proverCount + 1, 1000⟩ ∧
      w'.staking.stakerToProver c.sender = p ∧ w'.prove.bal c.sender + 10000 * 10 ^ 18 = w.prove.bal c.sender ∧
      w'.st.bal c.sender = 10000 * 10 ^ 18 * (w.iprove.supply + 1) / (w.prove.bal cfg.iprove + 1) ∧
      w'.st.bal c.sender ≠ 0 := by
  have hi := StakingInv.reachable hc w (hw ▸ ho.reachable)
  obtain ⟨hr, rfl⟩ := (c106_plan hc ho hw hl hs hn ks).mp hp
  obtain ⟨b1, b2, b3, b4⟩ := hr.account
  obtain ⟨f1, f2, f3⟩ := hr.fresh
  obtain ⟨v1, v2, v3⟩ := hr.vapp
  obtain ⟨m1, m2⟩ := hr.amount
  have main : ∀ c1 c2 c3 : Ctx, c1.sender = c.sender → c2.sender = c.sender → c3.sender = c.sender → c1.now < 2 ^ 64 →
      c2.now < 2 ^ 64 → ∃ w1, exec cfg c1 (.createProver scriptFee) w = .ok ((), w1) ∧
      ∀ w2, (scriptStake.toNat ≤ w.prove.allow c.sender cfg.staking ∧ w2 = w1 ∨
        exec cfg c2 (.proveApprove cfg.staking scriptStake) w1 = .ok ((), w2)) →
      ∃ w', call cfg c3 (.stake (newProver cfg c.sender w) scriptStake) w2 = w' ∧
      w'.staking.ownerToProver c.sender = newProver cfg c.sender w ∧ w'.staking.provers (newProver cfg c.sender w) = true ∧
      w'.info (newProver cfg c.sender w) = ⟨c.sender, w.staking.proverCount + 1, 1000⟩ ∧
      w'.staking.stakerToProver c.sender = newProver cfg c.sender w ∧ w'.prove.bal c.sender + 10000 * 10 ^ 18 = w.prove.bal c.sender ∧
      w'.st.bal c.sender = 10000 * 10 ^ 18 * (w.iprove.supply + 1) / (w.prove.bal cfg.iprove + 1) ∧
      w'.st.bal c.sender ≠ 0 := by
    intro c1 c2 c3 e1 e2 e3 n1 n2
    obtain ⟨p, w1, hx⟩ := createProver_run (c := c1) (f := scriptFee) hc (by decide) (by rw [e1]; exact b2) (by rw [e1]; exact b1)
      (by rw [scriptFee_toNat, e1]; exact f1) v1 v2 v3
    refine ⟨w1, drop_ok.mpr ⟨p, hx⟩, ?_⟩
    intro w2 h2
    obtain ⟨hpn, hre, hbal, hst, hinf, hstb, his, hib, hvs, q⟩ := stake_new hc ho hw hl hs e1 e2 e3 n1 n2 hx h2
    obtain ⟨w', h3⟩ := q.mpr ⟨b3, b4, by rw [hpn]; exact f2, by rw [hpn]; exact f3, m1, m2⟩
    obtain ⟨_, _, _, _, _, _, _, _, _, t, ht, e⟩ := createProver_ok hx
    rw [← hpn]
    refine ⟨w', call_of h3, ?_⟩
    have had : Admissible cfg (c3, .stake p scriptStake) := by show ¬ cfg.System c3.sender; rw [e3]; exact hs
    obtain ⟨i, n, ei, en, _, n0, hreg, _, _, _, _, _, g1, _, _, _, _, _, _, _, _, _, g2, _, _, g3⟩ :=
      c59_stake hc hre had h3 (f := c3.sender) (Or.inl ⟨rfl, rfl⟩)
    have hinfo : w'.info = w2.info := ((exec_frames h3).1 (fun f => by simp)).1
    rw [e3] at g1 g2 g3
    have hn : n = 10000 * 10 ^ 18 * (w.iprove.supply + 1) / (w.prove.bal cfg.iprove + 1) := by
      rw [en, hvs, hib, ei, his, hbal, scriptStake_toNat]
      simp
    have hz : w2.st.bal c.sender = 0 := by rw [hstb]; exact (hi.stake.unstaked _ b3).1
    rw [hz, Nat.zero_add] at g2
    refine ⟨?_, ?_, ?_, ?_, ?_, ?_, ?_⟩
    · rw [g3, hst, e]
      dsimp only
      rw [e1, upd_same]
    · rw [g3]; exact hreg
    · rw [hinfo, hinf, e]
      dsimp only
      rw [upd_same, e1, scriptFee_toNat]
    · rw [g3]
      exact upd_same _ _ _
    · rw [scriptStake_toNat, hbal] at g1
      exact g1
    · rw [g2]; exact hn
    · rw [g2]; exact n0
  split at hk
  · simp only [List.cons_append, List.nil_append] at hk
    obtain ⟨⟨c1, k1⟩, _, rfl, rfl, hk1⟩ := List.map_eq_cons_iff.mp hk
    obtain ⟨⟨c2, k2⟩, _, rfl, rfl, hk2⟩ := List.map_eq_cons_iff.mp hk1
    obtain ⟨⟨c3, k3⟩, _, rfl, rfl, hk3⟩ := List.map_eq_cons_iff.mp hk2
    obtain rfl := List.map_eq_nil_iff.mp hk3
    obtain ⟨s1, n1⟩ := hb (c1, _) (List.mem_cons_self ..)
    obtain ⟨s2, n2⟩ := hb (c2, _) (List.mem_cons_of_mem _ (List.mem_cons_self ..))
    obtain ⟨s3, n3⟩ := hb (c3, _) (List.mem_cons_of_mem _ (List.mem_cons_of_mem _ (List.mem_cons_self ..)))
    obtain ⟨w1, g1, g⟩ := main c1 c2 c3 s1 s2 s3 n1 n2
    obtain ⟨w2, h2⟩ := approve_goes hc (c := c2) (by rw [show c2.sender = c.sender from s2]; exact b1) scriptStake w1
    obtain ⟨w', g3, g4⟩ := g _ (Or.inr h2)
    refine ⟨w', _, ?_, g4⟩
    rw [runCalls_cons, runCalls_cons, runCalls_cons, runCalls_nil]
    dsimp only
    rw [call_of g1, call_of h2, g3]
  · rename_i hlt
    simp only [List.cons_append, List.nil_append] at hk
    obtain ⟨⟨c1, k1⟩, _, rfl, rfl, hk1⟩ := List.map_eq_cons_iff.mp hk
    obtain ⟨⟨c3, k3⟩, _, rfl, rfl, hk2⟩ := List.map_eq_cons_iff.mp hk1
    obtain rfl := List.map_eq_nil_iff.mp hk2
    obtain ⟨s1, n1⟩ := hb (c1, _) (List.mem_cons_self ..)
    obtain ⟨s3, n3⟩ := hb (c3, _) (List.mem_cons_of_mem _ (List.mem_cons_self ..))
    obtain ⟨w1, g1, g⟩ := main c1 c3 c3 s1 s3 s3 n1 n3
    obtain ⟨w', g3, g4⟩ := g w1 (Or.inl ⟨Nat.le_of_not_lt hlt, rfl⟩)
    refine ⟨w', _, ?_, g4⟩
    rw [runCalls_cons, runCalls_cons, runCalls_nil]
    dsimp only
    rw [call_of g1, g3]

/-! ## The second phase with others in between -/

/-- What a call approves. -/
def approvedBy : Call → Nat
  | .proveApprove _ v => v.toNat
  | _ => 0

/-- **C106**, partial (money): an account outside the system that has approved nobody sends the transactions; whatever
others do in between, what it has lost and what it still lets others spend are together at most 10,000 $PROVE. -/
theorem c106_money_partial (cfg : Cfg) (w w₁ : World) {c : Ctx} (hs : ¬ cfg.System c.sender) {ks : List Call}
    (hp : scriptPlan cfg c w₁ = some ks) (hA : ∀ s, w.prove.allow c.sender s = 0)
    (h : List (Ctx × Call)) (hb : Broadcast c.sender ks h) (s : Address) :
    w.prove.bal c.sender + (runCalls cfg w h).prove.allow c.sender s ≤ (runCalls cfg w h).prove.bal c.sender + 10000 * 10 ^ 18 := by
  have gen : ∀ (ks : List Call) (h : List (Ctx × Call)), Broadcast c.sender ks h → ∀ (w : World) (B P : Nat),
      w.prove.Covers c.sender B P →
      (∀ k ∈ ks, (∃ f, k = .createProver f) ∨ k = .proveApprove cfg.staking scriptStake ∨ ∃ p v, k = .stake p v) →
      (runCalls cfg w h).prove.Covers c.sender B (P + (ks.map approvedBy).sum) := by
    intro ks h hb
    induction hb with
    | done => intro w B P hc _; exact hc
    | @send c' k ks h hs' hb ih =>
      intro w B P hc hk
      rw [runCalls_cons, List.map_cons, List.sum_cons, ← Nat.add_assoc]
      refine ih _ _ _ ?_ (fun k hk' => hk k (List.mem_cons_of_mem _ hk'))
      rcases call_ok (cfg := cfg) (c := c') (k := k) (w := w) with ⟨w', e1, e2⟩ | ⟨_, e2⟩
      · dsimp only
        rw [e2]
        refine (exec_covers hs e1 hc).mono (Nat.add_le_add_left ?_ _)
        rcases hk k (List.mem_cons_self ..) with ⟨f, rfl⟩ | rfl | ⟨p, v, rfl⟩
        · exact Nat.zero_le _
        · simp only [Call.letsGo, approvedBy]
          split <;> omega
        · exact Nat.zero_le _
      · dsimp only
        rw [e2]
        exact hc.mono (Nat.le_add_right _ _)
    | @other x ks h hs' hp' hb ih =>
      intro w B P hc hk
      rw [runCalls_cons]
      refine ih _ _ _ ?_ hk
      rcases call_ok (cfg := cfg) (c := x.1) (k := x.2) (w := w) with ⟨w', e1, e2⟩ | ⟨_, e2⟩
      · rw [e2]
        refine (exec_covers hs e1 hc).mono ?_
        obtain ⟨c', k⟩ := x
        dsimp only at hs' hp' ⊢
        have : k.letsGo cfg c.sender c' w = 0 := by
          cases k <;> simp only [Call.letsGo] <;> dsimp only at hp' <;> simp_all
        omega
      · rw [e2]; exact hc
  have hk : (∀ k ∈ ks, (∃ f, k = .createProver f) ∨ k = .proveApprove cfg.staking scriptStake ∨ ∃ p v, k = .stake p v) ∧
      (ks.map approvedBy).sum ≤ scriptStake.toNat := by
    obtain ⟨p, w1, l, hx, rfl, hg, rfl⟩ := scriptPlan_some hp
    split
    · refine ⟨?_, by simp [approvedBy]⟩
      intro k hk
      simp only [List.cons_append, List.nil_append, List.mem_cons, List.not_mem_nil, or_false] at hk
      rcases hk with rfl | rfl | rfl
      · exact Or.inl ⟨_, rfl⟩
      · exact Or.inr (Or.inl rfl)
      · exact Or.inr (Or.inr ⟨_, _, rfl⟩)
    · refine ⟨?_, by simp [approvedBy]⟩
      intro k hk
      simp only [List.nil_append, List.mem_cons, List.not_mem_nil, or_false] at hk
      rcases hk with rfl | rfl
      · exact Or.inl ⟨_, rfl⟩
      · exact Or.inr (Or.inr ⟨_, _, rfl⟩)
  have h0 : w.prove.Covers c.sender (w.prove.bal c.sender) 0 := by
    refine Or.inr ⟨fun x => by rw [hA]; exact Nat.le_refl _, fun L hL => ?_⟩
    have : (L.map (w.prove.allow c.sender)).sum = 0 := by
      clear hb hL
      induction L with
      | nil => rfl
      | cons x L ih => rw [List.map_cons, List.sum_cons, ih, hA]
    omega
  have h1 := (gen ks h hb w _ 0 h0 hk.1).mono (P' := scriptStake.toNat) (by omega)
  rw [scriptStake_toNat] at h1
  rcases h1 with h1 | ⟨_, h1⟩
  · exact absurd h1 (by decide)
  · have := h1 [s] (by simp)
    simp only [List.map_cons, List.map_nil, List.sum_cons, List.sum_nil, Nat.add_zero] at this
    exact this

/-- An address that is no prover stays so once the number it would have been given is taken, unless the addresses
collide. -/
theorem never_registered {cfg : Cfg} (p : Address) (n : Nat) (l : List (Ctx × Call)) : ∀ w : World,
    w.staking.provers p = false → n ≤ w.staking.proverCount →
    (∀ o m f, n < m → m ≤ (runCalls cfg w l).staking.proverCount → cfg.create2 o m f ≠ p) →
    (runCalls cfg w l).staking.provers p = false ∧ n ≤ (runCalls cfg w l).staking.proverCount := by
  induction l with
  | nil => intro w h1 h2 _; exact ⟨h1, h2⟩
  | cons x l ih =>
    intro w h1 h2 h3
    rw [runCalls_cons] at h3 ⊢
    have mono : ∀ (l : List (Ctx × Call)) (w : World), w.staking.proverCount ≤ (runCalls cfg w l).staking.proverCount := by
      intro l
      induction l with
      | nil => intro w; exact Nat.le_refl _
      | cons y l ih =>
        intro w
        rw [runCalls_cons]
        refine Nat.le_trans ?_ (ih _)
        rcases call_ok (cfg := cfg) (c := y.1) (k := y.2) (w := w) with ⟨w', e1, e2⟩ | ⟨_, e2⟩
        · rw [e2]
          by_cases hk : ∃ f, y.2 = .createProver f
          · obtain ⟨f, hk⟩ := hk
            rw [hk] at e1
            obtain ⟨q, g⟩ := drop_ok.mp e1
            obtain ⟨_, _, _, _, _, _, _, _, _, _, _, rfl⟩ := createProver_ok g
            exact Nat.le_succ _
          · rw [((exec_frames e1).1 fun f e => hk ⟨f, e⟩).2.2.2]
            exact Nat.le_refl _
        · rw [e2]; exact Nat.le_refl _
    refine ih _ ?_ ?_ h3
    · rcases call_ok (cfg := cfg) (c := x.1) (k := x.2) (w := w) with ⟨w', e1, e2⟩ | ⟨_, e2⟩
      · by_cases hk : ∃ f, x.2 = .createProver f
        · obtain ⟨f, hk⟩ := hk
          rw [e2] at h3 ⊢
          rw [hk] at e1
          have hm := mono l w'
          obtain ⟨q, g⟩ := drop_ok.mp e1
          obtain ⟨_, _, _, g4, _, _, _, _, _, _, _, rfl⟩ := createProver_ok g
          have hne : p ≠ q := by
            rw [g4]
            exact Ne.symm (h3 _ _ _ (Nat.lt_succ_of_le h2) hm)
          exact (upd_ne _ _ hne).trans h1
        · rw [e2, ((exec_frames e1).1 fun f e => hk ⟨f, e⟩).2.1]
          exact h1
      · rw [e2]; exact h1
    · exact Nat.le_trans h2 (mono [x] w)

/-- **C106** (front-running): the script fixed its transactions in `w`. If anyone else's prover is created before the
transactions arrive (`g` changes the number of provers), then the planned stake is refused in every later world,
whatever anyone does, as its prover does not exist - as long as no address of a prover that the senders of `g` or
anyone later creates collides with the one expected. -/
theorem c106_front_run (cfg : Cfg) (w : World) {c : Ctx} {ks : List Call} (hp : scriptPlan cfg c w = some ks)
    (g : List (Ctx × Call)) (hg : (runCalls cfg w g).staking.proverCount ≠ w.staking.proverCount)
    (hcol : ∀ x ∈ g, ∀ f, cfg.create2 x.1.sender (w.staking.proverCount + 1) f ≠ newProver cfg c.sender w) (l : List (Ctx × Call))
    (hcol' : ∀ o m f, w.staking.proverCount + 1 < m → m ≤ (runCalls cfg w (g ++ l)).staking.proverCount →
      cfg.create2 o m f ≠ newProver cfg c.sender w) (c' : Ctx) (v : U256) :
    ¬ Succeeds cfg c' (.stake (newProver cfg c.sender w) v) (runCalls cfg w (g ++ l)) := by
  have hf : w.staking.provers (newProver cfg c.sender w) = false := by
    obtain ⟨p, w1, _, hx, _⟩ := scriptPlan_some hp
    obtain ⟨_, _, _, h5, h6, _⟩ := createProver_ok hx
    rw [scriptFee_toNat] at h5
    rw [h5] at h6
    exact h6
  generalize newProver cfg c.sender w = p at *
  -- the first prover that is created in `g`
  have split_g : ∀ (g : List (Ctx × Call)) (v : World), v.staking.provers p = false → v.staking.proverCount = w.staking.proverCount →
      (∀ x ∈ g, ∀ f, cfg.create2 x.1.sender (w.staking.proverCount + 1) f ≠ p) → (runCalls cfg v g).staking.proverCount ≠ w.staking.proverCount →
      ∃ g1 g2, g = g1 ++ g2 ∧ (runCalls cfg v g1).staking.provers p = false ∧
        w.staking.proverCount + 1 ≤ (runCalls cfg v g1).staking.proverCount := by
    intro g
    induction g with
    | nil => intro v _ h2 _ h4; exact absurd h2 h4
    | cons x g ih =>
      intro v h1 h2 h3 h4
      rw [runCalls_cons] at h4
      rcases call_ok (cfg := cfg) (c := x.1) (k := x.2) (w := v) with ⟨w', e1, e2⟩ | ⟨_, e2⟩
      · by_cases hk : ∃ f, x.2 = .createProver f
        · obtain ⟨f, hk⟩ := hk
          refine ⟨[x], g, rfl, ?_⟩
          rw [runCalls_cons, runCalls_nil, e2]
          rw [hk] at e1
          obtain ⟨q, g'⟩ := drop_ok.mp e1
          obtain ⟨_, _, _, g4, _, _, _, _, _, _, _, rfl⟩ := createProver_ok g'
          have hne : p ≠ q := by
            rw [g4, h2]
            exact Ne.symm (h3 x (List.mem_cons_self ..) _)
          refine ⟨(upd_ne _ _ hne).trans h1, ?_⟩
          show w.staking.proverCount + 1 ≤ v.staking.proverCount + 1
          omega
        · have hf := (exec_frames e1).1 fun f e => hk ⟨f, e⟩
          rw [e2] at h4
          obtain ⟨g1, g2, rfl, r1, r2⟩ := ih w' (by rw [hf.2.1]; exact h1) (by rw [hf.2.2.2]; exact h2)
            (fun y hy => h3 y (List.mem_cons_of_mem _ hy)) h4
          refine ⟨x :: g1, g2, rfl, ?_⟩
          rw [runCalls_cons, e2]
          exact ⟨r1, r2⟩
      · rw [e2] at h4
        obtain ⟨g1, g2, rfl, r1, r2⟩ := ih v h1 h2 (fun y hy => h3 y (List.mem_cons_of_mem _ hy)) h4
        refine ⟨x :: g1, g2, rfl, ?_⟩
        rw [runCalls_cons, e2]
        exact ⟨r1, r2⟩
  obtain ⟨g1, g2, rfl, r1, r2⟩ := split_g g w hf rfl hcol hg
  rw [List.append_assoc, runCalls_append] at hcol' ⊢
  have := (never_registered p (w.staking.proverCount + 1) (g2 ++ l) _ r1 r2 hcol').1
  rintro ⟨w', hx⟩
  exact (c45_inactive_refused (Or.inr this) c' w').1 v hx

/-- **C106** (no second run): once the account owns a prover, the script fails at every later time. -/
theorem c106_rerun (cfg : Cfg) (hc : cfg.WF) (w : World) (a : Address) (ho : w.staking.ownerToProver a ≠ 0) (l : List (Ctx × Call)) (c : Ctx)
    (hs : c.sender = a) : scriptPlan cfg c (runCalls cfg w l) = none := by
  have keep : ∀ (l : List (Ctx × Call)) (w : World), w.staking.ownerToProver a ≠ 0 → (runCalls cfg w l).staking.ownerToProver a ≠ 0 := by
    intro l
    induction l with
    | nil => intro w h; exact h
    | cons x l ih =>
      intro w h
      rw [runCalls_cons]
      refine ih _ ?_
      rcases call_ok (cfg := cfg) (c := x.1) (k := x.2) (w := w) with ⟨w', e1, e2⟩ | ⟨_, e2⟩
      · rw [e2]
        by_cases hk : ∃ f, x.2 = .createProver f
        · obtain ⟨f, hk⟩ := hk
          rw [hk] at e1
          obtain ⟨q, g⟩ := drop_ok.mp e1
          obtain ⟨_, _, _, g4, _, _, _, _, _, _, _, rfl⟩ := createProver_ok g
          show upd w.staking.ownerToProver x.1.sender q a ≠ 0
          by_cases e : a = x.1.sender
          · rw [e, upd_same, g4]; exact (hc.create2 _ _ _).1
          · rw [upd_ne _ _ e]; exact h
        · rw [((exec_frames e1).1 fun f e => hk ⟨f, e⟩).2.2.1]
          exact h
      · rw [e2]; exact h
  have := keep l w ho
  unfold scriptPlan
  split
  · rfl
  · split
    · rfl
    · rename_i p w1 hx
      obtain ⟨_, h3, _⟩ := createProver_ok hx
      rw [hs] at h3
      exact absurd h3 this

/-! ## A history -/

namespace ToyL1

/-- Addresses of a deployment in which the address of a prover depends on its owner and its number. -/
def cfg2 : Cfg := { cfg with create2 := fun o n _ => BitVec.ofNat 160 (2 ^ 159 + (n % 2 ^ 30) * 2 ^ 100 + o.toNat % 2 ^ 100) }

theorem create2_toNat2 (o : Address) (n f : Nat) : (cfg2.create2 o n f).toNat = 2 ^ 159 + (n % 2 ^ 30) * 2 ^ 100 + o.toNat % 2 ^ 100 := by
  show (BitVec.ofNat 160 (2 ^ 159 + (n % 2 ^ 30) * 2 ^ 100 + o.toNat % 2 ^ 100)).toNat = _
  rw [BitVec.toNat_ofNat]
  have : n % 2 ^ 30 < 2 ^ 30 := Nat.mod_lt _ (by decide)
  have : o.toNat % 2 ^ 100 < 2 ^ 100 := Nat.mod_lt _ (by decide)
  exact Nat.mod_eq_of_lt (by omega)

theorem create2_ne2 (o : Address) (n f : Nat) (a : Address) (ha : a.toNat < 2 ^ 159) : cfg2.create2 o n f ≠ a := by
  intro e
  have h := create2_toNat2 o n f
  rw [e] at h; omega

theorem cfg_wf2 : cfg2.WF where
  nonzero := by decide
  distinct := by decide
  create2 o n f := ⟨create2_ne2 _ _ _ _ (by decide), create2_ne2 _ _ _ _ (by decide), create2_ne2 _ _ _ _ (by decide),
    create2_ne2 _ _ _ _ (by decide), create2_ne2 _ _ _ _ (by decide)⟩

theorem not_system2 (a : Address) (h1 : 4 < a.toNat) (h2 : a.toNat < 2 ^ 159) : ¬ cfg2.System a := by
  rintro (e | e | e | e | ⟨o, n, f, e⟩)
  · rw [e] at h1; exact absurd h1 (by decide)
  · rw [e] at h1; exact absurd h1 (by decide)
  · rw [e] at h1; exact absurd h1 (by decide)
  · rw [e] at h1; exact absurd h1 (by decide)
  · exact create2_ne2 o n f a h2 e.symm

/-- A deployment in which alice and bob hold a million $PROVE each. -/
def rich : World := { genesis with prove := { genesis.prove with
  supply := 2000000 * 10 ^ 18
  bal := fun a => if a = alice then 1000000 * 10 ^ 18 else if a = bob then 1000000 * 10 ^ 18 else 0 } }

theorem rich_ok : Genesis cfg2 rich where
  prove_sum := ⟨[alice, bob], by decide, by
    intro a ha
    simp only [List.mem_cons, List.not_mem_nil, or_false, not_or] at ha
    show (if a = alice then 1000000 * 10 ^ 18 else if a = bob then 1000000 * 10 ^ 18 else 0) = 0
    rw [if_neg ha.1, if_neg ha.2], by decide⟩
  prove_max := by decide
  prove_allow _ _ _ := rfl
  iprove := rfl
  st := rfl
  dispense := ⟨rfl, rfl, rfl, rfl⟩
  maps := ⟨rfl, rfl, rfl, rfl, rfl⟩
  registry := ⟨rfl, rfl, rfl, rfl⟩
  periods := by decide
  vapp_ids := ⟨rfl, rfl, rfl⟩
  vapp_root := genesis_ok.vapp_root
  vapp_maps := genesis_ok.vapp_maps
  vapp_params := genesis_ok.vapp_params

theorem rich_ordinary : Ordinary cfg2 rich [] where
  genesis := rich_ok
  admissible x hx := nomatch hx
  length := by decide
  times x hx := nomatch hx
  period := by decide
  supply h₁ h₂ e := by
    obtain ⟨rfl, rfl⟩ := List.append_eq_nil_iff.mp e.symm
    decide

/-- The transactions that alice's run of the script fixes. -/
def alicePlan : List Call :=
  [.createProver scriptFee, .proveApprove cfg2.staking scriptStake, .stake (cfg2.create2 alice 1 1000) scriptStake]

/-- Bob creates a prover just before alice's transactions arrive. -/
def bobFirst : List (Ctx × Call) := (ctx bob 1000, .createProver 0) :: alicePlan.map fun k => (ctx alice 1001, k)

theorem bobFirst_broadcast : Broadcast alice alicePlan bobFirst :=
  .other (by decide) trivial (.send rfl (.send rfl (.send rfl .done)))

end ToyL1

open ToyL1 in
/-- Alice is ready, and the script fixes the three transactions. -/
theorem toy_plan : scriptPlan cfg2 (ctx alice 999) rich = some alicePlan :=
  (c106_plan cfg_wf2 rich_ordinary rfl (by decide) (c := ctx alice 999) (not_system2 _ (by decide) (by decide)) (by decide) _).mpr
    ⟨{ account := by decide +kernel, fresh := ⟨rfl, rfl, rfl⟩, vapp := by decide +kernel, amount := by decide +kernel }, rfl⟩

open ToyL1 in
/-- **C106** is false as it stands: the first phase goes through, all transactions are sent, but bob's prover, created
just before, makes alice's stake fail: alice owns a prover, stakes nothing, still lets the staking contract spend
10,000 $PROVE, and can never run the script again. -/
theorem c106_false : scriptPlan cfg2 (ctx alice 999) rich = some alicePlan ∧ Broadcast alice alicePlan bobFirst ∧
    (runCalls cfg2 rich bobFirst).staking.ownerToProver alice = cfg2.create2 alice 2 1000 ∧
    (runCalls cfg2 rich bobFirst).staking.stakerToProver alice = 0 ∧ (runCalls cfg2 rich bobFirst).st.bal alice = 0 ∧
    (runCalls cfg2 rich bobFirst).prove.allow alice cfg2.staking = 10000 * 10 ^ 18 ∧
    (∀ l c, c.sender = alice → scriptPlan cfg2 c (runCalls cfg2 rich (bobFirst ++ l)) = none) := by
  have h1 : (runCalls cfg2 rich bobFirst).staking.ownerToProver alice = cfg2.create2 alice 2 1000 ∧
      (runCalls cfg2 rich bobFirst).staking.stakerToProver alice = 0 ∧ (runCalls cfg2 rich bobFirst).st.bal alice = 0 ∧
      (runCalls cfg2 rich bobFirst).prove.allow alice cfg2.staking = 10000 * 10 ^ 18 := by decide +kernel
  refine ⟨toy_plan, bobFirst_broadcast, h1.1, h1.2.1, h1.2.2.1, h1.2.2.2, ?_⟩
  intro l c hs
  rw [runCalls_append]
  exact c106_rerun cfg2 cfg_wf2 _ alice (by rw [h1.1]; decide +kernel) l c hs

-- Witnesses. Undisturbed, alice ends up with the prover and 10,000 $stPROVE for 10,000 $PROVE; with bob in between, the
-- money bound holds with equality, and the hypotheses of `c106_front_run` are met.
open ToyL1 in
example : (runCalls cfg2 rich (alicePlan.map fun k => (ctx alice 1001, k))).st.bal alice = 10000 * 10 ^ 18 ∧
    (runCalls cfg2 rich (alicePlan.map fun k => (ctx alice 1001, k))).prove.bal alice + 10000 * 10 ^ 18 = rich.prove.bal alice ∧
    rich.prove.bal alice + (runCalls cfg2 rich bobFirst).prove.allow alice cfg2.staking =
      (runCalls cfg2 rich bobFirst).prove.bal alice + 10000 * 10 ^ 18 ∧
    (runCalls cfg2 rich [(ctx bob 1000, .createProver 0)]).staking.proverCount ≠ rich.staking.proverCount := by
  decide +kernel

open ToyL1 in
example (o : Address) (m f : Nat) (h1 : rich.staking.proverCount + 1 < m) (h2 : m ≤ (runCalls cfg2 rich bobFirst).staking.proverCount) :
    cfg2.create2 o m f ≠ newProver cfg2 alice rich := by
  have h3 : (runCalls cfg2 rich bobFirst).staking.proverCount = 2 := by decide +kernel
  rw [h3] at h2
  intro e
  have h4 := create2_toNat2 o m f
  rw [e] at h4
  have h5 : (newProver cfg2 alice rich).toNat = 2 ^ 159 + 2 ^ 100 + 100 := by decide +kernel
  have h6 : o.toNat % 2 ^ 100 < 2 ^ 100 := Nat.mod_lt _ (by decide)
  rw [h5, Nat.mod_eq_of_lt (a := m) (by omega)] at h4
  change 0 + 1 < m at h1
  omega

open ToyL1 in
example (f : Nat) : cfg2.create2 (ctx bob 1000).sender (rich.staking.proverCount + 1) f ≠ newProver cfg2 alice rich := by
  show cfg2.create2 bob 1 f ≠ _
  intro e
  have h4 := create2_toNat2 bob 1 f
  rw [e] at h4
  exact absurd h4 (by decide +kernel)

end Verif
