import Verif.L1Claims
import Verif.ToyStaking
/-
# Properties of the staking contract: C38 to C45

Vocabulary: `Reachable cfg w` are the worlds any history of admissible external calls leads to;
`exec cfg c k w = .ok ((), w')` says that call `k` in context `c` does not revert and leads from `w` to `w'`;
`HasSum f n` says that the values of `f` over all keys add up to `n`.
-/

namespace Verif
open L1

/-! ## C38: escrow accounting -/

/-- The $iPROVE the staking contract holds is the total of the escrow pools. -/
theorem c38_escrow {cfg : Cfg} (hc : cfg.WF) {w : World} (hr : Reachable cfg w) :
    HasSum (fun p => (w.staking.escrowPools p).iPROVEEscrow) (w.iprove.bal cfg.staking) :=
  (StakingInv.reachable hc w hr).stake.escrow

/-- Finishing an unstake takes from the pool of the staker's prover, at most what is in it, and nothing from
other pools. -/
theorem c38_finish {cfg : Cfg} {c : Ctx} {s : Address} {w w' : World}
    (h : exec cfg c (.finishUnstake s) w = .ok ((), w')) :
    (∃ d, d ≤ (w.staking.escrowPools (w.staking.stakerToProver s)).iPROVEEscrow ∧
      (w'.staking.escrowPools (w.staking.stakerToProver s)).iPROVEEscrow =
        (w.staking.escrowPools (w.staking.stakerToProver s)).iPROVEEscrow - d ∧
      w'.iprove.bal cfg.staking + d = w.iprove.bal cfg.staking) ∧
    (∀ q, q ≠ w.staking.stakerToProver s → w'.staking.escrowPools q = w.staking.escrowPools q) ∧
    (∀ a, a ≠ cfg.staking → w'.iprove.bal a = w.iprove.bal a) := by
  replace h := drop_ok.mp h
  obtain ⟨n, h⟩ := h
  obtain ⟨_, _, _, w1, hl, rfl⟩ := finishUnstake_ok h
  have r := finishLoop_rel (PayRel.pre cfg s (w.staking.stakerToProver s)) (fun _ _ _ _ _ h => h.rel) _ _ _ _ _ _ hl
  obtain ⟨_, e2, _, _, _, e6, e7, _⟩ := finishTail_same s (w.staking.stakerToProver s) w1
  obtain ⟨d, d1, d2⟩ := r.escrow
  refine ⟨⟨d, by omega, by rw [e6]; omega, by rw [e2]; exact d2⟩, fun q hq => ?_, fun a ha => ?_⟩
  · rw [e7 q hq]; exact r.pools q hq
  · rw [e2]; exact r.iprove a ha

/-! ## C39: $stPROVE is backed by prover shares -/

/-- The $stPROVE supply is the total of the vaults' shares; the staking contract holds all shares of a vault,
and they are the $stPROVE of the stakers attached to its prover. -/
theorem c39_backed {cfg : Cfg} (hc : cfg.WF) {w : World} (hr : Reachable cfg w) :
    HasSum (fun p => if w.staking.provers p = true then (w.vault p).supply else 0) w.st.supply ∧
    HasSum w.st.bal w.st.supply ∧
    ∀ p, w.staking.provers p = true →
      (w.vault p).bal cfg.staking = (w.vault p).supply ∧ (∀ a, a ≠ cfg.staking → (w.vault p).bal a = 0) ∧
      HasSum (fun a => if w.staking.stakerToProver a = p then w.st.bal a else 0) (w.vault p).supply := by
  have h := (StakingInv.reachable hc w hr).stake
  exact ⟨h.vtotal, h.st, fun p hp => ⟨h.vbal p hp, h.vother p hp, h.vstake p hp⟩⟩

/-- Who has $stPROVE is attached to a registered prover. -/
theorem c39_attached {cfg : Cfg} (hc : cfg.WF) {w : World} (hr : Reachable cfg w) {a : Address} (ha : w.st.bal a ≠ 0) :
    w.staking.provers (w.staking.stakerToProver a) = true := by
  have h := (StakingInv.reachable hc w hr).stake
  exact h.staked a fun e => ha (h.unstaked a e).1

/-- The $stPROVE balance of an account changes only by the account's own stake (or one it permitted) and its
own unstake request; in particular it cannot be transferred. -/
theorem c39_nontransferable {cfg : Cfg} (hc : cfg.WF) {c : Ctx} {k : Call} {w w' : World} (hr : Reachable cfg w)
    (ha : Admissible cfg (c, k)) (h : exec cfg c k w = .ok ((), w')) (a : Address) (hne : w'.st.bal a ≠ w.st.bal a) :
    (w.st.bal a < w'.st.bal a ∧ ((∃ p v, k = .stake p v ∧ c.sender = a) ∨ (∃ s p v, k = .permitAndStake s p a v))) ∨
    (∃ v : U256, k = .requestUnstake v ∧ c.sender = a ∧ w'.st.bal a + v.toNat = w.st.bal a) := by
  have hi := StakingInv.reachable hc w hr
  have stk : ∀ {staker p : Address} {m n : Nat} {w : World}, StakeEffect cfg staker p m n w w' → w'.st.bal a ≠ w.st.bal a →
      staker = a ∧ w.st.bal a < w'.st.bal a := by
    intro staker p m n w he hne
    obtain ⟨_, _, _, _, _, _, _, _, _, _, _, _, s1, _, _, _, hn0, _, _, _, _, _, _, a5, rfl⟩ := he
    obtain ⟨_, _, rfl⟩ := Erc20.mint_ok a5
    dsimp only at hne ⊢
    by_cases e : a = staker
    · subst e
      refine ⟨rfl, ?_⟩
      rw [upd_same]; omega
    · rw [upd_ne _ _ e] at hne; exact absurd rfl hne
  by_cases hk : k.touchesStaking = false
  · exact absurd (by rw [(exec_quiet hc hi.reg ha hk h).st_bal]) hne
  · cases k
    case stake p v =>
      replace h := drop_ok.mp h
      obtain ⟨n, h⟩ := h
      obtain ⟨_, t1, t2, _, _, he⟩ := stake_ok h
      obtain ⟨e1, e2⟩ := stk he hne
      exact Or.inl ⟨e2, Or.inl ⟨p, v, rfl, e1⟩⟩
    case permitAndStake s p f v =>
      replace h := drop_ok.mp h
      obtain ⟨n, h⟩ := h
      obtain ⟨_, t0, t1, t2, _, _, _, he⟩ := permitAndStake_ok h
      obtain ⟨rfl, e2⟩ := stk he hne
      exact Or.inl ⟨e2, Or.inr ⟨s, p, v, rfl⟩⟩
    case requestUnstake v =>
      obtain ⟨_, _, _, _, _, p, esc, s1, v1, i1, _, _, _, b1, _, _, _, rfl⟩ := requestUnstake_ok h
      obtain ⟨_, hle, rfl⟩ := Erc20.burn_ok b1
      dsimp only at hne ⊢
      by_cases e : a = c.sender
      · subst e
        refine Or.inr ⟨v, rfl, rfl, ?_⟩
        rw [upd_same]; omega
      · rw [upd_ne _ _ e] at hne; exact absurd rfl hne
    case finishUnstake s =>
      replace h := drop_ok.mp h
      obtain ⟨n, h⟩ := h
      obtain ⟨_, _, _, w1, hl, rfl⟩ := finishUnstake_ok h
      have r := finishLoop_rel (PayRel.pre cfg s (w.staking.stakerToProver s)) (fun _ _ _ _ _ h => h.rel) _ _ _ _ _ _ hl
      rw [(finishTail_same _ _ _).2.2.1, r.st] at hne
      exact absurd rfl hne
    case createProver f =>
      replace h := drop_ok.mp h
      obtain ⟨p, h⟩ := h
      obtain ⟨_, _, _, _, _, _, _, _, _, _, _, rfl⟩ := createProver_ok h
      exact absurd rfl hne
    case requestSlash p v =>
      replace h := drop_ok.mp h
      obtain ⟨n, h⟩ := h
      obtain ⟨_, _, _, _, rfl⟩ := requestSlash_ok h
      exact absurd rfl hne
    case cancelSlash p i =>
      obtain ⟨_, _, _, _, _, rfl⟩ := cancelSlash_ok h
      exact absurd rfl hne
    case finishSlash p i =>
      replace h := drop_ok.mp h
      obtain ⟨n, h⟩ := h
      obtain ⟨_, _, _, _, _, _, _, rfl⟩ := finishSlash_shape h
      exact absurd rfl hne
    case dispense v =>
      obtain ⟨_, _, _, _, _, _, _, _, _, rfl⟩ := dispense_ok h
      exact absurd rfl hne
    case updateDispenseRate v =>
      obtain ⟨_, _, rfl⟩ := updateDispenseRate_ok h
      exact absurd rfl hne
    case setDispenser a =>
      obtain ⟨_, rfl⟩ := setDispenser_ok h
      exact absurd rfl hne
    case stakingSetOwner a =>
      obtain ⟨_, rfl⟩ := stakingSetOwner_ok h
      exact absurd rfl hne
    all_goals exact absurd rfl hk

/-- While an account has $stPROVE, no call moves it to another prover. -/
theorem c39_stable {cfg : Cfg} (hc : cfg.WF) {c : Ctx} {k : Call} {w w' : World} (hr : Reachable cfg w)
    (h : exec cfg c k w = .ok ((), w')) (a : Address) (hb : w.st.bal a ≠ 0) :
    w'.staking.stakerToProver a = w.staking.stakerToProver a := by
  have hi := (StakingInv.reachable hc w hr).stake
  have h0 : w.staking.stakerToProver a ≠ 0 := fun e => hb (hi.unstaked a e).1
  have hf := (exec_fields h).s2p
  have stk : ∀ {staker p : Address} {m n : Nat} {t : Erc20}, StakeEffect cfg staker p m n { w with prove := t } w' →
      w'.staking.stakerToProver a = w.staking.stakerToProver a := by
    intro staker p m n t he
    have h1 := he.one
    obtain ⟨_, _, _, _, _, _, _, _, _, _, _, _, _, _, _, _, _, _, _, _, _, _, _, _, rfl⟩ := he
    dsimp only at h1 ⊢
    by_cases e : a = staker
    · subst e
      rw [upd_same, h1.resolve_left h0]
    · rw [upd_ne _ _ e]
  cases k
  case stake p v =>
    replace h := drop_ok.mp h
    obtain ⟨n, h⟩ := h
    obtain ⟨_, t1, t2, _, _, he⟩ := stake_ok h
    exact stk he
  case permitAndStake s p f v =>
    replace h := drop_ok.mp h
    obtain ⟨n, h⟩ := h
    obtain ⟨_, t0, t1, t2, _, _, _, he⟩ := permitAndStake_ok h
    exact stk he
  case finishUnstake s =>
    replace h := drop_ok.mp h
    obtain ⟨n, h⟩ := h
    obtain ⟨_, _, _, w1, hl, rfl⟩ := finishUnstake_ok h
    have r := finishLoop_rel (PayRel.pre cfg s (w.staking.stakerToProver s)) (fun _ _ _ _ _ h => h.rel) _ _ _ _ _ _ hl
    obtain ⟨_, _, _, _, _, _, _, e8, e9⟩ := finishTail_same s (w.staking.stakerToProver s) w1
    by_cases e : a = s
    · subst e
      rw [e9 (by rw [r.st]; exact hb), r.s2p]
    · rw [e8 a e, r.s2p]
  all_goals rw [hf (fun _ _ => Call.noConfusion) (fun _ _ _ _ => Call.noConfusion) (fun _ => Call.noConfusion)]

/-! ## C40: the unbonding period -/

/-- `finishUnstake` settles exactly the staker's claims whose period is over (`done`), in some order, each
once; the others stay. The payout is what settling them one after the other gives (`Settling.settle`), and
goes to the staker. Other stakers' claims are untouched. -/
theorem c40_finish {cfg : Cfg} (hc : cfg.WF) {c : Ctx} {s : Address} {w w' : World} (hr : Reachable cfg w)
    (h : exec cfg c (.finishUnstake s) w = .ok ((), w')) :
    ∃ done paid, (done ++ w'.staking.unstakeClaims s).Perm (w.staking.unstakeClaims s) ∧
      (∀ cl ∈ done, cl.timestamp + w.staking.unstakePeriod ≤ c.now) ∧
      (∀ cl ∈ w'.staking.unstakeClaims s, c.now < cl.timestamp + w.staking.unstakePeriod) ∧
      (∀ a, a ≠ s → w'.staking.unstakeClaims a = w.staking.unstakeClaims a) ∧
      settling cfg (w.staking.stakerToProver s) w' paid =
        done.foldl (Settling.settle (w.staking.escrowPools (w.staking.stakerToProver s)).slashFactor)
          (settling cfg (w.staking.stakerToProver s) w 0) ∧
      w'.prove.bal s = w.prove.bal s + paid ∧
      (∀ a, a ≠ s → a ≠ cfg.iprove → w'.prove.bal a = w.prove.bal a) := by
  have hi := StakingInv.reachable hc w hr
  replace h := drop_ok.mp h
  obtain ⟨n, h⟩ := h
  obtain ⟨hs0, _, _, w1, hl, rfl⟩ := finishUnstake_ok h
  have hne : s ≠ cfg.iprove := fun e => hs0 (hi.outside s (Or.inr (Or.inl e)))
  have r := finishLoop_rel (PayRel.pre cfg s (w.staking.stakerToProver s)) (fun _ _ _ _ _ h => h.rel) _ _ _ _ _ _ hl
  obtain ⟨e1, e2, _, _, e5, e6, _, _, _⟩ := finishTail_same s (w.staking.stakerToProver s) w1
  obtain ⟨done, d1, d2, d3, d4, d5, d6⟩ := finishLoop_settles hne _ _ _ _ _ _ hl (by omega) (by simp)
  refine ⟨done, n, by rw [e5]; exact d1, d2, ?_, ?_, ?_, by rw [e1]; omega, by rw [e1]; exact d6⟩
  · rw [e5]; intro cl hcl; have := d3 cl hcl; omega
  · intro a ha; rw [e5]; exact r.claims a ha
  · rw [← d4]; unfold settling; rw [e1, e2, e6]

/-- `requestUnstake` adds one claim, stamped with the time of the request, for the $iPROVE that the shares
are worth; the shares are gone, the $iPROVE is in the pool of the staker's prover. -/
theorem c40_request {cfg : Cfg} (hc : cfg.WF) {c : Ctx} {v : U256} {w w' : World} (hr : Reachable cfg w)
    (h : exec cfg c (.requestUnstake v) w = .ok ((), w')) :
    ∃ p esc factor, p = w.staking.stakerToProver c.sender ∧ w.staking.provers p = true ∧
      esc = v.toNat * (w.iprove.bal p + 1) / ((w.vault p).supply + 1) ∧
      factor = (if (w.staking.escrowPools p).slashFactor = 0 then SCALAR else (w.staking.escrowPools p).slashFactor) ∧
      w'.staking.unstakeClaims c.sender = w.staking.unstakeClaims c.sender ++ [⟨esc, factor, c.now⟩] ∧
      (∀ a, a ≠ c.sender → w'.staking.unstakeClaims a = w.staking.unstakeClaims a) ∧
      w'.staking.escrowPools p = ⟨(w.staking.escrowPools p).iPROVEEscrow + esc, factor⟩ ∧
      (∀ q, q ≠ p → w'.staking.escrowPools q = w.staking.escrowPools q) ∧
      w'.iprove.bal p + esc = w.iprove.bal p ∧ w'.iprove.bal cfg.staking = w.iprove.bal cfg.staking + esc ∧
      (w'.vault p).supply + v.toNat = (w.vault p).supply ∧ w'.st.bal c.sender + v.toNat = w.st.bal c.sender ∧
      w'.staking.unstakeClaims c.sender ≠ [] ∧
      (w'.staking.unstakeClaims c.sender).length ≤ w.staking.maxUnstakeRequests := by
  have hi := StakingInv.reachable hc w hr
  obtain ⟨_, h0, hlen, _, hst, p, esc, s1, v1, i1, hp, _, hesc, b1, b2, b3, _, rfl⟩ := requestUnstake_ok h
  have hreg : w.staking.provers p = true := by rw [hp]; exact hi.stake.staked _ h0
  have hne : p ≠ cfg.staking := (hi.reg.ne hc hreg).2.2.2.1
  obtain ⟨c1, c2, c3, _⟩ := Erc20.transfer_bal b3 hne
  obtain ⟨_, hv, hv1⟩ := Erc20.burn_ok b2
  obtain ⟨_, _, hs1⟩ := Erc20.burn_ok b1
  have hvs := hi.stake.vbal p hreg
  refine ⟨p, esc, _, hp, hreg, hesc, rfl, upd_same _ _ _, fun a ha => upd_ne _ _ ha, upd_same _ _ _, fun q hq => upd_ne _ _ hq,
    by dsimp only; omega, c3, ?_, ?_, ?_, ?_⟩
  all_goals dsimp only
  · rw [upd_same, hv1]; dsimp only; omega
  · rw [hs1]; dsimp only; rw [upd_same]; omega
  · rw [upd_same]; simp
  · rw [upd_same, List.length_append, List.length_singleton]; omega

/-- No other call changes any claim. -/
theorem c40_only {cfg : Cfg} {c : Ctx} {k : Call} {w w' : World} (h : exec cfg c k w = .ok ((), w'))
    (h1 : ∀ v, k ≠ .requestUnstake v) (h2 : ∀ s, k ≠ .finishUnstake s) :
    w'.staking.unstakeClaims = w.staking.unstakeClaims :=
  (exec_fields h).claims h1 h2

/-- The claims `a` opened in a history, in order: one for each successful `requestUnstake` by `a`. -/
def claimsMade (cfg : Cfg) (a : Address) : World → List (Ctx × Call) → List UnstakeClaim
  | _, [] => []
  | w, x :: h =>
    (match x.2, exec cfg x.1 x.2 w with
      | .requestUnstake _, .ok (_, w') =>
        if x.1.sender = a then (w'.staking.unstakeClaims a).drop (w.staking.unstakeClaims a).length else []
      | _, _ => []) ++ claimsMade cfg a (call cfg x.1 x.2 w) h

/-- Over any history: the claims an account opened are those still open and those settled, each of which was
settled by one `finishUnstake` for the account, at a time at which its period was over. -/
theorem c40_history {cfg : Cfg} (hc : cfg.WF) {w : World} (hr : Reachable cfg w) (a : Address) (h : List (Ctx × Call))
    (ha : ∀ x ∈ h, Admissible cfg x) :
    ∃ settled : List (Nat × UnstakeClaim),
      (settled.map (·.2) ++ (runCalls cfg w h).staking.unstakeClaims a).Perm
        (w.staking.unstakeClaims a ++ claimsMade cfg a w h) ∧
      ∀ e ∈ settled, (∃ x ∈ h, x.2 = .finishUnstake a ∧ x.1.now = e.1) ∧
        e.2.timestamp + w.staking.unstakePeriod ≤ e.1 := by
  induction h generalizing w with
  | nil => exact ⟨[], by simp [claimsMade, runCalls_nil], fun _ h => (List.not_mem_nil h).elim⟩
  | cons x h ih =>
    obtain ⟨c, k⟩ := x
    have hadm := ha _ (List.mem_cons_self ..)
    have hr' : Reachable cfg (call cfg c k w) := by
      obtain ⟨w0, h0, g1, g2, g3⟩ := hr
      refine ⟨w0, h0 ++ [(c, k)], g1, ?_, ?_⟩
      · intro x hx
        rcases List.mem_append.mp hx with hx | hx
        · exact g2 x hx
        · rw [List.mem_singleton.mp hx]; exact hadm
      · rw [runCalls_append, ← g3]; rfl
    obtain ⟨settled, s1, s2⟩ := ih hr' (fun x hx => ha x (List.mem_cons_of_mem _ hx))
    have s2' : ∀ P : Nat, P = (call cfg c k w).staking.unstakePeriod → ∀ e ∈ settled,
        (∃ x ∈ (c, k) :: h, x.2 = .finishUnstake a ∧ x.1.now = e.1) ∧ e.2.timestamp + P ≤ e.1 := by
      rintro _ rfl e he
      obtain ⟨⟨x, hx, hx'⟩, h2⟩ := s2 e he
      exact ⟨⟨x, List.mem_cons_of_mem _ hx, hx'⟩, h2⟩
    rw [runCalls_cons]
    unfold claimsMade
    dsimp only
    unfold call at s1 s2' ⊢
    cases hx : exec cfg c k w with
    | error e =>
      simp only [hx] at s1 s2'
      have e1 : (match k, (Except.error e : Except L1Err (Unit × World)) with
        | .requestUnstake _, .ok (_, w') =>
          if c.sender = a then (w'.staking.unstakeClaims a).drop (w.staking.unstakeClaims a).length else []
        | _, _ => ([] : List UnstakeClaim)) = [] := by cases k <;> rfl
      rw [e1, List.nil_append]
      exact ⟨settled, s1, s2' _ rfl⟩
    | ok r =>
      obtain ⟨⟨⟩, w'⟩ := r
      simp only [hx] at s1 s2'
      have hper : w.staking.unstakePeriod = w'.staking.unstakePeriod := (exec_frames hx).2.2.2.1.symm
      have hcl := (exec_fields hx).claims
      cases k
      case requestUnstake v =>
        dsimp only
        obtain ⟨p, esc, factor, _, _, _, _, q1, q2, _⟩ := c40_request hc hr hx
        by_cases e : c.sender = a
        · subst e
          rw [if_pos rfl, q1, List.drop_left]
          refine ⟨settled, ?_, s2' _ hper⟩
          rw [q1] at s1
          rw [← List.append_assoc]; exact s1
        · rw [if_neg e, List.nil_append]
          rw [q2 a (Ne.symm e)] at s1
          exact ⟨settled, s1, s2' _ hper⟩
      case finishUnstake s =>
        dsimp only
        rw [List.nil_append]
        obtain ⟨done, paid, q1, q2, _, q4, _⟩ := c40_finish hc hr hx
        by_cases e : a = s
        · subst e
          refine ⟨done.map (fun cl => (c.now, cl)) ++ settled, ?_, ?_⟩
          · rw [List.map_append, List.map_map]
            have e1 : done.map ((fun x : Nat × UnstakeClaim => x.2) ∘ fun cl => (c.now, cl)) = done := by
              simp [Function.comp_def]
            rw [e1, List.append_assoc]
            refine (List.Perm.append_left done s1).trans ?_
            rw [← List.append_assoc]
            exact List.Perm.append_right _ q1
          · intro x hx
            rcases List.mem_append.mp hx with hx | hx
            · obtain ⟨cl, hcl, rfl⟩ := List.mem_map.mp hx
              exact ⟨⟨_, List.mem_cons_self .., rfl, rfl⟩, q2 cl hcl⟩
            · exact s2' _ hper x hx
        · rw [q4 a e] at s1
          exact ⟨settled, s1, s2' _ hper⟩
      all_goals
        rw [hcl (fun _ => Call.noConfusion) (fun _ => Call.noConfusion)] at s1
        exact ⟨settled, s1, s2' _ hper⟩

/-! ## Concrete cases

`ToyL1.w3`: alice staked 1000 and asked for 400 and 100 of it back, bob staked 500; a slash of 300 is open.
`ToyL1.w4`: the slash has been executed. -/

-- c38_escrow, c39_backed
open ToyL1 in
example : Reachable cfg w3 ∧ w3.iprove.bal cfg.staking = 500 ∧ (w3.staking.escrowPools prover1).iPROVEEscrow = 500 ∧
    w3.st.supply = 1000 ∧ (w3.vault prover1).supply = 1000 ∧ w3.st.bal alice = 500 ∧ w3.st.bal bob = 500 ∧
    w3.staking.stakerToProver alice = prover1 ∧ w3.staking.stakerToProver bob = prover1 :=
  ⟨reachable (by decide +kernel), by decide +kernel⟩

-- c40_finish, c38_finish: at 1220 only alice's first claim (of time 1100) is due; it pays 400 less a fifth
open ToyL1 in
example : (exec cfg (ctx bob 1220) (.finishUnstake alice) w4).toBool = true ∧
    (call cfg (ctx bob 1220) (.finishUnstake alice) w4).staking.unstakeClaims alice = [⟨100, SCALAR, 1150⟩] ∧
    (call cfg (ctx bob 1220) (.finishUnstake alice) w4).prove.bal alice = w4.prove.bal alice + 320 ∧
    (call cfg (ctx bob 1220) (.finishUnstake alice) w4).staking.unstakeClaims alice ≠ w4.staking.unstakeClaims alice := by
  decide +kernel

-- c40_request, c39_nontransferable, c39_stable
open ToyL1 in
example : (exec cfg (ctx bob 1220) (.requestUnstake 100) w4).toBool = true ∧ w4.st.bal bob = 500 ∧
    (call cfg (ctx bob 1220) (.requestUnstake 100) w4).st.bal bob = 400 ∧
    (call cfg (ctx bob 1220) (.requestUnstake 100) w4).staking.unstakeClaims bob = [⟨80, 4 * SCALAR / 5, 1220⟩] := by
  decide +kernel

-- c40_history: alice opened two claims in the history, and settles the first
open ToyL1 in
example : stakes.all admissible = true ∧
    claimsMade cfg alice genesis stakes = [⟨400, SCALAR, 1100⟩, ⟨100, SCALAR, 1150⟩] := by
  decide +kernel

end Verif
