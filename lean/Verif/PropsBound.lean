import Verif.PropsStaking3
import Verif.PropsLive
import Verif.ToyStaking
/-
# Property C117: a staker who leaves is bound to the prover for the unstake period
-/

namespace Verif
open L1

section
variable {cfg : Cfg}

/-! ## The property -/

/-- **C117 (requests).** Nobody ever has more open unstake requests than the configured maximum. -/
theorem c117_max (hc : cfg.WF) {w : World} (hr : Reachable cfg w) (a : Address) :
    (w.staking.unstakeClaims a).length ≤ w.staking.maxUnstakeRequests := by
  suffices h : Reachable cfg w ∧ ∀ a, (w.staking.unstakeClaims a).length ≤ w.staking.maxUnstakeRequests from h.2 a
  refine reachable_induction
    (P := fun w => Reachable cfg w ∧ ∀ a, (w.staking.unstakeClaims a).length ≤ w.staking.maxUnstakeRequests) ?_ ?_ w hr
  · intro w hg
    refine ⟨⟨w, [], hg, fun _ h => (nomatch h), rfl⟩, fun a => ?_⟩
    rw [hg.maps.2.1]
    exact Nat.zero_le _
  · rintro w c k w' ⟨hr, hl⟩ ha h
    have hr' : Reachable cfg w' := by
      have := Reachable.call hr ha
      rcases call_ok (cfg := cfg) (c := c) (k := k) (w := w) with ⟨w1, h1, h2⟩ | ⟨⟨e, h1⟩, _⟩
      · rw [h1] at h; cases h; rw [h2] at this; exact this
      · rw [h1] at h; exact nomatch h
    refine ⟨hr', fun a => ?_⟩
    rw [(c57_settings h).2.2.1]
    by_cases h1 : ∃ v, k = .requestUnstake v
    · obtain ⟨v, rfl⟩ := h1
      obtain ⟨_, _, _, _, _, _, _, _, e2, _, _, _, _, _, _, _, e3⟩ := c40_request hc hr h
      by_cases e : a = c.sender
      · rw [e]; exact e3
      · rw [e2 a e]; exact hl a
    · by_cases h2 : ∃ s, k = .finishUnstake s
      · obtain ⟨s, rfl⟩ := h2
        obtain ⟨done, _, hp, _, _, e2, _⟩ := c40_finish hc hr h
        by_cases e : a = s
        · rw [e]
          have := hp.length_eq
          rw [List.length_append] at this
          have := hl s
          omega
        · rw [e2 a e]; exact hl a
      · rw [c40_only h (fun v e => h1 ⟨v, e⟩) (fun s e => h2 ⟨s, e⟩)]
        exact hl a

/-- Only finishing the staker's requests can take an open request away, and only after the period. -/
theorem unstake_stays (hc : cfg.WF) {c : Ctx} {k : Call} {w w' : World} (hr : Reachable cfg w)
    (h : exec cfg c k w = .ok ((), w')) (a : Address) (cl : UnstakeClaim) (hm : cl ∈ w.staking.unstakeClaims a)
    (ht : k = .finishUnstake a → c.now < cl.timestamp + w.staking.unstakePeriod) :
    cl ∈ w'.staking.unstakeClaims a ∧ w'.staking.stakerToProver a = w.staking.stakerToProver a := by
  have hi := (StakingInv.reachable hc w hr).stake
  have hne : w.staking.unstakeClaims a ≠ [] := fun e => by rw [e] at hm; exact nomatch hm
  have h0 : w.staking.stakerToProver a ≠ 0 := fun e => hne (hi.unstaked a e).2
  have keep : cl ∈ w'.staking.unstakeClaims a := by
    by_cases h1 : ∃ v, k = .requestUnstake v
    · obtain ⟨v, rfl⟩ := h1
      obtain ⟨_, _, _, _, _, _, _, e1, e2, _⟩ := c40_request hc hr h
      by_cases e : a = c.sender
      · rw [e] at hm ⊢; rw [e1]; exact List.mem_append_left _ hm
      · rw [e2 a e]; exact hm
    · by_cases h2 : ∃ s, k = .finishUnstake s
      · obtain ⟨s, rfl⟩ := h2
        obtain ⟨done, _, hp, hd, _, e2, _⟩ := c40_finish hc hr h
        by_cases e : a = s
        · subst e
          rcases List.mem_append.mp (hp.mem_iff.mpr hm) with g | g
          · have := hd cl g; have := ht rfl; omega
          · exact g
        · rw [e2 a e]; exact hm
      · rw [c40_only h (fun v e => h1 ⟨v, e⟩) (fun s e => h2 ⟨s, e⟩)]
        exact hm
  refine ⟨keep, ?_⟩
  have hf := (exec_fields h).s2p
  have stk : ∀ {staker p : Address} {m n : Nat} {t : Erc20}, StakeEffect cfg staker p m n { w with prove := t } w' →
      w'.staking.stakerToProver a = w.staking.stakerToProver a := by
    intro staker p m n t he
    have h1 := he.one
    obtain ⟨_, _, _, _, _, _, _, _, _, _, _, _, _, _, _, _, _, _, _, _, _, _, _, _, rfl⟩ := he
    dsimp only at h1 ⊢
    by_cases e : a = staker
    · subst e
      rw [upd_same, h1.resolve_left h0]
    · rw [upd_ne _ _ e]
  cases k
  case stake p v =>
    replace h := drop_ok.mp h
    obtain ⟨n, h⟩ := h
    obtain ⟨_, t1, t2, _, _, he⟩ := stake_ok h
    exact stk he
  case permitAndStake s p f v =>
    replace h := drop_ok.mp h
    obtain ⟨n, h⟩ := h
    obtain ⟨_, t0, t1, t2, _, _, _, he⟩ := permitAndStake_ok h
    exact stk he
  case finishUnstake s =>
    replace h := drop_ok.mp h
    obtain ⟨n, h⟩ := h
    obtain ⟨_, _, _, w1, hl, rfl⟩ := finishUnstake_ok h
    have r := finishLoop_rel (PayRel.pre cfg s (w.staking.stakerToProver s)) (fun _ _ _ _ _ h => h.rel) _ _ _ _ _ _ hl
    obtain ⟨_, _, _, _, e5, _, _, e8, _⟩ := finishTail_same s (w.staking.stakerToProver s) w1
    by_cases e : a = s
    · subst e
      rw [e5] at keep
      have hn : w1.staking.unstakeClaims a ≠ [] := fun e => by rw [e] at keep; exact nomatch keep
      have ht : (finishTail a (w.staking.stakerToProver a) w1).staking.stakerToProver = w1.staking.stakerToProver := by
        unfold finishTail
        dsimp only
        split
        · rw [if_neg (fun g => hn g.2)]
        · rw [if_neg (fun g => hn g.2)]
      rw [ht, r.s2p]
    · rw [e8 a e, r.s2p]
  all_goals rw [hf (fun _ _ => Call.noConfusion) (fun _ _ _ _ => Call.noConfusion) (fun _ => Call.noConfusion)]

/-- **C117 (one call).** As long as an unstake request is inside the unstake period, no call of anybody takes it away or
attaches the staker to another prover. -/
theorem c117_stays (hc : cfg.WF) {c : Ctx} {k : Call} {w w' : World} (hr : Reachable cfg w)
    (h : exec cfg c k w = .ok ((), w')) (a : Address) (cl : UnstakeClaim) (hm : cl ∈ w.staking.unstakeClaims a)
    (ht : c.now < cl.timestamp + w.staking.unstakePeriod) :
    cl ∈ w'.staking.unstakeClaims a ∧ w'.staking.stakerToProver a = w.staking.stakerToProver a :=
  unstake_stays hc hr h a cl hm fun _ => ht

/-- **C117 (bound).** Whoever asks to unstake gives up voting weight of the prover at once - the request takes its $iPROVE
out of the prover's vault - but stays attached to the prover until the unstake period is over, whatever anybody does: a
stake with any other prover, by themselves or with their permit, is refused all that time. -/
theorem c117_bound (hc : cfg.WF) {c : Ctx} {v : U256} {w w1 : World} (hr : Reachable cfg w)
    (hadm : Admissible cfg (c, .requestUnstake v)) (h : exec cfg c (.requestUnstake v) w = .ok ((), w1))
    (hist : List (Ctx × Call)) (ha : ∀ x ∈ hist, Admissible cfg x)
    (ht : ∀ x ∈ hist, x.1.now < c.now + w.staking.unstakePeriod) :
    w1.iprove.bal (w.staking.stakerToProver c.sender) +
        v.toNat * (w.iprove.bal (w.staking.stakerToProver c.sender) + 1) /
          ((w.vault (w.staking.stakerToProver c.sender)).supply + 1) =
      w.iprove.bal (w.staking.stakerToProver c.sender) ∧
    (runCalls cfg w1 hist).staking.stakerToProver c.sender = w.staking.stakerToProver c.sender ∧
    ∀ q, q ≠ w.staking.stakerToProver c.sender → ∀ c' n w',
      (c'.sender = c.sender → exec cfg c' (.stake q n) (runCalls cfg w1 hist) ≠ .ok ((), w')) ∧
      ∀ signer, exec cfg c' (.permitAndStake signer q c.sender n) (runCalls cfg w1 hist) ≠ .ok ((), w') := by
  have hr1 : Reachable cfg w1 := by
    have := Reachable.call hr hadm
    rcases call_ok (cfg := cfg) (c := c) (k := .requestUnstake v) (w := w) with ⟨w2, h1, h2⟩ | ⟨⟨e, h1⟩, _⟩
    · rw [h1] at h; cases h; rw [h2] at this; exact this
    · rw [h1] at h; exact nomatch h
  obtain ⟨p, esc, factor, hp, hpr, hesc, _, e1, _, _, _, e3, _⟩ := c40_request hc hr h
  subst hp
  have hs1 : w1.staking.stakerToProver = w.staking.stakerToProver :=
    (exec_fields h).s2p (fun _ _ => Call.noConfusion) (fun _ _ _ _ => Call.noConfusion) (fun _ => Call.noConfusion)
  have hper : w1.staking.unstakePeriod = w.staking.unstakePeriod := (c57_settings h).2.2.2.1
  have key : ∀ (hist : List (Ctx × Call)) (u : World), Reachable cfg u → (∀ x ∈ hist, Admissible cfg x) →
      (∀ x ∈ hist, x.1.now < c.now + w.staking.unstakePeriod) → u.staking.unstakePeriod = w.staking.unstakePeriod →
      ⟨esc, factor, c.now⟩ ∈ u.staking.unstakeClaims c.sender →
      (runCalls cfg u hist).staking.stakerToProver c.sender = u.staking.stakerToProver c.sender := by
    intro hist
    induction hist with
    | nil => intro u _ _ _ _ _; rfl
    | cons x hist ih =>
      intro u hu ha ht hpu hm
      rw [runCalls_cons]
      have hu' := Reachable.call hu (ha x (List.mem_cons_self ..))
      have hx := ht x (List.mem_cons_self ..)
      have ha' : ∀ y ∈ hist, Admissible cfg y := fun y hy => ha y (List.mem_cons_of_mem _ hy)
      have ht' : ∀ y ∈ hist, y.1.now < c.now + w.staking.unstakePeriod := fun y hy => ht y (List.mem_cons_of_mem _ hy)
      rcases call_ok (cfg := cfg) (c := x.1) (k := x.2) (w := u) with ⟨u', h1, h2⟩ | ⟨_, h2⟩
      · rw [h2] at hu' ⊢
        obtain ⟨g1, g2⟩ := c117_stays hc hu h1 c.sender _ hm (by rw [hpu]; exact hx)
        rw [ih u' hu' ha' ht' ((c57_settings h1).2.2.2.1.trans hpu) g1, g2]
      · rw [h2]
        exact ih u hu ha' ht' hpu hm
  have hb := key hist w1 hr1 ha ht hper (by rw [e1]; exact List.mem_append_right _ (List.mem_singleton_self _))
  rw [hs1] at hb
  have hz : w.staking.stakerToProver c.sender ≠ 0 := by
    obtain ⟨_, g, _⟩ := requestUnstake_ok h
    exact g
  refine ⟨by rw [← hesc]; exact e3, hb, fun q hq c' n w' => ⟨fun hsnd hx => ?_, fun f hx => ?_⟩⟩
  · obtain ⟨m, hx⟩ := drop_ok.mp hx
    obtain ⟨_, t1, t2, _, _, he⟩ := stake_ok hx
    have := he.one
    dsimp only at this
    rw [hsnd, hb] at this
    rcases this with g | g
    · exact hz g
    · exact hq g.symm
  · obtain ⟨m, hx⟩ := drop_ok.mp hx
    obtain ⟨_, t0, t1, t2, _, _, _, he⟩ := permitAndStake_ok hx
    have := he.one
    dsimp only at this
    rw [hb] at this
    rcases this with g | g
    · exact hz g
    · exact hq g.symm

end

/-! ## A concrete case -/

namespace ToyL1
/-- Bob asks for all of their stake back. -/
def leaving : World := call cfg (ctx bob 1240) (.requestUnstake 500) w4
/-- And tries to finish one second early; the owner's prover is created meanwhile. -/
def early : List (Ctx × Call) := [(ctx gov 1300, .createProver 100), (ctx bob 1339, .finishUnstake bob)]
def other : Address := (runCalls cfg leaving early).staking.ownerToProver gov
end ToyL1

-- The hypotheses of C117 hold: the request goes through, the calls in between are admissible and early. A second later bob
-- is free, and can stake with the other prover.
open ToyL1 in
example : (exec cfg (ctx bob 1240) (.requestUnstake 500) w4).toBool = true ∧ w4.staking.unstakePeriod = 100 ∧
    admissible (ctx bob 1240, .requestUnstake 500) = true ∧ early.all admissible = true ∧
    (early.all fun x => decide (x.1.now < 1240 + 100)) = true ∧
    (exec cfg (ctx bob 1339) (.finishUnstake bob) leaving).toBool = true ∧
    other ≠ prover1 ∧ other ≠ 0 ∧ (runCalls cfg leaving early).staking.stakerToProver bob = prover1 ∧
    (exec cfg (ctx bob 1339) (.stake other 10) (runCalls cfg leaving early)).toBool = false ∧
    (exec cfg (ctx bob 1340) (.stake other 10)
      (runCalls cfg leaving (early ++ [(ctx bob 1340, .finishUnstake bob), (ctx bob 1340, .proveApprove cfg.staking 10)]))).toBool
      = true := by
  decide +kernel

end Verif
