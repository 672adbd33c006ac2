import Verif.PropsStaking3
/-
# Properties C60 to C62: supplies, consent, and what the read-only functions promise
-/

namespace Verif
open L1

/-! ## C60: supplies -/

/-- In reachable worlds the supply of each token is the total of its balances, and only the staking contract and
provers' vaults hold $iPROVE. -/
theorem c60_sums {cfg : Cfg} (hc : cfg.WF) {w : World} (hr : Reachable cfg w) :
    HasSum w.prove.bal w.prove.supply ∧ HasSum w.iprove.bal w.iprove.supply ∧ HasSum w.st.bal w.st.supply ∧
    (∀ p, w.staking.provers p = true → HasSum (w.vault p).bal (w.vault p).supply) ∧
    (∀ a, a ≠ cfg.staking → w.staking.provers a = false → w.iprove.bal a = 0) := by
  have hi := StakingInv.reachable hc w hr
  refine ⟨hi.prove.balanced, hi.stake.iprove, hi.stake.st, fun p hp => ?_, hi.stake.held⟩
  refine ⟨[cfg.staking], List.nodup_cons.mpr ⟨List.not_mem_nil, List.nodup_nil⟩, ?_, ?_⟩
  · intro a ha
    exact hi.stake.vother p hp a (fun e => ha (by rw [e]; exact List.mem_singleton.mpr rfl))
  · simp [hi.stake.vbal p hp]

theorem PayStep.supply {cfg : Cfg} {c : Ctx} {staker prover : Address} {i n : Nat} {claim : UnstakeClaim} {w w' : World}
    (h : PayStep cfg c staker prover i n claim w w') :
    w'.prove.supply = w.prove.supply ∧ w'.iprove.supply ≤ w.iprove.supply := by
  obtain ⟨_, _, h⟩ := h
  obtain ⟨_, pay, _, hle, h⟩ := finishUnstakeRequest_ok h
  rcases h with ⟨_, _, rfl⟩ | ⟨_, hb', hn, i0, i1, p1, a1, a2, a3, rfl⟩
  · exact ⟨rfl, Nat.le_refl _⟩
  · obtain ⟨_, c2⟩ := iproveSpend_bal a1
    obtain ⟨_, _, e⟩ := Erc20.burn_ok a2
    obtain ⟨_, _, _, e'⟩ := Erc20.transfer_ok a3
    refine ⟨by show p1.supply = _; rw [e'], ?_⟩
    show i1.supply ≤ _
    rw [e]
    show i0.supply - pay ≤ _
    rw [c2]
    exact Nat.sub_le _ _

theorem SlashEffect.supply {cfg : Cfg} {p : Address} {t x : Nat} {w w' : World} (h : SlashEffect cfg p t x w w') :
    w'.prove.supply ≤ w.prove.supply ∧ w'.iprove.supply ≤ w.iprove.supply := by
  obtain ⟨_, fe, fv, pr, ip, f, _, _, _, _, ⟨i1, h1, h2, p1, h3, h4⟩, _, rfl⟩ := h
  have key : ∀ {t t' : Erc20} {a : Address} {x n : Nat}, (if n = 0 then t' = t else t.burn a x = .ok t') →
      t'.supply ≤ t.supply := by
    intro t t' a x n h
    split at h
    · rw [h]; exact Nat.le_refl _
    · obtain ⟨_, _, e⟩ := Erc20.burn_ok h
      rw [e]; exact Nat.sub_le _ _
  exact ⟨Nat.le_trans (key h4) (key h3), Nat.le_trans (key h2) (key h1)⟩

theorem processWithdraw_supply {cfg : Cfg} {c : Ctx} (to : Address) (n : Nat) :
    Within (fun w w' => w'.prove.supply = w.prove.supply ∧ w.iprove.supply ≤ w'.iprove.supply) (processWithdraw cfg c to n) := by
  intro w u w' h
  rcases processWithdraw_cases h with ⟨t, g, rfl⟩ | ⟨_, i, t1, t2, t3, hi, g1, g2, g3, rfl⟩
  · obtain ⟨_, _, _, e⟩ := Erc20.transfer_ok g
    exact ⟨by show t.supply = _; rw [e], Nat.le_refl _⟩
  · obtain ⟨_, _, _, e⟩ := Erc20.transfer_ok g2
    obtain ⟨_, _, e'⟩ := Erc20.mint_ok g3
    refine ⟨by show t2.supply = _; rw [e]; exact (Erc20.spend_ok g1).2.2.1, ?_⟩
    show _ ≤ t3.supply
    rw [e']; exact Nat.le_add_right _ _

theorem supply_pre : Pre (fun w w' : World => w'.prove.supply = w.prove.supply ∧ w.iprove.supply ≤ w'.iprove.supply) where
  refl _ := ⟨rfl, Nat.le_refl _⟩
  trans _ _ _ h g := ⟨g.1.trans h.1, Nat.le_trans h.2 g.2⟩

theorem supply_pre' : Pre (fun w w' : World => w'.prove.supply = w.prove.supply ∧ w'.iprove.supply ≤ w.iprove.supply) where
  refl _ := ⟨rfl, Nat.le_refl _⟩
  trans _ _ _ h g := ⟨g.1.trans h.1, Nat.le_trans g.2 h.2⟩

theorem StakeEffect.supply {cfg : Cfg} {s p : Address} {v n : Nat} {w w' : World} (h : StakeEffect cfg s p v n w w') :
    w'.prove.supply = w.prove.supply ∧ w.iprove.supply ≤ w'.iprove.supply := by
  obtain ⟨_, _, _, _, _, p1, p2, i, i1, i2, i3, v1, s1, _, _, _, _, a1, a2, a3, a4, a5, _, _, rfl⟩ := h
  obtain ⟨_, _, _, e⟩ := Erc20.transfer_ok a2
  obtain ⟨_, _, _, e'⟩ := Erc20.transfer_ok a5
  obtain ⟨_, _, e''⟩ := Erc20.mint_ok a3
  refine ⟨by show p2.supply = _; rw [e]; exact (Erc20.spend_ok a1).2.2.1, ?_⟩
  show _ ≤ i3.supply
  rw [e']
  show _ ≤ i2.supply
  have : i2.supply = i1.supply := by
    rcases a4 with rfl | a4
    · rfl
    · exact (Erc20.spend_ok a4).2.2.1
  rw [this, e'']
  exact Nat.le_add_right _ _

/-- How the supplies of $PROVE and $iPROVE change: $PROVE is created only by its owner and destroyed only by its
holder, someone with an allowance, or a slash; $iPROVE is created only by a stake or a step (a withdrawal to a
prover), and destroyed only when an unstake or a slash is finished. -/
theorem c60_supply {cfg : Cfg} (hc : cfg.WF) {c : Ctx} {k : Call} {w w' : World} (hr : Reachable cfg w)
    (ha : Admissible cfg (c, k)) (h : exec cfg c k w = .ok ((), w')) :
    (w'.prove.supply ≠ w.prove.supply →
      (∃ (to : Address) (v : U256), k = .proveMint to v ∧ c.sender = w.proveOwner ∧
        w'.prove.supply = w.prove.supply + v.toNat) ∨
      (∃ v : U256, k = .proveBurn v ∧ v.toNat ≤ w.prove.bal c.sender ∧ w'.prove.supply + v.toNat = w.prove.supply) ∨
      (∃ (f : Address) (v : U256), k = .proveBurnFrom f v ∧ v.toNat ≤ w.prove.allow f c.sender ∧
        v.toNat ≤ w.prove.bal f ∧ w'.prove.supply + v.toNat = w.prove.supply) ∨
      (∃ p i, k = .finishSlash p i ∧ c.sender = w.staking.owner ∧ w'.prove.supply < w.prove.supply)) ∧
    (w.iprove.supply < w'.iprove.supply →
      (∃ p v, k = .stake p v) ∨ (∃ s p f v, k = .permitAndStake s p f v) ∨ (∃ pv pr, k = .step pv pr)) ∧
    (w'.iprove.supply < w.iprove.supply → (∃ s, k = .finishUnstake s) ∨
      (∃ p i, k = .finishSlash p i ∧ c.sender = w.staking.owner)) := by
  have hi := StakingInv.reachable hc w hr
  cases exec_flow hi.reg ha h with
  | other e1 e2 e3 =>
    exact ⟨fun hne => absurd e2 hne, fun hlt => by rw [e3.supply] at hlt; omega, fun hlt => by rw [e3.supply] at hlt; omega⟩
  | move f to v t hk h1 h2 h3 h4 e1 e2 g e3 =>
    refine ⟨fun hne => ?_, fun hlt => by rw [e3.supply] at hlt; omega, fun hlt => by rw [e3.supply] at hlt; omega⟩
    obtain ⟨_, _, _, e⟩ := Erc20.transfer_ok g
    exact absurd (by rw [e]; exact e2) hne
  | mint to v hk ho g e3 =>
    refine ⟨fun hne => Or.inl ⟨to, v, hk, ho, ?_⟩, fun hlt => by rw [e3.supply] at hlt; omega, fun hlt => by rw [e3.supply] at hlt; omega⟩
    obtain ⟨_, _, e⟩ := Erc20.mint_ok g
    rw [e]
  | burn f v t hk hb e1 e2 g e3 =>
    refine ⟨fun hne => Or.inr ?_, fun hlt => by rw [e3.supply] at hlt; omega, fun hlt => by rw [e3.supply] at hlt; omega⟩
    obtain ⟨_, hv, e⟩ := Erc20.burn_ok g
    have hs : w'.prove.supply + v.toNat = w.prove.supply := by
      have := HasSum.le hi.prove.balanced f
      rw [← e1] at this
      rw [e]
      show t.supply - v.toNat + v.toNat = _
      omega
    rw [e1] at hv
    rcases hb with rfl | rfl
    · refine Or.inl ⟨v, rfl, ?_, hs⟩
      have : f = c.sender := by
        generalize hm : v.toNat = m at hk
        cases hk
        rfl
      rw [← this]; exact hv
    · refine Or.inr (Or.inl ⟨f, v, rfl, ?_, hv, hs⟩)
      generalize hm : v.toNat = m at hk ⊢
      cases hk with
      | burnFrom f v h => rw [← hm]; exact h
  | stake f p v n t t2 hk hs hreg e1 e2 g he =>
    obtain ⟨s1, s2⟩ := he.supply
    obtain ⟨_, _, _, e⟩ := Erc20.transfer_ok g
    dsimp only at s1 s2
    refine ⟨fun hne => absurd (s1.trans (by rw [e]; exact e2)) hne, fun _ => ?_, fun hlt => by omega⟩
    rcases hs with ⟨hs, _⟩ | ⟨s, hs⟩
    · exact Or.inl ⟨p, v, hs⟩
    · exact Or.inr (Or.inl ⟨s, p, f, v, hs⟩)
  | requestUnstake v hk g =>
    obtain ⟨_, _, _, _, _, p, esc, s1, v1, i1, _, _, _, _, _, a1, _, rfl⟩ := requestUnstake_ok g
    obtain ⟨_, _, _, e⟩ := Erc20.transfer_ok a1
    have : i1.supply = w.iprove.supply := by rw [e]
    exact ⟨fun hne => absurd rfl hne, fun hlt => absurd hlt (by show ¬ _ < i1.supply; omega),
      fun hlt => absurd hlt (by show ¬ i1.supply < _; omega)⟩
  | finishUnstake s n hk g =>
    obtain ⟨g1, _, _, w1, hl, rfl⟩ := finishUnstake_ok g
    have := finishLoop_rel supply_pre' (fun _ _ _ _ _ h => h.supply) _ _ _ _ _ _ hl
    obtain ⟨e1, e2, _⟩ := finishTail_tokens s (w.staking.stakerToProver s) w1
    rw [e1, e2]
    exact ⟨fun hne => absurd this.1 hne, fun hlt => by omega, fun _ => Or.inl ⟨s, hk⟩⟩
  | finishSlash p i n hk g =>
    obtain ⟨ho, _, claim, _, _, _, w1, g1, g2⟩ := finishSlash_ok g
    have hs : w1.prove.supply ≤ w.prove.supply ∧ w1.iprove.supply ≤ w.iprove.supply := by
      split at g1
      · rw [g1]; exact ⟨Nat.le_refl _, Nat.le_refl _⟩
      · exact g1.supply
    have hs' : w'.prove.supply ≤ w.prove.supply ∧ w'.iprove.supply ≤ w.iprove.supply := by
      rcases g2 with ⟨rfl, _⟩ | ⟨_, _, _, rfl⟩ <;> exact hs
    exact ⟨fun hne => Or.inr (Or.inr (Or.inr ⟨p, i, hk, ho, by omega⟩)), fun hlt => by omega, fun _ => Or.inr ⟨p, i, hk, ho⟩⟩
  | step pv pr x hk g =>
    have := vappStep_rel supply_pre (fun _ _ => ⟨rfl, Nat.le_refl _⟩) processWithdraw_supply g
    exact ⟨fun hne => absurd this.1 hne, fun _ => Or.inr (Or.inr ⟨pv, pr, hk⟩), fun hlt => by omega⟩
  | dispense v a hk hd' g e3 =>
    refine ⟨fun hne => ?_, fun hlt => by rw [e3.supply] at hlt; omega, fun hlt => by rw [e3.supply] at hlt; omega⟩
    obtain ⟨_, _, _, e⟩ := Erc20.transfer_ok g
    exact absurd (by rw [e]) hne

-- Witnesses: every kind of change of a supply happens.
open ToyL1 in
example : (call cfg (ctx gov 1260) (.proveMint bob 5) w7).prove.supply = w7.prove.supply + 5 ∧
    (call cfg (ctx bob 1260) (.proveMint bob 5) w7).prove.supply = w7.prove.supply ∧
    (call cfg (ctx bob 1260) (.proveBurn 5) w7).prove.supply + 5 = w7.prove.supply ∧
    (call cfg (ctx gov 1260) (.proveBurnFrom bob 5) (call cfg (ctx bob 1260) (.proveApprove gov 7) w7)).prove.supply + 5 =
      w7.prove.supply ∧
    w4.prove.supply < w3.prove.supply ∧ w4.iprove.supply < w3.iprove.supply ∧
    w7.iprove.supply < (call cfg (ctx bob 1260) (.stake prover1 1000) w7).iprove.supply ∧
    (call cfg (ctx bob 1260) (.finishUnstake alice) w7).iprove.supply < w7.iprove.supply := by decide +kernel

/-! ## C61: consent -/

/-- The $PROVE of an account that is no contract of the system is taken only with its consent (`Takes`): by its
own call, with an allowance it gave to the sender, with a permit it signed, or - by the fallback of the permit
calls - with an allowance of exactly that amount for the vApp contract or the prover. Exactly the amount
named in the call is taken. -/
theorem c61_consent {cfg : Cfg} (hc : cfg.WF) {c : Ctx} {k : Call} {w w' : World} (hr : Reachable cfg w)
    (ha : Admissible cfg (c, k)) (h : exec cfg c k w = .ok ((), w')) {a : Address} (hs : ¬ cfg.System a)
    (hl : w'.prove.bal a < w.prove.bal a) : ∃ v, Takes cfg c w k a v ∧ w'.prove.bal a + v = w.prove.bal a := by
  have hi := StakingInv.reachable hc w hr
  have n1 : a ≠ cfg.iprove := fun e => hs (Or.inr (Or.inl e))
  have n2 : a ≠ cfg.staking := fun e => hs (Or.inr (Or.inr (Or.inl e)))
  have n3 : a ≠ cfg.vapp := fun e => hs (Or.inr (Or.inr (Or.inr (Or.inl e))))
  cases exec_flow hi.reg ha h with
  | other e1 e2 e3 => rw [e1] at hl; omega
  | move f to v t hk h1 h2 h3 h4 e1 e2 g e3 =>
    by_cases e : f = a
    · subst e
      refine ⟨v.toNat, hk, ?_⟩
      by_cases e' : f = to
      · subst e'
        obtain ⟨_, _, hv, e⟩ := Erc20.transfer_ok g
        have : w'.prove.bal f = w.prove.bal f := by
          rw [e]; dsimp only; rw [upd_same, upd_same, ← e1]; omega
        omega
      · obtain ⟨b0, b1, _⟩ := Erc20.transfer_bal g e'
        rw [b1, ← e1]; omega
    · have := Erc20.transfer_keeps (a := a) g (Or.inl e)
      rw [e1] at this; omega
  | mint to v hk ho g e3 =>
    have := Erc20.mint_keeps (a := a) g
    omega
  | burn f v t hk hb e1 e2 g e3 =>
    by_cases e : f = a
    · subst e
      refine ⟨v.toNat, hk, ?_⟩
      obtain ⟨_, hv, e⟩ := Erc20.burn_ok g
      rw [e]; dsimp only; rw [upd_same, ← e1]; omega
    · have := Erc20.burn_keeps (a := a) g (Or.inl e)
      rw [e1] at this; omega
  | stake f p v n t t2 hk hsk hreg e1 e2 g he =>
    by_cases e : f = a
    · subst e
      exact ⟨v.toNat, hk, (c59_stake hc hr ha h hsk).elim fun i ⟨n, q⟩ => q.2.2.2.2.2.2.2.2.2.2.1⟩
    · have h1 := Erc20.transfer_keeps (a := a) g (Or.inl e)
      have h2 := he.keeps n2
      dsimp only at h2
      rw [e1] at h1; omega
  | requestUnstake v hk g =>
    obtain ⟨_, _, _, _, _, p, esc, s1, v1, i1, _, _, _, _, _, a1, _, rfl⟩ := requestUnstake_ok g
    exact absurd hl (Nat.lt_irrefl _)
  | finishUnstake s n hk g =>
    obtain ⟨g1, _, _, w1, hl', rfl⟩ := finishUnstake_ok g
    have := finishLoop_rel (keeps_pre a) (fun _ _ _ _ _ h => h.keeps n1) _ _ _ _ _ _ hl'
    rw [finishTail_prove] at hl; omega
  | finishSlash p i n hk g =>
    obtain ⟨_, _, claim, _, _, _, w1, g1, g2⟩ := finishSlash_ok g
    have hk : w.prove.bal a ≤ w1.prove.bal a := by
      split at g1
      · rw [g1]; exact Nat.le_refl _
      · exact g1.keeps n1
    rcases g2 with ⟨rfl, _⟩ | ⟨_, _, _, rfl⟩
    · omega
    · exact absurd hl (by show ¬ w1.prove.bal a < _; omega)
  | step pv pr x hk g =>
    have := vappStep_rel (keeps_pre a) (fun _ _ => Nat.le_refl _) (fun to n => processWithdraw_keeps n3) g
    omega
  | dispense v x hk hd' g e3 =>
    have := Erc20.transfer_keeps (a := a) g (Or.inl (Ne.symm n2))
    omega

-- Witnesses: alice's $PROVE goes down by a transfer of their own and by an allowance they gave.
open ToyL1 in
example : ¬ cfg.System alice ∧
    (call cfg (ctx alice 1260) (.proveTransfer bob 50) w7).prove.bal alice + 50 = w7.prove.bal alice ∧
    (call cfg (ctx bob 1260) (.proveTransferFrom alice bob 50) w7).prove.bal alice = w7.prove.bal alice ∧
    (call cfg (ctx bob 1260) (.proveTransferFrom alice bob 50)
      (call cfg (ctx alice 1260) (.proveApprove bob 60) w7)).prove.bal alice + 50 = w7.prove.bal alice :=
  ⟨plain_ok (by decide +kernel), by decide +kernel⟩

/-! ## C62: what the read-only functions promise -/

/-- The $iPROVE a claim is worth at a slash factor: its escrowed amount scaled by the fall of the factor. -/
def scaledClaim (factor : Nat) (cl : UnstakeClaim) : Nat := cl.iPROVEEscrow * factor / cl.slashFactor

theorem pendingLoop_ok {cfg : Cfg} {factor : Nat} : ∀ (cls : List UnstakeClaim) (acc m : Nat) (w w' : World),
    pendingLoop cfg factor cls acc w = .ok (m, w') →
    m = acc + (cls.map fun cl => scaledClaim factor cl * (w.prove.bal cfg.iprove + 1) / (w.iprove.supply + 1)).sum := by
  intro cls
  induction cls with
  | nil =>
    intro acc m w w' h
    obtain ⟨rfl, _⟩ := pure_ok.mp (show (pure acc : L1 Nat) w = .ok (m, w') from h)
    simp
  | cons cl cls ih =>
    intro acc m w w' h
    simp only [pendingLoop, bind_ok, mulDiv_ok, add256_ok] at h
    obtain ⟨_, _, ⟨_, _, rfl, rfl⟩, x, _, hx, _, _, ⟨_, rfl, rfl⟩, h⟩ := h
    obtain ⟨rfl, rfl⟩ := iprovePreviewRedeem_ok hx
    rw [ih _ _ _ _ h, List.map_cons, List.sum_cons, Nat.add_assoc]
    rfl

theorem unstakePending_ok {cfg : Cfg} {s : Address} {m : Nat} {w w' : World} (h : unstakePending cfg s w = .ok (m, w'))
    (h0 : w.staking.stakerToProver s ≠ 0) :
    m = ((w.staking.unstakeClaims s).map fun cl =>
      scaledClaim (w.staking.escrowPools (w.staking.stakerToProver s)).slashFactor cl *
        (w.prove.bal cfg.iprove + 1) / (w.iprove.supply + 1)).sum := by
  simp only [unstakePending, bind_ok, get_ok] at h
  obtain ⟨_, _, ⟨rfl, rfl⟩, h⟩ := h
  rw [if_neg h0] at h
  split at h
  · rename_i e
    obtain ⟨rfl, _⟩ := pure_ok.mp h
    rw [e]
    have hz : ∀ (x d : Nat) (l : List UnstakeClaim), 0 = (l.map fun cl => scaledClaim 0 cl * x / d).sum := by
      intro x d l
      induction l with
      | nil => rfl
      | cons a l ih => rw [List.map_cons, List.sum_cons, ← ih]; simp [scaledClaim]
    exact hz _ _ _
  · rw [pendingLoop_ok _ _ _ _ _ h, Nat.zero_add]

/-- Settling a list of claims: the price does not fall, what is paid and redeemed adds up. -/
theorem settle_list (factor : Nat) (A S : Nat) : ∀ (cls : List UnstakeClaim) (s s' : Settling),
    s' = cls.foldl (Settling.settle factor) s → s.pool ≤ s.supply → Rate A S s.assets s.supply →
    Rate A S s'.assets s'.supply ∧ s'.assets + s'.paid = s.assets + s.paid ∧
    s.supply ≤ s'.supply + (cls.map (scaledClaim factor)).sum ∧ s'.supply ≤ s.supply ∧
    ((cls.map (scaledClaim factor)).sum ≤ s.pool →
      s.paid + (cls.map fun cl => scaledClaim factor cl * (A + 1) / (S + 1)).sum ≤ s'.paid) := by
  intro cls
  induction cls with
  | nil => rintro s s' rfl hp hr; exact ⟨hr, rfl, Nat.le_refl _, Nat.le_refl _, fun _ => Nat.le_refl _⟩
  | cons cl cls ih =>
    rintro s s' rfl hp hr
    rw [List.foldl_cons, List.map_cons, List.sum_cons, List.map_cons, List.sum_cons]
    have hm : min s.pool (scaledClaim factor cl) ≤ s.supply := Nat.le_trans (Nat.min_le_left _ _) hp
    have hv : min s.pool (scaledClaim factor cl) * (s.assets + 1) / (s.supply + 1) ≤ s.assets := by
      refine Nat.le_of_lt_succ ((Nat.div_lt_iff_lt_mul (Nat.succ_pos _)).mpr ?_)
      calc min s.pool (scaledClaim factor cl) * (s.assets + 1) ≤ s.supply * (s.assets + 1) := Nat.mul_le_mul_right _ hm
        _ < (s.supply + 1) * (s.assets + 1) := Nat.mul_lt_mul_of_pos_right (Nat.lt_succ_self _) (Nat.succ_pos _)
        _ = (s.assets + 1) * (s.supply + 1) := Nat.mul_comm _ _
    have e : s.settle factor cl = ⟨s.pool - min s.pool (scaledClaim factor cl),
        s.assets - min s.pool (scaledClaim factor cl) * (s.assets + 1) / (s.supply + 1),
        s.supply - min s.pool (scaledClaim factor cl),
        s.paid + min s.pool (scaledClaim factor cl) * (s.assets + 1) / (s.supply + 1)⟩ := rfl
    obtain ⟨g1, g2, g3, g4, g5⟩ := ih (s.settle factor cl) _ rfl (by rw [e]; dsimp only; omega)
      (by rw [e]; exact hr.trans (Rate.redeem rfl hm hv))
    generalize hT : (cls.foldl (Settling.settle factor) (s.settle factor cl)) = s' at *
    rw [e] at g2 g3 g4 g5
    dsimp only at g2 g3 g4 g5
    refine ⟨g1, ?_, ?_, Nat.le_trans g4 (Nat.sub_le _ _), ?_⟩
    · omega
    · have := Nat.min_le_right s.pool (scaledClaim factor cl)
      omega
    · intro hle
      have e1 : min s.pool (scaledClaim factor cl) = scaledClaim factor cl := Nat.min_eq_right (by omega)
      rw [e1] at g5
      have := g5 (by omega)
      have hval := Rate.value hr (Nat.le_refl (scaledClaim factor cl))
      omega

/-- Rounding down each summand loses less than one each. -/
theorem sum_div_le (x d : Nat) (hd : 0 < d) : ∀ l : List Nat,
    l.sum * x / d ≤ (l.map fun n => n * x / d).sum + (l.length - 1) := by
  have key : ∀ l : List Nat, l ≠ [] → l.sum * x < ((l.map fun n => n * x / d).sum + l.length) * d := by
    intro l
    induction l with
    | nil => intro h; exact absurd rfl h
    | cons n l ih =>
      intro _
      rw [List.sum_cons, List.map_cons, List.sum_cons, List.length_cons, Nat.add_mul]
      have h1 : n * x < (n * x / d + 1) * d := by
        rw [Nat.add_mul, Nat.one_mul]; exact Nat.lt_div_mul_add hd
      by_cases hl : l = []
      · subst hl; simpa using h1
      · have h2 := ih hl
        calc n * x + l.sum * x < (n * x / d + 1) * d + ((l.map fun n => n * x / d).sum + l.length) * d := Nat.add_lt_add h1 h2
          _ = (n * x / d + (l.map fun n => n * x / d).sum + (l.length + 1)) * d := by
            rw [← Nat.add_mul]; congr 1; omega
  intro l
  by_cases hl : l = []
  · subst hl; simp
  · have h1 := key l hl
    have h2 := (Nat.div_lt_iff_lt_mul hd).mpr h1
    have : 0 < l.length := List.length_pos_iff.mpr hl
    omega

theorem sum_map_le_of_perm_append {α : Type} (f : α → Nat) {a b l : List α} (h : (a ++ b).Perm l) :
    (a.map f).sum ≤ (l.map f).sum := by
  have := (h.map f).sum_nat
  rw [List.map_append, List.sum_append] at this
  omega

/-- `finishUnstake` pays at most what `unstakePending` reported, up to one base unit for each claim but one
(from rounding); and at least that, if the periods of all claims are over and the prover's escrow pool
covers what they are worth. -/
theorem c62_pending {cfg : Cfg} (hc : cfg.WF) {c : Ctx} {s : Address} {w w' : World} (hr : Reachable cfg w)
    {m : Nat} (hm : unstakePending cfg s w = .ok (m, w)) (h : exec cfg c (.finishUnstake s) w = .ok ((), w')) :
    w'.prove.bal s ≤ w.prove.bal s + m + ((w.staking.unstakeClaims s).length - 1) ∧
    ((∀ cl ∈ w.staking.unstakeClaims s, cl.timestamp + w.staking.unstakePeriod ≤ c.now) →
      ((w.staking.unstakeClaims s).map (scaledClaim
        (w.staking.escrowPools (w.staking.stakerToProver s)).slashFactor)).sum ≤
          (w.staking.escrowPools (w.staking.stakerToProver s)).iPROVEEscrow →
      w.prove.bal s + m ≤ w'.prove.bal s) := by
  have hi := StakingInv.reachable hc w hr
  have h0 : w.staking.stakerToProver s ≠ 0 := by
    obtain ⟨n, h⟩ := drop_ok.mp h
    exact (finishUnstake_ok h).1
  obtain ⟨done, paid, d1, d2, d3, _, d4, d5, _⟩ := c40_finish hc hr h
  have hpool : (w.staking.escrowPools (w.staking.stakerToProver s)).iPROVEEscrow ≤ w.iprove.supply :=
    Nat.le_trans (HasSum.le hi.stake.escrow _) (HasSum.le hi.stake.iprove _)
  obtain ⟨g1, g2, g3, g4, g5⟩ := settle_list _ (w.prove.bal cfg.iprove) w.iprove.supply done _ _ d4 hpool (Rate.refl _ _)
  simp only [settling, Nat.add_zero, Nat.zero_add] at g1 g2 g3 g4 g5
  have hmv := unstakePending_ok hm h0
  refine ⟨?_, fun hall hcov => ?_⟩
  · have hlen : done.length ≤ (w.staking.unstakeClaims s).length := by
      rw [← d1.length_eq, List.length_append]; omega
    have hsum := sum_map_le_of_perm_append (fun cl => scaledClaim
      (w.staking.escrowPools (w.staking.stakerToProver s)).slashFactor cl *
        (w.prove.bal cfg.iprove + 1) / (w.iprove.supply + 1)) d1
    rw [← hmv] at hsum
    have hp : paid ≤ (done.map (scaledClaim (w.staking.escrowPools (w.staking.stakerToProver s)).slashFactor)).sum *
        (w.prove.bal cfg.iprove + 1) / (w.iprove.supply + 1) := by
      rw [Nat.le_div_iff_mul_le (Nat.succ_pos _)]
      generalize (done.map (scaledClaim (w.staking.escrowPools (w.staking.stakerToProver s)).slashFactor)).sum = T at *
      unfold Rate at g1
      have e1 : w.prove.bal cfg.iprove + 1 = (w'.prove.bal cfg.iprove + 1) + paid := by omega
      have e2 : w.iprove.supply + 1 ≤ (w'.iprove.supply + 1) + T := by omega
      have h1 : (w.prove.bal cfg.iprove + 1) * (w.iprove.supply + 1) ≤
          (w.prove.bal cfg.iprove + 1) * (w'.iprove.supply + 1) + (w.prove.bal cfg.iprove + 1) * T := by
        rw [← Nat.mul_add]; exact Nat.mul_le_mul_left _ e2
      have h2 : (w.prove.bal cfg.iprove + 1) * (w.iprove.supply + 1) =
          (w'.prove.bal cfg.iprove + 1) * (w.iprove.supply + 1) + paid * (w.iprove.supply + 1) := by
        rw [← Nat.add_mul, ← e1]
      rw [Nat.mul_comm T]
      show paid * (w.iprove.supply + 1) ≤ _
      omega
    have hq := sum_div_le (w.prove.bal cfg.iprove + 1) (w.iprove.supply + 1) (Nat.succ_pos _)
      (done.map (scaledClaim (w.staking.escrowPools (w.staking.stakerToProver s)).slashFactor))
    rw [List.map_map, List.length_map] at hq
    have hq' := Nat.le_trans hp hq
    simp only [Function.comp_def] at hq'
    rw [d5]
    omega
  · have hnil : w'.staking.unstakeClaims s = [] := by
      cases hc' : w'.staking.unstakeClaims s with
      | nil => rfl
      | cons cl l =>
        have hmem : cl ∈ w'.staking.unstakeClaims s := by rw [hc']; exact List.mem_cons_self ..
        have h1 := d3 cl hmem
        have h2 := hall cl (d1.subset (List.mem_append_right _ hmem))
        omega
    rw [hnil, List.append_nil] at d1
    have hs1 := (d1.map (scaledClaim (w.staking.escrowPools (w.staking.stakerToProver s)).slashFactor)).sum_nat
    have hs2 := (d1.map (fun cl => scaledClaim
      (w.staking.escrowPools (w.staking.stakerToProver s)).slashFactor cl *
        (w.prove.bal cfg.iprove + 1) / (w.iprove.supply + 1))).sum_nat
    have := g5 (by rw [hs1]; exact hcov)
    rw [hs2, ← hmv] at this
    rw [d5]; omega

theorem HasSum.sum_le {κ : Type} [DecidableEq κ] : ∀ (l : List κ) {f : κ → Nat} {n : Nat}, HasSum f n → l.Nodup →
    (l.map f).sum ≤ n := by
  intro l
  induction l with
  | nil => intro f n _ _; exact Nat.zero_le _
  | cons a l ih =>
    intro f n h hd
    obtain ⟨h1, h2⟩ := List.nodup_cons.mp hd
    have hle := HasSum.le h a
    have := ih (HasSum.update h a 0 (m := n - f a) (by omega)) h2
    have e : l.map (upd f a 0) = l.map f := List.map_congr_left (fun b hb => upd_ne _ _ (fun e => h1 (e ▸ hb)))
    rw [e] at this
    rw [List.map_cons, List.sum_cons]
    omega

theorem sum_mul_div_le {α : Type} (f : α → Nat) (x d : Nat) : ∀ l : List α,
    (l.map fun a => f a * x / d).sum ≤ (l.map f).sum * x / d := by
  intro l
  induction l with
  | nil => simp
  | cons a l ih =>
    rw [List.map_cons, List.sum_cons, List.map_cons, List.sum_cons, Nat.add_mul]
    exact Nat.le_trans (Nat.add_le_add_left ih _) Nat.div_add_div_le_add_div

/-- What `staked` reports for any set of different stakers of a prover adds up to at most what `proverStaked`
reports for the prover. -/
theorem c62_total {cfg : Cfg} (hc : cfg.WF) {w : World} (hr : Reachable cfg w) {p : Address}
    (hp : w.staking.provers p = true) (l : List Address) (hl : l.Nodup) (value : Address → Nat)
    (hs : ∀ a ∈ l, w.staking.stakerToProver a = p ∧ staked cfg a w = .ok (value a, w)) {m : Nat}
    (hm : proverStaked cfg p w = .ok (m, w)) : (l.map value).sum ≤ m := by
  have hi := StakingInv.reachable hc w hr
  have hp0 : p ≠ 0 := (hi.reg.ne hc hp).1
  have hv : l.map value = l.map fun a => w.st.bal a * (w.iprove.bal p + 1) / ((w.vault p).supply + 1) *
      (w.prove.bal cfg.iprove + 1) / (w.iprove.supply + 1) := by
    refine List.map_congr_left fun a ha => ?_
    obtain ⟨e, h⟩ := hs a ha
    rcases (staked_ok h).2 with ⟨h0, _⟩ | ⟨_, _, h1⟩
    · rw [e] at h0; exact absurd h0 hp0
    · rw [h1, e]
  rw [hv, (proverStaked_ok hm).1]
  refine Nat.le_trans (sum_mul_div_le (fun a => w.st.bal a * (w.iprove.bal p + 1) / ((w.vault p).supply + 1)) _ _ l) ?_
  refine Nat.div_le_div_right (Nat.mul_le_mul_right _ ?_)
  refine Nat.le_trans (sum_mul_div_le w.st.bal _ _ l) ?_
  have h1 : (l.map w.st.bal).sum ≤ (w.vault p).supply := by
    have h2 := HasSum.sum_le l (hi.stake.vstake p hp) hl
    have e : l.map (fun a => if w.staking.stakerToProver a = p then w.st.bal a else 0) = l.map w.st.bal :=
      List.map_congr_left (fun a ha => by rw [if_pos (hs a ha).1])
    rw [e] at h2
    exact h2
  refine Nat.le_of_lt_succ ((Nat.div_lt_iff_lt_mul (Nat.succ_pos _)).mpr ?_)
  calc (l.map w.st.bal).sum * (w.iprove.bal p + 1) ≤ (w.vault p).supply * (w.iprove.bal p + 1) := Nat.mul_le_mul_right _ h1
    _ < ((w.vault p).supply + 1) * (w.iprove.bal p + 1) := Nat.mul_lt_mul_of_pos_right (Nat.lt_succ_self _) (Nat.succ_pos _)
    _ = (w.iprove.bal p + 1) * ((w.vault p).supply + 1) := Nat.mul_comm _ _

-- Witnesses: at a price other than one, alice's two matured claims pay what was reported; two stakers' reports
-- add up to the prover's but for rounding.
open ToyL1 in
example : (unstakePending cfg alice w7).toOption.map (·.1) = some 440 ∧
    (exec cfg (ctx bob 1260) (.finishUnstake alice) w7).toBool = true ∧
    (call cfg (ctx bob 1260) (.finishUnstake alice) w7).prove.bal alice = w7.prove.bal alice + 440 ∧
    (w7.staking.unstakeClaims alice).length = 2 ∧
    (∀ cl ∈ w7.staking.unstakeClaims alice, cl.timestamp + w7.staking.unstakePeriod ≤ 1260) ∧
    ((w7.staking.unstakeClaims alice).map (scaledClaim
        (w7.staking.escrowPools (w7.staking.stakerToProver alice)).slashFactor)).sum ≤
          (w7.staking.escrowPools (w7.staking.stakerToProver alice)).iPROVEEscrow := by decide +kernel
open ToyL1 in
example : (staked cfg alice w7).toOption.map (·.1) = some 1138 ∧ (staked cfg bob w7).toOption.map (·.1) = some 352 ∧
    (proverStaked cfg prover1 w7).toOption.map (·.1) = some 1491 ∧ w7.staking.stakerToProver alice = prover1 ∧
    w7.staking.stakerToProver bob = prover1 := by decide +kernel

end Verif
