import Verif.L1Tokens
/-
# Effects of the staking contract's functions
-/

namespace Verif
open L1

theorem onlyForProver_ok {p : Address} {u : Unit} {w w' : World} :
    onlyForProver p w = .ok (u, w') ↔ w.staking.provers p = true ∧ w' = w := by
  simp only [onlyForProver, bind_ok, get_ok, require_ok]
  constructor
  · rintro ⟨_, _, ⟨rfl, rfl⟩, h, rfl⟩; exact ⟨h, rfl⟩
  · rintro ⟨h, rfl⟩; exact ⟨w', w', ⟨rfl, rfl⟩, h, rfl⟩

theorem isVault_ok {p : Address} {u : Unit} {w w' : World} :
    isVault p w = .ok (u, w') ↔ w.staking.provers p = true ∧ w' = w := by
  simp only [isVault, bind_ok, get_ok, require_ok]
  constructor
  · rintro ⟨_, _, ⟨rfl, rfl⟩, h, rfl⟩; exact ⟨h, rfl⟩
  · rintro ⟨h, rfl⟩; exact ⟨w', w', ⟨rfl, rfl⟩, h, rfl⟩

theorem requireNoSlash_ok {p : Address} {u : Unit} {w w' : World} :
    requireNoSlash p w = .ok (u, w') ↔ w.staking.slashClaimCount p = 0 ∧ w' = w := by
  simp only [requireNoSlash, bind_ok, get_ok, require_ok]
  constructor
  · rintro ⟨_, _, ⟨rfl, rfl⟩, h, rfl⟩; exact ⟨h, rfl⟩
  · rintro ⟨h, rfl⟩; exact ⟨w', w', ⟨rfl, rfl⟩, h, rfl⟩

theorem stakingOnlyOwner_ok {c : Ctx} {u : Unit} {w w' : World} :
    stakingOnlyOwner c w = .ok (u, w') ↔ c.sender = w.staking.owner ∧ w' = w := by
  simp only [stakingOnlyOwner, bind_ok, get_ok, require_ok]
  constructor
  · rintro ⟨_, _, ⟨rfl, rfl⟩, h, rfl⟩; exact ⟨h, rfl⟩
  · rintro ⟨h, rfl⟩; exact ⟨w', w', ⟨rfl, rfl⟩, h, rfl⟩

theorem upd_self {κ α : Type} [DecidableEq κ] (f : κ → α) (k : κ) : upd f k (f k) = f := by
  funext x
  by_cases h : x = k
  · rw [h, upd_same]
  · rw [upd_ne _ _ h]

theorem upd_upd {κ α : Type} [DecidableEq κ] (f : κ → α) (k : κ) (a b : α) : upd (upd f k a) k b = upd f k b := by
  funext x
  by_cases h : x = k
  · rw [h, upd_same, upd_same]
  · rw [upd_ne _ _ h, upd_ne _ _ h, upd_ne _ _ h]

/-- What a successful `_stake` does. -/
structure StakeEffect (cfg : Cfg) (staker prover : Address) (amount n : Nat) (w w' : World) : Prop where
  amount_ne : amount ≠ 0
  min : w.staking.minStakeAmount ≤ amount
  active : w.staking.deactivatedProvers prover = false
  noSlash : w.staking.slashClaimCount prover = 0
  one : w.staking.stakerToProver staker = 0 ∨ w.staking.stakerToProver staker = prover
  eff : ∃ p1 p2 i i1 i2 i3 v1 s1,
    i = amount * (w.iprove.supply + 1) / (w.prove.bal cfg.iprove + 1) ∧ i ≠ 0 ∧
    n = i * ((w.vault prover).supply + 1) / (i1.bal prover + 1) ∧ n ≠ 0 ∧
    w.prove.spend cfg.staking cfg.iprove amount = .ok p1 ∧ p1.transfer cfg.staking cfg.iprove amount = .ok p2 ∧
    w.iprove.mint cfg.staking i = .ok i1 ∧ (i2 = i1 ∨ i1.spend cfg.staking prover i = .ok i2) ∧
    i2.transfer cfg.staking prover i = .ok i3 ∧ (w.vault prover).mint cfg.staking n = .ok v1 ∧
    w.st.mint staker n = .ok s1 ∧
    w' = { w with
      prove := p2, iprove := i3, vault := upd w.vault prover v1, st := s1
      staking := { w.staking with stakerToProver := upd w.staking.stakerToProver staker prover } }

theorem stakeFor_ok {cfg : Cfg} {staker prover : Address} {amount n : Nat} {w w' : World}
    (h : stakeFor cfg staker prover amount w = .ok (n, w')) : StakeEffect cfg staker prover amount n w w' := by
  simp only [stakeFor, bind_ok, get_ok, require_ok, requireNoSlash_ok] at h
  obtain ⟨_, _, ⟨h1, rfl⟩, _, _, ⟨rfl, rfl⟩, _, _, ⟨h2, rfl⟩, _, _, ⟨rfl, rfl⟩, _, _, ⟨h3, rfl⟩, _, _, ⟨h4, rfl⟩,
    _, _, ⟨rfl, rfl⟩, _, w, ⟨h5, rfl⟩, h⟩ := h
  have key : ∀ {W : World}, W = { w with staking := { w.staking with
        stakerToProver := upd w.staking.stakerToProver staker prover } } →
      (iproveDeposit cfg cfg.staking amount cfg.staking >>= fun i => L1.require (i ≠ 0) .zeroReceiptAmount >>= fun _ =>
        vaultDeposit cfg cfg.staking prover i cfg.staking >>= fun st =>
        L1.require (st ≠ 0) .zeroReceiptAmount >>= fun _ =>
        onSt true (·.mint staker st) >>= fun _ => (pure st : L1 Nat)) W = .ok (n, w') →
      StakeEffect cfg staker prover amount n w w' := by
    rintro _ rfl h
    simp only [bind_ok, require_ok, onSt_ok, pure_ok] at h
    obtain ⟨i, _, hi, _, _, ⟨h6, rfl⟩, st, _, hv, _, _, ⟨h7, rfl⟩, _, _, ⟨_, s1, h8, rfl⟩, rfl, rfl⟩ := h
    obtain ⟨e1, _, p1, p2, i1, a1, a2, a3, _, rfl⟩ := iproveDeposit_ok hi
    obtain ⟨e2, _, i2, i3, v1, b1, b2, b3, rfl⟩ := vaultDeposit_ok hv
    exact ⟨h1, h2, h3, h4, h5, p1, p2, i, i1, i2, i3, v1, s1, e1, h6, e2, h7, a1, a2, a3, b1, b2, b3, h8, rfl⟩
  split at h
  · obtain ⟨_, _, hm, h⟩ := bind_ok.mp h
    exact key (modStaking_ok.mp hm) (by simpa only [bind_ok] using h)
  · rename_i hne
    refine key (W := w) ?_ (by simpa only [bind_ok] using h)
    have e : w.staking.stakerToProver staker = prover := h5.resolve_left hne
    rw [← e, upd_self]

theorem provePermit_ok {signer o s : Address} {v : Nat} {u : Unit} {w w' : World}
    (h : provePermit signer o s v w = .ok (u, w')) :
    signer = o ∧ ∃ t, w.prove.approve o s v = .ok t ∧ w' = { w with prove := t } := by
  simp only [provePermit, bind_ok, require_ok, onProve_ok] at h
  obtain ⟨_, _, ⟨h1, rfl⟩, t, h2, rfl⟩ := h
  exact ⟨h1, t, h2, rfl⟩

theorem transferProveToStaking_ok {cfg : Cfg} {s p f : Address} {v : Nat} {u : Unit} {w w' : World}
    (h : transferProveToStaking cfg s p f v w = .ok (u, w')) :
    s = cfg.staking ∧ ∃ t1 t2, w.prove.spend f p v = .ok t1 ∧ t1.transfer f cfg.staking v = .ok t2 ∧
      w' = { w with prove := t2 } := by
  simp only [transferProveToStaking, bind_ok, require_ok] at h
  obtain ⟨_, _, ⟨h1, rfl⟩, h2⟩ := h
  exact ⟨h1, proveTransferFrom_ok h2⟩

theorem stake_ok {cfg : Cfg} {c : Ctx} {prover : Address} {amount n : Nat} {w w' : World}
    (h : stake cfg c prover amount w = .ok (n, w')) :
    w.staking.provers prover = true ∧ ∃ t1 t2, w.prove.spend c.sender cfg.staking amount = .ok t1 ∧
      t1.transfer c.sender cfg.staking amount = .ok t2 ∧
      StakeEffect cfg c.sender prover amount n { w with prove := t2 } w' := by
  simp only [stake, bind_ok, onlyForProver_ok] at h
  obtain ⟨_, _, ⟨h1, rfl⟩, _, _, h2, h3⟩ := h
  obtain ⟨t1, t2, a1, a2, rfl⟩ := proveTransferFrom_ok h2
  exact ⟨h1, t1, t2, a1, a2, stakeFor_ok h3⟩

theorem permitAndStake_ok {cfg : Cfg} {signer prover f : Address} {amount n : Nat} {w w' : World}
    (h : permitAndStake cfg signer prover f amount w = .ok (n, w')) :
    w.staking.provers prover = true ∧ ∃ t0 t1 t2,
      ((w.prove.allow f prover = amount ∧ t0 = w.prove) ∨
        (signer = f ∧ w.prove.approve f prover amount = .ok t0)) ∧
      t0.spend f prover amount = .ok t1 ∧
      t1.transfer f cfg.staking amount = .ok t2 ∧
      StakeEffect cfg f prover amount n { w with prove := t2 } w' := by
  simp only [permitAndStake, bind_ok, onlyForProver_ok, get_ok] at h
  obtain ⟨_, _, ⟨h1, rfl⟩, _, _, ⟨rfl, rfl⟩, h⟩ := h
  split at h
  · simp only [bind_ok] at h
    obtain ⟨_, _, h2, _, _, h3, h4⟩ := h
    obtain ⟨hs, t0, b1, rfl⟩ := provePermit_ok h2
    obtain ⟨_, t1, t2, a1, a2, rfl⟩ := transferProveToStaking_ok h3
    exact ⟨h1, t0, t1, t2, Or.inr ⟨hs, b1⟩, a1, a2, stakeFor_ok h4⟩
  · rename_i hal
    simp only [bind_ok] at h
    obtain ⟨_, _, h3, h4⟩ := h
    obtain ⟨_, t1, t2, a1, a2, rfl⟩ := transferProveToStaking_ok h3
    exact ⟨h1, _, t1, t2, Or.inl ⟨Classical.byContradiction fun e => hal e, rfl⟩, a1, a2, stakeFor_ok h4⟩

/-- The slash factor an unstake request is recorded with. -/
def currentFactor (pool : EscrowPool) : Nat := if pool.slashFactor = 0 then SCALAR else pool.slashFactor

theorem requestUnstake_ok {cfg : Cfg} {c : Ctx} {st : Nat} {u : Unit} {w w' : World}
    (h : requestUnstake cfg c st w = .ok (u, w')) :
    st ≠ 0 ∧ w.staking.stakerToProver c.sender ≠ 0 ∧
    (w.staking.unstakeClaims c.sender).length < w.staking.maxUnstakeRequests ∧
    w.staking.slashClaimCount (w.staking.stakerToProver c.sender) = 0 ∧ st ≤ w.st.bal c.sender ∧
    ∃ p esc s1 v1 i1, p = w.staking.stakerToProver c.sender ∧
      st ≤ (w.vault p).bal cfg.staking ∧
      esc = st * (w.iprove.bal p + 1) / ((w.vault p).supply + 1) ∧
      w.st.burn c.sender st = .ok s1 ∧ (w.vault p).burn cfg.staking st = .ok v1 ∧
      w.iprove.transfer p cfg.staking esc = .ok i1 ∧
      (w.staking.escrowPools p).iPROVEEscrow + esc ≤ max256 ∧
      w' = { w with
        st := s1, vault := upd w.vault p v1, iprove := i1
        staking := { w.staking with
          escrowPools := upd w.staking.escrowPools p
            ⟨(w.staking.escrowPools p).iPROVEEscrow + esc, currentFactor (w.staking.escrowPools p)⟩
          unstakeClaims := upd w.staking.unstakeClaims c.sender
            (w.staking.unstakeClaims c.sender ++ [⟨esc, currentFactor (w.staking.escrowPools p), c.now⟩]) } } := by
  simp only [requestUnstake, escrowUnstakeRequest, bind_ok, get_ok, require_ok, requireNoSlash_ok, onSt_ok, add256_ok,
    modStaking_ok] at h
  obtain ⟨_, _, ⟨h1, rfl⟩, _, _, ⟨rfl, rfl⟩, _, _, ⟨h2, rfl⟩, _, _, ⟨rfl, rfl⟩, _, _, ⟨h3, rfl⟩, _, _, ⟨h4, rfl⟩,
    _, _, ⟨rfl, rfl⟩, _, _, ⟨h5, rfl⟩, esc, _, ⟨_, _, ⟨_, s1, a1, rfl⟩, h6⟩, _, _, ⟨rfl, rfl⟩, _, _, ⟨h7, rfl, rfl⟩, rfl⟩ := h
  obtain ⟨b1, b2, _, v1, i1, b3, b4, rfl⟩ := vaultRedeem_ok h6
  exact ⟨h1, h2, h3, h4, h5, _, esc, s1, v1, i1, rfl, b1, b2, a1, b3, b4, h7, rfl⟩

/-- The $iPROVE a claim is worth: scaled by the slashes since the request, and at most what the pool has. -/
def claimPay (pool : EscrowPool) (claim : UnstakeClaim) : Nat :=
  min pool.iPROVEEscrow (claim.iPROVEEscrow * pool.slashFactor / claim.slashFactor)

theorem finishUnstakeRequest_ok {cfg : Cfg} {staker prover : Address} {claim : UnstakeClaim} {n : Nat} {w w' : World}
    (h : finishUnstakeRequest cfg staker prover claim w = .ok (n, w')) :
    claim.slashFactor ≠ 0 ∧
    ∃ pay, pay = claimPay (w.staking.escrowPools prover) claim ∧ pay ≤ (w.staking.escrowPools prover).iPROVEEscrow ∧
      ((pay = 0 ∧ n = 0 ∧ w' = w) ∨
       (pay ≠ 0 ∧ pay ≤ w.iprove.bal cfg.staking ∧
        n = pay * (w.prove.bal cfg.iprove + 1) / (w.iprove.supply + 1) ∧
        ∃ i0 i1 p1, (i0 = w.iprove ∨ w.iprove.spend cfg.staking cfg.staking pay = .ok i0) ∧
          i0.burn cfg.staking pay = .ok i1 ∧ w.prove.transfer cfg.iprove staker n = .ok p1 ∧
          w' = { w with prove := p1, iprove := i1, staking := { w.staking with
            escrowPools := upd w.staking.escrowPools prover
              { w.staking.escrowPools prover with iPROVEEscrow := (w.staking.escrowPools prover).iPROVEEscrow - pay } } })) := by
  simp only [finishUnstakeRequest, bind_ok, get_ok, mulDiv_ok] at h
  obtain ⟨_, _, ⟨rfl, rfl⟩, _, w, ⟨h1, _, rfl, rfl⟩, h⟩ := h
  have hp : (if (w.staking.escrowPools prover).iPROVEEscrow <
      claim.iPROVEEscrow * (w.staking.escrowPools prover).slashFactor / claim.slashFactor
      then (w.staking.escrowPools prover).iPROVEEscrow
      else claim.iPROVEEscrow * (w.staking.escrowPools prover).slashFactor / claim.slashFactor)
      = claimPay (w.staking.escrowPools prover) claim := by
    unfold claimPay; split <;> omega
  rw [hp] at h
  refine ⟨h1, _, rfl, Nat.min_le_left _ _, ?_⟩
  split at h
  · rename_i hne
    obtain ⟨_, _, hm, h⟩ := bind_ok.mp h
    obtain rfl := modStaking_ok.mp hm
    obtain ⟨a1, a2, _, i0, i1, p1, a3, a4, a5, rfl⟩ := iproveRedeem_ok h
    exact Or.inr ⟨hne, a1, a2, i0, i1, p1, a3, a4, a5, rfl⟩
  · rename_i hne
    obtain ⟨rfl, rfl⟩ := pure_ok.mp h
    exact Or.inl ⟨Classical.byContradiction fun e => hne e, rfl, rfl⟩

/-- One payment made by `finishUnstake`: claim `claim` leaves the list at position `i` and is paid. -/
def PayStep (cfg : Cfg) (c : Ctx) (staker prover : Address) (i n : Nat) (claim : UnstakeClaim) (w w' : World) : Prop :=
  (w.staking.unstakeClaims staker)[i]? = some claim ∧ claim.timestamp + w.staking.unstakePeriod ≤ c.now ∧
  finishUnstakeRequest cfg staker prover claim { w with staking := { w.staking with
    unstakeClaims := upd w.staking.unstakeClaims staker (swapPop (w.staking.unstakeClaims staker) i) } } = .ok (n, w')

/-- Unfolding of one round of the loop. -/
theorem finishLoop_succ {cfg : Cfg} {c : Ctx} {staker prover : Address} {fuel i paid n : Nat} {w w' : World}
    (h : finishLoop cfg c staker prover (fuel + 1) i paid w = .ok (n, w')) :
    ((w.staking.unstakeClaims staker)[i]? = none ∧ n = paid ∧ w' = w) ∨
    (∃ claim p w1, PayStep cfg c staker prover i p claim w w1 ∧
      finishLoop cfg c staker prover fuel i (paid + p) w1 = .ok (n, w')) ∨
    (∃ claim, (w.staking.unstakeClaims staker)[i]? = some claim ∧
      ¬ claim.timestamp + w.staking.unstakePeriod ≤ c.now ∧
      finishLoop cfg c staker prover fuel (i + 1) paid w = .ok (n, w')) := by
  unfold finishLoop at h
  rw [bind_ok] at h
  obtain ⟨_, w, hg, h⟩ := h
  obtain ⟨rfl, rfl⟩ := get_ok.mp hg
  cases hc : (w.staking.unstakeClaims staker)[i]? with
  | none =>
    rw [hc] at h
    obtain ⟨rfl, rfl⟩ := pure_ok.mp (show (pure paid : L1 Nat) w = .ok (n, w') from h)
    exact Or.inl ⟨rfl, rfl, rfl⟩
  | some claim =>
    rw [hc] at h
    dsimp only at h
    rw [bind_ok] at h
    obtain ⟨_, w, ha, h⟩ := h
    obtain ⟨_, rfl, rfl⟩ := add256_ok.mp ha
    split at h
    · rename_i hr
      simp only [bind_ok, modStaking_ok, add256_ok] at h
      obtain ⟨_, _, rfl, p, _, hf, _, w1, ⟨_, rfl, rfl⟩, h⟩ := h
      exact Or.inr (Or.inl ⟨claim, p, w1, ⟨hc, hr, hf⟩, h⟩)
    · rename_i hr
      exact Or.inr (Or.inr ⟨claim, rfl, hr, h⟩)

/-- A relation kept by every payment is kept by the loop. -/
theorem finishLoop_rel {cfg : Cfg} {c : Ctx} {staker prover : Address} {R : World → World → Prop} (hR : Pre R)
    (hs : ∀ i n claim w w', PayStep cfg c staker prover i n claim w w' → R w w') :
    ∀ fuel i paid n w w', finishLoop cfg c staker prover fuel i paid w = .ok (n, w') → R w w' := by
  intro fuel
  induction fuel with
  | zero =>
    intro i paid n w w' h
    obtain ⟨_, rfl⟩ := pure_ok.mp (show (pure paid : L1 Nat) w = .ok (n, w') from h)
    exact hR.refl _
  | succ fuel ih =>
    intro i paid n w w' h
    rcases finishLoop_succ h with ⟨_, _, rfl⟩ | ⟨cl, p, w1, hp, h⟩ | ⟨cl, _, _, h⟩
    · exact hR.refl _
    · exact hR.trans _ _ _ (hs _ _ _ _ _ hp) (ih _ _ _ _ _ h)
    · exact ih _ _ _ _ _ h

/-- The end of `finishUnstake`: reset the factor of an empty pool, detach a staker without stake and claims. -/
def finishTail (staker prover : Address) (w : World) : World :=
  let pool := w.staking.escrowPools prover
  let w1 := if pool.iPROVEEscrow = 0 ∧ pool.slashFactor ≠ SCALAR then
      { w with staking := { w.staking with escrowPools := upd w.staking.escrowPools prover { pool with slashFactor := SCALAR } } }
    else w
  if w1.st.bal staker = 0 ∧ w1.staking.unstakeClaims staker = [] then
    { w1 with staking := { w1.staking with stakerToProver := upd w1.staking.stakerToProver staker 0 } }
  else w1

theorem finishUnstake_ok {cfg : Cfg} {c : Ctx} {staker : Address} {n : Nat} {w w' : World}
    (h : finishUnstake cfg c staker w = .ok (n, w')) :
    w.staking.stakerToProver staker ≠ 0 ∧ w.staking.unstakeClaims staker ≠ [] ∧
    w.staking.slashClaimCount (w.staking.stakerToProver staker) = 0 ∧
    ∃ w1, finishLoop cfg c staker (w.staking.stakerToProver staker) (w.staking.unstakeClaims staker).length 0 0 w
        = .ok (n, w1) ∧
      w' = finishTail staker (w.staking.stakerToProver staker) w1 := by
  simp only [finishUnstake, bind_ok, get_ok, require_ok, requireNoSlash_ok] at h
  obtain ⟨_, _, ⟨rfl, rfl⟩, _, _, ⟨h1, rfl⟩, _, _, ⟨rfl, rfl⟩, _, _, ⟨h2, rfl⟩, _, _, ⟨h3, rfl⟩, paid, _, hl, _, w1,
    ⟨rfl, rfl⟩, h⟩ := h
  refine ⟨h1, fun e => h2 (by rw [e]; rfl), h3, w1, ?_⟩
  unfold finishTail
  dsimp only
  split at h
  · rename_i hc
    rw [if_pos hc]
    simp only [bind_ok, modStaking_ok, get_ok] at h
    obtain ⟨_, _, rfl, _, _, ⟨rfl, rfl⟩, h⟩ := h
    split at h
    · rename_i hd
      rw [if_pos hd]
      simp only [bind_ok, modStaking_ok, pure_ok] at h
      obtain ⟨_, _, rfl, rfl, rfl⟩ := h
      exact ⟨hl, rfl⟩
    · rename_i hd
      rw [if_neg hd]
      obtain ⟨rfl, rfl⟩ := pure_ok.mp h
      exact ⟨hl, rfl⟩
  · rename_i hc
    rw [if_neg hc]
    simp only [bind_ok, get_ok] at h
    obtain ⟨_, _, ⟨rfl, rfl⟩, h⟩ := h
    split at h
    · rename_i hd
      rw [if_pos hd]
      simp only [bind_ok, modStaking_ok, pure_ok] at h
      obtain ⟨_, _, rfl, rfl, rfl⟩ := h
      exact ⟨hl, rfl⟩
    · rename_i hd
      rw [if_neg hd]
      obtain ⟨rfl, rfl⟩ := pure_ok.mp h
      exact ⟨hl, rfl⟩

theorem requestSlash_ok {cfg : Cfg} {c : Ctx} {p : Address} {a n : Nat} {w w' : World}
    (h : requestSlash cfg c p a w = .ok (n, w')) :
    c.sender = cfg.vapp ∧ w.staking.provers p = true ∧ a ≠ 0 ∧ n = (w.staking.slashClaims p).length ∧
    w' = { w with staking := { w.staking with
      slashClaims := upd w.staking.slashClaims p (w.staking.slashClaims p ++ [⟨a, c.now, false⟩])
      slashClaimCount := upd w.staking.slashClaimCount p ((w.staking.slashClaimCount p + 1) % 2 ^ 256) } } := by
  simp only [requestSlash, bind_ok, get_ok, require_ok, onlyForProver_ok, modStaking_ok, pure_ok] at h
  obtain ⟨_, _, ⟨h1, rfl⟩, _, _, ⟨h2, rfl⟩, _, _, ⟨h3, rfl⟩, _, _, ⟨rfl, rfl⟩, _, _, rfl, rfl, rfl⟩ := h
  exact ⟨h1, h2, h3, rfl, rfl⟩

/-- The staking state after claim `index` of `p` is marked as resolved. -/
def Staking.resolve (s : Staking) (p : Address) (index : Nat) (claim : SlashClaim) : Staking :=
  { s with
    slashClaims := upd s.slashClaims p ((s.slashClaims p).set index { claim with resolved := true })
    slashClaimCount := upd s.slashClaimCount p ((s.slashClaimCount p + (2 ^ 256 - 1)) % 2 ^ 256) }

theorem cancelSlash_ok {c : Ctx} {p : Address} {i : Nat} {u : Unit} {w w' : World}
    (h : cancelSlash c p i w = .ok (u, w')) :
    w.staking.provers p = true ∧ ∃ claim, (w.staking.slashClaims p)[i]? = some claim ∧ claim.resolved = false ∧
      claim.timestamp + w.staking.slashCancellationPeriod + c.votingDelay + c.votingPeriod ≤ c.now ∧
      w' = { w with staking := w.staking.resolve p i claim } := by
  simp only [cancelSlash, bind_ok, get_ok, require_ok, onlyForProver_ok, liftO_ok, add256_ok, resolveSlash, modStaking_ok] at h
  obtain ⟨_, _, ⟨h1, rfl⟩, _, _, ⟨rfl, rfl⟩, claim, _, ⟨h2, rfl⟩, _, _, ⟨h3, rfl⟩, _, _, ⟨rfl, rfl⟩,
    _, _, ⟨_, rfl, rfl⟩, _, _, ⟨_, rfl, rfl⟩, _, _, ⟨_, rfl, rfl⟩, _, _, ⟨h4, rfl⟩, rfl⟩ := h
  exact ⟨h1, claim, h2, h3, h4, rfl⟩

theorem deactivate_ok {p : Address} {u : Unit} {w w' : World} (h : deactivateIfBelowMin p w = .ok (u, w')) :
    (w' = w ∧ (w.staking.deactivatedProvers p = true ∨ (w.vault p).supply = 0 ∨
      10 ^ 9 ≤ w.iprove.bal p * 10 ^ 18 / (w.vault p).supply)) ∨
    (w.staking.deactivatedProvers p = false ∧ (w.vault p).supply ≠ 0 ∧
      w.iprove.bal p * 10 ^ 18 / (w.vault p).supply < 10 ^ 9 ∧
      w' = { w with staking := { w.staking with
        deactivatedProvers := upd w.staking.deactivatedProvers p true } }) := by
  simp only [deactivateIfBelowMin, bind_ok, get_ok] at h
  obtain ⟨_, _, ⟨rfl, rfl⟩, h⟩ := h
  split at h
  · rename_i hd; exact Or.inl ⟨(pure_ok.mp h).2, Or.inl hd⟩
  · rename_i hd
    split at h
    · rename_i hs; exact Or.inl ⟨(pure_ok.mp h).2, Or.inr (Or.inl hs)⟩
    · rename_i hs
      simp only [bind_ok, mulDiv_ok] at h
      obtain ⟨_, _, ⟨_, _, rfl, rfl⟩, h⟩ := h
      split at h
      · rename_i hlt
        exact Or.inr ⟨by simpa using hd, hs, hlt, modStaking_ok.mp h⟩
      · rename_i hlt; exact Or.inl ⟨(pure_ok.mp h).2, Or.inr (Or.inr (by omega))⟩

/-- The burning part of `finishSlash`: which amounts leave the escrow and the vault. -/
structure SlashEffect (cfg : Cfg) (p : Address) (total x : Nat) (w w' : World) : Prop where
  le : x ≤ total
  eff : ∃ fe fv pr ip f,
    fe = x * (w.staking.escrowPools p).iPROVEEscrow / total ∧ fe ≤ x ∧ fv = x - fe ∧
    fe ≤ (w.staking.escrowPools p).iPROVEEscrow ∧
    (∃ i1, (if fe = 0 then i1 = w.iprove else w.iprove.burn cfg.staking fe = .ok i1) ∧
      (if fv = 0 then ip = i1 else i1.burn p fv = .ok ip) ∧
      ∃ p1, (if fe = 0 then p1 = w.prove else
          w.prove.burn cfg.iprove (fe * (w.prove.bal cfg.iprove + 1) / (w.iprove.supply + 1)) = .ok p1) ∧
        (if fv = 0 then pr = p1 else
          p1.burn cfg.iprove (fv * (p1.bal cfg.iprove + 1) / (i1.supply + 1)) = .ok pr)) ∧
    (f = if total = x then 0
      else currentFactor (w.staking.escrowPools p) * ((total - x) * SCALAR / total) / SCALAR) ∧
    w' = { w with prove := pr, iprove := ip, staking := { w.staking with
      escrowPools := upd w.staking.escrowPools p ⟨(w.staking.escrowPools p).iPROVEEscrow - fe, f⟩ } }

theorem slashBurn_ok {cfg : Cfg} {p : Address} {total x n : Nat} {w w' : World}
    (h : slashBurn cfg p total x w = .ok (n, w')) : n = x ∧ SlashEffect cfg p total x w w' := by
  unfold slashBurn at h
  simp only [bind_ok, get_ok, mulDiv_ok, sub256_ok] at h
  obtain ⟨_, _, ⟨rfl, rfl⟩, fe, _, ⟨_, _, hfe, rfl⟩, fv, w, ⟨hle, hfv, rfl⟩, h⟩ := h
  -- last part: the slash factor
  have tail : ∀ {W : World} (pool : EscrowPool), pool = w.staking.escrowPools p →
      (sub256 total x >>= fun remaining =>
        (if remaining = 0 then (do
            modStaking fun s => { s with
              escrowPools := upd s.escrowPools p { s.escrowPools p with slashFactor := 0 } }
            pure (fe + fv) : L1 Nat)
          else do
            let ratio ← mulDiv remaining SCALAR total
            let factor' ← mulDiv (if pool.slashFactor = 0 then SCALAR else pool.slashFactor) ratio SCALAR
            modStaking fun s => { s with
              escrowPools := upd s.escrowPools p { s.escrowPools p with slashFactor := factor' } }
            pure (fe + fv))) W = .ok (n, w') →
      x ≤ total ∧ n = fe + fv ∧ w' = { W with staking := { W.staking with
        escrowPools := upd W.staking.escrowPools p ⟨(W.staking.escrowPools p).iPROVEEscrow,
          if total = x then 0
          else currentFactor (w.staking.escrowPools p) * ((total - x) * SCALAR / total) / SCALAR⟩ } } := by
    rintro W pool rfl h
    simp only [bind_ok, sub256_ok] at h
    obtain ⟨_, _, ⟨hx, rfl, rfl⟩, h⟩ := h
    split at h
    · rename_i hr
      simp only [bind_ok, modStaking_ok, pure_ok] at h
      obtain ⟨_, _, rfl, rfl, rfl⟩ := h
      exact ⟨hx, rfl, by rw [if_pos (by omega)]⟩
    · rename_i hr
      simp only [bind_ok, modStaking_ok, pure_ok, mulDiv_ok] at h
      obtain ⟨_, _, ⟨_, _, rfl, rfl⟩, _, _, ⟨_, _, rfl, rfl⟩, _, _, rfl, rfl, rfl⟩ := h
      exact ⟨hx, rfl, by rw [if_neg (show ¬ total = x by omega)]; rfl⟩
  have fin : ∀ {W : World} {i1 : Erc20} {pr : Erc20},
      W = { w with prove := pr, iprove := i1, staking := { w.staking with
        escrowPools := upd w.staking.escrowPools p
          { w.staking.escrowPools p with iPROVEEscrow := (w.staking.escrowPools p).iPROVEEscrow - fe } } } →
      (if fe = 0 then i1 = w.iprove else w.iprove.burn cfg.staking fe = .ok i1) →
      (if fe = 0 then pr = w.prove else
        w.prove.burn cfg.iprove (fe * (w.prove.bal cfg.iprove + 1) / (w.iprove.supply + 1)) = .ok pr) →
      fe ≤ (w.staking.escrowPools p).iPROVEEscrow →
      (∃ ip pr2, (if fv = 0 then ip = i1 else i1.burn p fv = .ok ip) ∧
        (if fv = 0 then pr2 = pr else
          pr.burn cfg.iprove (fv * (pr.bal cfg.iprove + 1) / (i1.supply + 1)) = .ok pr2) ∧ x ≤ total ∧ n = fe + fv ∧
        w' = { ({ W with iprove := ip, prove := pr2 } : World) with staking := { W.staking with
          escrowPools := upd W.staking.escrowPools p ⟨(W.staking.escrowPools p).iPROVEEscrow,
          if total = x then 0
          else currentFactor (w.staking.escrowPools p) * ((total - x) * SCALAR / total) / SCALAR⟩ } }) →
      n = x ∧ SlashEffect cfg p total x w w' := by
    rintro W i1 pr rfl hi1 hpr hlefe ⟨ip, pr2, hip, hpr2, hx, hn, rfl⟩
    refine ⟨by omega, hx, fe, fv, pr2, ip, _, hfe, hle, hfv, hlefe, ⟨i1, hi1, hip, pr, hpr, hpr2⟩, rfl, ?_⟩
    simp only [upd_same, upd_upd]
  by_cases hz : fe = 0
  · rw [if_neg (by simpa using hz)] at h
    refine fin (W := w) (i1 := w.iprove) (pr := w.prove) ?_ (by rw [if_pos hz]) (by rw [if_pos hz]) (by omega) ?_
    · rw [hz]; simp only [Nat.sub_zero, upd_self]
    by_cases hv : fv = 0
    · rw [if_neg (by simpa using hv)] at h
      obtain ⟨a1, a2, a3⟩ := tail _ rfl (by simpa only [bind_ok] using h)
      exact ⟨w.iprove, w.prove, by rw [if_pos hv], by rw [if_pos hv], a1, a2, a3⟩
    · rw [if_pos hv] at h
      obtain ⟨_, _, hb, h⟩ := bind_ok.mp h
      obtain ⟨_, e1, p1, ip, b1, b2, rfl⟩ := iproveBurn_ok hb
      obtain ⟨a1, a2, a3⟩ := tail _ rfl (by simpa only [bind_ok] using h)
      exact ⟨ip, p1, by rw [if_neg hv]; exact b2, by rw [if_neg hv, ← e1]; exact b1, a1, a2, a3⟩
  · rw [if_pos hz] at h
    simp only [bind_ok, sub256_ok, modStaking_ok] at h
    obtain ⟨_, _, ⟨hl, rfl, rfl⟩, _, _, rfl, _, _, hb, h⟩ := h
    obtain ⟨_, e1, p1, i1, b1, b2, rfl⟩ := iproveBurn_ok hb
    refine fin rfl (i1 := i1) (pr := p1) (by rw [if_neg hz]; exact b2)
      (by rw [if_neg hz]; rw [e1] at b1; exact b1) hl ?_
    by_cases hv : fv = 0
    · rw [if_neg (by simpa using hv)] at h
      obtain ⟨a1, a2, a3⟩ := tail _ rfl (by simpa only [bind_ok] using h)
      exact ⟨i1, p1, by rw [if_pos hv], by rw [if_pos hv], a1, a2, a3⟩
    · rw [if_pos hv] at h
      obtain ⟨_, _, hb, h⟩ := bind_ok.mp h
      obtain ⟨_, e2, p2, ip, c1, c2, rfl⟩ := iproveBurn_ok hb
      obtain ⟨a1, a2, a3⟩ := tail _ rfl (by simpa only [bind_ok] using h)
      exact ⟨ip, p2, by rw [if_neg hv]; exact c2, by rw [if_neg hv]; rw [e2] at c1; exact c1, a1, a2, a3⟩

theorem finishSlash_ok {cfg : Cfg} {c : Ctx} {p : Address} {i n : Nat} {w w' : World}
    (h : finishSlash cfg c p i w = .ok (n, w')) :
    c.sender = w.staking.owner ∧ w.staking.provers p = true ∧
    ∃ claim, (w.staking.slashClaims p)[i]? = some claim ∧ claim.resolved = false ∧
      n = min (w.iprove.bal p + (w.staking.escrowPools p).iPROVEEscrow) claim.iPROVE ∧
      ∃ w1, (if n = 0 then w1 = { w with staking := w.staking.resolve p i claim }
          else SlashEffect cfg p (w.iprove.bal p + (w.staking.escrowPools p).iPROVEEscrow) n
            { w with staking := w.staking.resolve p i claim } w1) ∧
        ((w' = w1 ∧ (w1.staking.deactivatedProvers p = true ∨ (w1.vault p).supply = 0 ∨
            10 ^ 9 ≤ w1.iprove.bal p * 10 ^ 18 / (w1.vault p).supply)) ∨
          (w1.staking.deactivatedProvers p = false ∧ (w1.vault p).supply ≠ 0 ∧
          w1.iprove.bal p * 10 ^ 18 / (w1.vault p).supply < 10 ^ 9 ∧
          w' = { w1 with staking := { w1.staking with
            deactivatedProvers := upd w1.staking.deactivatedProvers p true } })) := by
  simp only [finishSlash, bind_ok, get_ok, require_ok, stakingOnlyOwner_ok, onlyForProver_ok, liftO_ok, add256_ok,
    resolveSlash, modStaking_ok] at h
  obtain ⟨_, _, ⟨h1, rfl⟩, _, _, ⟨h2, rfl⟩, _, _, ⟨rfl, rfl⟩, claim, _, ⟨h3, rfl⟩, _, _, ⟨h4, rfl⟩, _, _, ⟨rfl, rfl⟩,
    _, w, ⟨_, rfl, rfl⟩, _, _, rfl, h⟩ := h
  refine ⟨h1, h2, claim, h3, h4, ?_⟩
  have hmin : (if w.iprove.bal p + (w.staking.escrowPools p).iPROVEEscrow < claim.iPROVE
      then w.iprove.bal p + (w.staking.escrowPools p).iPROVEEscrow else claim.iPROVE)
      = min (w.iprove.bal p + (w.staking.escrowPools p).iPROVEEscrow) claim.iPROVE := by
    split <;> omega
  rw [hmin] at h
  generalize hx : min (w.iprove.bal p + (w.staking.escrowPools p).iPROVEEscrow) claim.iPROVE = x at h
  split at h
  · rename_i hpos
    simp only [bind_ok, pure_ok] at h
    obtain ⟨b, w1, hb, _, _, hd, rfl, rfl⟩ := h
    obtain ⟨rfl, he⟩ := slashBurn_ok hb
    refine ⟨rfl, w1, ?_, deactivate_ok hd⟩
    rw [if_neg (by omega)]; exact he
  · rename_i hpos
    simp only [bind_ok, pure_ok] at h
    obtain ⟨b, w1, ⟨rfl, rfl⟩, _, _, hd, rfl, rfl⟩ := h
    refine ⟨by omega, _, ?_, deactivate_ok hd⟩
    rw [if_pos rfl]; rfl

theorem maxDispense_ok {c : Ctx} {n : Nat} {w w' : World} (h : maxDispense c w = .ok (n, w')) :
    w' = w ∧ w.staking.dispenseRateTimestamp ≤ c.now ∧
    w.staking.dispenseDistributed ≤
      w.staking.dispenseEarned + (c.now - w.staking.dispenseRateTimestamp) * w.staking.dispenseRate ∧
    n = w.staking.dispenseEarned + (c.now - w.staking.dispenseRateTimestamp) * w.staking.dispenseRate -
      w.staking.dispenseDistributed := by
  simp only [maxDispense, bind_ok, get_ok, sub256_ok, mul256_ok, add256_ok] at h
  obtain ⟨_, _, ⟨rfl, rfl⟩, _, _, ⟨h1, rfl, rfl⟩, _, _, ⟨_, rfl, rfl⟩, _, _, ⟨_, rfl, rfl⟩, h2, rfl, rfl⟩ := h
  exact ⟨rfl, h1, h2, rfl⟩

theorem dispense_ok {cfg : Cfg} {c : Ctx} {v : Nat} {u : Unit} {w w' : World}
    (h : dispense cfg c v w = .ok (u, w')) :
    c.sender = w.staking.dispenser ∧ w.staking.dispenseRateTimestamp ≤ c.now ∧
    ∃ a, a ≠ 0 ∧ (v = max256 ∨ a = v) ∧
      w.staking.dispenseDistributed + a ≤
        w.staking.dispenseEarned + (c.now - w.staking.dispenseRateTimestamp) * w.staking.dispenseRate ∧
      (v = max256 → w.staking.dispenseDistributed + a =
        w.staking.dispenseEarned + (c.now - w.staking.dispenseRateTimestamp) * w.staking.dispenseRate) ∧
      ∃ t, w.prove.transfer cfg.staking cfg.iprove a = .ok t ∧
        w' = { w with prove := t, staking := { w.staking with
          dispenseDistributed := w.staking.dispenseDistributed + a } } := by
  simp only [dispense, bind_ok, get_ok, require_ok, add256_ok, modStaking_ok] at h
  obtain ⟨_, _, ⟨rfl, rfl⟩, _, _, ⟨h1, rfl⟩, av, _, hm, _, _, ⟨h2, rfl⟩, _, _, ⟨h3, rfl⟩, _, _, ⟨rfl, rfl⟩,
    _, _, ⟨_, rfl, rfl⟩, _, _, rfl, h4⟩ := h
  obtain ⟨rfl, hts, hd, rfl⟩ := maxDispense_ok hm
  obtain ⟨t, ht, rfl⟩ := proveTransfer_ok h4
  refine ⟨h1, hts, _, h2, ?_, by omega, ?_, t, ht, rfl⟩
  · split <;> simp_all
  · intro e; rw [if_pos e]; omega

theorem updateDispenseRate_ok {c : Ctx} {r : Nat} {u : Unit} {w w' : World}
    (h : updateDispenseRate c r w = .ok (u, w')) :
    c.sender = w.staking.owner ∧ w.staking.dispenseRateTimestamp ≤ c.now ∧
    w' = { w with staking := { w.staking with
      dispenseEarned := w.staking.dispenseEarned +
        (c.now - w.staking.dispenseRateTimestamp) * w.staking.dispenseRate
      dispenseRateTimestamp := c.now
      dispenseRate := r } } := by
  simp only [updateDispenseRate, bind_ok, get_ok, stakingOnlyOwner_ok, sub256_ok, mul256_ok, add256_ok, modStaking_ok] at h
  obtain ⟨_, _, ⟨h1, rfl⟩, _, _, ⟨rfl, rfl⟩, _, _, ⟨h2, rfl, rfl⟩, _, _, ⟨_, rfl, rfl⟩, _, _, ⟨_, rfl, rfl⟩, rfl⟩ := h
  exact ⟨h1, h2, rfl⟩

end Verif
