import Verif.L1Live
/-
# Calls that go through: `finishUnstake`, slashing, dispensing
-/

namespace Verif
open L1

/-! ## `finishUnstake` -/

/-- Redeeming at a price of at least one leaves the price at least one. -/
theorem redeem_keeps {n P S : Nat} (hn : n ≤ S) (h : S ≤ P) : S - n ≤ P - n * (P + 1) / (S + 1) := by
  have h1 : n * (P + 1) / (S + 1) * (S + 1) ≤ n * (P + 1) := Nat.div_mul_le_self _ _
  generalize hx : n * (P + 1) / (S + 1) = x at *
  -- (P + 1 - x) * (S + 1) ≥ (P + 1) * (S + 1 - n) ≥ (S + 1) * (S + 1 - n)
  have h2 : x ≤ P := by rw [← hx]; exact redeem_le hn
  have h3 : (S + 1) * (S - n + 1) ≤ (P + 1) * (S - n + 1) := Nat.mul_le_mul_right _ (by omega)
  have h4 : (P + 1) * (S - n + 1) + n * (P + 1) = (P + 1) * (S + 1) := by
    rw [Nat.mul_comm n, ← Nat.mul_add]; congr 1; omega
  have h5 : (P - x + 1) * (S + 1) + x * (S + 1) = (P + 1) * (S + 1) := by
    rw [← Nat.add_mul]; congr 1; omega
  have h6 : (S + 1) * (S - n + 1) ≤ (P - x + 1) * (S + 1) := by omega
  rw [Nat.mul_comm] at h6
  have := Nat.le_of_mul_le_mul_right h6 (Nat.succ_pos S)
  omega

/-- What paying a claim needs. -/
structure Payable (cfg : Cfg) (staker p : Address) (w : World) : Prop where
  prove : w.prove.Balanced
  iprove : w.iprove.Balanced
  small : w.prove.supply < 2 ^ 160
  backed : w.iprove.supply ≤ w.prove.bal cfg.iprove
  pool : (w.staking.escrowPools p).iPROVEEscrow ≤ w.iprove.bal cfg.staking
  factor : (w.staking.escrowPools p).slashFactor ≤ SCALAR
  claim : ∀ cl ∈ w.staking.unstakeClaims staker, cl.slashFactor ≠ 0 ∧ cl.iPROVEEscrow < 2 ^ 160 ∧ cl.timestamp < 2 ^ 64
  period : w.staking.unstakePeriod < 2 ^ 64

theorem finishUnstakeRequest_run {cfg : Cfg} {staker p : Address} {cl : UnstakeClaim} {w : World} (hc : cfg.WF)
    (hs0 : staker ≠ 0) (hne : staker ≠ cfg.iprove) (h : Payable cfg staker p w) (h1 : cl.slashFactor ≠ 0)
    (h2 : cl.iPROVEEscrow < 2 ^ 160) :
    ∃ n w', finishUnstakeRequest cfg staker p cl w = .ok (n, w') ∧ Payable cfg staker p w' ∧
      w'.staking.unstakeClaims = w.staking.unstakeClaims ∧ n + w'.prove.bal cfg.iprove = w.prove.bal cfg.iprove := by
  have hib := h.iprove.le cfg.staking
  have hpb := h.prove.le cfg.iprove
  have hsm := h.small
  have hbk := h.backed
  have hpl := h.pool
  have hrun : Runs (finishUnstakeRequest cfg staker p cl) w := by
    unfold finishUnstakeRequest
    have hscaled : cl.iPROVEEscrow * (w.staking.escrowPools p).slashFactor / cl.slashFactor ≤ max256 := by
      have a : cl.iPROVEEscrow * (w.staking.escrowPools p).slashFactor ≤ 2 ^ 160 * 10 ^ 27 :=
        Nat.mul_le_mul (by omega) h.factor
      have b := Nat.div_le_self (cl.iPROVEEscrow * (w.staking.escrowPools p).slashFactor) cl.slashFactor
      unfold max256; omega
    refine Runs.bind (get_run _) (Runs.bind (mulDiv_run h1 hscaled _) ?_)
    dsimp only
    generalize hpay : (if (w.staking.escrowPools p).iPROVEEscrow <
      cl.iPROVEEscrow * (w.staking.escrowPools p).slashFactor / cl.slashFactor then
        (w.staking.escrowPools p).iPROVEEscrow else cl.iPROVEEscrow * (w.staking.escrowPools p).slashFactor / cl.slashFactor) = pay
    have hple : pay ≤ (w.staking.escrowPools p).iPROVEEscrow := by
      rw [← hpay]; split <;> omega
    split
    · refine Runs.bind (modStaking_run _ _) ?_
      unfold iproveRedeem
      have hprev := fun W : World => fun (e1 : W.iprove = w.iprove) (e2 : W.prove = w.prove) =>
        iprovePreviewRedeem_run (cfg := cfg) (n := pay) (w := W) (by rw [e1]; omega) (by rw [e1]; omega) (by rw [e2]; omega)
      refine Runs.bind (get_run _) (Runs.bind (require_run (by show pay ≤ w.iprove.bal _; omega) _ _)
        (Runs.bind (hprev _ rfl rfl) ?_))
      dsimp only
      rw [if_neg (fun h => h rfl)]
      refine Runs.bind (w1 := _) (a := ()) ((bind_run (iproveCheck_run (Or.inl rfl))).trans (onIprove_run
        (Erc20.burn_run hc.nonzero.2.2.1 (by show pay ≤ w.iprove.bal _; omega)))) (Runs.bind (onProve_run (Erc20.transfer_run hc.nonzero.2.1 hs0 ?_))
        (Runs.pure _ _))
      show pay * (w.prove.bal cfg.iprove + 1) / (w.iprove.supply + 1) ≤ w.prove.bal cfg.iprove
      exact redeem_le (by omega)
    · exact Runs.pure _ _
  obtain ⟨n, w', hok⟩ := hrun
  refine ⟨n, w', hok, ?_⟩
  obtain ⟨_, pay, _, hple, hcase⟩ := finishUnstakeRequest_ok hok
  rcases hcase with ⟨_, rfl, rfl⟩ | ⟨_, hpb', hn, i0, i1, p1, g1, g2, g3, rfl⟩
  · exact ⟨h, rfl, by omega⟩
  · obtain ⟨e1, e2⟩ := iproveSpend_bal g1
    have hib1 : i1.Balanced := by
      have : i0.Balanced := by unfold Erc20.Balanced; rw [e1, e2]; exact h.iprove
      exact this.burn g2
    have hpb1 : p1.Balanced := h.prove.transfer g3
    obtain ⟨_, _, rfl⟩ := Erc20.burn_ok g2
    obtain ⟨_, _, hle, rfl⟩ := Erc20.transfer_ok g3
    have hbal : upd (upd w.prove.bal cfg.iprove (w.prove.bal cfg.iprove - n)) staker
        (upd w.prove.bal cfg.iprove (w.prove.bal cfg.iprove - n) staker + n) cfg.iprove = w.prove.bal cfg.iprove - n := by
      rw [upd_ne _ _ (Ne.symm hne), upd_same]
    refine ⟨⟨hpb1, hib1, h.small, ?_, ?_, ?_, h.claim, h.period⟩, rfl, ?_⟩
    · show i0.supply - pay ≤ upd (upd w.prove.bal cfg.iprove (w.prove.bal cfg.iprove - n)) staker
        (upd w.prove.bal cfg.iprove (w.prove.bal cfg.iprove - n) staker + n) cfg.iprove
      rw [hbal, e2, hn]
      exact redeem_keeps (by omega) hbk
    · show (upd w.staking.escrowPools p _ p).iPROVEEscrow ≤ upd i0.bal cfg.staking (i0.bal cfg.staking - pay) cfg.staking
      rw [upd_same, upd_same, e1]
      show _ - pay ≤ _
      omega
    · show (upd w.staking.escrowPools p _ p).slashFactor ≤ _
      rw [upd_same]; exact h.factor
    · show n + upd (upd w.prove.bal cfg.iprove (w.prove.bal cfg.iprove - n)) staker
        (upd w.prove.bal cfg.iprove (w.prove.bal cfg.iprove - n) staker + n) cfg.iprove = _
      rw [hbal]; omega

theorem mem_swapPop {α : Type} {l : List α} {i : Nat} {x y : α} (hy : l[i]? = some y) (h : x ∈ swapPop l i) : x ∈ l :=
  (swapPop_perm hy).1.mem_iff.mp (List.mem_cons_of_mem _ h)

theorem finishLoop_run {cfg : Cfg} {c : Ctx} {staker p : Address} (hc : cfg.WF) (hs0 : staker ≠ 0) (hne : staker ≠ cfg.iprove)
    (fuel : Nat) : ∀ (i paid : Nat) (w : World), Payable cfg staker p w → paid + w.prove.bal cfg.iprove < 2 ^ 160 →
      Runs (finishLoop cfg c staker p fuel i paid) w := by
  induction fuel with
  | zero => intro i paid w _ _; exact Runs.pure _ _
  | succ fuel ih =>
    intro i paid w h hp
    unfold finishLoop
    refine Runs.bind (get_run _) ?_
    split
    · exact Runs.pure _ _
    · rename_i cl hcl
      have hmem : cl ∈ w.staking.unstakeClaims staker := List.mem_of_getElem? hcl
      obtain ⟨a1, a2, a3⟩ := h.claim cl hmem
      have a4 := h.period
      refine Runs.bind (add256_run (by unfold max256; omega) _) ?_
      split
      · refine Runs.bind (modStaking_run _ _) ?_
        have h' : Payable cfg staker p { w with staking := { w.staking with
            unstakeClaims := upd w.staking.unstakeClaims staker (swapPop (w.staking.unstakeClaims staker) i) } } :=
          ⟨h.prove, h.iprove, h.small, h.backed, h.pool, h.factor, fun x hx => by
            have hx' : x ∈ upd w.staking.unstakeClaims staker (swapPop (w.staking.unstakeClaims staker) i) staker := hx
            rw [upd_same] at hx'
            exact h.claim x (mem_swapPop hcl hx'), h.period⟩
        obtain ⟨n, w', g1, g2, _, g4⟩ := finishUnstakeRequest_run hc hs0 hne h' a1 a2
        have g4' : n + w'.prove.bal cfg.iprove = w.prove.bal cfg.iprove := g4
        refine Runs.bind g1 (Runs.bind (add256_run (by unfold max256; omega) _) (ih _ _ _ g2 (by omega)))
      · exact ih _ _ _ h hp

theorem finishUnstake_run {cfg : Cfg} {c : Ctx} {staker : Address} {w : World} (hc : cfg.WF) (hi : StakingInv cfg w)
    (hl : LiveInv cfg w) (hs : Sane w) (h1 : w.staking.stakerToProver staker ≠ 0) (h2 : w.staking.unstakeClaims staker ≠ [])
    (h3 : w.staking.slashClaimCount (w.staking.stakerToProver staker) = 0) : Runs (finishUnstake cfg c staker) w := by
  have hs0 : staker ≠ 0 := by intro e; rw [e] at h1; exact h1 hl.zero
  have hne : staker ≠ cfg.iprove := by
    intro e; rw [e] at h1; exact h1 (hi.outside _ (Or.inr (Or.inl rfl)))
  have hsm := hs.prove
  have hpb := hi.prove.balanced.le cfg.iprove
  unfold finishUnstake
  refine Runs.bind (get_run _) (Runs.bind (require_run h1 _ _) (Runs.bind (get_run _) (Runs.bind (require_run (by
    intro e; exact h2 (List.eq_nil_of_length_eq_zero e)) _ _) (Runs.bind (requireNoSlash_run h3) ?_))))
  refine Runs.step (finishLoop_run hc hs0 hne _ _ _ _ ⟨hi.prove.balanced, hi.stake.iprove, hsm, hl.supply,
    hi.stake.escrow.le _, hl.factor _, fun cl hcl => ⟨(hl.claim _ _ hcl).1, hs.claim _ _ hcl⟩, hs.period⟩ (by omega)) fun n w1 _ => ?_
  refine Runs.bind (get_run _) ?_
  have tail : ∀ W : World, Runs (L1.get >>= fun w => if w.st.bal staker = 0 ∧ w.staking.unstakeClaims staker = [] then
      (do modStaking fun s => { s with stakerToProver := upd s.stakerToProver staker 0 }
          return n : L1 Nat) else return n) W := by
    intro W
    refine Runs.bind (get_run _) ?_
    split
    · exact Runs.bind (modStaking_run _ _) (Runs.pure _ _)
    · exact Runs.pure _ _
  dsimp only
  split
  · exact Runs.bind (modStaking_run _ _) (tail _)
  · exact tail _

/-! ## Slashing -/

theorem cancelSlash_run {c : Ctx} {p : Address} {i : Nat} {cl : SlashClaim} {w : World} (hp : w.staking.provers p = true)
    (hcl : (w.staking.slashClaims p)[i]? = some cl) (hr : cl.resolved = false) (hn : c.now ≤ max256)
    (ht : cl.timestamp + w.staking.slashCancellationPeriod + c.votingDelay + c.votingPeriod ≤ c.now) :
    Runs (cancelSlash c p i) w := by
  unfold cancelSlash
  refine Runs.bind (onlyForProver_run hp) (Runs.bind (get_run _) (Runs.bind (liftO_ok.mpr ⟨hcl, rfl⟩)
    (Runs.bind (require_run hr _ _) (Runs.bind (get_run _) (Runs.bind (add256_run (by omega) _)
    (Runs.bind (add256_run (by omega) _) (Runs.bind (add256_run (by omega) _) (Runs.bind (require_run ht _ _) ?_))))))))
  exact Runs.ok (modStaking_run _ _)

theorem iproveBurn_run {cfg : Cfg} {f : Address} {v : Nat} {w : World} (hc : cfg.WF) (hf : f ≠ 0)
    (hb : w.iprove.Balanced) (hs : w.iprove.supply < 2 ^ 160) (hp : w.prove.bal cfg.iprove < 2 ^ 160)
    (hv : v ≤ w.iprove.bal f) : Runs (iproveBurn cfg cfg.staking f v) w := by
  have hle := hb.le f
  unfold iproveBurn
  refine Runs.bind (require_run rfl _ _) (Runs.bind (iprovePreviewRedeem_run (by omega) hs hp)
    (Runs.bind (onProve_run (Erc20.burn_run hc.nonzero.2.1 (redeem_le (by omega)))) (Runs.step ?_ fun _ _ _ => Runs.pure _ _)))
  exact Runs.bind (iproveCheck_run (Or.inl rfl)) (Runs.ok (onIprove_run (Erc20.burn_run hf hv)))

/-- The part taken from the vault is there. -/
theorem fromVault_le {x E V : Nat} (hx : x ≤ V + E) : x - x * E / (V + E) ≤ V := by
  rcases Nat.eq_zero_or_pos (V + E) with h0 | h0
  · have : x = 0 := by omega
    rw [this]; simp
  · have h1 : E * (V + E) ≤ x * E + (V + E - x) * (V + E) := by
      have : (V + E - x) * E ≤ (V + E - x) * (V + E) := Nat.mul_le_mul_left _ (by omega)
      have h2 : x * E + (V + E - x) * E = (V + E) * E := by rw [← Nat.add_mul]; congr 1; omega
      rw [Nat.mul_comm E]; omega
    have h3 : E ≤ x * E / (V + E) + (V + E - x) := by
      rw [← Nat.add_mul_div_right _ _ h0]
      exact (Nat.le_div_iff_mul_le h0).mpr h1
    omega

theorem mulDiv_le {x r s : Nat} (h : r ≤ s) : x * r / s ≤ x := by
  apply Nat.div_le_of_le_mul
  rw [Nat.mul_comm s]; exact Nat.mul_le_mul_left _ h

/-- A slash does not add to the vault. -/
theorem SlashEffect.bal_le {cfg : Cfg} {p : Address} {total x : Nat} {w w' : World} (h : SlashEffect cfg p total x w w') :
    w'.iprove.bal p ≤ w.iprove.bal p := by
  have hb : ∀ (t t' : Erc20) (a : Address) (v : Nat), t.burn a v = .ok t' → t'.bal p ≤ t.bal p := by
    intro t t' a v h
    obtain ⟨_, _, rfl⟩ := Erc20.burn_ok h
    by_cases e : p = a
    · rw [e]; show upd t.bal a _ a ≤ _; rw [upd_same]; omega
    · show upd t.bal a _ p ≤ _; rw [upd_ne _ _ e]; exact Nat.le_refl _
  obtain ⟨fe, fv, pr, ip, f, _, _, _, _, ⟨i1, h1, h2, _⟩, _, rfl⟩ := h.eff
  have e1 : i1.bal p ≤ w.iprove.bal p := by
    split at h1
    · rw [h1]; exact Nat.le_refl _
    · exact hb _ _ _ _ h1
  have e2 : ip.bal p ≤ i1.bal p := by
    split at h2
    · rw [h2]; exact Nat.le_refl _
    · exact hb _ _ _ _ h2
  exact Nat.le_trans e2 e1

theorem slashBurn_run {cfg : Cfg} {p : Address} {x : Nat} {w : World} (hc : cfg.WF) (hi : StakingInv cfg w)
    (hz : Sized cfg w) (hl : LiveInv cfg w) (hp : w.staking.provers p = true) (hx0 : 0 < x)
    (hx : x ≤ w.iprove.bal p + (w.staking.escrowPools p).iPROVEEscrow) :
    Runs (slashBurn cfg p (w.iprove.bal p + (w.staking.escrowPools p).iPROVEEscrow) x) w := by
  have hpn := hi.reg.ne hc hp
  have hpool := hi.stake.escrow.le p
  have hsum := hi.stake.iprove.le_two (a := cfg.staking) (b := p) (Ne.symm hpn.2.2.2.1)
  have hsm := hz.small
  have hbk := hz.backed
  have hfv := fromVault_le hx
  have hfac := hl.factor p
  generalize hE : (w.staking.escrowPools p).iPROVEEscrow = E at *
  generalize hV : w.iprove.bal p = V at *
  have hfe : x * E / (V + E) ≤ E := by
    apply Nat.div_le_of_le_mul
    exact Nat.mul_le_mul_right _ hx
  have hfx : x * E / (V + E) ≤ x := by
    apply Nat.div_le_of_le_mul
    rw [Nat.mul_comm]; exact Nat.mul_le_mul_right _ (by omega)
  unfold slashBurn
  refine Runs.bind (get_run _) ?_
  dsimp only
  rw [hE]
  refine Runs.bind (mulDiv_run (by omega) (by unfold max256; omega) _) (Runs.bind (sub256_run hfx _) ?_)
  generalize x * E / (V + E) = fe at *
  -- the slash factor
  have last : ∀ W : World, Runs (sub256 (V + E) x >>= fun remaining =>
        (if remaining = 0 then (do
            modStaking fun s => { s with
              escrowPools := upd s.escrowPools p { s.escrowPools p with slashFactor := 0 } }
            pure (fe + (x - fe)) : L1 Nat)
          else do
            let ratio ← mulDiv remaining SCALAR (V + E)
            let factor' ← mulDiv (if (w.staking.escrowPools p).slashFactor = 0 then SCALAR else (w.staking.escrowPools p).slashFactor) ratio SCALAR
            modStaking fun s => { s with
              escrowPools := upd s.escrowPools p { s.escrowPools p with slashFactor := factor' } }
            pure (fe + (x - fe)))) W := by
    intro W
    refine Runs.bind (sub256_run hx _) ?_
    split
    · exact Runs.bind (modStaking_run _ _) (Runs.pure _ _)
    · have hr : (V + E - x) * SCALAR / (V + E) ≤ SCALAR := by
        apply Nat.div_le_of_le_mul
        exact Nat.mul_le_mul_right _ (by omega)
      have hm : SCALAR ≤ max256 := by unfold SCALAR max256; omega
      refine Runs.bind (mulDiv_run (by omega) (by omega) _) ?_
      refine Runs.bind (mulDiv_run (by unfold SCALAR; omega) ?_ _) (Runs.bind (modStaking_run _ _) (Runs.pure _ _))
      refine Nat.le_trans (mulDiv_le hr) ?_
      split <;> omega
  -- the vault
  have mid : ∀ W : World, W.iprove.Balanced → W.iprove.supply < 2 ^ 160 → W.prove.bal cfg.iprove < 2 ^ 160 →
      W.iprove.bal p = V → Runs (if x - fe ≠ 0 then (do
          let _ ← iproveBurn cfg cfg.staking p (x - fe)
          sub256 (V + E) x >>= fun remaining =>
        (if remaining = 0 then (do
            modStaking fun s => { s with
              escrowPools := upd s.escrowPools p { s.escrowPools p with slashFactor := 0 } }
            pure (fe + (x - fe)) : L1 Nat)
          else do
            let ratio ← mulDiv remaining SCALAR (V + E)
            let factor' ← mulDiv (if (w.staking.escrowPools p).slashFactor = 0 then SCALAR else (w.staking.escrowPools p).slashFactor) ratio SCALAR
            modStaking fun s => { s with
              escrowPools := upd s.escrowPools p { s.escrowPools p with slashFactor := factor' } }
            pure (fe + (x - fe))) : L1 Nat) else sub256 (V + E) x >>= fun remaining =>
        (if remaining = 0 then (do
            modStaking fun s => { s with
              escrowPools := upd s.escrowPools p { s.escrowPools p with slashFactor := 0 } }
            pure (fe + (x - fe)) : L1 Nat)
          else do
            let ratio ← mulDiv remaining SCALAR (V + E)
            let factor' ← mulDiv (if (w.staking.escrowPools p).slashFactor = 0 then SCALAR else (w.staking.escrowPools p).slashFactor) ratio SCALAR
            modStaking fun s => { s with
              escrowPools := upd s.escrowPools p { s.escrowPools p with slashFactor := factor' } }
            pure (fe + (x - fe)))) W := by
    intro W b1 b2 b3 b4
    split
    · exact Runs.step (iproveBurn_run hc hpn.1 b1 b2 b3 (by rw [b4]; exact hfv)) fun _ _ _ => last _
    · exact last W
  split
  · refine Runs.bind (sub256_run (by omega) _) (Runs.bind (modStaking_run _ _) (Runs.step
      (iproveBurn_run hc hc.nonzero.2.2.1 hi.stake.iprove hsm hbk (by show fe ≤ w.iprove.bal _; omega)) fun _ w1 h1 => ?_))
    obtain ⟨_, _, p1, i1, g1, g2, rfl⟩ := iproveBurn_ok h1
    have hib1 : i1.Balanced := Erc20.Balanced.burn (t := w.iprove) hi.stake.iprove g2
    obtain ⟨_, _, rfl⟩ := Erc20.burn_ok g2
    obtain ⟨_, _, rfl⟩ := Erc20.burn_ok g1
    refine mid _ hib1 ?_ ?_ ?_
    · show w.iprove.supply - fe < _; omega
    · show upd w.prove.bal cfg.iprove _ cfg.iprove < _
      rw [upd_same]
      show w.prove.bal cfg.iprove - _ < _
      omega
    · show upd w.iprove.bal cfg.staking _ p = V
      rw [upd_ne _ _ hpn.2.2.2.1]; exact hV
  · exact mid w hi.stake.iprove hsm hbk hV

theorem finishSlash_run {cfg : Cfg} {c : Ctx} {p : Address} {i : Nat} {cl : SlashClaim} {w : World} (hc : cfg.WF)
    (hi : StakingInv cfg w) (hl : LiveInv cfg w) (hz : Sized cfg w) (ho : c.sender = w.staking.owner)
    (hp : w.staking.provers p = true) (hcl : (w.staking.slashClaims p)[i]? = some cl) (hr : cl.resolved = false) :
    Runs (finishSlash cfg c p i) w := by
  have hpn := hi.reg.ne hc hp
  have hpool := hi.stake.escrow.le p
  have hsum := hi.stake.iprove.le_two (a := cfg.staking) (b := p) (Ne.symm hpn.2.2.2.1)
  have hsm := hz.small
  unfold finishSlash
  refine Runs.bind (stakingOnlyOwner_ok.mpr ⟨ho, rfl⟩ : stakingOnlyOwner c w = .ok ((), w)) (Runs.bind (onlyForProver_run hp)
    (Runs.bind (get_run _) (Runs.bind (liftO_ok.mpr ⟨hcl, rfl⟩) (Runs.bind (require_run hr _ _) (Runs.bind (get_run _)
    (Runs.bind (add256_run (by unfold max256; omega) _) (Runs.bind (modStaking_run _ _) ?_)))))))
  generalize hx : (if w.iprove.bal p + (w.staking.escrowPools p).iPROVEEscrow < cl.iPROVE then
    w.iprove.bal p + (w.staking.escrowPools p).iPROVEEscrow else cl.iPROVE) = x
  have hxle : x ≤ w.iprove.bal p + (w.staking.escrowPools p).iPROVEEscrow := by rw [← hx]; split <;> omega
  -- deactivation
  have last : ∀ (n : Nat) (W : World), W.iprove.bal p < 2 ^ 160 → Runs (deactivateIfBelowMin p >>= fun _ => (pure n : L1 Nat)) W := by
    intro n W hb
    refine Runs.step ?_ fun _ _ _ => Runs.pure _ _
    unfold deactivateIfBelowMin
    refine Runs.bind (get_run _) ?_
    split
    · exact Runs.pure _ _
    · split
      · exact Runs.pure _ _
      · rename_i hs
        have h1 : W.iprove.bal p * 10 ^ 18 / (W.vault p).supply ≤ W.iprove.bal p * 10 ^ 18 := Nat.div_le_self _ _
        refine Runs.bind (mulDiv_run hs (by unfold max256; omega) _) ?_
        split
        · exact Runs.ok (modStaking_run _ _)
        · exact Runs.pure _ _
  have hi' : StakingInv cfg { w with staking := { w.staking with
      slashClaims := upd w.staking.slashClaims p ((w.staking.slashClaims p).set i { cl with resolved := true })
      slashClaimCount := upd w.staking.slashClaimCount p ((w.staking.slashClaimCount p + (2 ^ 256 - 1)) % 2 ^ 256) } } :=
    ⟨hi.reg.congr ⟨rfl, rfl, rfl, rfl⟩, hi.stake.congr rfl rfl rfl rfl rfl rfl rfl, ⟨hi.prove.allow, hi.prove.balanced⟩, hi.outside⟩
  dsimp only
  split
  · refine Runs.step (slashBurn_run hc hi' ⟨hz.iprove, hz.small, hz.backed⟩ { hl with } hp ‹_› hxle) fun n w1 h1 => ?_
    obtain ⟨_, he⟩ := slashBurn_ok h1
    refine last _ _ (Nat.lt_of_le_of_lt he.bal_le ?_)
    show w.iprove.bal p < _
    omega
  · refine Runs.bind (w1 := _) (a := 0) rfl (last _ _ ?_)
    show w.iprove.bal p < _
    omega

/-! ## Dispensing -/

theorem dispense_run {cfg : Cfg} {c : Ctx} {v a : Nat} {w : World} (hc : cfg.WF) (h1 : c.sender = w.staking.dispenser)
    (h2 : w.staking.dispenseRateTimestamp ≤ c.now)
    (h3 : w.staking.dispenseEarned + (c.now - w.staking.dispenseRateTimestamp) * w.staking.dispenseRate ≤ max256)
    (ha : a = if v = max256 then w.staking.dispenseEarned + (c.now - w.staking.dispenseRateTimestamp) * w.staking.dispenseRate -
      w.staking.dispenseDistributed else v) (h0 : a ≠ 0)
    (hle : w.staking.dispenseDistributed + a ≤
      w.staking.dispenseEarned + (c.now - w.staking.dispenseRateTimestamp) * w.staking.dispenseRate)
    (hb : a ≤ w.prove.bal cfg.staking) : Runs (dispense cfg c v) w := by
  have hm : maxDispense c w = .ok (w.staking.dispenseEarned + (c.now - w.staking.dispenseRateTimestamp) * w.staking.dispenseRate -
      w.staking.dispenseDistributed, w) := by
    unfold maxDispense
    rw [bind_run (get_run _), bind_run (sub256_run h2 _), bind_run (mul256_ok.mpr ⟨by omega, rfl, rfl⟩),
      bind_run (add256_run h3 _)]
    exact sub256_run (by omega) _
  unfold dispense
  refine Runs.bind (get_run _) (Runs.bind (require_run h1 _ _) (Runs.bind hm ?_))
  dsimp only
  rw [← ha]
  refine Runs.bind (require_run h0 _ _) (Runs.bind (require_run (by omega) _ _) (Runs.bind (get_run _)
    (Runs.bind (add256_run (by omega) _) (Runs.bind (modStaking_run _ _) (Runs.ok (onProve_run
      (Erc20.transfer_run hc.nonzero.2.2.1 hc.nonzero.2.1 hb)))))))

theorem updateDispenseRate_run {c : Ctx} {r : Nat} {w : World} (h1 : c.sender = w.staking.owner)
    (h2 : w.staking.dispenseRateTimestamp ≤ c.now)
    (h3 : w.staking.dispenseEarned + (c.now - w.staking.dispenseRateTimestamp) * w.staking.dispenseRate ≤ max256) :
    Runs (updateDispenseRate c r) w := by
  unfold updateDispenseRate
  refine Runs.bind (stakingOnlyOwner_ok.mpr ⟨h1, rfl⟩ : stakingOnlyOwner c w = .ok ((), w)) (Runs.bind (get_run _)
    (Runs.bind (sub256_run h2 _) (Runs.bind (mul256_ok.mpr ⟨by omega, rfl, rfl⟩) (Runs.bind (add256_run h3 _)
    (Runs.ok (modStaking_run _ _))))))

/-! ## Deposits and provers -/

theorem inc64_run {x : U64} (h : x.toNat + 1 < 2 ^ 64) (w : World) : inc64 x w = .ok (x + 1, w) := inc64_ok.mpr ⟨h, rfl, rfl⟩

theorem modVapp_run (f : VApp → VApp) (w : World) : modVapp f w = .ok ((), { w with vapp := f w.vapp }) := rfl

theorem createTransaction_run {v : TxVariant} {d : Bytes} {w : World} (h : w.vapp.currentOnchainTxId.toNat + 1 < 2 ^ 64) :
    Runs (createTransaction v d) w :=
  Runs.bind (get_run _) (Runs.bind (inc64_run h _) (Runs.bind (modVapp_run _ _) (Runs.pure _ _)))

theorem vappDepositFrom_run {cfg : Cfg} {f : Address} {v : U256} {w : World} (hc : cfg.WF) (hf : f ≠ 0)
    (h1 : w.vapp.minDepositAmount ≤ v.toNat) (h2 : w.vapp.currentOnchainTxId.toNat + 1 < 2 ^ 64)
    (h3 : v.toNat ≤ w.prove.bal f) (h4 : v.toNat ≤ w.prove.allow f cfg.vapp) : Runs (vappDepositFrom cfg f v) w := by
  unfold vappDepositFrom
  refine Runs.bind (get_run _) (Runs.bind (require_run h1 _ _) (Runs.step (createTransaction_run h2) fun id w1 g => ?_))
  obtain ⟨_, _, rfl⟩ := createTransaction_ok g
  refine Runs.step ?_ fun _ _ _ => Runs.pure _ _
  obtain ⟨t1, ht1⟩ := Erc20.spend_run hf hc.nonzero.2.2.2 h4
  obtain ⟨_, e1, _⟩ := Erc20.spend_ok ht1
  exact Runs.bind (onProve_run ht1) (Runs.ok (onProve_run (Erc20.transfer_run hf hc.nonzero.2.2.2 (by
    show v.toNat ≤ t1.bal _; rw [e1]; exact h3))))

end Verif
