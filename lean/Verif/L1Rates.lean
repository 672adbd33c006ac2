import Verif.L1Moves
/-
# Share prices never fall

`Rate P S P' S'`: the price `(P + 1) / (S + 1)` of a share (assets plus one over shares plus one, as the ERC4626
conversions use it) is at most `(P' + 1) / (S' + 1)`.
-/

namespace Verif
open L1

/-- `(P + 1) / (S + 1) ≤ (P' + 1) / (S' + 1)`, without division. -/
def Rate (P S P' S' : Nat) : Prop := (P + 1) * (S' + 1) ≤ (P' + 1) * (S + 1)

theorem Rate.refl (P S : Nat) : Rate P S P S := Nat.le_refl _

theorem Rate.trans {P S P' S' P'' S'' : Nat} (h : Rate P S P' S') (g : Rate P' S' P'' S'') : Rate P S P'' S'' := by
  unfold Rate at *
  refine Nat.le_of_mul_le_mul_left (c := (S' + 1) * (P' + 1)) ?_ (Nat.mul_pos (Nat.succ_pos _) (Nat.succ_pos _))
  calc (S' + 1) * (P' + 1) * ((P + 1) * (S'' + 1)) = ((P + 1) * (S' + 1)) * ((P' + 1) * (S'' + 1)) := by ac_rfl
    _ ≤ ((P' + 1) * (S + 1)) * ((P'' + 1) * (S' + 1)) := Nat.mul_le_mul h g
    _ = (S' + 1) * (P' + 1) * ((P'' + 1) * (S + 1)) := by ac_rfl

/-- More assets, same shares. -/
theorem Rate.up {P S P' : Nat} (h : P ≤ P') : Rate P S P' S := Nat.mul_le_mul_right _ (by omega)

/-- A deposit: shares minted rounded down. -/
theorem Rate.deposit {P S v n : Nat} (h : n = v * (S + 1) / (P + 1)) : Rate P S (P + v) (S + n) := by
  unfold Rate
  have h1 : n * (P + 1) ≤ v * (S + 1) := by rw [h]; exact Nat.div_mul_le_self _ _
  calc (P + 1) * (S + n + 1) = (P + 1) * (S + 1) + n * (P + 1) := by
        rw [show S + n + 1 = S + 1 + n by omega, Nat.mul_add, Nat.mul_comm n]
    _ ≤ (P + 1) * (S + 1) + v * (S + 1) := Nat.add_le_add_left h1 _
    _ = (P + v + 1) * (S + 1) := by rw [← Nat.add_mul]; congr 1; omega

/-- A redemption: assets paid rounded down. -/
theorem Rate.redeem {P S n v : Nat} (h : v = n * (P + 1) / (S + 1)) (hn : n ≤ S) (hv : v ≤ P) : Rate P S (P - v) (S - n) := by
  unfold Rate
  have h1 : v * (S + 1) ≤ n * (P + 1) := by rw [h]; exact Nat.div_mul_le_self _ _
  rw [show S - n + 1 = S + 1 - n by omega, show P - v + 1 = P + 1 - v by omega, Nat.mul_sub, Nat.sub_mul,
    Nat.mul_comm (P + 1) n]
  omega

/-- The price of $iPROVE in $PROVE. -/
def IRate (cfg : Cfg) (w w' : World) : Prop :=
  Rate (w.prove.bal cfg.iprove) w.iprove.supply (w'.prove.bal cfg.iprove) w'.iprove.supply

/-- The price of the shares of prover `p`'s vault in $iPROVE. -/
def VRate (p : Address) (w w' : World) : Prop :=
  Rate (w.iprove.bal p) (w.vault p).supply (w'.iprove.bal p) (w'.vault p).supply

theorem IRate.pre (cfg : Cfg) : Pre (IRate cfg) where
  refl _ := Rate.refl _ _
  trans _ _ _ h g := Rate.trans h g

/-- Taking $PROVE from a contract of the system moves nothing. -/
theorem Takes.system {cfg : Cfg} (hc : cfg.WF) {c : Ctx} {k : Call} {w : World} {f : Address} {v : Nat}
    (hi : ProveInv cfg w) (ha : Admissible cfg (c, k)) (hp : ∀ s p f v, k = .permitAndStake s p f v → p ≠ cfg.iprove)
    (h : Takes cfg c w k f v) (hf : cfg.System f) : v = 0 := by
  have hne : ∀ {s}, ¬ cfg.System s → s ≠ cfg.iprove := fun hs e => hs (Or.inr (Or.inl e))
  cases h with
  | transfer | burn | deposit | stake => exact absurd hf ha
  | transferFrom f to v h => rw [hi.allow _ _ hf (hne ha)] at h; omega
  | burnFrom f v h => rw [hi.allow _ _ hf (hne ha)] at h; omega
  | permitAndDeposit s f v h =>
    rcases h with rfl | h
    · exact absurd hf ha.2
    · have hd := hc.distinct
      simp at hd
      rw [hi.allow _ _ hf (Ne.symm hd.2.1.2)] at h
      exact h.symm
  | permitAndStake s p f v h =>
    rcases h with rfl | h
    · exact absurd hf ha.2
    · rw [hi.allow _ _ hf (hp _ _ _ _ rfl)] at h
      exact h.symm

theorem Takes.moves {cfg : Cfg} (hc : cfg.WF) {c : Ctx} {k : Call} {w : World} {f : Address} {v : Nat}
    (hi : ProveInv cfg w) (ha : Admissible cfg (c, k)) (hp : ∀ s p f v, k = .permitAndStake s p f v → p ≠ cfg.iprove)
    (h : Takes cfg c w k f v) (a : Address) (hs : cfg.System a) : f ≠ a ∨ v = 0 := by
  by_cases e : f = a
  · exact Or.inr (h.system hc hi ha hp (by rw [e]; exact hs))
  · exact Or.inl e

/-- `_processWithdraw` in one place: what it does to $PROVE and $iPROVE. -/
theorem processWithdraw_cases {cfg : Cfg} {c : Ctx} {to : Address} {n : Nat} {u : Unit} {w w' : World}
    (h : processWithdraw cfg c to n w = .ok (u, w')) :
    (∃ t, w.prove.transfer cfg.vapp to n = .ok t ∧ w' = { w with prove := t }) ∨
    (MayMove cfg w cfg.vapp 0 to ∧ ∃ i t1 t2 t3, i = n * (w.iprove.supply + 1) / (w.prove.bal cfg.iprove + 1) ∧
      w.prove.spend cfg.vapp cfg.iprove n = .ok t1 ∧ t1.transfer cfg.vapp cfg.iprove n = .ok t2 ∧
      w.iprove.mint to i = .ok t3 ∧ w' = { w with prove := t2, iprove := t3 }) := by
  simp only [processWithdraw, bind_ok, get_ok] at h
  obtain ⟨_, _, ⟨rfl, rfl⟩, h⟩ := h
  split at h
  · simp only [bind_ok, pure_ok] at h
    obtain ⟨i, _, h, _, rfl⟩ := h
    obtain ⟨hi, hm, t1, t2, t3, h1, h2, h3, _, rfl⟩ := iproveDeposit_ok h
    exact Or.inr ⟨hm, i, t1, t2, t3, hi, h1, h2, h3, rfl⟩
  · obtain ⟨t, g, rfl⟩ := proveTransfer_ok h
    exact Or.inl ⟨t, g, rfl⟩

/-- A relation that withdrawals keep and that reads only the tokens is kept by the receipts of a step. -/
theorem handleReceipts_rel {cfg : Cfg} {c : Ctx} {R : World → World → Prop} (hR : Pre R)
    (hv : ∀ (w : World) (v : VApp), R w { w with vapp := v })
    (hw : ∀ to n, Within R (processWithdraw cfg c to n)) (rs : List SolReceipt) : Within R (handleReceipts cfg c rs) := by
  induction rs with
  | nil => exact Within.pure hR ()
  | cons r rs ih =>
    unfold handleReceipts
    split
    · refine Within.bind hR ?_ (fun _ => ih)
      intro w u w' h
      obtain ⟨_, _, _, _, _, rfl⟩ := handleOnchain_ok h
      exact hv _ _
    · refine Within.bind hR ?_ (fun _ => ih)
      intro w u w' h
      rcases handleOffchain_cases h with ⟨_, rfl⟩ | ⟨_, _, d, _, h⟩
      · exact hR.refl _
      · exact hw _ _ _ _ _ h

theorem vappStep_rel {cfg : Cfg} {c : Ctx} {R : World → World → Prop} (hR : Pre R)
    (hv : ∀ (w : World) (v : VApp), R w { w with vapp := v })
    (hw : ∀ to n, Within R (processWithdraw cfg c to n)) {pv pr : Bytes} {x : U64 × B256 × B256} {w w' : World}
    (h : vappStep cfg c pv pr w = .ok (x, w')) : R w w' := by
  obtain ⟨_, _, _, v, _, _, _, _, _, _, _, _, hh⟩ := vappStep_ok h
  exact hR.trans _ _ _ (hv _ _) (handleReceipts_rel hR hv hw _ _ _ _ hh)

theorem processWithdraw_irate {cfg : Cfg} (hc : cfg.WF) {c : Ctx} (to : Address) (n : Nat) :
    Within (IRate cfg) (processWithdraw cfg c to n) := by
  have hne : cfg.vapp ≠ cfg.iprove := by have := hc.distinct; simp at this; exact Ne.symm this.2.1.2
  intro w u w' h
  rcases processWithdraw_cases h with ⟨t, g, rfl⟩ | ⟨_, i, t1, t2, t3, hi, g1, g2, g3, rfl⟩
  · exact Rate.up (Erc20.transfer_keeps g (Or.inl hne))
  · obtain ⟨_, _, e, _⟩ := Erc20.transfer_bal g2 hne
    obtain ⟨_, _, rfl⟩ := Erc20.mint_ok g3
    show Rate _ _ (t2.bal cfg.iprove) (w.iprove.supply + i)
    rw [e, (Erc20.spend_ok g1).2.1]
    exact Rate.deposit hi

theorem StakeEffect.irate {cfg : Cfg} (hc : cfg.WF) {s p : Address} {v n : Nat} {w w' : World}
    (h : StakeEffect cfg s p v n w w') : IRate cfg w w' := by
  have hne : cfg.staking ≠ cfg.iprove := by have := hc.distinct; simp at this; exact Ne.symm this.2.1.1
  obtain ⟨_, _, _, _, _, p1, p2, i, i1, i2, i3, v1, s1, hi, _, _, _, a1, a2, a3, a4, a5, _, _, rfl⟩ := h
  obtain ⟨_, _, e, _⟩ := Erc20.transfer_bal a2 hne
  have hs : i3.supply = w.iprove.supply + i := by
    obtain ⟨_, _, _, rfl⟩ := Erc20.transfer_ok a5
    show i2.supply = _
    have : i2.supply = i1.supply := by
      rcases a4 with rfl | a4
      · rfl
      · exact (Erc20.spend_ok a4).2.2.1
    rw [this]
    obtain ⟨_, _, rfl⟩ := Erc20.mint_ok a3
    rfl
  show Rate _ _ (p2.bal cfg.iprove) i3.supply
  rw [e, hs, (Erc20.spend_ok a1).2.1]
  exact Rate.deposit hi

/-- A payout of `finishUnstake`. -/
theorem PayStep.irate {cfg : Cfg} {c : Ctx} {staker prover : Address} {i n : Nat} {claim : UnstakeClaim} {w w' : World}
    (h : PayStep cfg c staker prover i n claim w w') (hb : w.iprove.Balanced) (hs : staker ≠ cfg.iprove) :
    IRate cfg w w' := by
  obtain ⟨_, _, h⟩ := h
  obtain ⟨_, pay, _, hle, h⟩ := finishUnstakeRequest_ok h
  rcases h with ⟨_, _, rfl⟩ | ⟨_, hb', hn, i0, i1, p1, a1, a2, a3, rfl⟩
  · exact Rate.refl _ _
  · obtain ⟨hv, e, _⟩ := Erc20.transfer_bal a3 (Ne.symm hs)
    have h0 : i0.supply = w.iprove.supply := by
      rcases a1 with rfl | a1
      · rfl
      · exact (Erc20.spend_ok a1).2.2.1
    obtain ⟨_, _, rfl⟩ := Erc20.burn_ok a2
    show Rate _ _ (p1.bal cfg.iprove) (i0.supply - pay)
    rw [e, h0]
    exact Rate.redeem hn (Nat.le_trans hb' (HasSum.le hb _)) hv

theorem PayStep.balanced {cfg : Cfg} {c : Ctx} {staker prover : Address} {i n : Nat} {claim : UnstakeClaim} {w w' : World}
    (h : PayStep cfg c staker prover i n claim w w') (hb : w.iprove.Balanced) : w'.iprove.Balanced := by
  obtain ⟨_, _, h⟩ := h
  obtain ⟨_, pay, _, hle, h⟩ := finishUnstakeRequest_ok h
  rcases h with ⟨_, _, rfl⟩ | ⟨_, hb', hn, i0, i1, p1, a1, a2, a3, rfl⟩
  · exact hb
  · refine Erc20.Balanced.burn ?_ a2
    rcases a1 with rfl | a1
    · exact hb
    · exact Erc20.Balanced.spend hb a1

/-- The tail of `finishUnstake` moves no tokens. -/
theorem finishTail_tokens (s p : Address) (w : World) :
    (finishTail s p w).prove = w.prove ∧ (finishTail s p w).iprove = w.iprove ∧ (finishTail s p w).vault = w.vault ∧
    (finishTail s p w).st = w.st := by
  unfold finishTail; dsimp only
  split <;> split <;> exact ⟨rfl, rfl, rfl, rfl⟩

theorem SlashEffect.irate {cfg : Cfg} {p : Address} {t x : Nat} {w w' : World} (h : SlashEffect cfg p t x w w')
    (hb : w.iprove.Balanced) : IRate cfg w w' := by
  obtain ⟨_, fe, fv, pr, ip, f, _, _, _, _, ⟨i1, h1, h2, p1, h3, h4⟩, _, rfl⟩ := h
  have g1 : Rate (w.prove.bal cfg.iprove) w.iprove.supply (p1.bal cfg.iprove) i1.supply ∧ i1.Balanced := by
    split at h1
    · rename_i e
      rw [if_pos e] at h3
      subst h1 h3
      exact ⟨Rate.refl _ _, hb⟩
    · rename_i e
      rw [if_neg e] at h3
      refine ⟨?_, hb.burn h1⟩
      obtain ⟨_, hv, rfl⟩ := Erc20.burn_ok h1
      obtain ⟨_, hv', rfl⟩ := Erc20.burn_ok h3
      dsimp only
      rw [upd_same]
      exact Rate.redeem rfl (Nat.le_trans hv (HasSum.le hb _)) hv'
  have g2 : Rate (p1.bal cfg.iprove) i1.supply (pr.bal cfg.iprove) ip.supply := by
    split at h2
    · rename_i e
      rw [if_pos e] at h4
      subst h2 h4
      exact Rate.refl _ _
    · rename_i e
      rw [if_neg e] at h4
      have hb1 := g1.2
      obtain ⟨_, hv, rfl⟩ := Erc20.burn_ok h2
      obtain ⟨_, hv', rfl⟩ := Erc20.burn_ok h4
      dsimp only
      rw [upd_same]
      exact Rate.redeem rfl (Nat.le_trans hv (HasSum.le hb1 _)) hv'
  exact g1.1.trans g2

/-- No call lowers the price of $iPROVE. -/
theorem exec_irate {cfg : Cfg} (hc : cfg.WF) {c : Ctx} {k : Call} {w w' : World} (hi : StakingInv cfg w)
    (hp : ProveInv cfg w) (ha : Admissible cfg (c, k)) (h : exec cfg c k w = .ok ((), w')) : IRate cfg w w' := by
  have hd := hc.distinct
  simp at hd
  have hsys : cfg.System cfg.iprove := Or.inr (Or.inl rfl)
  cases exec_flow hi.reg ha h with
  | other e1 e2 e3 => unfold IRate; rw [e1, e3.supply]; exact Rate.refl _ _
  | move f to v t hk h1 h2 h3 h4 e1 e2 g e3 =>
    unfold IRate
    rw [e3.supply, ← e1]
    exact Rate.up (Erc20.transfer_keeps g (hk.moves hc hp ha (fun _ _ _ _ e => absurd e (h2 _ _ _ _)) _ hsys))
  | mint to v hk ho g e3 =>
    unfold IRate
    rw [e3.supply]
    exact Rate.up (Erc20.mint_keeps g)
  | burn f v t hk hb e1 e2 g e3 =>
    unfold IRate
    rw [e3.supply, ← e1]
    refine Rate.up (Erc20.burn_keeps g (hk.moves hc hp ha (fun _ _ _ _ e => ?_) _ hsys))
    rcases hb with hb | hb <;> rw [hb] at e <;> exact nomatch e
  | stake f p v n t t2 hk hs hreg e1 e2 g he =>
    refine Rate.trans (P' := t2.bal cfg.iprove) (S' := w.iprove.supply) ?_ (he.irate hc)
    rw [← e1]
    refine Rate.up (Erc20.transfer_keeps g (hk.moves hc hp ha (fun _ q _ _ e => ?_) _ hsys))
    rcases hs with ⟨hs, _⟩ | ⟨s, hs⟩
    · rw [hs] at e; exact nomatch e
    · rw [hs] at e
      injection e with _ e
      rw [← e]
      exact (hi.reg.ne hc hreg).2.2.1
  | requestUnstake v hk g =>
    obtain ⟨_, _, _, _, _, p, esc, s1, v1, i1, _, _, _, _, _, a1, _, rfl⟩ := requestUnstake_ok g
    obtain ⟨_, _, _, rfl⟩ := Erc20.transfer_ok a1
    exact Rate.refl _ _
  | finishUnstake s n hk g =>
    obtain ⟨g1, _, _, w1, hl, rfl⟩ := finishUnstake_ok g
    have hs : s ≠ cfg.iprove := by rintro rfl; exact g1 (hi.outside _ hsys)
    have := finishLoop_rel (R := fun w w' => w.iprove.Balanced → w'.iprove.Balanced ∧ IRate cfg w w')
      ⟨fun _ h => ⟨h, Rate.refl _ _⟩, fun _ _ _ h1 h2 h =>
        ⟨(h2 (h1 h).1).1, Rate.trans (h1 h).2 (h2 (h1 h).1).2⟩⟩
      (fun _ _ _ _ _ h hb => ⟨h.balanced hb, h.irate hb hs⟩) _ _ _ _ _ _ hl hi.stake.iprove
    obtain ⟨e1, e2, _⟩ := finishTail_tokens s (w.staking.stakerToProver s) w1
    unfold IRate
    rw [e1, e2]
    exact this.2
  | finishSlash p i n hk g =>
    obtain ⟨_, _, claim, _, _, _, w1, g1, g2⟩ := finishSlash_ok g
    have hk : IRate cfg w w1 := by
      split at g1
      · rw [g1]; exact Rate.refl _ _
      · exact g1.irate hi.stake.iprove
    rcases g2 with ⟨rfl, _⟩ | ⟨_, _, _, rfl⟩ <;> exact hk
  | step pv pr x hk g =>
    exact vappStep_rel (IRate.pre cfg) (fun _ _ => Rate.refl _ _) (processWithdraw_irate hc) g
  | dispense v a hk hd' g e3 =>
    unfold IRate
    rw [e3.supply]
    exact Rate.up (Erc20.transfer_keeps g (Or.inl (Ne.symm hd.2.1.1)))

/-- What a call does to prover `p`'s vault: nothing; or its $iPROVE grows (a withdrawal to the prover, counted as
reward); or a stake mints shares rounded down; or one of its stakers redeems shares rounded down; or it is slashed. -/
inductive VaultFlow (cfg : Cfg) (c : Ctx) (k : Call) (p : Address) (w w' : World) : Prop
  | reward (h : w.iprove.bal p ≤ w'.iprove.bal p) (e : (w'.vault p).supply = (w.vault p).supply)
  | stake (i n : Nat) (hn : n = i * ((w.vault p).supply + 1) / (w.iprove.bal p + 1))
      (h : w'.iprove.bal p = w.iprove.bal p + i) (e : (w'.vault p).supply = (w.vault p).supply + n)
      (hd : w'.staking.deactivatedProvers p = false)
  | unstake (v : U256) (i : Nat) (hk : k = .requestUnstake v) (hp : w.staking.stakerToProver c.sender = p)
      (hi : i = v.toNat * (w.iprove.bal p + 1) / ((w.vault p).supply + 1)) (h0 : i ≤ w.iprove.bal p)
      (h1 : v.toNat ≤ (w.vault p).supply)
      (h : w'.iprove.bal p = w.iprove.bal p - i) (e : (w'.vault p).supply = (w.vault p).supply - v.toNat)
  | slash (i : U256) (hk : k = .finishSlash p i) (ho : c.sender = w.staking.owner)
      (e : (w'.vault p).supply = (w.vault p).supply)

theorem VaultFlow.same {cfg : Cfg} {c : Ctx} {k : Call} {p : Address} {w w' : World} (h : SameShares w w')
    (hp : w.staking.provers p = true) : VaultFlow cfg c k p w w' :=
  .reward (by rw [h.bal]; exact Nat.le_refl _) (h.vault p hp).1

/-- The $iPROVE of a vault and its shares. -/
def VaultSame (p : Address) (w w' : World) : Prop :=
  w.iprove.bal p ≤ w'.iprove.bal p ∧ (w'.vault p).supply = (w.vault p).supply

theorem VaultSame.pre (p : Address) : Pre (VaultSame p) where
  refl _ := ⟨Nat.le_refl _, rfl⟩
  trans _ _ _ h g := ⟨Nat.le_trans h.1 g.1, g.2.trans h.2⟩

theorem PayStep.vault {cfg : Cfg} {c : Ctx} {staker prover p : Address} {i n : Nat} {claim : UnstakeClaim} {w w' : World}
    (h : PayStep cfg c staker prover i n claim w w') (hp : p ≠ cfg.staking) : VaultSame p w w' := by
  obtain ⟨_, _, h⟩ := h
  obtain ⟨_, pay, _, hle, h⟩ := finishUnstakeRequest_ok h
  rcases h with ⟨_, _, rfl⟩ | ⟨_, hb', hn, i0, i1, p1, a1, a2, a3, rfl⟩
  · exact ⟨Nat.le_refl _, rfl⟩
  · refine ⟨?_, rfl⟩
    have h0 : i0.bal = w.iprove.bal := by
      rcases a1 with rfl | a1
      · rfl
      · exact (Erc20.spend_ok a1).2.1
    show w.iprove.bal p ≤ i1.bal p
    rw [← h0]
    exact Erc20.burn_keeps a2 (Or.inl (Ne.symm hp))

theorem SlashEffect.vault {cfg : Cfg} {p q : Address} {t x : Nat} {w w' : World} (h : SlashEffect cfg q t x w w')
    (hp : p ≠ cfg.staking) (hq : p ≠ q) : VaultSame p w w' := by
  obtain ⟨_, fe, fv, pr, ip, f, _, _, _, _, ⟨i1, h1, h2, p1, h3, h4⟩, _, rfl⟩ := h
  refine ⟨Nat.le_trans (m := i1.bal p) ?_ ?_, rfl⟩
  · split at h1
    · rw [h1]; exact Nat.le_refl _
    · exact Erc20.burn_keeps h1 (Or.inl (Ne.symm hp))
  · show _ ≤ ip.bal p
    split at h2
    · rw [h2]; exact Nat.le_refl _
    · exact Erc20.burn_keeps h2 (Or.inl (Ne.symm hq))

theorem exec_vault {cfg : Cfg} (hc : cfg.WF) {c : Ctx} {k : Call} {w w' : World} (hi : StakingInv cfg w)
    (ha : Admissible cfg (c, k)) (h : exec cfg c k w = .ok ((), w')) {p : Address}
    (hp : w.staking.provers p = true) : VaultFlow cfg c k p w w' := by
  have hps : p ≠ cfg.staking := (hi.reg.ne hc hp).2.2.2.1
  cases exec_flow hi.reg ha h with
  | other e1 e2 e3 => exact .same e3 hp
  | move f to v t hk h1 h2 h3 h4 e1 e2 g e3 => exact .same e3 hp
  | mint to v hk ho g e3 => exact .same e3 hp
  | burn f v t hk hb e1 e2 g e3 => exact .same e3 hp
  | dispense v a hk hd' g e3 => exact .same e3 hp
  | stake f q v n t t2 hk hs hreg e1 e2 g he =>
    obtain ⟨_, _, hact, _, _, p1, p2, i, i1, i2, i3, v1, s1, _, _, hn, _, a1, a2, a3, a4, a5, a6, _, rfl⟩ := he
    have hqs : q ≠ cfg.staking := (hi.reg.ne hc hreg).2.2.2.1
    have b2 : i2.bal = i1.bal := by
      rcases a4 with rfl | a4
      · rfl
      · exact (Erc20.spend_ok a4).2.1
    obtain ⟨_, _, c1, c2, _⟩ := Erc20.transfer_bal a5 (Ne.symm hqs)
    have b1 : ∀ a, a ≠ cfg.staking → i1.bal a = w.iprove.bal a := by
      intro a ha'
      obtain ⟨_, _, rfl⟩ := Erc20.mint_ok a3
      exact upd_ne _ _ ha'
    by_cases e : p = q
    · subst e
      refine .stake i n ?_ ?_ ?_ hact
      · rw [← b1 p hps]; exact hn
      · show i3.bal p = _
        rw [c1, b2, b1 p hps]
      · show (upd w.vault p v1 p).supply = _
        rw [upd_same]
        obtain ⟨_, _, rfl⟩ := Erc20.mint_ok a6
        rfl
    · refine .reward (Nat.le_of_eq ?_) ?_
      · show _ = i3.bal p
        rw [c2 p hps e, b2, b1 p hps]
      · show (upd w.vault q v1 p).supply = _
        rw [upd_ne _ _ e]
  | requestUnstake v hk g =>
    obtain ⟨_, hs0, _, _, _, q, esc, s1, v1, i1, hq, hv, hesc, _, a0, a1, _, rfl⟩ := requestUnstake_ok g
    have hreg := hi.stake.staked _ hs0
    rw [← hq] at hreg
    have hqs : q ≠ cfg.staking := (hi.reg.ne hc hreg).2.2.2.1
    obtain ⟨c0, c1, c2, c3, _⟩ := Erc20.transfer_bal a1 hqs
    by_cases e : p = q
    · subst e
      refine .unstake v esc hk hq.symm hesc c0 ?_ c1 ?_
      · rw [← hi.stake.vbal p hp]; exact hv
      · show (upd w.vault p v1 p).supply = _
        rw [upd_same]
        obtain ⟨_, _, rfl⟩ := Erc20.burn_ok a0
        rfl
    · refine .reward (Nat.le_of_eq (c3 p e hps).symm) ?_
      show (upd w.vault q v1 p).supply = _
      rw [upd_ne _ _ e]
  | finishUnstake s n hk g =>
    obtain ⟨g1, _, _, w1, hl, rfl⟩ := finishUnstake_ok g
    have := finishLoop_rel (VaultSame.pre p) (fun _ _ _ _ _ h => h.vault hps) _ _ _ _ _ _ hl
    obtain ⟨_, e2, e3, _⟩ := finishTail_tokens s (w.staking.stakerToProver s) w1
    exact .reward (by rw [e2]; exact this.1) (by rw [e3]; exact this.2)
  | finishSlash q i n hk g =>
    by_cases e : p = q
    · subst e
      obtain ⟨_, _, _, _, _, _, _, rfl⟩ := finishSlash_shape g
      exact .slash i hk (finishSlash_ok g).1 rfl
    · obtain ⟨_, _, claim, _, _, _, w1, g1, g2⟩ := finishSlash_ok g
      have hk : VaultSame p w w1 := by
        split at g1
        · rw [g1]; exact (VaultSame.pre p).refl _
        · exact g1.vault hps e
      rcases g2 with ⟨rfl, _⟩ | ⟨_, _, _, rfl⟩ <;> exact .reward hk.1 hk.2
  | step pv pr x hk g =>
    have := vappStep_rel (VaultSame.pre p) (fun w _ => ⟨Nat.le_refl _, rfl⟩) (fun to n w u w' h => by
      rcases processWithdraw_cases h with ⟨t, g, rfl⟩ | ⟨_, i, t1, t2, t3, hi, g1, g2, g3, rfl⟩
      · exact ⟨Nat.le_refl _, rfl⟩
      · exact ⟨Erc20.mint_keeps g3, rfl⟩) g
    exact .reward this.1 this.2

/-- No call but a slash of `p` lowers the price of shares of `p`'s vault. -/
theorem VaultFlow.rate {cfg : Cfg} {c : Ctx} {k : Call} {p : Address} {w w' : World} (h : VaultFlow cfg c k p w w')
    (hk : ∀ i, k ≠ .finishSlash p i) : VRate p w w' := by
  unfold VRate
  cases h with
  | reward h e => rw [e]; exact Rate.up h
  | stake i n hn h e => rw [h, e]; exact Rate.deposit hn
  | unstake v i _ _ hi h0 h1 h e => rw [h, e]; exact Rate.redeem hi h1 h0
  | slash i h => exact absurd h (hk i)

end Verif
