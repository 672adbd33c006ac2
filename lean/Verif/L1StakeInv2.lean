import Verif.L1StakeInv
/-
# The accounting invariant of the staking contract
-/

namespace Verif
open L1

theorem Erc20.transfer_bal {t t' : Erc20} {f to : Address} {v : Nat} (h : t.transfer f to v = .ok t') (hne : f ≠ to) :
    v ≤ t.bal f ∧ t'.bal f = t.bal f - v ∧ t'.bal to = t.bal to + v ∧ (∀ a, a ≠ f → a ≠ to → t'.bal a = t.bal a) ∧
    t'.supply = t.supply ∧ t'.allow = t.allow := by
  obtain ⟨_, _, hv, rfl⟩ := transfer_ok h
  refine ⟨hv, ?_, ?_, ?_, rfl, rfl⟩ <;> dsimp only
  · rw [upd_ne _ _ hne, upd_same]
  · rw [upd_same, upd_ne _ _ (Ne.symm hne)]
  · intro a h1 h2
    rw [upd_ne _ _ h2, upd_ne _ _ h1]

/-- The accounting invariant. -/
structure StakeInv (cfg : Cfg) (w : World) : Prop where
  escrow : HasSum (fun p => (w.staking.escrowPools p).iPROVEEscrow) (w.iprove.bal cfg.staking)
  held : ∀ a, a ≠ cfg.staking → w.staking.provers a = false → w.iprove.bal a = 0
  pool0 : ∀ p, w.staking.provers p = false → w.staking.escrowPools p = ⟨0, 0⟩
  vbal : ∀ p, w.staking.provers p = true → (w.vault p).bal cfg.staking = (w.vault p).supply
  vother : ∀ p, w.staking.provers p = true → ∀ a, a ≠ cfg.staking → (w.vault p).bal a = 0
  vstake : ∀ p, w.staking.provers p = true →
    HasSum (fun a => if w.staking.stakerToProver a = p then w.st.bal a else 0) (w.vault p).supply
  vtotal : HasSum (fun p => if w.staking.provers p = true then (w.vault p).supply else 0) w.st.supply
  st : w.st.Balanced
  iprove : w.iprove.Balanced
  unstaked : ∀ a, w.staking.stakerToProver a = 0 → w.st.bal a = 0 ∧ w.staking.unstakeClaims a = []
  staked : ∀ a, w.staking.stakerToProver a ≠ 0 → w.staking.provers (w.staking.stakerToProver a) = true

/-- The invariant reads only these parts of the world. -/
theorem StakeInv.congr {cfg : Cfg} {w w' : World} (h : StakeInv cfg w) (e1 : w'.iprove = w.iprove)
    (e2 : w'.vault = w.vault) (e3 : w'.st = w.st) (e4 : w'.staking.escrowPools = w.staking.escrowPools)
    (e5 : w'.staking.stakerToProver = w.staking.stakerToProver)
    (e6 : w'.staking.unstakeClaims = w.staking.unstakeClaims) (e7 : w'.staking.provers = w.staking.provers) :
    StakeInv cfg w' := by
  constructor
  · rw [e4, e1]; exact h.escrow
  · rw [e7, e1]; exact h.held
  · rw [e7, e4]; exact h.pool0
  · rw [e7, e2]; exact h.vbal
  · rw [e7, e2]; exact h.vother
  · rw [e7, e2, e5, e3]; exact h.vstake
  · rw [e7, e2, e3]; exact h.vtotal
  · rw [e3]; exact h.st
  · rw [e1]; exact h.iprove
  · rw [e5, e3, e6]; exact h.unstaked
  · rw [e5, e7]; exact h.staked

theorem StakeInv.quiet {cfg : Cfg} (hc : cfg.WF) {w w' : World} (hr : Registry cfg w) (h : StakeInv cfg w) (q : Quiet w w') :
    StakeInv cfg w' := by
  have hs : w.staking.provers cfg.staking = false := by
    cases hp : w.staking.provers cfg.staking with
    | false => rfl
    | true => exact absurd rfl (hr.ne hc hp).2.2.2.1
  constructor
  · rw [q.staking, q.iprove_other _ hs]; exact h.escrow
  · intro a ha hp
    rw [q.staking] at hp
    rw [q.iprove_other _ hp]; exact h.held a ha hp
  · rw [q.staking]; exact h.pool0
  · intro p hp
    rw [q.staking] at hp
    rw [q.vault_bal, q.vault_supply]; exact h.vbal p hp
  · intro p hp a ha
    rw [q.staking] at hp
    rw [q.vault_bal]; exact h.vother p hp a ha
  · intro p hp
    rw [q.staking] at hp ⊢
    rw [q.st_bal, q.vault_supply]; exact h.vstake p hp
  · rw [q.staking, q.st_supply]
    exact h.vtotal.congr fun p => by rw [q.vault_supply]
  · unfold Erc20.Balanced; rw [q.st_bal, q.st_supply]; exact h.st
  · exact q.iprove_balanced h.iprove
  · rw [q.staking, q.st_bal]; exact h.unstaked
  · rw [q.staking]; exact h.staked

theorem upd_map {κ α β : Type} [DecidableEq κ] (g : α → β) (f : κ → α) (k : κ) (v : α) (x : κ) :
    g (upd f k v x) = upd (fun a => g (f a)) k (g v) x := by
  by_cases h : x = k
  · rw [h, upd_same, upd_same]
  · rw [upd_ne _ _ h, upd_ne _ _ h]

theorem StakeInv.stake {cfg : Cfg} (hc : cfg.WF) {staker prover : Address} {amount n : Nat} {w w' : World}
    (hr : Registry cfg w) (h : StakeInv cfg w) (hp : w.staking.provers prover = true)
    (he : StakeEffect cfg staker prover amount n w w') : StakeInv cfg w' := by
  obtain ⟨_, _, _, _, hone, p1, p2, i, i1, i2, i3, v1, s1, _, _, _, _, _, _, a1, a2, a3, a4, a5, rfl⟩ := he
  have hne : cfg.staking ≠ prover := Ne.symm (hr.ne hc hp).2.2.2.1
  have hp0 : prover ≠ 0 := (hr.ne hc hp).1
  have hib : i3.Balanced := by
    have b1 := h.iprove.mint a1
    have b2 : i2.Balanced := by
      rcases a2 with rfl | a2
      · exact b1
      · exact b1.spend a2
    exact b2.transfer a3
  obtain ⟨_, b1, b2, b3, b4, _⟩ := Erc20.transfer_bal a3 hne
  obtain ⟨c1, c2⟩ := iproveSpend_bal a2
  obtain ⟨_, _, rfl⟩ := Erc20.mint_ok a1
  rw [c1] at b1 b2 b3
  dsimp only at b1 b2 b3
  rw [upd_same, Nat.add_sub_cancel] at b1
  rw [upd_ne _ _ (Ne.symm hne)] at b2
  have hsb : s1.Balanced := h.st.mint a5
  obtain ⟨_, _, rfl⟩ := Erc20.mint_ok a4
  obtain ⟨_, _, rfl⟩ := Erc20.mint_ok a5
  -- the staker's $stPROVE is already attached to the prover, or zero
  have hold : (if w.staking.stakerToProver staker = prover then w.st.bal staker else 0) = w.st.bal staker := by
    split
    · rfl
    · rename_i hx
      exact ((h.unstaked staker (hone.resolve_right hx)).1).symm
  constructor <;> dsimp only
  · rw [b1]; exact h.escrow
  · intro a ha hpa
    rw [b3 a ha (by rintro rfl; rw [hp] at hpa; exact nomatch hpa), upd_ne _ _ ha]
    exact h.held a ha hpa
  · exact h.pool0
  · intro q hq
    by_cases e : q = prover
    · rw [e, upd_same]; dsimp only
      rw [upd_same, h.vbal prover hp]
    · rw [upd_ne _ _ e]; exact h.vbal q hq
  · intro q hq a ha
    by_cases e : q = prover
    · rw [e, upd_same]; dsimp only
      rw [upd_ne _ _ ha]; exact h.vother prover hp a ha
    · rw [upd_ne _ _ e]; exact h.vother q hq a ha
  · intro q hq
    by_cases e : q = prover
    · rw [e, upd_same]; dsimp only
      refine ((h.vstake prover hp).update staker (w.st.bal staker + n) (m := (w.vault prover).supply + n) ?_).congr ?_
      · rw [hold]; omega
      · intro a
        by_cases ea : a = staker
        · simp [ea, upd_same]
        · simp only [upd_ne _ _ ea]
    · rw [upd_ne _ _ e]
      refine (h.vstake q hq).congr ?_
      intro a
      by_cases ea : a = staker
      · simp only [ea, upd_same]
        rw [if_neg (Ne.symm e), if_neg]
        rcases hone with h0 | h0
        · rw [h0]; exact Ne.symm (hr.ne hc hq).1
        · rw [h0]; exact Ne.symm e
      · simp only [upd_ne _ _ ea]
  · refine (h.vtotal.update prover ((w.vault prover).supply + n) (m := w.st.supply + n) ?_).congr ?_
    · rw [if_pos hp]; omega
    · intro q
      by_cases e : q = prover
      · rw [e, if_pos hp, upd_same, upd_same]
      · rw [upd_ne _ _ e, upd_ne _ _ e]
  · exact hsb
  · exact hib
  · intro a ha
    by_cases ea : a = staker
    · rw [ea, upd_same] at ha; exact absurd ha hp0
    · rw [upd_ne _ _ ea] at ha ⊢; exact h.unstaked a ha
  · intro a ha
    by_cases ea : a = staker
    · rw [ea, upd_same]; exact hp
    · rw [upd_ne _ _ ea] at ha ⊢; exact h.staked a ha

theorem StakeInv.unstake {cfg : Cfg} (hc : cfg.WF) {c : Ctx} {st : Nat} {w w' : World} {u : Unit}
    (hr : Registry cfg w) (h : StakeInv cfg w) (he : requestUnstake cfg c st w = .ok (u, w')) : StakeInv cfg w' := by
  obtain ⟨_, h2, _, _, h5, p, esc, s1, v1, i1, hpe, b0, _, b1, b2, b3, _, rfl⟩ := requestUnstake_ok he
  have hp : w.staking.provers p = true := by rw [hpe]; exact h.staked _ h2
  have hne : p ≠ cfg.staking := (hr.ne hc hp).2.2.2.1
  have hib := h.iprove.transfer b3
  have hsb := h.st.burn b1
  obtain ⟨c0, c1, c2, c3, _, _⟩ := Erc20.transfer_bal b3 hne
  obtain ⟨_, _, rfl⟩ := Erc20.burn_ok b1
  obtain ⟨_, _, rfl⟩ := Erc20.burn_ok b2
  have hsup := h.vbal p hp
  constructor <;> dsimp only
  · rw [c2]
    refine (h.escrow.update p ((w.staking.escrowPools p).iPROVEEscrow + esc)
      (m := w.iprove.bal cfg.staking + esc) (by omega)).congr fun q => ?_
    rw [upd_map EscrowPool.iPROVEEscrow]
  · intro a ha hpa
    rw [c3 a (by rintro rfl; rw [hp] at hpa; exact nomatch hpa) ha]
    exact h.held a ha hpa
  · intro q hq
    rw [upd_ne _ _ (by rintro rfl; rw [hp] at hq; exact nomatch hq)]
    exact h.pool0 q hq
  · intro q hq
    by_cases e : q = p
    · rw [e, upd_same]; dsimp only
      rw [upd_same, h.vbal p hp]
    · rw [upd_ne _ _ e]; exact h.vbal q hq
  · intro q hq a ha
    by_cases e : q = p
    · rw [e, upd_same]; dsimp only
      rw [upd_ne _ _ ha]; exact h.vother p hp a ha
    · rw [upd_ne _ _ e]; exact h.vother q hq a ha
  · intro q hq
    by_cases e : q = p
    · rw [e, upd_same]; dsimp only
      refine ((h.vstake p hp).update c.sender (w.st.bal c.sender - st) (m := (w.vault p).supply - st) ?_).congr ?_
      · rw [if_pos hpe.symm]; omega
      · intro a
        by_cases ea : a = c.sender
        · rw [ea, upd_same, upd_same, if_pos hpe.symm]
        · rw [upd_ne _ _ ea, upd_ne _ _ ea]
    · rw [upd_ne _ _ e]
      refine (h.vstake q hq).congr ?_
      intro a
      by_cases ea : a = c.sender
      · rw [ea, ← hpe, if_neg (Ne.symm e), if_neg (Ne.symm e)]
      · rw [upd_ne _ _ ea]
  · refine (h.vtotal.update p ((w.vault p).supply - st) (m := w.st.supply - st) ?_).congr ?_
    · have := HasSum.le h.st c.sender
      rw [if_pos hp]; omega
    · intro q
      by_cases e : q = p
      · rw [e, if_pos hp, upd_same, upd_same]
      · rw [upd_ne _ _ e, upd_ne _ _ e]
  · exact hsb
  · exact hib
  · intro a ha
    by_cases ea : a = c.sender
    · rw [ea] at ha; exact absurd ha h2
    · rw [upd_ne _ _ ea, upd_ne _ _ ea]; exact h.unstaked a ha
  · exact h.staked

/-- What paying claims may do: the escrow of one prover pays out. -/
structure PayRel (cfg : Cfg) (staker prover : Address) (w w' : World) : Prop where
  vault : w'.vault = w.vault
  st : w'.st = w.st
  provers : w'.staking.provers = w.staking.provers
  s2p : w'.staking.stakerToProver = w.staking.stakerToProver
  claims : ∀ a, a ≠ staker → w'.staking.unstakeClaims a = w.staking.unstakeClaims a
  pools : ∀ p, p ≠ prover → w'.staking.escrowPools p = w.staking.escrowPools p
  factor : (w'.staking.escrowPools prover).slashFactor = (w.staking.escrowPools prover).slashFactor
  escrow : ∃ d, (w'.staking.escrowPools prover).iPROVEEscrow + d = (w.staking.escrowPools prover).iPROVEEscrow ∧
    w'.iprove.bal cfg.staking + d = w.iprove.bal cfg.staking
  iprove : ∀ a, a ≠ cfg.staking → w'.iprove.bal a = w.iprove.bal a
  balanced : w.iprove.Balanced → w'.iprove.Balanced

theorem PayRel.pre (cfg : Cfg) (staker prover : Address) : Pre (PayRel cfg staker prover) where
  refl w := ⟨rfl, rfl, rfl, rfl, fun _ _ => rfl, fun _ _ => rfl, rfl, ⟨0, rfl, rfl⟩, fun _ _ => rfl, id⟩
  trans _ _ _ h g := by
    obtain ⟨d, d1, d2⟩ := h.escrow
    obtain ⟨e, e1, e2⟩ := g.escrow
    exact ⟨g.vault.trans h.vault, g.st.trans h.st, g.provers.trans h.provers, g.s2p.trans h.s2p,
      fun a ha => (g.claims a ha).trans (h.claims a ha), fun p hp => (g.pools p hp).trans (h.pools p hp),
      g.factor.trans h.factor, ⟨e + d, by omega, by omega⟩, fun a ha => (g.iprove a ha).trans (h.iprove a ha),
      fun hb => g.balanced (h.balanced hb)⟩

theorem PayStep.rel {cfg : Cfg} {c : Ctx} {staker prover : Address} {i n : Nat} {claim : UnstakeClaim} {w w' : World}
    (h : PayStep cfg c staker prover i n claim w w') : PayRel cfg staker prover w w' := by
  obtain ⟨_, _, h⟩ := h
  obtain ⟨_, pay, _, hle, h⟩ := finishUnstakeRequest_ok h
  rcases h with ⟨_, _, rfl⟩ | ⟨_, hb, _, i0, i1, p1, a1, a2, _, rfl⟩
  · exact ⟨rfl, rfl, rfl, rfl, fun a ha => upd_ne _ _ ha, fun _ _ => rfl, rfl, ⟨0, rfl, rfl⟩, fun _ _ => rfl, id⟩
  · have hbal : w.iprove.Balanced → i1.Balanced := by
      intro hb
      rcases a1 with rfl | a1
      · exact hb.burn a2
      · exact (hb.spend a1).burn a2
    obtain ⟨c1, _⟩ := iproveSpend_bal a1
    obtain ⟨_, _, rfl⟩ := Erc20.burn_ok a2
    dsimp only at hle hb c1
    refine ⟨rfl, rfl, rfl, rfl, fun a ha => upd_ne _ _ ha, fun p hp => upd_ne _ _ hp, ?_, ⟨pay, ?_, ?_⟩, ?_, hbal⟩
    all_goals dsimp only
    · rw [upd_same]
    · rw [upd_same]; dsimp only; omega
    · rw [upd_same, c1]; omega
    · intro a ha
      rw [upd_ne _ _ ha, c1]

theorem StakeInv.pay {cfg : Cfg} {staker prover : Address} {w w' : World} (h : StakeInv cfg w)
    (hs : w.staking.stakerToProver staker = prover) (hp : w.staking.provers prover = true) (hp0 : prover ≠ 0)
    (r : PayRel cfg staker prover w w') : StakeInv cfg w' := by
  obtain ⟨d, d1, d2⟩ := r.escrow
  constructor
  · refine (h.escrow.update prover (w'.staking.escrowPools prover).iPROVEEscrow
      (m := w'.iprove.bal cfg.staking) (by omega)).congr fun q => ?_
    by_cases e : q = prover
    · rw [e, upd_same]
    · rw [upd_ne _ _ e, r.pools q e]
  · rw [r.provers]; intro a ha hpa
    rw [r.iprove a ha]; exact h.held a ha hpa
  · rw [r.provers]; intro q hq
    rw [r.pools q (by rintro rfl; rw [hp] at hq; exact nomatch hq)]; exact h.pool0 q hq
  · rw [r.provers, r.vault]; exact h.vbal
  · rw [r.provers, r.vault]; exact h.vother
  · rw [r.provers, r.vault, r.s2p, r.st]; exact h.vstake
  · rw [r.provers, r.vault, r.st]; exact h.vtotal
  · rw [r.st]; exact h.st
  · exact r.balanced h.iprove
  · rw [r.s2p, r.st]; intro a ha
    by_cases e : a = staker
    · rw [e, hs] at ha; exact absurd ha hp0
    · rw [r.claims a e]; exact h.unstaked a ha
  · rw [r.s2p, r.provers]; exact h.staked

theorem StakeInv.tail {cfg : Cfg} {staker prover : Address} {w : World} (h : StakeInv cfg w)
    (hp : w.staking.provers prover = true) : StakeInv cfg (finishTail staker prover w) := by
  have step1 : ∀ f, StakeInv cfg { w with staking := { w.staking with
      escrowPools := upd w.staking.escrowPools prover { w.staking.escrowPools prover with slashFactor := f } } } := by
    intro f
    constructor <;> dsimp only
    · refine h.escrow.congr fun q => ?_
      by_cases e : q = prover
      · rw [e, upd_same]
      · rw [upd_ne _ _ e]
    · exact h.held
    · intro q hq
      rw [upd_ne _ _ (by rintro rfl; rw [hp] at hq; exact nomatch hq)]
      exact h.pool0 q hq
    · exact h.vbal
    · exact h.vother
    · exact h.vstake
    · exact h.vtotal
    · exact h.st
    · exact h.iprove
    · exact h.unstaked
    · exact h.staked
  have step2 : ∀ {W : World}, StakeInv cfg W → W.staking.provers prover = true →
      W.st.bal staker = 0 ∧ W.staking.unstakeClaims staker = [] →
      StakeInv cfg { W with staking := { W.staking with
        stakerToProver := upd W.staking.stakerToProver staker 0 } } := by
    intro W h hp hz
    constructor <;> dsimp only
    · exact h.escrow
    · exact h.held
    · exact h.pool0
    · exact h.vbal
    · exact h.vother
    · intro q hq
      refine (h.vstake q hq).congr fun a => ?_
      by_cases e : a = staker
      · rw [e, hz.1]; simp
      · simp only [upd_ne _ _ e]
    · exact h.vtotal
    · exact h.st
    · exact h.iprove
    · intro a ha
      by_cases e : a = staker
      · rw [e]; exact hz
      · rw [upd_ne _ _ e] at ha; exact h.unstaked a ha
    · intro a ha
      by_cases e : a = staker
      · rw [e, upd_same] at ha; exact absurd rfl ha
      · rw [upd_ne _ _ e] at ha ⊢; exact h.staked a ha
  unfold finishTail
  dsimp only
  by_cases hc : (w.staking.escrowPools prover).iPROVEEscrow = 0 ∧ (w.staking.escrowPools prover).slashFactor ≠ SCALAR
  · rw [if_pos hc]
    split
    · rename_i hd
      exact step2 (step1 _) hp hd
    · exact step1 _
  · rw [if_neg hc]
    split
    · rename_i hd
      exact step2 h hp hd
    · exact h

theorem StakeInv.slash {cfg : Cfg} (hc : cfg.WF) {p : Address} {t x : Nat} {w w' : World} (hr : Registry cfg w)
    (h : StakeInv cfg w) (hp : w.staking.provers p = true) (he : SlashEffect cfg p t x w w') : StakeInv cfg w' := by
  obtain ⟨_, fe, fv, pr, ip, f, _, _, _, hfe, ⟨i1, a1, a2, _⟩, _, rfl⟩ := he
  have hne : p ≠ cfg.staking := (hr.ne hc hp).2.2.2.1
  have e1 : i1.bal cfg.staking = w.iprove.bal cfg.staking - fe ∧ fe ≤ w.iprove.bal cfg.staking ∧
      (∀ a, a ≠ cfg.staking → i1.bal a = w.iprove.bal a) ∧ i1.Balanced := by
    split at a1
    · rename_i hz
      rw [a1, hz]; exact ⟨rfl, Nat.zero_le _, fun _ _ => rfl, h.iprove⟩
    · have hb := h.iprove.burn a1
      obtain ⟨_, hv, rfl⟩ := Erc20.burn_ok a1
      exact ⟨upd_same _ _ _, hv, fun a ha => upd_ne _ _ ha, hb⟩
  obtain ⟨b1, b2, b3, b4⟩ := e1
  have e2 : (∀ a, a ≠ p → ip.bal a = i1.bal a) ∧ ip.Balanced := by
    split at a2
    · rw [a2]; exact ⟨fun _ _ => rfl, b4⟩
    · have hb := b4.burn a2
      obtain ⟨_, hv, rfl⟩ := Erc20.burn_ok a2
      exact ⟨fun a ha => upd_ne _ _ ha, hb⟩
  obtain ⟨c1, c2⟩ := e2
  constructor <;> dsimp only
  · rw [c1 _ (Ne.symm hne), b1]
    refine (h.escrow.update p ((w.staking.escrowPools p).iPROVEEscrow - fe)
      (m := w.iprove.bal cfg.staking - fe) (by omega)).congr fun q => ?_
    rw [upd_map EscrowPool.iPROVEEscrow]
  · intro a ha hpa
    rw [c1 a (by rintro rfl; rw [hp] at hpa; exact nomatch hpa), b3 a ha]
    exact h.held a ha hpa
  · intro q hq
    rw [upd_ne _ _ (by rintro rfl; rw [hp] at hq; exact nomatch hq)]
    exact h.pool0 q hq
  · exact h.vbal
  · exact h.vother
  · exact h.vstake
  · exact h.vtotal
  · exact h.st
  · exact c2
  · exact h.unstaked
  · exact h.staked

theorem StakeInv.create {cfg : Cfg} (hc : cfg.WF) {c : Ctx} {f : U256} {p : Address} {w w' : World}
    (h : StakeInv cfg w) (he : createProver cfg c f w = .ok (p, w')) : StakeInv cfg w' := by
  obtain ⟨_, _, _, h4, h5, _, _, _, _, t, ht, rfl⟩ := createProver_ok he
  have hp0 : p ≠ 0 := by rw [h4]; exact (hc.create2 _ _ _).1
  obtain ⟨_, _, rfl⟩ := Erc20.approve_ok ht
  have hno : ∀ a, w.staking.stakerToProver a ≠ p := by
    intro a e
    have := h.staked a (by rw [e]; exact hp0)
    rw [e, h5] at this; exact nomatch this
  have hcase : ∀ {q}, upd w.staking.provers p true q = true → q = p ∨ (q ≠ p ∧ w.staking.provers q = true) := by
    intro q hq
    by_cases e : q = p
    · exact Or.inl e
    · rw [upd_ne _ _ e] at hq; exact Or.inr ⟨e, hq⟩
  have hmono : ∀ {q}, upd w.staking.provers p true q = false → w.staking.provers q = false := by
    intro q hq
    by_cases e : q = p
    · rw [e]; exact h5
    · rw [upd_ne _ _ e] at hq; exact hq
  constructor <;> dsimp only
  · exact h.escrow
  · intro a ha hpa; exact h.held a ha (hmono hpa)
  · intro q hq; exact h.pool0 q (hmono hq)
  · intro q hq
    rcases hcase hq with rfl | ⟨e, hq⟩
    · rw [upd_same]; rfl
    · rw [upd_ne _ _ e]; exact h.vbal q hq
  · intro q hq a ha
    rcases hcase hq with rfl | ⟨e, hq⟩
    · rw [upd_same]; rfl
    · rw [upd_ne _ _ e]; exact h.vother q hq a ha
  · intro q hq
    rcases hcase hq with rfl | ⟨e, hq⟩
    · rw [upd_same]
      exact HasSum.zero.congr fun a => by rw [if_neg (hno a)]
    · rw [upd_ne _ _ e]; exact h.vstake q hq
  · refine h.vtotal.congr fun q => ?_
    by_cases e : q = p
    · simp only [e, upd_same, h5]; rfl
    · simp only [upd_ne _ _ e]
  · exact h.st
  · exact h.iprove
  · exact h.unstaked
  · intro a ha
    rw [upd_ne _ _ (hno a)]; exact h.staked a ha

theorem StakeInv.genesis {cfg : Cfg} {w : World} (h : Genesis cfg w) : StakeInv cfg w := by
  obtain ⟨m1, m2, _, _, m5⟩ := h.maps
  obtain ⟨_, _, r3, _⟩ := h.registry
  constructor
  · rw [m5, h.iprove]; exact HasSum.zero
  · intro a _ _; rw [h.iprove]; rfl
  · intro p _; rw [m5]
  · intro p hp; rw [r3] at hp; exact nomatch (show false = true from hp)
  · intro p hp; rw [r3] at hp; exact nomatch (show false = true from hp)
  · intro p hp; rw [r3] at hp; exact nomatch (show false = true from hp)
  · rw [h.st, r3]; exact HasSum.zero
  · rw [h.st]; exact HasSum.zero
  · rw [h.iprove]; exact HasSum.zero
  · intro a _; rw [h.st, m2]; exact ⟨rfl, rfl⟩
  · intro a ha; rw [m1] at ha; exact absurd rfl ha

theorem StakeInv.exec {cfg : Cfg} (hc : cfg.WF) {c : Ctx} {k : Call} {w w' : World} (hr : Registry cfg w)
    (hi : StakeInv cfg w) (ha : Admissible cfg (c, k)) (h : Verif.exec cfg c k w = .ok ((), w')) : StakeInv cfg w' := by
  by_cases hk : k.touchesStaking = false
  · exact hi.quiet hc hr (exec_quiet hc hr ha hk h)
  · cases k
    case createProver f =>
      replace h := drop_ok.mp h
      obtain ⟨p, h⟩ := h
      exact hi.create hc h
    case stake p v =>
      replace h := drop_ok.mp h
      obtain ⟨n, h⟩ := h
      obtain ⟨hp, t1, t2, _, _, he⟩ := stake_ok h
      have hi' : StakeInv cfg { w with prove := t2 } := hi.congr rfl rfl rfl rfl rfl rfl rfl
      have hr' : Registry cfg { w with prove := t2 } := hr.congr ⟨rfl, rfl, rfl, rfl⟩
      exact hi'.stake hc hr' hp he
    case permitAndStake s p f v =>
      replace h := drop_ok.mp h
      obtain ⟨n, h⟩ := h
      obtain ⟨hp, t0, t1, t2, _, _, _, he⟩ := permitAndStake_ok h
      have hi' : StakeInv cfg { w with prove := t2 } := hi.congr rfl rfl rfl rfl rfl rfl rfl
      have hr' : Registry cfg { w with prove := t2 } := hr.congr ⟨rfl, rfl, rfl, rfl⟩
      exact hi'.stake hc hr' hp he
    case requestUnstake v => exact hi.unstake hc hr h
    case finishUnstake s =>
      replace h := drop_ok.mp h
      obtain ⟨n, h⟩ := h
      obtain ⟨h1, _, _, w1, hl, rfl⟩ := finishUnstake_ok h
      have hp := hi.staked s h1
      have hr1 := finishLoop_rel (PayRel.pre cfg s (w.staking.stakerToProver s)) (fun _ _ _ _ _ h => h.rel) _ _ _ _ _ _ hl
      exact (hi.pay rfl hp h1 hr1).tail (by rw [hr1.provers]; exact hp)
    case requestSlash p v =>
      replace h := drop_ok.mp h
      obtain ⟨n, h⟩ := h
      obtain ⟨_, _, _, _, rfl⟩ := requestSlash_ok h
      exact hi.congr rfl rfl rfl rfl rfl rfl rfl
    case cancelSlash p i =>
      obtain ⟨_, _, _, _, _, rfl⟩ := cancelSlash_ok h
      exact hi.congr rfl rfl rfl rfl rfl rfl rfl
    case finishSlash p i =>
      replace h := drop_ok.mp h
      obtain ⟨n, h⟩ := h
      obtain ⟨_, hp, claim, _, _, _, w1, h1, h2⟩ := finishSlash_ok h
      have hi' : StakeInv cfg { w with staking := w.staking.resolve p i.toNat claim } := hi.congr rfl rfl rfl rfl rfl rfl rfl
      have hr' : Registry cfg { w with staking := w.staking.resolve p i.toNat claim } := hr.congr ⟨rfl, rfl, rfl, rfl⟩
      have hw1 : StakeInv cfg w1 := by
        split at h1
        · rw [h1]; exact hi'
        · exact hi'.slash hc hr' hp h1
      rcases h2 with ⟨rfl, _⟩ | ⟨_, _, _, rfl⟩
      · exact hw1
      · exact hw1.congr rfl rfl rfl rfl rfl rfl rfl
    case dispense v =>
      obtain ⟨_, _, _, _, _, _, _, _, _, rfl⟩ := dispense_ok h
      exact hi.congr rfl rfl rfl rfl rfl rfl rfl
    case updateDispenseRate v =>
      obtain ⟨_, _, rfl⟩ := updateDispenseRate_ok h
      exact hi.congr rfl rfl rfl rfl rfl rfl rfl
    case setDispenser a =>
      simp only [Verif.exec, setDispenser, bind_ok, stakingOnlyOwner_ok, modStaking_ok] at h
      obtain ⟨_, _, ⟨_, rfl⟩, rfl⟩ := h
      exact hi.congr rfl rfl rfl rfl rfl rfl rfl
    case stakingSetOwner a =>
      simp only [Verif.exec, stakingSetOwner, bind_ok, stakingOnlyOwner_ok, modStaking_ok] at h
      obtain ⟨_, _, ⟨_, rfl⟩, rfl⟩ := h
      exact hi.congr rfl rfl rfl rfl rfl rfl rfl
    all_goals exact absurd rfl hk

theorem StakeInv.reachable {cfg : Cfg} (hc : cfg.WF) : ∀ w, Reachable cfg w → Registry cfg w ∧ StakeInv cfg w :=
  reachable_induction (fun _ h => ⟨Registry.genesis h, StakeInv.genesis h⟩)
    (fun _ _ _ _ hr ha h => ⟨hr.1.exec hc h, hr.2.exec hc hr.1 ha h⟩)

end Verif
