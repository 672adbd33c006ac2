import Verif.L1Frames
import Verif.PropsStaking4
import Verif.PropsSolvency
/-
# More invariants of reachable worlds

Allowances between the contracts, slash factors, share prices: what is needed to show that calls succeed.
-/

namespace Verif
open L1

/-! ## Allowances in $iPROVE -/

/-- Infinite $iPROVE allowances given by the modelled contracts stay infinite. -/
structure KeepsIMax (cfg : Cfg) (w w' : World) : Prop where
  keeps : ∀ a s, cfg.System a → w.iprove.allow a s = max256 → w'.iprove.allow a s = max256

theorem KeepsIMax.refl' {cfg : Cfg} {w w' : World} (h : w'.iprove = w.iprove) : KeepsIMax cfg w w' :=
  ⟨fun _ _ _ g => by rw [h]; exact g⟩

theorem KeepsIMax.tok (cfg : Cfg) : ITok (KeepsIMax cfg) where
  refl _ := KeepsIMax.refl' rfl
  trans _ _ _ h g := ⟨fun a s ha e => g.keeps a s ha (h.keeps a s ha e)⟩
  iprove w t h := by
    refine ⟨fun a s _ e => ?_⟩
    show t.allow a s = max256
    rcases h with ⟨f, to, v, h⟩ | ⟨to, v, h⟩ | ⟨f, v, h⟩ | ⟨o, s', v, h⟩
    · obtain ⟨_, _, _, rfl⟩ := Erc20.transfer_ok h; exact e
    · obtain ⟨_, _, rfl⟩ := Erc20.mint_ok h; exact e
    · obtain ⟨_, _, rfl⟩ := Erc20.burn_ok h; exact e
    · obtain ⟨_, _, _, h1, h2⟩ := Erc20.spend_ok h
      by_cases x : a = o ∧ s = s'
      · obtain ⟨rfl, rfl⟩ := x
        rw [h2, if_pos e]
      · have : a ≠ o ∨ s ≠ s' := by
          by_cases ea : a = o
          · exact Or.inr fun es => x ⟨ea, es⟩
          · exact Or.inl ea
        rw [h1 a s this]; exact e
  prove _ _ := KeepsIMax.refl' rfl
  vault _ _ := KeepsIMax.refl' rfl
  st _ _ := KeepsIMax.refl' rfl

theorem KeepsIMax.approve {cfg : Cfg} {w : World} {o s : Address} {v : Nat} {t : Erc20} (ho : ¬ cfg.System o)
    (h : w.iprove.approve o s v = .ok t) : KeepsIMax cfg w { w with iprove := t } := by
  refine ⟨fun a b ha e => ?_⟩
  obtain ⟨_, _, rfl⟩ := Erc20.approve_ok h
  show upd w.iprove.allow o _ a b = _
  rw [upd_ne _ _ (by rintro rfl; exact ho ha)]
  exact e

open IFrame in
theorem exec_keepsIMax {cfg : Cfg} {c : Ctx} {k : Call} {w w' : World} (ha : Admissible cfg (c, k))
    (h : exec cfg c k w = .ok ((), w')) : KeepsIMax cfg w w' := by
  have hR := KeepsIMax.tok cfg
  have hv : AllowVapp (KeepsIMax cfg) := fun _ _ => KeepsIMax.refl' rfl
  have hs : AllowStaking (KeepsIMax cfg) := fun _ _ => KeepsIMax.refl' rfl
  cases k
  case iproveApprove s v =>
    simp only [exec, onIprove_ok] at h
    obtain ⟨t, h, rfl⟩ := h
    exact KeepsIMax.approve ha h
  case iprovePermit s o p v =>
    simp only [exec, bind_ok, require_ok, onIprove_ok] at h
    obtain ⟨_, _, ⟨rfl, rfl⟩, t, h1, rfl⟩ := h
    exact KeepsIMax.approve ha.2 h1
  case createProver f =>
    obtain ⟨p, h⟩ := drop_ok.mp h
    obtain ⟨_, _, _, _, _, _, _, _, _, t, ht, rfl⟩ := createProver_ok h
    refine ⟨fun a s _ e => ?_⟩
    obtain ⟨_, _, rfl⟩ := Erc20.approve_ok ht
    show upd w.iprove.allow cfg.staking (upd (w.iprove.allow cfg.staking) p max256) a s = max256
    by_cases ea : a = cfg.staking
    · subst ea
      rw [upd_same]
      by_cases es : s = p
      · rw [es, upd_same]
      · rw [upd_ne _ _ es]; exact e
    · rw [upd_ne _ _ ea]; exact e
  all_goals
    revert h
    suffices hw : Within (KeepsIMax cfg) (exec cfg c _) by exact fun h => hw _ _ _ h
    unfold exec; iwithin
    all_goals exact Within.modify fun _ => KeepsIMax.refl' rfl

/-! ## The invariant -/

theorem reachable_genesis {cfg : Cfg} {w : World} (h : Genesis cfg w) : Reachable cfg w :=
  ⟨w, [], h, fun _ hx => (List.not_mem_nil hx).elim, rfl⟩

/-- Induction over histories, with reachability at hand. -/
theorem reachable_cases {cfg : Cfg} {P : World → Prop} (h0 : ∀ w, Genesis cfg w → P w)
    (hs : ∀ w c k w', Reachable cfg w → P w → Admissible cfg (c, k) → exec cfg c k w = .ok ((), w') → P w') :
    ∀ w, Reachable cfg w → P w := by
  intro w hr
  refine (reachable_induction (P := fun w => Reachable cfg w ∧ P w) (fun w hg => ⟨reachable_genesis hg, h0 w hg⟩) ?_ w hr).2
  rintro w c k w' ⟨h1, h2⟩ ha he
  refine ⟨?_, hs w c k w' h1 h2 ha he⟩
  have := h1.call ha
  rcases call_ok (cfg := cfg) (c := c) (k := k) (w := w) with ⟨w'', g1, g2⟩ | ⟨⟨e, g1⟩, _⟩
  · rw [he] at g1
    obtain rfl := (Prod.mk.inj (Except.ok.inj g1)).2
    rw [g2] at this; exact this
  · rw [he] at g1; exact nomatch g1

/-- What makes calls go through in reachable worlds. -/
structure LiveInv (cfg : Cfg) (w : World) : Prop where
  /-- one $iPROVE is worth at least one $PROVE -/
  supply : w.iprove.supply ≤ w.prove.bal cfg.iprove
  allowP : w.prove.allow cfg.staking cfg.iprove = max256
  allowV : w.prove.allow cfg.vapp cfg.iprove = max256
  allowI : ∀ p, w.staking.provers p = true → w.iprove.allow cfg.staking p = max256
  factor : ∀ p, (w.staking.escrowPools p).slashFactor ≤ SCALAR
  claim : ∀ s, ∀ cl ∈ w.staking.unstakeClaims s, cl.slashFactor ≠ 0 ∧ cl.slashFactor ≤ SCALAR
  /-- a share of an active prover's vault is worth at least 10^-9 $iPROVE -/
  price : ∀ p, w.staking.provers p = true → w.staking.deactivatedProvers p = false →
    (w.vault p).supply + 1 ≤ 10 ^ 9 * (w.iprove.bal p + 1)
  zero : w.staking.stakerToProver 0 = 0

theorem LiveInv.genesis {cfg : Cfg} {w : World} (h : Genesis cfg w) : LiveInv cfg w where
  supply := by rw [h.iprove]; exact Nat.zero_le _
  allowP := by rw [h.prove_allow _ _ (Or.inr (Or.inr (Or.inl rfl))), if_pos ⟨Or.inr rfl, rfl⟩]
  allowV := by rw [h.prove_allow _ _ (Or.inr (Or.inr (Or.inr (Or.inl rfl)))), if_pos ⟨Or.inl rfl, rfl⟩]
  allowI p hp := by rw [h.registry.2.2.1] at hp; exact nomatch hp
  factor p := by rw [h.maps.2.2.2.2]; exact Nat.zero_le _
  claim s cl hcl := by rw [h.maps.2.1] at hcl; exact (List.not_mem_nil hcl).elim
  price p hp := by rw [h.registry.2.2.1] at hp; exact nomatch hp
  zero := by rw [h.maps.1]

theorem SCALAR_pos : 0 < SCALAR := by decide

theorem LiveInv.factors {cfg : Cfg} (hc : cfg.WF) {c : Ctx} {k : Call} {w w' : World} (hr : Reachable cfg w)
    (hi : LiveInv cfg w) (h : exec cfg c k w = .ok ((), w')) :
    (∀ p, (w'.staking.escrowPools p).slashFactor ≤ SCALAR) ∧
    (∀ s, ∀ cl ∈ w'.staking.unstakeClaims s, cl.slashFactor ≠ 0 ∧ cl.slashFactor ≤ SCALAR) := by
  have hf := exec_fields h
  cases k
  case requestUnstake v =>
    obtain ⟨p, esc, f, _, _, _, e1, e4, e5, e2, e3, _⟩ := c40_request hc hr h
    have hfac : f ≠ 0 ∧ f ≤ SCALAR := by
      have := hi.factor p
      rw [e1]
      split
      · exact ⟨by decide, Nat.le_refl _⟩
      · exact ⟨‹_›, this⟩
    refine ⟨fun q => ?_, fun s cl hcl => ?_⟩
    · by_cases e : q = p
      · rw [e, e2]; exact hfac.2
      · rw [e3 q e]; exact hi.factor q
    · by_cases e : s = c.sender
      · rw [e, e4] at hcl
        rcases List.mem_append.mp hcl with hcl | hcl
        · exact hi.claim _ _ hcl
        · rw [List.mem_singleton.mp hcl]; exact hfac
      · rw [e5 s e] at hcl; exact hi.claim _ _ hcl
  case finishSlash q i =>
    obtain ⟨_, total, n, _, _, _, _, _, _, _, _, _, _, _, e1, _, _, e2, _⟩ := c42_finishSlash hc hr h
    refine ⟨fun p => ?_, ?_⟩
    · by_cases e : p = q
      · subst e
        rw [e1]
        refine Nat.le_trans (slashedFactor_le _ _ _) ?_
        split
        · exact Nat.le_refl _
        · exact hi.factor p
      · rw [e2 p e]; exact hi.factor p
    · rw [hf.claims (fun _ => Call.noConfusion) (fun _ => Call.noConfusion)]; exact hi.claim
  case finishUnstake s =>
    obtain ⟨done, _, d1, _, _, d2, _⟩ := c40_finish hc hr h
    refine ⟨fun p => ?_, fun a cl hcl => ?_⟩
    · obtain ⟨n, h⟩ := drop_ok.mp h
      obtain ⟨_, _, _, w1, hl, rfl⟩ := finishUnstake_ok h
      have r := finishLoop_rel (PayRel.pre cfg s (w.staking.stakerToProver s)) (fun _ _ _ _ _ h => h.rel) _ _ _ _ _ _ hl
      have h1 : ∀ q, (w1.staking.escrowPools q).slashFactor ≤ SCALAR := by
        intro q
        by_cases e : q = w.staking.stakerToProver s
        · rw [e, r.factor]; exact hi.factor _
        · rw [r.pools q e]; exact hi.factor q
      have hu : ∀ (pool : EscrowPool), (upd w1.staking.escrowPools (w.staking.stakerToProver s)
          { pool with slashFactor := SCALAR } p).slashFactor ≤ SCALAR := by
        intro pool
        by_cases e : p = w.staking.stakerToProver s
        · rw [e, upd_same]; exact Nat.le_refl _
        · rw [upd_ne _ _ e]; exact h1 p
      unfold finishTail
      dsimp only
      split <;> split
      · exact hu _
      · exact hu _
      · exact h1 p
      · exact h1 p
    · by_cases e : a = s
      · subst e
        exact hi.claim a cl (d1.mem_iff.mp (List.mem_append.mpr (Or.inr hcl)))
      · rw [d2 a e] at hcl; exact hi.claim a cl hcl
  all_goals
    refine ⟨?_, ?_⟩
    · rw [hf.pools (fun _ => Call.noConfusion) (fun _ => Call.noConfusion) (fun _ _ => Call.noConfusion)]; exact hi.factor
    · rw [hf.claims (fun _ => Call.noConfusion) (fun _ => Call.noConfusion)]; exact hi.claim

theorem LiveInv.prices {cfg : Cfg} (hc : cfg.WF) {c : Ctx} {k : Call} {w w' : World} (hr : Reachable cfg w)
    (hi : LiveInv cfg w) (ha : Admissible cfg (c, k)) (h : exec cfg c k w = .ok ((), w')) (p : Address)
    (hp' : w'.staking.provers p = true) (hd' : w'.staking.deactivatedProvers p = false) :
    (w'.vault p).supply + 1 ≤ 10 ^ 9 * (w'.iprove.bal p + 1) := by
  have hinv := StakingInv.reachable hc w hr
  cases hp : w.staking.provers p with
  | false =>
    -- a new prover
    by_cases hk : ∃ f, k = .createProver f
    · obtain ⟨f, rfl⟩ := hk
      obtain ⟨q, h⟩ := drop_ok.mp h
      obtain ⟨_, _, _, _, _, _, _, _, _, t, _, rfl⟩ := createProver_ok h
      have e : p = q := by
        by_cases e : p = q
        · exact e
        · have : upd w.staking.provers q true p = true := hp'
          rw [upd_ne _ _ e, hp] at this
          exact nomatch this
      subst e
      show (upd w.vault p Erc20.empty p).supply + 1 ≤ _
      rw [upd_same]
      show 0 + 1 ≤ _
      exact Nat.mul_pos (by decide) (Nat.succ_pos _)
    · obtain ⟨_, e, _⟩ := (exec_frames h).1 (fun f e => hk ⟨f, e⟩)
      rw [e, hp] at hp'
      exact nomatch hp'
  | true =>
    have hd : w.staking.deactivatedProvers p = false := by
      have hg := c45_permanent (cfg := cfg) w [(c, k)]
      rw [runCalls_cons, runCalls_nil] at hg
      have e : call cfg c k w = w' := by unfold call; rw [h]
      rw [e] at hg
      cases hd : w.staking.deactivatedProvers p with
      | false => rfl
      | true => rw [hg.2 p hd] at hd'; exact nomatch hd'
    have hold := hi.price p hp hd
    by_cases hk : ∃ i, k = .finishSlash p i
    · obtain ⟨i, rfl⟩ := hk
      obtain ⟨n, h⟩ := drop_ok.mp h
      obtain ⟨_, _, claim, _, _, _, w1, _, g⟩ := finishSlash_ok h
      rcases g with ⟨rfl, g | g | g⟩ | ⟨_, _, _, rfl⟩
      · rw [g] at hd'; exact nomatch hd'
      · rw [g]; exact Nat.mul_pos (by decide) (Nat.succ_pos _)
      · have h1 := (Nat.le_div_iff_mul_le (Nat.pos_of_ne_zero (fun e => by
          rw [e, Nat.div_zero] at g; exact absurd g (by decide)))).mp g
        omega
      · have : upd w1.staking.deactivatedProvers p true p = false := hd'
        rw [upd_same] at this; exact nomatch this
    · have hrate := (exec_vault hc hinv ha h hp).rate (fun i e => hk ⟨i, e⟩)
      unfold VRate Rate at hrate
      -- (B + 1) (V' + 1) ≤ (B' + 1) (V + 1) ≤ (B' + 1) 10^9 (B + 1)
      refine Nat.le_of_mul_le_mul_left (c := w.iprove.bal p + 1) ?_ (Nat.succ_pos _)
      calc (w.iprove.bal p + 1) * ((w'.vault p).supply + 1)
          ≤ (w'.iprove.bal p + 1) * ((w.vault p).supply + 1) := hrate
        _ ≤ (w'.iprove.bal p + 1) * (10 ^ 9 * (w.iprove.bal p + 1)) := Nat.mul_le_mul_left _ hold
        _ = (w.iprove.bal p + 1) * (10 ^ 9 * (w'.iprove.bal p + 1)) := by ac_rfl

theorem LiveInv.exec {cfg : Cfg} (hc : cfg.WF) {c : Ctx} {k : Call} {w w' : World} (hr : Reachable cfg w)
    (hi : LiveInv cfg w) (ha : Admissible cfg (c, k)) (h : Verif.exec cfg c k w = .ok ((), w')) : LiveInv cfg w' where
  supply := by
    have hinv := StakingInv.reachable hc w hr
    have := exec_irate hc hinv hinv.prove ha h
    unfold IRate Rate at this
    have h1 : w'.iprove.supply + 1 ≤ w'.prove.bal cfg.iprove + 1 := by
      refine Nat.le_of_mul_le_mul_left (c := w.prove.bal cfg.iprove + 1) ?_ (Nat.succ_pos _)
      refine Nat.le_trans this ?_
      rw [Nat.mul_comm (w.prove.bal cfg.iprove + 1)]
      exact Nat.mul_le_mul_left _ (by have := hi.supply; omega)
    omega
  allowP := (exec_keepsMax ha h).keeps _ _ (Or.inr (Or.inr (Or.inl rfl))) hi.allowP
  allowV := (exec_keepsMax ha h).keeps _ _ (Or.inr (Or.inr (Or.inr (Or.inl rfl)))) hi.allowV
  allowI p hp := by
    cases hp0 : w.staking.provers p with
    | true => exact (exec_keepsIMax ha h).keeps _ _ (Or.inr (Or.inr (Or.inl rfl))) (hi.allowI p hp0)
    | false =>
      by_cases hk : ∃ f, k = .createProver f
      · obtain ⟨f, rfl⟩ := hk
        obtain ⟨q, h⟩ := drop_ok.mp h
        obtain ⟨_, _, _, _, _, _, _, _, _, t, ht, rfl⟩ := createProver_ok h
        have e : p = q := by
          by_cases e : p = q
          · exact e
          · have : upd w.staking.provers q true p = true := hp
            rw [upd_ne _ _ e, hp0] at this
            exact nomatch this
        subst e
        obtain ⟨_, _, rfl⟩ := Erc20.approve_ok ht
        show upd w.iprove.allow cfg.staking (upd (w.iprove.allow cfg.staking) p max256) cfg.staking p = max256
        rw [upd_same, upd_same]
      · obtain ⟨_, e, _⟩ := (exec_frames h).1 (fun f e => hk ⟨f, e⟩)
        rw [e, hp0] at hp
        exact nomatch hp
  factor := (hi.factors hc hr h).1
  claim := (hi.factors hc hr h).2
  price := fun p hp hd => hi.prices hc hr ha h p hp hd
  zero := by
    have hf := (exec_fields h).s2p
    cases k
    case stake p v =>
      obtain ⟨n, h⟩ := drop_ok.mp h
      obtain ⟨_, _, _, _, ht, he⟩ := stake_ok h
      obtain ⟨_, _, _, _, _, _, _, _, _, _, _, _, _, _, _, _, _, _, _, _, _, _, _, _, rfl⟩ := he
      show upd w.staking.stakerToProver c.sender p 0 = 0
      rw [upd_ne _ _ (Ne.symm (Erc20.transfer_ok ht).1)]; exact hi.zero
    case permitAndStake s p f v =>
      obtain ⟨n, h⟩ := drop_ok.mp h
      obtain ⟨_, _, _, _, _, _, ht, he⟩ := permitAndStake_ok h
      obtain ⟨_, _, _, _, _, _, _, _, _, _, _, _, _, _, _, _, _, _, _, _, _, _, _, _, rfl⟩ := he
      show upd w.staking.stakerToProver f p 0 = 0
      rw [upd_ne _ _ (Ne.symm (Erc20.transfer_ok ht).1)]; exact hi.zero
    case finishUnstake s =>
      obtain ⟨n, h⟩ := drop_ok.mp h
      obtain ⟨hs0, _, _, w1, hl, rfl⟩ := finishUnstake_ok h
      have h1 := (finishLoop_rel (PayRel.pre cfg s (w.staking.stakerToProver s)) (fun _ _ _ _ _ h => h.rel) _ _ _ _ _ _ hl).s2p
      have hz : w1.staking.stakerToProver 0 = 0 := by rw [h1]; exact hi.zero
      have hu : upd w1.staking.stakerToProver s 0 0 = 0 := by
        by_cases e : (0 : Address) = s
        · rw [← e, upd_same]
        · rw [upd_ne _ _ e]; exact hz
      unfold finishTail
      dsimp only
      split <;> split
      · exact hu
      · exact hz
      · exact hu
      · exact hz
    all_goals
      rw [hf (fun _ _ => Call.noConfusion) (fun _ _ _ _ => Call.noConfusion) (fun _ => Call.noConfusion)]
      exact hi.zero

theorem LiveInv.reachable {cfg : Cfg} (hc : cfg.WF) : ∀ w, Reachable cfg w → LiveInv cfg w :=
  reachable_cases (fun _ h => LiveInv.genesis h) (fun _ _ _ _ hr hi ha h => hi.exec hc hr ha h)

end Verif
