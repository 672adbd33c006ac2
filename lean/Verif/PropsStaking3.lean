import Verif.L1Views
import Verif.PropsStaking2
/-
# Properties C57 to C59: authority, prices and staking on L1
-/

namespace Verif
open L1

/-! ## C57: who may do what on the staking contract -/

/-- Finishing a slash, choosing the dispenser, the dispense rate or a new owner needs the owner; requesting a
slash needs the vApp contract; dispensing needs the dispenser. -/
theorem c57_authority {cfg : Cfg} {c : Ctx} {k : Call} {w w' : World} (h : exec cfg c k w = .ok ((), w')) :
    (((∃ p i, k = .finishSlash p i) ∨ (∃ a, k = .setDispenser a) ∨ (∃ r, k = .updateDispenseRate r) ∨
      (∃ a, k = .stakingSetOwner a)) → c.sender = w.staking.owner) ∧
    ((∃ p v, k = .requestSlash p v) → c.sender = cfg.vapp) ∧
    ((∃ v, k = .dispense v) → c.sender = w.staking.dispenser) := by
  refine ⟨?_, ?_, ?_⟩
  · rintro (⟨p, i, rfl⟩ | ⟨a, rfl⟩ | ⟨r, rfl⟩ | ⟨a, rfl⟩)
    · obtain ⟨n, h⟩ := drop_ok.mp h
      exact (finishSlash_ok h).1
    · exact (setDispenser_ok h).1
    · exact (updateDispenseRate_ok h).1
    · exact (stakingSetOwner_ok h).1
  · rintro ⟨p, v, rfl⟩
    obtain ⟨n, h⟩ := drop_ok.mp h
    exact (requestSlash_ok h).1
  · rintro ⟨v, rfl⟩
    exact (dispense_ok h).1

/-- A call by anyone but the owner of the staking contract leaves the owner, the dispenser, the dispense rate and
what it accrued, and which provers are deactivated; no call at all changes the minimum stake, the bound on
unstake requests and the two periods. -/
theorem c57_settings {cfg : Cfg} {c : Ctx} {k : Call} {w w' : World} (h : exec cfg c k w = .ok ((), w')) :
    (c.sender ≠ w.staking.owner →
      w'.staking.owner = w.staking.owner ∧ w'.staking.dispenser = w.staking.dispenser ∧
      w'.staking.dispenseRate = w.staking.dispenseRate ∧
      w'.staking.dispenseRateTimestamp = w.staking.dispenseRateTimestamp ∧
      w'.staking.dispenseEarned = w.staking.dispenseEarned ∧
      w'.staking.deactivatedProvers = w.staking.deactivatedProvers) ∧
    w'.staking.minStakeAmount = w.staking.minStakeAmount ∧
    w'.staking.maxUnstakeRequests = w.staking.maxUnstakeRequests ∧
    w'.staking.unstakePeriod = w.staking.unstakePeriod ∧
    w'.staking.slashCancellationPeriod = w.staking.slashCancellationPeriod := by
  obtain ⟨b1, b2, b3, b4, _⟩ := (exec_frames h).2
  refine ⟨fun hne => ?_, b1, b2, b3, b4⟩
  have ha := c57_authority h
  have hf := exec_fields h
  have n1 : ∀ p i, k ≠ .finishSlash p i := fun p i e => hne (ha.1 (Or.inl ⟨p, i, e⟩))
  have n2 : ∀ a, k ≠ .setDispenser a := fun a e => hne (ha.1 (Or.inr (Or.inl ⟨a, e⟩)))
  have n3 : ∀ r, k ≠ .updateDispenseRate r := fun a e => hne (ha.1 (Or.inr (Or.inr (Or.inl ⟨a, e⟩))))
  have n4 : ∀ a, k ≠ .stakingSetOwner a := fun a e => hne (ha.1 (Or.inr (Or.inr (Or.inr ⟨a, e⟩))))
  have hd : w'.staking.dispenseRate = w.staking.dispenseRate ∧
      w'.staking.dispenseRateTimestamp = w.staking.dispenseRateTimestamp ∧
      w'.staking.dispenseEarned = w.staking.dispenseEarned := by
    by_cases hk : ∃ v, k = .dispense v
    · obtain ⟨v, rfl⟩ := hk
      obtain ⟨_, _, _, _, _, _, _, _, _, rfl⟩ := dispense_ok h
      exact ⟨rfl, rfl, rfl⟩
    · obtain ⟨a1, a2, a3, _⟩ := hf.disp (fun v e => hk ⟨v, e⟩) n3
      exact ⟨a1, a2, a3⟩
  exact ⟨hf.owner n4, hf.dispenser n2, hd.1, hd.2.1, hd.2.2, hf.deact n1⟩

/-- Over any history without calls by the owner these settings stay as they are. -/
theorem c57_history {cfg : Cfg} (w : World) (h : List (Ctx × Call)) (ho : ∀ x ∈ h, x.1.sender ≠ w.staking.owner) :
    (runCalls cfg w h).staking.owner = w.staking.owner ∧ (runCalls cfg w h).staking.dispenser = w.staking.dispenser ∧
    (runCalls cfg w h).staking.dispenseRate = w.staking.dispenseRate ∧
    (runCalls cfg w h).staking.dispenseRateTimestamp = w.staking.dispenseRateTimestamp ∧
    (runCalls cfg w h).staking.dispenseEarned = w.staking.dispenseEarned ∧
    (runCalls cfg w h).staking.deactivatedProvers = w.staking.deactivatedProvers := by
  induction h generalizing w with
  | nil => exact ⟨rfl, rfl, rfl, rfl, rfl, rfl⟩
  | cons x h ih =>
    rw [runCalls_cons]
    rcases call_ok (cfg := cfg) (c := x.1) (k := x.2) (w := w) with ⟨w', h1, h2⟩ | ⟨_, h2⟩
    · obtain ⟨a1, a2, a3, a4, a5, a6⟩ := (c57_settings h1).1 (ho x (List.mem_cons_self ..))
      rw [h2]
      have := ih w' (fun y hy => by rw [a1]; exact ho y (List.mem_cons_of_mem _ hy))
      rw [a1, a2, a3, a4, a5, a6] at this
      exact this
    · rw [h2]
      exact ih w (fun y hy => ho y (List.mem_cons_of_mem _ hy))

-- Witnesses: each privileged call succeeds for whom it should and fails for bob.
open ToyL1 in
example : (exec cfg (ctx gov 1170) (.finishSlash prover1 0) w3).toBool = true ∧
    (exec cfg (ctx bob 1170) (.finishSlash prover1 0) w3).toBool = false ∧
    (exec cfg (ctx gov 1170) (.setDispenser bob) w3).toBool = true ∧
    (exec cfg (ctx bob 1170) (.setDispenser bob) w3).toBool = false ∧
    (exec cfg (ctx gov 1170) (.updateDispenseRate 5) w3).toBool = true ∧
    (exec cfg (ctx bob 1170) (.updateDispenseRate 5) w3).toBool = false ∧
    (exec cfg (ctx gov 1170) (.stakingSetOwner bob) w3).toBool = true ∧
    (exec cfg (ctx bob 1170) (.stakingSetOwner bob) w3).toBool = false ∧
    (exec cfg (ctx cfg.vapp 1170) (.requestSlash prover1 5) w3).toBool = true ∧
    (exec cfg (ctx gov 1170) (.requestSlash prover1 5) w3).toBool = false := by decide +kernel
-- A history without calls by the owner that does things.
open ToyL1 in
example : (∀ x ∈ bobUnstakes, x.1.sender ≠ w5.staking.owner) ∧ w6.iprove.supply ≠ w5.iprove.supply := by
  decide +kernel

/-! ## C58: prices never fall -/

/-- The price of $iPROVE in $PROVE - (assets + 1) / (shares + 1), which all conversions use - never falls: not by
stakes, unstakes, slashes, withdrawals, dispenses or anything else anybody does. -/
theorem c58_price {cfg : Cfg} (hc : cfg.WF) {w : World} (hr : Reachable cfg w) (h : List (Ctx × Call))
    (ha : ∀ x ∈ h, Admissible cfg x) :
    (w.prove.bal cfg.iprove + 1) * ((runCalls cfg w h).iprove.supply + 1) ≤
      ((runCalls cfg w h).prove.bal cfg.iprove + 1) * (w.iprove.supply + 1) := by
  show IRate cfg w (runCalls cfg w h)
  induction h generalizing w with
  | nil => exact Rate.refl _ _
  | cons x h ih =>
    have hr' := Reachable.call hr (ha x (List.mem_cons_self ..))
    have := ih hr' (fun y hy => ha y (List.mem_cons_of_mem _ hy))
    rw [runCalls_cons]
    refine (IRate.pre cfg).trans _ (call cfg x.1 x.2 w) _ ?_ this
    rcases call_ok (cfg := cfg) (c := x.1) (k := x.2) (w := w) with ⟨w', h1, h2⟩ | ⟨_, h2⟩
    · rw [h2]
      have hi := StakingInv.reachable hc w hr
      exact exec_irate hc hi hi.prove (ha x (List.mem_cons_self ..)) h1
    · rw [h2]; exact Rate.refl _ _

/-- The price in $iPROVE of the shares of a prover's vault never falls, unless the prover is slashed. -/
theorem c58_vault {cfg : Cfg} (hc : cfg.WF) {w : World} (hr : Reachable cfg w) (h : List (Ctx × Call))
    (ha : ∀ x ∈ h, Admissible cfg x) {p : Address} (hp : w.staking.provers p = true)
    (hs : ∀ x ∈ h, ∀ i, x.2 ≠ .finishSlash p i) :
    (w.iprove.bal p + 1) * (((runCalls cfg w h).vault p).supply + 1) ≤
      ((runCalls cfg w h).iprove.bal p + 1) * ((w.vault p).supply + 1) := by
  show VRate p w (runCalls cfg w h)
  induction h generalizing w with
  | nil => exact Rate.refl _ _
  | cons x h ih =>
    have hr' := Reachable.call hr (ha x (List.mem_cons_self ..))
    have hm : ∀ y ∈ h, y ∈ x :: h := fun y hy => List.mem_cons_of_mem _ hy
    rw [runCalls_cons]
    rcases call_ok (cfg := cfg) (c := x.1) (k := x.2) (w := w) with ⟨w', h1, h2⟩ | ⟨_, h2⟩
    · rw [h2] at hr' ⊢
      have hi := StakingInv.reachable hc w hr
      have hp' : w'.staking.provers p = true := provers_mono h1 hp
      exact Rate.trans ((exec_vault hc hi (ha x (List.mem_cons_self ..)) h1 hp).rate (hs x (List.mem_cons_self ..)))
        (ih hr' (fun y hy => ha y (hm y hy)) hp' (fun y hy => hs y (hm y hy)))
    · rw [h2]
      exact ih hr (fun y hy => ha y (hm y hy)) hp (fun y hy => hs y (hm y hy))

/-- $iPROVE leaves a prover's vault only when one of its own stakers requests to unstake, at most their shares'
worth, or when the owner of the staking contract finishes a slash of this prover. -/
theorem c58_leaves {cfg : Cfg} (hc : cfg.WF) {c : Ctx} {k : Call} {w w' : World} (hr : Reachable cfg w)
    (ha : Admissible cfg (c, k)) (h : exec cfg c k w = .ok ((), w')) {p : Address} (hp : w.staking.provers p = true)
    (hl : w'.iprove.bal p < w.iprove.bal p) :
    (∃ v : U256, k = .requestUnstake v ∧ w.staking.stakerToProver c.sender = p ∧ v.toNat ≤ w.st.bal c.sender ∧
      w.iprove.bal p - w'.iprove.bal p = v.toNat * (w.iprove.bal p + 1) / ((w.vault p).supply + 1)) ∨
    (∃ i, k = .finishSlash p i ∧ c.sender = w.staking.owner) := by
  have hi := StakingInv.reachable hc w hr
  cases exec_vault hc hi ha h hp with
  | reward h1 e => omega
  | stake i n hn h1 e => omega
  | unstake v i hk hs he h0 h1 h2 e =>
    subst hk
    obtain ⟨_, _, _, _, hb, _⟩ := requestUnstake_ok h
    exact Or.inl ⟨v, rfl, hs, hb, by omega⟩
  | slash i hk ho => exact Or.inr ⟨i, hk, ho⟩

/-- What `staked` reports for an account - the $PROVE its stake is worth - never falls, unless the account
itself requests to unstake or its prover is slashed. -/
theorem c58_staked {cfg : Cfg} (hc : cfg.WF) {w : World} (hr : Reachable cfg w) (h : List (Ctx × Call))
    (ha : ∀ x ∈ h, Admissible cfg x) (a : Address) (hu : ∀ x ∈ h, ∀ v, x.1.sender = a → x.2 ≠ .requestUnstake v)
    (hs : ∀ x ∈ h, ∀ i, x.2 ≠ .finishSlash (w.staking.stakerToProver a) i) (m m' : Nat)
    (hm : staked cfg a w = .ok (m, w)) (hm' : staked cfg a (runCalls cfg w h) = .ok (m', runCalls cfg w h)) : m ≤ m' := by
  by_cases hb : w.st.bal a = 0
  · rcases (staked_ok hm).2 with ⟨_, rfl⟩ | ⟨_, _, e⟩
    · exact Nat.zero_le _
    · rw [hb] at e; rw [e]; simp
  · have key : ∀ (h : List (Ctx × Call)) (w : World), Reachable cfg w → (∀ x ∈ h, Admissible cfg x) →
        (∀ x ∈ h, ∀ v, x.1.sender = a → x.2 ≠ .requestUnstake v) → w.st.bal a ≠ 0 →
        (runCalls cfg w h).staking.stakerToProver a = w.staking.stakerToProver a ∧
        w.st.bal a ≤ (runCalls cfg w h).st.bal a := by
      intro h
      induction h with
      | nil => intro w _ _ _ _; exact ⟨rfl, Nat.le_refl _⟩
      | cons x h ih =>
        intro w hr ha hu hb
        rw [runCalls_cons]
        have hr' := Reachable.call hr (ha x (List.mem_cons_self ..))
        have hin : ∀ y ∈ h, y ∈ x :: h := fun y hy => List.mem_cons_of_mem _ hy
        rcases call_ok (cfg := cfg) (c := x.1) (k := x.2) (w := w) with ⟨w', h1, h2⟩ | ⟨_, h2⟩
        · rw [h2] at hr' ⊢
          have e1 := c39_stable hc hr h1 a hb
          have e2 : w.st.bal a ≤ w'.st.bal a := by
            by_cases e : w'.st.bal a = w.st.bal a
            · exact Nat.le_of_eq e.symm
            · rcases c39_nontransferable hc hr (ha x (List.mem_cons_self ..)) h1 a e with ⟨g, _⟩ | ⟨v, hk, hsnd, _⟩
              · exact Nat.le_of_lt g
              · exact absurd hk (hu x (List.mem_cons_self ..) v hsnd)
          obtain ⟨g1, g2⟩ := ih w' hr' (fun y hy => ha y (hin y hy)) (fun y hy => hu y (hin y hy)) (by omega)
          exact ⟨g1.trans e1, Nat.le_trans e2 g2⟩
        · rw [h2]
          exact ih w hr (fun y hy => ha y (hin y hy)) (fun y hy => hu y (hin y hy)) hb
    obtain ⟨k1, k2⟩ := key h w hr ha hu hb
    have h0 : w.staking.stakerToProver a ≠ 0 := fun e => hb ((StakingInv.reachable hc w hr).stake.unstaked a e).1
    rcases (staked_ok hm).2 with ⟨e, _⟩ | ⟨_, hp, e⟩
    · exact absurd e h0
    · rcases (staked_ok hm').2 with ⟨e', _⟩ | ⟨_, hp', e'⟩
      · rw [k1] at e'; exact absurd e' h0
      · rw [e, e', k1]
        exact Rate.value (c58_price hc hr h ha) (Rate.value (c58_vault hc hr h ha hp hs) k2)

namespace ToyL1
/-- Then the owner sets a dispense rate of 3 per second, the dispenser gives out 120, the owner bob of the prover
unstakes, and alice stakes more. -/
def dispenses : List (Ctx × Call) :=
  [ (ctx gov 1180, .updateDispenseRate 3), (ctx dsp 1230, .dispense 120), (ctx bob 1240, .requestUnstake 100),
    (ctx alice 1250, .stake prover1 700) ]
/-- The world after these calls. -/
def w7 : World := runCalls cfg w4 dispenses
end ToyL1

-- Witnesses: the price goes from 1 to 1321 / 1201 by the dispense; the stakes gain.
open ToyL1 in
example : (stakes ++ ([(ctx gov 1170, .finishSlash prover1 0)] ++ dispenses) : List (Ctx × Call)).all admissible = true ∧
    w7 = runCalls cfg genesis (stakes ++ ([(ctx gov 1170, .finishSlash prover1 0)] ++ dispenses) : List (Ctx × Call)) :=
  ⟨by decide +kernel, by unfold w7 w4 w3; rw [runCalls_append, runCalls_append]; rfl⟩
open ToyL1 in
example : w4.prove.bal cfg.iprove = 1200 ∧ w4.iprove.supply = 1200 ∧ w7.prove.bal cfg.iprove = 2020 ∧
    w7.iprove.supply = 1836 ∧ w4.staking.provers prover1 = true ∧
    (staked cfg bob w4).toOption.map (·.1) = some 400 ∧ (staked cfg alice w4).toOption.map (·.1) = some 400 ∧
    (staked cfg alice w7).toOption.map (·.1) = some 1138 := by decide +kernel
open ToyL1 in
example : (exec cfg (ctx bob 1240) (.requestUnstake 100) w4).toBool = true ∧
    (call cfg (ctx bob 1240) (.requestUnstake 100) w4).iprove.bal prover1 < w4.iprove.bal prover1 ∧
    (call cfg (ctx gov 1170) (.finishSlash prover1 0) w3).iprove.bal prover1 < w3.iprove.bal prover1 := by decide +kernel

/-! ## C59: staking -/

/-- What `stake` and `permitAndStake` do: the payer's $PROVE goes to the $iPROVE vault, the $iPROVE for it
(rounded down) to the prover's vault, the shares for that (rounded down) to the staking contract, and as
much $stPROVE to the payer, who is attached to the prover. Nothing else moves. -/
theorem c59_stake {cfg : Cfg} (hc : cfg.WF) {c : Ctx} {k : Call} {w w' : World} (hr : Reachable cfg w)
    (ha : Admissible cfg (c, k)) (h : exec cfg c k w = .ok ((), w')) {f p : Address} {v : U256}
    (hk : k = .stake p v ∧ f = c.sender ∨ ∃ s, k = .permitAndStake s p f v) :
    ∃ i n, i = v.toNat * (w.iprove.supply + 1) / (w.prove.bal cfg.iprove + 1) ∧
      n = i * ((w.vault p).supply + 1) / (w.iprove.bal p + 1) ∧ i ≠ 0 ∧ n ≠ 0 ∧
      -- accepted only if
      w.staking.provers p = true ∧ w.staking.deactivatedProvers p = false ∧ w.staking.slashClaimCount p = 0 ∧
      w.staking.minStakeAmount ≤ v.toNat ∧ v.toNat ≠ 0 ∧
      (w.staking.stakerToProver f = 0 ∨ w.staking.stakerToProver f = p) ∧
      -- $PROVE
      w'.prove.bal f + v.toNat = w.prove.bal f ∧ w'.prove.bal cfg.iprove = w.prove.bal cfg.iprove + v.toNat ∧
      (∀ a, a ≠ f → a ≠ cfg.iprove → w'.prove.bal a = w.prove.bal a) ∧ w'.prove.supply = w.prove.supply ∧
      -- $iPROVE
      w'.iprove.bal p = w.iprove.bal p + i ∧ (∀ a, a ≠ p → w'.iprove.bal a = w.iprove.bal a) ∧
      w'.iprove.supply = w.iprove.supply + i ∧
      -- vault shares
      (w'.vault p).supply = (w.vault p).supply + n ∧
      (w'.vault p).bal cfg.staking = (w.vault p).bal cfg.staking + n ∧
      (∀ q, q ≠ p → w'.vault q = w.vault q) ∧
      -- $stPROVE
      w'.st.bal f = w.st.bal f + n ∧ (∀ a, a ≠ f → w'.st.bal a = w.st.bal a) ∧ w'.st.supply = w.st.supply + n ∧
      w'.staking = { w.staking with stakerToProver := upd w.staking.stakerToProver f p } := by
  have hi := StakingInv.reachable hc w hr
  have hd := hc.distinct
  simp at hd
  obtain ⟨n, t, t2, hreg, hT, hP, e1, e2, g, he⟩ : ∃ (n : Nat) (t t2 : Erc20), w.staking.provers p = true ∧ Takes cfg c w k f v.toNat ∧
      (∀ s p f v, k = .permitAndStake s p f v → p ≠ cfg.iprove) ∧ t.bal = w.prove.bal ∧
      t.supply = w.prove.supply ∧ t.transfer f cfg.staking v.toNat = .ok t2 ∧
      StakeEffect cfg f p v.toNat n { w with prove := t2 } w' := by
    rcases hk with ⟨rfl, rfl⟩ | ⟨s, rfl⟩
    · obtain ⟨n, h⟩ := drop_ok.mp h
      obtain ⟨hreg, t1, t2, g1, g2, he⟩ := stake_ok h
      obtain ⟨a1, a2, a3, _⟩ := Erc20.spend_ok g1
      exact ⟨n, t1, t2, hreg, .stake p v, nofun, a2, a3, g2, he⟩
    · obtain ⟨n, h⟩ := drop_ok.mp h
      obtain ⟨hreg, t0, t1, t2, g0, g1, g2, he⟩ := permitAndStake_ok h
      obtain ⟨a1, a2, a3, _⟩ := Erc20.spend_ok g1
      have hb : t0.bal = w.prove.bal ∧ t0.supply = w.prove.supply := by
        rcases g0 with ⟨_, rfl⟩ | ⟨_, g0⟩
        · exact ⟨rfl, rfl⟩
        · obtain ⟨_, _, rfl⟩ := Erc20.approve_ok g0; exact ⟨rfl, rfl⟩
      refine ⟨n, t1, t2, hreg, (.permitAndStake s p f v (by rcases g0 with ⟨e, _⟩ | ⟨e, _⟩; exact Or.inr e; exact Or.inl e))
        , ?_, (a2.trans hb.1), (a3.trans hb.2), g2, he⟩
      intro _ q _ _ e
      injection e with _ e
      rw [← e]
      exact (hi.reg.ne hc hreg).2.2.1
  have hm0 := he.amount_ne
  have hf : ¬ cfg.System f := fun hf => hm0 (hT.system hc hi.prove ha hP hf)
  have hfs : f ≠ cfg.staking := fun e => hf (Or.inr (Or.inr (Or.inl e)))
  have hfi : f ≠ cfg.iprove := fun e => hf (Or.inr (Or.inl e))
  have hps : p ≠ cfg.staking := (hi.reg.ne hc hreg).2.2.2.1
  obtain ⟨_, h2, h3, h4, h5, p1, p2, i, i1, i2, i3, v1, s1, hi', hi0, hn, hn0, a1, a2, a3, a4, a5, a6, a7, rfl⟩ := he
  obtain ⟨x0, x1, x2, x3, x4, _⟩ := Erc20.transfer_bal g hfs
  obtain ⟨y0, y1, y2, y3, y4, _⟩ := Erc20.transfer_bal a2 (Ne.symm hd.2.1.1)
  have z1 := (Erc20.spend_ok a1).2.1
  have z2 := (Erc20.spend_ok a1).2.2.1
  dsimp only at z1 z2
  have b2 : i2.bal = i1.bal ∧ i2.supply = i1.supply := by
    rcases a4 with rfl | a4
    · exact ⟨rfl, rfl⟩
    · exact ⟨(Erc20.spend_ok a4).2.1, (Erc20.spend_ok a4).2.2.1⟩
  obtain ⟨c0, c1, c2, c3, c4, _⟩ := Erc20.transfer_bal a5 (Ne.symm hps)
  obtain ⟨_, _, m1⟩ := Erc20.mint_ok a3
  have m2 : i1.bal cfg.staking = w.iprove.bal cfg.staking + i := by rw [m1]; exact upd_same _ _ _
  have m3 : ∀ a, a ≠ cfg.staking → i1.bal a = w.iprove.bal a := by
    intro a ha'; rw [m1]; exact upd_ne _ _ ha'
  have m4 : i1.supply = w.iprove.supply + i := by rw [m1]
  obtain ⟨_, _, n1⟩ := Erc20.mint_ok a6
  obtain ⟨_, _, o1⟩ := Erc20.mint_ok a7
  refine ⟨i, n, ?_, ?_, hi0, hn0, hreg, h3, h4, h2, hm0, h5, ?_, ?_, ?_, ?_, ?_, ?_, ?_, ?_, ?_, ?_, ?_, ?_, ?_, rfl⟩
  · rw [hi', ← e1]
    dsimp only
    rw [x3 _ (Ne.symm hfi) hd.2.1.1]
  · rw [hn, m3 p hps]
  · show p2.bal f + _ = _
    rw [y3 f hfs hfi, z1, x1, e1]
    rw [e1] at x0
    omega
  · show p2.bal cfg.iprove = _
    rw [y2, z1, x3 _ (Ne.symm hfi) hd.2.1.1, e1]
  · intro a h1' h2'
    show p2.bal a = _
    by_cases e : a = cfg.staking
    · subst e
      rw [y1, z1, x2, e1]; omega
    · rw [y3 a e h2', z1, x3 a h1' e, e1]
  · show p2.supply = _
    rw [y4, z2, x4, e2]
  · show i3.bal p = _
    rw [c2, b2.1, m3 p hps]
  · intro a hq
    show i3.bal a = _
    by_cases e : a = cfg.staking
    · subst e
      rw [c1, b2.1, m2]; omega
    · rw [c3 a e hq, b2.1, m3 a e]
  · show i3.supply = _
    rw [c4, b2.2, m4]
  · show (upd w.vault p v1 p).supply = _
    rw [upd_same, n1]
  · show (upd w.vault p v1 p).bal cfg.staking = _
    rw [upd_same, n1]; exact upd_same _ _ _
  · intro r hr'
    exact upd_ne _ _ hr'
  · show s1.bal f = _
    rw [o1]; exact upd_same _ _ _
  · intro a ha'
    show s1.bal a = _
    rw [o1]; exact upd_ne _ _ ha'
  · show s1.supply = _
    rw [o1]

/-- Staking creates no value: right after staking `v`, the new shares are worth at most `v` $PROVE. -/
theorem c59_no_profit {cfg : Cfg} (hc : cfg.WF) {c : Ctx} {k : Call} {w w' : World} (hr : Reachable cfg w)
    (ha : Admissible cfg (c, k)) (h : exec cfg c k w = .ok ((), w')) {f p : Address} {v : U256}
    (hk : k = .stake p v ∧ f = c.sender ∨ ∃ s, k = .permitAndStake s p f v) (m : Nat)
    (hm : previewUnstake cfg p (w'.st.bal f - w.st.bal f) w' = .ok (m, w')) : m ≤ v.toNat := by
  obtain ⟨i, n, ei, en, _, _, _, _, _, _, _, _, _, e1, _, _, e2, _, e3, e4, _, _, e5, _⟩ := c59_stake hc hr ha h hk
  obtain ⟨_, rfl, _⟩ := previewUnstake_ok hm
  rw [e5, Nat.add_sub_cancel_left, e2, e4, e1, e3]
  have hn : n * (w.iprove.bal p + 1) ≤ i * ((w.vault p).supply + 1) := by rw [en]; exact Nat.div_mul_le_self _ _
  have hi : i * (w.prove.bal cfg.iprove + 1) ≤ v.toNat * (w.iprove.supply + 1) := by rw [ei]; exact Nat.div_mul_le_self _ _
  have h1 : n * (w.iprove.bal p + i + 1) / ((w.vault p).supply + n + 1) ≤ i := by
    refine Nat.div_le_of_le_mul ?_
    calc n * (w.iprove.bal p + i + 1) = n * (w.iprove.bal p + 1) + n * i := by
          rw [← Nat.mul_add]; congr 1; omega
      _ ≤ i * ((w.vault p).supply + 1) + n * i := Nat.add_le_add_right hn _
      _ = ((w.vault p).supply + n + 1) * i := by rw [Nat.mul_comm i, ← Nat.add_mul]; congr 1; omega
  refine Nat.div_le_of_le_mul (Nat.le_trans (Nat.mul_le_mul_right _ h1) ?_)
  calc i * (w.prove.bal cfg.iprove + v.toNat + 1) = i * (w.prove.bal cfg.iprove + 1) + i * v.toNat := by
        rw [← Nat.mul_add]; congr 1; omega
    _ ≤ v.toNat * (w.iprove.supply + 1) + i * v.toNat := Nat.add_le_add_right hi _
    _ = (w.iprove.supply + i + 1) * v.toNat := by rw [Nat.mul_comm v.toNat, ← Nat.add_mul]; congr 1; omega

-- Witnesses: a stake of 1000 at a price other than one, and what it is worth afterwards.
open ToyL1 in
example : (exec cfg (ctx bob 1260) (.stake prover1 1000) w7).toBool = true ∧
    (call cfg (ctx bob 1260) (.stake prover1 1000) w7).st.bal bob = w7.st.bal bob + 1134 ∧
    (previewUnstake cfg prover1 1134 (call cfg (ctx bob 1260) (.stake prover1 1000) w7)).toOption.map (·.1) = some 998 := by
  decide +kernel
open ToyL1 in
example : (exec cfg (ctx bob 1260) (.permitAndStake alice prover1 alice 1000) w7).toBool = true := by decide +kernel

end Verif
