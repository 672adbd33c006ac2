import Verif.PostDeploy
import Verif.PropsDeploy
import Verif.PropsStaking4
import Verif.PropsVapp
/-
# Property C103: the deployment in several transactions and the check after it
-/

namespace Verif
open L1

section
variable {cfg : Cfg}

theorem tries_done {l : List StakingArgs} {s : Sys} (h : s.stakingInit = true) : tries cfg l s = s := by
  induction l with
  | nil => rfl
  | cons a l ih =>
    show tries cfg l (match stakingInitialize cfg a s with | .ok s' => s' | .error _ => s) = s
    rw [(c71_once cfg s).2 h a]
    exact ih

/-- At most one of several attempts has an effect. -/
theorem tries_cases (l : List StakingArgs) (s : Sys) :
    (tries cfg l s = s ∧ ∀ a ∈ l, ∀ s', stakingInitialize cfg a s ≠ .ok s') ∨
      ∃ a ∈ l, stakingInitialize cfg a s = .ok (tries cfg l s) := by
  induction l with
  | nil => exact .inl ⟨rfl, fun a ha => nomatch ha⟩
  | cons a l ih =>
    have e : tries cfg (a :: l) s = tries cfg l (match stakingInitialize cfg a s with | .ok s' => s' | .error _ => s) := rfl
    rw [e]
    cases h : stakingInitialize cfg a s with
    | ok s' =>
      right
      have hi : s'.stakingInit = true := by
        obtain ⟨_, _, _, _, _, rfl⟩ := stakingInitialize_ok.mp h
        rfl
      exact ⟨a, List.mem_cons_self .., by rw [h]; exact congrArg _ (tries_done hi).symm⟩
    | error er =>
      rcases ih with ⟨h1, h2⟩ | ⟨b, hb, h2⟩
      · refine .inl ⟨h1, fun b hb s' => ?_⟩
        rcases List.mem_cons.mp hb with rfl | hb
        · rw [h]; exact fun x => nomatch x
        · exact h2 b hb s'
      · exact .inr ⟨b, List.mem_cons_of_mem _ hb, h2⟩

theorem approve_comm {t t1 t2 : Erc20} {a b x : Address} {m : Nat} (hab : a ≠ b) (h1 : t.approve a x m = .ok t1)
    (h2 : t1.approve b x m = .ok t2) : ∃ t1', t.approve b x m = .ok t1' ∧ t1'.approve a x m = .ok t2 := by
  obtain ⟨n1, n2, rfl⟩ := Erc20.approve_ok h1
  obtain ⟨n3, n4, rfl⟩ := Erc20.approve_ok h2
  refine ⟨{ t with allow := upd t.allow b (upd (t.allow b) x m) }, ?_, ?_⟩
  · unfold Erc20.approve; rw [if_neg (not_or.mpr ⟨n3, n2⟩)]
  · unfold Erc20.approve
    rw [if_neg (not_or.mpr ⟨n1, n2⟩)]
    have : upd (upd t.allow b (upd (t.allow b) x m)) a (upd (upd t.allow b (upd (t.allow b) x m) a) x m) =
        upd (upd t.allow a (upd (t.allow a) x m)) b (upd (upd t.allow a (upd (t.allow a) x m) b) x m) := by
      funext y
      by_cases h1 : y = a
      · subst h1
        rw [upd_same, upd_ne _ _ hab, upd_ne _ _ hab, upd_same]
      · rw [upd_ne _ _ h1]
        by_cases h2 : y = b
        · subst h2
          rw [upd_same, upd_same, upd_ne _ _ h1]
        · rw [upd_ne _ _ h2, upd_ne _ _ h2, upd_ne _ _ h1]
    exact congrArg (fun f => Except.ok { t with allow := f }) this

/-- The system after the deployment, with the staking contract initialised by `a`. -/
def scriptResult (cfg : Cfg) (p : DeployParams) (a : StakingArgs) (s : Sys) (t : Erc20) : Sys :=
  { w := { s.w with
      prove := t, iprove := Erc20.empty, st := Erc20.empty, staking := Staking.zero.initialized a
      vapp := VApp.zero.initialized
        ⟨p.owner, p.prove, cfg.iprove, p.auctioneer, cfg.staking, p.verifier, p.minDepositAmount, p.vkey,
          p.genesisStateRoot⟩ }
    deployed := true, vappInit := true, stakingInit := true, vappProve := cfg.prove, vappIprove := cfg.iprove
    stGovernor := a.governor, stVapp := a.vApp, stProve := a.prove, stIprove := a.intermediateProve
    ipAsset := cfg.prove, ipStaking := cfg.staking, vappImpl := p.vappImpl, stakingImpl := p.stakingImpl }

theorem staking_form {a : StakingArgs} {s s' : Sys} (h : stakingInitialize cfg a s = .ok s') :
    a.governor ≠ 0 ∧ ∃ t, s' = { s with
        w := { s.w with prove := t, staking := s.w.staking.initialized a }, stakingInit := true, stGovernor := a.governor
        stVapp := a.vApp, stProve := a.prove, stIprove := a.intermediateProve } ∧
      (a.prove = cfg.prove → s.w.prove.approve cfg.staking a.intermediateProve max256 = .ok t) := by
  obtain ⟨_, ⟨_, hg, _⟩, _, w', hw, rfl⟩ := stakingInitialize_ok.mp h
  refine ⟨hg, ?_⟩
  rcases approveMax_ok.mp hw with ⟨_, t, ht, rfl⟩ | ⟨hne, rfl⟩
  · exact ⟨t, rfl, fun _ => ht⟩
  · exact ⟨s.w.prove, rfl, fun e => absurd e hne⟩

theorem vapp_form {a : VappArgs} (ha : a.prove = cfg.prove) {impl : Address} {s s' : Sys}
    (h : newVappProxy cfg impl a s = .ok s') :
    ∃ t, s' = { s with
        w := { s.w with prove := t, vapp := VApp.zero.initialized a }, vappInit := true, vappProve := a.prove
        vappIprove := a.iProve, vappImpl := impl } ∧
      s.w.prove.approve cfg.vapp a.iProve max256 = .ok t := by
  obtain ⟨_, _, _, w', hw, rfl⟩ := vappInitialize_ok.mp h
  rcases approveMax_ok.mp hw with ⟨_, t, ht, rfl⟩ | ⟨hne, _⟩
  · exact ⟨t, rfl, ht⟩
  · exact absurd ha hne

/-- What the script leaves behind, whoever comes in between. -/
theorem allScript_ok (hc : cfg.WF) {p : DeployParams} (hp : p.prove = cfg.prove) (hok : p.Ok) {l1 l2 l3 : List StakingArgs}
    {s s1 : Sys} (h : allScript cfg p l1 l2 l3 s = .ok s1) :
    s.deployed = false ∧ ∃ a t, (a ∈ l1 ∨ a ∈ l2 ∨ a ∈ l3 ∨ a = p.stakingArgs cfg) ∧ s1 = scriptResult cfg p a s t ∧
      a.governor ≠ 0 ∧
      (a.prove = cfg.prove → a.intermediateProve = cfg.iprove →
        ∃ t1, s.w.prove.approve cfg.vapp cfg.iprove max256 = .ok t1 ∧ t1.approve cfg.staking cfg.iprove max256 = .ok t) := by
  obtain ⟨n1, n2, n3, n4⟩ := hc.nonzero
  have hne : cfg.staking ≠ cfg.vapp := by
    have := hc.distinct
    simp at this
    exact this.2.2
  unfold allScript at h
  split at h
  · exact nomatch h
  · rename_i hd
    refine ⟨by simpa using hd, ?_⟩
    simp only [dbind_ok] at h
    obtain ⟨s3, h3, h4⟩ := h
    obtain rfl := Except.ok.inj h4
    rcases tries_cases (cfg := cfg) l1 (newStakingProxy p.stakingImpl s) with ⟨e1, _⟩ | ⟨a, ha, e1⟩
    · rw [e1] at h3
      rcases tries_cases (cfg := cfg) l2 (newIprove p.prove cfg.staking (newStakingProxy p.stakingImpl s)) with
        ⟨e2, _⟩ | ⟨a, ha, e2⟩
      · rw [e2] at h3
        obtain ⟨t, e, ht⟩ := vapp_form hp h3
        rcases tries_cases (cfg := cfg) l3 s3 with e3 | ⟨a, ha, e3⟩
        · rw [e3.1]
          rcases tries_cases (cfg := cfg) [p.stakingArgs cfg] s3 with e4 | ⟨a, ha, e4⟩
          · exfalso
            obtain ⟨h1, h2, h3, h4, h5, h6, h7, h8, h9, h10⟩ := hok
            obtain ⟨t2, ht2⟩ : ∃ t2, t.approve cfg.staking cfg.iprove max256 = .ok t2 := by
              unfold Erc20.approve
              rw [if_neg (not_or.mpr ⟨n3, n2⟩)]
              exact ⟨_, rfl⟩
            subst e
            exact e4.2 _ (List.mem_singleton.mpr rfl) _ (stakingInitialize_ok.mpr ⟨rfl,
              ⟨h1, h6, n4, by show p.prove ≠ 0; rw [hp]; exact n1, n2, h7⟩, ⟨h8, h9, h10⟩, _,
              approveMax_ok.mpr (.inl ⟨hp, t2, ht2, rfl⟩), rfl⟩)
          · obtain ⟨hg, t', e5, ht'⟩ := staking_form e4
            rw [e5]
            subst e
            refine ⟨a, t', .inr (.inr (.inr (List.mem_singleton.mp ha))), ?_, hg, fun x y => ⟨t, ht, by rw [← y]; exact ht' x⟩⟩
            simp only [scriptResult, newIprove, newStakingProxy, hp]
        · obtain ⟨hg, t', e4, ht'⟩ := staking_form e3
          rw [e4, tries_done rfl]
          subst e
          refine ⟨a, t', .inr (.inr (.inl ha)), ?_, hg, fun x y => ⟨t, ht, by rw [← y]; exact ht' x⟩⟩
          simp only [scriptResult, newIprove, newStakingProxy, hp]
      · obtain ⟨hg, t', e4, ht'⟩ := staking_form e2
        rw [e4] at h3
        obtain ⟨t, e, ht⟩ := vapp_form hp h3
        have hi : s3.stakingInit = true := by rw [e]
        rw [tries_done hi, tries_done hi]
        subst e
        refine ⟨a, t, .inr (.inl ha), ?_, hg, fun x y => approve_comm hne (y ▸ ht' x) ht⟩
        simp only [scriptResult, newIprove, newStakingProxy, hp]
    · obtain ⟨hg, t', e4, ht'⟩ := staking_form e1
      rw [e4, tries_done rfl] at h3
      obtain ⟨t, e, ht⟩ := vapp_form hp h3
      have hi : s3.stakingInit = true := by rw [e]; rfl
      rw [tries_done hi, tries_done hi]
      subst e
      refine ⟨a, t, .inl ha, ?_, hg, fun x y => approve_comm hne (y ▸ ht' x) ht⟩
      simp only [scriptResult, newIprove, newStakingProxy, hp]

/-! ## The property -/

/-- **C103 (the check passes after the deployment).** After the atomic deployment the check passes, at any time. -/
theorem c103_passes (cfg : Cfg) (hc : cfg.WF) (p : DeployParams) (hp : p.prove = cfg.prove) (s s0 : Sys) (now : Nat)
    (h : deploy cfg p s = .ok s0) : postCheck cfg p now s0 = true := by
  obtain ⟨_, _, t1, t2, ht1, ht2, rfl⟩ := (deploy_ok hc hp).mp h
  have hne : cfg.vapp ≠ cfg.staking := by
    have := hc.distinct
    simp at this
    exact fun e => this.2.2 e.symm
  have a1 : t2.allow cfg.staking cfg.iprove = max256 := by
    obtain ⟨_, _, rfl⟩ := Erc20.approve_ok ht2
    show upd t1.allow cfg.staking _ cfg.staking cfg.iprove = _
    rw [upd_same, upd_same]
  have a2 : t2.allow cfg.vapp cfg.iprove = max256 := by
    obtain ⟨_, _, rfl⟩ := Erc20.approve_ok ht2
    show upd t1.allow cfg.staking _ cfg.vapp cfg.iprove = _
    rw [upd_ne _ _ hne]
    obtain ⟨_, _, rfl⟩ := Erc20.approve_ok ht1
    show upd s.w.prove.allow cfg.vapp _ cfg.vapp cfg.iprove = _
    rw [upd_same, upd_same]
  simp [postCheck, checkVApp, checkStaking, checkTokens, deployedWorld, VApp.initialized, VApp.zero, Staking.initialized,
    Staking.zero, Erc20.empty, a1, a2, upd_same]

/-- **C103 (what the check sees).** If others initialise the staking proxy while the script runs, as often and with
whatever arguments, and the check passes nevertheless, then the contracts are exactly as after the atomic deployment
with the same parameters, except for the governor the staking contract has stored. -/
theorem c103_sound_partial (cfg : Cfg) (hc : cfg.WF) (p : DeployParams) (hp : p.prove = cfg.prove) (hok : p.Ok)
    (l1 l2 l3 : List StakingArgs) (s s1 : Sys) (now : Nat) (h : allScript cfg p l1 l2 l3 s = .ok s1)
    (hk : postCheck cfg p now s1 = true) :
    ∃ s0 g, deploy cfg p s = .ok s0 ∧ g ≠ 0 ∧ s1 = { s0 with stGovernor := g } := by
  obtain ⟨hd, a, t, _, rfl, hg, ht⟩ := allScript_ok hc hp hok h
  simp only [postCheck, checkVApp, checkStaking, checkTokens, scriptResult, Staking.initialized, Bool.and_eq_true] at hk
  obtain ⟨⟨_, ⟨⟨⟨⟨⟨⟨⟨⟨⟨⟨⟨⟨⟨⟨_, k1⟩, k2⟩, k3⟩, k4⟩, k5⟩, k6⟩, k7⟩, k8⟩, k9⟩, _⟩, _⟩, _⟩, _⟩, _⟩⟩, _⟩ := hk
  replace k1 := of_decide_eq_true k1
  replace k2 := of_decide_eq_true k2
  replace k3 := of_decide_eq_true k3
  replace k4 := of_decide_eq_true k4
  replace k5 := of_decide_eq_true k5
  replace k6 := of_decide_eq_true k6
  replace k7 := of_decide_eq_true k7
  replace k8 := of_decide_eq_true k8
  replace k9 := of_decide_eq_true k9
  obtain ⟨owner, governor, vApp, prove, intermediateProve, dispenser, minStakeAmount, maxUnstakeRequests, unstakePeriod,
    slashCancellationPeriod⟩ := a
  dsimp only at *
  obtain rfl := k1
  obtain rfl := k2
  obtain rfl := k3
  obtain rfl := k4
  obtain rfl := k5
  obtain rfl := BitVec.eq_of_toNat_eq k6
  obtain rfl := BitVec.eq_of_toNat_eq k7
  obtain rfl := BitVec.eq_of_toNat_eq k8
  obtain rfl := BitVec.eq_of_toNat_eq k9
  obtain ⟨t1, ht1, ht2⟩ := ht rfl rfl
  refine ⟨_, governor, (deploy_ok hc hp).mpr ⟨hd, hok, t1, t, ht1, ht2, rfl⟩, hg, ?_⟩
  simp only [scriptResult, deployedWorld, hp]
  rfl

/-- **C103 (nobody in between).** If nobody comes in between, the script does what the atomic deployment does. -/
theorem c103_same (cfg : Cfg) (hc : cfg.WF) (p : DeployParams) (hp : p.prove = cfg.prove) (hok : p.Ok)
    (s s1 : Sys) (h : allScript cfg p [] [] [] s = .ok s1) : deploy cfg p s = .ok s1 := by
  obtain ⟨hd, a, t, ha, rfl, hg, ht⟩ := allScript_ok hc hp hok h
  simp only [List.not_mem_nil, false_or] at ha
  subst ha
  obtain ⟨t1, ht1, ht2⟩ := ht hp rfl
  refine (deploy_ok hc hp).mpr ⟨hd, hok, t1, t, ht1, ht2, ?_⟩
  simp only [scriptResult, deployedWorld, hp, DeployParams.stakingArgs]

/-- **C103 (the check does not see the governor).** "Reverts if any deployment invariant is violated or the contracts
are not in the expected state after deployment" is false: whoever wants `g` as the governor of the staking contract can
initialise the proxy with the intended arguments and `g` while the script runs. The script goes on, the governor is `g`
and the check passes. -/
theorem c103_false (cfg : Cfg) (hc : cfg.WF) (p : DeployParams) (hp : p.prove = cfg.prove) (hok : p.Ok) (s : Sys)
    (hd : s.deployed = false) (g : Address) (hg : g ≠ 0) :
    ∃ a s1, allScript cfg p [] [] [a] s = .ok s1 ∧ s1.stGovernor = g ∧ ∀ now, postCheck cfg p now s1 = true := by
  obtain ⟨n1, n2, n3, n4⟩ := hc.nonzero
  let p' := { p with governor := g }
  have hok' : p'.Ok := by
    obtain ⟨h1, h2, h3, h4, h5, h6, h7, h8, h9, h10⟩ := hok
    exact ⟨h1, h2, h3, h4, h5, hg, h7, h8, h9, h10⟩
  obtain ⟨t1, ht1⟩ : ∃ t1, s.w.prove.approve cfg.vapp cfg.iprove max256 = .ok t1 := by
    unfold Erc20.approve
    rw [if_neg (not_or.mpr ⟨n4, n2⟩)]
    exact ⟨_, rfl⟩
  obtain ⟨t2, ht2⟩ : ∃ t2, t1.approve cfg.staking cfg.iprove max256 = .ok t2 := by
    unfold Erc20.approve
    rw [if_neg (not_or.mpr ⟨n3, n2⟩)]
    exact ⟨_, rfl⟩
  obtain ⟨s0, h0, hs0⟩ : ∃ s0, deploy cfg p' s = .ok s0 ∧ s0.stGovernor = g :=
    ⟨_, (deploy_ok (p := p') hc hp).mpr ⟨hd, hok', t1, t2, ht1, ht2, rfl⟩, rfl⟩
  refine ⟨p'.stakingArgs cfg, s0, ?_, hs0, fun now => c103_passes cfg hc p' hp s s0 now h0⟩
  unfold deploy at h0
  rw [if_neg (by rw [hd]; exact Bool.false_ne_true)] at h0
  simp only [dbind_ok] at h0
  obtain ⟨s3, h3, s4, h4, h5⟩ := h0
  have hi : s4.stakingInit = true := by
    obtain ⟨_, _, _, _, _, rfl⟩ := stakingInitialize_ok.mp h4
    rfl
  have e : tries cfg [p'.stakingArgs cfg] s3 = s4 := by
    show (match stakingInitialize cfg (p'.stakingArgs cfg) s3 with | .ok s' => s' | .error _ => s3) = s4
    rw [show stakingInitialize cfg (p'.stakingArgs cfg) s3 = .ok s4 from h4]
  unfold allScript
  rw [if_neg (by rw [hd]; exact Bool.false_ne_true)]
  simp only [dbind_ok]
  exact ⟨s3, h3, by rw [e, tries_done hi]; exact h5⟩

/-- **C103 (the check later on).** Whenever the check passes on contracts in use, nobody has staked, bridged or created
anything that is still there: there is no prover, nobody holds $iPROVE or stPROVE or waits for an unstake, no escrow holds
anything, and the vApp has the root of genesis only. -/
theorem c103_later (cfg : Cfg) (hc : cfg.WF) (p : DeployParams) (s : Sys) (now : Nat) (hr : Reachable cfg s.w)
    (hk : postCheck cfg p now s = true) :
    (∀ a, s.w.staking.provers a = false) ∧ (∀ a, s.w.staking.ownerToProver a = 0) ∧
      (∀ a, s.w.staking.stakerToProver a = 0 ∧ s.w.staking.unstakeClaims a = []) ∧
      (∀ a, s.w.iprove.bal a = 0 ∧ s.w.st.bal a = 0) ∧ (∀ a, s.w.staking.escrowPools a = ⟨0, 0⟩) ∧
      s.w.vapp.roots 0 = p.genesisStateRoot ∧ ∀ b, b ≠ 0 → s.w.vapp.roots b = 0 := by
  obtain ⟨hg, hi⟩ := StakeInv.reachable hc _ hr
  simp only [postCheck, checkVApp, checkStaking, checkTokens, Bool.and_eq_true] at hk
  obtain ⟨⟨⟨⟨⟨⟨⟨_, k1⟩, _⟩, _⟩, k2⟩, _⟩, ⟨⟨_, k3⟩, k4⟩⟩, ⟨⟨⟨_, k5⟩, _⟩, _⟩⟩ := hk
  replace k1 := of_decide_eq_true k1
  replace k2 := of_decide_eq_true k2
  replace k3 := of_decide_eq_true k3
  replace k4 := of_decide_eq_true k4
  replace k5 := of_decide_eq_true k5
  have hn : ∀ a, s.w.staking.provers a = false := by
    intro a
    cases h : s.w.staking.provers a with
    | false => rfl
    | true => have := hg.id a h; omega
  have hz : ∀ a, s.w.staking.stakerToProver a = 0 := by
    intro a
    by_cases h : s.w.staking.stakerToProver a = 0
    · exact h
    · have := hi.staked a h
      rw [hn] at this
      exact nomatch this
  refine ⟨hn, ?_, fun a => ⟨hz a, (hi.unstaked a (hz a)).2⟩, ?_, fun a => hi.pool0 a (hn a), ?_, ?_⟩
  · intro a
    by_cases h : s.w.staking.ownerToProver a = 0
    · exact h
    · have := (hg.owned a h).1
      rw [hn] at this
      exact nomatch this
  · intro a
    have h1 := hi.iprove.le a
    have h2 := hi.st.le a
    omega
  · rw [k1] at k2; exact k2
  · intro b hb
    by_cases h : s.w.vapp.roots b = 0
    · exact h
    · have := (c34_roots_set hr b).mp h
      rw [k1] at this
      exact absurd (BitVec.eq_of_toNat_eq (by simpa using this)) hb

end

/-! ## Concrete cases -/

namespace ToyL1

example : params.Ok := by unfold DeployParams.Ok; decide
example : params.prove = cfg.prove ∧ blank.deployed = false := ⟨rfl, rfl⟩
/-- The script does its work when nobody comes in between, and the check passes. -/
example : (match allScript cfg params [] [] [] blank with
    | .ok s => postCheck cfg params 5 s && s.stGovernor == 303
    | .error _ => false) = true := by decide +kernel
/-- bob takes over the staking contract in the first gap: the check fails. -/
example : (match allScript cfg params [takeover] [] [] blank with
    | .ok s => !postCheck cfg params 5 s && s.w.staking.owner == bob
    | .error _ => false) = true := by decide +kernel
/-- bob makes only themselves governor, in the second gap: the check passes. -/
example : (match allScript cfg params [] [{ params.stakingArgs cfg with governor := bob }] [takeover] blank with
    | .ok s => postCheck cfg params 5 s && s.stGovernor == bob
    | .error _ => false) = true := by decide +kernel
/-- bob takes over, sets a dispense rate and gives the contract back: the check passes with a rate
nobody at the deployer has set. -/
example : (match allScript cfg params [{ params.stakingArgs cfg with owner := bob }] [] [] blank with
    | .ok s =>
      match exec cfg (ctx bob 2) (.updateDispenseRate 7) s.w with
      | .ok (_, w) =>
        match exec cfg (ctx bob 3) (.stakingSetOwner gov) w with
        | .ok (_, w) => postCheck cfg params 5 { s with w := w } && w.staking.dispenseRate == 7
        | .error _ => false
      | .error _ => false
    | .error _ => false) = true := by decide +kernel

/-- The contracts of `life` right after the deployment are in use, and the check passes on them; after the deposit it
fails, for the counter of the on-chain transactions has moved. -/
example : Reachable cfg (drun cfg blank (life.take 3)).w :=
  (c71_life cfg cfg_wf blank (life.take 3) ⟨rfl, rfl⟩
    (by
      have h : ∀ a : Address, 4 < a.toNat ∧ a.toNat < 2 ^ 159 → ¬ cfg.System a := fun a h => not_system a h.1 h.2
      intro x hx
      simp only [life, List.take_succ_cons, List.take_zero, List.mem_cons, List.not_mem_nil, or_false] at hx
      rcases hx with rfl | rfl | rfl
      · exact h gov (by decide)
      · rfl
      · trivial)
    (show NoUpgrade cfg blank [life[0], life[1], life[2]] from ⟨id, id, id, trivial⟩) (by decide +kernel)).1
example : postCheck cfg params 5 (drun cfg blank (life.take 3)) = true ∧
    postCheck cfg params 5 (drun cfg blank life) = false := by decide +kernel

end ToyL1
end Verif
