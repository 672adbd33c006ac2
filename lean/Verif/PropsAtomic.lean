import Verif.Atomic
import Verif.PropsPostDeploy
/-
# Property C112: the atomic deployment script cannot be disturbed
-/

namespace Verif
open L1

/-! ## Specification -/

/-- What transactions do to the contracts if nobody but the script's account uses the deployer: their calls of the
contracts, without those of the deployer. -/
def dealings : List (Ctx × ACall) → List (Ctx × DCall)
  | [] => []
  | (c, .call k) :: h => (c, .call k) :: dealings h
  | (c, .vappInitialize a) :: h => (c, .vappInitialize a) :: dealings h
  | (c, .stakingInitialize a) :: h => (c, .stakingInitialize a) :: dealings h
  | (c, .vappUpgrade i) :: h => (c, .vappUpgrade i) :: dealings h
  | (c, .stakingUpgrade i) :: h => (c, .stakingUpgrade i) :: dealings h
  | (_, .setParams1 _) :: h | (_, .setParams2 _) :: h | (_, .setParams3 _) :: h | (_, .deploy) :: h => dealings h

/-- The deployment that the arguments of the script ask for: each argument where its name says, and the governor that is
created with the first group. -/
def asked (governorAt : Params1 → Address) (p1 : Params1) (p2 : Params2) (p3 : Params3) : DeployParams :=
  { stakingImpl := p1.stakingImpl, vappImpl := p2.vappImpl, prove := p1.prove, governor := governorAt p1
    owner := p2.owner, auctioneer := p2.auctioneer, verifier := p2.verifier, vkey := p2.vkey
    genesisStateRoot := p3.genesisStateRoot, minDepositAmount := p2.minDepositAmount
    dispenser := p3.dispenser, minStakeAmount := p3.minStakeAmount, maxUnstakeRequests := p3.maxUnstakeRequests
    unstakePeriod := p3.unstakePeriod, slashCancellationPeriod := p3.slashCancellationPeriod }

/-! ## Lemmas -/

section
variable {cfg : Cfg} {gov : Params1 → Address}

theorem dealings_append (h g : List (Ctx × ACall)) : dealings (h ++ g) = dealings h ++ dealings g := by
  induction h with
  | nil => rfl
  | cons x h ih =>
    obtain ⟨c, k⟩ := x
    cases k <;> simp only [List.cons_append, dealings, ih]

theorem drun_cons (s : Sys) (x : Ctx × DCall) (h : List (Ctx × DCall)) :
    drun cfg s (x :: h) = drun cfg (dcall cfg s x) h := rfl

theorem drun_append (s : Sys) (h g : List (Ctx × DCall)) : drun cfg s (h ++ g) = drun cfg (drun cfg s h) g := by
  simp [drun, List.foldl_append]

/-- Strangers cannot change what the deployer has stored, nor have it deploy. -/
theorem arun_strangers : ∀ (h : List (Ctx × ACall)) (s : Site), (∀ x ∈ h, x.1.sender ≠ s.deployer.deployerOwner) →
    arun cfg gov s h = ⟨drun cfg s.sys (dealings h), s.deployer⟩
  | [], _, _ => rfl
  | (c, k) :: h, s, hs => by
    have h1 : c.sender ≠ s.deployer.deployerOwner := hs (c, k) (List.mem_cons_self ..)
    show arun cfg gov (acall cfg gov s (c, k)) h = _
    have key : ∀ d : DCall, aexec cfg gov c s k = (do return { s with sys := ← dexec cfg c s.sys d }) →
        acall cfg gov s (c, k) = ⟨dcall cfg s.sys (c, d), s.deployer⟩ := by
      intro d e
      unfold acall dcall
      dsimp only
      rw [e]
      cases hx : dexec cfg c s.sys d with
      | ok s' => rfl
      | error e => rfl
    have none : ∀ e, aexec cfg gov c s k = .error e → acall cfg gov s (c, k) = s := by
      intro e he
      unfold acall
      rw [he]
    have rest : ∀ s', acall cfg gov s (c, k) = s' → s'.deployer = s.deployer →
        arun cfg gov (acall cfg gov s (c, k)) h = ⟨drun cfg s'.sys (dealings h), s.deployer⟩ := by
      intro s' e he
      rw [e, arun_strangers h s' (fun x hx => by rw [he]; exact hs x (List.mem_cons_of_mem _ hx)), he]
    cases k with
    | setParams1 p => exact rest s (none _ (if_neg h1)) rfl
    | setParams2 p => exact rest s (none _ (if_neg h1)) rfl
    | setParams3 p => exact rest s (none _ (if_neg h1)) rfl
    | deploy => exact rest s (none _ (if_neg h1)) rfl
    | call k => exact rest _ (key (.call k) rfl) rfl
    | vappInitialize a => exact rest _ (key (.vappInitialize a) rfl) rfl
    | stakingInitialize a => exact rest _ (key (.stakingInitialize a) rfl) rfl
    | vappUpgrade i => exact rest _ (key (.vappUpgrade i) rfl) rfl
    | stakingUpgrade i => exact rest _ (key (.stakingUpgrade i) rfl) rfl

/-- Before the deployment nothing but $PROVE can be used. -/
theorem dealings_undeployed : ∀ (h : List (Ctx × ACall)) (s : Sys), s.deployed = false →
    (drun cfg s (dealings h)).deployed = false ∧ NoUpgrade cfg s (dealings h)
  | [], _, hd => ⟨hd, trivial⟩
  | (c, k) :: h, s, hd => by
    have key : ∀ d : DCall, dealings ((c, k) :: h) = (c, d) :: dealings h →
        (dcall cfg s (c, d)).deployed = false → ¬ Upgrade cfg s (c, d) →
        (drun cfg s (dealings ((c, k) :: h))).deployed = false ∧ NoUpgrade cfg s (dealings ((c, k) :: h)) := by
      intro d e h1 h2
      rw [e, drun_cons]
      obtain ⟨i1, i2⟩ := dealings_undeployed h _ h1
      exact ⟨i1, h2, i2⟩
    have err : ∀ d e, dexec cfg c s d = .error e → (dcall cfg s (c, d)).deployed = false ∧ ¬ Upgrade cfg s (c, d) := by
      intro d e he
      refine ⟨by unfold dcall; rw [he]; exact hd, ?_⟩
      unfold Upgrade
      dsimp only
      split
      · rintro ⟨s', h'⟩; rw [he] at h'; exact nomatch h'
      · rintro ⟨s', h'⟩; rw [he] at h'; exact nomatch h'
      · exact id
    cases k with
    | setParams1 p => exact dealings_undeployed h s hd
    | setParams2 p => exact dealings_undeployed h s hd
    | setParams3 p => exact dealings_undeployed h s hd
    | deploy => exact dealings_undeployed h s hd
    | call k =>
      refine key (.call k) rfl ?_ id
      unfold dcall
      dsimp only
      dsimp only [dexec]
      by_cases hp : k.isProve = false
      · rw [if_pos ⟨hd, hp⟩]; exact hd
      · rw [if_neg fun e => hp e.2]
        cases hx : exec cfg c k s.w with
        | ok y => exact hd
        | error e => exact hd
    | vappInitialize a =>
      exact (err (.vappInitialize a) .notDeployed (if_neg (by rw [hd]; decide))).elim (key (.vappInitialize a) rfl)
    | stakingInitialize a =>
      exact (err (.stakingInitialize a) .notDeployed (if_neg (by rw [hd]; decide))).elim (key (.stakingInitialize a) rfl)
    | vappUpgrade i => exact (err (.vappUpgrade i) .notDeployed (if_pos hd)).elim (key (.vappUpgrade i) rfl)
    | stakingUpgrade i => exact (err (.stakingUpgrade i) .notDeployed (if_pos hd)).elim (key (.stakingUpgrade i) rfl)

end

/-! ## The property -/

/-- **C112 (undisturbed).** Whatever others send while the script runs, the deployment is the one with the parameters of
the script, on top of what the others did to the contracts: the same as if they had done all of it before. -/
theorem c112_undisturbed (cfg : Cfg) (governorAt : Params1 → Address) (c : Ctx) (p1 : Params1) (p2 : Params2)
    (p3 : Params3) (h0 h1 h2 h3 : List (Ctx × ACall)) (s : Sys)
    (hs : ∀ x ∈ h0 ++ h1 ++ h2 ++ h3, x.1.sender ≠ c.sender) :
    atomicScript cfg governorAt c p1 p2 p3 h0 h1 h2 h3 s =
      (deploy cfg (asked governorAt p1 p2 p3) (drun cfg s (dealings (h0 ++ h1 ++ h2 ++ h3)))).map
        fun sys => ⟨sys, ⟨p1, p2, p3, c.sender⟩⟩ := by
  have m0 : ∀ x ∈ h0, x.1.sender ≠ c.sender := fun x hx => hs x (by simp [hx])
  have m1 : ∀ x ∈ h1, x.1.sender ≠ c.sender := fun x hx => hs x (by simp [hx])
  have m2 : ∀ x ∈ h2, x.1.sender ≠ c.sender := fun x hx => hs x (by simp [hx])
  have m3 : ∀ x ∈ h3, x.1.sender ≠ c.sender := fun x hx => hs x (by simp [hx])
  have e1 : ∀ sys d1 d2 d3, acall cfg governorAt ⟨sys, ⟨d1, d2, d3, c.sender⟩⟩ (c, .setParams1 p1) =
      ⟨sys, ⟨p1, d2, d3, c.sender⟩⟩ := fun sys d1 d2 d3 => by simp [acall, aexec, onlyDeployerOwner]
  have e2 : ∀ sys d1 d2 d3, acall cfg governorAt ⟨sys, ⟨d1, d2, d3, c.sender⟩⟩ (c, .setParams2 p2) =
      ⟨sys, ⟨d1, p2, d3, c.sender⟩⟩ := fun sys d1 d2 d3 => by simp [acall, aexec, onlyDeployerOwner]
  have e3 : ∀ sys d1 d2 d3, acall cfg governorAt ⟨sys, ⟨d1, d2, d3, c.sender⟩⟩ (c, .setParams3 p3) =
      ⟨sys, ⟨d1, d2, p3, c.sender⟩⟩ := fun sys d1 d2 d3 => by simp [acall, aexec, onlyDeployerOwner]
  unfold atomicScript
  dsimp only
  rw [arun_strangers h0 _ m0]
  unfold newDeployer
  dsimp only
  rw [e1, arun_strangers h1 _ m1]
  dsimp only
  rw [e2, arun_strangers h2 _ m2]
  dsimp only
  rw [e3, arun_strangers h3 _ m3]
  dsimp only [aexec]
  rw [if_pos rfl, ← drun_append, ← drun_append, ← drun_append, ← dealings_append, ← dealings_append, ← dealings_append,
    ← List.append_assoc, ← List.append_assoc]
  have ea : Deployer.params governorAt ⟨p1, p2, p3, c.sender⟩ = asked governorAt p1 p2 p3 := rfl
  rw [ea]
  generalize deploy cfg (asked governorAt p1 p2 p3) _ = r
  cases r <;> rfl

/-- **C112 (the script works).** From the time when only the $PROVE token exists, without holders: if the parameters that
must not be zero are not (and only then), the script succeeds, whatever others send before and in between; right after it
the contracts are in a genesis state with the script's parameters, know each other's true addresses and the governor's,
pass the check of C103 at any time, and everybody has as much $PROVE as they had before. -/
theorem c112_works (cfg : Cfg) (hc : cfg.WF) (governorAt : Params1 → Address) (c : Ctx) (p1 : Params1) (p2 : Params2)
    (p3 : Params3) (h0 h1 h2 h3 : List (Ctx × ACall)) (s : Sys) (hb : Blank s)
    (hs : ∀ x ∈ h0 ++ h1 ++ h2 ++ h3, x.1.sender ≠ c.sender)
    (ha : ∀ x ∈ h0 ++ h1 ++ h2 ++ h3, ∀ k, x.2 = .call k → Admissible cfg (x.1, k)) (hp : p1.prove = cfg.prove) :
    ((∃ s1, atomicScript cfg governorAt c p1 p2 p3 h0 h1 h2 h3 s = .ok s1) ↔
      (asked governorAt p1 p2 p3).Ok) ∧
    ∀ s1, atomicScript cfg governorAt c p1 p2 p3 h0 h1 h2 h3 s = .ok s1 →
      Genesis cfg s1.sys.w ∧ Wired cfg s1.sys ∧ s1.sys.stGovernor = governorAt p1 ∧
      s1.sys.vappImpl = p2.vappImpl ∧ s1.sys.stakingImpl = p1.stakingImpl ∧
      s1.sys.w.vapp.owner = p2.owner ∧ s1.sys.w.staking.owner = p2.owner ∧ s1.sys.w.vapp.auctioneer = p2.auctioneer ∧
      s1.sys.w.vapp.verifier = p2.verifier ∧ s1.sys.w.vapp.vkey = p2.vkey ∧
      s1.sys.w.vapp.roots 0 = p3.genesisStateRoot ∧ s1.sys.w.vapp.minDepositAmount = p2.minDepositAmount.toNat ∧
      s1.sys.w.staking.dispenser = p3.dispenser ∧ s1.sys.w.staking.minStakeAmount = p3.minStakeAmount.toNat ∧
      s1.sys.w.staking.maxUnstakeRequests = p3.maxUnstakeRequests.toNat ∧
      s1.sys.w.staking.unstakePeriod = p3.unstakePeriod.toNat ∧
      s1.sys.w.staking.slashCancellationPeriod = p3.slashCancellationPeriod.toNat ∧
      (∀ now, postCheck cfg (asked governorAt p1 p2 p3) now s1.sys = true) ∧
      ∀ a, s1.sys.w.prove.bal a = (drun cfg s (dealings (h0 ++ h1 ++ h2 ++ h3))).w.prove.bal a := by
  rw [c112_undisturbed cfg governorAt c p1 p2 p3 h0 h1 h2 h3 s hs]
  generalize h0 ++ h1 ++ h2 ++ h3 = h at ha hs
  obtain ⟨hd, hu⟩ := dealings_undeployed (cfg := cfg) h s hb.deployed
  have had : ∀ x ∈ dealings h, DAdmissible cfg x := by
    clear hd hu hs
    induction h with
    | nil => intro x hx; exact nomatch hx
    | cons y h ih =>
      have ih := ih fun x hx => ha x (List.mem_cons_of_mem _ hx)
      have hy := ha y (List.mem_cons_self ..)
      obtain ⟨cy, k⟩ := y
      intro x hx
      cases k <;> simp only [dealings, List.mem_cons] at hx
      case call k =>
        rcases hx with rfl | hx
        · exact hy k rfl
        · exact ih x hx
      case vappInitialize | stakingInitialize | vappUpgrade | stakingUpgrade =>
        rcases hx with rfl | hx
        · trivial
        · exact ih x hx
      all_goals exact ih x hx
  have hacc := c71_accepted cfg hc (asked governorAt p1 p2 p3) hp (drun cfg s (dealings h))
  cases hx : deploy cfg (asked governorAt p1 p2 p3) (drun cfg s (dealings h)) with
  | error e =>
    refine ⟨⟨fun h => ?_, fun h => ?_⟩, fun s1 h => nomatch h⟩
    · obtain ⟨s1, h⟩ := h; exact nomatch h
    · obtain ⟨s', h'⟩ := hacc.mpr ⟨hd, h⟩
      rw [hx] at h'; exact nomatch h'
  | ok s' =>
    refine ⟨⟨fun _ => (hacc.mp ⟨s', hx⟩).2, fun _ => ⟨_, rfl⟩⟩, fun s1 h1 => ?_⟩
    cases h1
    obtain ⟨g1, g2, o1, o2, o3, o4, o5, o6, o7, o8, o9, o10, o11, o12, g3⟩ :=
      c71_genesis cfg hc s s' (dealings h) c (asked governorAt p1 p2 p3) hb had hu hp hx
    refine ⟨g1, g2, ?_, ?_, ?_, o1, o7, o2, o3, o4, o5, o6, o8, o9, o10, o11, o12,
      fun now => c103_passes cfg hc _ hp _ _ now hx, g3⟩ <;>
    · obtain ⟨_, _, t1, t2, _, _, rfl⟩ := (deploy_ok hc hp).mp hx
      rfl

/-! ## Concrete cases -/

namespace ToyL1

def params1 : Params1 := ⟨301, cfg.prove, 1, 100, 5, 4⟩
def params2 : Params2 := ⟨302, gov, auc, 202, 10, 7⟩
def params3 : Params3 := ⟨dsp, 1, 10, 100, 50, 99⟩

/-- Before the deployment $PROVE is minted; bob tries to use the deployer, and to take the contracts over. -/
def strangers0 : List (Ctx × ACall) := [(ctx gov 1, .call (.proveMint alice 1000)), (ctx bob 2, .setParams2 ⟨666, bob, bob, bob, 0, 1⟩)]
def strangers1 : List (Ctx × ACall) := [(ctx bob 3, .setParams1 ⟨666, cfg.prove, 1, 1, 1, 1⟩), (ctx bob 4, .deploy)]
def strangers3 : List (Ctx × ACall) :=
  [(ctx bob 5, .setParams2 ⟨666, bob, bob, bob, 0, 1⟩), (ctx bob 6, .stakingInitialize takeover), (ctx alice 7, .call (.proveTransfer bob 10)),
   (ctx bob 8, .vappUpgrade 666)]

end ToyL1

/-- The hypotheses of C112 hold: bob tries everything, and the contracts belong to the owner. -/
example : Blank ToyL1.blank ∧
    (∀ x ∈ ToyL1.strangers0 ++ ToyL1.strangers1 ++ [] ++ ToyL1.strangers3, x.1.sender ≠ (ToyL1.ctx ToyL1.dsp 0).sender) ∧
    (∀ x ∈ ToyL1.strangers0 ++ ToyL1.strangers1 ++ [] ++ ToyL1.strangers3, ∀ k, x.2 = .call k →
      Admissible ToyL1.cfg (x.1, k)) ∧ ToyL1.params1.prove = ToyL1.cfg.prove ∧
    (match atomicScript ToyL1.cfg (fun _ => 303) (ToyL1.ctx ToyL1.dsp 0) ToyL1.params1 ToyL1.params2 ToyL1.params3
        ToyL1.strangers0 ToyL1.strangers1 [] ToyL1.strangers3 ToyL1.blank with
      | .ok s => s.sys.w.staking.owner = ToyL1.gov ∧ s.sys.w.vapp.owner = ToyL1.gov ∧ s.sys.w.prove.bal ToyL1.bob = 10 ∧
          s.sys.vappImpl = 302
      | .error _ => False) := by
  refine ⟨⟨rfl, rfl⟩, by decide +kernel, ?_, rfl, ?_⟩
  · intro x hx k hk
    simp only [ToyL1.strangers0, ToyL1.strangers1, ToyL1.strangers3, List.cons_append, List.nil_append, List.mem_cons,
      List.not_mem_nil, or_false] at hx
    rcases hx with rfl | rfl | rfl | rfl | rfl | rfl | rfl | rfl
    · cases hk; exact ToyL1.not_system _ (by decide) (by decide)
    · exact nomatch hk
    · exact nomatch hk
    · exact nomatch hk
    · exact nomatch hk
    · exact nomatch hk
    · cases hk; exact ToyL1.not_system _ (by decide) (by decide)
    · exact nomatch hk
  · exact ⟨by decide +kernel, by decide +kernel, by decide +kernel, by decide +kernel⟩

end Verif
