import Verif.Deploy
import Verif.L1Fields
import Verif.ToyL1
/-
# C71: deployment establishes the assumed initial state, once
-/

namespace Verif
open L1

theorem dbind_ok {α β : Type} {x : Except DeployErr α} {f : α → Except DeployErr β} {b : β} :
    (x >>= f) = .ok b ↔ ∃ a, x = .ok a ∧ f a = .ok b := by
  cases x with
  | error e => exact ⟨fun h => (nomatch h), fun ⟨_, h, _⟩ => (nomatch h)⟩
  | ok a => exact ⟨fun h => ⟨a, rfl, h⟩, fun ⟨_, h, g⟩ => by obtain rfl := Except.ok.inj h; exact g⟩

/-- The $PROVE token before the deployment: the supply is the total of the balances, and addresses that have no code
yet and no key have approved nobody. -/
structure TokenOk (cfg : Cfg) (t : Erc20) : Prop where
  sum : t.Balanced
  max : t.supply ≤ max256
  allow : ∀ a s, cfg.System a → t.allow a s = 0

theorem TokenOk.empty (cfg : Cfg) : TokenOk cfg Erc20.empty where
  sum := ⟨[], List.nodup_nil, fun _ _ => rfl, rfl⟩
  max := Nat.zero_le _
  allow _ _ _ := rfl

section

variable {cfg : Cfg} {t t1 t' : Erc20}

theorem TokenOk.transfer (h : TokenOk cfg t) {f to : Address} {v : Nat} (e : t.transfer f to v = .ok t') :
    TokenOk cfg t' where
  sum := h.sum.transfer e
  max := by obtain ⟨_, _, _, rfl⟩ := Erc20.transfer_ok e; exact h.max
  allow := by obtain ⟨_, _, _, rfl⟩ := Erc20.transfer_ok e; exact h.allow

theorem TokenOk.mint (h : TokenOk cfg t) {to : Address} {v : Nat} (e : t.mint to v = .ok t') : TokenOk cfg t' where
  sum := h.sum.mint e
  max := by
    obtain ⟨_, h1, rfl⟩ := Erc20.mint_ok e
    exact h1
  allow := by obtain ⟨_, _, rfl⟩ := Erc20.mint_ok e; exact h.allow

theorem TokenOk.burn (h : TokenOk cfg t) {f : Address} {v : Nat} (e : t.burn f v = .ok t') : TokenOk cfg t' where
  sum := h.sum.burn e
  max := by obtain ⟨_, _, rfl⟩ := Erc20.burn_ok e; exact Nat.le_trans (Nat.sub_le _ _) h.max
  allow := by obtain ⟨_, _, rfl⟩ := Erc20.burn_ok e; exact h.allow

theorem TokenOk.approve (h : TokenOk cfg t) {o s : Address} {v : Nat} (e : t.approve o s v = .ok t')
    (ho : ¬ cfg.System o) : TokenOk cfg t' where
  sum := h.sum.approve e
  max := by obtain ⟨_, _, rfl⟩ := Erc20.approve_ok e; exact h.max
  allow := by
    obtain ⟨_, _, rfl⟩ := Erc20.approve_ok e
    intro a x ha
    show upd t.allow o _ a x = 0
    have hne : a ≠ o := fun g => ho (g ▸ ha)
    rw [upd_ne _ _ hne]
    exact h.allow a x ha

theorem TokenOk.spend (h : TokenOk cfg t) {o s : Address} {v : Nat} (e : t.spend o s v = .ok t') : TokenOk cfg t' where
  sum := h.sum.spend e
  max := by rw [(Erc20.spend_ok e).2.2.1]; exact h.max
  allow := by
    intro a x ha
    obtain ⟨_, _, _, h4, h5⟩ := Erc20.spend_ok e
    by_cases g : a = o ∧ x = s
    · obtain ⟨rfl, rfl⟩ := g
      rw [h5, h.allow a x ha, if_neg (by decide)]
      exact Nat.zero_sub _
    · rw [h4 a x (by
        by_cases g1 : a = o
        · exact Or.inr fun g2 => g ⟨g1, g2⟩
        · exact Or.inl g1)]
      exact h.allow a x ha

/-- A function of the $PROVE token keeps this. -/
theorem TokenOk.exec {c : Ctx} {k : Call} {w w' : World} (hk : k.isProve = true) (ha : Admissible cfg (c, k))
    (h : TokenOk cfg w.prove) (e : exec cfg c k w = .ok ((), w')) : TokenOk cfg w'.prove := by
  cases k <;> try exact nomatch (show false = true from hk)
  case proveTransfer to v =>
    obtain ⟨t, g, rfl⟩ := proveTransfer_ok e
    exact h.transfer g
  case proveTransferFrom f to v =>
    obtain ⟨_, t, g1, g2, rfl⟩ := proveTransferFrom_ok e
    exact (h.spend g1).transfer g2
  case proveApprove s v =>
    simp only [Verif.exec, onProve_ok] at e
    obtain ⟨t, g, rfl⟩ := e
    exact h.approve g ha
  case provePermit x b d v =>
    obtain ⟨rfl, t, g, rfl⟩ := provePermit_ok e
    exact h.approve g ha.2
  case proveMint to v =>
    simp only [Verif.exec, bind_ok, get_ok, require_ok, onProve_ok] at e
    obtain ⟨_, _, ⟨rfl, rfl⟩, _, _, ⟨_, rfl⟩, t, g, rfl⟩ := e
    exact h.mint g
  case proveBurn v =>
    simp only [Verif.exec, onProve_ok] at e
    obtain ⟨t, g, rfl⟩ := e
    exact h.burn g
  case proveBurnFrom f v =>
    simp only [Verif.exec, bind_ok, onProve_ok] at e
    obtain ⟨_, _, ⟨t1, g1, rfl⟩, t, g2, rfl⟩ := e
    exact (h.spend g1).burn g2
  case proveSetOwner a =>
    simp only [Verif.exec, bind_ok, get_ok, require_ok, modify_ok] at e
    obtain ⟨_, _, ⟨rfl, rfl⟩, _, _, ⟨_, rfl⟩, rfl⟩ := e
    exact h

/-! ## The deployment -/

/-- The addresses the contracts have stored are those of the other contracts. -/
structure Wired (cfg : Cfg) (s : Sys) : Prop where
  vapp : s.vappProve = cfg.prove ∧ s.vappIprove = cfg.iprove
  staking : s.stVapp = cfg.vapp ∧ s.stProve = cfg.prove ∧ s.stIprove = cfg.iprove
  iprove : s.ipAsset = cfg.prove ∧ s.ipStaking = cfg.staking
  init : s.vappInit = true ∧ s.stakingInit = true

/-- The parameters the deployment needs. -/
def DeployParams.Ok (p : DeployParams) : Prop :=
  p.owner ≠ 0 ∧ p.auctioneer ≠ 0 ∧ p.verifier ≠ 0 ∧ p.vkey ≠ 0 ∧ p.genesisStateRoot ≠ 0 ∧ p.governor ≠ 0 ∧
  p.dispenser ≠ 0 ∧ p.maxUnstakeRequests.toNat ≠ 0 ∧ p.unstakePeriod.toNat ≠ 0 ∧ p.slashCancellationPeriod.toNat ≠ 0

theorem approveMax_ok {self tok sp : Address} {w w' : World} :
    approveMax cfg self tok sp w = .ok w' ↔
    (tok = cfg.prove ∧ ∃ t, w.prove.approve self sp max256 = .ok t ∧ w' = { w with prove := t }) ∨
    (tok ≠ cfg.prove ∧ w' = w) := by
  unfold approveMax
  split
  · rename_i h
    cases e : w.prove.approve self sp max256 with
    | ok t =>
      constructor
      · intro g
        exact Or.inl ⟨h, t, rfl, (Except.ok.inj g).symm⟩
      · rintro (⟨_, t', g, rfl⟩ | ⟨g, _⟩)
        · obtain rfl := Except.ok.inj g
          rfl
        · exact absurd h g
    | error er =>
      constructor
      · intro g; exact nomatch g
      · rintro (⟨_, t', g, rfl⟩ | ⟨g, _⟩)
        · exact nomatch g
        · exact absurd h g
  · rename_i h
    constructor
    · intro g; exact Or.inr ⟨h, (Except.ok.inj g).symm⟩
    · rintro (⟨g, _⟩ | ⟨_, rfl⟩)
      · exact absurd g h
      · rfl

/-- The vApp's state after `initialize`. -/
def VApp.initialized (v : VApp) (a : VappArgs) : VApp :=
  { v with
    owner := a.owner, vkey := a.vkey, auctioneer := a.auctioneer, staking := a.staking, verifier := a.verifier
    minDepositAmount := a.minDepositAmount.toNat, roots := upd v.roots 0 a.genesisStateRoot }

theorem vappInitialize_ok {a : VappArgs} {s s' : Sys} :
    vappInitialize cfg a s = .ok s' ↔ s.vappInit = false ∧
      (a.owner ≠ 0 ∧ a.prove ≠ 0 ∧ a.iProve ≠ 0 ∧ a.auctioneer ≠ 0 ∧ a.staking ≠ 0 ∧ a.verifier ≠ 0) ∧
      (a.vkey ≠ 0 ∧ a.genesisStateRoot ≠ 0) ∧
      ∃ w', approveMax cfg cfg.vapp a.prove a.iProve { s.w with vapp := s.w.vapp.initialized a } = .ok w' ∧
        s' = { s with w := w', vappInit := true, vappProve := a.prove, vappIprove := a.iProve } := by
  unfold vappInitialize
  split
  · rename_i h
    constructor
    · intro g; exact nomatch g
    · rintro ⟨g, _⟩; rw [h] at g; exact nomatch g
  · rename_i h
    split
    · rename_i h1
      constructor
      · intro g; exact nomatch g
      · rintro ⟨_, ⟨g1, g2, g3, g4, g5, g6⟩, _⟩
        rcases h1 with h1 | h1 | h1 | h1 | h1 | h1 <;> contradiction
    · rename_i h1
      simp only [not_or] at h1
      split
      · rename_i h2
        constructor
        · intro g; exact nomatch g
        · rintro ⟨_, _, ⟨g1, g2⟩, _⟩
          rcases h2 with h2 | h2 <;> contradiction
      · rename_i h2
        simp only [not_or] at h2
        simp only [dbind_ok]
        constructor
        · rintro ⟨w', g1, g2⟩
          exact ⟨by simpa using h, h1, h2, w', g1, (Except.ok.inj g2).symm⟩
        · rintro ⟨_, _, _, w', g1, rfl⟩
          exact ⟨w', g1, rfl⟩

/-- The staking contract's state after `initialize`. -/
def Staking.initialized (v : Staking) (a : StakingArgs) : Staking :=
  { v with
    owner := a.owner, dispenser := a.dispenser, minStakeAmount := a.minStakeAmount.toNat
    maxUnstakeRequests := a.maxUnstakeRequests.toNat, unstakePeriod := a.unstakePeriod.toNat
    slashCancellationPeriod := a.slashCancellationPeriod.toNat }

theorem stakingInitialize_ok {a : StakingArgs} {s s' : Sys} :
    stakingInitialize cfg a s = .ok s' ↔ s.stakingInit = false ∧
      (a.owner ≠ 0 ∧ a.governor ≠ 0 ∧ a.vApp ≠ 0 ∧ a.prove ≠ 0 ∧ a.intermediateProve ≠ 0 ∧ a.dispenser ≠ 0) ∧
      (a.maxUnstakeRequests.toNat ≠ 0 ∧ a.unstakePeriod.toNat ≠ 0 ∧ a.slashCancellationPeriod.toNat ≠ 0) ∧
      ∃ w', approveMax cfg cfg.staking a.prove a.intermediateProve
          { s.w with staking := s.w.staking.initialized a } = .ok w' ∧
        s' = { s with
          w := w', stakingInit := true, stGovernor := a.governor, stVapp := a.vApp
          stProve := a.prove, stIprove := a.intermediateProve } := by
  unfold stakingInitialize
  split
  · rename_i h
    constructor
    · intro g; exact nomatch g
    · rintro ⟨g, _⟩; rw [h] at g; exact nomatch g
  · rename_i h
    split
    · rename_i h1
      constructor
      · intro g; exact nomatch g
      · rintro ⟨_, ⟨g1, g2, g3, g4, g5, g6⟩, _⟩
        rcases h1 with h1 | h1 | h1 | h1 | h1 | h1 <;> contradiction
    · rename_i h1
      simp only [not_or] at h1
      split
      · rename_i h2
        constructor
        · intro g; exact nomatch g
        · rintro ⟨_, _, ⟨g1, g2, g3⟩, _⟩
          rcases h2 with h2 | h2 | h2 <;> contradiction
      · rename_i h2
        simp only [not_or] at h2
        simp only [dbind_ok]
        constructor
        · rintro ⟨w', g1, g2⟩
          exact ⟨by simpa using h, h1, h2, w', g1, (Except.ok.inj g2).symm⟩
        · rintro ⟨_, _, _, w', g1, rfl⟩
          exact ⟨w', g1, rfl⟩

/-- The contracts after the deployment. -/
def deployedWorld (cfg : Cfg) (p : DeployParams) (w : World) (t : Erc20) : World :=
  { w with
    prove := t
    iprove := Erc20.empty
    st := Erc20.empty
    staking := Staking.zero.initialized
      ⟨p.owner, p.governor, cfg.vapp, p.prove, cfg.iprove, p.dispenser, p.minStakeAmount, p.maxUnstakeRequests,
        p.unstakePeriod, p.slashCancellationPeriod⟩
    vapp := VApp.zero.initialized
      ⟨p.owner, p.prove, cfg.iprove, p.auctioneer, cfg.staking, p.verifier, p.minDepositAmount, p.vkey,
        p.genesisStateRoot⟩ }

theorem deploy_ok (hc : cfg.WF) {p : DeployParams} (hp : p.prove = cfg.prove) {s s' : Sys} :
    deploy cfg p s = .ok s' ↔ s.deployed = false ∧ p.Ok ∧ ∃ t1 t2,
      s.w.prove.approve cfg.vapp cfg.iprove max256 = .ok t1 ∧ t1.approve cfg.staking cfg.iprove max256 = .ok t2 ∧
      s' = { w := deployedWorld cfg p s.w t2, deployed := true, vappInit := true, stakingInit := true
             vappProve := cfg.prove, vappIprove := cfg.iprove, stGovernor := p.governor, stVapp := cfg.vapp
             stProve := cfg.prove, stIprove := cfg.iprove, ipAsset := cfg.prove, ipStaking := cfg.staking
             vappImpl := p.vappImpl, stakingImpl := p.stakingImpl } := by
  obtain ⟨n1, n2, n3, n4⟩ := hc.nonzero
  unfold deploy
  split
  · rename_i h
    constructor
    · intro g; exact nomatch g
    · rintro ⟨g, _⟩; rw [h] at g; exact nomatch g
  · rename_i h
    simp only [dbind_ok, newVappProxy, vappInitialize_ok, stakingInitialize_ok, approveMax_ok, hp, ne_eq,
      not_true_eq_false, false_and, or_false, true_and]
    constructor
    · rintro ⟨s1, ⟨⟨h1, _, _, h2, _, h3⟩, ⟨h4, h5⟩, w1, ⟨t1, ht1, rfl⟩, rfl⟩, s2, ⟨_, ⟨_, h6, _, _, _, h7⟩, ⟨h8, h9, h10⟩,
        w2, ⟨t2, ht2, rfl⟩, rfl⟩, g⟩
      refine ⟨by simpa using h, ⟨h1, h2, h3, h4, h5, h6, h7, h8, h9, h10⟩, t1, t2, ht1, ht2, ?_⟩
      rw [← Except.ok.inj g]
      simp only [deployedWorld, hp]
      rfl
    · rintro ⟨_, ⟨h1, h2, h3, h4, h5, h6, h7, h8, h9, h10⟩, t1, t2, ht1, ht2, rfl⟩
      refine ⟨_, ⟨⟨h1, n1, n2, h2, n3, h3⟩, ⟨h4, h5⟩, _, ⟨t1, ht1, rfl⟩, rfl⟩, _, ⟨rfl, ⟨h1, h6, n4, n1, n2, h7⟩,
        ⟨h8, h9, h10⟩, _, ⟨t2, ht2, rfl⟩, rfl⟩, ?_⟩
      simp only [deployedWorld, hp]
      rfl

/-- **C71 (when the deployment is accepted).** If and only if nothing is deployed yet and the parameters that must not
be zero are not. -/
theorem c71_accepted (cfg : Cfg) (hc : cfg.WF) (p : DeployParams) (hp : p.prove = cfg.prove) (s : Sys) :
    (∃ s', deploy cfg p s = .ok s') ↔ s.deployed = false ∧ p.Ok := by
  obtain ⟨n1, n2, n3, n4⟩ := hc.nonzero
  constructor
  · rintro ⟨s', h⟩
    obtain ⟨h1, h2, _⟩ := (deploy_ok hc hp).mp h
    exact ⟨h1, h2⟩
  · rintro ⟨h1, h2⟩
    obtain ⟨t1, ht1⟩ : ∃ t1, s.w.prove.approve cfg.vapp cfg.iprove max256 = .ok t1 := by
      unfold Erc20.approve
      rw [if_neg (not_or.mpr ⟨n4, n2⟩)]
      exact ⟨_, rfl⟩
    obtain ⟨t2, ht2⟩ : ∃ t2, t1.approve cfg.staking cfg.iprove max256 = .ok t2 := by
      unfold Erc20.approve
      rw [if_neg (not_or.mpr ⟨n3, n2⟩)]
      exact ⟨_, rfl⟩
    exact ⟨_, (deploy_ok hc hp).mpr ⟨h1, h2, t1, t2, ht1, ht2, rfl⟩⟩

/-- The deployment establishes `Genesis`. -/
theorem deploy_genesis (hc : cfg.WF) {p : DeployParams} (hp : p.prove = cfg.prove) {s s' : Sys}
    (ht : TokenOk cfg s.w.prove) (h : deploy cfg p s = .ok s') : Genesis cfg s'.w ∧ Wired cfg s' := by
  obtain ⟨_, ⟨h1, h2, h3, h4, h5, h6, h7, h8, h9, h10⟩, t1, t2, ht1, ht2, rfl⟩ := (deploy_ok hc hp).mp h
  refine ⟨?_, ⟨⟨rfl, rfl⟩, ⟨rfl, rfl, rfl⟩, ⟨rfl, rfl⟩, rfl, rfl⟩⟩
  have hne : cfg.vapp ≠ cfg.staking := by
    have := hc.distinct
    simp at this
    exact fun e => this.2.2 e.symm
  have hb : t2.Balanced := (ht.sum.approve ht1).approve ht2
  exact {
    prove_sum := hb
    prove_max := by
      obtain ⟨_, _, rfl⟩ := Erc20.approve_ok ht2
      obtain ⟨_, _, rfl⟩ := Erc20.approve_ok ht1
      exact ht.max
    prove_allow := by
      intro a x ha
      have e1 : ∀ b y, t1.allow b y = if b = cfg.vapp ∧ y = cfg.iprove then max256 else s.w.prove.allow b y := by
        intro b y
        obtain ⟨_, _, rfl⟩ := Erc20.approve_ok ht1
        show upd s.w.prove.allow cfg.vapp _ b y = _
        by_cases hb : b = cfg.vapp
        · subst hb
          rw [upd_same]
          by_cases hy : y = cfg.iprove
          · subst hy; rw [upd_same, if_pos ⟨rfl, rfl⟩]
          · rw [upd_ne _ _ hy, if_neg (fun g => hy g.2)]
        · rw [upd_ne _ _ hb, if_neg (fun g => hb g.1)]
      have e2 : ∀ b y, t2.allow b y = if b = cfg.staking ∧ y = cfg.iprove then max256 else t1.allow b y := by
        intro b y
        obtain ⟨_, _, rfl⟩ := Erc20.approve_ok ht2
        show upd t1.allow cfg.staking _ b y = _
        by_cases hb : b = cfg.staking
        · subst hb
          rw [upd_same]
          by_cases hy : y = cfg.iprove
          · subst hy; rw [upd_same, if_pos ⟨rfl, rfl⟩]
          · rw [upd_ne _ _ hy, if_neg (fun g => hy g.2)]
        · rw [upd_ne _ _ hb, if_neg (fun g => hb g.1)]
      show t2.allow a x = _
      rw [e2, e1, ht.allow a x ha]
      by_cases g1 : a = cfg.staking ∧ x = cfg.iprove
      · rw [if_pos g1, if_pos ⟨Or.inr g1.1, g1.2⟩]
      · rw [if_neg g1]
        by_cases g2 : a = cfg.vapp ∧ x = cfg.iprove
        · rw [if_pos g2, if_pos ⟨Or.inl g2.1, g2.2⟩]
        · rw [if_neg g2, if_neg]
          rintro ⟨g | g, gx⟩
          · exact g2 ⟨g, gx⟩
          · exact g1 ⟨g, gx⟩
    iprove := rfl
    st := rfl
    dispense := ⟨rfl, rfl, rfl, rfl⟩
    maps := ⟨rfl, rfl, rfl, rfl, rfl⟩
    registry := ⟨rfl, rfl, rfl, rfl⟩
    periods := ⟨h8, h9, h10⟩
    vapp_ids := ⟨rfl, rfl, rfl⟩
    vapp_root := ⟨by
        show upd (fun _ => 0) 0 p.genesisStateRoot (0 : U64) ≠ 0
        rw [upd_same]
        exact h5, fun b hb => by
        show upd (fun _ => 0) 0 p.genesisStateRoot b = 0
        rw [upd_ne _ _ hb]⟩
    vapp_maps := ⟨rfl, rfl⟩
    vapp_params := ⟨rfl, rfl, h4⟩ }

/-! ## Afterwards -/

/-- **C71 (no second initialisation).** Once a contract has been initialised, every further `initialize`, by anyone
and with any arguments, is refused. -/
theorem c71_once (cfg : Cfg) (s : Sys) :
    (s.vappInit = true → ∀ a, vappInitialize cfg a s = .error .invalidInitialization) ∧
    (s.stakingInit = true → ∀ a, stakingInitialize cfg a s = .error .invalidInitialization) := by
  constructor
  · intro h a
    unfold vappInitialize
    rw [if_pos h]
  · intro h a
    unfold stakingInitialize
    rw [if_pos h]

/-- **C71 (upgrades).** An upgrade is accepted only from the owner of the contract. -/
theorem c71_upgrade (cfg : Cfg) (c : Ctx) (s s' : Sys) (i : Address) :
    (dexec cfg c s (.vappUpgrade i) = .ok s' → c.sender = s.w.vapp.owner ∧ s' = { s with vappImpl := i }) ∧
    (dexec cfg c s (.stakingUpgrade i) = .ok s' → c.sender = s.w.staking.owner ∧ s' = { s with stakingImpl := i }) := by
  constructor <;> intro h <;> simp only [dexec] at h <;> split at h
  · exact nomatch h
  · split at h
    · rename_i h1; exact ⟨h1, (Except.ok.inj h).symm⟩
    · exact nomatch h
  · exact nomatch h
  · split at h
    · rename_i h1; exact ⟨h1, (Except.ok.inj h).symm⟩
    · exact nomatch h

/-- What holds at every time. -/
def LifeInv (cfg : Cfg) (s : Sys) : Prop :=
  (s.deployed = false ∧ TokenOk cfg s.w.prove) ∨
  (s.deployed = true ∧ Reachable cfg s.w ∧ Wired cfg s)

theorem LifeInv.step (hc : cfg.WF) {s : Sys} {x : Ctx × DCall} (ha : DAdmissible cfg x) (hu : ¬ Upgrade cfg s x)
    (h : LifeInv cfg s) : LifeInv cfg (dcall cfg s x) := by
  obtain ⟨c, k⟩ := x
  unfold dcall
  cases e : dexec cfg c s k with
  | error er => exact h
  | ok s' =>
    dsimp only
    cases k
    case call k =>
      simp only [dexec] at e
      split at e
      · exact nomatch e
      · rename_i hd
        split at e
        · rename_i w' ex
          obtain rfl := Except.ok.inj e
          rcases h with ⟨h1, h2⟩ | ⟨h1, h2, h3⟩
          · refine Or.inl ⟨h1, ?_⟩
            have hk : k.isProve = true := by
              cases hk : k.isProve
              · exact absurd ⟨h1, hk⟩ hd
              · rfl
            exact TokenOk.exec hk ha h2 ex
          · refine Or.inr ⟨h1, ?_, ⟨h3.1, h3.2, h3.3, h3.4⟩⟩
            obtain ⟨w0, hist, g1, g2, g3⟩ := h2
            refine ⟨w0, hist ++ [(c, k)], g1, ?_, ?_⟩
            · intro y hy
              rcases List.mem_append.mp hy with hy | hy
              · exact g2 y hy
              · obtain rfl := List.mem_singleton.mp hy
                exact ha
            · rw [runCalls_append, ← g3]
              show w' = call cfg c k s.w
              unfold call
              rw [ex]
        · exact nomatch e
    case deploy p =>
      simp only [dexec] at e
      rcases h with ⟨h1, h2⟩ | ⟨h1, h2, h3⟩
      · obtain ⟨g1, g2⟩ := deploy_genesis hc ha h2 e
        have hd : s'.deployed = true := by
          obtain ⟨_, _, _, _, _, _, rfl⟩ := (deploy_ok hc ha).mp e
          rfl
        exact Or.inr ⟨hd, ⟨s'.w, [], g1, fun _ hx => (nomatch hx), rfl⟩, g2⟩
      · obtain ⟨g, _⟩ := (deploy_ok hc ha).mp e
        rw [h1] at g
        exact nomatch g
    case vappInitialize a =>
      simp only [dexec] at e
      split at e
      · rename_i hd
        rcases h with ⟨h1, h2⟩ | ⟨h1, h2, h3⟩
        · rw [h1] at hd; exact nomatch hd
        · rw [(c71_once cfg s).1 h3.init.1 a] at e
          exact nomatch e
      · exact nomatch e
    case stakingInitialize a =>
      simp only [dexec] at e
      split at e
      · rename_i hd
        rcases h with ⟨h1, h2⟩ | ⟨h1, h2, h3⟩
        · rw [h1] at hd; exact nomatch hd
        · rw [(c71_once cfg s).2 h3.init.2 a] at e
          exact nomatch e
      · exact nomatch e
    case vappUpgrade i => exact absurd ⟨s', e⟩ hu
    case stakingUpgrade i => exact absurd ⟨s', e⟩ hu

theorem LifeInv.run (hc : cfg.WF) (h : List (Ctx × DCall)) (s : Sys) (ha : ∀ x ∈ h, DAdmissible cfg x)
    (hu : NoUpgrade cfg s h) (hi : LifeInv cfg s) : LifeInv cfg (drun cfg s h) := by
  induction h generalizing s with
  | nil => exact hi
  | cons x h ih =>
    exact ih (dcall cfg s x) (fun y hy => ha y (List.mem_cons_of_mem _ hy)) hu.2
      (hi.step hc (ha x List.mem_cons_self) hu.1)

/-- **C71 (life).** From the time when only the $PROVE token exists, without holders: over every history of calls by
anyone - dealings in $PROVE, the atomic deployment, attempts to initialise again, and every function of the model - in
which no owner upgrades a contract, once the contracts are deployed their state is one of the states the other
properties are about, and the contracts know each other's true addresses. -/
theorem c71_life (cfg : Cfg) (hc : cfg.WF) (s : Sys) (h : List (Ctx × DCall)) (hb : Blank s)
    (ha : ∀ x ∈ h, DAdmissible cfg x) (hu : NoUpgrade cfg s h) (hd : (drun cfg s h).deployed = true) :
    Reachable cfg (drun cfg s h).w ∧ Wired cfg (drun cfg s h) := by
  have h0 : LifeInv cfg s := Or.inl ⟨hb.deployed, by rw [hb.prove]; exact TokenOk.empty cfg⟩
  rcases LifeInv.run hc h s ha hu h0 with ⟨g, _⟩ | ⟨_, g1, g2⟩
  · rw [hd] at g; exact nomatch g
  · exact ⟨g1, g2⟩

/-- **C71 (the deployment).** Right after it, the contracts are in a genesis state with the given parameters. -/
theorem c71_genesis (cfg : Cfg) (hc : cfg.WF) (s s1 : Sys) (h : List (Ctx × DCall)) (c : Ctx) (p : DeployParams)
    (hb : Blank s) (ha : ∀ x ∈ h, DAdmissible cfg x) (hu : NoUpgrade cfg s h) (hp : p.prove = cfg.prove)
    (e : dexec cfg c (drun cfg s h) (.deploy p) = .ok s1) :
    Genesis cfg s1.w ∧ Wired cfg s1 ∧ s1.w.vapp.owner = p.owner ∧ s1.w.vapp.auctioneer = p.auctioneer ∧
    s1.w.vapp.verifier = p.verifier ∧ s1.w.vapp.vkey = p.vkey ∧ s1.w.vapp.roots 0 = p.genesisStateRoot ∧
    s1.w.vapp.minDepositAmount = p.minDepositAmount.toNat ∧ s1.w.staking.owner = p.owner ∧
    s1.w.staking.dispenser = p.dispenser ∧ s1.w.staking.minStakeAmount = p.minStakeAmount.toNat ∧
    s1.w.staking.maxUnstakeRequests = p.maxUnstakeRequests.toNat ∧
    s1.w.staking.unstakePeriod = p.unstakePeriod.toNat ∧
    s1.w.staking.slashCancellationPeriod = p.slashCancellationPeriod.toNat ∧
    (∀ a, s1.w.prove.bal a = (drun cfg s h).w.prove.bal a) := by
  have h0 : LifeInv cfg s := Or.inl ⟨hb.deployed, by rw [hb.prove]; exact TokenOk.empty cfg⟩
  have hi := LifeInv.run hc h s ha hu h0
  simp only [dexec] at e
  have ht : TokenOk cfg (drun cfg s h).w.prove := by
    rcases hi with ⟨_, g⟩ | ⟨g, _⟩
    · exact g
    · obtain ⟨g', _⟩ := (deploy_ok hc hp).mp e
      rw [g] at g'
      exact nomatch g'
  obtain ⟨g1, g2⟩ := deploy_genesis hc hp ht e
  refine ⟨g1, g2, ?_⟩
  obtain ⟨_, _, t1, t2, ht1, ht2, rfl⟩ := (deploy_ok hc hp).mp e
  refine ⟨rfl, rfl, rfl, rfl, upd_same (fun _ => 0) (0 : U64) p.genesisStateRoot, rfl, rfl, rfl, rfl, rfl, rfl, rfl, ?_⟩
  intro a
  obtain ⟨_, _, rfl⟩ := Erc20.approve_ok ht2
  obtain ⟨_, _, rfl⟩ := Erc20.approve_ok ht1
  rfl

/-- **C71 (the window of the other script).** `contracts/script/deploy/All.s.sol` creates the staking proxy in one
transaction and initialises it in a later one. In between anyone can initialise it, with themselves as owner, and then
the script's own `initialize` is refused whatever its arguments. -/
theorem c71_window (cfg : Cfg) (hc : cfg.WF) (s : Sys) (impl attacker : Address) (hx : attacker ≠ 0) :
    ∃ a s', a.owner = attacker ∧ stakingInitialize cfg a (newStakingProxy impl s) = .ok s' ∧
      s'.w.staking.owner = attacker ∧ ∀ b, stakingInitialize cfg b s' = .error .invalidInitialization := by
  obtain ⟨n1, n2, n3, n4⟩ := hc.nonzero
  obtain ⟨t1, ht1⟩ : ∃ t1, s.w.prove.approve cfg.staking cfg.iprove max256 = .ok t1 := by
    unfold Erc20.approve
    rw [if_neg (not_or.mpr ⟨n3, n2⟩)]
    exact ⟨_, rfl⟩
  exact ⟨⟨attacker, attacker, cfg.vapp, cfg.prove, cfg.iprove, attacker, 0, 1, 1, 1⟩, _, rfl,
    stakingInitialize_ok.mpr ⟨rfl, ⟨hx, hx, n4, n1, n2, hx⟩, ⟨(by decide : (1#256).toNat ≠ 0),
      (by decide : (1#256).toNat ≠ 0), (by decide : (1#256).toNat ≠ 0)⟩, _,
      approveMax_ok.mpr (Or.inl ⟨rfl, t1, ht1, rfl⟩), rfl⟩, rfl, (c71_once cfg _).2 rfl⟩

end

/-! ## Concrete cases -/

namespace ToyL1

/-- Only the $PROVE token exists. -/
def blank : Sys where
  w := { genesis with prove := Erc20.empty }
  deployed := false
  vappInit := false
  stakingInit := false
  vappProve := 0
  vappIprove := 0
  stGovernor := 0
  stVapp := 0
  stProve := 0
  stIprove := 0
  ipAsset := 0
  ipStaking := 0
  vappImpl := 0
  stakingImpl := 0

/-- Parameters of a deployment. -/
def params : DeployParams where
  stakingImpl := 301
  prove := cfg.prove
  vappImpl := 302
  owner := gov
  auctioneer := auc
  verifier := 202
  minDepositAmount := 10
  vkey := 7
  dispenser := dsp
  minStakeAmount := 1
  maxUnstakeRequests := 10
  unstakePeriod := 100
  slashCancellationPeriod := 50
  genesisStateRoot := 99
  governor := 303

/-- bob tries to take over. -/
def takeover : StakingArgs := ⟨bob, bob, cfg.vapp, cfg.prove, cfg.iprove, bob, 0, 1, 1, 1⟩

/-- Minting, deployment, an attempt to take over, an attempt to upgrade, a deposit. -/
def life : List (Ctx × DCall) :=
  [(ctx gov 1, .call (.proveMint alice 1000)), (ctx bob 2, .deploy params), (ctx bob 3, .stakingInitialize takeover),
   (ctx bob 4, .vappUpgrade 666), (ctx alice 5, .call (.proveApprove cfg.vapp 100)), (ctx alice 6, .call (.deposit 100))]

example : Blank blank := ⟨rfl, rfl⟩
example : (drun cfg blank life).deployed = true ∧ (drun cfg blank life).w.prove.bal cfg.vapp = 100 ∧
    (drun cfg blank life).w.staking.owner = gov ∧ (drun cfg blank life).vappImpl = 302 := by decide +kernel
example : ∀ x ∈ life, DAdmissible cfg x := by
  have h : ∀ a : Address, 4 < a.toNat ∧ a.toNat < 2 ^ 159 → ¬ cfg.System a := fun a h => not_system a h.1 h.2
  intro x hx
  simp only [life, List.mem_cons, List.not_mem_nil, or_false] at hx
  rcases hx with rfl | rfl | rfl | rfl | rfl | rfl
  · exact h gov (by decide)
  · rfl
  · trivial
  · trivial
  · exact h alice (by decide)
  · exact h alice (by decide)
example : NoUpgrade cfg blank life := by
  refine ⟨id, id, id, ?_, id, id, trivial⟩
  rintro ⟨s', h⟩
  have := ((c71_upgrade _ _ _ _ _).1 h).1
  exact absurd this (by decide +kernel)

end ToyL1
end Verif
