import Verif.L1Held
/-
# How a call of the L1 contracts moves tokens

Every successful call is put into one of ten classes, each with the exact movement of $PROVE, $iPROVE and
prover vault shares. The properties about rates, supplies and consent go by cases on the class.
-/

namespace Verif
open L1

/-- Call `k` names `v` $PROVE of account `f` to be taken, and has the authority to take it: `f` sent the
call, or gave the sender an allowance, or signed the permit in the call, or (the front-running fallback of
the permit calls) has an allowance of exactly `v` for the contract that takes it. -/
inductive Takes (cfg : Cfg) (c : Ctx) (w : World) : Call → Address → Nat → Prop
  | transfer (to : Address) (v : U256) : Takes cfg c w (.proveTransfer to v) c.sender v.toNat
  | transferFrom (f to : Address) (v : U256) (h : v.toNat ≤ w.prove.allow f c.sender) :
      Takes cfg c w (.proveTransferFrom f to v) f v.toNat
  | burn (v : U256) : Takes cfg c w (.proveBurn v) c.sender v.toNat
  | burnFrom (f : Address) (v : U256) (h : v.toNat ≤ w.prove.allow f c.sender) :
      Takes cfg c w (.proveBurnFrom f v) f v.toNat
  | deposit (v : U256) : Takes cfg c w (.deposit v) c.sender v.toNat
  | permitAndDeposit (s f : Address) (v : U256) (h : s = f ∨ w.prove.allow f cfg.vapp = v.toNat) :
      Takes cfg c w (.permitAndDeposit s f v) f v.toNat
  | stake (p : Address) (v : U256) : Takes cfg c w (.stake p v) c.sender v.toNat
  | permitAndStake (s p f : Address) (v : U256) (h : s = f ∨ w.prove.allow f p = v.toNat) :
      Takes cfg c w (.permitAndStake s p f v) f v.toNat

/-- No $iPROVE, stPROVE or prover vault share moved. -/
structure SameShares (w w' : World) : Prop where
  bal : w'.iprove.bal = w.iprove.bal
  supply : w'.iprove.supply = w.iprove.supply
  vault : ∀ p, w.staking.provers p = true →
    (w'.vault p).supply = (w.vault p).supply ∧ (w'.vault p).bal = (w.vault p).bal
  st : w'.st.bal = w.st.bal
  stSupply : w'.st.supply = w.st.supply

/-- The ten ways a successful call moves tokens. -/
inductive TokenFlow (cfg : Cfg) (c : Ctx) (k : Call) (w w' : World) : Prop
  | other (e1 : w'.prove.bal = w.prove.bal) (e2 : w'.prove.supply = w.prove.supply) (e3 : SameShares w w')
  | move (f to : Address) (v : U256) (t : Erc20) (hk : Takes cfg c w k f v.toNat) (h1 : ∀ p n, k ≠ .stake p n)
      (h2 : ∀ s p a n, k ≠ .permitAndStake s p a n) (h3 : ∀ n, k ≠ .proveBurn n) (h4 : ∀ f n, k ≠ .proveBurnFrom f n)
      (e1 : t.bal = w.prove.bal) (e2 : t.supply = w.prove.supply)
      (h : t.transfer f to v.toNat = .ok w'.prove) (e3 : SameShares w w')
  | mint (to : Address) (v : U256) (hk : k = .proveMint to v) (ho : c.sender = w.proveOwner)
      (h : w.prove.mint to v.toNat = .ok w'.prove) (e3 : SameShares w w')
  | burn (f : Address) (v : U256) (t : Erc20) (hk : Takes cfg c w k f v.toNat)
      (hb : k = .proveBurn v ∨ k = .proveBurnFrom f v)
      (e1 : t.bal = w.prove.bal) (e2 : t.supply = w.prove.supply)
      (h : t.burn f v.toNat = .ok w'.prove) (e3 : SameShares w w')
  | stake (f p : Address) (v : U256) (n : Nat) (t t2 : Erc20) (hk : Takes cfg c w k f v.toNat)
      (hs : k = .stake p v ∧ f = c.sender ∨ ∃ s, k = .permitAndStake s p f v)
      (hreg : w.staking.provers p = true)
      (e1 : t.bal = w.prove.bal) (e2 : t.supply = w.prove.supply)
      (h : t.transfer f cfg.staking v.toNat = .ok t2) (he : StakeEffect cfg f p v.toNat n { w with prove := t2 } w')
  | requestUnstake (v : U256) (hk : k = .requestUnstake v) (h : Verif.requestUnstake cfg c v.toNat w = .ok ((), w'))
  | finishUnstake (s : Address) (n : Nat) (hk : k = .finishUnstake s) (h : Verif.finishUnstake cfg c s w = .ok (n, w'))
  | finishSlash (p : Address) (i : U256) (n : Nat) (hk : k = .finishSlash p i) (h : Verif.finishSlash cfg c p i.toNat w = .ok (n, w'))
  | step (pv pr : Bytes) (x : U64 × B256 × B256) (hk : k = .step pv pr) (h : vappStep cfg c pv pr w = .ok (x, w'))
  | dispense (v : U256) (a : Nat) (hk : k = .dispense v) (hd : c.sender = w.staking.dispenser)
      (h : w.prove.transfer cfg.staking cfg.iprove a = .ok w'.prove) (e3 : SameShares w w')

theorem allow_le (v : U256) {n : Nat} (h : n = max256 ∨ v.toNat ≤ n) : v.toNat ≤ n := by
  rcases h with rfl | h
  · exact Nat.le_sub_one_of_lt v.isLt
  · exact h

theorem exec_flow {cfg : Cfg} {c : Ctx} {k : Call} {w w' : World} (hr : Registry cfg w)
    (ha : Admissible cfg (c, k)) (h : exec cfg c k w = .ok ((), w')) : TokenFlow cfg c k w w' := by
  cases k
  case requestSlash p v =>
    replace h := drop_ok.mp h
    obtain ⟨n, h⟩ := h
    obtain ⟨_, _, _, _, rfl⟩ := requestSlash_ok h
    exact .other rfl rfl ⟨rfl, rfl, fun _ _ => ⟨rfl, rfl⟩, rfl, rfl⟩
  case proveTransfer to v =>
    obtain ⟨t, g, rfl⟩ := proveTransfer_ok h
    exact .move _ to v w.prove (.transfer to v) nofun nofun nofun nofun rfl rfl g ⟨rfl, rfl, fun _ _ => ⟨rfl, rfl⟩, rfl, rfl⟩
  case proveTransferFrom f to v =>
    obtain ⟨t1, t, g1, g2, rfl⟩ := proveTransferFrom_ok h
    obtain ⟨a1, a2, a3, _⟩ := Erc20.spend_ok g1
    replace a1 := allow_le v a1
    exact .move f to v t1 (.transferFrom f to v a1) nofun nofun nofun nofun a2 a3 g2 ⟨rfl, rfl, fun _ _ => ⟨rfl, rfl⟩, rfl, rfl⟩
  case proveApprove s v =>
    simp only [exec, onProve_ok] at h
    obtain ⟨t, h, rfl⟩ := h
    obtain ⟨_, _, rfl⟩ := Erc20.approve_ok h
    exact .other rfl rfl ⟨rfl, rfl, fun _ _ => ⟨rfl, rfl⟩, rfl, rfl⟩
  case provePermit x b d v =>
    obtain ⟨_, t, g, rfl⟩ := provePermit_ok h
    obtain ⟨_, _, rfl⟩ := Erc20.approve_ok g
    exact .other rfl rfl ⟨rfl, rfl, fun _ _ => ⟨rfl, rfl⟩, rfl, rfl⟩
  case proveMint to v =>
    simp only [exec, bind_ok, get_ok, require_ok, onProve_ok] at h
    obtain ⟨_, _, ⟨rfl, rfl⟩, _, _, ⟨ho, rfl⟩, t, h, rfl⟩ := h
    exact .mint to v rfl ho h ⟨rfl, rfl, fun _ _ => ⟨rfl, rfl⟩, rfl, rfl⟩
  case proveBurn v =>
    simp only [exec, onProve_ok] at h
    obtain ⟨t, h, rfl⟩ := h
    exact .burn _ v w.prove (.burn v) (Or.inl rfl) rfl rfl h ⟨rfl, rfl, fun _ _ => ⟨rfl, rfl⟩, rfl, rfl⟩
  case proveBurnFrom f v =>
    simp only [exec, bind_ok, onProve_ok] at h
    obtain ⟨_, _, ⟨t1, g1, rfl⟩, t, g2, rfl⟩ := h
    obtain ⟨a1, a2, a3, _⟩ := Erc20.spend_ok g1
    replace a1 := allow_le v a1
    exact .burn f v t1 (.burnFrom f v a1) (Or.inr rfl) a2 a3 g2 ⟨rfl, rfl, fun _ _ => ⟨rfl, rfl⟩, rfl, rfl⟩
  case proveSetOwner a =>
    simp only [exec, bind_ok, get_ok, require_ok, modify_ok] at h
    obtain ⟨_, _, ⟨rfl, rfl⟩, _, _, ⟨_, rfl⟩, rfl⟩ := h
    exact .other rfl rfl ⟨rfl, rfl, fun _ _ => ⟨rfl, rfl⟩, rfl, rfl⟩
  case iproveTransfer to v =>
    exact (MayMove.outsider hr ha (iproveMove_ok h).1).elim
  case iproveTransferFrom f to v =>
    simp only [exec, bind_ok] at h
    obtain ⟨_, _, g1, g2⟩ := h
    obtain ⟨t, _, rfl⟩ := iproveSpend_ok g1
    exact (MayMove.outsider hr ha (iproveMove_ok g2).1).elim
  case iproveApprove s v =>
    simp only [exec, onIprove_ok] at h
    obtain ⟨t, ht, rfl⟩ := h
    obtain ⟨b1, b2⟩ : t.bal = w.iprove.bal ∧ t.supply = w.iprove.supply := by
      obtain ⟨_, _, rfl⟩ := Erc20.approve_ok ht; exact ⟨rfl, rfl⟩
    exact .other rfl rfl ⟨b1, b2, fun _ _ => ⟨rfl, rfl⟩, rfl, rfl⟩
  case iprovePermit x b d v =>
    simp only [exec, bind_ok, require_ok, onIprove_ok] at h
    obtain ⟨_, _, ⟨_, e⟩, t, ht, rfl⟩ := h
    rw [e] at ht ⊢
    obtain ⟨b1, b2⟩ : t.bal = w.iprove.bal ∧ t.supply = w.iprove.supply := by
      obtain ⟨_, _, rfl⟩ := Erc20.approve_ok ht; exact ⟨rfl, rfl⟩
    exact .other rfl rfl ⟨b1, b2, fun _ _ => ⟨rfl, rfl⟩, rfl, rfl⟩
  case iproveDeposit a r =>
    replace h := drop_ok.mp h
    obtain ⟨_, h⟩ := h
    exact (MayMove.outsider hr ha (iproveDeposit_ok h).2.1).elim
  case iproveMint s r =>
    replace h := drop_ok.mp h
    obtain ⟨_, h⟩ := h
    simp only [iproveMintExact, bind_ok, get_ok, add256_ok, mulDivUp_ok, pure_ok] at h
    obtain ⟨_, _, ⟨rfl, rfl⟩, _, _, ⟨_, rfl, rfl⟩, _, _, ⟨_, rfl, rfl⟩, _, _, ⟨_, _, rfl, rfl⟩, _, _, g1, _, _, g2, _, rfl⟩ := h
    obtain ⟨_, _, _, _, rfl⟩ := proveTransferFrom_ok g1
    exact (MayMove.outsider hr ha (iproveMint_ok g2).1).elim
  case iproveWithdraw x r o =>
    replace h := drop_ok.mp h
    obtain ⟨_, h⟩ := h
    simp only [iproveWithdraw, bind_ok, get_ok, require_ok, add256_ok, mulDivUp_ok] at h
    obtain ⟨_, _, ⟨rfl, rfl⟩, _, _, hp, _, _, ⟨_, rfl⟩, _, _, ⟨rfl, rfl⟩, _, _, ⟨_, rfl, rfl⟩, _, _, ⟨_, rfl, rfl⟩,
      _, _, ⟨_, _, rfl, rfl⟩, h⟩ := h
    obtain ⟨_, rfl⟩ := iprovePreviewRedeem_ok hp
    split at h
    · rw [bind_ok] at h
      obtain ⟨_, _, g1, h⟩ := h
      obtain ⟨t, _, rfl⟩ := iproveSpend_ok g1
      rw [bind_ok] at h
      obtain ⟨_, _, g2, _⟩ := h
      exact (MayMove.outsider hr ha (iproveBurnShares_ok g2).1).elim
    · rw [bind_ok] at h
      obtain ⟨_, _, g2, _⟩ := h
      exact (MayMove.outsider hr ha (iproveBurnShares_ok g2).1).elim
  case iproveRedeem s r o =>
    replace h := drop_ok.mp h
    obtain ⟨_, h⟩ := h
    exact (MayMove.outsider hr ha (iproveRedeem_ok h).2.2.1).elim
  case iproveBurn f v =>
    replace h := drop_ok.mp h
    obtain ⟨_, h⟩ := h
    exact absurd (iproveBurn_ok h).1 (hr.outsider ha).1
  case vaultTransfer p to v =>
    simp only [exec, bind_ok, vaultCheck_ok] at h
    obtain ⟨_, _, _, _, _, ⟨h1, _⟩, _⟩ := h
    exact absurd h1 (hr.outsider ha).1
  case vaultTransferFrom p f to v =>
    simp only [exec, bind_ok, vaultCheck_ok] at h
    obtain ⟨_, _, _, _, _, _, _, _, ⟨h1, _⟩, _⟩ := h
    exact absurd h1 (hr.outsider ha).1
  case vaultApprove p s v =>
    simp only [exec, bind_ok, isVault_ok, onVault_ok] at h
    obtain ⟨_, _, ⟨_, rfl⟩, t, ht, rfl⟩ := h
    obtain ⟨_, _, rfl⟩ := Erc20.approve_ok ht
    refine .other rfl rfl ⟨rfl, rfl, fun q _ => ?_, rfl, rfl⟩
    dsimp only
    by_cases e : q = p
    · subst e; rw [upd_same]; exact ⟨rfl, rfl⟩
    · rw [upd_ne _ _ e]; exact ⟨rfl, rfl⟩
  case vaultDeposit p a r =>
    simp only [exec, bind_ok, isVault_ok, drop_ok] at h
    obtain ⟨_, _, ⟨_, rfl⟩, n, h⟩ := h
    exact absurd (vaultDeposit_ok h).2.1 (hr.outsider ha).1
  case vaultMint p s r =>
    simp only [exec, bind_ok, isVault_ok, drop_ok, vaultMintExact, vaultCheck_ok] at h
    obtain ⟨_, _, ⟨_, rfl⟩, n, _, _, _, _, _, _, _, _, _, _, _, _, _, _, _, _, _, _, _, _, ⟨h1, _⟩, _⟩ := h
    exact absurd h1 (hr.outsider ha).1
  case vaultWithdraw p a r o =>
    simp only [exec, bind_ok, isVault_ok, drop_ok, vaultWithdraw, get_ok, add256_ok, mulDiv_ok, mulDivUp_ok, require_ok] at h
    obtain ⟨_, _, ⟨_, rfl⟩, n, _, _, ⟨rfl, rfl⟩, _, _, ⟨_, rfl, rfl⟩, _, _, ⟨_, rfl, rfl⟩, _, _, ⟨_, _, rfl, rfl⟩,
      _, _, ⟨_, rfl⟩, _, _, ⟨_, _, rfl, rfl⟩, h⟩ := h
    split at h
    · rw [bind_ok] at h
      obtain ⟨_, _, _, h⟩ := h
      rw [bind_ok] at h
      obtain ⟨_, _, h1, _⟩ := h
      exact absurd (vaultCheck_ok.mp h1).1 (hr.outsider ha).1
    · rw [bind_ok] at h
      obtain ⟨_, _, h1, _⟩ := h
      exact absurd (vaultCheck_ok.mp h1).1 (hr.outsider ha).1
  case vaultRedeem p s r o =>
    simp only [exec, bind_ok, isVault_ok, drop_ok] at h
    obtain ⟨_, _, ⟨_, rfl⟩, n, h⟩ := h
    exact absurd (vaultRedeem_ok h).2.2.1 (hr.outsider ha).1
  case vaultTransferProve p f v =>
    simp only [exec, bind_ok, isVault_ok] at h
    obtain ⟨_, _, ⟨_, rfl⟩, h⟩ := h
    exact absurd (transferProveToStaking_ok h).1 (hr.outsider ha).1
  case stTransfer to v =>
    simp only [exec, onSt_ok] at h
    exact nomatch h.1
  case stTransferFrom f to v =>
    simp only [exec, bind_ok, onSt_ok] at h
    obtain ⟨_, _, _, _, _, _, _, _, _, h, _⟩ := h
    exact nomatch h
  case stApprove s v =>
    simp only [exec, bind_ok, get_ok, lift_ok, modify_ok] at h
    obtain ⟨_, _, ⟨rfl, rfl⟩, t, _, ⟨ht, rfl⟩, rfl⟩ := h
    obtain ⟨_, _, rfl⟩ := Erc20.approve_ok ht
    exact .other rfl rfl ⟨rfl, rfl, fun _ _ => ⟨rfl, rfl⟩, rfl, rfl⟩
  case deposit v =>
    simp only [exec, drop_ok, vappDeposit, bind_ok, whenNotPaused_ok] at h
    obtain ⟨_, _, _, ⟨hp, rfl⟩, h⟩ := h
    obtain ⟨_, _, t1, t2, g1, g2, rfl⟩ := vappDepositFrom_ok h
    obtain ⟨a1, a2, a3, _⟩ := Erc20.spend_ok g1
    replace a1 := allow_le v a1
    exact .move _ cfg.vapp v t1 (.deposit v) nofun nofun nofun nofun a2 a3 g2 ⟨rfl, rfl, fun _ _ => ⟨rfl, rfl⟩, rfl, rfl⟩
  case permitAndDeposit s f v =>
    replace h := drop_ok.mp h
    obtain ⟨id, h⟩ := h
    obtain ⟨_, t0, g0, h⟩ := vappPermitAndDeposit_ok h
    obtain ⟨_, _, t1, t2, g1, g2, rfl⟩ := vappDepositFrom_ok h
    obtain ⟨a1, a2, a3, _⟩ := Erc20.spend_ok g1
    replace a1 := allow_le v a1
    have hb : t0.bal = w.prove.bal ∧ t0.supply = w.prove.supply := by
      rcases g0 with ⟨_, rfl⟩ | ⟨_, g0⟩
      · exact ⟨rfl, rfl⟩
      · obtain ⟨_, _, rfl⟩ := Erc20.approve_ok g0; exact ⟨rfl, rfl⟩
    exact .move f cfg.vapp v t1 (.permitAndDeposit s f v (by rcases g0 with ⟨e, _⟩ | ⟨e, _⟩; exact Or.inr e; exact Or.inl e))
      nofun nofun nofun nofun (a2.trans hb.1) (a3.trans hb.2) g2 ⟨rfl, rfl, fun _ _ => ⟨rfl, rfl⟩, rfl, rfl⟩
  case vappCreateProver p o f =>
    simp only [exec, drop_ok] at h
    obtain ⟨_, h⟩ := h
    obtain ⟨_, hp, _, _, hlt, rfl⟩ := vappCreateProver_ok h
    exact .other rfl rfl ⟨rfl, rfl, fun _ _ => ⟨rfl, rfl⟩, rfl, rfl⟩
  case createProver f =>
    simp only [exec, drop_ok] at h
    obtain ⟨p, h⟩ := h
    obtain ⟨_, _, _, _, hp, _, _, _, _, t, ht, rfl⟩ := createProver_ok h
    obtain ⟨b1, b2⟩ : t.bal = w.iprove.bal ∧ t.supply = w.iprove.supply := by
      obtain ⟨_, _, rfl⟩ := Erc20.approve_ok ht; exact ⟨rfl, rfl⟩
    refine .other rfl rfl ⟨b1, b2, fun q hq => ?_, rfl, rfl⟩
    have e : q ≠ p := by rintro rfl; rw [hp] at hq; exact nomatch hq
    dsimp only
    rw [upd_ne _ _ e]; exact ⟨rfl, rfl⟩
  case step pv pr =>
    obtain ⟨x, h⟩ := drop_ok.mp h
    exact .step pv pr x rfl h
  case fork k r =>
    obtain ⟨x, h⟩ := drop_ok.mp h
    obtain ⟨_, _, _, _, rfl⟩ := vappFork_ok h
    exact .other rfl rfl ⟨rfl, rfl, fun _ _ => ⟨rfl, rfl⟩, rfl, rfl⟩
  case stake p v =>
    replace h := drop_ok.mp h
    obtain ⟨n, h⟩ := h
    obtain ⟨hreg, t1, t2, g1, g2, he⟩ := stake_ok h
    obtain ⟨a1, a2, a3, _⟩ := Erc20.spend_ok g1
    replace a1 := allow_le v a1
    exact .stake _ p v n t1 t2 (.stake p v) (Or.inl ⟨rfl, rfl⟩) hreg a2 a3 g2 he
  case permitAndStake s p f v =>
    replace h := drop_ok.mp h
    obtain ⟨n, h⟩ := h
    obtain ⟨hreg, t0, t1, t2, g0, g1, g2, he⟩ := permitAndStake_ok h
    obtain ⟨a1, a2, a3, _⟩ := Erc20.spend_ok g1
    replace a1 := allow_le v a1
    have hb : t0.bal = w.prove.bal ∧ t0.supply = w.prove.supply := by
      rcases g0 with ⟨_, rfl⟩ | ⟨_, g0⟩
      · exact ⟨rfl, rfl⟩
      · obtain ⟨_, _, rfl⟩ := Erc20.approve_ok g0; exact ⟨rfl, rfl⟩
    exact .stake f p v n t1 t2 (.permitAndStake s p f v (by rcases g0 with ⟨e, _⟩ | ⟨e, _⟩; exact Or.inr e; exact Or.inl e))
      (Or.inr ⟨s, rfl⟩) hreg (a2.trans hb.1) (a3.trans hb.2) g2 he
  case requestUnstake v => exact .requestUnstake v rfl h
  case finishUnstake s =>
    obtain ⟨n, h⟩ := drop_ok.mp h
    exact .finishUnstake s n rfl h
  case cancelSlash p i =>
    obtain ⟨_, _, _, _, _, rfl⟩ := cancelSlash_ok h
    exact .other rfl rfl ⟨rfl, rfl, fun _ _ => ⟨rfl, rfl⟩, rfl, rfl⟩
  case finishSlash p i =>
    obtain ⟨n, h⟩ := drop_ok.mp h
    exact .finishSlash p i n rfl h
  case dispense v =>
    obtain ⟨hd, _, a, _, _, _, _, t, g1, rfl⟩ := dispense_ok h
    exact .dispense v a rfl hd g1 ⟨rfl, rfl, fun _ _ => ⟨rfl, rfl⟩, rfl, rfl⟩
  case updateDispenseRate v =>
    obtain ⟨_, _, rfl⟩ := updateDispenseRate_ok h
    exact .other rfl rfl ⟨rfl, rfl, fun _ _ => ⟨rfl, rfl⟩, rfl, rfl⟩
  case setDispenser x =>
    obtain ⟨_, rfl⟩ := setDispenser_ok h
    exact .other rfl rfl ⟨rfl, rfl, fun _ _ => ⟨rfl, rfl⟩, rfl, rfl⟩
  case stakingSetOwner x =>
    obtain ⟨_, rfl⟩ := stakingSetOwner_ok h
    exact .other rfl rfl ⟨rfl, rfl, fun _ _ => ⟨rfl, rfl⟩, rfl, rfl⟩
  all_goals
    have := (exec_params h rfl).2.2
    rw [this]
    exact .other rfl rfl ⟨rfl, rfl, fun _ _ => ⟨rfl, rfl⟩, rfl, rfl⟩


end Verif
