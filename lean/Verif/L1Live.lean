import Verif.L1Inv
/-
# Calls that go through

Forward execution: sufficient conditions for the functions of the staking contract to succeed.
-/

namespace Verif
open L1

theorem bind_run {α β : Type} {m : L1 α} {f : α → L1 β} {w w1 : World} {a : α} (h : m w = .ok (a, w1)) :
    (m >>= f) w = f a w1 := by
  show L1.bind m f w = _
  unfold L1.bind; rw [h]

/-- `m` does not revert. -/
def Runs {α : Type} (m : L1 α) (w : World) : Prop := ∃ a w', m w = .ok (a, w')

theorem Runs.bind {α β : Type} {m : L1 α} {f : α → L1 β} {w w1 : World} {a : α} (h : m w = .ok (a, w1))
    (hf : Runs (f a) w1) : Runs (m >>= f) w := by
  obtain ⟨b, w', hb⟩ := hf
  exact ⟨b, w', (bind_run h).trans hb⟩

theorem Runs.step {α β : Type} {m : L1 α} {f : α → L1 β} {w : World} (h : Runs m w)
    (hf : ∀ a w1, m w = .ok (a, w1) → Runs (f a) w1) : Runs (m >>= f) w := by
  obtain ⟨a, w1, ha⟩ := h
  exact Runs.bind ha (hf a w1 ha)

theorem Runs.ok {α : Type} {m : L1 α} {w w' : World} {a : α} (h : m w = .ok (a, w')) : Runs m w := ⟨a, w', h⟩

theorem Runs.pure {α : Type} (a : α) (w : World) : Runs (Pure.pure a : L1 α) w := ⟨a, w, rfl⟩

theorem get_run (w : World) : L1.get w = .ok (w, w) := rfl
theorem modify_run (f : World → World) (w : World) : L1.modify f w = .ok ((), f w) := rfl
theorem modStaking_run (f : Staking → Staking) (w : World) :
    modStaking f w = .ok ((), { w with staking := f w.staking }) := rfl
theorem require_run {c : Prop} [Decidable c] (h : c) (e : L1Err) (w : World) : L1.require c e w = .ok ((), w) :=
  require_ok.mpr ⟨h, rfl⟩
theorem add256_run {x y : Nat} (h : x + y ≤ max256) (w : World) : add256 x y w = .ok (x + y, w) :=
  add256_ok.mpr ⟨h, rfl, rfl⟩
theorem sub256_run {x y : Nat} (h : y ≤ x) (w : World) : sub256 x y w = .ok (x - y, w) := sub256_ok.mpr ⟨h, rfl, rfl⟩
theorem mulDiv_run {x y d : Nat} (h0 : d ≠ 0) (h : x * y / d ≤ max256) (w : World) :
    mulDiv x y d w = .ok (x * y / d, w) := mulDiv_ok.mpr ⟨h0, h, rfl, rfl⟩

namespace Erc20

theorem transfer_run {t : Erc20} {f to : Address} {v : Nat} (hf : f ≠ 0) (ht : to ≠ 0) (hv : v ≤ t.bal f) :
    t.transfer f to v = .ok { t with bal := upd (upd t.bal f (t.bal f - v)) to ((upd t.bal f (t.bal f - v)) to + v) } := by
  unfold transfer
  rw [if_neg (not_or.mpr ⟨hf, ht⟩), if_neg (by omega)]

theorem mint_run {t : Erc20} {to : Address} {v : Nat} (ht : to ≠ 0) (hv : t.supply + v ≤ max256) :
    t.mint to v = .ok { t with supply := t.supply + v, bal := upd t.bal to (t.bal to + v) } := by
  unfold mint
  rw [if_neg ht, if_neg (by omega)]

theorem burn_run {t : Erc20} {f : Address} {v : Nat} (hf : f ≠ 0) (hv : v ≤ t.bal f) :
    t.burn f v = .ok { t with supply := t.supply - v, bal := upd t.bal f (t.bal f - v) } := by
  unfold burn
  rw [if_neg hf, if_neg (by omega)]

theorem approve_run {t : Erc20} {o s : Address} {v : Nat} (ho : o ≠ 0) (hs : s ≠ 0) :
    t.approve o s v = .ok { t with allow := upd t.allow o (upd (t.allow o) s v) } := by
  unfold approve
  rw [if_neg (not_or.mpr ⟨ho, hs⟩)]

theorem spend_max {t : Erc20} {o s : Address} {v : Nat} (h : t.allow o s = max256) : t.spend o s v = .ok t := by
  unfold spend
  rw [if_pos h]

theorem spend_run {t : Erc20} {o s : Address} {v : Nat} (ho : o ≠ 0) (hs : s ≠ 0) (h : v ≤ t.allow o s) :
    ∃ t', t.spend o s v = .ok t' := by
  unfold spend
  split
  · exact ⟨_, rfl⟩
  · rw [if_neg (by omega)]
    exact ⟨_, approve_run ho hs⟩

end Erc20

theorem onProve_run {f : Erc20 → Except L1Err Erc20} {w : World} {t : Erc20} (h : f w.prove = .ok t) :
    onProve f w = .ok ((), { w with prove := t }) := onProve_ok.mpr ⟨t, h, rfl⟩
theorem onIprove_run {f : Erc20 → Except L1Err Erc20} {w : World} {t : Erc20} (h : f w.iprove = .ok t) :
    onIprove f w = .ok ((), { w with iprove := t }) := onIprove_ok.mpr ⟨t, h, rfl⟩
theorem onVault_run {p : Address} {f : Erc20 → Except L1Err Erc20} {w : World} {t : Erc20} (h : f (w.vault p) = .ok t) :
    onVault p f w = .ok ((), { w with vault := upd w.vault p t }) := onVault_ok.mpr ⟨t, h, rfl⟩
theorem onSt_run {f : Erc20 → Except L1Err Erc20} {w : World} {t : Erc20} (h : f w.st = .ok t) :
    onSt true f w = .ok ((), { w with st := t }) := onSt_ok.mpr ⟨rfl, t, h, rfl⟩

theorem requireNoSlash_run {p : Address} {w : World} (h : w.staking.slashClaimCount p = 0) :
    requireNoSlash p w = .ok ((), w) := requireNoSlash_ok.mpr ⟨h, rfl⟩
theorem onlyForProver_run {p : Address} {w : World} (h : w.staking.provers p = true) :
    onlyForProver p w = .ok ((), w) := onlyForProver_ok.mpr ⟨h, rfl⟩
theorem vaultCheck_run {cfg : Cfg} {w : World} : vaultCheck cfg cfg.staking w = .ok ((), w) :=
  vaultCheck_ok.mpr ⟨rfl, rfl⟩
theorem iproveCheck_run {cfg : Cfg} {s f t : Address} {w : World} (h : MayMove cfg w s f t) :
    iproveCheck cfg s f t w = .ok ((), w) := iproveCheck_ok.mpr ⟨h, rfl⟩

/-! ## Sizes -/

/-- Worlds of ordinary size: fewer than 2^160 units of $PROVE (of which 10^27 exist at the start), prover vaults
and $stPROVE with fewer than 2^255 shares, claims of fewer than 2^160 $iPROVE, and times that fit 64 bits. -/
structure Sane (w : World) : Prop where
  prove : w.prove.supply < 2 ^ 160
  vault : ∀ p, w.staking.provers p = true → (w.vault p).supply < 2 ^ 255
  st : w.st.supply < 2 ^ 255
  claim : ∀ s, ∀ cl ∈ w.staking.unstakeClaims s, cl.iPROVEEscrow < 2 ^ 160 ∧ cl.timestamp < 2 ^ 64
  period : w.staking.unstakePeriod < 2 ^ 64

theorem le_max256 {n : Nat} (h : n < 2 ^ 255) : n ≤ max256 := by unfold max256; omega

theorem le_max256' {n : Nat} (h : n ≤ 2 ^ 255) : n ≤ max256 := by unfold max256; omega

/-- The price of a share is computed without overflow, and what shares are worth is there. -/
theorem redeem_le {n P S : Nat} (hn : n ≤ S) : n * (P + 1) / (S + 1) ≤ P := by
  have : n * (P + 1) / (S + 1) < P + 1 := by
    rw [Nat.div_lt_iff_lt_mul (Nat.succ_pos _), Nat.mul_comm]
    exact Nat.mul_lt_mul_of_pos_left (by omega) (Nat.succ_pos _)
  omega

theorem deposit_le {v P S : Nat} (h : S ≤ P) : v * (S + 1) / (P + 1) ≤ v := by
  apply Nat.div_le_of_le_mul
  rw [Nat.mul_comm (P + 1)]
  exact Nat.mul_le_mul_left _ (by omega)

theorem iprovePreviewRedeem_run {cfg : Cfg} {n : Nat} {w : World} (hn : n ≤ w.iprove.supply)
    (hs : w.iprove.supply < 2 ^ 160) (hp : w.prove.bal cfg.iprove < 2 ^ 160) :
    iprovePreviewRedeem cfg n w = .ok (n * (w.prove.bal cfg.iprove + 1) / (w.iprove.supply + 1), w) := by
  have h1 := redeem_le (P := w.prove.bal cfg.iprove) hn
  unfold iprovePreviewRedeem
  rw [bind_run (get_run w), bind_run (add256_run (le_max256 (by omega)) w), bind_run (add256_run (le_max256 (by omega)) w)]
  exact mulDiv_run (by omega) (le_max256 (by omega)) w

/-- The $iPROVE worth of tokens does not exceed the supply. -/
structure Sized (cfg : Cfg) (w : World) : Prop where
  iprove : w.iprove.Balanced
  small : w.iprove.supply < 2 ^ 160
  backed : w.prove.bal cfg.iprove < 2 ^ 160

theorem Sized.of {cfg : Cfg} {w : World} (hi : StakingInv cfg w) (hl : LiveInv cfg w) (hs : Sane w) : Sized cfg w := by
  have h1 := hi.prove.balanced.le cfg.iprove
  have h2 := hl.supply
  have h3 := hs.prove
  exact ⟨hi.stake.iprove, by omega, by omega⟩

/-! ## `stake` -/

theorem iproveDeposit_run {cfg : Cfg} {s r : Address} {v : Nat} {w : World} (hc : cfg.WF) (hw : w.prove.Balanced)
    (hs : w.prove.supply < 2 ^ 160) (hle : w.iprove.supply ≤ w.prove.bal cfg.iprove) (hr : r ≠ 0) (hs0 : s ≠ 0)
    (hsi : s ≠ cfg.iprove) (hal : w.prove.allow s cfg.iprove = max256) (hv : v ≤ w.prove.bal s)
    (hm : MayMove cfg w s 0 r) : Runs (iproveDeposit cfg s v r) w := by
  have htwo := hw.le_two hsi
  have hd := deposit_le (v := v) hle
  have hprev : iprovePreviewDeposit cfg v w = .ok (v * (w.iprove.supply + 1) / (w.prove.bal cfg.iprove + 1), w) := by
    unfold iprovePreviewDeposit
    rw [bind_run (get_run w), bind_run (add256_run (le_max256 (by omega)) w), bind_run (add256_run (le_max256 (by omega)) w)]
    exact mulDiv_run (by omega) (le_max256 (by omega)) w
  unfold iproveDeposit
  refine Runs.bind hprev (Runs.step ?_ fun _ w1 h1 => ?_)
  · exact Runs.bind (onProve_run (Erc20.spend_max hal)) (Runs.ok (onProve_run (Erc20.transfer_run hs0 hc.nonzero.2.1 hv)))
  · obtain ⟨t1, t2, _, _, rfl⟩ := proveTransferFrom_ok h1
    refine Runs.step ?_ fun _ _ _ => Runs.pure _ _
    refine Runs.bind (iproveCheck_run hm) (Runs.bind (onIprove_run (Erc20.mint_run hr ?_)) ?_)
    · show w.iprove.supply + _ ≤ _
      exact le_max256 (by omega)
    · refine Runs.bind (get_run _) (Runs.ok (require_run ?_ _ _))
      show w.iprove.supply + _ ≤ _
      omega

theorem vaultDeposit_run {cfg : Cfg} {p : Address} {v : Nat} {w : World} (hc : cfg.WF) (hp0 : p ≠ 0)
    (hp : w.staking.provers p = true) (hal : w.iprove.allow cfg.staking p = max256) (hv : v ≤ w.iprove.bal cfg.staking)
    (hb : w.iprove.bal p < 2 ^ 160) (hvs : (w.vault p).supply < 2 ^ 255)
    (hn : v * ((w.vault p).supply + 1) / (w.iprove.bal p + 1) < 2 ^ 254) :
    Runs (vaultDeposit cfg cfg.staking p v cfg.staking) w := by
  unfold vaultDeposit
  refine Runs.bind (get_run _) (Runs.bind (add256_run (le_max256' (by omega)) _) (Runs.bind (add256_run (le_max256 (by omega)) _)
    (Runs.bind (mulDiv_run (by omega) (le_max256 (by omega)) _) ?_)))
  refine Runs.step ?_ fun _ w1 h1 => ?_
  · unfold iproveSpend
    split
    · exact Runs.pure _ _
    · exact Runs.ok (onIprove_run (Erc20.spend_max hal))
  · obtain ⟨i0, hi0, rfl⟩ := iproveSpend_ok h1
    obtain ⟨e1, e2⟩ := iproveSpend_bal hi0
    refine Runs.step ?_ fun _ w2 h2 => ?_
    · refine Runs.bind (iproveCheck_run (Or.inr (Or.inl ⟨hp, Or.inl rfl⟩)))
        (Runs.ok (onIprove_run (Erc20.transfer_run hc.nonzero.2.2.1 hp0 ?_)))
      show v ≤ i0.bal _
      rw [e1]; exact hv
    · obtain ⟨_, i1, _, rfl⟩ := iproveMove_ok h2
      refine Runs.bind vaultCheck_run (Runs.bind (onVault_run (Erc20.mint_run hc.nonzero.2.2.1 ?_)) (Runs.pure _ _))
      show (w.vault p).supply + _ ≤ _
      unfold max256; omega

/-- What `_stake` needs to go through. -/
structure CanStake (cfg : Cfg) (staker prover : Address) (v : Nat) (w : World) : Prop where
  amount : v ≠ 0
  min : w.staking.minStakeAmount ≤ v
  active : w.staking.deactivatedProvers prover = false
  noSlash : w.staking.slashClaimCount prover = 0
  one : w.staking.stakerToProver staker = 0 ∨ w.staking.stakerToProver staker = prover
  shares : v * (w.iprove.supply + 1) / (w.prove.bal cfg.iprove + 1) * ((w.vault prover).supply + 1) / (w.iprove.bal prover + 1) ≠ 0

theorem stakeFor_run {cfg : Cfg} {staker prover : Address} {v : Nat} {w : World} (hc : cfg.WF) (hl : LiveInv cfg w)
    (hb : w.prove.Balanced) (hib : w.iprove.Balanced) (hs : Sane w) (hp : w.staking.provers prover = true)
    (hpn : prover ≠ 0 ∧ prover ≠ cfg.staking) (h0 : staker ≠ 0)
    (hv : v ≤ w.prove.bal cfg.staking) (h : CanStake cfg staker prover v w) : Runs (stakeFor cfg staker prover v) w := by
  have hd := hc.distinct
  simp at hd
  have htwo := hb.le_two (a := cfg.staking) (b := cfg.iprove) (Ne.symm hd.2.1.1)
  have hsup := hs.prove
  have hle := hl.supply
  unfold stakeFor
  refine Runs.bind (require_run h.amount _ _) (Runs.bind (get_run _) (Runs.bind (require_run h.min _ _)
    (Runs.bind (get_run _) (Runs.bind (require_run h.active _ _) (Runs.bind (requireNoSlash_run h.noSlash)
    (Runs.bind (get_run _) (Runs.bind (require_run h.one _ _) ?_)))))))
  have key : ∀ W : World, (∃ S, W = { w with staking := { w.staking with stakerToProver := S } }) →
      Runs (iproveDeposit cfg cfg.staking v cfg.staking >>= fun i => L1.require (i ≠ 0) .zeroReceiptAmount >>= fun _ =>
        vaultDeposit cfg cfg.staking prover i cfg.staking >>= fun st =>
        L1.require (st ≠ 0) .zeroReceiptAmount >>= fun _ =>
        onSt true (·.mint staker st) >>= fun _ => (pure st : L1 Nat)) W := by
    rintro W ⟨S, rfl⟩
    refine Runs.step (iproveDeposit_run hc hb hsup hle hc.nonzero.2.2.1 hc.nonzero.2.2.1 (Ne.symm hd.2.1.1) hl.allowP hv
      (Or.inl rfl)) fun i w1 h1 => ?_
    obtain ⟨hi, _, t1, t2, t3, _, _, h4, _, rfl⟩ := iproveDeposit_ok h1
    have hi' : i = v * (w.iprove.supply + 1) / (w.prove.bal cfg.iprove + 1) := hi
    obtain ⟨_, _, rfl⟩ := Erc20.mint_ok h4
    have hsh := h.shares
    rw [← hi'] at hsh
    have hi0 : i ≠ 0 := by
      intro e; rw [e] at hsh; simp at hsh
    have hile : i ≤ v := by rw [hi']; exact deposit_le hle
    have hpb := hib.le prover
    have hprice := hl.price prover hp h.active
    have hnle : i * ((w.vault prover).supply + 1) / (w.iprove.bal prover + 1) ≤ 10 ^ 9 * i := by
      apply Nat.div_le_of_le_mul
      calc i * ((w.vault prover).supply + 1) ≤ i * (10 ^ 9 * (w.iprove.bal prover + 1)) := Nat.mul_le_mul_left _ hprice
        _ = (w.iprove.bal prover + 1) * (10 ^ 9 * i) := by
          rw [Nat.mul_comm, Nat.mul_comm (10 ^ 9), Nat.mul_assoc]
    have hvs := hs.vault prover hp
    have hst := hs.st
    have eb : upd w.iprove.bal cfg.staking (w.iprove.bal cfg.staking + i) prover = w.iprove.bal prover :=
      upd_ne _ _ hpn.2
    refine Runs.bind (require_run hi0 _ _) (Runs.step (vaultDeposit_run hc hpn.1 hp (hl.allowI prover hp) ?_ ?_ hvs ?_) fun n w2 h2 => ?_)
    · show i ≤ upd w.iprove.bal cfg.staking (w.iprove.bal cfg.staking + i) cfg.staking
      rw [upd_same]; omega
    · show upd w.iprove.bal cfg.staking (w.iprove.bal cfg.staking + i) prover < _
      rw [eb]; omega
    · show i * ((w.vault prover).supply + 1) / (upd w.iprove.bal cfg.staking (w.iprove.bal cfg.staking + i) prover + 1) < _
      rw [eb]; omega
    · obtain ⟨hn, _, i0, i1, v1, _, _, _, rfl⟩ := vaultDeposit_ok h2
      have hn' : n = i * ((w.vault prover).supply + 1) / (upd w.iprove.bal cfg.staking (w.iprove.bal cfg.staking + i) prover + 1) := hn
      rw [eb] at hn'
      refine Runs.bind (require_run (by rw [hn']; exact hsh) _ _) (Runs.bind (onSt_run (Erc20.mint_run h0 ?_)) (Runs.pure _ _))
      show w.st.supply + n ≤ _
      unfold max256; omega
  split
  · exact Runs.bind (modStaking_run _ _) (key _ ⟨_, rfl⟩)
  · exact key w ⟨w.staking.stakerToProver, rfl⟩

/-- Tokens moved into the staking contract by an outsider do not disturb anything else. -/
theorem LiveInv.paid {cfg : Cfg} {w : World} {t1 : Erc20} (hl : LiveInv cfg w)
    (hb : t1.bal cfg.iprove = w.prove.bal cfg.iprove) (h1 : t1.allow cfg.staking cfg.iprove = w.prove.allow cfg.staking cfg.iprove)
    (h2 : t1.allow cfg.vapp cfg.iprove = w.prove.allow cfg.vapp cfg.iprove) : LiveInv cfg { w with prove := t1 } :=
  { hl with
    supply := by show w.iprove.supply ≤ t1.bal cfg.iprove; rw [hb]; exact hl.supply
    allowP := h1.trans hl.allowP
    allowV := h2.trans hl.allowV }

theorem stake_run {cfg : Cfg} {c : Ctx} {p : Address} {v : Nat} {w : World} (hc : cfg.WF) (hi : StakingInv cfg w)
    (hl : LiveInv cfg w) (hs : Sane w) (ho : ¬ cfg.System c.sender) (h0 : c.sender ≠ 0) (hp : w.staking.provers p = true)
    (hv : v ≤ w.prove.bal c.sender) (hal : v ≤ w.prove.allow c.sender cfg.staking) (h : CanStake cfg c.sender p v w) :
    Runs (stake cfg c p v) w := by
  have hd := hc.distinct
  simp at hd
  have hpn := hi.reg.ne hc hp
  have hne1 : c.sender ≠ cfg.iprove := fun e => ho (e ▸ Or.inr (Or.inl rfl))
  have hne2 : c.sender ≠ cfg.staking := fun e => ho (e ▸ Or.inr (Or.inr (Or.inl rfl)))
  have hne3 : c.sender ≠ cfg.vapp := fun e => ho (e ▸ Or.inr (Or.inr (Or.inr (Or.inl rfl))))
  unfold stake
  refine Runs.bind (onlyForProver_run hp) (Runs.step ?_ fun _ w1 h1 => ?_)
  · obtain ⟨t1, ht1⟩ := Erc20.spend_run h0 hc.nonzero.2.2.1 hal
    obtain ⟨_, e1, _⟩ := Erc20.spend_ok ht1
    exact Runs.bind (onProve_run ht1) (Runs.ok (onProve_run (Erc20.transfer_run h0 hc.nonzero.2.2.1 (by
      show v ≤ t1.bal _; rw [e1]; exact hv))))
  · obtain ⟨t1, t2, g1, g2, rfl⟩ := proveTransferFrom_ok h1
    obtain ⟨_, e1, e2, e3, _⟩ := Erc20.spend_ok g1
    have hbal : t2.Balanced := (hi.prove.balanced.spend g1).transfer g2
    obtain ⟨_, _, hle, rfl⟩ := Erc20.transfer_ok g2
    have hib : upd (upd t1.bal c.sender (t1.bal c.sender - v)) cfg.staking
        (upd t1.bal c.sender (t1.bal c.sender - v) cfg.staking + v) cfg.iprove = w.prove.bal cfg.iprove := by
      rw [upd_ne _ _ hd.2.1.1, upd_ne _ _ (Ne.symm hne1), e1]
    refine stakeFor_run hc (hl.paid hib (e3 _ _ (Or.inl (Ne.symm hne2))) (e3 _ _ (Or.inl (Ne.symm hne3)))) hbal hi.stake.iprove
      ⟨by show t1.supply < _; rw [e2]; exact hs.prove, hs.vault, hs.st, hs.claim, hs.period⟩ hp ⟨hpn.1, hpn.2.2.2.1⟩ h0 ?_
      ⟨h.amount, h.min, h.active, h.noSlash, h.one, ?_⟩
    · show v ≤ upd (upd t1.bal c.sender (t1.bal c.sender - v)) cfg.staking
        (upd t1.bal c.sender (t1.bal c.sender - v) cfg.staking + v) cfg.staking
      rw [upd_same]; omega
    · show v * (w.iprove.supply + 1) / (upd (upd t1.bal c.sender (t1.bal c.sender - v)) cfg.staking
        (upd t1.bal c.sender (t1.bal c.sender - v) cfg.staking + v) cfg.iprove + 1) * ((w.vault p).supply + 1) /
          (w.iprove.bal p + 1) ≠ 0
      rw [hib]; exact h.shares

theorem permitAndStake_run {cfg : Cfg} {signer f p : Address} {v : Nat} {w : World} (hc : cfg.WF) (hi : StakingInv cfg w)
    (hl : LiveInv cfg w) (hs : Sane w) (ho : ¬ cfg.System f) (h0 : f ≠ 0) (hp : w.staking.provers p = true)
    (hv : v ≤ w.prove.bal f) (hal : w.prove.allow f p = v ∨ signer = f) (h : CanStake cfg f p v w) :
    Runs (permitAndStake cfg signer p f v) w := by
  have hd := hc.distinct
  simp at hd
  have hpn := hi.reg.ne hc hp
  have hne1 : f ≠ cfg.iprove := fun e => ho (e ▸ Or.inr (Or.inl rfl))
  have hne2 : f ≠ cfg.staking := fun e => ho (e ▸ Or.inr (Or.inr (Or.inl rfl)))
  have hne3 : f ≠ cfg.vapp := fun e => ho (e ▸ Or.inr (Or.inr (Or.inr (Or.inl rfl))))
  -- after the permit
  have key : ∀ t0 : Erc20, t0.bal = w.prove.bal → t0.supply = w.prove.supply → (∀ a, a ≠ f → t0.allow a = w.prove.allow a) →
      t0.Balanced → v ≤ t0.allow f p →
      Runs (transferProveToStaking cfg cfg.staking p f v >>= fun _ => stakeFor cfg f p v) { w with prove := t0 } := by
    intro t0 a1 a2 a3 a4 a5
    refine Runs.step (Runs.bind (require_run rfl _ _) ?_) fun _ w1 h1 => ?_
    · obtain ⟨t1, ht1⟩ := Erc20.spend_run h0 hpn.1 a5
      obtain ⟨_, e1, _⟩ := Erc20.spend_ok ht1
      exact Runs.bind (onProve_run ht1) (Runs.ok (onProve_run (Erc20.transfer_run h0 hc.nonzero.2.2.1 (by
        show v ≤ t1.bal _; rw [e1, a1]; exact hv))))
    · obtain ⟨_, t1, t2, g1, g2, rfl⟩ := transferProveToStaking_ok h1
      obtain ⟨_, e1, e2, e3, _⟩ := Erc20.spend_ok g1
      have hbal : t2.Balanced := (Erc20.Balanced.spend a4 g1).transfer g2
      obtain ⟨_, _, hle, rfl⟩ := Erc20.transfer_ok g2
      have hib : upd (upd t1.bal f (t1.bal f - v)) cfg.staking
          (upd t1.bal f (t1.bal f - v) cfg.staking + v) cfg.iprove = w.prove.bal cfg.iprove := by
        rw [upd_ne _ _ hd.2.1.1, upd_ne _ _ (Ne.symm hne1), e1]
        exact congrFun a1 _
      refine stakeFor_run hc (hl.paid hib ((e3 _ _ (Or.inl (Ne.symm hne2))).trans (congrFun (a3 _ (Ne.symm hne2)) _))
        ((e3 _ _ (Or.inl (Ne.symm hne3))).trans (congrFun (a3 _ (Ne.symm hne3)) _))) hbal hi.stake.iprove
        ⟨by show t1.supply < _; rw [e2]; exact a2 ▸ hs.prove, hs.vault, hs.st, hs.claim, hs.period⟩ hp ⟨hpn.1, hpn.2.2.2.1⟩ h0 ?_
        ⟨h.amount, h.min, h.active, h.noSlash, h.one, ?_⟩
      · show v ≤ upd (upd t1.bal f (t1.bal f - v)) cfg.staking
          (upd t1.bal f (t1.bal f - v) cfg.staking + v) cfg.staking
        rw [upd_same]; omega
      · show v * (w.iprove.supply + 1) / (upd (upd t1.bal f (t1.bal f - v)) cfg.staking
          (upd t1.bal f (t1.bal f - v) cfg.staking + v) cfg.iprove + 1) * ((w.vault p).supply + 1) /
            (w.iprove.bal p + 1) ≠ 0
        rw [hib]; exact h.shares
  unfold permitAndStake
  refine Runs.bind (onlyForProver_run hp) (Runs.bind (get_run _) ?_)
  split
  · rename_i hne
    have hsg : signer = f := hal.resolve_left hne
    refine Runs.bind (w1 := { w with prove := { w.prove with allow := upd w.prove.allow f (upd (w.prove.allow f) p v) } }) (a := ())
      ((bind_run (require_run hsg _ _)).trans (onProve_run (Erc20.approve_run h0 hpn.1)))
      (key _ rfl rfl (fun a ha => upd_ne _ _ ha) hi.prove.balanced ?_)
    show v ≤ upd w.prove.allow f (upd (w.prove.allow f) p v) f p
    rw [upd_same, upd_same]; exact Nat.le_refl _
  · rename_i he
    exact key w.prove rfl rfl (fun _ _ => rfl) hi.prove.balanced (by
      have := Decidable.not_not.mp he
      rw [this]; exact Nat.le_refl _)

/-! ## `requestUnstake` -/

theorem requestUnstake_run {cfg : Cfg} {c : Ctx} {v : Nat} {w : World} (hc : cfg.WF) (hi : StakingInv cfg w)
    (hl : LiveInv cfg w) (hs : Sane w) (h1 : v ≠ 0) (h2 : w.staking.stakerToProver c.sender ≠ 0)
    (h3 : (w.staking.unstakeClaims c.sender).length < w.staking.maxUnstakeRequests)
    (h4 : w.staking.slashClaimCount (w.staking.stakerToProver c.sender) = 0) (h5 : v ≤ w.st.bal c.sender) :
    Runs (requestUnstake cfg c v) w := by
  have h0 : c.sender ≠ 0 := by intro e; rw [e] at h2; exact h2 hl.zero
  have hreg := hi.stake.staked _ h2
  generalize hpe : w.staking.stakerToProver c.sender = p at *
  have hpn := hi.reg.ne hc hreg
  have hsz := Sized.of hi hl hs
  have hvs := hs.vault p hreg
  have hvb := hi.stake.vbal p hreg
  have hpool := hi.stake.escrow.le p
  have hsum := hi.stake.iprove.le_two (a := cfg.staking) (b := p) (Ne.symm hpn.2.2.2.1)
  have hsm := hsz.small
  have hvle : v ≤ (w.vault p).supply := by
    have := (hi.stake.vstake p hreg).le c.sender
    rw [if_pos hpe] at this
    omega
  have hesc : v * (w.iprove.bal p + 1) / ((w.vault p).supply + 1) ≤ w.iprove.bal p := redeem_le hvle
  unfold requestUnstake
  refine Runs.bind (require_run h1 _ _) (Runs.bind (get_run _) (Runs.bind (require_run (by rw [hpe]; exact h2) _ _)
    (Runs.bind (get_run _) (Runs.bind (require_run h3 _ _) (Runs.bind (requireNoSlash_run (by rw [hpe]; exact h4))
    (Runs.bind (get_run _) (Runs.bind (require_run h5 _ _) ?_)))))))
  rw [hpe]
  refine Runs.step (Runs.bind (onSt_run (Erc20.burn_run h0 h5)) ?_) fun e w1 hw1 => ?_
  · unfold vaultRedeem
    refine Runs.bind (get_run _) (Runs.bind (require_run (by show v ≤ (w.vault p).bal _; omega) _ _)
      (Runs.bind (add256_run (by show w.iprove.bal p + 1 ≤ _; unfold max256; omega) _)
      (Runs.bind (add256_run (by show (w.vault p).supply + 1 ≤ _; unfold max256; omega) _)
      (Runs.bind (mulDiv_run (Nat.succ_ne_zero _) (by
        show v * (w.iprove.bal p + 1) / ((w.vault p).supply + 1) ≤ _; unfold max256; omega) _) ?_))))
    dsimp only
    rw [if_neg (fun h => h rfl)]
    refine Runs.bind vaultCheck_run (Runs.bind (onVault_run (Erc20.burn_run hc.nonzero.2.2.1 (by
      show v ≤ (w.vault p).bal _; omega))) (Runs.step ?_ fun _ _ _ => Runs.pure _ _))
    refine Runs.bind (iproveCheck_run (Or.inr (Or.inl ⟨hreg, Or.inr rfl⟩)))
      (Runs.ok (onIprove_run (Erc20.transfer_run hpn.1 hc.nonzero.2.2.1 ?_)))
    exact hesc
  · have hw1' : escrowUnstakeRequest cfg c.sender p v w = .ok (e, w1) := hw1
    simp only [escrowUnstakeRequest, bind_ok, onSt_ok] at hw1'
    obtain ⟨_, _, ⟨_, s1, _, rfl⟩, hr⟩ := hw1'
    obtain ⟨_, he, _, v1, i1, _, _, rfl⟩ := vaultRedeem_ok hr
    have he' : e = v * (w.iprove.bal p + 1) / ((w.vault p).supply + 1) := he
    refine Runs.bind (get_run _) (Runs.bind (add256_run (by
      show (w.staking.escrowPools p).iPROVEEscrow + e ≤ _
      unfold max256; omega) _) (Runs.ok (modStaking_run _ _)))

end Verif
