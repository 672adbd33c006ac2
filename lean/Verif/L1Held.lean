import Verif.L1Fields
/-
# Whose $PROVE a call can take
-/

namespace Verif
open L1

/-- The permit signature a call carries. -/
def Call.signer : Call → Option Address
  | .provePermit s _ _ _ | .permitAndDeposit s _ _ | .permitAndStake s _ _ _ => some s
  | _ => none

theorem Erc20.transfer_keeps {t t' : Erc20} {f to a : Address} {v : Nat} (h : t.transfer f to v = .ok t')
    (ha : f ≠ a ∨ v = 0) : t.bal a ≤ t'.bal a := by
  obtain ⟨_, _, hv, rfl⟩ := transfer_ok h
  dsimp only
  by_cases e : a = to
  · subst e
    rw [upd_same]
    by_cases e' : a = f
    · subst e'
      rw [upd_same]; omega
    · rw [upd_ne _ _ e']; omega
  · rw [upd_ne _ _ e]
    by_cases e' : a = f
    · subst e'
      rcases ha with h | rfl
      · exact absurd rfl h
      · rw [upd_same]; omega
    · rw [upd_ne _ _ e']; exact Nat.le_refl _

theorem Erc20.burn_keeps {t t' : Erc20} {f a : Address} {v : Nat} (h : t.burn f v = .ok t')
    (ha : f ≠ a ∨ v = 0) : t.bal a ≤ t'.bal a := by
  obtain ⟨_, hv, rfl⟩ := burn_ok h
  dsimp only
  by_cases e' : a = f
  · subst e'
    rcases ha with h | rfl
    · exact absurd rfl h
    · rw [upd_same]; omega
  · rw [upd_ne _ _ e']; exact Nat.le_refl _

theorem Erc20.mint_keeps {t t' : Erc20} {to a : Address} {v : Nat} (h : t.mint to v = .ok t') :
    t.bal a ≤ t'.bal a := by
  obtain ⟨_, _, rfl⟩ := mint_ok h
  dsimp only
  by_cases e : a = to
  · subst e; rw [upd_same]; omega
  · rw [upd_ne _ _ e]; exact Nat.le_refl _

theorem Erc20.spend_zero {t t' : Erc20} {o s : Address} {v : Nat} (h : t.spend o s v = .ok t')
    (ha : t.allow o s = 0) : v = 0 := by
  rcases (spend_ok h).1 with h | h
  · rw [ha] at h; exact absurd h (by decide)
  · omega

/-- `spend` followed by `transfer`. -/
theorem Erc20.transferFrom_keeps {t t1 t' : Erc20} {s f to a : Address} {v : Nat} (h1 : t.spend f s v = .ok t1)
    (h : t1.transfer f to v = .ok t') (ha : f ≠ a ∨ t.allow a s = 0) : t.bal a ≤ t'.bal a := by
  rw [← (spend_ok h1).2.1]
  refine transfer_keeps h ?_
  by_cases e : f = a
  · subst e
    exact Or.inr (spend_zero h1 (ha.resolve_left (fun h => h rfl)))
  · exact Or.inl e

theorem processWithdraw_keeps {cfg : Cfg} {c : Ctx} {to a : Address} {n : Nat} (ha : a ≠ cfg.vapp) :
    Within (fun w w' => w.prove.bal a ≤ w'.prove.bal a) (processWithdraw cfg c to n) := by
  intro w u w' h
  simp only [processWithdraw, bind_ok, get_ok] at h
  obtain ⟨_, _, ⟨rfl, rfl⟩, h⟩ := h
  split at h
  · simp only [bind_ok, pure_ok] at h
    obtain ⟨n, _, h, _, rfl⟩ := h
    obtain ⟨_, _, t1, t2, t3, h1, h2, _, _, rfl⟩ := iproveDeposit_ok h
    exact Erc20.transferFrom_keeps h1 h2 (Or.inl (Ne.symm ha))
  · obtain ⟨t, g, rfl⟩ := proveTransfer_ok h
    exact Erc20.transfer_keeps g (Or.inl (Ne.symm ha))

/-- Reflexive and transitive. -/
theorem keeps_pre (a : Address) : Pre (fun w w' : World => w.prove.bal a ≤ w'.prove.bal a) where
  refl _ := Nat.le_refl _
  trans _ _ _ h g := Nat.le_trans h g

theorem handleOffchain_cases {cfg : Cfg} {c : Ctx} {r : SolReceipt} {u : Unit} {w w' : World}
    (h : handleOffchain cfg c r w = .ok (u, w')) :
    (r.status = .reverted ∧ w' = w) ∨
    (r.status ≠ .reverted ∧ r.variant = .withdraw ∧ ∃ d, decAccountAmount r.action = some d ∧
      processWithdraw cfg c d.1 d.2.toNat w = .ok ((), w')) := by
  simp only [handleOffchain, bind_ok, requireFinal_ok] at h
  obtain ⟨_, _, ⟨_, rfl⟩, h⟩ := h
  split at h
  · rename_i hs
    exact Or.inl ⟨hs, (pure_ok.mp h).2⟩
  · rename_i hs
    split at h
    · rename_i hv
      simp only [bind_ok, liftO_ok] at h
      obtain ⟨d, _, ⟨hd, rfl⟩, h⟩ := h
      exact Or.inr ⟨hs, hv, d, hd, h⟩
    · exact (throw_ok.mp h).elim

theorem handleReceipts_keeps {cfg : Cfg} {c : Ctx} {a : Address} (ha : a ≠ cfg.vapp) (rs : List SolReceipt) :
    Within (fun w w' => w.prove.bal a ≤ w'.prove.bal a) (handleReceipts cfg c rs) := by
  induction rs with
  | nil => exact Within.pure (keeps_pre a) ()
  | cons r rs ih =>
    unfold handleReceipts
    split
    · refine Within.bind (keeps_pre a) ?_ (fun _ => ih)
      intro w u w' h
      obtain ⟨_, _, _, _, _, rfl⟩ := handleOnchain_ok h
      exact Nat.le_refl _
    · refine Within.bind (keeps_pre a) ?_ (fun _ => ih)
      intro w u w' h
      rcases handleOffchain_cases h with ⟨_, rfl⟩ | ⟨_, _, d, _, h⟩
      · exact Nat.le_refl _
      · exact processWithdraw_keeps ha _ _ _ h

theorem PayStep.keeps {cfg : Cfg} {c : Ctx} {staker prover a : Address} {i n : Nat} {claim : UnstakeClaim} {w w' : World}
    (h : PayStep cfg c staker prover i n claim w w') (ha : a ≠ cfg.iprove) : w.prove.bal a ≤ w'.prove.bal a := by
  obtain ⟨_, _, h⟩ := h
  obtain ⟨_, pay, _, hle, h⟩ := finishUnstakeRequest_ok h
  rcases h with ⟨_, _, rfl⟩ | ⟨_, hb, _, i0, i1, p1, a1, a2, h3, rfl⟩
  · exact Nat.le_refl _
  · exact Erc20.transfer_keeps h3 (Or.inl (Ne.symm ha))

theorem SlashEffect.keeps {cfg : Cfg} {p a : Address} {t x : Nat} {w w' : World} (h : SlashEffect cfg p t x w w')
    (ha : a ≠ cfg.iprove) : w.prove.bal a ≤ w'.prove.bal a := by
  obtain ⟨_, fe, fv, pr, ip, f, _, _, _, _, ⟨i1, _, _, p1, h1, h2⟩, _, rfl⟩ := h
  have g1 : w.prove.bal a ≤ p1.bal a := by
    split at h1
    · rw [h1]; exact Nat.le_refl _
    · exact Erc20.burn_keeps h1 (Or.inl (Ne.symm ha))
  have g2 : p1.bal a ≤ pr.bal a := by
    split at h2
    · rw [h2]; exact Nat.le_refl _
    · exact Erc20.burn_keeps h2 (Or.inl (Ne.symm ha))
  exact Nat.le_trans g1 g2

theorem StakeEffect.keeps {cfg : Cfg} {s p a : Address} {v n : Nat} {w w' : World} (h : StakeEffect cfg s p v n w w')
    (ha : a ≠ cfg.staking) : w.prove.bal a ≤ w'.prove.bal a := by
  obtain ⟨_, _, _, _, _, _, _, _, _, _, _, _, _, _, _, _, _, h1, h2, _, _, _, _, _, rfl⟩ := h
  exact Erc20.transferFrom_keeps h1 h2 (Or.inl (Ne.symm ha))

/-- The staking contract passes on exactly what it has just received. -/
theorem StakeEffect.passes {cfg : Cfg} {f s p a : Address} {v n : Nat} {w w' : World} {t1 t2 : Erc20}
    (g2 : t1.transfer f cfg.staking v = .ok t2) (h : StakeEffect cfg s p v n { w with prove := t2 } w')
    (hf : f ≠ a) (hne : cfg.staking ≠ cfg.iprove) : t1.bal a ≤ w'.prove.bal a := by
  by_cases ha : a = cfg.staking
  · subst ha
    obtain ⟨_, _, _, _, _, _, _, _, _, _, _, _, _, _, _, _, _, h1, h2, _, _, _, _, _, rfl⟩ := h
    obtain ⟨_, _, b3, _⟩ := Erc20.transfer_bal g2 hf
    obtain ⟨_, c2, _, _⟩ := Erc20.transfer_bal h2 hne
    have e := (Erc20.spend_ok h1).2.1
    dsimp only at *
    rw [e] at c2
    omega
  · exact Nat.le_trans (Erc20.transfer_keeps g2 (Or.inl hf)) (h.keeps ha)

theorem finishTail_prove (s p : Address) (w : World) : (finishTail s p w).prove = w.prove := by
  unfold finishTail; dsimp only
  split <;> split <;> rfl

/-- A call does not lower the $PROVE balance of an account that neither sent it nor signed the permit in it
and has approved nobody (but possibly $iPROVE), unless the account is the $iPROVE vault, or - in a dispense - the
staking contract, or - in a step - the vApp contract. -/
theorem exec_keeps {cfg : Cfg} {c : Ctx} {k : Call} {w w' : World} (hr : Registry cfg w)
    (hc : cfg.WF) (ha : Admissible cfg (c, k)) (h : exec cfg c k w = .ok ((), w')) (a : Address)
    (h1 : a ≠ c.sender ∨ ∃ p v, k = .requestSlash p v) (h2 : a ≠ cfg.iprove) (h3 : a ≠ cfg.staking ∨ ∀ v, k ≠ .dispense v)
    (h4 : (∀ pv pr, k ≠ .step pv pr) ∨ a ≠ cfg.vapp) (h5 : ∀ s, s ≠ cfg.iprove → w.prove.allow a s = 0)
    (h6 : k.signer ≠ some a) : w.prove.bal a ≤ w'.prove.bal a := by
  have hne : ∀ s, ¬ cfg.System s → s ≠ cfg.iprove := fun s hs e => hs (Or.inr (Or.inl e))
  have hsi : cfg.staking ≠ cfg.iprove := by
    intro e; have hd := hc.distinct; rw [e] at hd; simp at hd
  cases k
  case requestSlash p v =>
    replace h := drop_ok.mp h
    obtain ⟨n, h⟩ := h
    obtain ⟨_, _, _, _, rfl⟩ := requestSlash_ok h
    exact Nat.le_refl _
  all_goals replace h1 := h1.resolve_right (by simp)
  case proveTransfer to v =>
    obtain ⟨t, g, rfl⟩ := proveTransfer_ok h
    exact Erc20.transfer_keeps g (Or.inl (Ne.symm h1))
  case proveTransferFrom f to v =>
    obtain ⟨_, t, g1, g2, rfl⟩ := proveTransferFrom_ok h
    exact Erc20.transferFrom_keeps g1 g2 (Or.inr (h5 _ (hne _ ha)))
  case proveApprove s v =>
    simp only [exec, onProve_ok] at h
    obtain ⟨t, h, rfl⟩ := h
    obtain ⟨_, _, rfl⟩ := Erc20.approve_ok h
    exact Nat.le_refl _
  case provePermit x b d v =>
    obtain ⟨_, t, g, rfl⟩ := provePermit_ok h
    obtain ⟨_, _, rfl⟩ := Erc20.approve_ok g
    exact Nat.le_refl _
  case proveMint to v =>
    simp only [exec, bind_ok, get_ok, require_ok, onProve_ok] at h
    obtain ⟨_, _, ⟨rfl, rfl⟩, _, _, ⟨_, rfl⟩, t, h, rfl⟩ := h
    exact Erc20.mint_keeps h
  case proveBurn v =>
    simp only [exec, onProve_ok] at h
    obtain ⟨t, h, rfl⟩ := h
    exact Erc20.burn_keeps h (Or.inl (Ne.symm h1))
  case proveBurnFrom f v =>
    simp only [exec, bind_ok, onProve_ok] at h
    obtain ⟨_, _, ⟨t1, g1, rfl⟩, t, g2, rfl⟩ := h
    show w.prove.bal a ≤ t.bal a
    rw [← (Erc20.spend_ok g1).2.1]
    refine Erc20.burn_keeps g2 ?_
    by_cases e : f = a
    · subst e
      exact Or.inr (Erc20.spend_zero g1 (h5 _ (hne _ ha)))
    · exact Or.inl e
  case proveSetOwner a =>
    simp only [exec, bind_ok, get_ok, require_ok, modify_ok] at h
    obtain ⟨_, _, ⟨rfl, rfl⟩, _, _, ⟨_, rfl⟩, rfl⟩ := h
    exact Nat.le_refl _
  case iproveTransfer to v =>
    exact (MayMove.outsider hr ha (iproveMove_ok h).1).elim
  case iproveTransferFrom f to v =>
    simp only [exec, bind_ok] at h
    obtain ⟨_, _, g1, g2⟩ := h
    obtain ⟨t, _, rfl⟩ := iproveSpend_ok g1
    exact (MayMove.outsider hr ha (iproveMove_ok g2).1).elim
  case iproveApprove s v =>
    simp only [exec, onIprove_ok] at h
    obtain ⟨t, ht, rfl⟩ := h
    exact Nat.le_refl _
  case iprovePermit a b d v =>
    simp only [exec, bind_ok, require_ok, onIprove_ok] at h
    obtain ⟨_, _, ⟨_, rfl⟩, t, ht, rfl⟩ := h
    exact Nat.le_refl _
  case iproveDeposit a r =>
    replace h := drop_ok.mp h
    obtain ⟨_, h⟩ := h
    exact (MayMove.outsider hr ha (iproveDeposit_ok h).2.1).elim
  case iproveMint s r =>
    replace h := drop_ok.mp h
    obtain ⟨_, h⟩ := h
    simp only [iproveMintExact, bind_ok, get_ok, add256_ok, mulDivUp_ok, pure_ok] at h
    obtain ⟨_, _, ⟨rfl, rfl⟩, _, _, ⟨_, rfl, rfl⟩, _, _, ⟨_, rfl, rfl⟩, _, _, ⟨_, _, rfl, rfl⟩, _, _, g1, _, _, g2, _, rfl⟩ := h
    obtain ⟨_, _, _, _, rfl⟩ := proveTransferFrom_ok g1
    exact (MayMove.outsider hr ha (iproveMint_ok g2).1).elim
  case iproveWithdraw x r o =>
    replace h := drop_ok.mp h
    obtain ⟨_, h⟩ := h
    simp only [iproveWithdraw, bind_ok, get_ok, require_ok, add256_ok, mulDivUp_ok] at h
    obtain ⟨_, _, ⟨rfl, rfl⟩, _, _, hp, _, _, ⟨_, rfl⟩, _, _, ⟨rfl, rfl⟩, _, _, ⟨_, rfl, rfl⟩, _, _, ⟨_, rfl, rfl⟩,
      _, _, ⟨_, _, rfl, rfl⟩, h⟩ := h
    obtain ⟨_, rfl⟩ := iprovePreviewRedeem_ok hp
    split at h
    · rw [bind_ok] at h
      obtain ⟨_, _, g1, h⟩ := h
      obtain ⟨t, _, rfl⟩ := iproveSpend_ok g1
      rw [bind_ok] at h
      obtain ⟨_, _, g2, _⟩ := h
      exact (MayMove.outsider hr ha (iproveBurnShares_ok g2).1).elim
    · rw [bind_ok] at h
      obtain ⟨_, _, g2, _⟩ := h
      exact (MayMove.outsider hr ha (iproveBurnShares_ok g2).1).elim
  case iproveRedeem s r o =>
    replace h := drop_ok.mp h
    obtain ⟨_, h⟩ := h
    exact (MayMove.outsider hr ha (iproveRedeem_ok h).2.2.1).elim
  case iproveBurn f v =>
    replace h := drop_ok.mp h
    obtain ⟨_, h⟩ := h
    exact absurd (iproveBurn_ok h).1 (hr.outsider ha).1
  case vaultTransfer p to v =>
    simp only [exec, bind_ok, vaultCheck_ok] at h
    obtain ⟨_, _, _, _, _, ⟨h1, _⟩, _⟩ := h
    exact absurd h1 (hr.outsider ha).1
  case vaultTransferFrom p f to v =>
    simp only [exec, bind_ok, vaultCheck_ok] at h
    obtain ⟨_, _, _, _, _, _, _, _, ⟨h1, _⟩, _⟩ := h
    exact absurd h1 (hr.outsider ha).1
  case vaultApprove p s v =>
    simp only [exec, bind_ok, isVault_ok, onVault_ok] at h
    obtain ⟨_, _, ⟨_, rfl⟩, t, ht, rfl⟩ := h
    exact Nat.le_refl _
  case vaultDeposit p a r =>
    simp only [exec, bind_ok, isVault_ok, drop_ok] at h
    obtain ⟨_, _, ⟨_, rfl⟩, n, h⟩ := h
    exact absurd (vaultDeposit_ok h).2.1 (hr.outsider ha).1
  case vaultMint p s r =>
    simp only [exec, bind_ok, isVault_ok, drop_ok, vaultMintExact, vaultCheck_ok] at h
    obtain ⟨_, _, ⟨_, rfl⟩, n, _, _, _, _, _, _, _, _, _, _, _, _, _, _, _, _, _, _, _, _, ⟨h1, _⟩, _⟩ := h
    exact absurd h1 (hr.outsider ha).1
  case vaultWithdraw p a r o =>
    simp only [exec, bind_ok, isVault_ok, drop_ok, vaultWithdraw, get_ok, add256_ok, mulDiv_ok, mulDivUp_ok, require_ok] at h
    obtain ⟨_, _, ⟨_, rfl⟩, n, _, _, ⟨rfl, rfl⟩, _, _, ⟨_, rfl, rfl⟩, _, _, ⟨_, rfl, rfl⟩, _, _, ⟨_, _, rfl, rfl⟩,
      _, _, ⟨_, rfl⟩, _, _, ⟨_, _, rfl, rfl⟩, h⟩ := h
    split at h
    · rw [bind_ok] at h
      obtain ⟨_, _, _, h⟩ := h
      rw [bind_ok] at h
      obtain ⟨_, _, h1, _⟩ := h
      exact absurd (vaultCheck_ok.mp h1).1 (hr.outsider ha).1
    · rw [bind_ok] at h
      obtain ⟨_, _, h1, _⟩ := h
      exact absurd (vaultCheck_ok.mp h1).1 (hr.outsider ha).1
  case vaultRedeem p s r o =>
    simp only [exec, bind_ok, isVault_ok, drop_ok] at h
    obtain ⟨_, _, ⟨_, rfl⟩, n, h⟩ := h
    exact absurd (vaultRedeem_ok h).2.2.1 (hr.outsider ha).1
  case vaultTransferProve p f v =>
    simp only [exec, bind_ok, isVault_ok] at h
    obtain ⟨_, _, ⟨_, rfl⟩, h⟩ := h
    exact absurd (transferProveToStaking_ok h).1 (hr.outsider ha).1
  case stTransfer to v =>
    simp only [exec, onSt_ok] at h
    exact nomatch h.1
  case stTransferFrom f to v =>
    simp only [exec, bind_ok, onSt_ok] at h
    obtain ⟨_, _, _, _, _, _, _, _, _, h, _⟩ := h
    exact nomatch h
  case stApprove s v =>
    simp only [exec, bind_ok, get_ok, lift_ok, modify_ok] at h
    obtain ⟨_, _, ⟨rfl, rfl⟩, t, _, ⟨ht, rfl⟩, rfl⟩ := h
    exact Nat.le_refl _
  case deposit v =>
    simp only [exec, drop_ok, vappDeposit, bind_ok, whenNotPaused_ok] at h
    obtain ⟨_, _, _, ⟨hp, rfl⟩, h⟩ := h
    obtain ⟨_, _, t1, t2, g1, g2, rfl⟩ := vappDepositFrom_ok h
    exact Erc20.transferFrom_keeps g1 g2 (Or.inl (Ne.symm h1))
  case permitAndDeposit s f v =>
    replace h := drop_ok.mp h
    obtain ⟨id, h⟩ := h
    obtain ⟨_, t0, g0, h⟩ := vappPermitAndDeposit_ok h
    obtain ⟨_, _, t1, t2, g1, g2, rfl⟩ := vappDepositFrom_ok h
    rcases g0 with ⟨_, rfl⟩ | ⟨rfl, g0⟩
    · refine Erc20.transferFrom_keeps g1 g2 (Or.inr (h5 _ ?_))
      have := hc.distinct
      simp at this
      exact Ne.symm this.2.1.2
    · have hb : w.prove.bal a = t0.bal a := by obtain ⟨_, _, rfl⟩ := Erc20.approve_ok g0; rfl
      show w.prove.bal a ≤ t2.bal a
      rw [hb]
      exact Erc20.transferFrom_keeps g1 g2 (Or.inl (fun e => h6 (congrArg some e)))
  case vappCreateProver p o f =>
    simp only [exec, drop_ok] at h
    obtain ⟨_, h⟩ := h
    obtain ⟨_, hp, _, _, hlt, rfl⟩ := vappCreateProver_ok h
    exact Nat.le_refl _
  case createProver f =>
    simp only [exec, drop_ok] at h
    obtain ⟨_, h⟩ := h
    obtain ⟨_, _, _, _, _, _, _, _, _, _, _, rfl⟩ := createProver_ok h
    exact Nat.le_refl _
  case step pv pr =>
    obtain ⟨x, h⟩ := drop_ok.mp h
    obtain ⟨_, _, _, v, _, _, _, _, _, _, _, _, hh⟩ := vappStep_ok h
    have := handleReceipts_keeps (h4.resolve_left (fun g => g _ _ rfl)) _ _ _ _ hh
    exact this
  case fork k r =>
    obtain ⟨x, h⟩ := drop_ok.mp h
    obtain ⟨_, _, _, _, rfl⟩ := vappFork_ok h
    exact Nat.le_refl _
  case stake p v =>
    replace h := drop_ok.mp h
    obtain ⟨n, h⟩ := h
    obtain ⟨_, t1, t2, g1, g2, he⟩ := stake_ok h
    rw [← (Erc20.spend_ok g1).2.1]
    exact he.passes g2 (Ne.symm h1) hsi
  case permitAndStake s p f v =>
    replace h := drop_ok.mp h
    obtain ⟨n, h⟩ := h
    obtain ⟨hreg, t0, t1, t2, g0, g1, g2, he⟩ := permitAndStake_ok h
    by_cases e : f = a
    · subst e
      rcases g0 with ⟨_, rfl⟩ | ⟨rfl, g0⟩
      · exact absurd (Erc20.spend_zero g1 (h5 _ (hr.ne hc hreg).2.2.1)) he.amount_ne
      · exact absurd rfl h6
    · have hb : w.prove.bal a = t0.bal a := by
        rcases g0 with ⟨_, rfl⟩ | ⟨rfl, g0⟩
        · rfl
        · obtain ⟨_, _, rfl⟩ := Erc20.approve_ok g0; rfl
      rw [hb, ← (Erc20.spend_ok g1).2.1]
      exact he.passes g2 e hsi
  case requestUnstake v =>
    obtain ⟨_, _, _, _, _, _, _, _, _, _, _, _, _, _, _, _, _, rfl⟩ := requestUnstake_ok h
    exact Nat.le_refl _
  case finishUnstake s =>
    replace h := drop_ok.mp h
    obtain ⟨n, h⟩ := h
    obtain ⟨_, _, _, w1, hl, rfl⟩ := finishUnstake_ok h
    rw [finishTail_prove]
    exact finishLoop_rel (keeps_pre a) (fun _ _ _ _ _ h => h.keeps h2) _ _ _ _ _ _ hl
  case cancelSlash p i =>
    obtain ⟨_, _, _, _, _, rfl⟩ := cancelSlash_ok h
    exact Nat.le_refl _
  case finishSlash p i =>
    replace h := drop_ok.mp h
    obtain ⟨n, h⟩ := h
    obtain ⟨_, _, claim, _, _, _, w1, g1, g2⟩ := finishSlash_ok h
    have hk : w.prove.bal a ≤ w1.prove.bal a := by
      split at g1
      · rw [g1]; exact Nat.le_refl _
      · exact g1.keeps h2
    rcases g2 with ⟨rfl, _⟩ | ⟨_, _, _, rfl⟩ <;> exact hk
  case dispense v =>
    obtain ⟨_, _, _, _, _, _, _, t, g1, rfl⟩ := dispense_ok h
    exact Erc20.transfer_keeps g1 (Or.inl (Ne.symm (h3.resolve_right fun g => g v rfl)))
  case updateDispenseRate v =>
    obtain ⟨_, _, rfl⟩ := updateDispenseRate_ok h
    exact Nat.le_refl _
  case setDispenser x =>
    obtain ⟨_, rfl⟩ := setDispenser_ok h
    exact Nat.le_refl _
  case stakingSetOwner x =>
    obtain ⟨_, rfl⟩ := stakingSetOwner_ok h
    exact Nat.le_refl _
  all_goals
    have := (exec_params h rfl).2.2
    rw [this]
    exact Nat.le_refl _

end Verif
