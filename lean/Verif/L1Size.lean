import Verif.L1Live3
/-
# Ordinary histories stay within the sizes that the contracts' arithmetic can handle
-/

namespace Verif
open L1

/-- A history of ordinary size: at most 2^64 calls, block times below 2^64, an unstaking period below 2^64, and never
2^160 or more units of $PROVE (10^27 units exist at the start; the owner of the token could mint more). -/
structure Ordinary (cfg : Cfg) (w₀ : World) (h : List (Ctx × Call)) : Prop where
  genesis : Genesis cfg w₀
  admissible : ∀ x ∈ h, Admissible cfg x
  length : h.length ≤ 2 ^ 64
  times : ∀ x ∈ h, x.1.now < 2 ^ 64
  period : w₀.staking.unstakePeriod < 2 ^ 64
  supply : ∀ h₁ h₂, h = h₁ ++ h₂ → (runCalls cfg w₀ h₁).prove.supply < 2 ^ 160

theorem Ordinary.reachable {cfg : Cfg} {w₀ : World} {h : List (Ctx × Call)} (ho : Ordinary cfg w₀ h) :
    Reachable cfg (runCalls cfg w₀ h) := ⟨w₀, h, ho.genesis, ho.admissible, rfl⟩

/-- Sizes after `n` calls. -/
structure SizeInv (n : Nat) (w : World) : Prop where
  prove : w.prove.supply < 2 ^ 160
  vault : ∀ p, w.staking.provers p = true → (w.vault p).supply < 2 ^ 190
  st : w.st.supply ≤ n * 2 ^ 190
  claim : ∀ s, ∀ cl ∈ w.staking.unstakeClaims s, cl.iPROVEEscrow < 2 ^ 160 ∧ cl.timestamp < 2 ^ 64
  period : w.staking.unstakePeriod < 2 ^ 64

theorem SizeInv.sane {n : Nat} {w : World} (h : SizeInv n w) (hn : n ≤ 2 ^ 64) : Sane w :=
  ⟨h.prove, fun p hp => Nat.lt_trans (h.vault p hp) (by decide), by have := h.st; omega, h.claim, h.period⟩

/-- The $iPROVE of anybody is less than 2^160. -/
theorem iprove_small {cfg : Cfg} {w : World} (hi : StakingInv cfg w) (hl : LiveInv cfg w) (hs : w.prove.supply < 2 ^ 160)
    (a : Address) : w.iprove.bal a < 2 ^ 160 := by
  have h1 := hi.stake.iprove.le a
  have h2 := hl.supply
  have h3 := hi.prove.balanced.le cfg.iprove
  omega

/-- Shares of an active prover. -/
theorem vault_small {cfg : Cfg} {w : World} (hi : StakingInv cfg w) (hl : LiveInv cfg w) (hs : w.prove.supply < 2 ^ 160)
    {p : Address} (hp : w.staking.provers p = true) (hd : w.staking.deactivatedProvers p = false) : (w.vault p).supply < 2 ^ 190 := by
  have h1 := hl.price p hp hd
  have h2 := iprove_small hi hl hs p
  omega

/-- $stPROVE supply: only a stake raises it. -/
theorem exec_stSupply {cfg : Cfg} {c : Ctx} {k : Call} {w w' : World} (hi : StakingInv cfg w)
    (ha : Admissible cfg (c, k)) (h : exec cfg c k w = .ok ((), w')) :
    w'.st.supply ≤ w.st.supply ∨ ∃ p n, w.staking.provers p = true ∧ w.staking.deactivatedProvers p = false ∧
      w'.staking.deactivatedProvers p = false ∧ w'.staking.provers p = true ∧
      (w'.vault p).supply = (w.vault p).supply + n ∧ w'.st.supply = w.st.supply + n := by
  cases exec_flow hi.reg ha h with
  | other e1 e2 e3 => exact Or.inl (Nat.le_of_eq e3.stSupply)
  | move f to v t hk h1 h2 h3 h4 e1 e2 g e3 => exact Or.inl (Nat.le_of_eq e3.stSupply)
  | mint to v hk ho g e3 => exact Or.inl (Nat.le_of_eq e3.stSupply)
  | burn f v t hk hb e1 e2 g e3 => exact Or.inl (Nat.le_of_eq e3.stSupply)
  | dispense v a hk hd' g e3 => exact Or.inl (Nat.le_of_eq e3.stSupply)
  | stake f q v n t t2 hk hs hreg e1 e2 g he =>
    obtain ⟨_, _, hact, _, _, p1, p2, i, i1, i2, i3, v1, s1, _, _, hn, _, a1, a2, a3, a4, a5, a6, a7, rfl⟩ := he
    refine Or.inr ⟨q, n, hreg, hact, hact, hreg, ?_, ?_⟩
    · show (upd w.vault q v1 q).supply = _
      rw [upd_same]
      obtain ⟨_, _, rfl⟩ := Erc20.mint_ok a6
      rfl
    · obtain ⟨_, _, rfl⟩ := Erc20.mint_ok a7
      rfl
  | requestUnstake v hk g =>
    obtain ⟨_, hs0, _, _, _, q, esc, s1, v1, i1, hq, hv, hesc, a9, a0, a1, _, rfl⟩ := requestUnstake_ok g
    obtain ⟨_, _, rfl⟩ := Erc20.burn_ok a9
    exact Or.inl (Nat.sub_le _ _)
  | finishUnstake s n hk g =>
    obtain ⟨g1, _, _, w1, hl, rfl⟩ := finishUnstake_ok g
    obtain ⟨_, _, _, _, rfl⟩ := finishLoop_rel PayShape.pre (fun _ _ _ _ _ h => h.shape) _ _ _ _ _ _ hl
    refine Or.inl (Nat.le_of_eq ?_)
    unfold finishTail
    dsimp only
    split <;> split <;> rfl
  | finishSlash q i n hk g =>
    obtain ⟨_, _, _, _, _, _, _, rfl⟩ := finishSlash_shape g
    exact Or.inl (Nat.le_refl _)
  | step pv pr x hk g =>
    refine Or.inl (vappStep_rel (R := fun w w' => w'.st.supply ≤ w.st.supply) ⟨fun _ => Nat.le_refl _, fun _ _ _ h g => Nat.le_trans g h⟩
      (fun w _ => Nat.le_refl _) (fun to n w u w' h => ?_) g)
    rcases processWithdraw_cases h with ⟨t, g, rfl⟩ | ⟨_, i, t1, t2, t3, hi, g1, g2, g3, rfl⟩
    · exact Nat.le_refl _
    · exact Nat.le_refl _

theorem SizeInv.exec {cfg : Cfg} (hc : cfg.WF) {n : Nat} {c : Ctx} {k : Call} {w w' : World} (hr : Reachable cfg w)
    (hr' : Reachable cfg w') (h : SizeInv n w) (ha : Admissible cfg (c, k)) (hx : Verif.exec cfg c k w = .ok ((), w'))
    (hnow : c.now < 2 ^ 64) (hsup : w'.prove.supply < 2 ^ 160) : SizeInv (n + 1) w' := by
  have hi := StakingInv.reachable hc w hr
  have hi' := StakingInv.reachable hc w' hr'
  have hl := LiveInv.reachable hc w hr
  have hl' := LiveInv.reachable hc w' hr'
  have hv : ∀ p, w'.staking.provers p = true → (w'.vault p).supply < 2 ^ 190 := by
    intro p hp'
    cases hd' : w'.staking.deactivatedProvers p with
    | false => exact vault_small hi' hl' hsup hp' hd'
    | true =>
      cases hp : w.staking.provers p with
      | true =>
        have hold := h.vault p hp
        cases exec_vault hc hi ha hx hp with
        | reward _ e => rw [e]; exact hold
        | stake i m _ _ e hd => rw [hd'] at hd; exact nomatch hd
        | unstake v i _ _ _ _ _ _ e => rw [e]; exact Nat.lt_of_le_of_lt (Nat.sub_le _ _) hold
        | slash i _ _ e => rw [e]; exact hold
      | false =>
        by_cases hk : ∃ f, k = .createProver f
        · obtain ⟨f, rfl⟩ := hk
          obtain ⟨q, hx⟩ := drop_ok.mp hx
          obtain ⟨_, _, _, _, _, _, _, _, _, t, _, rfl⟩ := createProver_ok hx
          have e : p = q := by
            by_cases e : p = q
            · exact e
            · have : upd w.staking.provers q true p = true := hp'
              rw [upd_ne _ _ e, hp] at this
              exact nomatch this
          subst e
          show (upd w.vault p Erc20.empty p).supply < _
          rw [upd_same]
          show 0 < 2 ^ 190
          decide
        · obtain ⟨_, e, _⟩ := (exec_frames hx).1 (fun f e => hk ⟨f, e⟩)
          rw [e, hp] at hp'
          exact nomatch hp'
  refine ⟨hsup, hv, ?_, ?_, ?_⟩
  · have := h.st
    rcases exec_stSupply hi ha hx with h1 | ⟨p, m, _, _, _, h4, h5, h6⟩
    · rw [Nat.succ_mul]; omega
    · have := hv p h4
      rw [Nat.succ_mul]; omega
  · have hf := exec_fields hx
    cases k
    case requestUnstake v =>
      obtain ⟨p, esc, f, _, _, _, e1, e4, e5, e2, e3, e6, _⟩ := c40_request hc hr hx
      intro s cl hcl
      by_cases e : s = c.sender
      · rw [e, e4] at hcl
        rcases List.mem_append.mp hcl with hcl | hcl
        · exact h.claim _ _ hcl
        · rw [List.mem_singleton.mp hcl]
          have := iprove_small hi hl h.prove p
          exact ⟨by show esc < _; omega, hnow⟩
      · rw [e5 s e] at hcl; exact h.claim _ _ hcl
    case finishUnstake s =>
      obtain ⟨done, _, d1, _, _, d2, _⟩ := c40_finish hc hr hx
      intro a cl hcl
      by_cases e : a = s
      · subst e
        exact h.claim a cl (d1.mem_iff.mp (List.mem_append.mpr (Or.inr hcl)))
      · rw [d2 a e] at hcl; exact h.claim a cl hcl
    all_goals
      rw [hf.claims (fun _ => Call.noConfusion) (fun _ => Call.noConfusion)]; exact h.claim
  · rw [(exec_frames hx).2.2.2.1]; exact h.period

theorem SizeInv.run {cfg : Cfg} (hc : cfg.WF) {w₀ : World} {h : List (Ctx × Call)} (ho : Ordinary cfg w₀ h) :
    ∀ h₂ h₁, h = h₁ ++ h₂ → SizeInv h₁.length (runCalls cfg w₀ h₁) → SizeInv h.length (runCalls cfg w₀ h) := by
  intro h₂
  induction h₂ with
  | nil => intro h₁ e hs; rw [e, List.append_nil]; exact hs
  | cons x h₂ ih =>
    intro h₁ e hs
    refine ih (h₁ ++ [x]) (by rw [e]; simp) ?_
    have hx : x ∈ h := by rw [e]; simp
    have hr : Reachable cfg (runCalls cfg w₀ h₁) :=
      ⟨w₀, h₁, ho.genesis, fun y hy => ho.admissible y (by rw [e]; exact List.mem_append_left _ hy), rfl⟩
    have hsup := ho.supply (h₁ ++ [x]) h₂ (by rw [e]; simp)
    rw [runCalls_append, runCalls_cons, runCalls_nil] at hsup ⊢
    rw [List.length_append, List.length_singleton]
    rcases call_ok (cfg := cfg) (c := x.1) (k := x.2) (w := runCalls cfg w₀ h₁) with ⟨w', g1, g2⟩ | ⟨_, g2⟩
    · have hr' := hr.call (ho.admissible x hx)
      rw [g2] at hsup hr' ⊢
      exact hs.exec hc hr hr' (ho.admissible x hx) g1 (ho.times x hx) hsup
    · rw [g2]
      exact ⟨hs.prove, hs.vault, Nat.le_trans hs.st (Nat.mul_le_mul_right _ (Nat.le_succ _)), hs.claim, hs.period⟩

/-- Ordinary histories lead to worlds in which no computation of the staking contracts overflows. -/
theorem Ordinary.sane {cfg : Cfg} (hc : cfg.WF) {w₀ : World} {h : List (Ctx × Call)} (ho : Ordinary cfg w₀ h) :
    Sane (runCalls cfg w₀ h) := by
  refine (SizeInv.run hc ho h [] rfl ?_).sane ho.length
  have hg := ho.genesis
  refine ⟨ho.supply [] h rfl, fun p hp => ?_, ?_, fun s cl hcl => ?_, ho.period⟩
  · rw [runCalls_nil, hg.registry.2.2.1] at hp; exact nomatch hp
  · rw [runCalls_nil, hg.st]; show 0 ≤ [].length * _; rw [List.length_nil, Nat.zero_mul]; exact Nat.le_refl _
  · rw [runCalls_nil, hg.maps.2.1] at hcl; exact (List.not_mem_nil hcl).elim

end Verif
