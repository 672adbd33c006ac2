import Verif.L1Rates
/-
# The read-only functions of the staking contract

They change nothing; like all checked arithmetic in Solidity they can revert on overflow. The getters of one
storage field (`stakedTo`, `unstakeRequests`, `slashRequests`, `escrowPool`,
`contracts/src/SuccinctStaking.sol:151-153,176-193`) are the fields of `Staking`.
-/

namespace Verif
open L1

/-- `ERC4626.previewRedeem` of a prover vault: `shares * (totalAssets + 1) / (totalSupply + 1)`, rounding down
(`contracts/src/tokens/SuccinctProver.sol:17`, OpenZeppelin's `ERC4626`). -/
def vaultPreviewRedeem (p : Address) (shares : Nat) : L1 Nat := do
  let w ← get
  let a ← add256 (w.iprove.bal p) 1
  let s ← add256 (w.vault p).supply 1
  mulDiv shares a s

/-- `previewUnstake`, `contracts/src/SuccinctStaking.sol:219-230`. For an address that is no prover vault the
code calls whatever is there; that is not modelled (here: revert). -/
def previewUnstake (cfg : Cfg) (prover : Address) (st : Nat) : L1 Nat := do
  isVault prover
  let i ← vaultPreviewRedeem prover st
  iprovePreviewRedeem cfg i

/-- `staked`, `contracts/src/SuccinctStaking.sol:156-164`. -/
def staked (cfg : Cfg) (staker : Address) : L1 Nat := do
  let w ← get
  if w.staking.stakerToProver staker = 0 then return 0
  else previewUnstake cfg (w.staking.stakerToProver staker) (w.st.bal staker)

/-- `proverStaked`, `contracts/src/SuccinctStaking.sol:167-173`. -/
def proverStaked (cfg : Cfg) (prover : Address) : L1 Nat := do
  iprovePreviewRedeem cfg ((← get).iprove.bal prover)

/-- The loop of `unstakePending`, `contracts/src/SuccinctStaking.sol:209-215`. -/
def pendingLoop (cfg : Cfg) (factor : Nat) : List UnstakeClaim → Nat → L1 Nat
  | [], acc => pure acc
  | cl :: cls, acc => do
    let scaled ← mulDiv cl.iPROVEEscrow factor cl.slashFactor
    let x ← iprovePreviewRedeem cfg scaled
    let acc' ← add256 acc x
    pendingLoop cfg factor cls acc'

/-- `unstakePending`, `contracts/src/SuccinctStaking.sol:196-216`. -/
def unstakePending (cfg : Cfg) (staker : Address) : L1 Nat := do
  let w ← get
  let prover := w.staking.stakerToProver staker
  if prover = 0 then return 0
  else if (w.staking.escrowPools prover).slashFactor = 0 then return 0
  else pendingLoop cfg (w.staking.escrowPools prover).slashFactor (w.staking.unstakeClaims staker) 0

theorem vaultPreviewRedeem_ok {p : Address} {n m : Nat} {w w' : World} (h : vaultPreviewRedeem p n w = .ok (m, w')) :
    m = n * (w.iprove.bal p + 1) / ((w.vault p).supply + 1) ∧ w' = w := by
  simp only [vaultPreviewRedeem, bind_ok, get_ok, add256_ok, mulDiv_ok] at h
  obtain ⟨_, _, ⟨rfl, rfl⟩, _, _, ⟨_, rfl, rfl⟩, _, _, ⟨_, rfl, rfl⟩, _, _, rfl, rfl⟩ := h
  exact ⟨rfl, rfl⟩

theorem previewUnstake_ok {cfg : Cfg} {p : Address} {n m : Nat} {w w' : World}
    (h : previewUnstake cfg p n w = .ok (m, w')) :
    w.staking.provers p = true ∧
    m = n * (w.iprove.bal p + 1) / ((w.vault p).supply + 1) * (w.prove.bal cfg.iprove + 1) / (w.iprove.supply + 1) ∧
    w' = w := by
  simp only [previewUnstake, bind_ok, isVault_ok] at h
  obtain ⟨_, _, ⟨h1, rfl⟩, _, _, h2, h3⟩ := h
  obtain ⟨rfl, rfl⟩ := vaultPreviewRedeem_ok h2
  obtain ⟨rfl, rfl⟩ := iprovePreviewRedeem_ok h3
  exact ⟨h1, rfl, rfl⟩

theorem staked_ok {cfg : Cfg} {a : Address} {m : Nat} {w w' : World} (h : staked cfg a w = .ok (m, w')) :
    w' = w ∧ ((w.staking.stakerToProver a = 0 ∧ m = 0) ∨
      (w.staking.stakerToProver a ≠ 0 ∧ w.staking.provers (w.staking.stakerToProver a) = true ∧
        m = w.st.bal a * (w.iprove.bal (w.staking.stakerToProver a) + 1) /
            ((w.vault (w.staking.stakerToProver a)).supply + 1) * (w.prove.bal cfg.iprove + 1) / (w.iprove.supply + 1))) := by
  simp only [staked, bind_ok, get_ok] at h
  obtain ⟨_, _, ⟨rfl, rfl⟩, h⟩ := h
  split at h
  · rename_i e
    obtain ⟨rfl, rfl⟩ := pure_ok.mp h
    exact ⟨rfl, Or.inl ⟨e, rfl⟩⟩
  · rename_i e
    obtain ⟨h1, h2, rfl⟩ := previewUnstake_ok h
    exact ⟨rfl, Or.inr ⟨e, h1, h2⟩⟩

theorem proverStaked_ok {cfg : Cfg} {p : Address} {m : Nat} {w w' : World} (h : proverStaked cfg p w = .ok (m, w')) :
    m = w.iprove.bal p * (w.prove.bal cfg.iprove + 1) / (w.iprove.supply + 1) ∧ w' = w := by
  simp only [proverStaked, bind_ok, get_ok] at h
  obtain ⟨_, _, ⟨rfl, rfl⟩, h⟩ := h
  exact iprovePreviewRedeem_ok h

theorem Reachable.call {cfg : Cfg} {w : World} (hr : Reachable cfg w) {x : Ctx × Call} (ha : Admissible cfg x) :
    Reachable cfg (call cfg x.1 x.2 w) := by
  obtain ⟨w₀, h, hg, h1, rfl⟩ := hr
  refine ⟨w₀, h ++ [x], hg, ?_, ?_⟩
  · intro y hy
    rcases List.mem_append.mp hy with hy | hy
    · exact h1 y hy
    · rw [List.mem_singleton.mp hy]; exact ha
  · rw [runCalls_append, runCalls_cons, runCalls_nil]

/-- A registered prover stays registered. -/
theorem provers_mono {cfg : Cfg} {c : Ctx} {k : Call} {w w' : World} (h : exec cfg c k w = .ok ((), w')) {p : Address}
    (hp : w.staking.provers p = true) : w'.staking.provers p = true := by
  by_cases hk : ∃ f, k = .createProver f
  · obtain ⟨f, rfl⟩ := hk
    obtain ⟨q, h⟩ := drop_ok.mp h
    obtain ⟨_, _, _, _, _, _, _, _, _, t, _, rfl⟩ := createProver_ok h
    show upd w.staking.provers q true p = true
    by_cases e : p = q
    · rw [e, upd_same]
    · rw [upd_ne _ _ e]; exact hp
  · obtain ⟨_, _, e, _⟩ := (exec_frames h).1 (fun f e => hk ⟨f, e⟩)
    first | (rw [e]; exact hp) | (rw [((exec_frames h).1 (fun f e => hk ⟨f, e⟩)).2.1]; exact hp)

/-- Prices never falling, a number of shares never loses value. -/
theorem Rate.value {P S P' S' n m : Nat} (h : Rate P S P' S') (hn : n ≤ m) :
    n * (P + 1) / (S + 1) ≤ m * (P' + 1) / (S' + 1) := by
  rw [Nat.le_div_iff_mul_le (Nat.succ_pos _)]
  refine Nat.le_of_mul_le_mul_left (c := S + 1) ?_ (Nat.succ_pos _)
  have h1 : n * (P + 1) / (S + 1) * (S + 1) ≤ n * (P + 1) := Nat.div_mul_le_self _ _
  calc (S + 1) * (n * (P + 1) / (S + 1) * (S' + 1)) = n * (P + 1) / (S + 1) * (S + 1) * (S' + 1) := by ac_rfl
    _ ≤ n * (P + 1) * (S' + 1) := Nat.mul_le_mul_right _ h1
    _ = n * ((P + 1) * (S' + 1)) := by ac_rfl
    _ ≤ m * ((P' + 1) * (S + 1)) := Nat.mul_le_mul hn h
    _ = (S + 1) * (m * (P' + 1)) := by ac_rfl

end Verif
