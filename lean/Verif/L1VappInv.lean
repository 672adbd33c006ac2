import Verif.L1Vapp
/-
# Case analysis of a call's effect on the vApp contract, histories
-/

namespace Verif
open L1

/-- What a successful call queues for the rollup: a deposit or a prover creation. -/
def Call.queues (cfg : Cfg) (c : Ctx) (w : World) : Call → Option (TxVariant × Bytes)
  | .deposit v => some (.deposit, (Deposit.mk c.sender v).abi)
  | .permitAndDeposit _ f v => some (.deposit, (Deposit.mk f v).abi)
  | .vappCreateProver p o f => some (.createProver, (CreateProver.mk p o f).abi)
  | .createProver f => some (.createProver,
      (CreateProver.mk (cfg.create2 c.sender (w.staking.proverCount + 1) f.toNat) c.sender f).abi)
  | _ => none

/-- Calls reserved for the owner that only change parameters. -/
def Call.setsParams : Call → Bool
  | .updateAuctioneer _ | .updateStaking _ | .updateVerifier _ | .updateMinDeposit _ | .pause | .unpause
  | .vappSetOwner _ => true
  | _ => false

/-- The effect on the vApp contract of a call that queues something. -/
def Queued (w w' : World) (v : TxVariant) (d : Bytes) : Prop :=
  w.vapp.currentOnchainTxId.toNat + 1 < 2 ^ 64 ∧
  w'.vapp = { w.vapp with
    currentOnchainTxId := w.vapp.currentOnchainTxId + 1
    transactions := upd w.vapp.transactions (w.vapp.currentOnchainTxId + 1)
      ⟨v, .pending, w.vapp.currentOnchainTxId + 1, d⟩ }

/-- Only the parameters of the vApp contract may differ. -/
def SameRollup (v v' : VApp) : Prop :=
  v'.vkey = v.vkey ∧ v'.blockNumber = v.blockNumber ∧ v'.currentOnchainTxId = v.currentOnchainTxId ∧
  v'.finalizedOnchainTxId = v.finalizedOnchainTxId ∧ v'.roots = v.roots ∧ v'.timestamps = v.timestamps ∧
  v'.transactions = v.transactions

theorem provePermit_vapp {s o p : Address} {v : Nat} : Within (fun w w' => w'.vapp = w.vapp) (provePermit s o p v) :=
  provePermit_within tok_vapp (fun _ _ _ _ _ _ => rfl) _ _ _ _

theorem exec_queues {cfg : Cfg} {c : Ctx} {k : Call} {w w' : World} {v : TxVariant} {d : Bytes}
    (h : exec cfg c k w = .ok ((), w')) (hq : k.queues cfg c w = some (v, d)) :
    Queued w w' v d ∧ w.vapp.paused = false := by
  cases k <;> simp only [Call.queues, Option.some.injEq, Prod.mk.injEq, reduceCtorEq] at hq
  case deposit a =>
    obtain ⟨rfl, rfl⟩ := hq
    simp only [exec, drop_ok, vappDeposit, bind_ok, whenNotPaused_ok] at h
    obtain ⟨_, _, _, ⟨hp, rfl⟩, h⟩ := h
    obtain ⟨_, hlt, _, _, _, _, rfl⟩ := vappDepositFrom_ok h
    exact ⟨⟨hlt, rfl⟩, hp⟩
  case permitAndDeposit s f a =>
    obtain ⟨rfl, rfl⟩ := hq
    simp only [exec, drop_ok, vappPermitAndDeposit, bind_ok, whenNotPaused_ok, get_ok] at h
    obtain ⟨_, _, _, ⟨hp, rfl⟩, _, _, ⟨rfl, rfl⟩, h⟩ := h
    split at h
    · obtain ⟨_, w1, h1, h⟩ := bind_ok.mp h
      have e := provePermit_vapp _ _ _ h1
      obtain ⟨_, hlt, _, _, _, _, rfl⟩ := vappDepositFrom_ok h
      rw [← e] at hp
      simp only [Queued, ← e]
      exact ⟨⟨hlt, trivial⟩, hp⟩
    · obtain ⟨_, hlt, _, _, _, _, rfl⟩ := vappDepositFrom_ok h
      exact ⟨⟨hlt, rfl⟩, hp⟩
  case vappCreateProver p o f =>
    obtain ⟨rfl, rfl⟩ := hq
    simp only [exec, drop_ok] at h
    obtain ⟨_, h⟩ := h
    obtain ⟨_, hp, _, _, hlt, rfl⟩ := vappCreateProver_ok h
    exact ⟨⟨hlt, rfl⟩, hp⟩
  case createProver f =>
    obtain ⟨rfl, rfl⟩ := hq
    simp only [exec, drop_ok] at h
    obtain ⟨_, h⟩ := h
    obtain ⟨_, _, _, rfl, _, _, hp, hlt, _, _, _, rfl⟩ := createProver_ok h
    exact ⟨⟨hlt, rfl⟩, hp⟩

theorem exec_params {cfg : Cfg} {c : Ctx} {k : Call} {w w' : World}
    (h : exec cfg c k w = .ok ((), w')) (hk : k.setsParams = true) :
    c.sender = w.vapp.owner ∧ SameRollup w.vapp w'.vapp ∧ w' = { w with vapp := w'.vapp } := by
  cases k <;> first | (exact nomatch (show false = true from hk)) | skip
  all_goals
    simp only [exec, vappUpdateAuctioneer, vappUpdateStaking, vappUpdateVerifier, vappUpdateMinDeposit, vappPause,
      vappUnpause, vappSetOwner, bind_ok, vappOnlyOwner_ok, modVapp_ok, whenNotPaused_ok, require_ok, get_ok] at h
  case pause =>
    obtain ⟨_, _, ⟨h, rfl⟩, _, _, ⟨_, rfl⟩, rfl⟩ := h
    exact ⟨h, ⟨rfl, rfl, rfl, rfl, rfl, rfl, rfl⟩, rfl⟩
  case unpause =>
    obtain ⟨_, _, ⟨h, rfl⟩, _, _, ⟨rfl, rfl⟩, _, _, ⟨_, rfl⟩, rfl⟩ := h
    exact ⟨h, ⟨rfl, rfl, rfl, rfl, rfl, rfl, rfl⟩, rfl⟩
  all_goals
    obtain ⟨_, _, ⟨h, rfl⟩, rfl⟩ := h
    exact ⟨h, ⟨rfl, rfl, rfl, rfl, rfl, rfl, rfl⟩, rfl⟩

/-- Every successful call does one of five things to the vApp contract. -/
theorem exec_vapp_cases {cfg : Cfg} {c : Ctx} {k : Call} {w w' : World} (h : exec cfg c k w = .ok ((), w')) :
    (k.queues cfg c w = none ∧ (∀ pv pr, k ≠ .step pv pr) ∧ (∀ a b, k ≠ .fork a b) ∧ k.setsParams = false ∧
      w'.vapp = w.vapp) ∨
    (∃ v d, k.queues cfg c w = some (v, d) ∧ Queued w w' v d) ∨
    (∃ pv pr x, k = .step pv pr ∧ vappStep cfg c pv pr w = .ok (x, w')) ∨
    (∃ a b x, k = .fork a b ∧ vappFork c a b w = .ok (x, w')) ∨
    (k.setsParams = true ∧ c.sender = w.vapp.owner ∧ SameRollup w.vapp w'.vapp) := by
  by_cases hv : k.touchesVapp = false
  · refine Or.inl ⟨?_, ?_, ?_, ?_, exec_vapp_frame hv _ _ _ h⟩
    all_goals cases k <;> first | rfl | (exact nomatch (show true = false from hv)) | (intro _ _; simp)
  · by_cases hp : k.setsParams = true
    · have := exec_params h hp
      exact Or.inr (Or.inr (Or.inr (Or.inr ⟨hp, this.1, this.2.1⟩)))
    · cases hq : k.queues cfg c w with
      | some x => exact Or.inr (Or.inl ⟨x.1, x.2, rfl, (exec_queues h hq).1⟩)
      | none =>
        cases k
        case step pv pr =>
          obtain ⟨x, h⟩ := drop_ok.mp h
          exact Or.inr (Or.inr (Or.inl ⟨pv, pr, x, rfl, h⟩))
        case fork a b =>
          obtain ⟨x, h⟩ := drop_ok.mp h
          exact Or.inr (Or.inr (Or.inr (Or.inl ⟨a, b, x, rfl, h⟩)))
        all_goals first | (exact absurd rfl hv) | (exact absurd rfl hp) | (exact nomatch hq)

/-! ## Histories -/

theorem call_ok {cfg : Cfg} {c : Ctx} {k : Call} {w : World} :
    (∃ w', exec cfg c k w = .ok ((), w') ∧ call cfg c k w = w') ∨
    ((∃ e, exec cfg c k w = .error e) ∧ call cfg c k w = w) := by
  unfold call
  cases h : exec cfg c k w with
  | ok p => exact Or.inl ⟨p.2, rfl, rfl⟩
  | error e => exact Or.inr ⟨⟨e, rfl⟩, rfl⟩

theorem runCalls_nil {cfg : Cfg} {w : World} : runCalls cfg w [] = w := rfl
theorem runCalls_cons {cfg : Cfg} {w : World} {x : Ctx × Call} {h : List (Ctx × Call)} :
    runCalls cfg w (x :: h) = runCalls cfg (call cfg x.1 x.2 w) h := rfl
theorem runCalls_append {cfg : Cfg} {w : World} {h g : List (Ctx × Call)} :
    runCalls cfg w (h ++ g) = runCalls cfg (runCalls cfg w h) g := by
  simp [runCalls, List.foldl_append]

theorem runCalls_within {cfg : Cfg} {R : World → World → Prop} (hR : Pre R)
    (he : ∀ c k, Within R (exec cfg c k)) (h : List (Ctx × Call)) : ∀ w, R w (runCalls cfg w h) := by
  induction h with
  | nil => exact hR.refl
  | cons x h ih =>
    intro w
    refine hR.trans _ (call cfg x.1 x.2 w) _ ?_ (ih _)
    rcases call_ok (cfg := cfg) (c := x.1) (k := x.2) (w := w) with ⟨w', h1, h2⟩ | ⟨_, h2⟩
    · rw [h2]; exact he _ _ _ _ _ h1
    · rw [h2]; exact hR.refl _

/-- Invariants: true at genesis and kept by every admissible call. -/
theorem reachable_induction {cfg : Cfg} {P : World → Prop} (h0 : ∀ w, Genesis cfg w → P w)
    (hs : ∀ w c k w', P w → Admissible cfg (c, k) → exec cfg c k w = .ok ((), w') → P w') :
    ∀ w, Reachable cfg w → P w := by
  rintro w ⟨w₀, h, hg, ha, rfl⟩
  have : ∀ (h : List (Ctx × Call)), (∀ x ∈ h, Admissible cfg x) → ∀ w, P w → P (runCalls cfg w h) := by
    intro h
    induction h with
    | nil => intro _ w hw; exact hw
    | cons x h ih =>
      intro ha w hw
      refine ih (fun y hy => ha y (List.mem_cons_of_mem _ hy)) (call cfg x.1 x.2 w) ?_
      rcases call_ok (cfg := cfg) (c := x.1) (k := x.2) (w := w) with ⟨w', h1, h2⟩ | ⟨_, h2⟩
      · rw [h2]; exact hs _ _ _ _ hw (ha x (List.mem_cons_self ..)) h1
      · rw [h2]; exact hw
  exact this h ha w₀ (h0 w₀ hg)

end Verif
