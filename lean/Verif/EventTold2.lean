import Verif.EventTold
/-
# The log tells what a call does: registry and staking
-/

namespace Verif
open L1 LM

/-! ## `ProverRegistry` -/

/-- The record after a new prover. -/
theorem deploy_seen (w : World) (t : Erc20) (p o : Address) (f : Nat) (d : Bytes) :
    (w.seen.read (.transactionPending (w.vapp.currentOnchainTxId + 1) .createProver d)).read (.proverDeploy p o f) =
      World.seen { w with
        iprove := t
        info := upd w.info p ⟨o, w.staking.proverCount + 1, f⟩
        vault := upd w.vault p Erc20.empty
        staking := { w.staking with
          proverCount := w.staking.proverCount + 1
          ownerToProver := upd w.staking.ownerToProver o p
          provers := upd w.staking.provers p true }
        vapp := { w.vapp with
          currentOnchainTxId := w.vapp.currentOnchainTxId + 1
          transactions := upd w.vapp.transactions (w.vapp.currentOnchainTxId + 1)
            ⟨.createProver, .pending, w.vapp.currentOnchainTxId + 1, d⟩ } } := by
  have h : (fun x => if x = p then some (o, w.staking.proverCount + 1, f) else w.seen.prover x) =
      fun x => if upd w.staking.provers p true x = true then
        some ((upd w.info p ⟨o, w.staking.proverCount + 1, f⟩ x).owner, (upd w.info p ⟨o, w.staking.proverCount + 1, f⟩ x).id,
          (upd w.info p ⟨o, w.staking.proverCount + 1, f⟩ x).stakerFeeBips) else none := by
    funext x
    by_cases hx : x = p
    · subst hx
      rw [if_pos rfl, upd_same, upd_same, if_pos rfl]
    · rw [if_neg hx, upd_ne _ _ hx, upd_ne _ _ hx]; rfl
  show ({ w.seen with current := _, queue := _, proverCount := _, prover := _, proverOf := _ } : Seen) = _
  unfold World.seen at h ⊢
  dsimp only at h ⊢
  rw [← h]
  rfl

theorem createProverE_told (cfg : Cfg) (c : Ctx) (f : U256) : Told (createProverE cfg c f) := by
  intro w a w' es h
  simp only [createProverE, deployProverE, vappCreateProverE, createTransactionE, liftBind_ok, get_ok, require_ok,
    modStaking_ok, modify_ok] at h
  obtain ⟨_, _, ⟨hf, rfl⟩, _, _, ⟨rfl, rfl⟩, _, _, ⟨ho, rfl⟩, _, _, ⟨_, rfl⟩, _, _, rfl, _, _, ⟨rfl, rfl⟩,
    _, _, ⟨hz, rfl⟩, _, _, ⟨rfl, rfl⟩, _, _, ⟨hp, rfl⟩, _, _, rfl, _, _, rfl, h⟩ := h
  obtain ⟨id, w1, e1, e2, h1, h2, rfl⟩ := bindE_ok.mp h
  simp only [liftBind_ok, emitBind_ok, pureE_ok, get_ok, require_ok, whenNotPaused_ok] at h1
  obtain ⟨_, _, ⟨rfl, rfl⟩, _, _, ⟨_, rfl⟩, _, _, ⟨_, rfl⟩, _, _, ⟨_, rfl⟩, _, _, ⟨rfl, rfl⟩, _, _, ⟨_, rfl⟩,
    _, _, hc, _, ⟨_, rfl, rfl⟩, rfl⟩ := h1
  obtain ⟨_, rfl, rfl⟩ := createTransaction_ok hc
  obtain ⟨_, w2, h3, h4⟩ := liftBind_ok.mp h2
  obtain ⟨_, h5, rfl⟩ := emitBind_ok.mp h4
  obtain ⟨_, rfl, rfl⟩ := pureE_ok.mp h5
  obtain ⟨t, _, rfl⟩ := onIprove_ok.mp h3
  dsimp only at hp
  refine ⟨⟨rfl, ⟨?_, ho, hz, hf⟩, trivial⟩, ?_⟩
  · show (if _ = true then _ else _) = none
    dsimp only
    rw [hp]; rfl
  · exact deploy_seen _ _ _ _ _ _

/-! ## `SuccinctStaking` -/

theorem stakeForE_told (cfg : Cfg) (s p : Address) (n : Nat) (w : World) (hp : w.staking.provers p = true)
    {a : Nat} {w' : World} {es : List Ev} (h : stakeForE cfg s p n w = .ok (a, w', es)) :
    w.seen.fitsAll es ∧ w.seen.readAll es = w'.seen := by
  simp only [stakeForE, liftBind_ok, get_ok, require_ok, requireNoSlash_ok] at h
  obtain ⟨_, _, ⟨hn, rfl⟩, _, _, ⟨rfl, rfl⟩, _, _, ⟨_, rfl⟩, _, _, ⟨rfl, rfl⟩, _, _, ⟨hd, rfl⟩, _, _, ⟨_, rfl⟩,
    _, _, ⟨rfl, rfl⟩, _, w, ⟨hb, rfl⟩, h⟩ := h
  have hreg : w.seen.prover p ≠ none := by
    show (if _ = true then _ else _) ≠ none
    rw [if_pos hp]; exact nofun
  have tail : ∀ {w1 : World} {es : List Ev}, w1.seen.boundTo s = p → w1.seen.prover p ≠ none → w1.seen.deactivated p = false →
      (do
        let i ← iproveDeposit cfg cfg.staking n cfg.staking
        require (i ≠ 0) .zeroReceiptAmount
        let st ← vaultDeposit cfg cfg.staking p i cfg.staking
        require (st ≠ 0) .zeroReceiptAmount
        onSt true (·.mint s st)
        emit (.stake s p n i st)
        return st : LM Nat) w1 = .ok (a, w', es) → w1.seen.fitsAll es ∧ w1.seen.readAll es = w'.seen := by
    intro w1 es b1 b2 b3 h
    simp only [liftBind_ok, emitBind_ok, pureE_ok, require_ok, onSt_ok] at h
    obtain ⟨i, _, h1, _, w2, ⟨hi, rfl⟩, st, _, h2, _, w3, ⟨hst, rfl⟩, _, _, ⟨_, t, hm, rfl⟩, _, ⟨_, rfl, rfl⟩, rfl⟩ := h
    have e1 : w2.seen = w1.seen := iproveDeposit_q _ _ _ _ _ _ _ h1
    have e2 : w3.seen = w2.seen := vaultDeposit_q _ _ _ _ _ _ _ _ h2
    rw [← e1, ← e2] at b1 b2 b3 ⊢
    obtain ⟨_, _, rfl⟩ := Erc20.mint_ok hm
    exact ⟨Seen.fitsAll_one ⟨b1, b2, b3, hn, hi, hst⟩, rfl⟩
  by_cases h0 : w.staking.stakerToProver s = 0
  · rw [if_pos h0] at h
    obtain ⟨_, w1, h1, h3⟩ := liftBind_ok.mp h
    obtain ⟨es', h2, rfl⟩ := emitBind_ok.mp h3
    rw [modStaking_ok] at h1
    subst h1
    have ht := tail (by show upd _ _ _ _ = _; rw [upd_same]) (by exact hreg) (by exact hd) h2
    exact ⟨⟨⟨h0, hreg, hd⟩, ht.1⟩, ht.2⟩
  · rw [if_neg h0] at h
    exact tail (hb.resolve_left h0) hreg hd h

theorem stakeE_told (cfg : Cfg) (c : Ctx) (p : Address) (n : Nat) : Told (stakeE cfg c p n) := by
  intro w a w' es h
  simp only [stakeE, liftBind_ok, onlyForProver_ok] at h
  obtain ⟨_, _, ⟨hp, rfl⟩, _, w1, h1, h⟩ := h
  have e1 : w1.seen = World.seen _ := proveTransferFrom_q _ _ _ _ _ _ _ h1
  rw [← e1]
  obtain ⟨t, _, _, _, rfl⟩ := proveTransferFrom_ok h1
  exact stakeForE_told _ _ _ _ _ (by exact hp) h

theorem permitAndStakeE_told (cfg : Cfg) (g p f : Address) (n : Nat) : Told (permitAndStakeE cfg g p f n) := by
  intro w a w' es h
  simp only [permitAndStakeE, liftBind_ok, onlyForProver_ok, get_ok] at h
  obtain ⟨_, _, ⟨hp, rfl⟩, _, _, ⟨rfl, rfl⟩, h⟩ := h
  have tail : ∀ {w1 : World} {es : List Ev}, w1.staking.provers p = true →
      (do
        transferProveToStaking cfg cfg.staking p f n
        stakeForE cfg f p n : LM Nat) w1 = .ok (a, w', es) → w1.seen.fitsAll es ∧ w1.seen.readAll es = w'.seen := by
    intro w1 es hp h
    obtain ⟨_, w2, h1, h2⟩ := liftBind_ok.mp h
    have e1 : w2.seen = w1.seen := transferProveToStaking_q _ _ _ _ _ _ _ _ h1
    rw [← e1]
    obtain ⟨_, t, _, _, _, rfl⟩ := transferProveToStaking_ok h1
    exact stakeForE_told _ _ _ _ _ (by exact hp) h2
  split at h
  · obtain ⟨_, w1, h1, h2⟩ := liftBind_ok.mp h
    have e1 : w1.seen = World.seen _ := provePermit_q _ _ _ _ _ _ _ h1
    rw [← e1]
    obtain ⟨_, t, _, rfl⟩ := provePermit_ok h1
    exact tail (by exact hp) h2
  · exact tail hp h

theorem requestUnstakeE_told (cfg : Cfg) (c : Ctx) (n : Nat) : Told (requestUnstakeE cfg c n) := by
  intro w a w' es h
  simp only [requestUnstakeE, escrowUnstakeRequest, liftBind_ok, bind_ok, get_ok, require_ok, requireNoSlash_ok, onSt_ok, add256_ok,
    modStaking_ok, emit_ok] at h
  obtain ⟨_, _, ⟨h1, rfl⟩, _, _, ⟨rfl, rfl⟩, _, _, ⟨h2, rfl⟩, _, _, ⟨rfl, rfl⟩, _, _, ⟨h3, rfl⟩, _, _, ⟨h4, rfl⟩,
    _, _, ⟨rfl, rfl⟩, _, _, ⟨h5, rfl⟩, esc, _, ⟨_, _, ⟨_, s1, a1, rfl⟩, h6⟩, _, _, ⟨rfl, rfl⟩, _, _, ⟨h7, rfl, rfl⟩,
    _, _, rfl, rfl, rfl⟩ := h
  obtain ⟨_, _, rfl⟩ := Erc20.burn_ok a1
  refine ⟨Seen.fitsAll_one ⟨rfl, h2, h1, h5⟩, ?_⟩
  have e := vaultRedeem_q _ _ _ _ _ _ _ _ _ h6
  exact e.symm

theorem modStaking_q {f : Staking → Staking} (h : ∀ w : World, World.seen { w with staking := f w.staking } = w.seen) :
    Silent (modStaking f) := by
  intro w u w' hm
  rw [modStaking_ok.mp hm]
  exact h w

/-- `e` reports a finished unstake of `s` from `p`. -/
def Ev.isUnstake (s p : Address) : Ev → Prop
  | .unstake a b _ _ => a = s ∧ b = p
  | _ => False

/-- Code that reports only finished unstakes of `s` from `p` and changes nothing on record. -/
def Pays {α : Type} (s p : Address) (m : LM α) : Prop :=
  Only (Ev.isUnstake s p) m ∧ ∀ w a w' es, m w = .ok (a, w', es) → w'.seen = w.seen

theorem Pays.bind {α β : Type} {s p : Address} {m : LM α} {f : α → LM β} (hm : Pays s p m) (hf : ∀ a, Pays s p (f a)) :
    Pays s p (m >>= f) := by
  refine ⟨Only.bind hm.1 fun a => (hf a).1, ?_⟩
  intro w b w' es h
  obtain ⟨a, w1, e1, e2, h1, h2, rfl⟩ := bindE_ok.mp h
  rw [(hf a).2 _ _ _ _ h2, hm.2 _ _ _ _ h1]
theorem Pays.lift {α : Type} {s p : Address} {m : L1 α} (h : Silent m) : Pays s p (liftM m : LM α) := by
  refine ⟨Only.lift _, ?_⟩
  intro w b w' es hm
  obtain ⟨hm', _⟩ := liftE_ok.mp hm
  exact h _ _ _ hm'
theorem Pays.pure {α : Type} {s p : Address} (a : α) : Pays s p (pure a : LM α) := by
  refine ⟨Only.pure _, ?_⟩
  intro w b w' es h
  obtain ⟨_, rfl, _⟩ := pureE_ok.mp h
  rfl
theorem Pays.ite {α : Type} {s p : Address} {c : Prop} [Decidable c] {m n : LM α} (h1 : Pays s p m) (h2 : Pays s p n) :
    Pays s p (if c then m else n) := by
  split <;> assumption
theorem Pays.emit {s p : Address} {x y : Nat} : Pays s p (emit (.unstake s p x y)) := by
  refine ⟨Only.emit ⟨rfl, rfl⟩, ?_⟩
  intro w b w' es h
  obtain ⟨rfl, _⟩ := emit_ok.mp h
  rfl

theorem finishUnstakeRequestE_pays (cfg : Cfg) (s p : Address) (k : UnstakeClaim) :
    Pays s p (finishUnstakeRequestE cfg s p k) := by
  unfold finishUnstakeRequestE
  refine Pays.bind (Pays.lift Silent.get) fun w => ?_
  refine Pays.bind (Pays.lift (mulDiv_q _ _ _)) fun x => ?_
  refine Pays.ite ?_ (Pays.bind Pays.emit fun _ => Pays.pure _)
  refine Pays.bind (Pays.lift (modStaking_q fun w => rfl)) fun _ => ?_
  refine Pays.bind (Pays.lift (iproveRedeem_q _ _ _ _ _)) fun _ => ?_
  exact Pays.bind Pays.emit fun _ => Pays.pure _

theorem finishLoopE_pays (cfg : Cfg) (c : Ctx) (s p : Address) (fuel : Nat) :
    ∀ i paid, Pays s p (finishLoopE cfg c s p fuel i paid) := by
  induction fuel with
  | zero => intro i paid; exact Pays.pure _
  | succ fuel ih =>
    intro i paid
    unfold finishLoopE
    refine Pays.bind (Pays.lift Silent.get) fun w => ?_
    cases (w.staking.unstakeClaims s)[i]? with
    | none => exact Pays.pure _
    | some claim =>
      dsimp only
      refine Pays.bind (Pays.lift (add256_q _ _)) fun r => ?_
      refine Pays.ite ?_ (ih _ _)
      refine Pays.bind (Pays.lift (modStaking_q fun w => rfl)) fun _ => ?_
      refine Pays.bind (finishUnstakeRequestE_pays _ _ _ _) fun _ => ?_
      exact Pays.bind (Pays.lift (add256_q _ _)) fun _ => ih _ _

theorem Pays.told {α : Type} {s p : Address} {m : LM α} (hm : Pays s p m) {w : World} {a : α} {w' : World} {es : List Ev}
    (hb : w.seen.boundTo s = p) (hp : p ≠ 0) (h : m w = .ok (a, w', es)) :
    w.seen.fitsAll es ∧ w.seen.readAll es = w'.seen := by
  rw [hm.2 _ _ _ _ h]
  have ho := hm.1 _ _ _ _ h
  clear h hm
  induction es with
  | nil => exact ⟨trivial, rfl⟩
  | cons e es ih =>
    have he := ho e (by simp)
    have := ih fun e he => ho e (by simp [he])
    cases e <;> first | exact he.elim | skip
    obtain ⟨rfl, rfl⟩ := he
    exact ⟨⟨⟨hb, hp⟩, this.1⟩, this.2⟩

theorem finishUnstakeE_told (cfg : Cfg) (c : Ctx) (s : Address) : Told (finishUnstakeE cfg c s) := by
  intro w a w' es h
  simp only [finishUnstakeE, liftBind_ok, get_ok, require_ok, requireNoSlash_ok] at h
  obtain ⟨_, _, ⟨rfl, rfl⟩, _, _, ⟨hp, rfl⟩, _, _, ⟨rfl, rfl⟩, _, _, ⟨_, rfl⟩, _, w, ⟨_, rfl⟩, h⟩ := h
  obtain ⟨paid, w1, e1, e2, h1, h2, rfl⟩ := bindE_ok.mp h
  have hpay := finishLoopE_pays _ _ _ _ _ _ _ |>.told (w := w) rfl hp h1
  have hsame := (finishLoopE_pays _ _ _ _ _ _ _).2 _ _ _ _ h1
  suffices hs : w1.seen.fitsAll e2 ∧ w1.seen.readAll e2 = w'.seen by
    rw [← hpay.2] at hs
    exact ⟨Seen.fitsAll_append hpay.1 hs.1, by rw [Seen.readAll_append]; exact hs.2⟩
  have hb : w1.seen.boundTo s = w.staking.stakerToProver s := by rw [hsame]; rfl
  have tail : ∀ {w2 : World} {es : List Ev}, w2.seen.boundTo s = w.staking.stakerToProver s →
      (do
        let w3 ← get
        if w3.st.bal s = 0 ∧ w3.staking.unstakeClaims s = [] then
          modStaking fun x => { x with stakerToProver := upd x.stakerToProver s 0 }
          emit (.proverUnbound s (w.staking.stakerToProver s))
        return paid : LM Nat) w2 = .ok (a, w', es) → w2.seen.fitsAll es ∧ w2.seen.readAll es = w'.seen := by
    intro w2 es hb h
    obtain ⟨_, _, hg2, h7⟩ := liftBind_ok.mp h
    obtain ⟨rfl, rfl⟩ := get_ok.mp hg2
    split at h7
    · rename_i hc
      obtain ⟨_, _, h10, h11⟩ := liftBind_ok.mp h7
      rw [modStaking_ok] at h10
      obtain ⟨_, h12, rfl⟩ := emitBind_ok.mp h11
      obtain ⟨_, rfl, rfl⟩ := pureE_ok.mp h12
      subst h10
      exact ⟨Seen.fitsAll_one ⟨hb, hp, hc.1⟩, rfl⟩
    · obtain ⟨_, rfl, rfl⟩ := pureE_ok.mp h7
      exact ⟨trivial, rfl⟩
  obtain ⟨_, _, hg, h3⟩ := liftBind_ok.mp h2
  obtain ⟨rfl, rfl⟩ := get_ok.mp hg
  split at h3
  · obtain ⟨_, w2, h4, h5⟩ := liftBind_ok.mp h3
    have hw2 : w2.seen = World.seen _ := modStaking_q (fun w => rfl) _ _ _ h4
    rw [← hw2] at hb ⊢
    exact tail hb h5
  · exact tail hb h3

/-! Slashing -/

/-- The record with other slash requests. -/
def Seen.withSlash (s : Seen) (f : Address → Nat → Option (Nat × Bool)) : Seen := { s with slash := f }

theorem slash_ext {w : World} {f : Address → Nat → Option (Nat × Bool)} {sc : Address → List SlashClaim} {n : Address → Nat}
    (h : ∀ x, f x = fun i => ((sc x)[i]?).map fun c => (c.iPROVE, c.resolved)) :
    w.seen.withSlash f = World.seen { w with staking := { w.staking with slashClaims := sc, slashClaimCount := n } } := by
  rw [show f = fun x i => ((sc x)[i]?).map fun c => (c.iPROVE, c.resolved) from funext h]
  rfl

theorem requestSlashE_told (cfg : Cfg) (c : Ctx) (p : Address) (n : Nat) : Told (requestSlashE cfg c p n) := by
  intro w a w' es h
  simp only [requestSlashE, liftBind_ok, emitBind_ok, pureE_ok] at h
  obtain ⟨i, w1, h1, _, ⟨rfl, rfl, rfl⟩, rfl⟩ := h
  obtain ⟨_, hp, hn, rfl, rfl⟩ := requestSlash_ok h1
  refine ⟨Seen.fitsAll_one ⟨?_, hn, ?_, ?_⟩, ?_⟩
  · show (if _ = true then _ else _) ≠ none
    rw [if_pos hp]; exact nofun
  · show Option.map _ _[_]? = none
    rw [List.getElem?_eq_none (Nat.le_refl _)]; rfl
  · intro j hj
    show Option.map _ _[_]? ≠ none
    rw [List.getElem?_eq_getElem hj]; exact nofun
  · rw [Seen.readAll_one]
    refine slash_ext fun x => ?_
    by_cases hx : x = p
    · subst hx
      rw [if_pos rfl, upd_same]
      funext j
      by_cases hj : j = (w.staking.slashClaims x).length
      · subst hj
        rw [if_pos rfl, List.getElem?_append_right (Nat.le_refl _), Nat.sub_self]
        rfl
      · rw [if_neg hj]
        show Option.map _ _[_]? = _
        by_cases hl : j < (w.staking.slashClaims x).length
        · rw [List.getElem?_append_left hl]
        · rw [List.getElem?_eq_none (by omega), List.getElem?_eq_none (by simp; omega)]
    · rw [if_neg hx, upd_ne _ _ hx]
      rfl

theorem resolve_slash (w : World) (p : Address) (i : Nat) (claim : SlashClaim)
    (hc : (w.staking.slashClaims p)[i]? = some claim) :
    (World.seen { w with staking := w.staking.resolve p i claim }) = { w.seen with
      slash := fun x => if x = p then fun j => if j = i then some (claim.iPROVE, true) else w.seen.slash p j
        else w.seen.slash x } := by
  refine (slash_ext fun x => ?_).symm
  by_cases hx : x = p
  · subst hx
    rw [if_pos rfl, upd_same]
    funext j
    by_cases hj : j = i
    · subst hj
      obtain ⟨hl, _⟩ := List.getElem?_eq_some_iff.mp hc
      rw [if_pos rfl, List.getElem?_set_self hl]
      rfl
    · rw [if_neg hj, List.getElem?_set_ne (Ne.symm hj)]
      rfl
  · rw [if_neg hx, upd_ne _ _ hx]
    rfl

theorem cancelSlashE_told (c : Ctx) (p : Address) (i : Nat) : Told (cancelSlashE c p i) := by
  intro w a w' es h
  simp only [cancelSlashE, liftBind_ok, get_ok, require_ok, onlyForProver_ok, liftO_ok, add256_ok, resolveSlash,
    modStaking_ok, emit_ok] at h
  obtain ⟨_, _, ⟨h1, rfl⟩, _, _, ⟨rfl, rfl⟩, claim, _, ⟨h2, rfl⟩, _, _, ⟨h3, rfl⟩, _, _, ⟨rfl, rfl⟩,
    _, _, ⟨_, rfl, rfl⟩, _, _, ⟨_, rfl, rfl⟩, _, _, ⟨_, rfl, rfl⟩, _, w, ⟨h4, rfl⟩, _, _, rfl, rfl, rfl⟩ := h
  refine ⟨Seen.fitsAll_one ⟨?_, ?_⟩, ?_⟩
  · show (if _ = true then _ else _) ≠ none
    rw [if_pos h1]; exact nofun
  · show Option.map _ _[_]? = _
    rw [h2]
    show some (_, claim.resolved) = _
    rw [h3]
  · exact (resolve_slash w p i claim h2).symm

theorem deactivateIfBelowMinE_told (p : Address) (w : World) (hp : w.staking.provers p = true)
    {a : Unit} {w' : World} {es : List Ev} (h : deactivateIfBelowMinE p w = .ok (a, w', es)) :
    w.seen.fitsAll es ∧ w.seen.readAll es = w'.seen := by
  simp only [deactivateIfBelowMinE, liftBind_ok, get_ok] at h
  obtain ⟨_, w, ⟨rfl, rfl⟩, h⟩ := h
  split at h
  · obtain ⟨_, rfl, rfl⟩ := pureE_ok.mp h
    exact ⟨trivial, rfl⟩
  · rename_i hd
    split at h
    · obtain ⟨_, rfl, rfl⟩ := pureE_ok.mp h
      exact ⟨trivial, rfl⟩
    · obtain ⟨pr, w1, h1, h2⟩ := liftBind_ok.mp h
      obtain ⟨_, _, _, rfl⟩ := mulDiv_ok.mp h1
      split at h2
      · obtain ⟨_, _, h3, h4⟩ := liftBind_ok.mp h2
        rw [modStaking_ok] at h3
        obtain ⟨rfl, rfl⟩ := emit_ok.mp h4
        subst h3
        refine ⟨Seen.fitsAll_one ⟨?_, by simpa [World.seen] using hd⟩, rfl⟩
        show (if _ = true then _ else _) ≠ none
        rw [if_pos hp]; exact nofun
      · obtain ⟨_, rfl, rfl⟩ := pureE_ok.mp h2
        exact ⟨trivial, rfl⟩

end Verif
