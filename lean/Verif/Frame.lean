import Verif.Step
/-
# Facts that hold on every path, panics included (proof infrastructure)
-/

namespace Verif

open Prog

/-- Every run of `p`, normal or panicking, relates the initial to the final state by `R`. -/
def Always {α : Type} (R : Ledger → Ledger → Prop) (p : Prog α) : Prop := ∀ s, R s (p.runL s).2

/-- Reflexive and transitive relations that contain every single step made by transaction programs. -/
structure Closed (R : Ledger → Ledger → Prop) : Prop where
  refl : ∀ s, R s s
  trans : ∀ {a b c}, R a b → R b c → R a c
  setAcct : ∀ s a v, R s (s.setAcct a v)
  mark : ∀ s id, R s (s.mark id true)
  touchTx : ∀ s id, R s (s.touchTx id)

section
variable {R : Ledger → Ledger → Prop} {α β : Type}

theorem Always.of_wp {p : Prog α} (h : ∀ s, wp p s (fun _ s' => R s s') (fun _ s' => R s s')) :
    Always R p := by
  intro s
  have := h s
  unfold wp at this
  rcases h' : p.runL s with ⟨r | r, s'⟩ <;> rw [h'] at this <;> exact this

theorem Always.wp {p : Prog α} (h : Always R p) (s : Ledger) :
    wp p s (fun _ s' => R s s') (fun _ s' => R s s') := by
  have := h s
  unfold Verif.wp
  rcases h' : p.runL s with ⟨r | r, s'⟩ <;> rw [h'] at this <;> exact this

theorem Always.pure (hR : Closed R) (a : α) : Always R (Pure.pure a : Prog α) := fun s => hR.refl s
theorem Always.pure' (hR : Closed R) (a : α) : Always R (Prog.pure a : Prog α) := fun s => hR.refl s
theorem Always.panic (hR : Closed R) (e : Panic) : Always R (Prog.panic e : Prog α) :=
  fun s => hR.refl s

theorem Always.bind (hR : Closed R) {p : Prog α} {g : α → Prog β} (hp : Always R p)
    (hg : ∀ a, Always R (g a)) : Always R (p >>= g) := by
  apply Always.of_wp
  intro s
  rw [wp_bind]
  refine wp_mono (hp.wp s) (fun a s1 h1 => ?_) (fun _ _ h => h)
  exact wp_mono ((hg a).wp s1) (fun _ _ h2 => hR.trans h1 h2) (fun _ _ h2 => hR.trans h1 h2)

theorem Always.ite {c : Prop} [Decidable c] {p q : Prog α} (hp : Always R p) (hq : Always R q) :
    Always R (if c then p else q) := by
  by_cases h : c <;> simp [h, hp, hq]

theorem Always.require (hR : Closed R) (c : Prop) [Decidable c] (e : Panic) :
    Always R (Prog.require c e) := by
  apply Always.of_wp; intro s; rw [wp_require]; exact ⟨fun _ => hR.refl s, fun _ => hR.refl s⟩

theorem Always.liftO (hR : Closed R) (o : Option α) (e : Panic) : Always R (Prog.liftO o e) := by
  apply Always.of_wp; intro s; rw [wp_liftO]; exact ⟨fun _ _ => hR.refl s, fun _ => hR.refl s⟩

theorem Always.liftE (hR : Closed R) (o : Except Panic α) : Always R (Prog.liftE o) := by
  apply Always.of_wp; intro s; rw [wp_liftE]; exact ⟨fun _ _ => hR.refl s, fun _ _ => hR.refl s⟩

theorem Always.parseAddr (hR : Closed R) (bs : Bytes) : Always R (Verif.parseAddr bs) :=
  Always.liftO hR _ _

theorem Always.checkVariant (hR : Closed R) (v : I32) (x : Variant) :
    Always R (Verif.checkVariant v x) := Always.require hR _ _

theorem Always.parseFormat (hR : Closed R) (v : I32) : Always R (Verif.parseFormat v) :=
  Always.liftO hR _ _

theorem Always.checkDomain (hR : Closed R) (d : Bytes) (e : Panic) :
    Always R (Verif.checkDomain d e) :=
  Always.bind hR (Always.liftO hR _ _) fun _ => Always.bind hR (fun s => hR.refl s) fun _ =>
    Always.require hR _ _

theorem Always.getAcc (hR : Closed R) (a : Address) : Always R (Prog.getAcc a) := fun s => hR.refl s

theorem Always.updAcc (hR : Closed R) (a : Address) (f : Account → Except Panic Account) :
    Always R (Prog.updAcc a f) := by
  apply Always.of_wp; intro s; rw [wp_updAcc]
  refine ⟨fun v _ => hR.setAcct s a v, fun e _ => ?_⟩
  unfold Ledger.touch
  split
  · exact hR.refl s
  · exact hR.setAcct s a _

theorem Always.modAcc (hR : Closed R) (a : Address) (f : Account → Account) :
    Always R (Prog.modAcc a f) := by
  apply Always.of_wp; intro s; rw [wp_modAcc]
  exact ⟨fun v _ => hR.setAcct s a _, fun _ => hR.refl s⟩

theorem Always.processed (hR : Closed R) (id : B256) : Always R (Prog.processed id) := by
  apply Always.of_wp; intro s; rw [wp_processed]; exact hR.touchTx s id

theorem Always.mark (hR : Closed R) (id : B256) : Always R (Prog.markTx id true) :=
  fun s => hR.mark s id

theorem Always.checkAndMark (hR : Closed R) (id : B256) : Always R (Verif.checkAndMark id) :=
  Always.bind hR (Always.processed hR _) fun _ => Always.bind hR (Always.require hR _ _) fun _ =>
    Always.mark hR _

theorem Always.checkPvh (hR : Closed R) (r : Option Bytes) (e : Bytes) :
    Always R (Verif.checkPvh r e) := by
  unfold Verif.checkPvh
  split
  · exact Always.bind hR (Always.require hR _ _) fun _ => Always.require hR _ _
  · exact Always.pure' hR ()
end

/-- Applies the structural rules until no program is left. -/
macro "always" hR:term : tactic => `(tactic|
  repeat' (first
    | with_reducible exact Always.pure $hR _ | with_reducible exact Always.pure' $hR _ | with_reducible exact Always.panic $hR _
    | with_reducible exact Always.require $hR _ _ | with_reducible exact Always.liftO $hR _ _ | with_reducible exact Always.liftE $hR _
    | with_reducible exact Always.parseAddr $hR _ | with_reducible exact Always.checkVariant $hR _ _
    | with_reducible exact Always.parseFormat $hR _ | with_reducible exact Always.checkDomain $hR _ _
    | with_reducible exact Always.getAcc $hR _ | with_reducible exact Always.updAcc $hR _ _ | with_reducible exact Always.modAcc $hR _ _
    | with_reducible exact Always.processed $hR _ | with_reducible exact Always.mark $hR _ | with_reducible exact Always.checkAndMark $hR _
    | with_reducible exact Always.checkPvh $hR _ _
    | with_reducible apply Always.bind $hR | with_reducible apply Always.ite | intro _))

section
variable {R : Ledger → Ledger → Prop} (hR : Closed R) (env : Env)
include hR

theorem always_delegate (d : Signed DelegateBody) : Always R (delegateProg env d) := by
  unfold delegateProg; always hR

theorem always_transfer (d : Signed TransferBody) : Always R (transferProg env d) := by
  unfold transferProg; always hR

theorem always_withdraw (d : Signed WithdrawBody) : Always R (withdrawProg env d) := by
  unfold withdrawProg; always hR

theorem always_clearMessages (c : ClearTx) : Always R (clearMessages env c) := by
  unfold clearMessages; always hR

theorem always_clearParties (r : RequestBody) (b : BidBody) (x y z : Address) :
    Always R (clearParties env r b x y z) := by
  unfold clearParties; always hR

theorem always_clear (c : ClearTx) : Always R (clearProg env c) := by
  unfold clearProg
  apply Always.bind hR
  · unfold clearAuth
    apply Always.bind hR (always_clearMessages hR env c)
    intro x
    apply Always.bind hR (always_clearParties hR env _ _ _ _ _)
    intro y
    exact Always.pure hR _
  · intro x
    apply Always.ite
    · unfold clearPunish; always hR
    · apply Always.bind hR
      · unfold clearProof; always hR
      · intro _; unfold clearPay; always hR

/-- Off-chain transactions stay within every closed relation, on every path. -/
theorem always_offchain (tx : Tx) (h : tx.offchain = true) : Always R (execInner env tx) := by
  cases tx with
  | deposit d => simp [Tx.offchain] at h
  | createProver c => simp [Tx.offchain] at h
  | delegate d => exact always_delegate hR env d
  | transfer d => exact always_transfer hR env d
  | withdraw d => exact always_withdraw hR env d
  | clear c => exact always_clear hR env c

/-- On-chain transactions either leave the cursor alone or advance it in order, on every path. -/
theorem always_acceptOnchain {T : Type} (o : Onchain T) (s : Ledger) :
    wp (acceptOnchain o) s
      (fun _ s' => InOrder o s.sc ∧ s' = s.setSc (nextCursor o s.sc)) (fun _ s' => s' = s) :=
  wp_acceptOnchain o (fun h => ⟨h, rfl⟩) (fun _ _ => rfl)

theorem wp_onchain (tx : Tx) (h : tx.offchain = false) (s : Ledger) (Q : Ledger → Prop)
    (h0 : Q s)
    (h1 : ∀ c, c.domain = s.sc.domain → c.txId = s.sc.txId →
      ∀ s', R (s.setSc c) s' → Q s') : Q ((execInner env tx).runL s).2 := by
  have key : wp (execInner env tx) s (fun _ s' => Q s') (fun _ s' => Q s') := by
    cases tx with
    | deposit d =>
      simp only [execInner, depositProg, wp_bind]
      refine wp_mono (always_acceptOnchain hR d s) ?_ (fun _ s' h => h ▸ h0)
      rintro _ s1 ⟨_, rfl⟩
      have := (Always.updAcc hR d.action.account (Account.addBalance d.action.amount)).wp
        (s.setSc (nextCursor d s.sc))
      exact wp_mono this (fun _ s' h => h1 (nextCursor d s.sc) rfl rfl _ h)
        (fun _ s' h => h1 (nextCursor d s.sc) rfl rfl _ h)
    | createProver c =>
      simp only [execInner, createProverProg, wp_bind]
      refine wp_mono (always_acceptOnchain hR c s) ?_ (fun _ s' h => h ▸ h0)
      rintro _ s1 ⟨_, rfl⟩
      have := (Always.updAcc hR c.action.prover
        (fun a => .ok (Account.setProver c.action.owner c.action.stakerFeeBips a))).wp
        (s.setSc (nextCursor c s.sc))
      exact wp_mono this (fun _ s' h => h1 (nextCursor c s.sc) rfl rfl _ h)
        (fun _ s' h => h1 (nextCursor c s.sc) rfl rfl _ h)
    | delegate d => simp [Tx.offchain] at h
    | transfer d => simp [Tx.offchain] at h
    | withdraw d => simp [Tx.offchain] at h
    | clear c => simp [Tx.offchain] at h
  unfold wp at key
  rcases h' : (execInner env tx).runL s with ⟨r | r, s'⟩ <;> rw [h'] at key <;> exact key
end

/-- The state after `execute`, in terms of the inner run. -/
theorem execute_state (env : Env) (tx : Tx) (s : Ledger) :
    (Ledger.execute env tx s).2 = ((execInner env tx).runL s).2 ∧
        (Ledger.execute env tx s).1.accepted = false ∨
    (Ledger.execute env tx s).2 = ((execInner env tx).runL s).2.bump ∧
        (Ledger.execute env tx s).1.accepted = true := by
  unfold Ledger.execute execute Prog.runL
  split
  · rename_i h; right; rw [h]; exact ⟨rfl, rfl⟩
  · rename_i h; right; rw [h]; exact ⟨rfl, rfl⟩
  · rename_i h; left; rw [h]; exact ⟨rfl, rfl⟩

/-- Flags are never cleared, the domain and transaction cursor are not touched by `execute_inner`. -/
def Mono (s s' : Ledger) : Prop :=
  s'.sc.domain = s.sc.domain ∧ s'.sc.txId = s.sc.txId ∧ (∀ id, s.done id = true → s'.done id = true)

theorem mono_closed : Closed Mono where
  refl s := ⟨rfl, rfl, fun _ h => h⟩
  trans := fun ⟨a1, a2, a3⟩ ⟨b1, b2, b3⟩ => ⟨b1.trans a1, b2.trans a2, fun id h => b3 id (a3 id h)⟩
  setAcct s a v := ⟨rfl, rfl, fun _ h => h⟩
  mark s id := ⟨rfl, rfl, fun id' h => by rw [Ledger.done_mark]; split <;> simp_all⟩
  touchTx s id := ⟨by simp, by simp, fun id' h => by simpa using h⟩

theorem execInner_mono (env : Env) (tx : Tx) (s : Ledger) : Mono s ((execInner env tx).runL s).2 := by
  cases h : tx.offchain with
  | true => exact always_offchain mono_closed env tx h s
  | false =>
    refine wp_onchain mono_closed env tx h s (Mono s) (mono_closed.refl s) ?_
    rintro c hc1 hc2 s' ⟨h1, h2, h3⟩
    exact ⟨h1.trans hc1, h2.trans hc2, h3⟩

/-- Every stored index is below 2^160. -/
def KeysOk (s : Ledger) : Prop :=
  (∀ p ∈ s.accounts.list, p.1 < 2 ^ 160) ∧ (∀ p ∈ s.transactions.list, p.1 < 2 ^ 160)

theorem keys_insert {V : Type} (m : SMap V) (k : Nat) (v : V) (hk : k < 2 ^ 160)
    (h : ∀ p ∈ m.list, p.1 < 2 ^ 160) : ∀ p ∈ (m.insert k v).list, p.1 < 2 ^ 160 := by
  intro p hp
  rcases SMap.lins_keys k v m.list p hp with rfl | h'
  · exact hk
  · exact h p h'

theorem keysOk_closed : Closed (fun s s' => KeysOk s → KeysOk s') where
  refl s := fun h => h
  trans := fun h1 h2 h => h2 (h1 h)
  setAcct s a v := fun h => ⟨keys_insert _ _ _ (Address.index_lt a) h.1, h.2⟩
  mark s id := fun h => ⟨h.1, keys_insert _ _ _ (B256.index_lt id) h.2⟩
  touchTx s id := fun h => by
    unfold Ledger.touchTx
    split
    · exact h
    · exact ⟨h.1, keys_insert _ _ _ (B256.index_lt id) h.2⟩

theorem execInner_keysOk (env : Env) (tx : Tx) (s : Ledger) (hs : KeysOk s) :
    KeysOk ((execInner env tx).runL s).2 := by
  cases h : tx.offchain with
  | true => exact always_offchain keysOk_closed env tx h s hs
  | false =>
    refine wp_onchain keysOk_closed env tx h s KeysOk hs ?_
    intro c _ _ s' h1
    exact h1 hs

end Verif
