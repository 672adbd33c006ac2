import Verif.Wp
import Verif.Spec
/-
# Closed forms of the transaction programs (proof infrastructure)
-/

namespace Verif

open Prog

/-! ## Balance moves -/

/-- One balance update. -/
inductive Mv where
  | credit (a : Address) (n : U256)
  | debit (a : Address) (n : U256)

namespace Mv

/-- Apply a move. -/
def app (s : Ledger) : Mv → Ledger
  | .credit a n => s.credit a n
  | .debit a n => s.debit a n

/-- No overflow or underflow. -/
def ok (s : Ledger) : Mv → Prop
  | .credit a n => s.bal a + n.toNat < 2 ^ 256
  | .debit a n => n.toNat ≤ s.bal a

/-- Amount credited to `b`. -/
def cr (b : Address) : Mv → Nat
  | .credit a n => if b = a then n.toNat else 0
  | .debit _ _ => 0

/-- Amount debited from `b`. -/
def db (b : Address) : Mv → Nat
  | .credit _ _ => 0
  | .debit a n => if b = a then n.toNat else 0

/-- Amount credited. -/
def crT : Mv → Nat
  | .credit _ n => n.toNat
  | .debit _ _ => 0

/-- Amount debited. -/
def dbT : Mv → Nat
  | .credit _ _ => 0
  | .debit _ n => n.toNat

end Mv

/-- Apply moves in order. -/
def moves : List Mv → Ledger → Ledger
  | [], s => s
  | m :: ms, s => moves ms (m.app s)

/-- All moves are possible in order. -/
def MovesOk : List Mv → Ledger → Prop
  | [], _ => True
  | m :: ms, s => m.ok s ∧ MovesOk ms (m.app s)

theorem Mv.bal_app (m : Mv) (s : Ledger) (h : m.ok s) (b : Address) :
    (m.app s).bal b + m.db b = s.bal b + m.cr b := by
  cases m with
  | credit a n =>
    simp only [Mv.app, Mv.ok, Mv.db, Mv.cr] at *
    rw [s.bal_credit a b n h]
    split
    · rename_i e; rw [e]; rfl
    · rfl
  | debit a n =>
    simp only [Mv.app, Mv.ok, Mv.db, Mv.cr] at *
    rw [s.bal_debit a b n h]
    split
    · rename_i e; rw [e]; omega
    · rfl

theorem Mv.total_app (m : Mv) (s : Ledger) (h : m.ok s) :
    (m.app s).total + m.dbT = s.total + m.crT := by
  cases m with
  | credit a n => simp only [Mv.app, Mv.ok, Mv.dbT, Mv.crT] at *; rw [s.total_credit a n h]; rfl
  | debit a n => simp only [Mv.app, Mv.ok, Mv.dbT, Mv.crT] at *; have := s.total_debit a n h; omega

theorem bal_moves (ms : List Mv) (s : Ledger) (h : MovesOk ms s) (b : Address) :
    (moves ms s).bal b + (ms.map (Mv.db b)).sum = s.bal b + (ms.map (Mv.cr b)).sum := by
  induction ms generalizing s with
  | nil => rfl
  | cons m ms ih =>
    have h1 := m.bal_app s h.1 b
    have h2 := ih _ h.2
    simp only [moves, List.map_cons, List.sum_cons]
    omega

theorem total_moves (ms : List Mv) (s : Ledger) (h : MovesOk ms s) :
    (moves ms s).total + (ms.map Mv.dbT).sum = s.total + (ms.map Mv.crT).sum := by
  induction ms generalizing s with
  | nil => rfl
  | cons m ms ih =>
    have h1 := m.total_app s h.1
    have h2 := ih _ h.2
    simp only [moves, List.map_cons, List.sum_cons]
    omega

theorem moves_frame (ms : List Mv) (s : Ledger) :
    (∀ b, (moves ms s).owner b = s.owner b) ∧ (∀ b, (moves ms s).signer b = s.signer b) ∧
    (∀ b, (moves ms s).bips b = s.bips b) ∧ (moves ms s).sc = s.sc ∧
    (moves ms s).transactions = s.transactions ∧
    (∀ b, (s.acct b).isSome → ((moves ms s).acct b).isSome) := by
  induction ms generalizing s with
  | nil => simp [moves]
  | cons m ms ih =>
    have := ih (m.app s)
    obtain ⟨h1, h2, h3, h4, h5, h6⟩ := this
    simp only [moves]
    refine ⟨fun b => ?_, fun b => ?_, fun b => ?_, ?_, ?_, fun b hb => ?_⟩
    · rw [h1]; cases m <;> simp [Mv.app]
    · rw [h2]; cases m <;> simp [Mv.app]
    · rw [h3]; cases m <;> simp [Mv.app]
    · rw [h4]; cases m <;> simp [Mv.app]
    · rw [h5]; cases m <;> simp [Mv.app]
    · apply h6; cases m <;> simp [Mv.app, Ledger.acct_isSome_credit, Ledger.acct_isSome_debit, hb]

/-! ## Message checks -/

theorem verifySigned_ok {env : Env} {b : Body} {sig : Bytes} {format : I32} {f : MessageFormat}
    {a : Address} (hf : MessageFormat.ofI32? format = some f) :
    verifySigned env b sig f = .ok a → SignedBy env b format sig a := by
  intro h
  unfold MessageFormat.ofI32? at hf
  unfold verifySigned messageBytes ethSignVerify at h
  unfold SignedBy
  split at hf
  · cases hf; simp at h
  · split at hf
    · rename_i h1
      cases hf
      left
      refine ⟨h1, ?_⟩
      simp only at h
      split at h
      · rename_i hr; cases h; exact hr
      · cases h
    · split at hf
      · rename_i h1
        cases hf
        right
        refine ⟨h1, ?_⟩
        simp only at h
        rcases hj : env.json b with _ | m
        · rw [hj] at h; simp at h
        · rw [hj] at h
          simp only at h
          refine ⟨m, rfl, ?_⟩
          split at h
          · rename_i hr; cases h; exact hr
          · cases h
      · cases hf

section
variable {s : Ledger} {E : Panic → Ledger → Prop}

@[simp] theorem wp_parseAddr (bs : Bytes) {Q : Address → Ledger → Prop} :
    wp (parseAddr bs) s Q E ↔ (∀ a, bs = Address.bytes a → Q a s) ∧
      (Address.ofBytes? bs = none → E .addressDeserializationFailed s) := by
  unfold parseAddr
  simp only [wp_liftO, Address.ofBytes?_eq_some]

@[simp] theorem wp_checkVariant (v : I32) (x : Variant) {Q : Unit → Ledger → Prop} :
    wp (checkVariant v x) s Q E ↔ (Variant.ofI32? v = some x → Q () s) ∧
      (¬ Variant.ofI32? v = some x → E .invalidTransactionVariant s) := by
  unfold checkVariant; simp only [wp_require]

@[simp] theorem wp_checkDomain (d : Bytes) (e : Panic) {Q : Unit → Ledger → Prop} :
    wp (checkDomain d e) s Q E ↔ (d = B256.bytes s.sc.domain → Q () s) ∧
      (B256.ofBytes? d = none → E e s) ∧
      (∀ x, d = B256.bytes x → x ≠ s.sc.domain → E (.domainMismatch s.sc.domain x) s) := by
  unfold checkDomain
  simp only [wp_bind, wp_liftO, wp_scalars, wp_require, B256.ofBytes?_eq_some]
  constructor
  · rintro ⟨h1, h2⟩
    exact ⟨fun h => (h1 _ h).1 rfl, h2, fun x hx hne => (h1 x hx).2 hne⟩
  · rintro ⟨h1, h2, h3⟩
    refine ⟨fun x hx => ⟨fun he => h1 (he ▸ hx), fun hne => h3 x hx hne⟩, h2⟩

@[simp] theorem wp_parseFormat (v : I32) {Q : MessageFormat → Ledger → Prop} :
    wp (parseFormat v) s Q E ↔ (∀ f, MessageFormat.ofI32? v = some f → Q f s) ∧
      (MessageFormat.ofI32? v = none → E .invalidMessageFormat s) := by
  unfold parseFormat; simp only [wp_liftO]

@[simp] theorem wp_checkAndMark (id : B256) {Q : Unit → Ledger → Prop} :
    wp (checkAndMark id) s Q E ↔ (s.done id = false → Q () (s.mark id true)) ∧
      (s.done id = true → E (.transactionAlreadyProcessed id) (s.touchTx id)) := by
  unfold checkAndMark
  simp

end

/-! ## On-chain transactions -/

/-- The cursor after accepting an on-chain transaction. -/
def nextCursor {T : Type} (o : Onchain T) (c : Scalars) : Scalars :=
  { c with onchainTxId := c.onchainTxId + 1, onchainBlock := o.block, onchainLogIndex := o.logIndex }

/-- An on-chain transaction is next in line. -/
def InOrder {T : Type} (o : Onchain T) (c : Scalars) : Prop :=
  o.onchainTx = c.onchainTxId ∧ ¬ o.block < c.onchainBlock ∧
    ¬ (o.block = c.onchainBlock ∧ o.logIndex ≤ c.onchainLogIndex)

theorem wp_acceptOnchain {T : Type} (o : Onchain T) {s : Ledger} {E : Panic → Ledger → Prop}
    {Q : Unit → Ledger → Prop} (hQ : InOrder o s.sc → Q () (s.setSc (nextCursor o s.sc)))
    (hE : ∀ e, e ≠ .arithmeticOverflow → E e s) :
    wp (acceptOnchain o) s Q E := by
  unfold acceptOnchain
  simp only [wp_bind, wp_scalars, wp_require, wp_setScalars]
  refine ⟨fun h1 => ⟨fun h2 => ⟨fun h3 => hQ ⟨h1, h2, h3⟩, fun _ => hE _ (by simp)⟩,
    fun _ => hE _ (by simp)⟩, fun _ => hE _ (by simp)⟩

theorem deposit_wp (d : Onchain Deposit) (s : Ledger) :
    wp (depositProg d) s (fun out s' =>
      InOrder d s.sc ∧ out = .applied (some (.deposit d.onchainTx .completed d.action)) ∧
      MovesOk [.credit d.action.account d.action.amount] (s.setSc (nextCursor d s.sc)) ∧
      s' = moves [.credit d.action.account d.action.amount] (s.setSc (nextCursor d s.sc)))
      (fun _ _ => True) := by
  unfold depositProg
  rw [wp_bind]
  refine wp_acceptOnchain _ (fun h => ?_) (fun _ _ => trivial)
  simp only [wp_bind, wp_updAcc_add, wp_pure]
  refine ⟨fun hb => ⟨h, trivial, ⟨hb, trivial⟩, rfl⟩, fun _ => trivial⟩

theorem createProver_wp (c : Onchain CreateProver) (s : Ledger) :
    wp (createProverProg c) s (fun out s' =>
      InOrder c s.sc ∧ out = .applied (some (.createProver c.onchainTx .completed c.action)) ∧
      s' = (s.setSc (nextCursor c s.sc)).setAcct c.action.prover
        (Account.setProver c.action.owner c.action.stakerFeeBips (s.acctD c.action.prover)))
      (fun _ _ => True) := by
  unfold createProverProg
  rw [wp_bind]
  refine wp_acceptOnchain _ (fun h => ?_) (fun _ _ => trivial)
  simp only [wp_bind, wp_updAcc_setProver, wp_pure]
  exact ⟨h, trivial, rfl⟩

/-! ## Delegate -/

/-- The parsed content of a delegation. -/
structure DelegateData where
  body : DelegateBody
  signer : Address
  prover : Address
  fee : U256
  auctioneer : Address

/-- Checks passed by an accepted delegation. -/
structure DelegatePre (env : Env) (d : Signed DelegateBody) (s : Ledger) (x : DelegateData) : Prop where
  body : d.body = some x.body
  variant : Variant.ofI32? x.body.variant = some .delegate
  domain : x.body.domain = B256.bytes s.sc.domain
  signed : SignedBy env (.delegate x.body) d.format d.signature x.signer
  fresh : s.done (identity env x.signer (.delegate x.body)) = false
  prover : x.body.prover = Address.bytes x.prover
  fee : env.parseU256 x.body.fee = some x.fee
  auctioneer : x.body.auctioneer = Address.bytes x.auctioneer
  present : (s.acct x.prover).isSome
  owner : s.owner x.prover = x.signer

/-- Balance moves of a delegation. -/
def DelegateData.moves (x : DelegateData) : List Mv := [.debit x.signer x.fee, .credit x.auctioneer x.fee]

theorem delegate_wp (env : Env) (d : Signed DelegateBody) (s : Ledger) :
    wp (delegateProg env d) s (fun out s' => ∃ x, DelegatePre env d s x ∧
      ((∃ bal, out = .reverted (.insufficientDelegateBalance x.signer x.fee bal) ∧
          bal.toNat = s.bal x.signer ∧ s.bal x.signer < x.fee.toNat ∧
          s' = s.mark (identity env x.signer (.delegate x.body)) true) ∨
       (out = .applied none ∧ x.fee.toNat ≤ s.bal x.signer ∧
        let s1 := s.mark (identity env x.signer (.delegate x.body)) true
        MovesOk x.moves s1 ∧ ∃ delegate v, x.body.delegate = Address.bytes delegate ∧
          (moves x.moves s1).acct x.prover = some v ∧
          s' = (moves x.moves s1).setAcct x.prover (Account.setSigner delegate v))))
      (fun _ _ => True) := by
  unfold delegateProg
  simp only [wp_bind, wp_liftO, wp_checkVariant, wp_checkDomain, wp_parseFormat, wp_liftE,
    wp_checkAndMark, wp_parseAddr, wp_getAcc, wp_require, wp_ite, wp_pure, wp_updAcc_add,
    wp_updAcc_deduct, wp_modAcc, imp_true_iff, and_true]
  intro body hbody hvar hdom f hf signer hs hfresh prover hprover fee hfee auct hauct acc hacc hown
  have hpre : DelegatePre env d s ⟨body, signer, prover, fee, auct⟩ :=
    ⟨hbody, hvar, hdom, verifySigned_ok hf hs, hfresh, hprover, hfee, hauct,
      by simp only [Ledger.acct_mark] at hacc; simp [hacc],
      by simp only [Ledger.acct_mark] at hacc; simp [Ledger.owner, Ledger.acctD, hacc, hown]⟩
  rw [Ledger.acct_mark] at *
  simp only [balanceOrZero_acct]
  refine ⟨fun hlt => ⟨_, hpre, .inl ⟨_, rfl, balanceOrZero_acct _ _, hlt, rfl⟩⟩, fun hge => ?_⟩
  intro h1 h2 delegate hdel
  refine ⟨fun v hv _ => ⟨_, hpre, .inr ⟨by trivial, by simpa using hge, ⟨h1, h2, trivial⟩, delegate, v, hdel,
    hv, rfl⟩⟩, fun _ h => by simp at h⟩

/-! ## Transfer -/

/-- The parsed content of a transfer. -/
structure TransferData where
  body : TransferBody
  signer : Address
  to : Address
  amount : U256
  fee : U256
  auctioneer : Address

/-- Checks passed by an accepted transfer. -/
structure TransferPre (env : Env) (d : Signed TransferBody) (s : Ledger) (x : TransferData) : Prop where
  body : d.body = some x.body
  variant : Variant.ofI32? x.body.variant = some .transfer
  domain : x.body.domain = B256.bytes s.sc.domain
  signed : SignedBy env (.transfer x.body) d.format d.signature x.signer
  fresh : s.done (identity env x.signer (.transfer x.body)) = false
  to : x.body.to = Address.bytes x.to
  amount : env.parseU256 x.body.amount = some x.amount
  fee : env.parseU256 x.body.fee = some x.fee
  auctioneer : x.body.auctioneer = Address.bytes x.auctioneer

/-- Balance moves of a transfer. -/
def TransferData.moves (x : TransferData) : List Mv :=
  [.debit x.signer x.amount, .credit x.to x.amount, .debit x.signer x.fee, .credit x.auctioneer x.fee]

theorem transfer_wp (env : Env) (d : Signed TransferBody) (s : Ledger) :
    wp (transferProg env d) s (fun out s' => ∃ x, TransferPre env d s x ∧
      let s1 := s.mark (identity env x.signer (.transfer x.body)) true
      ((∃ req bal, out = .reverted (.insufficientTransferBalance x.signer req bal) ∧
          bal.toNat = s.bal x.signer ∧ req.toNat = x.amount.toNat + x.fee.toNat ∧
          s.bal x.signer < x.amount.toNat + x.fee.toNat ∧ s' = s1) ∨
       (out = .applied none ∧ x.amount.toNat + x.fee.toNat ≤ s.bal x.signer ∧
        MovesOk x.moves s1 ∧ s' = moves x.moves s1)))
      (fun _ _ => True) := by
  unfold transferProg
  simp only [wp_bind, wp_liftO, wp_checkVariant, wp_checkDomain, wp_parseFormat, wp_liftE,
    wp_checkAndMark, wp_parseAddr, wp_getAcc, wp_ite, wp_pure, wp_updAcc_add,
    wp_updAcc_deduct, imp_true_iff, and_true]
  intro body hbody hvar f hf signer hs hdom hfresh to hto amount hamount fee hfee auct hauct total htot
  have hpre : TransferPre env d s ⟨body, signer, to, amount, fee, auct⟩ :=
    ⟨hbody, hvar, hdom, verifySigned_ok hf hs, hfresh, hto, hamount, hfee, hauct⟩
  rw [u256add_ok] at htot
  simp only [Ledger.acct_mark, balanceOrZero_acct]
  refine ⟨fun hlt => ⟨_, hpre, .inl ⟨_, _, rfl, balanceOrZero_acct _ _, htot, by
      simp only; omega, rfl⟩⟩, fun hge => ?_⟩
  intro h1 h2 h3 h4
  exact ⟨_, hpre, .inr ⟨by trivial, by simp only; omega, ⟨h1, h2, h3, h4, trivial⟩, rfl⟩⟩

/-! ## Withdraw -/

/-- The parsed content of a withdrawal. -/
structure WithdrawData where
  body : WithdrawBody
  signer : Address
  account : Address
  amount : U256
  fee : U256
  auctioneer : Address

/-- Checks passed by an accepted withdrawal. -/
structure WithdrawPre (env : Env) (d : Signed WithdrawBody) (s : Ledger) (x : WithdrawData) : Prop where
  body : d.body = some x.body
  variant : Variant.ofI32? x.body.variant = some .withdraw
  domain : x.body.domain = B256.bytes s.sc.domain
  signed : SignedBy env (.withdraw x.body) d.format d.signature x.signer
  fresh : s.done (identity env x.signer (.withdraw x.body)) = false
  account : x.body.account = Address.bytes x.account
  authorised : s.owner x.account = 0 → x.account = x.signer
  amount : env.parseU256 x.body.amount = some x.amount
  fee : env.parseU256 x.body.fee = some x.fee
  auctioneer : x.body.auctioneer = Address.bytes x.auctioneer

/-- Balance moves of a withdrawal. -/
def WithdrawData.moves (x : WithdrawData) : List Mv :=
  [.debit x.account x.amount, .debit x.signer x.fee, .credit x.auctioneer x.fee]

theorem withdraw_wp (env : Env) (d : Signed WithdrawBody) (s : Ledger) :
    wp (withdrawProg env d) s (fun out s' => ∃ x, WithdrawPre env d s x ∧
      let s1 := s.mark (identity env x.signer (.withdraw x.body)) true
      ((∃ a req bal, out = .reverted (.insufficientWithdrawBalance a req bal) ∧
          bal.toNat = s.bal a ∧ s.bal a < req.toNat ∧ s' = s1) ∨
       (out = .applied (some (.withdraw .completed ⟨x.account, x.amount⟩)) ∧
        x.amount.toNat ≤ s.bal x.account ∧
        (x.account = x.signer → x.amount.toNat + x.fee.toNat ≤ s.bal x.account) ∧
        (x.account ≠ x.signer → x.fee.toNat ≤ s.bal x.signer) ∧
        MovesOk x.moves s1 ∧ s' = moves x.moves s1)))
      (fun _ _ => True) := by
  unfold withdrawProg
  simp only [wp_bind, wp_liftO, wp_checkVariant, wp_checkDomain, wp_parseFormat, wp_liftE,
    wp_checkAndMark, wp_parseAddr, wp_getAcc, wp_ite, wp_pure, wp_updAcc_add, wp_require,
    wp_updAcc_deduct, imp_true_iff, and_true]
  intro body hbody hvar f hf signer hs hdom hfresh account haccount hauth amount hamount fee hfee auct
    hauct
  have hpre : WithdrawPre env d s ⟨body, signer, account, amount, fee, auct⟩ :=
    ⟨hbody, hvar, hdom, verifySigned_ok hf hs, hfresh, haccount, by
      rw [Ledger.acct_mark, ownerOrZero_acct] at hauth
      intro h0
      exact Decidable.byContradiction fun hne => hauth ⟨h0, hne⟩, hamount, hfee, hauct⟩
  simp only [Ledger.acct_mark, balanceOrZero_acct]
  constructor
  · intro heq total htot
    rw [u256add_ok] at htot
    refine ⟨fun hlt => ⟨_, hpre, .inl ⟨_, _, _, rfl, balanceOrZero_acct _ _, hlt, rfl⟩⟩, fun hge => ?_⟩
    intro h1 h2 h3
    refine ⟨_, hpre, .inr ⟨by trivial, by simp only; omega, fun _ => by simp only; omega,
      fun hne => absurd heq hne, ?_⟩⟩
    subst heq
    exact ⟨⟨h1, h2, h3, trivial⟩, rfl⟩
  · intro hne
    refine ⟨fun hlt => ⟨_, hpre, .inl ⟨_, _, _, rfl, balanceOrZero_acct _ _, hlt, rfl⟩⟩, fun hge => ?_⟩
    refine ⟨fun hlt => ⟨_, hpre, .inl ⟨_, _, _, rfl, balanceOrZero_acct _ _, hlt, rfl⟩⟩, fun hge' => ?_⟩
    intro h1 h2 h3
    exact ⟨_, hpre, .inr ⟨by trivial, by simp only; omega, fun he => absurd he hne, fun _ => by simp only; omega,
      ⟨h1, h2, h3, trivial⟩, rfl⟩⟩

end Verif
