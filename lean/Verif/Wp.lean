import Verif.Observe
/-
# Weakest preconditions for programs on the plain ledger (proof infrastructure)
-/

namespace Verif

open Prog

namespace Ledger

/-- Replace the record of an address. -/
def setAcct (s : Ledger) (a : Address) (v : Account) : Ledger :=
  { s with accounts := s.accounts.insert (Address.index a) v }

/-- Materialise a default record. -/
def touch (s : Ledger) (a : Address) : Ledger :=
  match s.acct a with
  | some _ => s
  | none => s.setAcct a {}

/-- Add to a balance. -/
def credit (s : Ledger) (a : Address) (n : U256) : Ledger :=
  s.setAcct a { s.acctD a with balance := BitVec.ofNat 256 (s.bal a + n.toNat) }

/-- Subtract from a balance. -/
def debit (s : Ledger) (a : Address) (n : U256) : Ledger :=
  s.setAcct a { s.acctD a with balance := BitVec.ofNat 256 (s.bal a - n.toNat) }

/-- Set a processed flag. -/
def mark (s : Ledger) (id : B256) (b : Bool) : Ledger :=
  { s with transactions := s.transactions.insert (B256.index id) b }

/-- Materialise a processed flag. -/
def touchTx (s : Ledger) (id : B256) : Ledger :=
  match s.transactions.get? (B256.index id) with
  | some _ => s
  | none => s.mark id false

/-- Replace the scalars. -/
def setSc (s : Ledger) (c : Scalars) : Ledger := { s with sc := c }

end Ledger

/-- Weakest precondition with a normal and a panic postcondition. -/
def wp {α : Type} (p : Prog α) (s : Ledger) (Q : α → Ledger → Prop) (E : Panic → Ledger → Prop) :
    Prop :=
  match p.runL s with
  | (.ok a, s') => Q a s'
  | (.error e, s') => E e s'

theorem wp_iff {α : Type} {p : Prog α} {s : Ledger} {Q E} :
    wp p s Q E ↔ (∀ a s', p.runL s = (.ok a, s') → Q a s') ∧
      (∀ e s', p.runL s = (.error e, s') → E e s') := by
  unfold wp
  rcases h : p.runL s with ⟨r | r, s'⟩
  · simp
  · simp

theorem run_bind {A T α β : Type} (SA : StoreOps Address Account A) (ST : StoreOps B256 Bool T)
    (p : Prog α) (g : α → Prog β) (s : St A T) :
    (p.bind g).run SA ST s = match p.run SA ST s with
      | (.ok a, s') => (g a).run SA ST s'
      | (.error e, s') => (.error e, s') := by
  induction p generalizing s with
  | pure a => rfl
  | panic e => rfl
  | getSc k ih => exact ih s.sc s
  | setSc c k ih => exact ih _
  | accGet a k ih =>
    simp only [Prog.bind, Prog.run]
    split
    · rfl
    · exact ih _ _
  | accEntry a f k ih =>
    simp only [Prog.bind, Prog.run]
    split
    · rfl
    · split
      · rfl
      · exact ih _
  | accGetMut a f k ih =>
    simp only [Prog.bind, Prog.run]
    split
    · rfl
    · exact ih _ _
    · exact ih _ _
  | txEntry id k ih =>
    simp only [Prog.bind, Prog.run]
    split
    · rfl
    · exact ih _ _
  | txInsert id v k ih =>
    simp only [Prog.bind, Prog.run]
    split
    · rfl
    · exact ih _

section
variable {α β : Type} {s : Ledger} {Q : α → Ledger → Prop} {E : Panic → Ledger → Prop}

@[simp] theorem wp_pure (a : α) : wp (Pure.pure a : Prog α) s Q E ↔ Q a s := Iff.rfl
@[simp] theorem wp_pure' (a : α) : wp (Prog.pure a : Prog α) s Q E ↔ Q a s := Iff.rfl
@[simp] theorem wp_panic (e : Panic) : wp (Prog.panic e : Prog α) s Q E ↔ E e s := Iff.rfl

@[simp] theorem wp_bind (p : Prog β) (g : β → Prog α) :
    wp (p >>= g) s Q E ↔ wp p s (fun a s' => wp (g a) s' Q E) E := by
  show wp (p.bind g) s Q E ↔ _
  unfold wp runL
  rw [run_bind]
  rcases h : p.run (mapOps Address Account) (mapOps B256 Bool) s with ⟨r | r, s'⟩ <;> simp

theorem wp_mono {p : Prog α} {Q' : α → Ledger → Prop} {E' : Panic → Ledger → Prop}
    (h : wp p s Q E) (hq : ∀ a s', Q a s' → Q' a s') (he : ∀ e s', E e s' → E' e s') :
    wp p s Q' E' := by
  unfold wp at *
  rcases h' : p.runL s with ⟨r | r, s'⟩
  · rw [h'] at h; exact he _ _ h
  · rw [h'] at h; exact hq _ _ h

@[simp] theorem wp_ite (c : Prop) [Decidable c] (p q : Prog α) :
    wp (if c then p else q) s Q E ↔ (c → wp p s Q E) ∧ (¬ c → wp q s Q E) := by
  by_cases h : c <;> simp [h]

@[simp] theorem wp_liftO (o : Option α) (e : Panic) :
    wp (liftO o e) s Q E ↔ (∀ a, o = some a → Q a s) ∧ (o = none → E e s) := by
  cases o <;> simp [liftO]

@[simp] theorem wp_liftE (o : Except Panic α) :
    wp (liftE o) s Q E ↔ (∀ a, o = .ok a → Q a s) ∧ (∀ e, o = .error e → E e s) := by
  cases o <;> simp [liftE]
end

section
variable {s : Ledger} {E : Panic → Ledger → Prop}

@[simp] theorem wp_require (c : Prop) [Decidable c] (e : Panic) {Q : Unit → Ledger → Prop} :
    wp (require c e) s Q E ↔ (c → Q () s) ∧ (¬ c → E e s) := by
  unfold require
  by_cases h : c <;> simp [h]

@[simp] theorem wp_scalars {Q : Scalars → Ledger → Prop} : wp scalars s Q E ↔ Q s.sc s := Iff.rfl

@[simp] theorem wp_setScalars (c : Scalars) {Q : Unit → Ledger → Prop} :
    wp (setScalars c) s Q E ↔ Q () (s.setSc c) := Iff.rfl

@[simp] theorem wp_getAcc (a : Address) {Q : Option Account → Ledger → Prop} :
    wp (getAcc a) s Q E ↔ Q (s.acct a) s := Iff.rfl

@[simp] theorem wp_markTx (id : B256) (b : Bool) {Q : Unit → Ledger → Prop} :
    wp (markTx id b) s Q E ↔ Q () (s.mark id b) := Iff.rfl

@[simp] theorem wp_processed (id : B256) {Q : Bool → Ledger → Prop} :
    wp (processed id) s Q E ↔ Q (s.done id) (s.touchTx id) := by
  have hi : ∀ k : B256, StoreKey.index k = B256.index k := fun _ => rfl
  unfold wp runL processed
  simp only [run, mapOps, Ledger.done, Ledger.touchTx, hi]
  rcases h : s.transactions.get? (B256.index id) with _ | v <;> simp [Ledger.mark]

theorem wp_updAcc (a : Address) (f : Account → Except Panic Account) {Q : Unit → Ledger → Prop} :
    wp (updAcc a f) s Q E ↔ (∀ v, f (s.acctD a) = .ok v → Q () (s.setAcct a v)) ∧
      (∀ e, f (s.acctD a) = .error e → E e (s.touch a)) := by
  have hi : ∀ k : Address, StoreKey.index k = Address.index k := fun _ => rfl
  have hd : (default : Account) = {} := rfl
  unfold wp runL updAcc
  simp only [run, mapOps, Ledger.acctD, Ledger.acct, Ledger.touch, hi, hd]
  rcases h : s.accounts.get? (Address.index a) with _ | v
  · simp only [Option.getD_none]
    rcases hf : f {} with e | v
    · simp [Ledger.setAcct]
    · simp [Ledger.setAcct, SMap.insert_insert]
  · simp only [Option.getD_some]
    rcases hf : f v with e | v
    · simp
    · simp [Ledger.setAcct]

@[simp] theorem wp_modAcc (a : Address) (f : Account → Account) {Q : Bool → Ledger → Prop} :
    wp (modAcc a f) s Q E ↔ (∀ v, s.acct a = some v → Q true (s.setAcct a (f v))) ∧
      (s.acct a = none → Q false s) := by
  have hi : ∀ k : Address, StoreKey.index k = Address.index k := fun _ => rfl
  unfold wp runL modAcc
  simp only [run, mapOps, Ledger.acct, hi]
  rcases h : s.accounts.get? (Address.index a) with _ | v <;> simp [Ledger.setAcct]

@[simp] theorem wp_updAcc_add (a : Address) (n : U256) {Q : Unit → Ledger → Prop} :
    wp (updAcc a (Account.addBalance n)) s Q E ↔
      (s.bal a + n.toNat < 2 ^ 256 → Q () (s.credit a n)) ∧
      (¬ s.bal a + n.toNat < 2 ^ 256 → E .arithmeticOverflow (s.touch a)) := by
  rw [wp_updAcc]
  have hf : Account.addBalance n (s.acctD a) =
      if s.bal a + n.toNat < 2 ^ 256 then
        .ok { s.acctD a with balance := BitVec.ofNat 256 (s.bal a + n.toNat) }
      else .error .arithmeticOverflow := by
    unfold Account.addBalance u256add Ledger.bal
    split <;> rfl
  rw [hf]
  by_cases h : s.bal a + n.toNat < 2 ^ 256
  · rw [if_pos h]; simp [h, Ledger.credit]
  · rw [if_neg h]; simp [h]

@[simp] theorem wp_updAcc_deduct (a : Address) (n : U256) {Q : Unit → Ledger → Prop} :
    wp (updAcc a (Account.deductBalance n)) s Q E ↔
      (n.toNat ≤ s.bal a → Q () (s.debit a n)) ∧
      (¬ n.toNat ≤ s.bal a → E .arithmeticOverflow (s.touch a)) := by
  rw [wp_updAcc]
  have hf : Account.deductBalance n (s.acctD a) =
      if n.toNat ≤ s.bal a then
        .ok { s.acctD a with balance := BitVec.ofNat 256 (s.bal a - n.toNat) }
      else .error .arithmeticOverflow := by
    unfold Account.deductBalance u256sub Ledger.bal
    split <;> rfl
  rw [hf]
  by_cases h : n.toNat ≤ s.bal a
  · rw [if_pos h]; simp [h, Ledger.debit]
  · rw [if_neg h]; simp [h]

@[simp] theorem wp_updAcc_setProver (a : Address) (o : Address) (b : U256)
    {Q : Unit → Ledger → Prop} :
    wp (updAcc a (fun x => .ok (Account.setProver o b x))) s Q E ↔
      Q () (s.setAcct a (Account.setProver o b (s.acctD a))) := by
  rw [wp_updAcc]; simp
end

/-! ## Observations of updated ledgers -/

namespace Ledger

variable (s : Ledger) (a b : Address) (n : U256) (id id' : B256) (v : Bool)

theorem acct_setAcct (w : Account) : (s.setAcct a w).acct b = if b = a then some w else s.acct b := by
  unfold acct setAcct
  simp only [SMap.get?_insert]
  by_cases h : b = a
  · simp [h]
  · have : ¬ Address.index b = Address.index a := fun h' => h (Address.index_inj h')
    simp [h, this]

theorem acctD_setAcct (w : Account) : (s.setAcct a w).acctD b = if b = a then w else s.acctD b := by
  unfold acctD
  rw [acct_setAcct]
  by_cases h : b = a <;> simp [h]

@[simp] theorem acct_mark : (s.mark id v).acct b = s.acct b := rfl
@[simp] theorem acctD_mark : (s.mark id v).acctD b = s.acctD b := rfl
@[simp] theorem bal_mark : (s.mark id v).bal b = s.bal b := rfl
@[simp] theorem owner_mark : (s.mark id v).owner b = s.owner b := rfl
@[simp] theorem signer_mark : (s.mark id v).signer b = s.signer b := rfl
@[simp] theorem bips_mark : (s.mark id v).bips b = s.bips b := rfl
@[simp] theorem total_mark : (s.mark id v).total = s.total := rfl
@[simp] theorem sc_mark : (s.mark id v).sc = s.sc := rfl
@[simp] theorem accounts_mark : (s.mark id v).accounts = s.accounts := rfl

@[simp] theorem touchTx_accounts : (s.touchTx id).accounts = s.accounts := by
  unfold touchTx; split <;> rfl
@[simp] theorem touchTx_sc : (s.touchTx id).sc = s.sc := by
  unfold touchTx; split <;> rfl
@[simp] theorem acct_touchTx : (s.touchTx id).acct b = s.acct b := by
  unfold acct; rw [touchTx_accounts]
@[simp] theorem acctD_touchTx : (s.touchTx id).acctD b = s.acctD b := by
  unfold acctD; rw [acct_touchTx]
@[simp] theorem bal_touchTx : (s.touchTx id).bal b = s.bal b := by
  unfold bal; rw [acctD_touchTx]

@[simp] theorem done_touchTx : (s.touchTx id).done id' = s.done id' := by
  unfold touchTx
  split
  · rfl
  · rename_i h
    unfold done mark
    simp only [SMap.get?_insert]
    by_cases h' : B256.index id' = B256.index id
    · rw [h', h]; simp
    · simp [h']

@[simp] theorem mark_touchTx : (s.touchTx id).mark id v = s.mark id v := by
  unfold touchTx
  split
  · rfl
  · unfold mark; simp [SMap.insert_insert]

theorem done_mark : (s.mark id v).done id' = if B256.index id' = B256.index id then v
    else s.done id' := by
  unfold done mark
  simp only [SMap.get?_insert]
  split <;> simp

@[simp] theorem done_setAcct (w : Account) : (s.setAcct a w).done id = s.done id := rfl
@[simp] theorem done_credit : (s.credit a n).done id = s.done id := rfl
@[simp] theorem done_debit : (s.debit a n).done id = s.done id := rfl
@[simp] theorem transactions_setAcct (w : Account) :
    (s.setAcct a w).transactions = s.transactions := rfl
@[simp] theorem transactions_credit : (s.credit a n).transactions = s.transactions := rfl
@[simp] theorem transactions_debit : (s.debit a n).transactions = s.transactions := rfl
@[simp] theorem transactions_setSc (c : Scalars) : (s.setSc c).transactions = s.transactions := rfl
@[simp] theorem accounts_setSc (c : Scalars) : (s.setSc c).accounts = s.accounts := rfl
@[simp] theorem sc_setAcct (w : Account) : (s.setAcct a w).sc = s.sc := rfl
@[simp] theorem sc_credit : (s.credit a n).sc = s.sc := rfl
@[simp] theorem sc_debit : (s.debit a n).sc = s.sc := rfl
@[simp] theorem sc_setSc (c : Scalars) : (s.setSc c).sc = c := rfl
@[simp] theorem acct_setSc (c : Scalars) : (s.setSc c).acct b = s.acct b := rfl
@[simp] theorem acctD_setSc (c : Scalars) : (s.setSc c).acctD b = s.acctD b := rfl
@[simp] theorem bal_setSc (c : Scalars) : (s.setSc c).bal b = s.bal b := rfl
@[simp] theorem owner_setSc (c : Scalars) : (s.setSc c).owner b = s.owner b := rfl
@[simp] theorem signer_setSc (c : Scalars) : (s.setSc c).signer b = s.signer b := rfl
@[simp] theorem bips_setSc (c : Scalars) : (s.setSc c).bips b = s.bips b := rfl
@[simp] theorem total_setSc (c : Scalars) : (s.setSc c).total = s.total := rfl
@[simp] theorem done_setSc (c : Scalars) : (s.setSc c).done id = s.done id := rfl

theorem bal_lt : s.bal a < 2 ^ 256 := (s.acctD a).balance.isLt

theorem bal_le_total : s.bal a ≤ s.total := by
  have := SMap.le_sum (fun x : Account => x.balance.toNat) s.accounts (Address.index a)
  unfold bal acctD acct total
  cases h : s.accounts.get? (Address.index a) with
  | none => simp
  | some v => rw [h] at this; simpa using this

theorem bal_credit (h : s.bal a + n.toNat < 2 ^ 256) :
    (s.credit a n).bal b = if b = a then s.bal a + n.toNat else s.bal b := by
  unfold credit
  conv => lhs; unfold bal
  rw [acctD_setAcct]
  split
  · exact u256_ofNat_toNat h
  · rfl

theorem bal_debit (_h : n.toNat ≤ s.bal a) :
    (s.debit a n).bal b = if b = a then s.bal a - n.toNat else s.bal b := by
  have := s.bal_lt a
  unfold debit
  conv => lhs; unfold bal
  rw [acctD_setAcct]
  split
  · exact u256_ofNat_toNat (by omega)
  · rfl

@[simp] theorem owner_credit : (s.credit a n).owner b = s.owner b := by
  unfold owner credit; rw [acctD_setAcct]; split <;> simp_all
@[simp] theorem owner_debit : (s.debit a n).owner b = s.owner b := by
  unfold owner debit; rw [acctD_setAcct]; split <;> simp_all
@[simp] theorem signer_credit : (s.credit a n).signer b = s.signer b := by
  unfold signer credit; rw [acctD_setAcct]; split <;> simp_all
@[simp] theorem signer_debit : (s.debit a n).signer b = s.signer b := by
  unfold signer debit; rw [acctD_setAcct]; split <;> simp_all
@[simp] theorem bips_credit : (s.credit a n).bips b = s.bips b := by
  unfold bips credit; rw [acctD_setAcct]; split <;> simp_all
@[simp] theorem bips_debit : (s.debit a n).bips b = s.bips b := by
  unfold bips debit; rw [acctD_setAcct]; split <;> simp_all

theorem total_setAcct (w : Account) : (s.setAcct a w).total + s.bal a = s.total + w.balance.toNat := by
  have := SMap.sum_insert (fun x : Account => x.balance.toNat) s.accounts (Address.index a) w
  unfold bal acctD acct total setAcct
  cases h : s.accounts.get? (Address.index a) with
  | none => rw [h] at this; simpa using this
  | some v => rw [h] at this; simpa using this

theorem total_credit (h : s.bal a + n.toNat < 2 ^ 256) : (s.credit a n).total = s.total + n.toNat := by
  have := s.total_setAcct a { s.acctD a with balance := BitVec.ofNat 256 (s.bal a + n.toNat) }
  rw [u256_ofNat_toNat h] at this
  unfold credit
  omega

theorem total_debit (h : n.toNat ≤ s.bal a) : (s.debit a n).total + n.toNat = s.total := by
  have h1 := s.bal_lt a
  have := s.total_setAcct a { s.acctD a with balance := BitVec.ofNat 256 (s.bal a - n.toNat) }
  rw [u256_ofNat_toNat (by omega)] at this
  unfold debit
  omega

theorem acct_isSome_credit : ((s.credit a n).acct b).isSome = (decide (b = a) || (s.acct b).isSome) := by
  unfold credit; rw [acct_setAcct]; by_cases h : b = a <;> simp [h]

theorem acct_isSome_debit : ((s.debit a n).acct b).isSome = (decide (b = a) || (s.acct b).isSome) := by
  unfold debit; rw [acct_setAcct]; by_cases h : b = a <;> simp [h]

theorem owner_setAcct (w : Account) :
    (s.setAcct a w).owner b = if b = a then w.owner else s.owner b := by
  unfold owner; rw [acctD_setAcct]; split <;> rfl
theorem signer_setAcct (w : Account) :
    (s.setAcct a w).signer b = if b = a then w.signer else s.signer b := by
  unfold signer; rw [acctD_setAcct]; split <;> rfl
theorem bips_setAcct (w : Account) :
    (s.setAcct a w).bips b = if b = a then w.stakerFeeBips else s.bips b := by
  unfold bips; rw [acctD_setAcct]; split <;> rfl
theorem bal_setAcct (w : Account) :
    (s.setAcct a w).bal b = if b = a then w.balance.toNat else s.bal b := by
  unfold bal; rw [acctD_setAcct]; split <;> rfl

end Ledger

theorem balanceOrZero_acct (s : Ledger) (a : Address) : (balanceOrZero (s.acct a)).toNat = s.bal a := by
  unfold balanceOrZero Ledger.bal Ledger.acctD
  cases s.acct a <;> rfl

theorem ownerOrZero_acct (s : Ledger) (a : Address) : ownerOrZero (s.acct a) = s.owner a := by
  unfold ownerOrZero Ledger.owner Ledger.acctD
  cases s.acct a <;> rfl

end Verif
