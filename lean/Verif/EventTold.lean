import Verif.EventFrames
/-
# The log tells what a call does
-/

namespace Verif
open L1 LM

theorem liftBind_ok {α β : Type} {m : L1 α} {f : α → LM β} {w w' : World} {b : β} {es : List Ev} :
    ((liftM m : LM α) >>= f) w = .ok (b, w', es) ↔ ∃ a w1, m w = .ok (a, w1) ∧ f a w1 = .ok (b, w', es) := by
  simp only [bindE_ok, liftE_ok]
  constructor
  · rintro ⟨a, w1, e1, e2, ⟨h1, rfl⟩, h2, rfl⟩; exact ⟨a, w1, h1, h2⟩
  · rintro ⟨a, w1, h1, h2⟩; exact ⟨a, w1, [], es, ⟨h1, rfl⟩, h2, rfl⟩

theorem emitBind_ok {β : Type} {e : Ev} {f : Unit → LM β} {w w' : World} {b : β} {es : List Ev} :
    (emit e >>= f) w = .ok (b, w', es) ↔ ∃ es', f () w = .ok (b, w', es') ∧ es = e :: es' := by
  simp only [bindE_ok, emit_ok]
  constructor
  · rintro ⟨_, w1, e1, e2, ⟨rfl, rfl⟩, h2, rfl⟩; exact ⟨e2, h2, rfl⟩
  · rintro ⟨e2, h1, rfl⟩; exact ⟨(), w, [e], e2, ⟨rfl, rfl⟩, h1, rfl⟩

theorem Seen.readAll_append (s : Seen) (a b : List Ev) : s.readAll (a ++ b) = (s.readAll a).readAll b :=
  List.foldl_append

theorem Seen.readAll_one (s : Seen) (e : Ev) : s.readAll [e] = s.read e := rfl

theorem Seen.readAll_cons (s : Seen) (e : Ev) (es : List Ev) : s.readAll (e :: es) = (s.read e).readAll es := rfl

theorem Seen.read_reverted (s : Seen) {id : U64} (v : TxVariant) (d : Bytes) (h : id ≠ BitVec.allOnes 64) :
    s.read (.transactionReverted id v d) = { s with
      finalized := id, queue := fun x => if x = id then { s.queue id with status := .reverted } else s.queue x } :=
  if_neg h

theorem Seen.fitsAll_append {s : Seen} {a b : List Ev} (h1 : s.fitsAll a) (h2 : (s.readAll a).fitsAll b) :
    s.fitsAll (a ++ b) := by
  induction a generalizing s with
  | nil => exact h2
  | cons e a ih => exact ⟨h1.1, ih h1.2 h2⟩

theorem Seen.fitsAll_one {s : Seen} {e : Ev} (h : s.fits e) : s.fitsAll [e] := ⟨h, trivial⟩

/-- The events of `m` fit the record before, and reading them turns it into the record after. -/
def Told {α : Type} (m : LM α) : Prop :=
  ∀ w a w' es, m w = .ok (a, w', es) → w.seen.fitsAll es ∧ w.seen.readAll es = w'.seen

namespace Told
variable {α β : Type}
theorem pure (a : α) : Told (pure a : LM α) := by
  intro w b w' es h
  obtain ⟨_, rfl, rfl⟩ := pureE_ok.mp h
  exact ⟨trivial, rfl⟩
theorem lift {m : L1 α} (h : Silent m) : Told (liftM m : LM α) := by
  intro w b w' es hm
  obtain ⟨hm', rfl⟩ := liftE_ok.mp hm
  exact ⟨trivial, (h _ _ _ hm').symm⟩
theorem bind {m : LM α} {f : α → LM β} (hm : Told m) (hf : ∀ a, Told (f a)) : Told (m >>= f) := by
  intro w b w' es h
  obtain ⟨a, w1, e1, e2, h1, h2, rfl⟩ := bindE_ok.mp h
  have a1 := hm _ _ _ _ h1
  have a2 := hf _ _ _ _ _ h2
  rw [← a1.2] at a2
  exact ⟨Seen.fitsAll_append a1.1 a2.1, by rw [Seen.readAll_append, a2.2]⟩
theorem ite {c : Prop} [Decidable c] {m n : LM α} (h1 : Told m) (h2 : Told n) : Told (if c then m else n) := by
  split <;> assumption
theorem drop {m : LM α} (hm : Told m) : Told (dropE m) := by
  intro w u w' es h
  obtain ⟨a, h⟩ := dropE_ok.mp h
  exact hm _ _ _ _ h
theorem emit {e : Ev} (h : ∀ s : Seen, s.fits e ∧ s.read e = s) : Told (emit e) := by
  intro w u w' es he
  obtain ⟨rfl, rfl⟩ := emit_ok.mp he
  exact ⟨Seen.fitsAll_one (h _).1, (h _).2⟩
end Told

/-- One decomposition step of `Told m`. -/
syntax "told_step" : tactic
macro_rules | `(tactic| told_step) => `(tactic| first
  | with_reducible apply Told.pure
  | with_reducible apply Told.bind
  | with_reducible apply Told.ite
  | with_reducible apply Told.drop
  | ((with_reducible apply Told.lift); q; done)
  | ((with_reducible apply Told.emit); exact fun _ => ⟨trivial, rfl⟩)
  | ((with_reducible apply Told.emit); exact fun _ => ⟨.inl rfl, rfl⟩)
  | with_reducible intro _)
/-- Decompose `Told m` along the program. -/
macro "told" : tactic => `(tactic| repeat' told_step)

theorem createTransactionE_told (v : TxVariant) (d : Bytes) : Told (createTransactionE v d) := by
  intro w a w' es h
  simp only [createTransactionE, liftBind_ok, emitBind_ok, pureE_ok] at h
  obtain ⟨id, w1, h1, _, ⟨_, rfl, rfl⟩, rfl⟩ := h
  obtain ⟨_, rfl, rfl⟩ := createTransaction_ok h1
  exact ⟨Seen.fitsAll_one rfl, rfl⟩
macro_rules | `(tactic| told_step) => `(tactic| with_reducible apply createTransactionE_told)

theorem vappDepositFromE_told (cfg : Cfg) (f : Address) (v : U256) : Told (vappDepositFromE cfg f v) := by
  intro w a w' es h
  simp only [vappDepositFromE, liftBind_ok, get_ok, require_ok] at h
  obtain ⟨_, _, ⟨rfl, rfl⟩, _, _, ⟨h1, rfl⟩, h⟩ := h
  obtain ⟨id, w1, e1, e2, h2, hr, rfl⟩ := bindE_ok.mp h
  obtain ⟨_, w2, h3, hr'⟩ := liftBind_ok.mp hr
  obtain ⟨_, hp, rfl⟩ := emitBind_ok.mp hr'
  obtain ⟨_, rfl, rfl⟩ := pureE_ok.mp hp
  have a1 := createTransactionE_told _ _ _ _ _ _ h2
  have a2 : w'.seen = w1.seen := proveTransferFrom_q _ _ _ _ _ _ _ h3
  refine ⟨Seen.fitsAll_append a1.1 (Seen.fitsAll_one ?_), by rw [Seen.readAll_append, a1.2, a2]; rfl⟩
  simp only [createTransactionE, liftBind_ok, emitBind_ok, pureE_ok] at h2
  obtain ⟨_, _, h4, _, ⟨_, rfl, rfl⟩, rfl⟩ := h2
  exact h1
macro_rules | `(tactic| told_step) => `(tactic| with_reducible apply vappDepositFromE_told)
theorem vappDepositE_told (cfg : Cfg) (c : Ctx) (v : U256) : Told (vappDepositE cfg c v) := by
  unfold vappDepositE; told
theorem vappPermitAndDepositE_told (cfg : Cfg) (s f : Address) (v : U256) : Told (vappPermitAndDepositE cfg s f v) := by
  unfold vappPermitAndDepositE; told
theorem vappCreateProverE_told (c : Ctx) (s p o : Address) (f : U256) : Told (vappCreateProverE c s p o f) := by
  unfold vappCreateProverE; told
theorem processWithdrawE_told (cfg : Cfg) (c : Ctx) (t : Address) (n : Nat) : Told (processWithdrawE cfg c t n) := by
  unfold processWithdrawE; told
macro_rules | `(tactic| told_step) => `(tactic| with_reducible apply processWithdrawE_told)

theorem sameData_of {v : TxVariant} {a b : Bytes} (h : SameAction v a b) : sameData v a b := by
  cases v <;> exact h

/-- The record with another latest block. -/
def Seen.withBlock (s : Seen) (b : U64) (r : U64 → B256) : Seen := { s with block := b, root := r }

theorem handleOnchainE_told (r : SolReceipt) (hr : r.onchainTxId ≠ BitVec.allOnes 64) : Told (handleOnchainE r) := by
  intro w a w' es h
  simp only [handleOnchainE, liftBind_ok, get_ok, inc64_ok, modVapp_ok, require_ok, requireFinal_ok] at h
  obtain ⟨_, _, ⟨rfl, rfl⟩, _, _, ⟨h1, rfl, rfl⟩, _, _, rfl, _, _, ⟨h2, rfl⟩, _, _, ⟨h3, rfl⟩, _, _, ⟨rfl, rfl⟩,
    _, _, ha, _, w2, rfl, hlast⟩ := h
  obtain ⟨a1, a2, rfl⟩ := assertEq_ok ha
  by_cases hs : r.status = .reverted
  · rw [if_pos hs] at hlast
    obtain ⟨rfl, rfl⟩ := emit_ok.mp hlast
    rw [← h2] at hr
    refine ⟨Seen.fitsAll_one (.inr ⟨rfl, a1, sameData_of a2⟩), ?_⟩
    rw [hs]
    rw [Seen.readAll_one, Seen.read_reverted _ _ _ hr]
    rfl
  · rw [if_neg hs] at hlast
    simp only [liftBind_ok, require_ok, emit_ok] at hlast
    obtain ⟨_, _, ⟨_, rfl⟩, rfl, rfl⟩ := hlast
    have hs2 : r.status = .completed := by
      obtain ⟨h4, h5⟩ := h3
      cases e : r.status <;> simp_all
    refine ⟨Seen.fitsAll_one ⟨rfl, a1, sameData_of a2⟩, ?_⟩
    rw [hs2]
    rfl

theorem handleOffchainE_told (cfg : Cfg) (c : Ctx) (r : SolReceipt) (hr : r.onchainTxId = BitVec.allOnes 64) :
    Told (handleOffchainE cfg c r) := by
  unfold handleOffchainE
  rw [hr]
  told

theorem handleReceiptsE_told (cfg : Cfg) (c : Ctx) (rs : List SolReceipt) : Told (handleReceiptsE cfg c rs) := by
  induction rs with
  | nil => exact Told.pure _
  | cons r rs ih =>
    unfold handleReceiptsE
    split
    · rename_i hr
      exact Told.bind (handleOnchainE_told r hr) fun _ => ih
    · rename_i hr
      exact Told.bind (handleOffchainE_told cfg c r (by simpa using hr)) fun _ => ih

/-! ### `step`: the block is stored before the receipts are handled and reported after them -/

/-- All events of `m` have property `P`. -/
def Only {α : Type} (P : Ev → Prop) (m : LM α) : Prop := ∀ w a w' es, m w = .ok (a, w', es) → ∀ e ∈ es, P e

namespace Only
variable {α β : Type} {P : Ev → Prop}
theorem pure (a : α) : Only P (pure a : LM α) := by
  intro w b w' es h
  obtain ⟨_, _, rfl⟩ := pureE_ok.mp h
  exact nofun
theorem lift (m : L1 α) : Only P (liftM m : LM α) := by
  intro w b w' es h
  obtain ⟨_, rfl⟩ := liftE_ok.mp h
  exact nofun
theorem bind {m : LM α} {f : α → LM β} (hm : Only P m) (hf : ∀ a, Only P (f a)) : Only P (m >>= f) := by
  intro w b w' es h
  obtain ⟨a, w1, e1, e2, h1, h2, rfl⟩ := bindE_ok.mp h
  intro e he
  rcases List.mem_append.mp he with he | he
  · exact hm _ _ _ _ h1 e he
  · exact hf _ _ _ _ _ h2 e he
theorem ite {c : Prop} [Decidable c] {m n : LM α} (h1 : Only P m) (h2 : Only P n) : Only P (if c then m else n) := by
  split <;> assumption
theorem drop {m : LM α} (hm : Only P m) : Only P (dropE m) := by
  intro w u w' es h
  obtain ⟨a, h⟩ := dropE_ok.mp h
  exact hm _ _ _ _ h
theorem emit {e : Ev} (h : P e) : Only P (emit e) := by
  intro w u w' es he
  obtain ⟨rfl, rfl⟩ := emit_ok.mp he
  intro x hx
  rw [List.mem_singleton.mp hx]; exact h
end Only

/-- One decomposition step of `Only P m`. -/
syntax "only_step" : tactic
macro_rules | `(tactic| only_step) => `(tactic| first
  | with_reducible assumption
  | with_reducible apply Only.pure
  | with_reducible apply Only.bind
  | with_reducible apply Only.ite
  | with_reducible apply Only.drop
  | with_reducible apply Only.lift
  | with_reducible apply Only.emit
  | with_reducible intro _)
/-- Decompose `Only P m` along the program. -/
macro "only" : tactic => `(tactic| repeat' only_step)

/-- The events of receipts. -/
def Ev.ofReceipt : Ev → Prop
  | .transactionCompleted _ _ _ | .transactionReverted _ _ _ | .withdraw _ _ => True
  | _ => False

theorem handleReceiptsE_only (cfg : Cfg) (c : Ctx) (rs : List SolReceipt) : Only Ev.ofReceipt (handleReceiptsE cfg c rs) := by
  induction rs with
  | nil => exact Only.pure _
  | cons r rs ih =>
    unfold handleReceiptsE handleOnchainE handleOffchainE processWithdrawE
    only <;> trivial

theorem Ev.ofReceipt.commutes {e : Ev} (he : e.ofReceipt) (s : Seen) (b : U64) (r : U64 → B256) :
    (s.withBlock b r).read e = (s.read e).withBlock b r := by
  cases e <;> first | rfl | exact he.elim | skip
  rename_i id v d
  by_cases h : id = BitVec.allOnes 64
  · subst h; rfl
  · rw [Seen.read_reverted _ _ _ h, Seen.read_reverted _ _ _ h]; rfl

theorem readAll_commutes {es : List Ev} (h : ∀ e ∈ es, e.ofReceipt) (s : Seen) (b : U64) (r : U64 → B256) :
    (s.withBlock b r).readAll es = (s.readAll es).withBlock b r := by
  induction es generalizing s with
  | nil => rfl
  | cons e es ih =>
    rw [Seen.readAll_cons, Seen.readAll_cons, (h e (by simp)).commutes, ih fun e he => h e (by simp [he])]

theorem readAll_root {es : List Ev} (h : ∀ e ∈ es, e.ofReceipt) (s : Seen) : (s.readAll es).root = s.root := by
  have := congrArg Seen.root (readAll_commutes h s s.block s.root)
  exact this

theorem fitsAll_commutes {es : List Ev} (h : ∀ e ∈ es, e.ofReceipt) {s : Seen} {b : U64} {r : U64 → B256}
    (hf : (s.withBlock b r).fitsAll es) : s.fitsAll es := by
  induction es generalizing s with
  | nil => trivial
  | cons e es ih =>
    have he : e.ofReceipt := h e (by simp)
    obtain ⟨h1, h2⟩ := hf
    rw [he.commutes] at h2
    refine ⟨?_, ih (fun e he => h e (by simp [he])) h2⟩
    cases e <;> first | exact h1 | exact he.elim

theorem readAll_block {es : List Ev} (h : ∀ e ∈ es, e.ofReceipt) (s : Seen) : (s.readAll es).block = s.block := by
  have := congrArg Seen.block (readAll_commutes h s s.block s.root)
  exact this

theorem vappStepE_told (cfg : Cfg) (c : Ctx) (pv pr : Bytes) : Told (vappStepE cfg c pv pr) := by
  intro w a w' es h
  simp only [vappStepE, liftBind_ok, get_ok, require_ok, whenNotPaused_ok, liftO_ok, inc64_ok, modVapp_ok] at h
  obtain ⟨_, _, ⟨rfl, rfl⟩, _, _, ⟨h1, rfl⟩, _, _, ⟨h2, rfl⟩, _, _, ⟨rfl, rfl⟩, _, _, ⟨h3, rfl⟩, v, _, ⟨h4, rfl⟩,
    _, _, ⟨h5, rfl⟩, _, _, ⟨h6, rfl⟩, _, _, ⟨h7, rfl⟩, _, _, ⟨h8, rfl⟩, _, _, ⟨h9, rfl⟩, _, w1, ⟨h10, rfl, rfl⟩,
    _, _, rfl, h⟩ := h
  obtain ⟨_, w2, e1, e2, h11, h12, rfl⟩ := bindE_ok.mp h
  obtain ⟨_, h13, rfl⟩ := emitBind_ok.mp h12
  obtain ⟨_, rfl, rfl⟩ := pureE_ok.mp h13
  have hr := handleReceiptsE_only _ _ _ _ _ _ _ h11
  have ht := handleReceiptsE_told _ _ _ _ _ _ _ h11
  have hs : (World.seen { w1 with vapp := { w1.vapp with
        blockNumber := w1.vapp.blockNumber + 1
        roots := upd w1.vapp.roots (w1.vapp.blockNumber + 1) v.newRoot
        timestamps := upd w1.vapp.timestamps (w1.vapp.blockNumber + 1) v.timestamp } }) =
      w1.seen.withBlock (w1.vapp.blockNumber + 1) (upd w1.vapp.roots (w1.vapp.blockNumber + 1) v.newRoot) := rfl
  rw [hs, readAll_commutes hr] at ht
  have hroot := readAll_root hr w1.seen
  have hblock := readAll_block hr w1.seen
  refine ⟨Seen.fitsAll_append (fitsAll_commutes hr ht.1) (Seen.fitsAll_one ⟨?_, ?_, h5⟩), ?_⟩
  · rw [hblock]; rfl
  · rw [hblock, hroot]; exact h6.symm
  rw [Seen.readAll_append, ← ht.2, Seen.readAll_one]
  generalize w1.seen.readAll e1 = s at hroot ⊢
  show ({ s with block := _, root := _ } : Seen) = { s with block := _, root := _ }
  rw [hroot]
  rfl

theorem vappForkE_told (c : Ctx) (k r : B256) : Told (vappForkE c k r) := by
  intro w a w' es h
  simp only [vappForkE, liftBind_ok, emitBind_ok, get_ok, require_ok, vappOnlyOwner_ok, inc64_ok, modVapp_ok, pureE_ok] at h
  obtain ⟨_, _, ⟨h1, rfl⟩, _, _, ⟨h2, rfl⟩, _, _, ⟨rfl, rfl⟩, _, _, ⟨h3, rfl, rfl⟩, _, _, rfl, _, ⟨_, ⟨_, rfl, rfl⟩, rfl⟩, rfl⟩ := h
  exact ⟨⟨⟨rfl, rfl, h2.1⟩, ⟨rfl, rfl, h2.2⟩, trivial⟩, rfl⟩

theorem vappUpdateAuctioneerE_told (c : Ctx) (a : Address) : Told (vappUpdateAuctioneerE c a) := by
  intro w u w' es h
  simp only [vappUpdateAuctioneerE, liftBind_ok, emitBind_ok, get_ok, vappOnlyOwner_ok, modVapp_ok, liftE_ok] at h
  obtain ⟨_, _, ⟨h1, rfl⟩, _, _, ⟨rfl, rfl⟩, _, ⟨rfl, rfl⟩, rfl⟩ := h
  exact ⟨Seen.fitsAll_one rfl, rfl⟩
theorem vappUpdateStakingE_told (c : Ctx) (a : Address) : Told (vappUpdateStakingE c a) := by
  intro w u w' es h
  simp only [vappUpdateStakingE, liftBind_ok, emitBind_ok, get_ok, vappOnlyOwner_ok, modVapp_ok, liftE_ok] at h
  obtain ⟨_, _, ⟨h1, rfl⟩, _, _, ⟨rfl, rfl⟩, _, ⟨rfl, rfl⟩, rfl⟩ := h
  exact ⟨Seen.fitsAll_one rfl, rfl⟩
theorem vappUpdateVerifierE_told (c : Ctx) (a : Address) : Told (vappUpdateVerifierE c a) := by
  intro w u w' es h
  simp only [vappUpdateVerifierE, liftBind_ok, emitBind_ok, get_ok, vappOnlyOwner_ok, modVapp_ok, liftE_ok] at h
  obtain ⟨_, _, ⟨h1, rfl⟩, _, _, ⟨rfl, rfl⟩, _, ⟨rfl, rfl⟩, rfl⟩ := h
  exact ⟨Seen.fitsAll_one rfl, rfl⟩
theorem vappUpdateMinDepositE_told (c : Ctx) (v : Nat) : Told (vappUpdateMinDepositE c v) := by
  intro w u w' es h
  simp only [vappUpdateMinDepositE, liftBind_ok, emitBind_ok, get_ok, vappOnlyOwner_ok, modVapp_ok, liftE_ok] at h
  obtain ⟨_, _, ⟨h1, rfl⟩, _, _, ⟨rfl, rfl⟩, _, ⟨rfl, rfl⟩, rfl⟩ := h
  exact ⟨Seen.fitsAll_one rfl, rfl⟩
theorem vappPauseE_told (c : Ctx) : Told (vappPauseE c) := by
  intro w u w' es h
  simp only [vappPauseE, vappPause, liftBind_ok, bind_ok, emit_ok, vappOnlyOwner_ok, whenNotPaused_ok, modVapp_ok] at h
  obtain ⟨_, _, ⟨_, _, ⟨_, rfl⟩, _, _, ⟨h2, rfl⟩, rfl⟩, rfl, rfl⟩ := h
  exact ⟨Seen.fitsAll_one h2, rfl⟩
theorem vappUnpauseE_told (c : Ctx) : Told (vappUnpauseE c) := by
  intro w u w' es h
  simp only [vappUnpauseE, vappUnpause, liftBind_ok, bind_ok, emit_ok, vappOnlyOwner_ok, get_ok, require_ok, modVapp_ok] at h
  obtain ⟨_, _, ⟨_, _, ⟨_, rfl⟩, _, _, ⟨rfl, rfl⟩, _, _, ⟨h2, rfl⟩, rfl⟩, rfl, rfl⟩ := h
  exact ⟨Seen.fitsAll_one h2, rfl⟩
theorem vappSetOwnerE_told (c : Ctx) (a : Address) : Told (vappSetOwnerE c a) := by
  intro w u w' es h
  simp only [vappSetOwnerE, vappSetOwner, liftBind_ok, bind_ok, emit_ok, get_ok, vappOnlyOwner_ok, modVapp_ok] at h
  obtain ⟨_, _, ⟨rfl, rfl⟩, _, _, ⟨_, _, ⟨_, rfl⟩, rfl⟩, rfl, rfl⟩ := h
  exact ⟨Seen.fitsAll_one rfl, rfl⟩

end Verif
