import Verif.L1Calls
/-
# Inversion and frame lemmas for the L1 model
-/

namespace Verif
open L1

/-! ## Inversion -/

theorem bind_ok {α β : Type} {m : L1 α} {f : α → L1 β} {w : World} {r : β × World} :
    (m >>= f) w = .ok r ↔ ∃ a w1, m w = .ok (a, w1) ∧ f a w1 = .ok r := by
  show L1.bind m f w = .ok r ↔ _
  unfold L1.bind
  cases h : m w with
  | error e => simp
  | ok p =>
    rcases p with ⟨a, w1⟩
    constructor
    · intro h; exact ⟨a, w1, rfl, h⟩
    · rintro ⟨a', w2, he, h⟩; cases he; exact h

theorem pure_ok {α : Type} {a b : α} {w w' : World} :
    (pure a : L1 α) w = .ok (b, w') ↔ b = a ∧ w' = w := by
  show Except.ok (a, w) = .ok (b, w') ↔ _
  simp [eq_comm]

theorem get_ok {a w w' : World} : L1.get w = .ok (a, w') ↔ a = w ∧ w' = w := by
  simp [L1.get, eq_comm]

theorem modify_ok {f : World → World} {u : Unit} {w w' : World} :
    L1.modify f w = .ok (u, w') ↔ w' = f w := by
  simp [L1.modify, eq_comm]

theorem throw_ok {α : Type} {e : L1Err} {w : World} {r : α × World} : L1.throw e w = .ok r ↔ False := by
  simp [L1.throw]

theorem require_ok {c : Prop} [Decidable c] {e : L1Err} {u : Unit} {w w' : World} :
    L1.require c e w = .ok (u, w') ↔ c ∧ w' = w := by
  unfold L1.require
  by_cases h : c <;> simp [h, eq_comm]

theorem lift_ok {α : Type} {x : Except L1Err α} {a : α} {w w' : World} :
    L1.lift x w = .ok (a, w') ↔ x = .ok a ∧ w' = w := by
  unfold L1.lift
  cases x <;> simp [eq_comm]

theorem liftO_ok {α : Type} {x : Option α} {e : L1Err} {a : α} {w w' : World} :
    L1.liftO x e w = .ok (a, w') ↔ x = some a ∧ w' = w := by
  unfold L1.liftO
  cases x <;> simp [eq_comm]

theorem ite_run {α : Type} {c : Prop} [Decidable c] {m n : L1 α} {w : World} :
    (if c then m else n) w = if c then m w else n w := by split <;> rfl

theorem add256_ok {x y a : Nat} {w w' : World} :
    add256 x y w = .ok (a, w') ↔ x + y ≤ max256 ∧ a = x + y ∧ w' = w := by
  simp only [add256, bind_ok, require_ok, pure_ok]
  constructor
  · rintro ⟨_, _, ⟨h, rfl⟩, rfl, rfl⟩; exact ⟨h, rfl, rfl⟩
  · rintro ⟨h, rfl, rfl⟩; exact ⟨(), w', ⟨h, rfl⟩, rfl, rfl⟩

theorem sub256_ok {x y a : Nat} {w w' : World} :
    sub256 x y w = .ok (a, w') ↔ y ≤ x ∧ a = x - y ∧ w' = w := by
  simp only [sub256, bind_ok, require_ok, pure_ok]
  constructor
  · rintro ⟨_, _, ⟨h, rfl⟩, rfl, rfl⟩; exact ⟨h, rfl, rfl⟩
  · rintro ⟨h, rfl, rfl⟩; exact ⟨(), w', ⟨h, rfl⟩, rfl, rfl⟩

theorem mul256_ok {x y a : Nat} {w w' : World} :
    mul256 x y w = .ok (a, w') ↔ x * y ≤ max256 ∧ a = x * y ∧ w' = w := by
  simp only [mul256, bind_ok, require_ok, pure_ok]
  constructor
  · rintro ⟨_, _, ⟨h, rfl⟩, rfl, rfl⟩; exact ⟨h, rfl, rfl⟩
  · rintro ⟨h, rfl, rfl⟩; exact ⟨(), w', ⟨h, rfl⟩, rfl, rfl⟩

theorem mulDiv_ok {x y d a : Nat} {w w' : World} :
    mulDiv x y d w = .ok (a, w') ↔ d ≠ 0 ∧ x * y / d ≤ max256 ∧ a = x * y / d ∧ w' = w := by
  simp only [mulDiv, bind_ok, require_ok, pure_ok]
  constructor
  · rintro ⟨_, _, ⟨h, rfl⟩, rfl, rfl⟩; exact ⟨h.1, h.2, rfl, rfl⟩
  · rintro ⟨h, h2, rfl, rfl⟩; exact ⟨(), w', ⟨⟨h, h2⟩, rfl⟩, rfl, rfl⟩

theorem mulDivUp_ok {x y d a : Nat} {w w' : World} :
    mulDivUp x y d w = .ok (a, w') ↔
      d ≠ 0 ∧ (x * y + d - 1) / d ≤ max256 ∧ a = (x * y + d - 1) / d ∧ w' = w := by
  simp only [mulDivUp, bind_ok, require_ok, pure_ok]
  constructor
  · rintro ⟨_, _, ⟨h, rfl⟩, rfl, rfl⟩; exact ⟨h.1, h.2, rfl, rfl⟩
  · rintro ⟨h, h2, rfl, rfl⟩; exact ⟨(), w', ⟨⟨h, h2⟩, rfl⟩, rfl, rfl⟩

theorem inc64_ok {x a : U64} {w w' : World} :
    inc64 x w = .ok (a, w') ↔ x.toNat + 1 < 2 ^ 64 ∧ a = x + 1 ∧ w' = w := by
  simp only [inc64, bind_ok, require_ok, pure_ok]
  constructor
  · rintro ⟨_, _, ⟨h, rfl⟩, rfl, rfl⟩; exact ⟨h, rfl, rfl⟩
  · rintro ⟨h, rfl, rfl⟩; exact ⟨(), w', ⟨h, rfl⟩, rfl, rfl⟩

theorem onProve_ok {f : Erc20 → Except L1Err Erc20} {u : Unit} {w w' : World} :
    onProve f w = .ok (u, w') ↔ ∃ t, f w.prove = .ok t ∧ w' = { w with prove := t } := by
  simp only [onProve, bind_ok, get_ok, lift_ok, modify_ok]
  constructor
  · rintro ⟨_, _, ⟨rfl, rfl⟩, t, _, ⟨h, rfl⟩, rfl⟩; exact ⟨t, h, rfl⟩
  · rintro ⟨t, h, rfl⟩; exact ⟨w, w, ⟨rfl, rfl⟩, t, w, ⟨h, rfl⟩, rfl⟩

theorem onIprove_ok {f : Erc20 → Except L1Err Erc20} {u : Unit} {w w' : World} :
    onIprove f w = .ok (u, w') ↔ ∃ t, f w.iprove = .ok t ∧ w' = { w with iprove := t } := by
  simp only [onIprove, bind_ok, get_ok, lift_ok, modify_ok]
  constructor
  · rintro ⟨_, _, ⟨rfl, rfl⟩, t, _, ⟨h, rfl⟩, rfl⟩; exact ⟨t, h, rfl⟩
  · rintro ⟨t, h, rfl⟩; exact ⟨w, w, ⟨rfl, rfl⟩, t, w, ⟨h, rfl⟩, rfl⟩

theorem onVault_ok {p : Address} {f : Erc20 → Except L1Err Erc20} {u : Unit} {w w' : World} :
    onVault p f w = .ok (u, w') ↔
      ∃ t, f (w.vault p) = .ok t ∧ w' = { w with vault := upd w.vault p t } := by
  simp only [onVault, bind_ok, get_ok, lift_ok, modify_ok]
  constructor
  · rintro ⟨_, _, ⟨rfl, rfl⟩, t, _, ⟨h, rfl⟩, rfl⟩; exact ⟨t, h, rfl⟩
  · rintro ⟨t, h, rfl⟩; exact ⟨w, w, ⟨rfl, rfl⟩, t, w, ⟨h, rfl⟩, rfl⟩

theorem onSt_ok {b : Bool} {f : Erc20 → Except L1Err Erc20} {u : Unit} {w w' : World} :
    onSt b f w = .ok (u, w') ↔ b = true ∧ ∃ t, f w.st = .ok t ∧ w' = { w with st := t } := by
  simp only [onSt, bind_ok, get_ok, lift_ok, modify_ok, require_ok]
  constructor
  · rintro ⟨_, _, ⟨hb, rfl⟩, _, _, ⟨rfl, rfl⟩, t, _, ⟨h, rfl⟩, rfl⟩; exact ⟨hb, t, h, rfl⟩
  · rintro ⟨hb, t, h, rfl⟩; exact ⟨(), w, ⟨hb, rfl⟩, w, w, ⟨rfl, rfl⟩, t, w, ⟨h, rfl⟩, rfl⟩

theorem modStaking_ok {f : Staking → Staking} {u : Unit} {w w' : World} :
    modStaking f w = .ok (u, w') ↔ w' = { w with staking := f w.staking } := modify_ok

theorem modVapp_ok {f : VApp → VApp} {u : Unit} {w w' : World} :
    modVapp f w = .ok (u, w') ↔ w' = { w with vapp := f w.vapp } := modify_ok

theorem drop_ok {α : Type} {m : L1 α} {u : Unit} {w w' : World} :
    drop_ m w = .ok (u, w') ↔ ∃ a, m w = .ok (a, w') := by
  simp only [drop_, bind_ok, pure_ok]
  constructor
  · rintro ⟨a, _, h, _, rfl⟩; exact ⟨a, h⟩
  · rintro ⟨a, h⟩; exact ⟨a, w', h, trivial, rfl⟩

/-! ## Frames: relations that hold across every piece of code -/

/-- Every successful run of `m` relates the states before and after by `R`. -/
def Within {α : Type} (R : World → World → Prop) (m : L1 α) : Prop :=
  ∀ w a w', m w = .ok (a, w') → R w w'

/-- A preorder on states. -/
structure Pre (R : World → World → Prop) : Prop where
  refl : ∀ w, R w w
  trans : ∀ a b c, R a b → R b c → R a c

namespace Within
variable {R : World → World → Prop} {α β : Type}

theorem bind (hR : Pre R) {m : L1 α} {f : α → L1 β} (hm : Within R m) (hf : ∀ a, Within R (f a)) :
    Within R (m >>= f) := by
  intro w b w' h
  obtain ⟨a, w1, h1, h2⟩ := bind_ok.mp h
  exact hR.trans _ _ _ (hm _ _ _ h1) (hf a _ _ _ h2)

theorem pure (hR : Pre R) (a : α) : Within R (Pure.pure a : L1 α) := by
  intro w b w' h
  rw [(pure_ok.mp h).2]; exact hR.refl w

theorem get (hR : Pre R) : Within R L1.get := by
  intro w b w' h
  rw [(get_ok.mp h).2]; exact hR.refl w

theorem require (hR : Pre R) (c : Prop) [Decidable c] (e : L1Err) : Within R (L1.require c e) := by
  intro w b w' h
  rw [(require_ok.mp h).2]; exact hR.refl w

theorem lift (hR : Pre R) (x : Except L1Err α) : Within R (L1.lift x) := by
  intro w b w' h
  rw [(lift_ok.mp h).2]; exact hR.refl w

theorem liftO (hR : Pre R) (x : Option α) (e : L1Err) : Within R (L1.liftO x e) := by
  intro w b w' h
  rw [(liftO_ok.mp h).2]; exact hR.refl w

theorem throw (e : L1Err) : Within R (L1.throw e : L1 α) := by
  intro w b w' h
  exact (throw_ok.mp h).elim

theorem ite {c : Prop} [Decidable c] {m n : L1 α} (hm : Within R m) (hn : Within R n) :
    Within R (if c then m else n) := by
  split <;> assumption

theorem modify {f : World → World} (h : ∀ w, R w (f w)) : Within R (L1.modify f) := by
  intro w b w' hw
  rw [modify_ok.mp hw]; exact h w

theorem modStaking {f : Staking → Staking} (h : ∀ w, R w { w with staking := f w.staking }) :
    Within R (Verif.modStaking f) := modify h
theorem modVapp {f : VApp → VApp} (h : ∀ w, R w { w with vapp := f w.vapp }) :
    Within R (Verif.modVapp f) := modify h

end Within

/-- One decomposition step of `Within R m`; extended as lemmas become available. -/
syntax "within_step" : tactic
macro_rules | `(tactic| within_step) => `(tactic| first
  | with_reducible assumption
  | with_reducible apply Within.pure
  | with_reducible apply Within.get
  | with_reducible apply Within.require
  | with_reducible apply Within.lift
  | with_reducible apply Within.liftO
  | with_reducible apply Within.throw
  | with_reducible apply Within.bind
  | with_reducible apply Within.ite
  | with_reducible intro _)
/-- Decompose `Within R m` along the program. -/
macro "within" : tactic => `(tactic| repeat' within_step)

theorem upd_same {κ α : Type} [DecidableEq κ] (f : κ → α) (k : κ) (v : α) : upd f k v k = v := by
  simp [upd]
theorem upd_ne {κ α : Type} [DecidableEq κ] (f : κ → α) {k x : κ} (v : α) (h : x ≠ k) :
    upd f k v x = f x := by simp [upd, h]

/-! ### Frames of the building blocks -/

/-- A change of a token that gives no allowance. -/
inductive Erc20.Step (t t' : Erc20) : Prop where
  | transfer (f to : Address) (v : Nat) (h : t.transfer f to v = .ok t')
  | mint (to : Address) (v : Nat) (h : t.mint to v = .ok t')
  | burn (f : Address) (v : Nat) (h : t.burn f v = .ok t')
  | spend (o s : Address) (v : Nat) (h : t.spend o s v = .ok t')

/-- A preorder that allows changes of token balances. -/
structure Tok (R : World → World → Prop) : Prop extends Pre R where
  prove : ∀ w t, w.prove.Step t → R w { w with prove := t }
  iprove : ∀ w t, R w { w with iprove := t }
  vault : ∀ w t, R w { w with vault := t }
  st : ∀ w t, R w { w with st := t }

/-- `R` allows new allowances for $PROVE. -/
def AllowApprove (R : World → World → Prop) : Prop :=
  ∀ w o s v t, w.prove.approve o s v = .ok t → R w { w with prove := t }
/-- `R` allows any change of the vApp contract's storage. -/
def AllowVapp (R : World → World → Prop) : Prop := ∀ w s, R w { w with vapp := s }
/-- `R` allows any change of the staking contract's storage. -/
def AllowStaking (R : World → World → Prop) : Prop := ∀ w s, R w { w with staking := s }
/-- `R` allows new prover contracts. -/
def AllowInfo (R : World → World → Prop) : Prop := ∀ w s, R w { w with info := s }

theorem add256_within {R} (hR : Pre R) (x y : Nat) : Within R (add256 x y) := by unfold add256; within
theorem sub256_within {R} (hR : Pre R) (x y : Nat) : Within R (sub256 x y) := by unfold sub256; within
theorem mul256_within {R} (hR : Pre R) (x y : Nat) : Within R (mul256 x y) := by unfold mul256; within
theorem mulDiv_within {R} (hR : Pre R) (x y d : Nat) : Within R (mulDiv x y d) := by unfold mulDiv; within
theorem mulDivUp_within {R} (hR : Pre R) (x y d : Nat) : Within R (mulDivUp x y d) := by unfold mulDivUp; within
theorem inc64_within {R} (hR : Pre R) (x : U64) : Within R (inc64 x) := by unfold inc64; within
theorem drop_within {R} (hR : Pre R) {α : Type} {m : L1 α} (h : Within R m) : Within R (drop_ m) := by
  unfold drop_; within
theorem onProve_within {R} (hR : Tok R) (f) (hf : ∀ t t' : Erc20, f t = .ok t' → t.Step t') : Within R (onProve f) := by
  intro w a w' h
  obtain ⟨t, h1, rfl⟩ := onProve_ok.mp h
  exact hR.prove w t (hf _ _ h1)
theorem proveApprove_within {R} (hR : AllowApprove R) (o s v) : Within R (onProve (·.approve o s v)) := by
  intro w a w' h
  obtain ⟨t, h1, rfl⟩ := onProve_ok.mp h
  exact hR w o s v t h1
theorem onIprove_within {R} (hR : Tok R) (f) : Within R (onIprove f) := by
  intro w a w' h
  obtain ⟨t, _, rfl⟩ := onIprove_ok.mp h
  exact hR.iprove w t
theorem onVault_within {R} (hR : Tok R) (p f) : Within R (onVault p f) := by
  intro w a w' h
  obtain ⟨t, _, rfl⟩ := onVault_ok.mp h
  exact hR.vault w _
theorem onSt_within {R} (hR : Tok R) (b f) : Within R (onSt b f) := by
  intro w a w' h
  obtain ⟨_, t, _, rfl⟩ := onSt_ok.mp h
  exact hR.st w t

macro_rules | `(tactic| within_step) => `(tactic| first
  | with_reducible exact Tok.toPre ‹_›
  | with_reducible apply add256_within | with_reducible apply sub256_within | with_reducible apply mul256_within | with_reducible apply mulDiv_within
  | with_reducible apply mulDivUp_within | with_reducible apply inc64_within | with_reducible apply drop_within
  | with_reducible exact fun _ _ h => Erc20.Step.transfer _ _ _ h | with_reducible exact fun _ _ h => Erc20.Step.mint _ _ h
  | with_reducible exact fun _ _ h => Erc20.Step.burn _ _ h | with_reducible exact fun _ _ h => Erc20.Step.spend _ _ _ h
  | with_reducible apply proveApprove_within
  | with_reducible apply onProve_within | with_reducible apply onIprove_within | with_reducible apply onVault_within | with_reducible apply onSt_within)

theorem proveTransfer_within {R} (hR : Tok R) (f t v) : Within R (proveTransfer f t v) := by
  unfold proveTransfer; within
macro_rules | `(tactic| within_step) => `(tactic| with_reducible apply proveTransfer_within)
theorem proveTransferFrom_within {R} (hR : Tok R) (s f t v) : Within R (proveTransferFrom s f t v) := by
  unfold proveTransferFrom; within
macro_rules | `(tactic| within_step) => `(tactic| with_reducible apply proveTransferFrom_within)
theorem iproveCheck_within {R} (hR : Tok R) (cfg s f t) : Within R (iproveCheck cfg s f t) := by
  unfold iproveCheck; within
macro_rules | `(tactic| within_step) => `(tactic| with_reducible apply iproveCheck_within)
theorem iproveMint_within {R} (hR : Tok R) (cfg s t v) : Within R (iproveMint cfg s t v) := by
  unfold iproveMint; within
macro_rules | `(tactic| within_step) => `(tactic| with_reducible apply iproveMint_within)
theorem iproveBurnShares_within {R} (hR : Tok R) (cfg s f v) : Within R (iproveBurnShares cfg s f v) := by
  unfold iproveBurnShares; within
macro_rules | `(tactic| within_step) => `(tactic| with_reducible apply iproveBurnShares_within)
theorem iproveMove_within {R} (hR : Tok R) (cfg s f t v) : Within R (iproveMove cfg s f t v) := by
  unfold iproveMove; within
macro_rules | `(tactic| within_step) => `(tactic| with_reducible apply iproveMove_within)
theorem iproveSpend_within {R} (hR : Tok R) (cfg o s v) : Within R (iproveSpend cfg o s v) := by
  unfold iproveSpend; within
macro_rules | `(tactic| within_step) => `(tactic| with_reducible apply iproveSpend_within)
theorem iprovePreviewRedeem_within {R} (hR : Tok R) (cfg s) : Within R (iprovePreviewRedeem cfg s) := by
  unfold iprovePreviewRedeem; within
macro_rules | `(tactic| within_step) => `(tactic| with_reducible apply iprovePreviewRedeem_within)
theorem iprovePreviewDeposit_within {R} (hR : Tok R) (cfg s) : Within R (iprovePreviewDeposit cfg s) := by
  unfold iprovePreviewDeposit; within
macro_rules | `(tactic| within_step) => `(tactic| with_reducible apply iprovePreviewDeposit_within)
theorem iproveDeposit_within {R} (hR : Tok R) (cfg s a r) : Within R (iproveDeposit cfg s a r) := by
  unfold iproveDeposit; within
macro_rules | `(tactic| within_step) => `(tactic| with_reducible apply iproveDeposit_within)
theorem iproveMintExact_within {R} (hR : Tok R) (cfg s a r) : Within R (iproveMintExact cfg s a r) := by
  unfold iproveMintExact; within
macro_rules | `(tactic| within_step) => `(tactic| with_reducible apply iproveMintExact_within)
theorem iproveRedeem_within {R} (hR : Tok R) (cfg s a r o) : Within R (iproveRedeem cfg s a r o) := by
  unfold iproveRedeem; within
macro_rules | `(tactic| within_step) => `(tactic| with_reducible apply iproveRedeem_within)
theorem iproveBurn_within {R} (hR : Tok R) (cfg s f v) : Within R (iproveBurn cfg s f v) := by
  unfold iproveBurn; within
macro_rules | `(tactic| within_step) => `(tactic| with_reducible apply iproveBurn_within)
theorem vaultCheck_within {R} (hR : Tok R) (cfg s) : Within R (vaultCheck cfg s) := by
  unfold vaultCheck; within
macro_rules | `(tactic| within_step) => `(tactic| with_reducible apply vaultCheck_within)
theorem vaultSpend_within {R} (hR : Tok R) (cfg p o s v) : Within R (vaultSpend cfg p o s v) := by
  unfold vaultSpend; within
macro_rules | `(tactic| within_step) => `(tactic| with_reducible apply vaultSpend_within)
theorem vaultDeposit_within {R} (hR : Tok R) (cfg s p a r) : Within R (vaultDeposit cfg s p a r) := by
  unfold vaultDeposit; within
macro_rules | `(tactic| within_step) => `(tactic| with_reducible apply vaultDeposit_within)
theorem vaultRedeem_within {R} (hR : Tok R) (cfg s p a r o) : Within R (vaultRedeem cfg s p a r o) := by
  unfold vaultRedeem; within
macro_rules | `(tactic| within_step) => `(tactic| with_reducible apply vaultRedeem_within)
theorem transferProveToStaking_within {R} (hR : Tok R) (cfg s p f v) : Within R (transferProveToStaking cfg s p f v) := by
  unfold transferProveToStaking; within
macro_rules | `(tactic| within_step) => `(tactic| with_reducible apply transferProveToStaking_within)
theorem iproveWithdraw_within {R} (hR : Tok R) (cfg s a r o) : Within R (iproveWithdraw cfg s a r o) := by
  unfold iproveWithdraw; within
macro_rules | `(tactic| within_step) => `(tactic| with_reducible apply iproveWithdraw_within)
theorem vaultMintExact_within {R} (hR : Tok R) (cfg s p a r) : Within R (vaultMintExact cfg s p a r) := by
  unfold vaultMintExact; within
macro_rules | `(tactic| within_step) => `(tactic| with_reducible apply vaultMintExact_within)
theorem vaultWithdraw_within {R} (hR : Tok R) (cfg s p a r o) : Within R (vaultWithdraw cfg s p a r o) := by
  unfold vaultWithdraw; within
macro_rules | `(tactic| within_step) => `(tactic| with_reducible apply vaultWithdraw_within)
theorem isVault_within {R} (hR : Tok R) (p) : Within R (isVault p) := by
  unfold isVault; within
macro_rules | `(tactic| within_step) => `(tactic| with_reducible apply isVault_within)
theorem provePermit_within {R} (hR : Tok R) (ha : AllowApprove R) (s o p v) : Within R (provePermit s o p v) := by
  unfold provePermit; within
macro_rules | `(tactic| within_step) => `(tactic| with_reducible apply provePermit_within)
theorem whenNotPaused_within {R} (hR : Tok R) : Within R (whenNotPaused ) := by
  unfold whenNotPaused; within
macro_rules | `(tactic| within_step) => `(tactic| with_reducible apply whenNotPaused_within)
theorem onlyForProver_within {R} (hR : Tok R) (p) : Within R (onlyForProver p) := by
  unfold onlyForProver; within
macro_rules | `(tactic| within_step) => `(tactic| with_reducible apply onlyForProver_within)
theorem requireNoSlash_within {R} (hR : Tok R) (p) : Within R (requireNoSlash p) := by
  unfold requireNoSlash; within
macro_rules | `(tactic| within_step) => `(tactic| with_reducible apply requireNoSlash_within)
theorem maxDispense_within {R} (hR : Tok R) (c) : Within R (maxDispense c) := by
  unfold maxDispense; within
macro_rules | `(tactic| within_step) => `(tactic| with_reducible apply maxDispense_within)
theorem stakingOnlyOwner_within {R} (hR : Tok R) (c) : Within R (stakingOnlyOwner c) := by
  unfold stakingOnlyOwner; within
macro_rules | `(tactic| within_step) => `(tactic| with_reducible apply stakingOnlyOwner_within)
theorem vappOnlyOwner_within {R} (hR : Tok R) (c) : Within R (vappOnlyOwner c) := by
  unfold vappOnlyOwner; within
macro_rules | `(tactic| within_step) => `(tactic| with_reducible apply vappOnlyOwner_within)
theorem escrowUnstakeRequest_within {R} (hR : Tok R) (cfg s p v) : Within R (escrowUnstakeRequest cfg s p v) := by
  unfold escrowUnstakeRequest; within
macro_rules | `(tactic| within_step) => `(tactic| with_reducible apply escrowUnstakeRequest_within)
theorem requireFinal_within {R} (hR : Tok R) (r) : Within R (requireFinal r) := by
  unfold requireFinal; within
macro_rules | `(tactic| within_step) => `(tactic| with_reducible apply requireFinal_within)

theorem modVapp_within {R} (hv : AllowVapp R) (f) : Within R (modVapp f) := Within.modify fun w => hv w _
theorem modStaking_within {R} (hs : AllowStaking R) (f) : Within R (modStaking f) := Within.modify fun w => hs w _
macro_rules | `(tactic| within_step) => `(tactic| first | with_reducible apply modVapp_within | with_reducible apply modStaking_within)

theorem assertEq_within {R} (hR : Tok R) (t r) : Within R (assertEq t r) := by
  unfold assertEq; split <;> within
macro_rules | `(tactic| within_step) => `(tactic| with_reducible apply assertEq_within)
theorem createTransaction_within {R} (hR : Tok R) (hv : AllowVapp R) (v d) : Within R (createTransaction v d) := by
  unfold createTransaction; within
macro_rules | `(tactic| within_step) => `(tactic| with_reducible apply createTransaction_within)
theorem vappDepositFrom_within {R} (hR : Tok R) (hv : AllowVapp R) (cfg f v) : Within R (vappDepositFrom cfg f v) := by
  unfold vappDepositFrom; within
macro_rules | `(tactic| within_step) => `(tactic| with_reducible apply vappDepositFrom_within)
theorem vappDeposit_within {R} (hR : Tok R) (hv : AllowVapp R) (cfg c v) : Within R (vappDeposit cfg c v) := by
  unfold vappDeposit; within
macro_rules | `(tactic| within_step) => `(tactic| with_reducible apply vappDeposit_within)
theorem vappPermitAndDeposit_within {R} (hR : Tok R) (ha : AllowApprove R) (hv : AllowVapp R) (cfg s f v) : Within R (vappPermitAndDeposit cfg s f v) := by
  unfold vappPermitAndDeposit; within
macro_rules | `(tactic| within_step) => `(tactic| with_reducible apply vappPermitAndDeposit_within)
theorem vappCreateProver_within {R} (hR : Tok R) (hv : AllowVapp R) (c s p o f) : Within R (vappCreateProver c s p o f) := by
  unfold vappCreateProver; within
macro_rules | `(tactic| within_step) => `(tactic| with_reducible apply vappCreateProver_within)
theorem processWithdraw_within {R} (hR : Tok R) (cfg c t a) : Within R (processWithdraw cfg c t a) := by
  unfold processWithdraw; within
macro_rules | `(tactic| within_step) => `(tactic| with_reducible apply processWithdraw_within)
theorem handleOnchain_within {R} (hR : Tok R) (hv : AllowVapp R) (r) : Within R (handleOnchain r) := by
  unfold handleOnchain; within
macro_rules | `(tactic| within_step) => `(tactic| with_reducible apply handleOnchain_within)
theorem handleOffchain_within {R} (hR : Tok R) (cfg c r) : Within R (handleOffchain cfg c r) := by
  unfold handleOffchain; within
macro_rules | `(tactic| within_step) => `(tactic| with_reducible apply handleOffchain_within)
theorem handleReceipts_within {R} (hR : Tok R) (hv : AllowVapp R) (cfg c rs) :
    Within R (handleReceipts cfg c rs) := by
  induction rs with
  | nil => unfold handleReceipts; within
  | cons r rs ih => unfold handleReceipts; within
macro_rules | `(tactic| within_step) => `(tactic| with_reducible apply handleReceipts_within)
theorem vappStep_within {R} (hR : Tok R) (hv : AllowVapp R) (cfg c pv pr) : Within R (vappStep cfg c pv pr) := by
  unfold vappStep; within
macro_rules | `(tactic| within_step) => `(tactic| with_reducible apply vappStep_within)
theorem vappFork_within {R} (hR : Tok R) (hv : AllowVapp R) (c k r) : Within R (vappFork c k r) := by
  unfold vappFork; within
macro_rules | `(tactic| within_step) => `(tactic| with_reducible apply vappFork_within)
theorem vappUpdateAuctioneer_within {R} (hR : Tok R) (hv : AllowVapp R) (c a) : Within R (vappUpdateAuctioneer c a) := by
  unfold vappUpdateAuctioneer; within
macro_rules | `(tactic| within_step) => `(tactic| with_reducible apply vappUpdateAuctioneer_within)
theorem vappUpdateStaking_within {R} (hR : Tok R) (hv : AllowVapp R) (c a) : Within R (vappUpdateStaking c a) := by
  unfold vappUpdateStaking; within
macro_rules | `(tactic| within_step) => `(tactic| with_reducible apply vappUpdateStaking_within)
theorem vappUpdateVerifier_within {R} (hR : Tok R) (hv : AllowVapp R) (c a) : Within R (vappUpdateVerifier c a) := by
  unfold vappUpdateVerifier; within
macro_rules | `(tactic| within_step) => `(tactic| with_reducible apply vappUpdateVerifier_within)
theorem vappUpdateMinDeposit_within {R} (hR : Tok R) (hv : AllowVapp R) (c v) : Within R (vappUpdateMinDeposit c v) := by
  unfold vappUpdateMinDeposit; within
macro_rules | `(tactic| within_step) => `(tactic| with_reducible apply vappUpdateMinDeposit_within)
theorem vappPause_within {R} (hR : Tok R) (hv : AllowVapp R) (c) : Within R (vappPause c) := by
  unfold vappPause; within
macro_rules | `(tactic| within_step) => `(tactic| with_reducible apply vappPause_within)
theorem vappUnpause_within {R} (hR : Tok R) (hv : AllowVapp R) (c) : Within R (vappUnpause c) := by
  unfold vappUnpause; within
macro_rules | `(tactic| within_step) => `(tactic| with_reducible apply vappUnpause_within)
theorem vappSetOwner_within {R} (hR : Tok R) (hv : AllowVapp R) (c a) : Within R (vappSetOwner c a) := by
  unfold vappSetOwner; within
macro_rules | `(tactic| within_step) => `(tactic| with_reducible apply vappSetOwner_within)
theorem deactivateIfBelowMin_within {R} (hR : Tok R) (hs : AllowStaking R) (p) : Within R (deactivateIfBelowMin p) := by
  unfold deactivateIfBelowMin; within
macro_rules | `(tactic| within_step) => `(tactic| with_reducible apply deactivateIfBelowMin_within)
theorem stakeFor_within {R} (hR : Tok R) (hs : AllowStaking R) (cfg s p a) : Within R (stakeFor cfg s p a) := by
  unfold stakeFor; within
macro_rules | `(tactic| within_step) => `(tactic| with_reducible apply stakeFor_within)
theorem stake_within {R} (hR : Tok R) (hs : AllowStaking R) (cfg c p a) : Within R (stake cfg c p a) := by
  unfold stake; within
macro_rules | `(tactic| within_step) => `(tactic| with_reducible apply stake_within)
theorem permitAndStake_within {R} (hR : Tok R) (ha : AllowApprove R) (hs : AllowStaking R) (cfg s p f a) : Within R (permitAndStake cfg s p f a) := by
  unfold permitAndStake; within
macro_rules | `(tactic| within_step) => `(tactic| with_reducible apply permitAndStake_within)
theorem requestUnstake_within {R} (hR : Tok R) (hs : AllowStaking R) (cfg c v) : Within R (requestUnstake cfg c v) := by
  unfold requestUnstake; within
macro_rules | `(tactic| within_step) => `(tactic| with_reducible apply requestUnstake_within)
theorem finishUnstakeRequest_within {R} (hR : Tok R) (hs : AllowStaking R) (cfg s p k) : Within R (finishUnstakeRequest cfg s p k) := by
  unfold finishUnstakeRequest; within
macro_rules | `(tactic| within_step) => `(tactic| with_reducible apply finishUnstakeRequest_within)
theorem finishLoop_within {R} (hR : Tok R) (hs : AllowStaking R) (cfg c s p fuel) :
    ∀ i paid, Within R (finishLoop cfg c s p fuel i paid) := by
  induction fuel with
  | zero => intro i paid; unfold finishLoop; within
  | succ n ih =>
    intro i paid; unfold finishLoop
    apply Within.bind hR.toPre (Within.get hR.toPre)
    intro w
    split
    · within
    · within
      · exact ih _ _
      · exact ih _ _
macro_rules | `(tactic| within_step) => `(tactic| with_reducible apply finishLoop_within)
theorem finishUnstake_within {R} (hR : Tok R) (hs : AllowStaking R) (cfg c s) : Within R (finishUnstake cfg c s) := by
  unfold finishUnstake; within
macro_rules | `(tactic| within_step) => `(tactic| with_reducible apply finishUnstake_within)
theorem requestSlash_within {R} (hR : Tok R) (hs : AllowStaking R) (cfg c p v) : Within R (requestSlash cfg c p v) := by
  unfold requestSlash; within
macro_rules | `(tactic| within_step) => `(tactic| with_reducible apply requestSlash_within)
theorem resolveSlash_within {R} (hs : AllowStaking R) (p i k) : Within R (resolveSlash p i k) := by
  unfold resolveSlash; within
macro_rules | `(tactic| within_step) => `(tactic| with_reducible apply resolveSlash_within)
theorem cancelSlash_within {R} (hR : Tok R) (hs : AllowStaking R) (c p i) : Within R (cancelSlash c p i) := by
  unfold cancelSlash; within
macro_rules | `(tactic| within_step) => `(tactic| with_reducible apply cancelSlash_within)
theorem slashBurn_within {R} (hR : Tok R) (hs : AllowStaking R) (cfg p t x) : Within R (slashBurn cfg p t x) := by
  unfold slashBurn; within
macro_rules | `(tactic| within_step) => `(tactic| with_reducible apply slashBurn_within)
theorem finishSlash_within {R} (hR : Tok R) (hs : AllowStaking R) (cfg c p i) : Within R (finishSlash cfg c p i) := by
  unfold finishSlash; within
macro_rules | `(tactic| within_step) => `(tactic| with_reducible apply finishSlash_within)
theorem dispense_within {R} (hR : Tok R) (hs : AllowStaking R) (cfg c v) : Within R (dispense cfg c v) := by
  unfold dispense; within
macro_rules | `(tactic| within_step) => `(tactic| with_reducible apply dispense_within)
theorem setDispenser_within {R} (hR : Tok R) (hs : AllowStaking R) (c a) : Within R (setDispenser c a) := by
  unfold setDispenser; within
macro_rules | `(tactic| within_step) => `(tactic| with_reducible apply setDispenser_within)
theorem updateDispenseRate_within {R} (hR : Tok R) (hs : AllowStaking R) (c v) : Within R (updateDispenseRate c v) := by
  unfold updateDispenseRate; within
macro_rules | `(tactic| within_step) => `(tactic| with_reducible apply updateDispenseRate_within)
theorem stakingSetOwner_within {R} (hR : Tok R) (hs : AllowStaking R) (c a) : Within R (stakingSetOwner c a) := by
  unfold stakingSetOwner; within
macro_rules | `(tactic| within_step) => `(tactic| with_reducible apply stakingSetOwner_within)

theorem deployProver_within {R} (hR : Tok R) (hv : AllowVapp R) (hs : AllowStaking R) (hi : AllowInfo R)
    (cfg c o f) : Within R (deployProver cfg c o f) := by
  have h2 : ∀ (w : World) i v, R w { w with info := i, vault := v } := fun w i v =>
    hR.trans _ _ _ (hi w i) (hR.vault { w with info := i } v)
  unfold deployProver; within
  exact Within.modify fun w => h2 w _ _
macro_rules | `(tactic| within_step) => `(tactic| with_reducible apply deployProver_within)
theorem createProver_within {R} (hR : Tok R) (hv : AllowVapp R) (hs : AllowStaking R) (hi : AllowInfo R)
    (cfg c f) : Within R (createProver cfg c f) := by
  unfold createProver; within

end Verif
