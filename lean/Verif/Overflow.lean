import Verif.Step
/-
# When can arithmetic fail? (proof infrastructure for C17)
-/

namespace Verif

open Prog

/-- The message's own numbers do not fit in 256 bits: `amount + fee`, `max_price * gas_limit +
base_fee` (punishment), or the cost `price * pgus + base_fee` times 10000 (fee split). -/
def OwnNumbersOverflow (env : Env) : Tx → Prop
  | .transfer t => ∃ b amount fee, t.body = some b ∧ env.parseU256 b.amount = some amount ∧
      env.parseU256 b.fee = some fee ∧ 2 ^ 256 ≤ amount.toNat + fee.toNat
  | .withdraw t => ∃ b amount fee, t.body = some b ∧ env.parseU256 b.amount = some amount ∧
      env.parseU256 b.fee = some fee ∧ 2 ^ 256 ≤ amount.toNat + fee.toNat
  | .clear c => ∃ r b e base max price, c.request.body = some r ∧ c.bid.body = some b ∧
      c.execute.body = some e ∧ env.parseU256 r.baseFee = some base ∧
      env.parseU256 r.maxPricePerPgu = some max ∧ env.parseU256 b.amount = some price ∧
      ((e.executionStatus = 3 ∧ 2 ^ 256 ≤ max.toNat * r.gasLimit.toNat + base.toNat) ∨
       (∃ pgus, e.pgus = some pgus ∧
          2 ^ 256 ≤ (price.toNat * pgus.toNat + base.toNat) * 10000))
  | _ => False

theorem verifySigned_err {env : Env} {b : Body} {sig : Bytes} {f : MessageFormat} :
    ¬ verifySigned env b sig f = .error .arithmeticOverflow := by
  unfold verifySigned messageBytes ethSignVerify
  cases f <;> simp
  · split <;> simp
  · split
    · rename_i h
      split <;> simp
    · rename_i h
      split at h <;> cases h
      simp

theorem ethSignVerify_err {env : Env} {m sig : Bytes} :
    ¬ ethSignVerify env m sig = .error .arithmeticOverflow := by
  unfold ethSignVerify; split <;> simp

theorem u256add_err {a b : U256} {e : Panic} (h : u256add a b = .error e) :
    2 ^ 256 ≤ a.toNat + b.toNat := by
  unfold u256add at h
  split at h
  · cases h
  · omega

theorem u256mul_err {a b : U256} {e : Panic} (h : u256mul a b = .error e) :
    2 ^ 256 ≤ a.toNat * b.toNat := by
  unfold u256mul at h
  split at h
  · cases h
  · omega

theorem fee_err {amount sb : U256} (h : fee amount protocolFeeBips sb = .error .arithmeticOverflow) :
    2 ^ 256 ≤ amount.toNat * 10000 := by
  apply Nat.le_of_not_lt
  intro hlt
  by_cases hs : sb.toNat ≤ 10000
  · have hp : protocolFeeBips.toNat = 0 := rfl
    have hcap : cappedStakerBips 0 sb.toNat ≤ 10000 := by unfold cappedStakerBips; omega
    have hm : amount.toNat * cappedStakerBips 0 sb.toNat ≤ amount.toNat * 10000 :=
      Nat.mul_le_mul_left _ hcap
    have hle := fee_parts_le amount.toNat 0 sb.toNat (by omega)
    have hst : amount.toNat * cappedStakerBips 0 sb.toNat / 10000 < 2 ^ 256 := by omega
    have := (fee_ok_iff amount protocolFeeBips sb 0
      (BitVec.ofNat 256 (amount.toNat * cappedStakerBips 0 sb.toNat / 10000))
      (BitVec.ofNat 256 (amount.toNat - amount.toNat * cappedStakerBips 0 sb.toNat / 10000))).mpr (by
        rw [hp]
        have ha := amount.isLt
        refine ⟨by omega, hs, by omega, by omega, by simp, u256_ofNat_toNat hst, ?_⟩
        rw [u256_ofNat_toNat hst, u256_ofNat_toNat (by omega)]
        have : (0 : U256).toNat = 0 := rfl
        omega)
    rw [this] at h
    cases h
  · have hp : protocolFeeBips.toNat = 0 := rfl
    have : fee amount protocolFeeBips sb = .error (.stakerFeeTooHigh sb) := by
      unfold fee
      have h1 : ¬ protocolFeeBips.toNat > (10000 : U256).toNat := by decide
      have h2 : sb.toNat > (10000 : U256).toNat := by
        have : (10000 : U256).toNat = 10000 := rfl
        omega
      simp only [failIf, if_neg h1, if_pos h2]
      rfl
    rw [this] at h
    cases h

/-- The claim about every run of a program. -/
def Safe (X : Prop) {α : Type} (p : Prog α) (s : Ledger) (Q : α → Ledger → Prop) : Prop :=
  wp p s Q (fun e _ => e = .arithmeticOverflow → X)

theorem deposit_safe (d : Onchain Deposit) (s : Ledger)
    (h : s.total + d.action.amount.toNat < 2 ^ 256) :
    Safe False (depositProg d) s (fun _ _ => True) := by
  unfold Safe depositProg
  rw [wp_bind]
  refine wp_acceptOnchain _ (fun _ => ?_) (fun e he => fun h => absurd h he)
  simp only [wp_bind, wp_updAcc_add, Ledger.bal_setSc, wp_pure, imp_true_iff, true_and]
  intro hn
  have := s.bal_le_total d.action.account
  omega

theorem createProver_safe (c : Onchain CreateProver) (s : Ledger) :
    Safe False (createProverProg c) s (fun _ _ => True) := by
  unfold Safe createProverProg
  rw [wp_bind]
  refine wp_acceptOnchain _ (fun _ => ?_) (fun e he => fun h => absurd h he)
  simp only [wp_bind, wp_updAcc_setProver, wp_pure]

theorem credit_after_debit {s : Ledger} {a b : Address} {n : U256} (hT : s.total < 2 ^ 256)
    (h : n.toNat ≤ s.bal a) : (s.debit a n).bal b + n.toNat < 2 ^ 256 := by
  have h1 := s.total_debit a n h
  have h2 := (s.debit a n).bal_le_total b
  omega

theorem delegate_safe (env : Env) (d : Signed DelegateBody) (s : Ledger) (hT : s.total < 2 ^ 256) :
    Safe False (delegateProg env d) s (fun _ _ => True) := by
  unfold Safe delegateProg
  simp only [wp_bind, wp_liftO, wp_checkVariant, wp_checkDomain, wp_parseFormat, wp_liftE,
    wp_checkAndMark, wp_parseAddr, wp_getAcc, wp_require, wp_ite, wp_pure, wp_updAcc_add,
    wp_updAcc_deduct, wp_modAcc, imp_true_iff, and_true, reduceCtorEq, imp_false, not_false_eq_true,
    true_and, not_true_eq_false, Decidable.not_not]
  intro body hbody
  refine fun hvar hdom f hf => ⟨?_, fun e he h => verifySigned_err (h ▸ he)⟩
  intro signer hs hfresh prover hprover fee hfee auct hauct acc hacc hown hge
  rw [Ledger.acct_mark, balanceOrZero_acct] at hge
  refine ⟨fun h1 => ?_, by simp only [Ledger.bal_mark]; omega⟩
  exact credit_after_debit (by simpa using hT) h1

theorem bal_credit_ge {s : Ledger} {a b : Address} {n : U256} (h : s.bal a + n.toNat < 2 ^ 256) :
    s.bal b ≤ (s.credit a n).bal b := by
  rw [s.bal_credit a b n h]; split
  · rename_i e; rw [e]; omega
  · exact Nat.le_refl _

theorem transfer_safe (env : Env) (d : Signed TransferBody) (s : Ledger) (hT : s.total < 2 ^ 256) :
    Safe (OwnNumbersOverflow env (.transfer d)) (transferProg env d) s (fun _ _ => True) := by
  unfold Safe transferProg
  simp only [wp_bind, wp_liftO, wp_checkVariant, wp_checkDomain, wp_parseFormat, wp_liftE,
    wp_checkAndMark, wp_parseAddr, wp_getAcc, wp_ite, wp_pure, wp_updAcc_add,
    wp_updAcc_deduct, imp_true_iff, and_true, reduceCtorEq, true_and,
    false_implies]
  intro body hbody hvar f hf
  refine ⟨?_, fun e he h => absurd (h ▸ he) verifySigned_err⟩
  intro signer hs hdom hfresh to hto amount hamount fee hfee auct hauct
  refine ⟨?_, fun e he _ => ⟨body, amount, fee, hbody, hamount, hfee, u256add_err he⟩⟩
  intro total htot hge
  rw [u256add_ok] at htot
  rw [Ledger.acct_mark, balanceOrZero_acct] at hge
  generalize hm : s.mark (hashWithSigner env signer (.transfer body)) true = m
  have hmT : m.total < 2 ^ 256 := by rw [← hm]; simpa using hT
  have hmb : ∀ a, m.bal a = s.bal a := fun a => by rw [← hm]; rfl
  have h1 : amount.toNat ≤ m.bal signer := by rw [hmb]; omega
  have e1 := m.bal_debit signer signer amount h1
  rw [if_pos rfl] at e1
  have h2 : (m.debit signer amount).bal to + amount.toNat < 2 ^ 256 := credit_after_debit hmT h1
  have h3 : fee.toNat ≤ ((m.debit signer amount).credit to amount).bal signer := by
    have := bal_credit_ge (b := signer) h2
    have := hmb signer
    omega
  have hT2 : ((m.debit signer amount).credit to amount).total < 2 ^ 256 := by
    rw [Ledger.total_credit _ _ _ h2]
    have := m.total_debit signer amount h1
    omega
  have h4 := credit_after_debit (b := auct) hT2 h3
  exact ⟨fun _ => ⟨fun _ => ⟨fun _ => fun hn => absurd h4 hn, fun hn => absurd h3 hn⟩,
    fun hn => absurd h2 hn⟩, fun hn => absurd h1 hn⟩

theorem withdraw_safe (env : Env) (d : Signed WithdrawBody) (s : Ledger) (hT : s.total < 2 ^ 256) :
    Safe (OwnNumbersOverflow env (.withdraw d)) (withdrawProg env d) s (fun _ _ => True) := by
  unfold Safe withdrawProg
  simp only [wp_bind, wp_liftO, wp_checkVariant, wp_checkDomain, wp_parseFormat, wp_liftE,
    wp_checkAndMark, wp_parseAddr, wp_getAcc, wp_ite, wp_pure, wp_updAcc_add, wp_require,
    wp_updAcc_deduct, imp_true_iff, and_true, reduceCtorEq, true_and,
    false_implies]
  intro body hbody hvar f hf
  refine ⟨?_, fun e he h => absurd (h ▸ he) verifySigned_err⟩
  intro signer hs hdom hfresh account haccount hauth amount hamount fee hfee auct hauct
  simp only [Ledger.acct_mark, balanceOrZero_acct]
  generalize hm : s.mark (hashWithSigner env signer (.withdraw body)) true = m
  have hmT : m.total < 2 ^ 256 := by rw [← hm]; simpa using hT
  have hmb : ∀ a, m.bal a = s.bal a := fun a => by rw [← hm]; rfl
  have key : ∀ (h1 : amount.toNat ≤ m.bal account)
      (h2 : fee.toNat ≤ (m.debit account amount).bal signer),
      ((m.debit account amount).debit signer fee).bal auct + fee.toNat < 2 ^ 256 := by
    intro h1 h2
    apply credit_after_debit _ h2
    have := m.total_debit account amount h1
    omega
  constructor
  · intro heq
    refine ⟨?_, fun e he _ => ⟨body, amount, fee, hbody, hamount, hfee, u256add_err he⟩⟩
    intro total htot hge
    rw [u256add_ok] at htot
    subst heq
    have h1 : amount.toNat ≤ m.bal account := by rw [hmb]; omega
    have h2 : fee.toNat ≤ (m.debit account amount).bal account := by
      rw [m.bal_debit account account amount h1, if_pos rfl, hmb]; omega
    exact ⟨fun _ => ⟨fun _ hn => absurd (key h1 h2) hn, fun hn => absurd h2 hn⟩,
      fun hn => absurd h1 hn⟩
  · intro hne hge hge'
    have h1 : amount.toNat ≤ m.bal account := by rw [hmb]; omega
    have h2 : fee.toNat ≤ (m.debit account amount).bal signer := by
      rw [m.bal_debit account signer amount h1, if_neg (fun e => hne e.symm), hmb]; omega
    exact ⟨fun _ => ⟨fun _ hn => absurd (key h1 h2) hn, fun hn => absurd h2 hn⟩,
      fun hn => absurd h1 hn⟩

theorem checkPvh_safe (r : Option Bytes) (e : Bytes) (s : Ledger) (X : Prop) {Q : Unit → Ledger → Prop}
    (h : Q () s) : Safe X (checkPvh r e) s Q := by
  unfold Safe checkPvh
  cases r with
  | none => simpa only [wp_pure'] using h
  | some h' =>
    simp only [wp_bind, wp_require, reduceCtorEq, false_implies, imp_true_iff, and_true]
    exact fun _ _ => h

theorem clearAuth_safe (env : Env) (c : ClearTx) (s : Ledger) (X : Prop) :
    Safe X (clearAuth env c) s (fun _ _ => True) := by
  unfold Safe clearAuth clearMessages clearParties
  simp only [wp_bind, wp_liftO, wp_checkVariant, wp_checkDomain, wp_parseFormat, wp_liftE,
    wp_parseAddr, wp_getAcc, wp_require, wp_pure, wp_processed, imp_true_iff, and_true, reduceCtorEq,
    false_implies, true_and]
  intro request hreq bid hbid settle hsettle execute hexe rf hrf bf hbf sf hsf ef hef
  have hv : ∀ {b sig f} (e : Panic), verifySigned env b sig f = .error e →
      e = .arithmeticOverflow → X := fun e he h => absurd (h ▸ he) verifySigned_err
  exact ⟨fun rs hrs => ⟨fun bs hbs => ⟨fun ss hss => hv, hv⟩, hv⟩, hv⟩

theorem clearProof_safe (env : Env) (c : ClearTx) (x : ClearCtx) (s : Ledger) (X : Prop) :
    Safe X (clearProof env c x) s (fun _ _ => True) := by
  unfold Safe clearProof
  simp only [wp_bind, wp_liftO, wp_checkVariant, wp_checkDomain, wp_parseFormat, wp_liftE,
    wp_require, imp_true_iff, and_true, reduceCtorEq, false_implies]
  intro hex f hf b hb fmt hfmt
  refine ⟨?_, fun e he h => absurd (h ▸ he) verifySigned_err⟩
  intro g hg hdom hvar hid pvh hpvh hlen
  apply checkPvh_safe
  simp only [wp_ite, wp_bind, wp_liftO, wp_liftE, wp_parseAddr, wp_require, wp_panic, imp_true_iff,
    and_true, reduceCtorEq, false_implies, true_and]
  intro vk hvk _ _ sig hsig e he h
  exact absurd (h ▸ he) ethSignVerify_err

/-- Conjunction of a normal postcondition and a safety claim. -/
theorem wp_and {α : Type} {p : Prog α} {s : Ledger} {Q Q' : α → Ledger → Prop}
    {E : Panic → Ledger → Prop} (h : wp p s Q (fun _ _ => True)) (h' : wp p s Q' E) :
    wp p s (fun a s' => Q a s' ∧ Q' a s') E := by
  rw [wp_iff] at *
  exact ⟨fun a s' e => ⟨h.1 a s' e, h'.1 a s' e⟩, h'.2⟩

theorem clear_safe (env : Env) (c : ClearTx) (s : Ledger) (hT : s.total < 2 ^ 256) :
    Safe (OwnNumbersOverflow env (.clear c)) (clearProg env c) s (fun _ _ => True) := by
  unfold Safe clearProg
  rw [wp_bind]
  refine wp_mono (wp_and (clearAuth_wp env c s) (clearAuth_safe env c s _)) ?_ (fun _ _ h => h)
  rintro x s1 ⟨⟨⟨g, hpre⟩, rfl⟩, _⟩
  have hown : ((x.execute.executionStatus = 3 ∧ 2 ^ 256 ≤
        x.maxPricePerPgu.toNat * x.request.gasLimit.toNat + x.baseFee.toNat) ∨
       (∃ pgus, x.execute.pgus = some pgus ∧
          2 ^ 256 ≤ (x.price.toNat * pgus.toNat + x.baseFee.toNat) * 10000)) →
       OwnNumbersOverflow env (.clear c) := fun h =>
    ⟨x.request, x.bid, x.execute, x.baseFee, x.maxPricePerPgu, x.price, hpre.request, hpre.bid,
      hpre.execute, hpre.baseFee, hpre.maxPrice, hpre.price, h⟩
  generalize hm : s.touchTx x.requestId = m
  have hmT : m.total < 2 ^ 256 := by
    rw [← hm]; unfold Ledger.total; rw [Ledger.touchTx_accounts]; exact hT
  rw [wp_ite]
  constructor
  · intro h3
    unfold clearPunish
    simp only [wp_bind, wp_liftO, wp_liftE, wp_parseAddr, wp_getAcc, wp_require, wp_pure, wp_ite,
      wp_markTx, wp_updAcc_add, wp_updAcc_deduct, imp_true_iff, and_true, reduceCtorEq, false_implies,
      true_and]
    intro str hstr p hp
    refine ⟨fun mm hmm => ⟨fun mx hmx hle hge => ?_, fun e he _ => ?_⟩, fun e he _ => ?_⟩
    · rw [balanceOrZero_acct] at hge
      have h1 : p.toNat ≤ m.bal x.requestSigner := by omega
      exact ⟨fun _ tr htr hn => absurd (credit_after_debit hmT h1) hn, fun hn => absurd h1 hn⟩
    · rw [u256mul_ok, u256OfU64_toNat] at hmm
      have := u256add_err he
      exact hown (.inl ⟨h3, by omega⟩)
    · have := u256mul_err he
      rw [u256OfU64_toNat] at this
      exact hown (.inl ⟨h3, by omega⟩)
  · intro h3
    rw [wp_bind]
    refine wp_mono (wp_and (clearProof_wp env c x m) (clearProof_safe env c x m _)) ?_
      (fun _ _ h => h)
    rintro _ s2 ⟨⟨_, rfl⟩, _⟩
    unfold clearPay
    simp only [wp_bind, wp_liftO, wp_liftE, wp_parseAddr, wp_getAcc, wp_require, wp_pure, wp_ite,
      wp_markTx, wp_updAcc_add, wp_updAcc_deduct, imp_true_iff, and_true, reduceCtorEq, false_implies,
      true_and]
    intro pgus hpgus
    refine ⟨fun mm hmm => ⟨fun cost hcost hle acct hacct hge => ?_, fun e he _ => ?_⟩,
      fun e he _ => ?_⟩
    · rw [u256mul_ok, u256OfU64_toNat] at hmm
      rw [u256add_ok] at hcost
      generalize hk : Ledger.mark s2 x.requestId true = k
      have hkT : k.total < 2 ^ 256 := by rw [← hk]; exact hmT
      have hbal : acct.balance.toNat = k.bal x.requestSigner := by
        rw [← hk]; simp [Ledger.bal, Ledger.acctD, hacct]
      have h1 : cost.toNat ≤ k.bal x.requestSigner := by omega
      refine ⟨fun _ tr htr pa hpa => ⟨fun r hr => ?_, fun e he h => ?_⟩, fun hn => absurd h1 hn⟩
      · obtain ⟨p, st, o⟩ := r
        have hsum := fee_sum hr
        have t1 := k.total_debit x.requestSigner cost h1
        have h2 : (k.debit x.requestSigner cost).bal tr + p.toNat < 2 ^ 256 := by
          have := (k.debit x.requestSigner cost).bal_le_total tr; omega
        have t2 := (k.debit x.requestSigner cost).total_credit tr p h2
        have h3 : ((k.debit x.requestSigner cost).credit tr p).bal x.proverAddress + st.toNat
            < 2 ^ 256 := by
          have := ((k.debit x.requestSigner cost).credit tr p).bal_le_total x.proverAddress; omega
        have t3 := ((k.debit x.requestSigner cost).credit tr p).total_credit x.proverAddress st h3
        have h4 : (((k.debit x.requestSigner cost).credit tr p).credit x.proverAddress st).bal
            x.proverOwner + o.toNat < 2 ^ 256 := by
          have := (((k.debit x.requestSigner cost).credit tr p).credit x.proverAddress st).bal_le_total
            x.proverOwner
          omega
        exact ⟨fun _ => ⟨fun _ hn => absurd h4 hn, fun hn => absurd h3 hn⟩, fun hn => absurd h2 hn⟩
      · rw [h] at he
        have := fee_err he
        exact hown (.inr ⟨pgus, hpgus, by rw [← hmm, ← hcost]; exact this⟩)
    · rw [u256mul_ok, u256OfU64_toNat] at hmm
      have := u256add_err he
      exact hown (.inr ⟨pgus, hpgus, by omega⟩)
    · have := u256mul_err he
      rw [u256OfU64_toNat] at this
      exact hown (.inr ⟨pgus, hpgus, by omega⟩)

end Verif
