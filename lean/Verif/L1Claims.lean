import Verif.L1Fields
/-
# Lemmas about unstake claims, slash claims and the dispense budget
-/

namespace Verif
open L1

/-! ## Swap and pop -/

theorem swapPop_perm {α : Type} {l : List α} {i : Nat} {x : α} (h : l[i]? = some x) :
    (x :: swapPop l i).Perm l ∧ (swapPop l i).take i = l.take i ∧ (swapPop l i).length + 1 = l.length ∧ i < l.length := by
  obtain ⟨hi, hx⟩ := List.getElem?_eq_some_iff.mp h
  obtain ⟨m, y, rfl⟩ : ∃ m y, l = m ++ [y] := by
    have hne : l ≠ [] := by rintro rfl; exact absurd hi (Nat.not_lt_zero i)
    exact ⟨l.dropLast, l.getLast hne, (List.dropLast_concat_getLast hne).symm⟩
  have hs : swapPop (m ++ [y]) i = ((m ++ [y]).set i y).dropLast := by
    unfold swapPop; rw [List.getLast?_concat]
  rw [List.length_append, List.length_singleton] at hi
  by_cases he : i = m.length
  · subst he
    have e1 : (m ++ [y]).set m.length y = m ++ [y] := by
      rw [List.set_append_right _ _ (Nat.le_refl _), Nat.sub_self]; rfl
    have e2 : x = y := by
      rw [List.getElem_append_right (Nat.le_refl _)] at hx
      simp only [Nat.sub_self, List.getElem_cons_zero] at hx
      exact hx.symm
    rw [hs, e1, List.dropLast_concat, e2]
    refine ⟨(List.perm_append_singleton y m).symm, by simp, by simp, by simp⟩
  · have hlt : i < m.length := by omega
    have e1 : (m ++ [y]).set i y = m.set i y ++ [y] := List.set_append_left _ _ hlt
    rw [hs, e1, List.dropLast_concat]
    rw [List.getElem_append_left hlt] at hx
    refine ⟨?_, ?_, by simp, by simp; omega⟩
    · have hm : m = m.take i ++ x :: m.drop (i + 1) := by
        rw [← hx, ← List.drop_eq_getElem_cons hlt, List.take_append_drop]
      rw [List.set_eq_take_append_cons_drop, if_pos hlt]
      conv => rhs; rw [hm]
      rw [List.append_assoc, List.cons_append]
      refine List.Perm.trans List.perm_middle.symm ?_
      refine List.Perm.append_left _ (List.Perm.cons _ ?_)
      exact (List.perm_append_singleton _ _).symm
    · rw [List.take_set_of_le (Nat.le_refl _), List.take_append_of_le_length (by omega)]

/-! ## Settling unstake claims -/

/-- The quantities that settling claims changes: the $iPROVE in the prover's escrow pool, the $PROVE behind
all $iPROVE, the $iPROVE supply, and the $PROVE paid to the staker. -/
structure Settling where
  pool : Nat
  assets : Nat
  supply : Nat
  paid : Nat
  deriving DecidableEq

/-- Settle one claim when the pool's slash factor is `factor`: it is worth the escrowed amount scaled by how
much the factor fell since the request, at most what is in the pool, and is redeemed at the $iPROVE rate. -/
def Settling.settle (factor : Nat) (s : Settling) (cl : UnstakeClaim) : Settling :=
  let shares := min s.pool (cl.iPROVEEscrow * factor / cl.slashFactor)
  let v := shares * (s.assets + 1) / (s.supply + 1)
  ⟨s.pool - shares, s.assets - v, s.supply - shares, s.paid + v⟩

/-- The quantities in a world. -/
def settling (cfg : Cfg) (prover : Address) (w : World) (paid : Nat) : Settling :=
  ⟨(w.staking.escrowPools prover).iPROVEEscrow, w.prove.bal cfg.iprove, w.iprove.supply, paid⟩

theorem PayStep.settle {cfg : Cfg} {c : Ctx} {staker prover : Address} {i n paid : Nat} {claim : UnstakeClaim} {w w' : World}
    (hne : staker ≠ cfg.iprove) (h : PayStep cfg c staker prover i n claim w w') :
    settling cfg prover w' (paid + n) =
      (settling cfg prover w paid).settle (w.staking.escrowPools prover).slashFactor claim ∧
    w'.prove.bal staker = w.prove.bal staker + n ∧
    (∀ a, a ≠ staker → a ≠ cfg.iprove → w'.prove.bal a = w.prove.bal a) ∧
    w'.staking.unstakeClaims staker = swapPop (w.staking.unstakeClaims staker) i := by
  obtain ⟨_, _, h⟩ := h
  obtain ⟨_, pay, hpay, hle, h⟩ := finishUnstakeRequest_ok h
  dsimp only at hpay hle
  have hpay' : pay = min (w.staking.escrowPools prover).iPROVEEscrow
      (claim.iPROVEEscrow * (w.staking.escrowPools prover).slashFactor / claim.slashFactor) := hpay
  rcases h with ⟨h0, rfl, rfl⟩ | ⟨_, hb, hn, i0, i1, p1, a1, a2, a3, rfl⟩
  · rw [h0] at hpay'
    refine ⟨?_, rfl, fun _ _ _ => rfl, upd_same _ _ _⟩
    simp only [settling, Settling.settle, ← hpay', Nat.zero_mul, Nat.zero_div, Nat.sub_zero]
  · obtain ⟨c1, c2⟩ := iproveSpend_bal a1
    obtain ⟨_, hb1, hi1⟩ := Erc20.burn_ok a2
    obtain ⟨d1, d2, d3, d4, _, _⟩ := Erc20.transfer_bal a3 (Ne.symm hne)
    dsimp only at d1 d2 d3 d4 c1 c2 hn
    refine ⟨?_, d3, fun a h1 h2 => d4 a h2 h1, ?_⟩
    · simp only [settling, Settling.settle, ← hpay', upd_same, d2, hi1, c2, ← hn]
    · exact upd_same _ _ _

/-- What the loop of `finishUnstake` does to the claims of the staker. -/
theorem finishLoop_settles {cfg : Cfg} {c : Ctx} {staker prover : Address} (hne : staker ≠ cfg.iprove) :
    ∀ fuel i paid n w w', finishLoop cfg c staker prover fuel i paid w = .ok (n, w') →
      (w.staking.unstakeClaims staker).length - i ≤ fuel →
      (∀ cl ∈ (w.staking.unstakeClaims staker).take i, ¬ cl.timestamp + w.staking.unstakePeriod ≤ c.now) →
      ∃ done, (done ++ w'.staking.unstakeClaims staker).Perm (w.staking.unstakeClaims staker) ∧
        (∀ cl ∈ done, cl.timestamp + w.staking.unstakePeriod ≤ c.now) ∧
        (∀ cl ∈ w'.staking.unstakeClaims staker, ¬ cl.timestamp + w.staking.unstakePeriod ≤ c.now) ∧
        settling cfg prover w' n =
          done.foldl (Settling.settle (w.staking.escrowPools prover).slashFactor) (settling cfg prover w paid) ∧
        w'.prove.bal staker + paid = w.prove.bal staker + n ∧
        (∀ a, a ≠ staker → a ≠ cfg.iprove → w'.prove.bal a = w.prove.bal a) := by
  intro fuel
  induction fuel with
  | zero =>
    intro i paid n w w' h hf hp
    obtain ⟨rfl, rfl⟩ := pure_ok.mp (show (pure paid : L1 Nat) w = .ok (n, w') from h)
    refine ⟨[], List.Perm.refl _, fun _ h => (List.not_mem_nil h).elim, ?_, rfl, rfl, fun _ _ _ => rfl⟩
    rw [List.take_of_length_le (by omega)] at hp
    exact hp
  | succ fuel ih =>
    intro i paid n w w' h hf hp
    rcases finishLoop_succ h with ⟨hn, rfl, rfl⟩ | ⟨cl, p, w1, hs, h⟩ | ⟨cl, hcl, hnr, h⟩
    · refine ⟨[], List.Perm.refl _, fun _ h => (List.not_mem_nil h).elim, ?_, rfl, rfl, fun _ _ _ => rfl⟩
      rw [List.take_of_length_le (List.getElem?_eq_none_iff.mp hn)] at hp
      exact hp
    · obtain ⟨q1, q2, q3, q4⟩ := hs.settle (paid := paid) hne
      have hr := hs.rel
      have hpd := hs.frame.2.2.2.1
      obtain ⟨hget, hrdy, _⟩ := hs
      obtain ⟨s1, s2, s3, _⟩ := swapPop_perm hget
      obtain ⟨done, d1, d2, d3, d4, d5, d6⟩ := ih _ _ _ _ _ h (by rw [q4]; omega) (by
        rw [q4, s2, hpd]; exact hp)
      rw [hpd] at d2 d3
      rw [q4] at d1
      refine ⟨cl :: done, ?_, ?_, d3, ?_, by omega, fun a h1 h2 => (d6 a h1 h2).trans (q3 a h1 h2)⟩
      · exact (List.Perm.cons cl d1).trans s1
      · intro x hx
        rcases List.mem_cons.mp hx with rfl | hx
        · exact hrdy
        · exact d2 x hx
      · rw [d4, hr.factor, q1]; rfl
    · refine ih _ _ _ _ _ h (by omega) ?_
      obtain ⟨hi, hx⟩ := List.getElem?_eq_some_iff.mp hcl
      intro x hx'
      rw [List.take_add_one, hcl] at hx'
      rcases List.mem_append.mp hx' with h1 | h1
      · exact hp x h1
      · have : x = cl := by simpa using h1
        rw [this]; exact hnr

theorem finishTail_same (s p : Address) (w : World) :
    (finishTail s p w).prove = w.prove ∧ (finishTail s p w).iprove = w.iprove ∧ (finishTail s p w).st = w.st ∧
    (finishTail s p w).vault = w.vault ∧ (finishTail s p w).staking.unstakeClaims = w.staking.unstakeClaims ∧
    ((finishTail s p w).staking.escrowPools p).iPROVEEscrow = (w.staking.escrowPools p).iPROVEEscrow ∧
    (∀ q, q ≠ p → (finishTail s p w).staking.escrowPools q = w.staking.escrowPools q) ∧
    (∀ a, a ≠ s → (finishTail s p w).staking.stakerToProver a = w.staking.stakerToProver a) ∧
    (w.st.bal s ≠ 0 → (finishTail s p w).staking.stakerToProver = w.staking.stakerToProver) := by
  have hu : ∀ (m : Address → Address) a, a ≠ s → upd m s 0 a = m a := fun m a h => upd_ne _ _ h
  unfold finishTail; dsimp only
  split <;> split
  · rename_i h1 h2
    exact ⟨rfl, rfl, rfl, rfl, rfl, by dsimp only; rw [upd_same], fun q hq => upd_ne _ _ hq, fun a h => upd_ne _ _ h,
      fun h => absurd h2.1 h⟩
  · exact ⟨rfl, rfl, rfl, rfl, rfl, by dsimp only; rw [upd_same], fun q hq => upd_ne _ _ hq, fun _ _ => rfl, fun _ => rfl⟩
  · rename_i h1 h2
    exact ⟨rfl, rfl, rfl, rfl, rfl, rfl, fun q hq => rfl, fun a h => upd_ne _ _ h, fun h => absurd h2.1 h⟩
  · exact ⟨rfl, rfl, rfl, rfl, rfl, rfl, fun q hq => rfl, fun _ _ => rfl, fun _ => rfl⟩

/-! ## Slash claims -/

/-- The number of unresolved claims. -/
def unresolved (l : List SlashClaim) : Nat := l.countP (fun c => !c.resolved)

theorem unresolved_set {l : List SlashClaim} {i : Nat} {cl : SlashClaim} (h : l[i]? = some cl) (hr : cl.resolved = false) :
    unresolved (l.set i { cl with resolved := true }) + 1 = unresolved l := by
  unfold unresolved
  induction l generalizing i with
  | nil => cases h
  | cons a l ih =>
    cases i with
    | zero =>
      have e : a = cl := by simpa using h
      subst e
      rw [List.set_cons_zero, List.countP_cons, List.countP_cons, hr]
      simp
    | succ i =>
      have := ih (by simpa using h)
      rw [List.set_cons_succ, List.countP_cons, List.countP_cons]
      omega

/-- The counter of open slash claims counts the unresolved claims. -/
def SlashCount (w : World) : Prop :=
  ∀ p, w.staking.slashClaimCount p = unresolved (w.staking.slashClaims p) % 2 ^ 256

theorem SlashCount.resolve {w : World} {p : Address} {i : Nat} {cl : SlashClaim} (hi : SlashCount w)
    (h : (w.staking.slashClaims p)[i]? = some cl) (hr : cl.resolved = false) :
    ∀ q, (w.staking.resolve p i cl).slashClaimCount q = unresolved ((w.staking.resolve p i cl).slashClaims q) % 2 ^ 256 := by
  intro q
  by_cases e : q = p
  · subst e
    simp only [Staking.resolve, upd_same, hi q, ← unresolved_set h hr]
    omega
  · simp only [Staking.resolve, upd_ne _ _ e, hi q]

theorem SlashCount.exec {cfg : Cfg} {c : Ctx} {k : Call} {w w' : World} (hi : SlashCount w)
    (h : Verif.exec cfg c k w = .ok ((), w')) : SlashCount w' := by
  have hf := (exec_fields h).slash
  cases k
  case requestSlash p v =>
    replace h := drop_ok.mp h
    obtain ⟨n, h⟩ := h
    obtain ⟨_, _, _, _, rfl⟩ := requestSlash_ok h
    intro q
    by_cases e : q = p
    · subst e
      dsimp only
      rw [upd_same, upd_same, hi q]
      unfold unresolved
      rw [List.countP_append, List.countP_singleton]
      simp
    · dsimp only
      rw [upd_ne _ _ e, upd_ne _ _ e]
      exact hi q
  case cancelSlash p i =>
    obtain ⟨_, cl, h1, h2, _, rfl⟩ := cancelSlash_ok h
    exact hi.resolve h1 h2
  case finishSlash p i =>
    replace h := drop_ok.mp h
    obtain ⟨n, h⟩ := h
    obtain ⟨cl, _, _, _, _, h1, h2, rfl⟩ := finishSlash_shape h
    exact hi.resolve h1 h2
  all_goals
    obtain ⟨e1, e2⟩ := hf (fun _ _ => Call.noConfusion) (fun _ _ => Call.noConfusion) (fun _ _ => Call.noConfusion)
    intro p
    rw [e1, e2]; exact hi p

theorem SlashCount.reachable {cfg : Cfg} : ∀ w, Reachable cfg w → SlashCount w :=
  reachable_induction (fun w h => fun p => by rw [h.maps.2.2.1, h.maps.2.2.2.1]; rfl) (fun _ _ _ _ hi _ h => hi.exec h)

/-- Slash claims of `w` are still there in `w'`, only possibly resolved. -/
def SlashMono (w w' : World) : Prop :=
  ∀ (p : Address) (i : Nat) (cl : SlashClaim), (w.staking.slashClaims p)[i]? = some cl →
    ∃ cl' : SlashClaim, (w'.staking.slashClaims p)[i]? = some cl' ∧ cl'.iPROVE = cl.iPROVE ∧ cl'.timestamp = cl.timestamp ∧
      (cl.resolved = true → cl'.resolved = true)

theorem SlashMono.pre : Pre SlashMono where
  refl _ _ _ cl h := ⟨cl, h, rfl, rfl, id⟩
  trans _ _ _ h g p i cl hc := by
    obtain ⟨c1, a1, a2, a3, a4⟩ := h p i cl hc
    obtain ⟨c2, b1, b2, b3, b4⟩ := g p i c1 a1
    exact ⟨c2, b1, b2.trans a2, b3.trans a3, fun e => b4 (a4 e)⟩

theorem resolve_mono {s : Staking} {p : Address} {i : Nat} {cl : SlashClaim} (h : (s.slashClaims p)[i]? = some cl)
    (q : Address) (j : Nat) (cl1 : SlashClaim) (h1 : (s.slashClaims q)[j]? = some cl1) :
    ∃ cl', ((s.resolve p i cl).slashClaims q)[j]? = some cl' ∧ cl'.iPROVE = cl1.iPROVE ∧ cl'.timestamp = cl1.timestamp ∧
      (cl1.resolved = true → cl'.resolved = true) := by
  by_cases e : q = p
  · subst e
    simp only [Staking.resolve, upd_same]
    by_cases ej : i = j
    · subst ej
      rw [h] at h1
      obtain rfl := Option.some.inj h1
      refine ⟨{ cl with resolved := true }, ?_, rfl, rfl, fun _ => rfl⟩
      rw [List.getElem?_set_self (List.getElem?_eq_some_iff.mp h).1]
    · rw [List.getElem?_set_ne ej]
      exact ⟨cl1, h1, rfl, rfl, id⟩
  · simp only [Staking.resolve, upd_ne _ _ e]
    exact ⟨cl1, h1, rfl, rfl, id⟩

theorem exec_slashMono {cfg : Cfg} {c : Ctx} {k : Call} {w w' : World}
    (h : exec cfg c k w = .ok ((), w')) : SlashMono w w' := by
  have hf := (exec_fields h).slash
  cases k
  case requestSlash p v =>
    replace h := drop_ok.mp h
    obtain ⟨n, h⟩ := h
    obtain ⟨_, _, _, _, rfl⟩ := requestSlash_ok h
    intro q i cl hc
    refine ⟨cl, ?_, rfl, rfl, id⟩
    dsimp only
    by_cases e : q = p
    · subst e
      rw [upd_same, List.getElem?_append_left (List.getElem?_eq_some_iff.mp hc).1]; exact hc
    · rw [upd_ne _ _ e]; exact hc
  case cancelSlash p i =>
    obtain ⟨_, cl, h1, h2, _, rfl⟩ := cancelSlash_ok h
    exact fun q j cl1 hc => resolve_mono h1 q j cl1 hc
  case finishSlash p i =>
    replace h := drop_ok.mp h
    obtain ⟨n, h⟩ := h
    obtain ⟨cl, _, _, _, _, h1, h2, rfl⟩ := finishSlash_shape h
    exact fun q j cl1 hc => resolve_mono h1 q j cl1 hc
  all_goals
    obtain ⟨e1, e2⟩ := hf (fun _ _ => Call.noConfusion) (fun _ _ => Call.noConfusion) (fun _ _ => Call.noConfusion)
    intro p i cl hc
    rw [e1]; exact ⟨cl, hc, rfl, rfl, id⟩

/-! ## Dispensing -/

/-- The dispense rate in force at second `s`, given the rate changes (time, rate), newest first. -/
def rateAt : List (Nat × Nat) → Nat → Nat
  | [], _ => 0
  | (t, r) :: rest, s => if t ≤ s then r else rateAt rest s

/-- What has accrued by time `t`: every second before `t` counts with the rate in force then. -/
def accrued (log : List (Nat × Nat)) (t : Nat) : Nat := ((List.range t).map (rateAt log)).sum

/-- Record a successful rate change. -/
def logStep (cfg : Cfg) (w : World) (x : Ctx × Call) (log : List (Nat × Nat)) : List (Nat × Nat) :=
  match x.2, exec cfg x.1 x.2 w with
  | .updateDispenseRate r, .ok _ => (x.1.now, r.toNat) :: log
  | _, _ => log

/-- The rate changes of a history, newest first, on top of `log`. -/
def rateLog (cfg : Cfg) : World → List (Ctx × Call) → List (Nat × Nat) → List (Nat × Nat)
  | _, [], log => log
  | w, x :: h, log => rateLog cfg (call cfg x.1 x.2 w) h (logStep cfg w x log)

/-- The $PROVE that a `dispense` call brings to the $iPROVE vault; 0 for other or reverted calls. -/
def dispenseStep (cfg : Cfg) (w : World) (x : Ctx × Call) : Nat :=
  match x.2, exec cfg x.1 x.2 w with
  | .dispense _, .ok (_, w') => w'.prove.bal cfg.iprove - w.prove.bal cfg.iprove
  | _, _ => 0

/-- The total $PROVE dispensed in a history. -/
def dispensed (cfg : Cfg) : World → List (Ctx × Call) → Nat
  | _, [] => 0
  | w, x :: h => dispenseStep cfg w x + dispensed cfg (call cfg x.1 x.2 w) h

theorem accrued_add (log : List (Nat × Nat)) (a b r : Nat) (hr : ∀ s, a ≤ s → rateAt log s = r) :
    accrued log (a + b) = accrued log a + b * r := by
  induction b with
  | zero => simp
  | succ b ih =>
    unfold accrued at *
    rw [← Nat.add_assoc, List.range_succ, List.map_append, List.sum_append, ih]
    simp only [List.map_cons, List.map_nil, List.sum_cons, List.sum_nil]
    rw [hr _ (by omega), Nat.succ_mul]; omega

theorem accrued_mono (log : List (Nat × Nat)) {a b : Nat} (h : a ≤ b) : accrued log a ≤ accrued log b := by
  obtain ⟨d, rfl⟩ := Nat.exists_eq_add_of_le h
  unfold accrued
  induction d with
  | zero => exact Nat.le_refl _
  | succ d ih =>
    rw [← Nat.add_assoc, List.range_succ, List.map_append, List.sum_append]
    have := ih (by omega)
    omega

theorem accrued_cons (log : List (Nat × Nat)) (t r : Nat) : accrued ((t, r) :: log) t = accrued log t := by
  unfold accrued
  congr 1
  apply List.map_congr_left
  intro s hs
  rw [List.mem_range] at hs
  unfold rateAt
  rw [if_neg (by omega)]
  cases log <;> rfl

/-- The dispense state agrees with the history; `t` is the time of the last call. -/
structure DispInv (log : List (Nat × Nat)) (total t : Nat) (w : World) : Prop where
  earned : w.staking.dispenseEarned = accrued log w.staking.dispenseRateTimestamp
  rate : ∀ s, w.staking.dispenseRateTimestamp ≤ s → rateAt log s = w.staking.dispenseRate
  dist : w.staking.dispenseDistributed = total
  le : total ≤ accrued log t
  time : w.staking.dispenseRateTimestamp ≤ t

theorem DispInv.now {log : List (Nat × Nat)} {total t : Nat} {w : World} (h : DispInv log total t w) {n : Nat} (hn : t ≤ n) :
    accrued log n = w.staking.dispenseEarned + (n - w.staking.dispenseRateTimestamp) * w.staking.dispenseRate := by
  have := h.time
  obtain ⟨d, rfl⟩ := Nat.exists_eq_add_of_le (Nat.le_trans this hn)
  rw [accrued_add _ _ _ _ h.rate, h.earned, Nat.add_sub_cancel_left]

theorem DispInv.step {cfg : Cfg} (hc : cfg.WF) {log : List (Nat × Nat)} {total t : Nat} {w : World} (hi : DispInv log total t w)
    {x : Ctx × Call} (hn : t ≤ x.1.now) :
    DispInv (logStep cfg w x log) (total + dispenseStep cfg w x) x.1.now (call cfg x.1 x.2 w) := by
  obtain ⟨c, k⟩ := x
  dsimp only at hn ⊢
  have hmono := accrued_mono log hn
  have htime := hi.time
  have hle := hi.le
  -- calls without effect on the dispense state
  have stay : ∀ w', w'.staking.dispenseRate = w.staking.dispenseRate →
      w'.staking.dispenseRateTimestamp = w.staking.dispenseRateTimestamp →
      w'.staking.dispenseEarned = w.staking.dispenseEarned →
      w'.staking.dispenseDistributed = w.staking.dispenseDistributed → DispInv log (total + 0) c.now w' := by
    intro w' e1 e2 e3 e4
    exact ⟨by rw [e3, e2]; exact hi.earned, by rw [e2, e1]; exact hi.rate, by rw [e4]; exact hi.dist, by omega, by rw [e2]; omega⟩
  unfold call logStep dispenseStep
  dsimp only
  cases hx : exec cfg c k w with
  | error e =>
    cases k <;> exact stay w rfl rfl rfl rfl
  | ok r =>
    obtain ⟨⟨⟩, w'⟩ := r
    have hf := (exec_fields hx).disp
    cases k
    case dispense v =>
      dsimp only
      obtain ⟨_, h1, a, _, _, h2, _, tk, h3, rfl⟩ := dispense_ok hx
      have hne : cfg.staking ≠ cfg.iprove := by
        intro e; have hd := hc.distinct; rw [e] at hd; simp at hd
      obtain ⟨_, _, h4, _⟩ := Erc20.transfer_bal h3 hne
      dsimp only
      rw [h4, Nat.add_sub_cancel_left]
      refine ⟨hi.earned, hi.rate, by dsimp only; rw [hi.dist], ?_, by dsimp only; omega⟩
      rw [hi.now hn, ← hi.dist]; exact h2
    case updateDispenseRate v =>
      dsimp only
      obtain ⟨_, h1, rfl⟩ := updateDispenseRate_ok hx
      refine ⟨?_, ?_, hi.dist, ?_, Nat.le_refl _⟩
      · dsimp only; rw [accrued_cons, hi.now hn]
      · intro s hs
        dsimp only at hs ⊢
        unfold rateAt
        rw [if_pos hs]
      · rw [accrued_cons]; omega
    all_goals
      obtain ⟨e1, e2, e3, e4⟩ := hf (fun _ => Call.noConfusion) (fun _ => Call.noConfusion)
      exact stay w' e1 e2 e3 e4

theorem DispInv.run {cfg : Cfg} (hc : cfg.WF) (h : List (Ctx × Call)) : ∀ (log : List (Nat × Nat)) (total t : Nat) (w : World),
    DispInv log total t w → h.Pairwise (fun x y => x.1.now ≤ y.1.now) → (∀ x ∈ h, t ≤ x.1.now) →
    ∀ T, t ≤ T → (∀ x ∈ h, x.1.now ≤ T) →
    DispInv (rateLog cfg w h log) (total + dispensed cfg w h) T (runCalls cfg w h) := by
  induction h with
  | nil =>
    intro log total t w hi _ _ T hT _
    have := accrued_mono log hT
    have h2 := hi.le
    have h3 := hi.time
    exact ⟨hi.earned, hi.rate, hi.dist, by show total + 0 ≤ accrued log T; omega, by show w.staking.dispenseRateTimestamp ≤ T; omega⟩
  | cons x h ih =>
    intro log total t w hi hp ht T hT hTall
    obtain ⟨p1, p2⟩ := List.pairwise_cons.mp hp
    have := ih _ _ _ _ (hi.step hc (ht x (List.mem_cons_self ..))) p2 p1 T (hTall x (List.mem_cons_self ..))
      (fun y hy => hTall y (List.mem_cons_of_mem _ hy))
    unfold dispensed rateLog
    rw [runCalls_cons, ← Nat.add_assoc]
    exact this

theorem DispInv.genesis {cfg : Cfg} {w : World} (h : Genesis cfg w) : DispInv [] 0 0 w := by
  obtain ⟨h1, h2, h3, h4⟩ := h.dispense
  exact ⟨by rw [h3, h2]; rfl, fun _ _ => by rw [h1]; rfl, h4, Nat.zero_le _, by rw [h2]; exact Nat.le_refl _⟩

end Verif
