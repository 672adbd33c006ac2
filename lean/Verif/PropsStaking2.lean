import Verif.PropsStaking
/-
# Properties of the staking contract: C41 to C45
-/

namespace Verif
open L1

/-! ## C42: slashing -/

/-- How much of `n` slashed from `total` comes out of the escrow: its share, rounded down. -/
def escrowPart (n escrow total : Nat) : Nat := n * escrow / total

/-- The factor after slashing `n` of `total`, from the factor `f` (a stored 0 stands for 1). -/
def slashedFactor (f n total : Nat) : Nat :=
  if n = 0 then f
  else if n = total then 0
  else (if f = 0 then SCALAR else f) * ((total - n) * SCALAR / total) / SCALAR

theorem slashedFactor_le (f n total : Nat) : slashedFactor f n total ≤ (if f = 0 then SCALAR else f) := by
  have hS : 0 < SCALAR := by decide
  unfold slashedFactor
  split
  · split <;> omega
  · split
    · exact Nat.zero_le _
    · generalize (if f = 0 then SCALAR else f) = g
      have h1 : (total - n) * SCALAR / total ≤ SCALAR := by
        by_cases ht : total = 0
        · rw [ht, Nat.div_zero]; exact Nat.zero_le _
        · rw [Nat.div_le_iff_le_mul_add_pred (by omega)]
          have : (total - n) * SCALAR ≤ total * SCALAR := Nat.mul_le_mul_right _ (by omega)
          omega
      calc g * ((total - n) * SCALAR / total) / SCALAR ≤ g * SCALAR / SCALAR :=
            Nat.div_le_div_right (Nat.mul_le_mul_left _ h1)
        _ = g := Nat.mul_div_cancel _ hS

/-- `finishSlash` burns min(request, vault + escrow) of $iPROVE, from the escrow its share rounded down and
the rest from the vault, and the $PROVE behind it; nothing else moves. The factor does not go up. -/
theorem c42_finishSlash {cfg : Cfg} (hc : cfg.WF) {c : Ctx} {p : Address} {i : U256} {w w' : World} (hr : Reachable cfg w)
    (h : exec cfg c (.finishSlash p i) w = .ok ((), w')) :
    ∃ claim total n fe, (w.staking.slashClaims p)[i.toNat]? = some claim ∧
      total = w.iprove.bal p + (w.staking.escrowPools p).iPROVEEscrow ∧
      n = min claim.iPROVE total ∧ fe = escrowPart n (w.staking.escrowPools p).iPROVEEscrow total ∧
      -- from the escrow
      (w'.staking.escrowPools p).iPROVEEscrow + fe = (w.staking.escrowPools p).iPROVEEscrow ∧
      w'.iprove.bal cfg.staking + fe = w.iprove.bal cfg.staking ∧
      -- from the vault
      fe ≤ n ∧ w'.iprove.bal p + (n - fe) = w.iprove.bal p ∧
      -- burnt
      w'.iprove.supply + n = w.iprove.supply ∧
      (∃ b1 b2, b1 = fe * (w.prove.bal cfg.iprove + 1) / (w.iprove.supply + 1) ∧
        b2 = (n - fe) * (w.prove.bal cfg.iprove - b1 + 1) / (w.iprove.supply - fe + 1) ∧
        w'.prove.supply + (b1 + b2) = w.prove.supply ∧
        w'.prove.bal cfg.iprove + (b1 + b2) = w.prove.bal cfg.iprove) ∧
      -- the factor
      (w'.staking.escrowPools p).slashFactor = slashedFactor (w.staking.escrowPools p).slashFactor n total ∧
      -- nothing else
      (∀ a, a ≠ p → a ≠ cfg.staking → w'.iprove.bal a = w.iprove.bal a) ∧
      (∀ a, a ≠ cfg.iprove → w'.prove.bal a = w.prove.bal a) ∧
      (∀ q, q ≠ p → w'.staking.escrowPools q = w.staking.escrowPools q) ∧
      w'.st = w.st ∧ w'.vault = w.vault ∧ w'.staking.unstakeClaims = w.staking.unstakeClaims ∧
      w'.staking.stakerToProver = w.staking.stakerToProver := by
  have hi := StakingInv.reachable hc w hr
  replace h := drop_ok.mp h
  obtain ⟨n, h⟩ := h
  obtain ⟨_, hp, claim, hcl, hres, hn, w1, h1, h2⟩ := finishSlash_ok h
  have hne : cfg.staking ≠ p := Ne.symm (hi.reg.ne hc hp).2.2.2.1
  refine ⟨claim, _, n, _, hcl, rfl, by omega, rfl, ?_⟩
  generalize htot : w.iprove.bal p + (w.staking.escrowPools p).iPROVEEscrow = total at *
  -- deactivation changes none of these
  have hw : w'.staking.escrowPools = w1.staking.escrowPools ∧ w'.iprove = w1.iprove ∧ w'.prove = w1.prove ∧ w'.st = w1.st ∧
      w'.vault = w1.vault ∧ w'.staking.unstakeClaims = w1.staking.unstakeClaims ∧
      w'.staking.stakerToProver = w1.staking.stakerToProver := by
    rcases h2 with ⟨rfl, _⟩ | ⟨_, _, _, rfl⟩ <;> exact ⟨rfl, rfl, rfl, rfl, rfl, rfl, rfl⟩
  obtain ⟨e1, e2, e3, e4, e5, e6, e7⟩ := hw
  rw [e1, e2, e3, e4, e5, e6, e7]
  unfold escrowPart slashedFactor
  split at h1
  · rename_i hn0
    subst h1
    rw [hn0]
    have e0 : ∀ x y, 0 * x / y = 0 := fun x y => by rw [Nat.zero_mul, Nat.zero_div]
    rw [e0, if_pos rfl]
    exact ⟨rfl, rfl, Nat.le_refl _, rfl, rfl, ⟨0, 0, by rw [e0], by rw [e0], rfl, rfl⟩, rfl, fun _ _ _ => rfl, fun _ _ => rfl, fun _ _ => rfl,
      rfl, rfl, rfl, rfl⟩
  · rename_i hn0
    obtain ⟨hle, fe, fv, pr, ip, f, hfe, hfen, hfv, hfep, ⟨i1, b1, b2, p1, c1, c2⟩, hf, rfl⟩ := h1
    dsimp only [Staking.resolve] at hfe hfep hf b1 c1 ⊢
    rw [← hfe]
    -- the two burns of $iPROVE
    have hb1 : i1.bal cfg.staking + fe = w.iprove.bal cfg.staking ∧ (∀ a, a ≠ cfg.staking → i1.bal a = w.iprove.bal a) ∧
        i1.supply + fe = w.iprove.supply := by
      split at b1
      · rename_i hz; rw [b1, hz]; exact ⟨rfl, fun _ _ => rfl, rfl⟩
      · obtain ⟨_, hb, he⟩ := Erc20.burn_ok b1
        have hsup := (hi.stake.iprove).le cfg.staking
        rw [he]; dsimp only; rw [upd_same]
        exact ⟨by omega, fun a ha => upd_ne _ _ ha, by omega⟩
    have hib : i1.Balanced := by
      split at b1
      · rw [b1]; exact hi.stake.iprove
      · exact hi.stake.iprove.burn b1
    have hb2 : ip.bal p + fv = i1.bal p ∧ (∀ a, a ≠ p → ip.bal a = i1.bal a) ∧ ip.supply + fv = i1.supply := by
      split at b2
      · rename_i hz; rw [b2, hz]; exact ⟨rfl, fun _ _ => rfl, rfl⟩
      · obtain ⟨_, hb, he⟩ := Erc20.burn_ok b2
        have hsup := hib.le p
        rw [he]; dsimp only; rw [upd_same]
        exact ⟨by omega, fun a ha => upd_ne _ _ ha, by omega⟩
    -- the burns of $PROVE
    have hc1 : ∃ b, b = fe * (w.prove.bal cfg.iprove + 1) / (w.iprove.supply + 1) ∧ p1.supply + b = w.prove.supply ∧
        p1.bal cfg.iprove + b = w.prove.bal cfg.iprove ∧ (∀ a, a ≠ cfg.iprove → p1.bal a = w.prove.bal a) ∧ p1.Balanced := by
      split at c1
      · rename_i hz
        rw [c1]; exact ⟨0, by rw [hz, Nat.zero_mul, Nat.zero_div], rfl, rfl, fun _ _ => rfl, hi.prove.balanced⟩
      · have hbal := hi.prove.balanced.burn c1
        obtain ⟨_, hb, he⟩ := Erc20.burn_ok c1
        have hsup := hi.prove.balanced.le cfg.iprove
        refine ⟨_, rfl, ?_, ?_, ?_, hbal⟩ <;> rw [he] <;> dsimp only
        · omega
        · rw [upd_same]; omega
        · exact fun a ha => upd_ne _ _ ha
    obtain ⟨d1, dle, q1, q2, q3, q4⟩ := hc1
    have hc2 : ∃ b, b = fv * (p1.bal cfg.iprove + 1) / (i1.supply + 1) ∧ pr.supply + b = p1.supply ∧
        pr.bal cfg.iprove + b = p1.bal cfg.iprove ∧ (∀ a, a ≠ cfg.iprove → pr.bal a = p1.bal a) := by
      split at c2
      · rename_i hz
        rw [c2]; exact ⟨0, by rw [hz, Nat.zero_mul, Nat.zero_div], rfl, rfl, fun _ _ => rfl⟩
      · obtain ⟨_, hb, he⟩ := Erc20.burn_ok c2
        have hsup := q4.le cfg.iprove
        refine ⟨_, rfl, ?_, ?_, ?_⟩ <;> rw [he] <;> dsimp only
        · omega
        · rw [upd_same]; omega
        · exact fun a ha => upd_ne _ _ ha
    obtain ⟨d2, dle2, r1, r2, r3⟩ := hc2
    have hd : d2 = (n - fe) * (w.prove.bal cfg.iprove - d1 + 1) / (w.iprove.supply - fe + 1) := by
      have e1 : w.prove.bal cfg.iprove - d1 = p1.bal cfg.iprove := by omega
      have e2 : w.iprove.supply - fe = i1.supply := by omega
      rw [e1, e2, ← hfv]; exact dle2
    have hps := hb1.2.1 p (Ne.symm hne)
    have hsp := hb2.2.1 cfg.staking hne
    refine ⟨by rw [upd_same]; dsimp only; omega, by omega, hfen, by omega, by omega, ⟨d1, d2, dle, hd, by omega, by omega⟩, ?_, ?_, ?_,
      fun q hq => upd_ne _ _ hq, rfl, rfl, rfl, rfl⟩
    · rw [upd_same, hf]
      dsimp only
      rw [if_neg hn0]
      by_cases e : total = n
      · rw [if_pos e, if_pos e.symm]
      · rw [if_neg e, if_neg (Ne.symm e)]; rfl
    · intro a h1 h2
      rw [hb2.2.1 a h1, hb1.2.1 a h2]
    · intro a ha
      rw [r3 a ha, q3 a ha]

/-- After a slash the vault has lost about the same fraction as the escrow: the escrow keeps at least its
proportional share, and less than one unit more. -/
theorem c42_proportional {n escrow total : Nat} (hn : n ≤ total) (he : escrow ≤ total) (ht : total ≠ 0) :
    escrowPart n escrow total * total ≤ n * escrow ∧ n * escrow < (escrowPart n escrow total + 1) * total ∧
    escrowPart n escrow total ≤ n ∧ escrowPart n escrow total ≤ escrow ∧
    n - escrowPart n escrow total ≤ total - escrow := by
  unfold escrowPart
  have h1 := Nat.div_mul_le_self (n * escrow) total
  have h2 := Nat.lt_div_mul_add (a := n * escrow) (b := total) (by omega)
  have h3 : n * escrow / total ≤ n := by
    calc n * escrow / total ≤ n * total / total := Nat.div_le_div_right (Nat.mul_le_mul_left _ he)
      _ = n := Nat.mul_div_cancel _ (by omega)
  have h4 : n * escrow / total ≤ escrow := by
    calc n * escrow / total ≤ total * escrow / total := Nat.div_le_div_right (Nat.mul_le_mul_right _ hn)
      _ = escrow := by rw [Nat.mul_comm]; exact Nat.mul_div_cancel _ (by omega)
  refine ⟨h1, by rw [Nat.add_mul]; omega, h3, h4, ?_⟩
  -- (total - n) (total - escrow) ≥ 0
  generalize hq : n * escrow / total = q at *
  obtain ⟨a, rfl⟩ := Nat.exists_eq_add_of_le hn
  obtain ⟨b, hb⟩ := Nat.exists_eq_add_of_le he
  have : n + escrow ≤ q + (n + a) := by
    apply Classical.byContradiction
    intro hlt
    have hlt : q + 1 + (n + a) ≤ n + escrow := by omega
    have h5 : (q + 1) * (n + a) + (n + a) * (n + a) ≤ (n + escrow) * (n + a) := by
      rw [← Nat.add_mul]; exact Nat.mul_le_mul_right _ hlt
    have h6 : n * escrow + (n + a) * (n + a) < (n + escrow) * (n + a) := by
      have : n * escrow < (q + 1) * (n + a) := by rw [Nat.add_mul]; omega
      omega
    have h7 : a * b + (n * escrow + (n + a) * (n + a)) = n * escrow + (n + a) * (n + a) + a * b := by omega
    have h8 : (n + escrow) * (n + a) ≤ n * escrow + (n + a) * (n + a) := by
      -- n * total + escrow * total ≤ n * escrow + total * total, as (total - n)(total - escrow) ≥ 0
      have e1 : (n + escrow) * (n + a) = n * (n + a) + escrow * (n + a) := Nat.add_mul _ _ _
      have e2 : escrow * (n + a) = n * escrow + escrow * a := by rw [Nat.mul_add, Nat.mul_comm escrow n]
      have e3 : (n + a) * (n + a) = n * (n + a) + a * (n + a) := Nat.add_mul _ _ _
      have e4 : escrow * a ≤ a * (n + a) := by rw [Nat.mul_comm]; exact Nat.mul_le_mul_left _ he
      omega
    omega
  omega

/-- What a claim pays at the moment: scaled by the fall of the factor since the request, at most the pool. -/
def payout (w : World) (p : Address) (cl : UnstakeClaim) : Nat :=
  min (w.staking.escrowPools p).iPROVEEscrow
    (cl.iPROVEEscrow * (w.staking.escrowPools p).slashFactor / cl.slashFactor)

/-! ## C41: slashed claims

The property is false of the code. A pool that was slashed completely keeps the factor 0; the next
`requestUnstake` for the prover sets the factor back to 1 although older claims are still open, so these pay
in full again, out of the newcomer's escrow. -/

/-- Alice's claim pays nothing after the slash, but 1000 after bob's unstake request: alice then gets bob's
1000 $PROVE and bob, who was never slashed, gets nothing. -/
theorem c41_false : ∃ (cfg : Cfg) (w : World) (h : List (Ctx × Call)) (a b p : Address) (cl : UnstakeClaim) (c c' : Ctx),
    cfg.WF ∧ Reachable cfg w ∧ (∀ x ∈ h, Admissible cfg x) ∧
    w.staking.unstakeClaims a = [cl] ∧ w.staking.stakerToProver a = p ∧ payout w p cl = 0 ∧
    (runCalls cfg w h).staking.unstakeClaims a = [cl] ∧ payout (runCalls cfg w h) p cl = 1000 ∧
    (runCalls cfg (runCalls cfg w h) [(c, .finishUnstake a)]).prove.bal a = w.prove.bal a + 1000 ∧
    (runCalls cfg (runCalls cfg w h) [(c, .finishUnstake a), (c', .finishUnstake b)]).prove.bal b + 1000 = w.prove.bal b ∧
    (runCalls cfg (runCalls cfg w h) [(c, .finishUnstake a), (c', .finishUnstake b)]).staking.unstakeClaims b = [] := by
  open ToyL1 in
  refine ⟨ToyL1.cfg, w5, bobUnstakes, alice, bob, prover1, ⟨1000, SCALAR, 1100⟩, ctx alice 1330, ctx bob 1330, cfg_wf,
    ToyL1.reachable (by decide +kernel), fun x hx => admissible_ok ?_, ?_⟩
  · exact List.all_eq_true.mp (show bobUnstakes.all admissible = true by decide +kernel) x hx
  · decide +kernel

/-- What holds: a call raises the slash factor of a pool only if the factor was 0 (then an unstake request
sets it to 1) or if it is a `finishUnstake` that leaves the pool empty. -/
theorem c41_factor_partial {cfg : Cfg} (hc : cfg.WF) {c : Ctx} {k : Call} {w w' : World} (hr : Reachable cfg w)
    (h : exec cfg c k w = .ok ((), w')) (p : Address) (hf : (w.staking.escrowPools p).slashFactor ≠ 0)
    (he : (w'.staking.escrowPools p).iPROVEEscrow ≠ 0) :
    (w'.staking.escrowPools p).slashFactor ≤ (w.staking.escrowPools p).slashFactor := by
  have hp := (exec_fields h).pools
  cases k
  case requestUnstake v =>
    obtain ⟨q, esc, f, _, _, _, e1, _, _, e2, e3, _⟩ := c40_request hc hr h
    by_cases e : p = q
    · subst e
      rw [e2, e1, if_neg hf]; exact Nat.le_refl _
    · rw [e3 p e]; exact Nat.le_refl _
  case finishSlash q i =>
    obtain ⟨_, total, n, _, _, _, _, _, _, _, _, _, _, _, e1, _, _, e2, _⟩ := c42_finishSlash hc hr h
    by_cases e : p = q
    · subst e
      have := slashedFactor_le (w.staking.escrowPools p).slashFactor n total
      rw [if_neg hf] at this
      rw [e1]; exact this
    · rw [e2 p e]; exact Nat.le_refl _
  case finishUnstake s =>
    replace h := drop_ok.mp h
    obtain ⟨n, h⟩ := h
    obtain ⟨_, _, _, w1, hl, rfl⟩ := finishUnstake_ok h
    have r := finishLoop_rel (PayRel.pre cfg s (w.staking.stakerToProver s)) (fun _ _ _ _ _ h => h.rel) _ _ _ _ _ _ hl
    obtain ⟨_, _, _, _, _, e6, e7, _⟩ := finishTail_same s (w.staking.stakerToProver s) w1
    by_cases e : p = w.staking.stakerToProver s
    · subst e
      rw [e6] at he
      rw [← r.factor]
      unfold finishTail
      dsimp only
      have hn : ¬((w1.staking.escrowPools (w.staking.stakerToProver s)).iPROVEEscrow = 0 ∧
        (w1.staking.escrowPools (w.staking.stakerToProver s)).slashFactor ≠ SCALAR) := fun h => he h.1
      rw [if_neg hn]
      split <;> exact Nat.le_refl _
    · rw [e7 p e, r.pools p e]; exact Nat.le_refl _
  all_goals
    rw [hp (fun _ => Call.noConfusion) (fun _ => Call.noConfusion) (fun _ _ => Call.noConfusion)]
    exact Nat.le_refl _

/-- As long as a prover's pool is neither slashed completely nor emptied, no event raises what an open claim
is worth (its escrowed amount scaled by the fall of the factor). Missing compared with the property: histories
in which the pool's factor or its escrow reaches 0. -/
theorem c41_worth_falls_partial {cfg : Cfg} (hc : cfg.WF) {w : World} (hr : Reachable cfg w) (p : Address)
    (h : List (Ctx × Call)) (ha : ∀ x ∈ h, Admissible cfg x)
    (hpool : ∀ pre, pre <+: h → ((runCalls cfg w pre).staking.escrowPools p).slashFactor ≠ 0 ∧
      ((runCalls cfg w pre).staking.escrowPools p).iPROVEEscrow ≠ 0) (cl : UnstakeClaim) :
    cl.iPROVEEscrow * ((runCalls cfg w h).staking.escrowPools p).slashFactor / cl.slashFactor ≤
      cl.iPROVEEscrow * (w.staking.escrowPools p).slashFactor / cl.slashFactor := by
  refine Nat.div_le_div_right (Nat.mul_le_mul_left _ ?_)
  induction h generalizing w with
  | nil => exact Nat.le_refl _
  | cons x h ih =>
    obtain ⟨c, k⟩ := x
    have hadm := ha _ (List.mem_cons_self ..)
    have hr' : Reachable cfg (call cfg c k w) := by
      obtain ⟨w0, h0, g1, g2, g3⟩ := hr
      refine ⟨w0, h0 ++ [(c, k)], g1, ?_, ?_⟩
      · intro x hx
        rcases List.mem_append.mp hx with hx | hx
        · exact g2 x hx
        · rw [List.mem_singleton.mp hx]; exact hadm
      · rw [runCalls_append, ← g3]; rfl
    rw [runCalls_cons]
    refine Nat.le_trans (ih hr' (fun x hx => ha x (List.mem_cons_of_mem _ hx)) ?_) ?_
    · intro pre hpre
      have := hpool ((c, k) :: pre) (List.cons_prefix_cons.mpr ⟨rfl, hpre⟩)
      rwa [runCalls_cons] at this
    · rcases call_ok (cfg := cfg) (c := c) (k := k) (w := w) with ⟨w', h1, h2⟩ | ⟨_, h2⟩
      · show ((call cfg c k w).staking.escrowPools p).slashFactor ≤ _
        have h3 := (hpool [(c, k)] ⟨h, rfl⟩).2
        have e : runCalls cfg w [(c, k)] = w' := h2
        rw [e] at h3
        rw [h2]
        exact c41_factor_partial hc hr h1 p (hpool [] List.nil_prefix).1 h3
      · show ((call cfg c k w).staking.escrowPools p).slashFactor ≤ _
        rw [h2]; exact Nat.le_refl _

/-! ## C43: slash claims -/

/-- The counter of a prover is the number of its unresolved slash claims (modulo 2^256). -/
theorem c43_count {cfg : Cfg} {w : World} (hr : Reachable cfg w) (p : Address) :
    w.staking.slashClaimCount p = ((w.staking.slashClaims p).countP (fun cl => !cl.resolved)) % 2 ^ 256 :=
  SlashCount.reachable w hr p

/-- While a prover has an unresolved slash claim, staking with it, and requesting and finishing an unstake
from it are refused. (The list would need 2^256 entries for the counter to wrap.) -/
theorem c43_gate {cfg : Cfg} {w : World} (hr : Reachable cfg w) (p : Address) (cl : SlashClaim)
    (hcl : cl ∈ w.staking.slashClaims p) (hres : cl.resolved = false) (hlen : (w.staking.slashClaims p).length < 2 ^ 256)
    (c : Ctx) (w' : World) :
    (∀ v, exec cfg c (.stake p v) w ≠ .ok ((), w')) ∧
    (∀ s f v, exec cfg c (.permitAndStake s p f v) w ≠ .ok ((), w')) ∧
    (∀ v, w.staking.stakerToProver c.sender = p → exec cfg c (.requestUnstake v) w ≠ .ok ((), w')) ∧
    (∀ s, w.staking.stakerToProver s = p → exec cfg c (.finishUnstake s) w ≠ .ok ((), w')) := by
  have hne : w.staking.slashClaimCount p ≠ 0 := by
    rw [c43_count hr p]
    have h1 : 0 < (w.staking.slashClaims p).countP (fun cl => !cl.resolved) :=
      List.countP_pos_iff.mpr ⟨cl, hcl, by rw [hres]; rfl⟩
    have h2 := List.countP_le_length (l := w.staking.slashClaims p) (p := fun cl => !cl.resolved)
    rw [Nat.mod_eq_of_lt (by omega)]
    omega
  refine ⟨fun v h => ?_, fun s f v h => ?_, fun v hs h => ?_, fun s hs h => ?_⟩
  · replace h := drop_ok.mp h
    obtain ⟨n, h⟩ := h
    obtain ⟨_, _, _, _, _, he⟩ := stake_ok h
    exact hne he.noSlash
  · replace h := drop_ok.mp h
    obtain ⟨n, h⟩ := h
    obtain ⟨_, _, _, _, _, _, _, he⟩ := permitAndStake_ok h
    exact hne he.noSlash
  · obtain ⟨_, _, _, h4, _⟩ := requestUnstake_ok h
    rw [hs] at h4
    exact hne h4
  · replace h := drop_ok.mp h
    obtain ⟨n, h⟩ := h
    obtain ⟨_, _, h3, _⟩ := finishUnstake_ok h
    rw [hs] at h3
    exact hne h3

/-- A resolved claim can be neither cancelled nor finished. -/
theorem c43_resolved_refused {cfg : Cfg} {w : World} {p : Address} {i : U256} {cl : SlashClaim}
    (hcl : (w.staking.slashClaims p)[i.toNat]? = some cl) (hres : cl.resolved = true) (c : Ctx) (w' : World) :
    exec cfg c (.cancelSlash p i) w ≠ .ok ((), w') ∧ exec cfg c (.finishSlash p i) w ≠ .ok ((), w') := by
  constructor
  · intro h
    obtain ⟨_, cl', h1, h2, _⟩ := cancelSlash_ok h
    rw [hcl] at h1
    rw [← Option.some.inj h1, hres] at h2
    exact nomatch h2
  · intro h
    replace h := drop_ok.mp h
    obtain ⟨n, h⟩ := h
    obtain ⟨_, _, cl', h1, h2, _⟩ := finishSlash_ok h
    rw [hcl] at h1
    rw [← Option.some.inj h1, hres] at h2
    exact nomatch h2

/-- Cancelling or finishing resolves exactly the named claim. -/
theorem c43_resolves {cfg : Cfg} {w w' : World} {p : Address} {i : U256} {c : Ctx}
    (h : exec cfg c (.cancelSlash p i) w = .ok ((), w') ∨ exec cfg c (.finishSlash p i) w = .ok ((), w')) :
    ∃ cl, (w.staking.slashClaims p)[i.toNat]? = some cl ∧ cl.resolved = false ∧
      w'.staking.slashClaims p = (w.staking.slashClaims p).set i.toNat ⟨cl.iPROVE, cl.timestamp, true⟩ ∧
      ∀ q, q ≠ p → w'.staking.slashClaims q = w.staking.slashClaims q := by
  rcases h with h | h
  · obtain ⟨_, cl, h1, h2, _, rfl⟩ := cancelSlash_ok h
    exact ⟨cl, h1, h2, upd_same _ _ _, fun q hq => upd_ne _ _ hq⟩
  · replace h := drop_ok.mp h
    obtain ⟨n, h⟩ := h
    obtain ⟨cl, _, _, _, _, h1, h2, rfl⟩ := finishSlash_shape h
    exact ⟨cl, h1, h2, upd_same _ _ _, fun q hq => upd_ne _ _ hq⟩

/-- `requestSlash` appends one open claim; it is only accepted from the vApp contract. -/
theorem c43_request {cfg : Cfg} {w w' : World} {p : Address} {v : U256} {c : Ctx}
    (h : exec cfg c (.requestSlash p v) w = .ok ((), w')) :
    c.sender = cfg.vapp ∧ w.staking.provers p = true ∧ v.toNat ≠ 0 ∧
      w'.staking.slashClaims p = w.staking.slashClaims p ++ [⟨v.toNat, c.now, false⟩] ∧
      ∀ q, q ≠ p → w'.staking.slashClaims q = w.staking.slashClaims q := by
  replace h := drop_ok.mp h
  obtain ⟨n, h⟩ := h
  obtain ⟨h1, h2, h3, _, rfl⟩ := requestSlash_ok h
  exact ⟨h1, h2, h3, upd_same _ _ _, fun q hq => upd_ne _ _ hq⟩

/-- Over any history claims stay in place with their amount and time, and a resolved claim stays resolved;
so no claim is resolved twice. -/
theorem c43_once {cfg : Cfg} (w : World) (h : List (Ctx × Call)) (p : Address) (i : Nat) (cl : SlashClaim)
    (hcl : (w.staking.slashClaims p)[i]? = some cl) :
    ∃ cl', ((runCalls cfg w h).staking.slashClaims p)[i]? = some cl' ∧ cl'.iPROVE = cl.iPROVE ∧
      cl'.timestamp = cl.timestamp ∧ (cl.resolved = true → cl'.resolved = true) :=
  runCalls_within SlashMono.pre (fun _ _ _ _ _ h => exec_slashMono h) h w p i cl hcl

/-- A claim can be cancelled only after the cancellation period and the governor's voting delay and period. -/
theorem c43_cancel_deadline {cfg : Cfg} {w w' : World} {p : Address} {i : U256} {c : Ctx}
    (h : exec cfg c (.cancelSlash p i) w = .ok ((), w')) :
    ∃ cl, (w.staking.slashClaims p)[i.toNat]? = some cl ∧
      cl.timestamp + w.staking.slashCancellationPeriod + c.votingDelay + c.votingPeriod ≤ c.now := by
  obtain ⟨_, cl, h1, _, h2, _⟩ := cancelSlash_ok h
  exact ⟨cl, h1, h2⟩

/-! ## C44: dispensing -/

/-- In any history with non-decreasing time, the $PROVE dispensed is at most what accrued, and `maxDispense`
is exactly the rest. -/
theorem c44_budget {cfg : Cfg} (hc : cfg.WF) {w : World} (hg : Genesis cfg w) (h : List (Ctx × Call))
    (htime : h.Pairwise (fun x y => x.1.now ≤ y.1.now)) (t : Nat) (ht : ∀ x ∈ h, x.1.now ≤ t) :
    dispensed cfg w h ≤ accrued (rateLog cfg w h []) t ∧
    ∀ c : Ctx, c.now = t → accrued (rateLog cfg w h []) t ≤ max256 →
      maxDispense c (runCalls cfg w h) =
        .ok (accrued (rateLog cfg w h []) t - dispensed cfg w h, runCalls cfg w h) := by
  have hi := (DispInv.genesis hg).run hc h [] 0 0 w htime (fun _ _ => Nat.zero_le _) t (Nat.zero_le _) ht
  rw [Nat.zero_add] at hi
  refine ⟨hi.le, ?_⟩
  rintro c rfl hmax
  have h1 := hi.now (Nat.le_refl c.now)
  have h2 := hi.dist
  have h3 := hi.le
  have h4 := hi.time
  generalize runCalls cfg w h = w' at *
  rw [h1] at hmax h3 ⊢
  rw [← h2] at h3 ⊢
  simp only [maxDispense, bind_ok, get_ok, sub256_ok, mul256_ok, add256_ok]
  exact ⟨_, _, ⟨rfl, rfl⟩, _, _, ⟨h4, rfl, rfl⟩, _, _, ⟨by omega, rfl, rfl⟩, _, _, ⟨by omega, rfl, rfl⟩, h3, rfl, rfl⟩

/-- What a dispense does: only the dispenser, $PROVE from the staking contract to the $iPROVE vault. -/
theorem c44_dispense {cfg : Cfg} (hc : cfg.WF) {c : Ctx} {v : U256} {w w' : World}
    (h : exec cfg c (.dispense v) w = .ok ((), w')) :
    c.sender = w.staking.dispenser ∧ ∃ n avail, maxDispense c w = .ok (avail, w) ∧ n ≠ 0 ∧ n ≤ avail ∧
      n = (if v.toNat = max256 then avail else v.toNat) ∧
      w'.prove.bal cfg.iprove = w.prove.bal cfg.iprove + n ∧ w'.prove.bal cfg.staking + n = w.prove.bal cfg.staking ∧
      (∀ a, a ≠ cfg.iprove → a ≠ cfg.staking → w'.prove.bal a = w.prove.bal a) ∧ w'.iprove = w.iprove := by
  have hne : cfg.staking ≠ cfg.iprove := by
    intro e; have hd := hc.distinct; rw [e] at hd; simp at hd
  simp only [exec, dispense, bind_ok, get_ok, require_ok, add256_ok, modStaking_ok] at h
  obtain ⟨_, _, ⟨rfl, rfl⟩, _, w, ⟨h1, rfl⟩, av, w2, hm, _, _, ⟨h2, rfl⟩, _, _, ⟨h3, rfl⟩, _, _, ⟨rfl, rfl⟩,
    _, _, ⟨_, rfl, rfl⟩, _, _, rfl, h4⟩ := h
  obtain ⟨e, _⟩ := maxDispense_ok hm
  subst e
  obtain ⟨t, ht, rfl⟩ := proveTransfer_ok h4
  obtain ⟨b1, b2, b3, b4, _⟩ := Erc20.transfer_bal ht hne
  exact ⟨h1, _, av, hm, h2, h3, rfl, b3, by dsimp only at *; omega, fun a x y => b4 a y x, rfl⟩

/-! ## C45: the prover registry -/

/-- Provers have distinct ids, exactly the numbers from 1 to the prover count, and distinct owners. -/
theorem c45_registry {cfg : Cfg} (hc : cfg.WF) {w : World} (hr : Reachable cfg w) :
    (∀ p, w.staking.provers p = true → 1 ≤ (w.info p).id ∧ (w.info p).id ≤ w.staking.proverCount) ∧
    (∀ n, 1 ≤ n → n ≤ w.staking.proverCount → ∃ p, w.staking.provers p = true ∧ (w.info p).id = n) ∧
    (∀ p q, w.staking.provers p = true → w.staking.provers q = true → (w.info p).id = (w.info q).id → p = q) ∧
    (∀ p q, w.staking.provers p = true → w.staking.provers q = true → (w.info p).owner = (w.info q).owner → p = q) ∧
    (∀ p, w.staking.provers p = true → (w.info p).stakerFeeBips ≤ 10000) := by
  have h := (StakingInv.reachable hc w hr).reg
  exact ⟨h.id, h.id_surj, h.id_inj, fun p q hp hq e => by rw [← h.owner p hp, ← h.owner q hq, e], h.fee⟩

/-- The owner of a prover cannot create another one. -/
theorem c45_one_per_owner {cfg : Cfg} (hc : cfg.WF) {c : Ctx} {f : U256} {w w' : World} (hr : Reachable cfg w) (p : Address)
    (hp : w.staking.provers p = true) (ho : (w.info p).owner = c.sender) :
    exec cfg c (.createProver f) w ≠ .ok ((), w') := by
  intro h
  have hi := (StakingInv.reachable hc w hr).reg
  replace h := drop_ok.mp h
  obtain ⟨q, h⟩ := h
  obtain ⟨_, h2, _⟩ := createProver_ok h
  have h3 := hi.owner p hp
  rw [ho, h2] at h3
  exact (hi.ne hc hp).1 h3.symm

/-- `createProver` registers one new prover, owned by the caller, with the next id and the given fee. -/
theorem c45_create {cfg : Cfg} {c : Ctx} {f : U256} {w w' : World}
    (h : exec cfg c (.createProver f) w = .ok ((), w')) :
    ∃ p, w.staking.provers p = false ∧ w'.staking.provers p = true ∧
      w'.info p = ⟨c.sender, w.staking.proverCount + 1, f.toNat⟩ ∧ w'.staking.proverCount = w.staking.proverCount + 1 ∧
      ∀ q, q ≠ p → w'.staking.provers q = w.staking.provers q ∧ w'.info q = w.info q := by
  replace h := drop_ok.mp h
  obtain ⟨p, h⟩ := h
  obtain ⟨_, _, _, _, h5, _, _, _, _, _, _, rfl⟩ := createProver_ok h
  exact ⟨p, h5, upd_same _ _ _, upd_same _ _ _, rfl, fun q hq => ⟨upd_ne _ _ hq, upd_ne _ _ hq⟩⟩

/-- Provers are never removed, keep id, owner and fee, and a deactivated prover never becomes active again. -/
def RegistryGrows (w w' : World) : Prop :=
  (∀ p, w.staking.provers p = true → w'.staking.provers p = true ∧ w'.info p = w.info p) ∧
  (∀ p, w.staking.deactivatedProvers p = true → w'.staking.deactivatedProvers p = true)

theorem c45_permanent {cfg : Cfg} (w : World) (h : List (Ctx × Call)) : RegistryGrows w (runCalls cfg w h) := by
  refine runCalls_within (R := RegistryGrows) ⟨fun w => ⟨fun p hp => ⟨hp, rfl⟩, fun p hp => hp⟩,
    fun a b c h g => ⟨fun p hp => ?_, fun p hp => g.2 p (h.2 p hp)⟩⟩ (fun c k w _ w' hx => ?_) h w
  · obtain ⟨h1, h2⟩ := h.1 p hp
    obtain ⟨g1, g2⟩ := g.1 p h1
    exact ⟨g1, g2.trans h2⟩
  · have hf := exec_frames hx
    refine ⟨fun p hp => ?_, hf.2.2.2.2.2⟩
    by_cases hk : ∃ f, k = .createProver f
    · obtain ⟨f, rfl⟩ := hk
      obtain ⟨q, h1, _, _, _, h2⟩ := c45_create hx
      have hne : p ≠ q := by rintro rfl; rw [hp] at h1; exact nomatch h1
      rw [(h2 p hne).1, (h2 p hne).2]
      exact ⟨hp, rfl⟩
    · obtain ⟨e1, e2, _⟩ := hf.1 fun f e => hk ⟨f, e⟩
      rw [e1, e2]; exact ⟨hp, rfl⟩

/-- Nobody can stake with a deactivated prover, or with an address that is not a prover. -/
theorem c45_inactive_refused {cfg : Cfg} {w : World} {p : Address}
    (hp : w.staking.deactivatedProvers p = true ∨ w.staking.provers p = false) (c : Ctx) (w' : World) :
    (∀ v, exec cfg c (.stake p v) w ≠ .ok ((), w')) ∧ (∀ s f v, exec cfg c (.permitAndStake s p f v) w ≠ .ok ((), w')) := by
  constructor
  · intro v h
    replace h := drop_ok.mp h
    obtain ⟨n, h⟩ := h
    obtain ⟨h1, _, _, _, _, he⟩ := stake_ok h
    have h2 : w.staking.deactivatedProvers p = false := he.active
    rcases hp with hp | hp
    · rw [hp] at h2; exact nomatch h2
    · rw [hp] at h1; exact nomatch h1
  · intro s f v h
    replace h := drop_ok.mp h
    obtain ⟨n, h⟩ := h
    obtain ⟨h1, _, _, _, _, _, _, he⟩ := permitAndStake_ok h
    have h2 : w.staking.deactivatedProvers p = false := he.active
    rcases hp with hp | hp
    · rw [hp] at h2; exact nomatch h2
    · rw [hp] at h1; exact nomatch h1

/-! ## Concrete cases

`ToyL1.w3`: alice (1000, of which 500 are being unstaked) and bob (500) stake with `prover1`, and a slash of
300 is open. `ToyL1.w4`: the slash has been executed. -/

open ToyL1 in
example : Reachable cfg w3 ∧ Reachable cfg w4 :=
  ⟨reachable (by decide +kernel), by
    have e : w4 = runCalls cfg genesis (stakes ++ [(ctx gov 1170, .finishSlash prover1 0)]) := by
      rw [runCalls_append, runCalls_cons, runCalls_nil]; rfl
    rw [e]
    exact reachable (by decide +kernel)⟩

-- c42_finishSlash: the slash of 300 takes 100 from the escrow of 500 and 200 from the vault's 1000
open ToyL1 in
example : (exec cfg (ctx gov 1170) (.finishSlash prover1 0) w3).toBool = true ∧
    (w3.staking.escrowPools prover1).iPROVEEscrow = 500 ∧ (w4.staking.escrowPools prover1).iPROVEEscrow = 400 ∧
    (w4.staking.escrowPools prover1).slashFactor = 4 * SCALAR / 5 ∧
    w3.iprove.bal prover1 = 1000 ∧ w4.iprove.bal prover1 = 800 ∧
    w3.staking.slashClaims prover1 = [⟨300, 1160, false⟩] ∧ w4.staking.slashClaims prover1 = [⟨300, 1160, true⟩] := by
  decide +kernel

-- c42_proportional, c41_*_partial: the two claims lose a fifth each
open ToyL1 in
example : w4.staking.unstakeClaims alice = [⟨400, SCALAR, 1100⟩, ⟨100, SCALAR, 1150⟩] ∧
    (w4.staking.unstakeClaims alice).map (payout w4 prover1) = [320, 80] ∧
    (w4.staking.escrowPools prover1).slashFactor ≠ 0 := by
  decide +kernel

-- c43_gate: while the claim is open, staking and unstaking revert; afterwards they succeed
open ToyL1 in
example : (exec cfg (ctx bob 1161) (.stake prover1 10) w3).toBool = false ∧
    (exec cfg (ctx bob 1171) (.stake prover1 10) w4).toBool = true ∧
    (exec cfg (ctx bob 1161) (.requestUnstake 10) w3).toBool = false ∧
    (exec cfg (ctx bob 1171) (.requestUnstake 10) w4).toBool = true ∧
    (exec cfg (ctx bob 1300) (.finishUnstake alice) w3).toBool = false ∧
    (exec cfg (ctx bob 1300) (.finishUnstake alice) w4).toBool = true := by
  decide +kernel

-- c43_resolved_refused, c43_resolves, c43_cancel_deadline: cancelling too early reverts, later it works once
open ToyL1 in
example : (exec cfg (ctx gov 1165) (.cancelSlash prover1 0) w3).toBool = false ∧
    (exec cfg (ctx gov 100000000) (.cancelSlash prover1 0) w3).toBool = true ∧
    (exec cfg (ctx gov 100000000) (.cancelSlash prover1 0) w4).toBool = false ∧
    (exec cfg (ctx gov 100000000) (.finishSlash prover1 0) w4).toBool = false := by
  decide +kernel

/-- The dispense rate is set to 5 per second at time 1000, 200 are dispensed at 1100, the rate goes to 1 at
1200. -/
def dispHistory : List (Ctx × Call) :=
  open ToyL1 in
  [ (ctx gov 1000, .setDispenser dsp), (ctx gov 1000, .updateDispenseRate 5), (ctx dsp 1100, .dispense 200),
    (ctx gov 1200, .updateDispenseRate 1), (ctx dsp 1210, .dispense 20000) ]

-- c44_budget: 5 * 200 + 1 * 50 accrued at time 1250, 200 dispensed, and the excessive dispense was refused
open ToyL1 in
example : dispHistory.Pairwise (fun x y => x.1.now ≤ y.1.now) ∧ (∀ x ∈ dispHistory, x.1.now ≤ 1250) ∧
    dispensed cfg genesis dispHistory = 200 ∧ accrued (rateLog cfg genesis dispHistory []) 1250 = 1050 ∧
    (maxDispense (ctx bob 1250) (runCalls cfg genesis dispHistory)).toOption.map (·.1) = some 850 := by
  decide +kernel

-- c45: `prover1` exists, belongs to its creator, who cannot create another prover
open ToyL1 in
example : w3.staking.provers prover1 = true ∧ (w3.info prover1).id = 1 ∧ w3.staking.proverCount = 1 ∧
    (exec cfg (ctx (w3.info prover1).owner 1200) (.createProver 5) w3).toBool = false ∧
    (exec cfg (ctx alice 1200) (.createProver 5) w3).toBool = true ∧
    (exec cfg (ctx alice 1200) (.createProver 10001) w3).toBool = false := by
  decide +kernel

end Verif
