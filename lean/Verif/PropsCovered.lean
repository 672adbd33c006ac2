import Verif.L1Cover
import Verif.PropsLive
/-
# C90: claims are covered and a stake comes back

The $iPROVE that stakers asked back sits in one pool for each prover. C41 shows that claims can be paid out of other
stakers' escrow after a pool was slashed completely. Here: as long as that does not happen, the pool covers all
open claims, nobody's claim is touched by what others do, and a stake comes back.
-/

namespace Verif
open L1

/-- In the history `h` from `w₀`, no slash takes everything from the pool of `p` while there are open claims on it. -/
def NeverWiped (cfg : Cfg) (p : Address) (w₀ : World) (h : List (Ctx × Call)) : Prop :=
  ∀ pre c i, pre ++ [(c, Call.finishSlash p i)] <+: h → ∀ w, w = runCalls cfg w₀ (pre ++ [(c, .finishSlash p i)]) →
    (w.staking.escrowPools p).slashFactor ≠ 0 ∨ ∀ a, w.staking.stakerToProver a = p → w.staking.unstakeClaims a = []

theorem NeverWiped.nil (cfg : Cfg) (p : Address) (w₀ : World) : NeverWiped cfg p w₀ [] := by
  intro pre c i hp
  have := List.prefix_nil.mp hp
  simp at this

theorem NeverWiped.snoc {cfg : Cfg} {p : Address} {w₀ : World} {h : List (Ctx × Call)} (hn : NeverWiped cfg p w₀ h) {x : Ctx × Call}
    (hx : (∀ i, x.2 ≠ .finishSlash p i) ∨ ((runCalls cfg w₀ (h ++ [x])).staking.escrowPools p).slashFactor ≠ 0) :
    NeverWiped cfg p w₀ (h ++ [x]) := by
  intro pre c i hp w hw
  rcases List.prefix_concat_iff.mp hp with e | hp'
  · have e' := (List.append_inj' e rfl).2
    rcases hx with hx | hx
    · rw [← (List.cons.inj e').1] at hx
      exact absurd rfl (hx i)
    · rw [← e, ← hw] at hx; exact Or.inl hx
  · exact hn pre c i hp' w hw

/-- Calls that are no slashes of the prover do not wipe it. -/
theorem NeverWiped.append {cfg : Cfg} {p : Address} {w₀ : World} (l : List (Ctx × Call)) : ∀ {h : List (Ctx × Call)}, NeverWiped cfg p w₀ h →
    (∀ x ∈ l, ∀ i, x.2 ≠ .finishSlash p i) → NeverWiped cfg p w₀ (h ++ l) := by
  induction l with
  | nil => intro h hn _; rw [List.append_nil]; exact hn
  | cons x l ih =>
    intro h hn hl
    have := ih (hn.snoc (Or.inl (hl x List.mem_cons_self))) (fun y hy => hl y (List.mem_cons_of_mem _ hy))
    rwa [List.append_assoc] at this

theorem NeverWiped.left {cfg : Cfg} {p : Address} {w₀ : World} {h l : List (Ctx × Call)} (hn : NeverWiped cfg p w₀ (h ++ l)) :
    NeverWiped cfg p w₀ h := fun q c i hq => hn q c i (hq.trans (List.prefix_append ..))

theorem Reachable.run {cfg : Cfg} {w₀ : World} {h : List (Ctx × Call)} (hg : Genesis cfg w₀) (ha : ∀ x ∈ h, Admissible cfg x) :
    Reachable cfg (runCalls cfg w₀ h) := ⟨w₀, h, hg, ha, rfl⟩

theorem runCalls_snoc (cfg : Cfg) (w : World) (h : List (Ctx × Call)) (x : Ctx × Call) :
    runCalls cfg w (h ++ [x]) = call cfg x.1 x.2 (runCalls cfg w h) := by
  rw [runCalls_append, runCalls_cons]; rfl

/-- The invariant after histories in which the prover is never wiped. -/
theorem NeverWiped.sound {cfg : Cfg} (hc : cfg.WF) {p : Address} (hp : p ≠ 0) {w₀ : World} (hg : Genesis cfg w₀)
    {h : List (Ctx × Call)} (ha : ∀ x ∈ h, Admissible cfg x) (hn : NeverWiped cfg p w₀ h) : Sound p (runCalls cfg w₀ h) := by
  have key : ∀ r : List (Ctx × Call), (∀ x ∈ r.reverse, Admissible cfg x) → NeverWiped cfg p w₀ r.reverse →
      Sound p (runCalls cfg w₀ r.reverse) := by
    intro r
    induction r with
    | nil => intro _ _; exact Sound.genesis hg p
    | cons x r ih =>
      rw [List.reverse_cons]
      intro ha hn
      have ha' : ∀ y ∈ r.reverse, Admissible cfg y := fun y hy => ha y (List.mem_append_left _ hy)
      have hs := ih ha' hn.left
      have hax := ha x (List.mem_append_right _ List.mem_cons_self)
      rw [runCalls_snoc]
      rcases call_ok (cfg := cfg) (c := x.1) (k := x.2) (w := runCalls cfg w₀ r.reverse) with ⟨w', h1, h2⟩ | ⟨_, h2⟩
      · rw [h2]
        refine hs.step (exec_claims hc (Reachable.run hg ha') hax h1 hp) ?_
        rintro ⟨i, hi⟩ h0 a
        have hx : x = (x.1, .finishSlash p i) := by rw [← hi]
        have := hn r.reverse x.1 i (by rw [← hx]; exact List.prefix_refl _) w' (by rw [← hx, runCalls_snoc, h2])
        rcases this with h | h
        · exact absurd h0 h
        · unfold World.claimsOn
          split
          · rename_i e; exact h a e
          · rfl
      · rw [h2]; exact hs
  have := key h.reverse
  rw [List.reverse_reverse] at this
  exact this ha hn

theorem le_sum_of_mem {l : List Nat} {n : Nat} (h : n ∈ l) : n ≤ l.sum := by
  induction l with
  | nil => exact (List.not_mem_nil h).elim
  | cons a l ih =>
    rw [List.sum_cons]
    rcases List.mem_cons.mp h with rfl | h
    · omega
    · have := ih h; omega

section
variable {cfg : Cfg} (hc : cfg.WF) {w₀ : World} {h : List (Ctx × Call)} (hg : Genesis cfg w₀) (ha : ∀ x ∈ h, Admissible cfg x)
  {w : World} (hw : w = runCalls cfg w₀ h) {p : Address} (hp : p ≠ 0) (hn : NeverWiped cfg p w₀ h)
include hc hg ha hw hp hn

/-! ## Coverage -/

/-- **C90**, coverage: the pool of a prover that was never wiped covers what all open claims on it are worth, of any
distinct stakers together. -/
theorem c90_covered (l : List Address) (hl : l.Nodup) (hs : ∀ a ∈ l, w.staking.stakerToProver a = p) :
    (l.map fun a => ((w.staking.unstakeClaims a).map (scaledClaim (w.staking.escrowPools p).slashFactor)).sum).sum ≤
      (w.staking.escrowPools p).iPROVEEscrow := by
  subst hw
  exact (hn.sound hc hp hg ha).claims l hl hs

/-- **C90**, isolation: what an open claim is worth in $iPROVE changes only by a slash of the prover, and then it
falls. Stakes, requests and payouts of others do not touch it. -/
theorem c90_worth {c : Ctx} {k : Call} {w' : World} (hk : Admissible cfg (c, k)) (hx : exec cfg c k w = .ok ((), w'))
    {a : Address} (hs : w.staking.stakerToProver a = p) (hs' : w'.staking.stakerToProver a = p) {cl : UnstakeClaim}
    (h1 : cl ∈ w.staking.unstakeClaims a) (h2 : cl ∈ w'.staking.unstakeClaims a) :
    scaledClaim (w'.staking.escrowPools p).slashFactor cl ≤ scaledClaim (w.staking.escrowPools p).slashFactor cl ∧
    ((∀ i, k ≠ .finishSlash p i) →
      scaledClaim (w'.staking.escrowPools p).slashFactor cl = scaledClaim (w.staking.escrowPools p).slashFactor cl) := by
  subst hw
  exact (hn.sound hc hp hg ha).worth (exec_claims hc (Reachable.run hg ha) hk hx hp) (mem_claimsOn.mpr ⟨hs, h1⟩)
    (mem_claimsOn.mpr ⟨hs', h2⟩)

/-- What `finishUnstake` pays at least: the worth of each claim whose period is over, at the current price. -/
theorem c90_payout {c : Ctx} {s : Address} (hs : w.staking.stakerToProver s = p) {w' : World}
    (hx : exec cfg c (.finishUnstake s) w = .ok ((), w')) :
    w.prove.bal s + (((w.staking.unstakeClaims s).filter fun cl => decide (cl.timestamp + w.staking.unstakePeriod ≤ c.now)).map
      fun cl => scaledClaim (w.staking.escrowPools p).slashFactor cl * (w.prove.bal cfg.iprove + 1) / (w.iprove.supply + 1)).sum ≤
      w'.prove.bal s := by
  have hr : Reachable cfg w := by subst hw; exact Reachable.run hg ha
  have hcov := c90_covered hc hg ha hw hp hn [s] (by simp) (by intro a h; rw [List.mem_singleton.mp h]; exact hs)
  simp only [List.map_cons, List.map_nil, List.sum_cons, List.sum_nil, Nat.add_zero] at hcov
  have hi := StakingInv.reachable hc w hr
  obtain ⟨done, paid, d1, d2, d3, _, d4, d5, _⟩ := c40_finish hc hr hx
  rw [hs] at d4
  have hpool : (w.staking.escrowPools p).iPROVEEscrow ≤ w.iprove.supply :=
    Nat.le_trans (HasSum.le hi.stake.escrow _) (HasSum.le hi.stake.iprove _)
  obtain ⟨_, _, _, _, g5⟩ := settle_list _ (w.prove.bal cfg.iprove) w.iprove.supply done _ _ d4 hpool (Rate.refl _ _)
  simp only [settling, Nat.zero_add] at g5
  have hd : ((w.staking.unstakeClaims s).filter fun cl => decide (cl.timestamp + w.staking.unstakePeriod ≤ c.now)).Perm done := by
    refine (d1.symm.filter _).trans ?_
    rw [List.filter_append, List.filter_eq_self.mpr (fun cl hcl => decide_eq_true (d2 cl hcl)),
      List.filter_eq_nil_iff.mpr (fun cl hcl => by have := d3 cl hcl; simp only [decide_eq_true_eq]; omega), List.append_nil]
  have := g5 (Nat.le_trans (sum_map_le_of_perm_append _ d1) hcov)
  rw [(hd.map _).sum_nat, d5]
  omega

/-- **C90**, payout: if the periods of all claims of a staker are over, `finishUnstake` pays at least what
`unstakePending` reported. -/
theorem c90_pending {c : Ctx} {s : Address} (hs : w.staking.stakerToProver s = p) {w' : World} {m : Nat}
    (hm : unstakePending cfg s w = .ok (m, w)) (hx : exec cfg c (.finishUnstake s) w = .ok ((), w'))
    (hall : ∀ cl ∈ w.staking.unstakeClaims s, cl.timestamp + w.staking.unstakePeriod ≤ c.now) :
    w.prove.bal s + m ≤ w'.prove.bal s := by
  have h1 := c90_payout hc hg ha hw hp hn hs hx
  rw [List.filter_eq_self.mpr (fun cl hcl => decide_eq_true (hall cl hcl))] at h1
  rw [unstakePending_ok hm (by rw [hs]; exact hp), hs]
  exact h1

omit hw hn ha
/-- A claim that is open stays so and keeps its worth in histories without a slash of the prover and without a payout
to the staker. -/
theorem claim_stays {a : Address} {cl : UnstakeClaim} (h2 : List (Ctx × Call)) : ∀ {h : List (Ctx × Call)},
    (∀ x ∈ h, Admissible cfg x) → NeverWiped cfg p w₀ h → (∀ x ∈ h2, Admissible cfg x) →
    (∀ x ∈ h2, (∀ i, x.2 ≠ .finishSlash p i) ∧ x.2 ≠ .finishUnstake a) → cl ∈ (runCalls cfg w₀ h).claimsOn p a →
    cl ∈ (runCalls cfg w₀ (h ++ h2)).claimsOn p a ∧
      scaledClaim ((runCalls cfg w₀ (h ++ h2)).staking.escrowPools p).slashFactor cl =
        scaledClaim ((runCalls cfg w₀ h).staking.escrowPools p).slashFactor cl := by
  induction h2 with
  | nil => intro h _ _ _ _ hm; rw [List.append_nil]; exact ⟨hm, rfl⟩
  | cons x h2 ih =>
    intro h ha hn ha2 hno hm
    have hx := hno x List.mem_cons_self
    have hax := ha2 x List.mem_cons_self
    have ha' : ∀ y ∈ h ++ [x], Admissible cfg y := fun y hy => by
      rcases List.mem_append.mp hy with hy | hy
      · exact ha y hy
      · rw [List.mem_singleton.mp hy]; exact hax
    have step : cl ∈ (runCalls cfg w₀ (h ++ [x])).claimsOn p a ∧
        scaledClaim ((runCalls cfg w₀ (h ++ [x])).staking.escrowPools p).slashFactor cl =
          scaledClaim ((runCalls cfg w₀ h).staking.escrowPools p).slashFactor cl := by
      rw [runCalls_snoc]
      rcases call_ok (cfg := cfg) (c := x.1) (k := x.2) (w := runCalls cfg w₀ h) with ⟨w', h1, h2⟩ | ⟨_, h2⟩
      · rw [h2]
        have hs := hn.sound hc hp hg ha
        have hcs := exec_claims hc (Reachable.run hg ha) hax h1 hp
        have hmem : cl ∈ w'.claimsOn p a := by
          cases hcs with
          | keep h e => rw [h a]; exact hm
          | request b y f t hf h ho e =>
            by_cases hb : a = b
            · subst hb; rw [h]; exact List.mem_append_left _ hm
            · rw [ho a hb]; exact hm
          | finish s done st hk hst h ho e ef =>
            have hb : a ≠ s := fun e => hx.2 (by rw [e]; exact hk)
            rw [ho a hb]; exact hm
          | slash i total n hk h hn ht e ef => rw [h a]; exact hm
        exact ⟨hmem, (hs.worth hcs hm hmem).2 hx.1⟩
      · rw [h2]; exact ⟨hm, rfl⟩
    have := ih ha' (hn.snoc (Or.inl hx.1)) (fun y hy => ha2 y (List.mem_cons_of_mem _ hy))
      (fun y hy => hno y (List.mem_cons_of_mem _ hy)) step.1
    rw [List.append_assoc] at this
    exact ⟨this.1, this.2.trans step.2⟩

include hw hn ha
/-! ## The way back -/

/-- **C90**, the way back: a staker whose stake is worth `m` (by `staked`) asks for all of it back, waits - anything
can happen meanwhile except a slash of their prover - and finishes after the unstaking period: they get at least `m`. -/
theorem c90_back {a : Address} (hs : w.staking.stakerToProver a = p) {m : Nat} (hm : staked cfg a w = .ok (m, w))
    -- the request
    {c : Ctx} {v : U256} {w1 : World} (hv : v.toNat = w.st.bal a) (hca : c.sender = a) (hadm : Admissible cfg (c, .requestUnstake v))
    (hx : exec cfg c (.requestUnstake v) w = .ok ((), w1))
    -- the wait
    {h2 : List (Ctx × Call)} (ha2 : ∀ x ∈ h2, Admissible cfg x)
    (hno : ∀ x ∈ h2, (∀ i, x.2 ≠ .finishSlash p i) ∧ x.2 ≠ .finishUnstake a) {w2 : World} (hw2 : w2 = runCalls cfg w1 h2)
    -- the payout
    {c' : Ctx} {w3 : World} (hnow : c.now + w2.staking.unstakePeriod ≤ c'.now) (hx' : exec cfg c' (.finishUnstake a) w2 = .ok ((), w3)) :
    w2.prove.bal a + m ≤ w3.prove.bal a := by
  have hr : Reachable cfg w := by subst hw; exact Reachable.run hg ha
  have hw1 : w1 = runCalls cfg w₀ (h ++ [(c, .requestUnstake v)]) := by
    rw [runCalls_snoc, ← hw]
    rcases call_ok (cfg := cfg) (c := c) (k := .requestUnstake v) (w := w) with ⟨w', h1, h2⟩ | ⟨⟨e, h1⟩, h2⟩
    · rw [h1] at hx; rw [h2]; injection hx with hx; injection hx with _ hx; exact hx.symm
    · rw [h1] at hx; exact (nomatch hx)
  have ha1 : ∀ y ∈ h ++ [(c, .requestUnstake v)], Admissible cfg y := fun y hy => by
    rcases List.mem_append.mp hy with hy | hy
    · exact ha y hy
    · rw [List.mem_singleton.mp hy]; exact hadm
  have hn1 := hn.snoc (x := (c, .requestUnstake v)) (Or.inl fun i => Call.noConfusion)
  obtain ⟨q, esc, f, e1, _, e2, e3, e4, _, e5, _⟩ := c40_request hc hr hx
  have es := (exec_fields hx).s2p (fun _ _ => Call.noConfusion) (fun _ _ _ _ => Call.noConfusion) (fun _ => Call.noConfusion)
  rw [hca, hs] at e1
  subst e1
  rw [hca] at e4
  have hf0 : 0 < f := by
    rw [e3]
    have := SCALAR_pos
    split <;> omega
  have hmem : (⟨esc, f, c.now⟩ : UnstakeClaim) ∈ (runCalls cfg w₀ (h ++ [(c, .requestUnstake v)])).claimsOn q a := by
    rw [← hw1]
    refine mem_claimsOn.mpr ⟨by rw [es]; exact hs, ?_⟩
    rw [e4]
    exact List.mem_append_right _ List.mem_cons_self
  obtain ⟨k1, k2⟩ := claim_stays hc hg hp h2 ha1 hn1 ha2 hno hmem
  have hw2' : w2 = runCalls cfg w₀ (h ++ [(c, .requestUnstake v)] ++ h2) := by rw [hw2, hw1, ← runCalls_append]
  have ha2' : ∀ y ∈ h ++ [(c, .requestUnstake v)] ++ h2, Admissible cfg y := fun y hy => by
    rcases List.mem_append.mp hy with hy | hy
    · exact ha1 y hy
    · exact ha2 y hy
  rw [← hw2'] at k1 k2
  rw [← hw1, e5] at k2
  obtain ⟨k3, k4⟩ := mem_claimsOn.mp k1
  have hpay := c90_payout hc hg ha2' hw2' hp (NeverWiped.append h2 hn1 fun x hx => (hno x hx).1) k3 hx'
  have hin : (⟨esc, f, c.now⟩ : UnstakeClaim) ∈
      (w2.staking.unstakeClaims a).filter fun cl => decide (cl.timestamp + w2.staking.unstakePeriod ≤ c'.now) :=
    List.mem_filter.mpr ⟨k4, decide_eq_true hnow⟩
  have hone := le_sum_of_mem (List.mem_map_of_mem (f := fun cl => scaledClaim (w2.staking.escrowPools q).slashFactor cl *
    (w2.prove.bal cfg.iprove + 1) / (w2.iprove.supply + 1)) hin)
  have hval : scaledClaim f ⟨esc, f, c.now⟩ = esc := Nat.mul_div_cancel _ hf0
  dsimp only at hone k2
  rw [k2, hval] at hone
  have hprice := c58_price hc hr ([(c, .requestUnstake v)] ++ h2) (fun y hy => by
    rcases List.mem_append.mp hy with hy | hy
    · rw [List.mem_singleton.mp hy]; exact hadm
    · exact ha2 y hy)
  have hrun : runCalls cfg w ([(c, .requestUnstake v)] ++ h2) = w2 := by
    rw [hw2', hw, ← runCalls_append, List.append_assoc]
  rw [hrun] at hprice
  have hm' : m = esc * (w.prove.bal cfg.iprove + 1) / (w.iprove.supply + 1) := by
    rcases (staked_ok hm).2 with ⟨h0, _⟩ | ⟨_, _, e⟩
    · rw [hs] at h0; exact absurd h0 hp
    · rw [e, hs, e2, hv]
  have hv2 := Rate.value hprice (Nat.le_refl esc)
  rw [← hm'] at hv2
  omega

/-- **C90**, the round trip: whoever stakes and asks for everything back gets at least what the stake was worth right
after staking, if their prover is not slashed in between. -/
theorem c90_round_trip {a : Address}
    -- the stake
    {c0 : Ctx} {k : Call} {v0 : U256} (hk : k = .stake p v0 ∧ a = c0.sender ∨ ∃ s, k = .permitAndStake s p a v0)
    (hadm0 : Admissible cfg (c0, k)) {w1 : World} (hx0 : exec cfg c0 k w = .ok ((), w1)) {m : Nat}
    (hm : staked cfg a w1 = .ok (m, w1))
    -- while it is staked
    {h1 : List (Ctx × Call)} (ha1 : ∀ x ∈ h1, Admissible cfg x)
    (hno1 : ∀ x ∈ h1, (∀ i, x.2 ≠ .finishSlash p i) ∧ ∀ v, x.1.sender = a → x.2 ≠ .requestUnstake v) {w2 : World}
    (hw2 : w2 = runCalls cfg w1 h1) {m2 : Nat} (hm2 : staked cfg a w2 = .ok (m2, w2))
    -- the request
    {c : Ctx} {v : U256} {w3 : World} (hv : v.toNat = w2.st.bal a) (hca : c.sender = a) (hadm : Admissible cfg (c, .requestUnstake v))
    (hx : exec cfg c (.requestUnstake v) w2 = .ok ((), w3))
    -- the wait
    {h2 : List (Ctx × Call)} (ha2 : ∀ x ∈ h2, Admissible cfg x)
    (hno2 : ∀ x ∈ h2, (∀ i, x.2 ≠ .finishSlash p i) ∧ x.2 ≠ .finishUnstake a) {w4 : World} (hw4 : w4 = runCalls cfg w3 h2)
    -- the payout
    {c' : Ctx} {w5 : World} (hnow : c.now + w4.staking.unstakePeriod ≤ c'.now) (hx' : exec cfg c' (.finishUnstake a) w4 = .ok ((), w5)) :
    w4.prove.bal a + m ≤ w5.prove.bal a := by
  have hr : Reachable cfg w := by subst hw; exact Reachable.run hg ha
  have hw1 : w1 = runCalls cfg w₀ (h ++ [(c0, k)]) := by
    rw [runCalls_snoc, ← hw]
    rcases call_ok (cfg := cfg) (c := c0) (k := k) (w := w) with ⟨w', h1, h2⟩ | ⟨⟨e, h1⟩, h2⟩
    · rw [h1] at hx0; rw [h2]; injection hx0 with hx0; injection hx0 with _ hx0; exact hx0.symm
    · rw [h1] at hx0; exact (nomatch hx0)
  have had : ∀ y ∈ h ++ [(c0, k)], Admissible cfg y := fun y hy => by
    rcases List.mem_append.mp hy with hy | hy
    · exact ha y hy
    · rw [List.mem_singleton.mp hy]; exact hadm0
  have hr1 : Reachable cfg w1 := by rw [hw1]; exact Reachable.run hg had
  have hn1 := hn.snoc (x := (c0, k)) (Or.inl fun i e => by
    rcases hk with ⟨rfl, _⟩ | ⟨s, rfl⟩ <;> exact Call.noConfusion e)
  obtain ⟨i, n, _, _, _, hn0, _, _, _, _, _, _, _, _, _, _, _, _, _, _, _, _, e1, _, _, e2⟩ := c59_stake hc hr hadm0 hx0 hk
  have hs1 : w1.staking.stakerToProver a = p := by rw [e2]; exact upd_same ..
  have hs2 : w2.staking.stakerToProver a = p := by
    have key : ∀ (h : List (Ctx × Call)) (w : World), Reachable cfg w → (∀ x ∈ h, Admissible cfg x) →
        (∀ x ∈ h, ∀ v, x.1.sender = a → x.2 ≠ .requestUnstake v) → w.st.bal a ≠ 0 →
        (runCalls cfg w h).staking.stakerToProver a = w.staking.stakerToProver a := by
      intro h
      induction h with
      | nil => intro w _ _ _ _; rfl
      | cons x h ih =>
        intro w hr ha hu hb
        rw [runCalls_cons]
        have hr' := Reachable.call hr (ha x List.mem_cons_self)
        have hin : ∀ y ∈ h, y ∈ x :: h := fun y hy => List.mem_cons_of_mem _ hy
        rcases call_ok (cfg := cfg) (c := x.1) (k := x.2) (w := w) with ⟨w', h1, h2⟩ | ⟨_, h2⟩
        · rw [h2] at hr' ⊢
          have e1 := c39_stable hc hr h1 a hb
          have e2 : w.st.bal a ≤ w'.st.bal a := by
            by_cases e : w'.st.bal a = w.st.bal a
            · exact Nat.le_of_eq e.symm
            · rcases c39_nontransferable hc hr (ha x List.mem_cons_self) h1 a e with ⟨g, _⟩ | ⟨v, hk, hsnd, _⟩
              · exact Nat.le_of_lt g
              · exact absurd hk (hu x List.mem_cons_self v hsnd)
          rw [ih w' hr' (fun y hy => ha y (hin y hy)) (fun y hy => hu y (hin y hy)) (by omega), e1]
        · rw [h2] at hr' ⊢
          exact ih w hr' (fun y hy => ha y (hin y hy)) (fun y hy => hu y (hin y hy)) hb
    rw [hw2, key h1 w1 hr1 ha1 (fun x hx => (hno1 x hx).2) (by rw [e1]; omega), hs1]
  have hle := c58_staked hc hr1 h1 ha1 a (fun x hx => (hno1 x hx).2) (by rw [hs1]; exact fun x hx => (hno1 x hx).1) m m2 hm
    (by rw [← hw2]; exact hm2)
  have hb := c90_back hc hg (h := h ++ [(c0, k)] ++ h1) (fun y hy => by
    rcases List.mem_append.mp hy with hy | hy
    · exact had y hy
    · exact ha1 y hy) (w := w2) (by rw [hw2, hw1, ← runCalls_append]) hp (NeverWiped.append h1 hn1 fun x hx => (hno1 x hx).1) hs2 hm2 hv hca hadm hx ha2 hno2
    hw4 hnow hx'
  omega

omit hg ha hw hp hn
/-- **C90**, the way in: a first stake of `v` is worth, right after staking, at most `v` and at least `v` less the
rounding: with $iPROVE at a price of at most `x` $PROVE and the vault's shares at a price of at most `y` $iPROVE, at most
`x * (y + 2)` base units are lost. At the initial prices, 3. -/
theorem c90_stake (hr : Reachable cfg w) {a : Address} {c : Ctx} {k : Call} {v : U256}
    (hk : k = .stake p v ∧ a = c.sender ∨ ∃ s, k = .permitAndStake s p a v) (hadm : Admissible cfg (c, k)) {w' : World}
    (hx : exec cfg c k w = .ok ((), w')) (hfirst : w.st.bal a = 0) {m : Nat} (hm : staked cfg a w' = .ok (m, w')) :
    m ≤ v.toNat ∧
    ∀ x y, w'.prove.bal cfg.iprove + 1 ≤ x * (w'.iprove.supply + 1) → w'.iprove.bal p + 1 ≤ y * ((w'.vault p).supply + 1) →
      v.toNat ≤ m + x * (y + 2) := by
  have hi := StakingInv.reachable hc w hr
  obtain ⟨i, n, hin, hnn, _, hn0, hreg, _, _, _, _, _, _, b1, _, _, b2, _, b3, b4, _, _, e1, _, _, e2⟩ := c59_stake hc hr hadm hx hk
  have hp0 : p ≠ 0 := (hi.reg.ne hc hreg).1
  have hs : w'.staking.stakerToProver a = p := by rw [e2]; exact upd_same ..
  have hm' : m = n * (w'.iprove.bal p + 1) / ((w'.vault p).supply + 1) * (w'.prove.bal cfg.iprove + 1) / (w'.iprove.supply + 1) := by
    rcases (staked_ok hm).2 with ⟨h0, _⟩ | ⟨_, _, e⟩
    · rw [hs] at h0; exact absurd h0 hp0
    · rw [hs, e1, hfirst, Nat.zero_add] at e; exact e
  rw [b1, b2, b3, b4] at *
  generalize w.prove.bal cfg.iprove = B at *
  generalize w.iprove.supply = S at *
  generalize w.iprove.bal p = b at *
  generalize (w.vault p).supply = s at *
  generalize v.toNat = v at *
  have i1 : i * (B + 1) ≤ v * (S + 1) := by rw [hin]; exact Nat.div_mul_le_self _ _
  have i2 : v * (S + 1) ≤ i * (B + 1) + B := by
    have := Nat.lt_div_mul_add (a := v * (S + 1)) (show 0 < B + 1 from Nat.succ_pos B)
    rw [← hin] at this; omega
  have n1 : n * (b + 1) ≤ i * (s + 1) := by rw [hnn]; exact Nat.div_mul_le_self _ _
  have n2 : i * (s + 1) ≤ n * (b + 1) + b := by
    have := Nat.lt_div_mul_add (a := i * (s + 1)) (show 0 < b + 1 from Nat.succ_pos b)
    rw [← hnn] at this; omega
  generalize he : n * (b + i + 1) / (s + n + 1) = e at *
  have x1 : e * (s + n + 1) ≤ n * (b + i + 1) := by rw [← he]; exact Nat.div_mul_le_self _ _
  have x2 : n * (b + i + 1) ≤ e * (s + n + 1) + (s + n) := by
    have := Nat.lt_div_mul_add (a := n * (b + i + 1)) (show 0 < s + n + 1 from Nat.succ_pos (s + n))
    rw [he] at this; omega
  have y1 : m * (S + i + 1) ≤ e * (B + v + 1) := by rw [hm']; exact Nat.div_mul_le_self _ _
  have y2 : e * (B + v + 1) ≤ m * (S + i + 1) + (S + i) := by
    have := Nat.lt_div_mul_add (a := e * (B + v + 1)) (show 0 < S + i + 1 from Nat.succ_pos (S + i))
    rw [← hm'] at this; omega
  have e_le : e ≤ i := by
    refine Nat.le_of_mul_le_mul_right (c := s + n + 1) ?_ (Nat.succ_pos _)
    have h1 : n * (b + i + 1) = n * (b + 1) + n * i := by grind
    have h2 : i * (s + n + 1) = i * (s + 1) + n * i := by grind
    omega
  have hvi : i * (B + v + 1) ≤ v * (S + i + 1) := by
    have h1 : i * (B + v + 1) = i * (B + 1) + v * i := by grind
    have h2 : v * (S + i + 1) = v * (S + 1) + v * i := by grind
    omega
  refine ⟨?_, fun x y hx hy => ?_⟩
  · refine Nat.le_of_mul_le_mul_right (c := S + i + 1) ?_ (Nat.succ_pos _)
    have := Nat.mul_le_mul_right (B + v + 1) e_le
    omega
  · have hv' : v * (S + i + 1) ≤ i * (B + v + 1) + B := by
      have h1 : i * (B + v + 1) = i * (B + 1) + v * i := by grind
      have h2 : v * (S + i + 1) = v * (S + 1) + v * i := by grind
      omega
    have hi' : i * (s + n + 1) ≤ e * (s + n + 1) + (s + n) + b := by
      have h1 : n * (b + i + 1) = n * (b + 1) + n * i := by grind
      have h2 : i * (s + n + 1) = i * (s + 1) + n * i := by grind
      omega
    -- less than `y + 1` $iPROVE are lost in the vault
    have hi2 : i ≤ e + y := by
      refine Nat.le_of_lt_succ (Nat.lt_of_mul_lt_mul_right (a := s + n + 1) ?_)
      have h1 : (e + y + 1) * (s + n + 1) = e * (s + n + 1) + y * (s + n + 1) + (s + n + 1) := by grind
      show i * (s + n + 1) < (e + y + 1) * (s + n + 1)
      omega
    refine Nat.le_of_lt_succ (Nat.lt_of_mul_lt_mul_right (a := S + i + 1) ?_)
    have h1 := Nat.mul_le_mul_right (B + v + 1) hi2
    have h2 : (e + y) * (B + v + 1) = e * (B + v + 1) + y * (B + v + 1) := Nat.add_mul ..
    have h3 : y * (B + v + 1) ≤ y * (x * (S + i + 1)) := Nat.mul_le_mul_left _ hx
    have h4 : (m + x * (y + 2) + 1) * (S + i + 1) = m * (S + i + 1) + y * (x * (S + i + 1)) + 2 * (x * (S + i + 1)) + (S + i + 1) := by grind
    show v * (S + i + 1) < (m + x * (y + 2) + 1) * (S + i + 1)
    omega

end

/-! ## Witnesses -/

namespace ToyL1
/-- No call of the list slashes `prover1`. -/
def noSlash (l : List (Ctx × Call)) : Bool := l.all fun x => match x.2 with | .finishSlash p _ => p != prover1 | _ => true

theorem noSlash_ok {l : List (Ctx × Call)} (h : noSlash l = true) : ∀ x ∈ l, ∀ i, x.2 ≠ .finishSlash prover1 i := by
  intro x hx i e
  have := List.all_eq_true.mp h x hx
  rw [e] at this
  simp at this

/-- In the history to `w4`, in which `prover1` is slashed by a fifth while alice has open claims, it is not wiped. -/
theorem w4_not_wiped : NeverWiped cfg prover1 genesis (stakes ++ [(ctx gov 1170, .finishSlash prover1 0)]) := by
  have h : NeverWiped cfg prover1 genesis ([] ++ stakes) :=
    NeverWiped.append stakes (NeverWiped.nil _ _ _) (noSlash_ok (by decide +kernel))
  rw [List.nil_append] at h
  exact h.snoc (Or.inr (by decide +kernel))

/-- Alice stakes more and finishes, the dispenser gives something out. -/
def wait : List (Ctx × Call) :=
  [ (ctx alice 1250, .stake prover1 700), (ctx gov 1250, .updateDispenseRate 3), (ctx alice 1260, .finishUnstake alice),
    (ctx dsp 1290, .dispense 100) ]
/-- Bob asks for all of their stake back. -/
def w8 : World := call cfg (ctx bob 1240) (.requestUnstake 500) w4
/-- After alice's stake of 1000 the price of $iPROVE rises. -/
def rise : List (Ctx × Call) := stakes.take 5 ++
  [ (ctx gov 1010, .updateDispenseRate 3), (ctx dsp 1110, .dispense 130), (ctx bob 1120, .proveApprove cfg.staking 5000) ]
/-- And waits. -/
def w9 : World := runCalls cfg w8 wait
end ToyL1

-- The slash took a fifth of 1500: alice's open claims of 400 and 100 are worth 320 and 80, and the pool has 400.
-- Nothing of it is trivial: there are claims, the factor fell, the call was accepted.
open ToyL1 in
example : cfg.WF ∧ Genesis cfg genesis ∧ (stakes ++ [(ctx gov 1170, Call.finishSlash prover1 0)]).all admissible = true ∧
    w4 = runCalls cfg genesis (stakes ++ [(ctx gov 1170, .finishSlash prover1 0)]) ∧
    NeverWiped cfg prover1 genesis (stakes ++ [(ctx gov 1170, .finishSlash prover1 0)]) :=
  ⟨cfg_wf, genesis_ok, by decide +kernel, by unfold w4 w3; rw [runCalls_append]; rfl, w4_not_wiped⟩
open ToyL1 in
example : prover1 ≠ 0 ∧ w4.staking.stakerToProver alice = prover1 ∧
    ((w4.staking.unstakeClaims alice).map (scaledClaim (w4.staking.escrowPools prover1).slashFactor)) = [320, 80] ∧
    (w4.staking.escrowPools prover1).iPROVEEscrow = 400 := by decide +kernel
-- Coverage fails where the prover was wiped: in `w6` (see `c41_false`) the claims are worth 2000, the pool has 1000.
open ToyL1 in
example : ([alice, bob].map fun a => ((w6.staking.unstakeClaims a).map (scaledClaim (w6.staking.escrowPools prover1).slashFactor)).sum).sum = 2000 ∧
    (w6.staking.escrowPools prover1).iPROVEEscrow = 1000 ∧ w6.staking.stakerToProver alice = prover1 ∧
    w6.staking.stakerToProver bob = prover1 := by decide +kernel
-- The way back: bob's 500 shares are worth 400 after the slash. Bob gets 426, since the dispense raised the price.
open ToyL1 in
example : (staked cfg bob w4).toOption.map (·.1) = some 400 ∧ w4.st.bal bob = 500 ∧
    (exec cfg (ctx bob 1240) (.requestUnstake 500) w4).toBool = true ∧ wait.all admissible = true ∧ noSlash wait = true ∧
    1240 + w9.staking.unstakePeriod ≤ 1400 ∧ (exec cfg (ctx bob 1400) (.finishUnstake bob) w9).toBool = true ∧
    (call cfg (ctx bob 1400) (.finishUnstake bob) w9).prove.bal bob = w9.prove.bal bob + 426 := by decide +kernel
-- The way in: alice's first stake of 1000 at the initial prices is worth 1000 right after.
open ToyL1 in
example : (stakes.take 4).all admissible = true ∧ (runCalls cfg genesis (stakes.take 4)).st.bal alice = 0 ∧
    (exec cfg (ctx alice 1000) (.stake prover1 1000) (runCalls cfg genesis (stakes.take 4))).toBool = true ∧
    (staked cfg alice (call cfg (ctx alice 1000) (.stake prover1 1000) (runCalls cfg genesis (stakes.take 4)))).toOption.map (·.1) =
      some 1000 := by decide +kernel
-- At a price of 1131 / 1001 $PROVE for an $iPROVE, bob's stake of 500 is worth 499.
open ToyL1 in
example : (exec cfg (ctx bob 1130) (.stake prover1 500) (runCalls cfg genesis rise)).toBool = true ∧
    (staked cfg bob (call cfg (ctx bob 1130) (.stake prover1 500) (runCalls cfg genesis rise))).toOption.map (·.1) = some 499 := by
  decide +kernel
-- And the round trip: more is given out while bob's stake is there, and bob gets 511 for all of their shares.
open ToyL1 in
example :
    let w1 := call cfg (ctx bob 1130) (.stake prover1 500) (runCalls cfg genesis rise)
    let w2 := runCalls cfg w1 [(ctx dsp 1150, .dispense 40)]
    let w4 := runCalls cfg (call cfg (ctx bob 1160) (.requestUnstake 442) w2) [(ctx alice 1170, .requestUnstake 300)]
    let w5 := call cfg (ctx bob 1260) (.finishUnstake bob) w4
    (rise ++ ([(ctx bob 1130, .stake prover1 500), (ctx dsp 1150, .dispense 40), (ctx bob 1160, .requestUnstake 442),
      (ctx alice 1170, .requestUnstake 300)] : List (Ctx × Call))).all admissible = true ∧ w2.st.bal bob = 442 ∧
    (staked cfg bob w1).toOption.map (·.1) = some 499 ∧ (staked cfg bob w2).toOption.map (·.1) = some 511 ∧
    1160 + w4.staking.unstakePeriod ≤ 1260 ∧ w5.prove.bal bob = w4.prove.bal bob + 511 := by decide +kernel

end Verif
