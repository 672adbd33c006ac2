import Verif.GovProofs
import Verif.ToyStaking
import Verif.PropsVapp
import Verif.PropsStaking2
/-
# C72: governance by stake

$iPROVE carries the votes; only prover vaults and the staking contract hold it, so what votes is the stake of each
prover, through the prover's owner. The specification: `stakeOf` (the stake of a prover in a state), `Snapshot` (the
state of a run at the end of a given second), `tally` (stake behind the votes cast), and the readings `ballot`,
`proposes`, `cancels`, `executes` of a single call (in `GovProofs`).
-/

namespace Verif
open L1

/-- `g₁` is the state at the end of second `t` in the run of `h` from `g₀` to `g`. -/
def Snapshot (cfg : Cfg) (gc : GCfg) (g₀ : Gov) (h : List (Ctx × GCall)) (g : Gov) (t : Nat) (g₁ : Gov) : Prop :=
  ∃ h1 h2, h = h1 ++ h2 ∧ (∀ x ∈ h1, x.1.now ≤ t) ∧ (∀ x ∈ h2, t < x.1.now) ∧
    GRun cfg gc g₀ h1 g₁ ∧ GRun cfg gc g₁ h2 g

/-- The stake, in world `w`, behind the votes cast for option `s` (0 against, 1 for, 2 abstain). -/
def tally (w : World) (bs : List (Address × Nat)) (s : Nat) : Nat :=
  ((bs.filter fun b => b.2 = s).map fun b => stakeOf w b.1).sum

/-- The setting: a run from deployment at time `T`, to a state at time `now`. -/
structure Run (cfg : Cfg) (gc : GCfg) (T : Nat) (g₀ : Gov) (h : List (Ctx × GCall)) (g : Gov) (now : Nat) : Prop where
  wf : cfg.WF
  genesis : GGenesis cfg T g₀
  ok : GOk cfg gc T h
  run : GRun cfg gc g₀ h g
  start : T ≤ now
  time : ∀ x ∈ h, x.1.now ≤ now
  small : now < 2 ^ 48

theorem Run.inv {cfg : Cfg} {gc : GCfg} {T : Nat} {g₀ : Gov} {h : List (Ctx × GCall)} {g : Gov} {now : Nat}
    (r : Run cfg gc T g₀ h g now) : GInv cfg now g :=
  ((GInv.genesis r.genesis).run r.wf r.ok r.run).mono (lastTime_le r.start r.time)

/-- Every run has a snapshot for every time. -/
theorem c72_snapshot {cfg : Cfg} {gc : GCfg} {T : Nat} {g₀ : Gov} {h : List (Ctx × GCall)} {g : Gov} {now : Nat}
    (r : Run cfg gc T g₀ h g now) (t : Nat) : ∃ g₁, Snapshot cfg gc g₀ h g t g₁ := by
  obtain ⟨h1, h2, e, a, b⟩ := r.ok.1.split t
  have hr := r.run
  rw [e] at hr
  obtain ⟨g1, r1, r2⟩ := GRun.append.mp hr
  exact ⟨g1, h1, h2, e, a, b, r1, r2⟩

/-- What the checkpoints say of time `t`. -/
theorem Run.at {cfg : Cfg} {gc : GCfg} {T : Nat} {g₀ : Gov} {h : List (Ctx × GCall)} {g g₁ : Gov} {now t : Nat}
    (r : Run cfg gc T g₀ h g now) (hs : Snapshot cfg gc g₀ h g t g₁) :
    (∀ a, a ≠ 0 → (g.v.cps a).at t = stakeOf g₁.w a) ∧ g.v.total.at t = g₁.w.iprove.supply ∧
      (T ≤ t → g.quorumNum.at t = g₁.quorumNum.latest) := by
  obtain ⟨h1, h2, e, a, b, r1, r2⟩ := hs
  have hok := r.ok
  rw [e] at hok
  obtain ⟨o1, o2⟩ := GOk.append.mp hok
  have hg := GInv.genesis r.genesis
  have hi := hg.run r.wf o1 r1
  obtain ⟨p1, p2, p3⟩ := hi.past r.wf o2 b r2
  by_cases hT : T ≤ t
  · have hl := lastTime_le hT a
    refine ⟨fun d hd => ?_, ?_, fun _ => ?_⟩
    · rw [p1, Trace.at_latest (hi.upto.cps d) hl, hi.latest r.wf hd]
    · rw [p2, Trace.at_latest hi.upto.total hl, hi.sum.total]
    · rw [p3, Trace.at_latest hi.quorum hl]
  · cases h1 with
    | nil =>
      obtain rfl := r1
      refine ⟨fun d hd => ?_, ?_, fun h => absurd h hT⟩
      · rw [p1, r.genesis.cps]
        unfold stakeOf
        rw [r.genesis.w.registry.2.2.1, if_neg (fun h => nomatch h)]
        rfl
      · rw [p2, r.genesis.total, r.genesis.w.iprove]; rfl
    | cons x h1 =>
      have h2 := o1.1.1
      have := a x List.mem_cons_self
      omega

/-! ## Votes are the stake at the time -/

/-- The votes the governor and $iPROVE report for a past time are the stakes at that time: the $iPROVE in the prover's
vault, nothing for anybody else, whatever was delegated. Nothing done later changes them. The total they report is the
supply at that time. -/
theorem c72_votes {cfg : Cfg} {gc : GCfg} {T : Nat} {g₀ : Gov} {h : List (Ctx × GCall)} {g g₁ : Gov} {c : Ctx} {t : Nat}
    (r : Run cfg gc T g₀ h g c.now) (ht : t < c.now) (hs : Snapshot cfg gc g₀ h g t g₁) :
    (∀ a, a ≠ 0 → g.pastVotes c a t = some (stakeOf g₁.w a)) ∧ g.pastSupply c t = some g₁.w.iprove.supply := by
  obtain ⟨a1, a2, _⟩ := r.at hs
  have hcl := clock_eq r.small
  unfold Gov.pastVotes Gov.pastSupply
  rw [hcl, if_pos ht]
  exact ⟨fun a ha => by rw [if_pos ht, a1 a ha], by rw [a2]⟩

/-- The stakes that can vote and the $iPROVE escrowed for leaving stakers make up the supply. -/
theorem c72_supply {cfg : Cfg} {gc : GCfg} {T : Nat} {g₀ : Gov} {h : List (Ctx × GCall)} {g : Gov} {now : Nat}
    (r : Run cfg gc T g₀ h g now) :
    HasSum (stakeOf g.w) (g.w.iprove.supply - g.w.iprove.bal cfg.staking) ∧ g.w.iprove.bal cfg.staking ≤ g.w.iprove.supply := by
  have hi := StakingInv.reachable r.wf _ r.inv.reach
  have hle := HasSum.le hi.stake.iprove cfg.staking
  refine ⟨?_, hle⟩
  have hp : g.w.staking.provers cfg.staking = false := by
    cases hp : g.w.staking.provers cfg.staking with
    | false => rfl
    | true => exact absurd rfl (hi.reg.ne r.wf hp).2.2.2.1
  have e : stakeOf g.w = upd g.w.iprove.bal cfg.staking 0 := by
    funext a
    unfold stakeOf
    by_cases ha : a = cfg.staking
    · subst ha; rw [upd_same, hp]; rfl
    · rw [upd_ne _ _ ha]
      cases hq : g.w.staking.provers a with
      | true => rfl
      | false => exact (hi.stake.held a ha hq).symm
  rw [e]
  exact HasSum.update hi.stake.iprove _ _ (by omega)

/-! ## Who votes -/

theorem ballot_ne {cfg : Cfg} (hc : cfg.WF) {gc : GCfg} {T : Nat} {x : Ctx × GCall} {g g' : Gov} (hi : GInv cfg T g)
    (ha : GAdmissible cfg gc x) (hs : GStep cfg gc x g g') {id : U256} {b : Address × Nat} (hb : ballot id x = some b) : b.1 ≠ 0 := by
  obtain ⟨c, k⟩ := x
  cases k <;> simp only [ballot, reduceCtorEq] at hb
  case castVote i s =>
    split at hb
    · obtain rfl := Option.some.inj hb; exact ha.1
    · exact nomatch hb
  case castVoteBySig v i s =>
    split at hb
    · obtain rfl := Option.some.inj hb
      have := hs.1
      dsimp only
      rw [← this]
      exact ha.2.2.2
    · exact nomatch hb
  case proverCastVote p i s =>
    split at hb
    · obtain rfl := Option.some.inj hb
      exact ((Registry.reachable hc _ hi.reach).ne hc hs.1.1).1
    · exact nomatch hb

theorem ballots_ne {cfg : Cfg} {gc : GCfg} {T : Nat} {g₀ : Gov} {h : List (Ctx × GCall)} {g : Gov} {now : Nat}
    (r : Run cfg gc T g₀ h g now) (id : U256) : ∀ b ∈ ballots id h, b.1 ≠ 0 := by
  refine GRun.along (J := fun h _ => ∀ b ∈ ballots id h, b.1 ≠ 0) (fun _ h => (nomatch h)) ?_ r.ok r.run
  intro hp x g g' hok hr hj hs b hb
  obtain ⟨o0, o1, o2, o3, o4⟩ := hok.snoc
  have hi := (GInv.genesis r.genesis).run r.wf o0 hr
  rw [ballots_snoc] at hb
  rcases List.mem_append.mp hb with hb | hb
  · exact hj b hb
  · cases he : ballot id x with
    | none => rw [he] at hb; exact nomatch hb
    | some y =>
      rw [he] at hb
      obtain rfl := List.mem_singleton.mp hb
      exact ballot_ne r.wf hi o3 hs he

/-- Whatever a prover votes, proposes or cancels, its owner has sent. -/
theorem c72_owner {cfg : Cfg} {gc : GCfg} {T : Nat} {g₀ : Gov} {h : List (Ctx × GCall)} {g g' : Gov} {x : Ctx × GCall}
    (r : Run cfg gc T g₀ h g x.1.now) (ha : GAdmissible cfg gc x) (hs : GStep cfg gc x g g') (p : Address)
    (hp : g.w.staking.provers p = true) (id : U256)
    (hx : (∃ s, ballot id x = some (p, s)) ∨ proposes gc x = some (p, id) ∨
      cancels gc x = some id ∧ (g.proposals id).proposer = p) :
    x.1.sender = (g.w.info p).owner := by
  have hreg := Registry.reachable r.wf _ r.inv.reach
  have hsys : ∀ a, ¬ cfg.System a → a ≠ p := by
    rintro a hs rfl
    rw [(hreg.outsider hs).2.2] at hp
    exact nomatch hp
  obtain ⟨c, k⟩ := x
  cases k with
  | castVote i s =>
    rcases hx with ⟨s, hx⟩ | hx | ⟨hx, _⟩
    · dsimp only [ballot] at hx
      split at hx
      · exact absurd (Prod.mk.inj (Option.some.inj hx)).1 (hsys _ ha.2)
      · exact nomatch hx
    · exact nomatch hx
    · exact nomatch hx
  | castVoteBySig v w i s =>
    rcases hx with ⟨s, hx⟩ | hx | ⟨hx, _⟩
    · dsimp only [ballot] at hx
      split at hx
      · have h1 := (Prod.mk.inj (Option.some.inj hx)).1
        have h2 := hs.1
        exact absurd (h2.trans h1) (hsys _ ha.2.2.1)
      · exact nomatch hx
    · exact nomatch hx
    · exact nomatch hx
  | proverCastVote q i s =>
    rcases hx with ⟨s, hx⟩ | hx | ⟨hx, _⟩
    · dsimp only [ballot] at hx
      split at hx
      · have h1 := (Prod.mk.inj (Option.some.inj hx)).1
        rw [← h1]
        exact hs.1.2
      · exact nomatch hx
    · exact nomatch hx
    · exact nomatch hx
  | propose as d =>
    rcases hx with ⟨s, hx⟩ | hx | ⟨hx, _⟩
    · exact nomatch hx
    · exact absurd (Prod.mk.inj (Option.some.inj hx)).1 (hsys _ ha.2)
    · exact nomatch hx
  | proverPropose q as d =>
    rcases hx with ⟨s, hx⟩ | hx | ⟨hx, _⟩
    · exact nomatch hx
    · rw [← (Prod.mk.inj (Option.some.inj hx)).1]
      exact hs.1.2
    · exact nomatch hx
  | cancel as d =>
    rcases hx with ⟨s, hx⟩ | hx | ⟨hx, hq⟩
    · exact nomatch hx
    · exact nomatch hx
    · obtain ⟨_, h2, _⟩ := cancel_some hs
      rw [show gc.pid as d = id from Option.some.inj hx, hq] at h2
      exact absurd h2 (hsys _ ha.2)
  | proverCancel q as d =>
    rcases hx with ⟨s, hx⟩ | hx | ⟨hx, hq⟩
    · exact nomatch hx
    · exact nomatch hx
    · obtain ⟨_, h2, _⟩ := cancel_some hs.2
      rw [show gc.pid as d = id from Option.some.inj hx, hq] at h2
      rw [← h2]
      exact hs.1.2
  | _ =>
    rcases hx with ⟨s, hx⟩ | hx | ⟨hx, _⟩
    · exact nomatch hx
    · exact nomatch hx
    · exact nomatch hx

/-! ## Counting -/

/-- The record of a proposal is the count of the votes cast on it: each voter is counted once, with their stake at
the start of voting, and all votes together do not exceed the supply then. -/
theorem c72_tally {cfg : Cfg} {gc : GCfg} {T : Nat} {g₀ : Gov} {h : List (Ctx × GCall)} {g g₁ : Gov} {now : Nat}
    (r : Run cfg gc T g₀ h g now) (id : U256) (hs : Snapshot cfg gc g₀ h g (g.proposals id).voteStart g₁) :
    (g.proposals id).againstVotes = tally g₁.w (ballots id h) 0 ∧
    (g.proposals id).forVotes = tally g₁.w (ballots id h) 1 ∧
    (g.proposals id).abstainVotes = tally g₁.w (ballots id h) 2 ∧
    ((ballots id h).map (·.1)).Nodup ∧ (∀ b ∈ ballots id h, b.2 ≤ 2) ∧
    (g.proposals id).againstVotes + (g.proposals id).forVotes + (g.proposals id).abstainVotes ≤ g₁.w.iprove.supply := by
  have hp := PInv.run r.wf r.genesis id r.ok r.run
  obtain ⟨a1, _, _⟩ := r.at hs
  have hne := ballots_ne r id
  have key : ∀ s, recorded g.v (g.proposals id).voteStart (ballots id h) s = tally g₁.w (ballots id h) s := by
    intro s
    unfold recorded tally
    congr 1
    exact List.map_congr_left fun b hb => a1 b.1 (hne b (List.mem_filter.mp hb).1)
  have h0 := hp.against.trans (key 0)
  have h1 := hp.for_.trans (key 1)
  have h2 := hp.abstain.trans (key 2)
  refine ⟨h0, h1, h2, hp.nodup, hp.support, ?_⟩
  rw [h0, h1, h2]
  -- the snapshot is itself the end of a run
  obtain ⟨k1, k2, e, c1, c2, r1, r2⟩ := hs
  have hok := r.ok
  rw [e] at hok
  have hi := (GInv.genesis r.genesis).run r.wf (GOk.append.mp hok).1 r1
  have hst := StakingInv.reachable r.wf _ hi.reach
  have hsum : ∀ l : List (Address × Nat), tally g₁.w l 0 + tally g₁.w l 1 + tally g₁.w l 2 ≤
      ((l.map (·.1)).map (stakeOf g₁.w)).sum := by
    intro l
    induction l with
    | nil => exact Nat.le_refl _
    | cons b l ih =>
      rw [List.map_cons, List.map_cons, List.sum_cons]
      have hcons : ∀ s, tally g₁.w (b :: l) s = (if b.2 = s then stakeOf g₁.w b.1 else 0) + tally g₁.w l s := by
        intro s
        unfold tally
        by_cases hb : b.2 = s
        · rw [List.filter_cons_of_pos (by simpa using hb), if_pos hb, List.map_cons, List.sum_cons]
        · rw [List.filter_cons_of_neg (by simpa using hb), if_neg hb, Nat.zero_add]
      rw [hcons, hcons, hcons]
      by_cases e0 : b.2 = 0
      · rw [e0]; simp only [reduceIte, Nat.reduceEqDiff]; omega
      · by_cases e1 : b.2 = 1
        · rw [e1]; simp only [reduceIte, Nat.reduceEqDiff]; omega
        · rw [if_neg e0, if_neg e1]
          split <;> omega
  refine Nat.le_trans (hsum _) (Nat.le_trans (sums_mono (g := g₁.w.iprove.bal) (fun a => ?_) _) (HasSum.sums_le _ hst.stake.iprove hp.nodup))
  unfold stakeOf
  split <;> omega

/-- Votes are accepted exactly from the second after the start of voting to its end, from whoever has not voted yet,
for one of the three options. -/
theorem c72_vote_accepted {cfg : Cfg} {gc : GCfg} {T : Nat} {g₀ : Gov} {h : List (Ctx × GCall)} {g : Gov} {c : Ctx}
    (r : Run cfg gc T g₀ h g c.now) (id : U256) (a : Address) (s : Nat) (h0 : (g.proposals id).voteStart ≠ 0) :
    (g.castVote c a id s).isSome = true ↔
      (∀ x ∈ h, cancels gc x ≠ some id) ∧
      (g.proposals id).voteStart < c.now ∧ c.now ≤ (g.proposals id).voteStart + (g.proposals id).voteDuration ∧
      a ∉ (ballots id h).map (·.1) ∧ s ≤ 2 ∧ ∀ x ∈ h, executes gc x ≠ some id := by
  have hp := PInv.run r.wf r.genesis id r.ok r.run
  have hcl := clock_eq r.small
  have hE : (g.proposals id).executed = false ↔ ∀ x ∈ h, executes gc x ≠ some id := by
    rw [← Bool.not_eq_true, hp.exec]
    exact ⟨fun hn x hx e => hn ⟨x, hx, e⟩, fun hn ⟨x, hx, e⟩ => hn x hx e⟩
  have hC : (g.proposals id).canceled = false ↔ ∀ x ∈ h, cancels gc x ≠ some id := by
    rw [← Bool.not_eq_true, hp.canc]
    exact ⟨fun hn x hx e => hn ⟨x, hx, e⟩, fun hn ⟨x, hx, e⟩ => hn x hx e⟩
  have hV : (g.proposals id).hasVoted a = false ↔ a ∉ (ballots id h).map (·.1) := by
    rw [← Bool.not_eq_true, hp.voted]
  rw [← hE, ← hC, ← hV]
  constructor
  · intro hs
    obtain ⟨g', hs⟩ := Option.isSome_iff_exists.mp hs
    obtain ⟨s1, s2, p, s3, _⟩ := castVote_some hs
    obtain ⟨v1, v2, _⟩ := count_some s3
    obtain ⟨t1, t2, _⟩ := stateOf_set s1 (by decide) (by decide)
    refine ⟨t2, by rw [← hcl]; exact s2, ?_, v1, v2, t1⟩
    unfold Gov.stateOf at s1
    dsimp only at s1
    rw [t1, t2, if_neg (by decide), if_neg (by decide), if_neg h0, hcl] at s1
    split at s1
    · exact nomatch s1
    · split at s1
      · assumption
      · split at s1
        · exact nomatch s1
        · split at s1 <;> exact nomatch s1
  · rintro ⟨t2, s2, s3, v1, v2, t1⟩
    have hst : g.stateOf c id = some .active := by
      unfold Gov.stateOf
      dsimp only
      rw [t1, t2, if_neg (by decide), if_neg (by decide), if_neg h0, hcl, if_neg (by omega), if_pos s3]
    unfold Gov.castVote
    rw [hst, if_neg (fun h => h rfl)]
    unfold Gov.pastVotes
    rw [hcl, if_pos s2]
    dsimp only
    unfold Proposal.count
    rw [v1, if_neg (by decide)]
    have : s = 0 ∨ s = 1 ∨ s = 2 := by omega
    rcases this with rfl | rfl | rfl <;> rfl

/-! ## Proposing and executing -/

/-- What was proposed in the history is on record, under who proposed it. -/
theorem Run.proposed {cfg : Cfg} {gc : GCfg} {T : Nat} {g₀ : Gov} {h : List (Ctx × GCall)} {g : Gov} {now : Nat}
    (r : Run cfg gc T g₀ h g now) (id : U256) (a : Address) (hx : ∃ x ∈ h, proposes gc x = some (a, id)) :
    (g.proposals id).voteStart ≠ 0 ∧ (g.proposals id).proposer = a := by
  revert hx
  exact GRun.along (J := fun h g => (∃ x ∈ h, proposes gc x = some (a, id)) →
      (g.proposals id).voteStart ≠ 0 ∧ (g.proposals id).proposer = a)
    (fun ⟨_, h, _⟩ => (nomatch h)) (by
      intro hp x g g' hok hr hj hst
      obtain ⟨o0, o1, o2, o3, o4⟩ := hok.snoc
      have hi := (GInv.genesis r.genesis).run r.wf o0 hr
      have hlt : 0 < x.1.now := Nat.lt_of_lt_of_le r.genesis.time (Nat.le_trans o0.1.le o1)
      rw [ex_snoc]
      intro hor
      cases GStep.prop r.wf hi o1 o2 o3 hst id with
      | propose b b1 b2 b3 b4 b5 b6 b7 =>
        rw [b7, clock_eq o2]
        dsimp only
        refine ⟨by omega, ?_⟩
        rcases hor with hor | hor
        · exact absurd b5 (hj hor).1
        · rw [b1] at hor
          exact (Prod.mk.inj (Option.some.inj hor)).1
      | keep b1 b2 b3 b4 b5 => rw [b5]; exact hj (hor.resolve_right (b2 a))
      | cancel b1 b2 b3 b4 b5 b6 => rw [b6]; exact hj (hor.resolve_right (b3 a))
      | execute b1 b2 b3 b4 b5 b6 => rw [b6]; exact hj (hor.resolve_right (b3 a))
      | vote b s b1 b2 b3 b4 b5 b6 b7 =>
        rw [(count_some b7).2.2]
        exact hj (hor.resolve_right (b2 a))) r.ok r.run

/-- A proposal can be cancelled by exactly who proposed it, once, up to and including the second its voters' stakes
are taken from. -/
theorem c72_cancel_accepted {cfg : Cfg} {gc : GCfg} {T : Nat} {g₀ : Gov} {h : List (Ctx × GCall)} {g : Gov} {c : Ctx}
    (r : Run cfg gc T g₀ h g c.now) (a : Address) (acts : List GAction) (dh : B256) :
    (g.cancel gc c a acts dh).isSome = true ↔
      (∃ x ∈ h, proposes gc x = some (a, gc.pid acts dh)) ∧ (∀ x ∈ h, cancels gc x ≠ some (gc.pid acts dh)) ∧
      (∀ x ∈ h, executes gc x ≠ some (gc.pid acts dh)) ∧ c.now ≤ (g.proposals (gc.pid acts dh)).voteStart := by
  generalize hid : gc.pid acts dh = id
  have hp := PInv.run r.wf r.genesis id r.ok r.run
  have hcl := clock_eq r.small
  have hE : (g.proposals id).executed = false ↔ ∀ x ∈ h, executes gc x ≠ some id := by
    rw [← Bool.not_eq_true, hp.exec]
    exact ⟨fun hn x hx e => hn ⟨x, hx, e⟩, fun hn ⟨x, hx, e⟩ => hn x hx e⟩
  have hC : (g.proposals id).canceled = false ↔ ∀ x ∈ h, cancels gc x ≠ some id := by
    rw [← Bool.not_eq_true, hp.canc]
    exact ⟨fun hn x hx e => hn ⟨x, hx, e⟩, fun hn ⟨x, hx, e⟩ => hn x hx e⟩
  have hP : (∃ x ∈ h, proposes gc x = some (a, id)) ↔ (g.proposals id).voteStart ≠ 0 ∧ (g.proposals id).proposer = a := by
    refine ⟨r.proposed id a, ?_⟩
    rintro ⟨h0, rfl⟩
    obtain ⟨h1, x, h2, g1, e, _, _, b, _⟩ := hp.set h0
    exact ⟨x, by rw [e]; exact List.mem_append_right _ List.mem_cons_self, b⟩
  rw [hP, ← hE, ← hC]
  unfold Gov.cancel
  dsimp only
  rw [hid]
  constructor
  · intro hs
    split at hs
    · exact nomatch hs
    · rename_i hst
      have hst : g.stateOf c id = some .pending := Decidable.of_not_not hst
      split at hs
      · exact nomatch hs
      · rename_i ha
        obtain ⟨t1, t2, t3⟩ := stateOf_set hst (by decide) (by decide)
        refine ⟨⟨t3, (Decidable.of_not_not ha).symm⟩, t2, t1, ?_⟩
        unfold Gov.stateOf at hst
        dsimp only at hst
        rw [t1, t2, if_neg (by decide), if_neg (by decide), if_neg t3, hcl] at hst
        split at hst
        · assumption
        · split at hst
          · exact nomatch hst
          · split at hst
            · exact nomatch hst
            · split at hst <;> exact nomatch hst
  · rintro ⟨⟨h0, rfl⟩, t2, t1, hle⟩
    have hst : g.stateOf c id = some .pending := by
      unfold Gov.stateOf
      dsimp only
      rw [t1, t2, if_neg (by decide), if_neg (by decide), if_neg h0, hcl, if_pos hle]
    rw [if_neg (fun hn => hn hst), if_neg (fun hn => hn rfl)]
    rfl

/-- A proposal is accepted only from somebody whose stake in the second before reaches the threshold. -/
theorem c72_proposer {cfg : Cfg} {gc : GCfg} {T : Nat} {g₀ : Gov} {h : List (Ctx × GCall)} {g g' g₁ : Gov} {x : Ctx × GCall}
    (r : Run cfg gc T g₀ h g x.1.now) (ha : GAdmissible cfg gc x) (hs : GStep cfg gc x g g') {a : Address} {id : U256}
    (hx : proposes gc x = some (a, id)) (hsn : Snapshot cfg gc g₀ h g (x.1.now - 1) g₁) :
    g.threshold ≤ stakeOf g₁.w a ∧ (g.proposals id).voteStart = 0 ∧
    (g'.proposals id).voteStart = x.1.now + g.votingDelay ∧ (g'.proposals id).voteDuration = g.votingPeriod ∧
    (g'.proposals id).proposer = a := by
  obtain ⟨a1, _, _⟩ := r.at hsn
  have hcl := clock_eq r.small
  have h0 : a ≠ 0 := by
    obtain ⟨c, k⟩ := x
    cases k <;> simp only [proposes, reduceCtorEq] at hx
    case propose as d => rw [← (Prod.mk.inj (Option.some.inj hx)).1]; exact ha.1
    case proverPropose p as d =>
      rw [← (Prod.mk.inj (Option.some.inj hx)).1]
      exact ((Registry.reachable r.wf _ r.inv.reach).ne r.wf hs.1.1).1
  have hT := r.genesis.time
  have hst := r.start
  cases GStep.prop r.wf r.inv (Nat.le_refl _) r.small ha hs id with
  | propose b b1 b2 b3 b4 b5 b6 b7 =>
    have hb : b = a := (Prod.mk.inj (Option.some.inj (b1.symm.trans hx))).1
    subst hb
    refine ⟨?_, b5, by rw [b7, hcl], by rw [b7], by rw [b7]⟩
    unfold Gov.mayPropose at b6
    split at b6
    · rename_i h0; rw [h0]; exact Nat.zero_le _
    · rw [if_neg (by rw [hcl]; omega)] at b6
      unfold Gov.pastVotes at b6
      rw [hcl, if_pos (by omega)] at b6
      rw [← a1 b h0]
      simpa using b6
  | keep b1 b2 b3 b4 b5 => exact absurd hx (b2 a)
  | cancel b1 b2 b3 b4 b5 b6 => exact absurd hx (b3 a)
  | execute b1 b2 b3 b4 b5 b6 => exact absurd hx (b3 a)
  | vote b s b1 b2 => exact absurd hx (b2 a)

/-- A proposal can be executed exactly if it has been proposed and neither cancelled nor executed, voting is over, more
stake voted for it than against it, and the stake that voted for it or abstained reaches the quorum. -/
theorem c72_passed_iff {cfg : Cfg} {gc : GCfg} {T : Nat} {g₀ : Gov} {h : List (Ctx × GCall)} {g g₁ : Gov} {c : Ctx}
    (r : Run cfg gc T g₀ h g c.now) (id : U256) (hs : Snapshot cfg gc g₀ h g (g.proposals id).voteStart g₁) :
    g.stateOf c id = some .succeeded ↔
      (∃ x ∈ h, ∃ a, proposes gc x = some (a, id)) ∧ (∀ x ∈ h, cancels gc x ≠ some id) ∧ (∀ x ∈ h, executes gc x ≠ some id) ∧
      (g.proposals id).voteStart + (g.proposals id).voteDuration < c.now ∧
      tally g₁.w (ballots id h) 0 < tally g₁.w (ballots id h) 1 ∧
      g₁.w.iprove.supply * g₁.quorumNum.latest / 100 ≤ tally g₁.w (ballots id h) 1 + tally g₁.w (ballots id h) 2 := by
  have hp := PInv.run r.wf r.genesis id r.ok r.run
  obtain ⟨t0, t1, t2, _⟩ := c72_tally r id hs
  obtain ⟨_, a2, a3⟩ := r.at hs
  have hcl := clock_eq r.small
  have hE : (g.proposals id).executed = false ↔ ∀ x ∈ h, executes gc x ≠ some id := by
    rw [← Bool.not_eq_true, hp.exec]
    exact ⟨fun hn x hx e => hn ⟨x, hx, e⟩, fun hn ⟨x, hx, e⟩ => hn x hx e⟩
  have hC : (g.proposals id).canceled = false ↔ ∀ x ∈ h, cancels gc x ≠ some id := by
    rw [← Bool.not_eq_true, hp.canc]
    exact ⟨fun hn x hx e => hn ⟨x, hx, e⟩, fun hn ⟨x, hx, e⟩ => hn x hx e⟩
  have hP : (g.proposals id).voteStart ≠ 0 ↔ ∃ x ∈ h, ∃ a, proposes gc x = some (a, id) := by
    constructor
    · intro h0
      obtain ⟨h1, x, h2, g1, e, _, _, b, _⟩ := hp.set h0
      exact ⟨x, by rw [e]; exact List.mem_append_right _ List.mem_cons_self, _, b⟩
    · exact GRun.along (J := fun h g => (∃ x ∈ h, ∃ a, proposes gc x = some (a, id)) → (g.proposals id).voteStart ≠ 0)
        (fun ⟨_, h, _⟩ => (nomatch h)) (by
          intro hp x g g' hok hr hj hst
          obtain ⟨o0, o1, o2, o3, o4⟩ := hok.snoc
          have hi := (GInv.genesis r.genesis).run r.wf o0 hr
          have hlt : 0 < x.1.now := Nat.lt_of_lt_of_le r.genesis.time (Nat.le_trans o0.1.le o1)
          rw [ex_snoc]
          intro hor
          cases GStep.prop r.wf hi o1 o2 o3 hst id with
          | propose b b1 b2 b3 b4 b5 b6 b7 => rw [b7, clock_eq o2]; dsimp only; omega
          | keep b1 b2 b3 b4 b5 => rw [b5]; exact hj (hor.resolve_right fun ⟨a, h⟩ => b2 a h)
          | cancel b1 b2 b3 b4 b5 b6 => rw [b6]; exact hj (hor.resolve_right fun ⟨a, h⟩ => b3 a h)
          | execute b1 b2 b3 b4 b5 b6 => rw [b6]; exact hj (hor.resolve_right fun ⟨a, h⟩ => b3 a h)
          | vote b s b1 b2 b3 b4 b5 b6 b7 =>
            rw [(count_some b7).2.2]
            exact hj (hor.resolve_right fun ⟨a, h⟩ => b2 a h)) r.ok r.run
  rw [← hP, ← hE, ← hC, ← t0, ← t1, ← t2]
  have hq : ∀ (h0 : (g.proposals id).voteStart ≠ 0) (hlt : (g.proposals id).voteStart < c.now),
      g.quorum c (g.proposals id).voteStart = some (g₁.w.iprove.supply * g₁.quorumNum.latest / 100) := by
    intro h0 hlt
    have hT : T ≤ (g.proposals id).voteStart := by
      obtain ⟨h1, x, h2, g1, e, _, _, _, _, b, _⟩ := hp.set h0
      have := (r.ok.1.mem x (by rw [e]; exact List.mem_append_right _ List.mem_cons_self)).1
      omega
    unfold Gov.quorum Gov.pastSupply
    rw [hcl, if_pos hlt, Option.map_some, a2, a3 hT]
  constructor
  · intro hst
    obtain ⟨u1, u2, u3⟩ := stateOf_set hst (by decide) (by decide)
    unfold Gov.stateOf at hst
    dsimp only at hst
    rw [u1, u2, if_neg (by decide), if_neg (by decide), if_neg u3, hcl] at hst
    split at hst
    · exact nomatch hst
    · split at hst
      · exact nomatch hst
      · rename_i n1 n2
        rw [hq u3 (by omega)] at hst
        dsimp only at hst
        split at hst
        · rename_i hh
          exact ⟨u3, u2, u1, by omega, hh.2, hh.1⟩
        · exact nomatch hst
  · rintro ⟨u3, u2, u1, n, h1, h2⟩
    unfold Gov.stateOf
    dsimp only
    rw [u1, u2, if_neg (by decide), if_neg (by decide), if_neg u3, hcl, if_neg (by omega), if_neg (by omega),
      hq u3 (by omega)]
    dsimp only
    rw [if_pos ⟨h2, h1⟩]

/-- Whatever is executed was proposed before, by somebody who could, with voting dates set by the delay and period of
that time; it was voted on, and passed as the specification says. Nothing is executed twice. -/
theorem c72_executed {cfg : Cfg} {gc : GCfg} {T : Nat} {g₀ : Gov} {h : List (Ctx × GCall)} {g g' g₁ : Gov} {c : Ctx}
    {acts : List GAction} {dh : B256} (r : Run cfg gc T g₀ h g c.now)
    (hs : GStep cfg gc (c, .execute acts dh) g g')
    (hsn : Snapshot cfg gc g₀ h g (g.proposals (gc.pid acts dh)).voteStart g₁) :
    (∃ h1 x h2 g1 a, h = h1 ++ x :: h2 ∧ GRun cfg gc g₀ h1 g1 ∧ GRun cfg gc g1 (x :: h2) g ∧
      proposes gc x = some (a, gc.pid acts dh) ∧
      (g.proposals (gc.pid acts dh)).voteStart = x.1.now + g1.votingDelay ∧
      x.1.now + g1.votingDelay + g1.votingPeriod < c.now) ∧
    (∀ x ∈ h, cancels gc x ≠ some (gc.pid acts dh)) ∧ (∀ x ∈ h, executes gc x ≠ some (gc.pid acts dh)) ∧
    tally g₁.w (ballots (gc.pid acts dh) h) 0 < tally g₁.w (ballots (gc.pid acts dh) h) 1 ∧
    g₁.w.iprove.supply * g₁.quorumNum.latest / 100 ≤
      tally g₁.w (ballots (gc.pid acts dh) h) 1 + tally g₁.w (ballots (gc.pid acts dh) h) 2 := by
  obtain ⟨b1, b2, b3, b4, b5, b6⟩ := (c72_passed_iff r _ hsn).mp hs.1
  obtain ⟨_, _, u3⟩ := stateOf_set hs.1 (by decide) (by decide)
  obtain ⟨h1, x, h2, g1, e, r1, r2, p1, _, p2, p3⟩ := (PInv.run r.wf r.genesis _ r.ok r.run).set u3
  refine ⟨⟨h1, x, h2, g1, _, e, r1, r2, p1, p2, ?_⟩, b2, b3, b5, b6⟩
  rw [p2, p3] at b4
  exact b4

/-! ## What needs a vote -/

/-- The settings of the two contracts and of the governor, and which provers are deactivated by slashing. -/
structure SameRule (g g' : Gov) : Prop where
  staking : g'.w.staking.owner = g.w.staking.owner ∧ g'.w.staking.dispenser = g.w.staking.dispenser ∧
    g'.w.staking.dispenseRate = g.w.staking.dispenseRate ∧
    g'.w.staking.deactivatedProvers = g.w.staking.deactivatedProvers
  vapp : g'.w.vapp.owner = g.w.vapp.owner ∧ g'.w.vapp.paused = g.w.vapp.paused ∧ g'.w.vapp.vkey = g.w.vapp.vkey ∧
    g'.w.vapp.auctioneer = g.w.vapp.auctioneer ∧ g'.w.vapp.staking = g.w.vapp.staking ∧
    g'.w.vapp.verifier = g.w.vapp.verifier ∧ g'.w.vapp.minDepositAmount = g.w.vapp.minDepositAmount
  governor : g'.votingDelay = g.votingDelay ∧ g'.votingPeriod = g.votingPeriod ∧ g'.threshold = g.threshold ∧
    g'.quorumNum = g.quorumNum

theorem SameRule.refl (g : Gov) : SameRule g g :=
  ⟨⟨rfl, rfl, rfl, rfl⟩, ⟨rfl, rfl, rfl, rfl, rfl, rfl, rfl⟩, rfl, rfl, rfl, rfl⟩

theorem SameRule.trans {a b c : Gov} (h : SameRule a b) (g : SameRule b c) : SameRule a c := by
  obtain ⟨⟨a1, a2, a3, a4⟩, ⟨b1, b2, b3, b4, b5, b6, b7⟩, c1, c2, c3, c4⟩ := h
  obtain ⟨⟨d1, d2, d3, d4⟩, ⟨e1, e2, e3, e4, e5, e6, e7⟩, f1, f2, f3, f4⟩ := g
  exact ⟨⟨d1.trans a1, d2.trans a2, d3.trans a3, d4.trans a4⟩,
    ⟨e1.trans b1, e2.trans b2, e3.trans b3, e4.trans b4, e5.trans b5, e6.trans b6, e7.trans b7⟩,
    f1.trans c1, f2.trans c2, f3.trans c3, f4.trans c4⟩

/-- Calls of the staking contract that only its owner may make. -/
theorem staking_owner {cfg : Cfg} {c : Ctx} {k : Call} {w w' : World} (h : exec cfg c k w = .ok ((), w'))
    (hk : (∃ p i, k = .finishSlash p i) ∨ (∃ a, k = .setDispenser a) ∨ (∃ v, k = .updateDispenseRate v) ∨
      ∃ a, k = .stakingSetOwner a) : c.sender = w.staking.owner := by
  rcases hk with ⟨p, i, rfl⟩ | ⟨a, rfl⟩ | ⟨v, rfl⟩ | ⟨a, rfl⟩
  · obtain ⟨x, h⟩ := drop_ok.mp h
    unfold finishSlash at h
    simp only [bind_ok, stakingOnlyOwner, require_ok, get_ok] at h
    obtain ⟨_, _, ⟨_, _, ⟨rfl, rfl⟩, h, rfl⟩, _⟩ := h
    exact h
  all_goals
    unfold exec at h
    simp only [setDispenser, updateDispenseRate, stakingSetOwner, bind_ok, stakingOnlyOwner, require_ok, get_ok] at h
    obtain ⟨_, _, ⟨_, _, ⟨rfl, rfl⟩, h, rfl⟩, _⟩ := h
    exact h

theorem L1Step.parts {cfg : Cfg} {c : Ctx} {k : Call} {g g' : Gov} (hs : g.L1Step cfg c k g') :
    exec cfg { c with votingDelay := g.votingDelay, votingPeriod := g.votingPeriod } k g.w = .ok ((), g'.w) ∧
    g'.votingDelay = g.votingDelay ∧ g'.votingPeriod = g.votingPeriod ∧ g'.threshold = g.threshold ∧
      g'.quorumNum = g.quorumNum := by
  obtain ⟨w', ms, v1, he, _, _, hk⟩ := hs
  by_cases hcp : ∃ f, k = .createProver f
  · obtain ⟨f, rfl⟩ := hcp
    obtain ⟨v2, _, rfl⟩ := hk
    exact ⟨he, rfl, rfl, rfl, rfl⟩
  · have hg : g' = { g with w := w', v := v1 } := by
      clear he
      cases k
      case createProver f => exact absurd ⟨f, rfl⟩ hcp
      all_goals exact hk
    rw [hg]
    exact ⟨he, rfl, rfl, rfl, rfl⟩

theorem dispense_rate {cfg : Cfg} {c : Ctx} {v : U256} {w w' : World} (h : exec cfg c (.dispense v) w = .ok ((), w')) :
    w'.staking.dispenseRate = w.staking.dispenseRate := by
  obtain ⟨_, _, a, _, _, _, _, t, _, hw'⟩ := dispense_ok h
  rw [hw']

theorem exec_rule {cfg : Cfg} {c : Ctx} {k : Call} {w w' : World} (he : exec cfg c k w = .ok ((), w'))
    (h1 : c.sender ≠ w.staking.owner) :
    w'.staking.owner = w.staking.owner ∧ w'.staking.dispenser = w.staking.dispenser ∧
    w'.staking.dispenseRate = w.staking.dispenseRate ∧ w'.staking.deactivatedProvers = w.staking.deactivatedProvers := by
  have hf := exec_fields he
  refine ⟨hf.owner ?_, hf.dispenser ?_, ?_, hf.deact ?_⟩
  · exact fun a e => h1 (staking_owner he (Or.inr (Or.inr (Or.inr ⟨a, e⟩))))
  · exact fun a e => h1 (staking_owner he (Or.inr (Or.inl ⟨a, e⟩)))
  · by_cases hd : ∃ v, k = .dispense v
    · obtain ⟨v, hk⟩ := hd
      rw [hk] at he
      exact dispense_rate he
    · exact (hf.disp (fun v e => hd ⟨v, e⟩) fun v e => h1 (staking_owner he (Or.inr (Or.inr (Or.inl ⟨v, e⟩))))).1
  · exact fun p i e => h1 (staking_owner he (Or.inl ⟨p, i, e⟩))

theorem L1Step.rule {cfg : Cfg} {c : Ctx} {k : Call} {g g' : Gov} (hs : g.L1Step cfg c k g')
    (h1 : c.sender ≠ g.w.staking.owner) (h2 : c.sender ≠ g.w.vapp.owner) : SameRule g g' := by
  have hp := L1Step.parts hs
  have ho := c36_others hp.1 h2
  exact ⟨exec_rule hp.1 h1, ⟨ho.1, ho.2.1, ho.2.2.1, ho.2.2.2.1, ho.2.2.2.2.1, ho.2.2.2.2.2.1, ho.2.2.2.2.2.2.1⟩, hp.2⟩

/-- While the governor owns the contracts, and nobody else can send as the governor, no setting of the contracts or of
the governor changes and nobody is slashed out, except by an executed proposal. -/
theorem c72_control {cfg : Cfg} {gc : GCfg} {h : List (Ctx × GCall)} : ∀ {g g' : Gov}, GRun cfg gc g h g' →
    g.w.staking.owner = gc.governor → g.w.vapp.owner = gc.governor →
    (∀ x ∈ h, x.1.sender ≠ gc.governor ∧ executes gc x = none) → SameRule g g' := by
  induction h with
  | nil => intro g g' hr _ _ _; obtain rfl := hr; exact .refl _
  | cons x h ih =>
    intro g g' hr o1 o2 hx
    obtain ⟨g1, h1, h2⟩ := hr
    obtain ⟨n1, n2⟩ := hx x List.mem_cons_self
    have key : SameRule g g1 := by
      obtain ⟨c, k⟩ := x
      cases k with
      | l1 k => exact L1Step.rule h1 (by rw [o1]; exact n1) (by rw [o2]; exact n1)
      | delegate d => obtain ⟨v, _, rfl⟩ := h1; exact ⟨⟨rfl, rfl, rfl, rfl⟩, ⟨rfl, rfl, rfl, rfl, rfl, rfl, rfl⟩, rfl, rfl, rfl, rfl⟩
      | delegateBySig s d => obtain ⟨v, _, rfl⟩ := h1; exact ⟨⟨rfl, rfl, rfl, rfl⟩, ⟨rfl, rfl, rfl, rfl, rfl, rfl, rfl⟩, rfl, rfl, rfl, rfl⟩
      | propose as d =>
        obtain ⟨_, _, _, _, rfl⟩ := propose_some h1
        exact ⟨⟨rfl, rfl, rfl, rfl⟩, ⟨rfl, rfl, rfl, rfl, rfl, rfl, rfl⟩, rfl, rfl, rfl, rfl⟩
      | proverPropose p as d =>
        obtain ⟨_, _, _, _, rfl⟩ := propose_some h1.2
        exact ⟨⟨rfl, rfl, rfl, rfl⟩, ⟨rfl, rfl, rfl, rfl, rfl, rfl, rfl⟩, rfl, rfl, rfl, rfl⟩
      | cancel as d =>
        obtain ⟨_, _, rfl⟩ := cancel_some h1
        exact ⟨⟨rfl, rfl, rfl, rfl⟩, ⟨rfl, rfl, rfl, rfl, rfl, rfl, rfl⟩, rfl, rfl, rfl, rfl⟩
      | proverCancel p as d =>
        obtain ⟨_, _, rfl⟩ := cancel_some h1.2
        exact ⟨⟨rfl, rfl, rfl, rfl⟩, ⟨rfl, rfl, rfl, rfl, rfl, rfl, rfl⟩, rfl, rfl, rfl, rfl⟩
      | castVote i s =>
        obtain ⟨_, _, _, _, rfl⟩ := castVote_some h1
        exact ⟨⟨rfl, rfl, rfl, rfl⟩, ⟨rfl, rfl, rfl, rfl, rfl, rfl, rfl⟩, rfl, rfl, rfl, rfl⟩
      | castVoteBySig _ _ i s =>
        obtain ⟨_, _, _, _, rfl⟩ := castVote_some h1.2
        exact ⟨⟨rfl, rfl, rfl, rfl⟩, ⟨rfl, rfl, rfl, rfl, rfl, rfl, rfl⟩, rfl, rfl, rfl, rfl⟩
      | proverCastVote _ i s =>
        obtain ⟨_, _, _, _, rfl⟩ := castVote_some h1.2
        exact ⟨⟨rfl, rfl, rfl, rfl⟩, ⟨rfl, rfl, rfl, rfl, rfl, rfl, rfl⟩, rfl, rfl, rfl, rfl⟩
      | execute as d => exact nomatch n2
    exact key.trans (ih h2 (key.staking.1.trans o1) (key.vapp.1.trans o2) (fun y hy => hx y (List.mem_cons_of_mem _ hy)))

/-! ## What a vote on the governor's settings does -/

/-- The last value among those that `f` reads from the calls of a proposal, `old` if there is none. -/
def lastSet (f : GAction → Option Nat) (acts : List GAction) (old : Nat) : Nat := (acts.filterMap f).getLast?.getD old

/-- Readings of a call to the governor's settings. -/
def GAction.delay : GAction → Option Nat
  | .setVotingDelay n => some n
  | _ => none
/-- See `GAction.delay`. -/
def GAction.period : GAction → Option Nat
  | .setVotingPeriod n => some n
  | _ => none
/-- See `GAction.delay`. -/
def GAction.threshold : GAction → Option Nat
  | .setProposalThreshold n => some n
  | _ => none
/-- See `GAction.delay`. -/
def GAction.quorum : GAction → Option Nat
  | .updateQuorumNumerator n => some n
  | _ => none

theorem lastSet_cons (f : GAction → Option Nat) (a : GAction) (as : List GAction) (old : Nat) :
    lastSet f (a :: as) old = lastSet f as ((f a).getD old) := by
  unfold lastSet
  cases h : f a with
  | none => rw [List.filterMap_cons_none h]; rfl
  | some n => rw [List.filterMap_cons_some h, List.getLast?_cons]; rfl

theorem push_latest {t t' : Trace} {k n : Nat} (h : t.push k n = some t') : t'.latest = n := by
  unfold Trace.push at h
  split at h
  · rw [← Option.some.inj h]; rfl
  · split at h
    · exact nomatch h
    · split at h <;> (rw [← Option.some.inj h]; rfl)

theorem act_settings {cfg : Cfg} {gc : GCfg} {c : Ctx} {a : GAction} {g g' : Gov} (h : g.Act cfg gc c a g') :
    g'.votingDelay = a.delay.getD g.votingDelay ∧ g'.votingPeriod = a.period.getD g.votingPeriod ∧
    g'.threshold = a.threshold.getD g.threshold ∧ g'.quorumNum.latest = a.quorum.getD g.quorumNum.latest := by
  cases a with
  | l1 k =>
    have := (L1Step.parts h).2
    exact ⟨this.1, this.2.1, this.2.2.1, congrArg Trace.latest this.2.2.2⟩
  | setVotingDelay n => obtain ⟨_, rfl⟩ := h; exact ⟨rfl, rfl, rfl, rfl⟩
  | setVotingPeriod n => obtain ⟨_, _, rfl⟩ := h; exact ⟨rfl, rfl, rfl, rfl⟩
  | setProposalThreshold n => obtain ⟨_, rfl⟩ := h; exact ⟨rfl, rfl, rfl, rfl⟩
  | updateQuorumNumerator n => obtain ⟨_, t, h1, rfl⟩ := h; exact ⟨rfl, rfl, rfl, push_latest h1⟩
  | other _ _ _ => obtain rfl := h; exact ⟨rfl, rfl, rfl, rfl⟩

/-- Executing a proposal leaves every setting of the governor at the last value the proposal sets it to, and as it was
if the proposal does not set it. -/
theorem c72_settings {cfg : Cfg} {gc : GCfg} {c : Ctx} {acts : List GAction} {dh : B256} {g g' : Gov}
    (hs : GStep cfg gc (c, .execute acts dh) g g') :
    g'.votingDelay = lastSet GAction.delay acts g.votingDelay ∧
    g'.votingPeriod = lastSet GAction.period acts g.votingPeriod ∧
    g'.threshold = lastSet GAction.threshold acts g.threshold ∧
    g'.quorumNum.latest = lastSet GAction.quorum acts g.quorumNum.latest := by
  obtain ⟨_, h⟩ := hs
  have key : ∀ (as : List GAction) (g1 g2 : Gov), Gov.Acts cfg gc c as g1 g2 →
      g2.votingDelay = lastSet GAction.delay as g1.votingDelay ∧
      g2.votingPeriod = lastSet GAction.period as g1.votingPeriod ∧
      g2.threshold = lastSet GAction.threshold as g1.threshold ∧
      g2.quorumNum.latest = lastSet GAction.quorum as g1.quorumNum.latest := by
    intro as
    induction as with
    | nil => intro g1 g2 h; obtain rfl := h; exact ⟨rfl, rfl, rfl, rfl⟩
    | cons a as ih =>
      intro g1 g3 h
      obtain ⟨g2, h1, h2⟩ := h
      obtain ⟨a1, a2, a3, a4⟩ := act_settings h1
      rw [lastSet_cons, lastSet_cons, lastSet_cons, lastSet_cons, ← a1, ← a2, ← a3, ← a4]
      exact ih g2 g3 h2
  have := key acts _ g' h
  exact this

/-- Witness: two changes of the voting delay and one of the period. -/
example : lastSet GAction.delay [.setVotingDelay 7, .setVotingPeriod 30, .setVotingDelay 9] 5 = 9 ∧
    lastSet GAction.period [.setVotingDelay 7, .setVotingPeriod 30, .setVotingDelay 9] 10 = 30 ∧
    lastSet GAction.quorum [.setVotingDelay 7, .setVotingPeriod 30, .setVotingDelay 9] 4 = 4 := by decide

/-! ## Slashing and the vote on it -/

/-- When a slash request can be cancelled, the vote is over on every proposal made before the cancellation period
ended, unless the voting delay or period have been shortened since. -/
theorem c72_slash_window {cfg : Cfg} {gc : GCfg} {T : Nat} {g₀ : Gov} {h : List (Ctx × GCall)} {g g' : Gov} {c : Ctx}
    {p : Address} {i : U256} (r : Run cfg gc T g₀ h g c.now) (hs : GStep cfg gc (c, .l1 (.cancelSlash p i)) g g') :
    ∃ cl, (g.w.staking.slashClaims p)[i.toNat]? = some cl ∧ ∀ id, (g.proposals id).voteStart ≠ 0 →
      ∃ h1 x h2 g1 a, h = h1 ++ x :: h2 ∧ GRun cfg gc g₀ h1 g1 ∧ GRun cfg gc g1 (x :: h2) g ∧ proposes gc x = some (a, id) ∧
        (x.1.now < cl.timestamp + g.w.staking.slashCancellationPeriod →
          g1.votingDelay + g1.votingPeriod ≤ g.votingDelay + g.votingPeriod →
          x.1.now + g1.votingDelay + g1.votingPeriod < c.now ∧
          g.stateOf c id ≠ some .pending ∧ g.stateOf c id ≠ some .active) := by
  obtain ⟨w', ms, v1, he, _⟩ := hs
  obtain ⟨cl, h1, h2⟩ := c43_cancel_deadline he
  refine ⟨cl, h1, fun id h0 => ?_⟩
  obtain ⟨k1, x, k2, g1, e, r1, r2, p1, _, p2, p3⟩ := (PInv.run r.wf r.genesis id r.ok r.run).set h0
  refine ⟨k1, x, k2, g1, _, e, r1, r2, p1, fun hx hd => ?_⟩
  dsimp only at h2
  have hlt : x.1.now + g1.votingDelay + g1.votingPeriod < c.now := by omega
  have key : ∀ s, g.stateOf c id = some s → s ≠ .pending ∧ s ≠ .active := by
    intro s hs
    unfold Gov.stateOf at hs
    dsimp only at hs
    rw [clock_eq r.small] at hs
    split at hs
    · rw [← Option.some.inj hs]; decide
    · split at hs
      · rw [← Option.some.inj hs]; decide
      · rw [if_neg (by omega), if_neg (by omega)] at hs
        split at hs
        · exact nomatch hs
        · split at hs
          · rw [← Option.some.inj hs]; decide
          · rw [← Option.some.inj hs]; decide
  exact ⟨hlt, fun e => (key _ e).1 rfl, fun e => (key _ e).2 rfl⟩

/-! ## Vote keeping is never in the way -/

/-- A call the contracts accept is not stopped by the vote keeping of $iPROVE. -/
theorem c72_unblocked {cfg : Cfg} {gc : GCfg} {T : Nat} {g₀ : Gov} {h : List (Ctx × GCall)} {g : Gov} {c : Ctx} {k : Call} {w' : World}
    (r : Run cfg gc T g₀ h g c.now)
    (he : exec cfg { c with votingDelay := g.votingDelay, votingPeriod := g.votingPeriod } k g.w = .ok ((), w')) :
    ∃ g', GStep cfg gc (c, .l1 k) g g' ∧ g'.w = w' ∧ SameRule { g with w := w' } g' ∧ g'.proposals = g.proposals := by
  have hi := r.inv
  have hcl := clock_eq r.small
  obtain ⟨ms, hm⟩ := exec_moves he
  obtain ⟨v1, hv1⟩ := hi.sum.moves_some hi.upto hm
  by_cases hk : ∃ f, k = .createProver f
  · obtain ⟨f, rfl⟩ := hk
    obtain ⟨p, hp⟩ := drop_ok.mp he
    obtain ⟨_, _, _, q1, q2, _, _, _, _, t, ht, hw⟩ := createProver_ok hp
    dsimp only at q1
    have h0 : w'.iprove.bal p = 0 := by
      obtain ⟨_, _, ht'⟩ := Erc20.approve_ok ht
      rw [hw, ht']
      exact (StakingInv.reachable r.wf _ hi.reach).stake.held p (by rw [q1]; exact (r.wf.create2 _ _ _).2.2.2.1) q2
    have hd : v1.delegate (clock c) p p (w'.iprove.bal p) = some { v1 with delegates := upd v1.delegates p p } := by
      unfold Votes.delegate Votes.move
      rw [if_pos (Or.inr h0)]
    refine ⟨{ g with w := w', v := { v1 with delegates := upd v1.delegates p p } }, ⟨w', ms, v1, he, hm, by rw [hcl]; exact hv1, ?_⟩, rfl,
      ⟨⟨rfl, rfl, rfl, rfl⟩, ⟨rfl, rfl, rfl, rfl, rfl, rfl, rfl⟩, rfl, rfl, rfl, rfl⟩, rfl⟩
    dsimp only
    rw [← q1]
    exact ⟨_, hd, rfl⟩
  · refine ⟨{ g with w := w', v := v1 }, ⟨w', ms, v1, he, hm, by rw [hcl]; exact hv1, ?_⟩, rfl,
      ⟨⟨rfl, rfl, rfl, rfl⟩, ⟨rfl, rfl, rfl, rfl, rfl, rfl, rfl⟩, rfl, rfl, rfl, rfl⟩, rfl⟩
    cases k
    case createProver f => exact absurd ⟨f, rfl⟩ hk
    all_goals rfl

/-! ## A case: bob's prover passes a proposal -/

theorem Run.snoc {cfg : Cfg} {gc : GCfg} {T : Nat} {g₀ : Gov} {h : List (Ctx × GCall)} {g g' : Gov} {now : Nat} {x : Ctx × GCall}
    (r : Run cfg gc T g₀ h g now) (ht : now ≤ x.1.now) (hn : x.1.now < 2 ^ 48) (ha : GAdmissible cfg gc x)
    (hs : GStep cfg gc x g g') : Run cfg gc T g₀ (h ++ [x]) g' x.1.now := by
  have hl := lastTime_le r.start r.time
  refine ⟨r.wf, r.genesis, GOk.append.mpr ⟨r.ok, ⟨Nat.le_trans hl ht, hn, trivial⟩, fun y hy => ?_⟩,
    GRun.append.mpr ⟨g, r.run, g', hs, rfl⟩, Nat.le_trans r.start ht, fun y hy => ?_, hn⟩
  · rw [List.mem_singleton.mp hy]; exact ha
  · rcases List.mem_append.mp hy with hy | hy
    · exact Nat.le_trans (r.time y hy) ht
    · rw [List.mem_singleton.mp hy]; exact Nat.le_refl _

/-- At a later time nothing else has happened. -/
theorem Run.wait {cfg : Cfg} {gc : GCfg} {T : Nat} {g₀ : Gov} {h : List (Ctx × GCall)} {g : Gov} {now now' : Nat}
    (r : Run cfg gc T g₀ h g now) (ht : now ≤ now') (hn : now' < 2 ^ 48) : Run cfg gc T g₀ h g now' :=
  ⟨r.wf, r.genesis, r.ok, r.run, Nat.le_trans r.start ht, fun x hx => Nat.le_trans (r.time x hx) ht, hn⟩

/-- If nothing happened since, the state is that of `t`. -/
theorem Run.still {cfg : Cfg} {gc : GCfg} {T : Nat} {g₀ : Gov} {h : List (Ctx × GCall)} {g : Gov} {now t : Nat}
    (r : Run cfg gc T g₀ h g now) (ht : now ≤ t) : Snapshot cfg gc g₀ h g t g :=
  ⟨h, [], (List.append_nil _).symm, fun x hx => Nat.le_trans (r.time x hx) ht, fun _ hx => (nomatch hx), r.run, rfl⟩

namespace ToyL1

/-- A governor that owns the contracts. -/
def gcfg : GCfg where
  governor := gov
  pid as d := BitVec.ofNat 256 (as.length + d.toNat)
  keccak d := BitVec.ofNat 256 d.length
  validFor _ _ := true

/-- Deployment: a voting delay of 5 s, a voting period of 10 s, a threshold of 100 and a quorum of 4%. -/
def gov0 : Gov where
  w := genesis
  v := { delegates := fun _ => 0, cps := fun _ => [], total := [] }
  votingDelay := 5
  votingPeriod := 10
  threshold := 100
  quorumNum := [(900, 4)]
  proposals _ := {
    proposer := 0, voteStart := 0, voteDuration := 0, executed := false, canceled := false
    againstVotes := 0, forVotes := 0, abstainVotes := 0, hasVoted := fun _ => false }

theorem gov0_ok : GGenesis cfg 900 gov0 where
  time := by decide
  w := genesis_ok
  delegates := rfl
  cps := rfl
  total := rfl
  quorum := ⟨900, 4, rfl, by decide, by decide⟩
  proposals _ := ⟨rfl, rfl, rfl, rfl, rfl, rfl, fun _ => rfl⟩

/-- The proposal: a minimum deposit of 20. -/
def plan : List GAction := [.l1 (.updateMinDeposit 20)]

/-- Staking, a request for slashing, then the proposal and bob's vote for it through their prover. -/
def campaign : List (Ctx × GCall) :=
  [ (ctx bob 1000, .l1 (.createProver 500)), (ctx alice 1000, .l1 (.proveApprove cfg.staking 5000)),
    (ctx alice 1000, .l1 (.stake prover1 1000)), (ctx cfg.vapp 1000, .l1 (.requestSlash prover1 300)), (ctx bob 1010, .proverPropose prover1 plan []),
    (ctx bob 1016, .proverCastVote prover1 1 1) ]

/-- The world in which the vote takes place. -/
def wv : World := runCalls cfg genesis [ (ctx bob 1000, .createProver 500),
  (ctx alice 1000, .proveApprove cfg.staking 5000), (ctx alice 1000, .stake prover1 1000),
  (ctx cfg.vapp 1000, .requestSlash prover1 300) ]

theorem l1_step {T : Nat} {g₀ : Gov} {h : List (Ctx × GCall)} {g : Gov} {s : Address} {t now : Nat} {k : Call}
    (r : Run cfg gcfg T g₀ h g now) (ht : now ≤ t) (hn : t < 2 ^ 48) (h0 : s ≠ 0) (ha : admissible (ctx s t, k) = true)
    (hd : g.votingDelay = 5 ∧ g.votingPeriod = 10) (he : (exec cfg (ctx s t) k g.w).toBool = true) :
    ∃ g', GStep cfg gcfg (ctx s t, .l1 k) g g' ∧ Run cfg gcfg T g₀ (h ++ [(ctx s t, .l1 k)]) g' t ∧
      g'.w = call cfg (ctx s t) k g.w ∧ (g'.votingDelay = 5 ∧ g'.votingPeriod = 10) ∧ g'.threshold = g.threshold ∧
      g'.quorumNum = g.quorumNum ∧ g'.proposals = g.proposals := by
  have he' : exec cfg { ctx s t with votingDelay := g.votingDelay, votingPeriod := g.votingPeriod } k g.w =
      .ok ((), call cfg (ctx s t) k g.w) := by
    rw [hd.1, hd.2]
    show exec cfg (ctx s t) k g.w = _
    unfold call
    cases hx : exec cfg (ctx s t) k g.w with
    | error e => rw [hx] at he; exact nomatch he
    | ok p => rfl
  obtain ⟨g', h1, h2, h3, h4⟩ := c72_unblocked (c := ctx s t) (r.wait ht hn) he'
  obtain ⟨_, _, q1, q2, q3, q4⟩ := h3
  exact ⟨g', h1, r.snoc ht hn ⟨h0, admissible_ok ha⟩ h1, h2, ⟨q1.trans hd.1, q2.trans hd.2⟩, q3, q4, h4⟩

/-- The campaign runs, and the proposal can then be executed: the hypotheses of the theorems are met. -/
theorem campaign_passes : ∃ g g', Run cfg gcfg 900 gov0 campaign g 1026 ∧
    GStep cfg gcfg (ctx alice 1026, .execute plan 0) g g' ∧ (g.proposals 1).voteStart = 1015 ∧
    (g.proposals 1).forVotes = 1000 ∧ g.w.vapp.minDepositAmount = 10 ∧ g'.w.vapp.minDepositAmount = 20 ∧
    ∃ g'', Run cfg gcfg 900 gov0 campaign g 1065 ∧ GStep cfg gcfg (ctx alice 1065, .l1 (.cancelSlash prover1 0)) g g'' := by
  have r0 : Run cfg gcfg 900 gov0 [] gov0 900 :=
    ⟨cfg_wf, gov0_ok, ⟨trivial, fun _ h => (nomatch h)⟩, rfl, Nat.le_refl _, fun _ h => (nomatch h), by decide⟩
  obtain ⟨g1, s1, r1, w1, d1, t1, q1, p1⟩ := l1_step (s := bob) (t := 1000) (k := .createProver 500) r0 (by decide) (by decide) (by decide) (by decide) ⟨rfl, rfl⟩ (by decide +kernel)
  obtain ⟨g2, s2, r2, w2, d2, t2, q2, p2⟩ := l1_step (s := alice) (t := 1000) (k := .proveApprove cfg.staking 5000) r1 (by decide) (by decide) (by decide) (by decide) d1
    (by rw [w1]; decide +kernel)
  obtain ⟨gb, sb, rb, wb, db, tb, qb, pb⟩ := l1_step (s := alice) (t := 1000) (k := .stake prover1 1000) r2 (by decide) (by decide) (by decide) (by decide) d2
    (by rw [w2, w1]; decide +kernel)
  obtain ⟨g3, s3, r3, w3, d3, t3, q3, p3⟩ := l1_step (s := cfg.vapp) (t := 1000) (k := .requestSlash prover1 300) rb (by decide) (by decide) (by decide) (by decide) db
    (by rw [wb, w2, w1]; decide +kernel)
  have hw3 : g3.w = wv := by rw [w3, wb, w2, w1]; rfl
  have hp3 : g3.proposals = gov0.proposals := p3.trans (pb.trans (p2.trans p1))
  have hown : OwnsProver wv bob prover1 := by unfold OwnsProver; decide +kernel
  have hstake : stakeOf wv prover1 = 1000 := by decide +kernel
  have hsupply : wv.iprove.supply = 1000 := by decide +kernel
  -- the proposal
  have r3' := r3.wait (now' := 1010) (by decide) (by decide)
  obtain ⟨a1, _, _⟩ := r3.at (r3.still (t := 1009) (by decide))
  have hid : gcfg.pid plan (gcfg.keccak []) = 1 := by decide
  have hmay : g3.mayPropose (ctx bob 1010) prover1 = true := by
    unfold Gov.mayPropose
    rw [if_neg (by rw [t3, tb, t2, t1]; decide), if_neg (by decide)]
    unfold Gov.pastVotes
    rw [if_pos (by decide)]
    rw [show clock (ctx bob 1010) - 1 = 1009 by decide, a1 prover1 (by decide), hw3, hstake]
    dsimp only
    rw [t3, tb, t2, t1]
    decide
  obtain ⟨g4, hg4⟩ : ∃ g4, g4 = g3.setProposal 1 fun p =>
      { p with proposer := prover1, voteStart := clock (ctx bob 1010) + g3.votingDelay, voteDuration := g3.votingPeriod } := ⟨_, rfl⟩
  have s4 : GStep cfg gcfg (ctx bob 1010, .proverPropose prover1 plan []) g3 g4 := by
    refine ⟨by rw [hw3]; exact hown, ?_⟩
    dsimp only
    unfold Gov.propose
    rw [if_neg (by decide), if_neg (by rw [hmay]; decide), if_neg (by decide)]
    dsimp only
    rw [hid, if_neg (by rw [hp3]; exact fun h => h rfl), if_neg (by rw [d3.1]; decide), hg4]
  have r4 := r3'.snoc (x := (ctx bob 1010, .proverPropose prover1 plan [])) (by decide) (by decide) ⟨by decide, plain_ok (by decide)⟩ s4
  have hw4 : g4.w = wv := by rw [hg4]; exact hw3
  have v4 : (g4.proposals 1).voteStart = 1015 ∧ (g4.proposals 1).voteDuration = 10 ∧ (g4.proposals 1).forVotes = 0 := by
    rw [hg4]
    unfold Gov.setProposal
    dsimp only
    rw [upd_same]
    dsimp only
    rw [d3.1, d3.2, hp3]
    exact ⟨by decide, rfl, rfl⟩
  -- the vote
  have r4' := r4.wait (now' := 1016) (by decide) (by decide)
  have hv := (c72_vote_accepted (c := ctx bob 1016) r4' 1 prover1 1 (by rw [v4.1]; decide)).mpr (by
    rw [v4.1, v4.2.1]
    refine ⟨?_, by decide, by decide, by decide, by decide, ?_⟩
    · intro x hx
      simp only [List.mem_append, List.mem_singleton, List.not_mem_nil, false_or] at hx
      rcases hx with (((rfl | rfl) | rfl) | rfl) | rfl <;> exact fun h => nomatch h
    · intro x hx
      simp only [List.mem_append, List.mem_singleton, List.not_mem_nil, false_or] at hx
      rcases hx with (((rfl | rfl) | rfl) | rfl) | rfl <;> exact fun h => nomatch h)
  obtain ⟨g5, s5⟩ := Option.isSome_iff_exists.mp hv
  have s5' : GStep cfg gcfg (ctx bob 1016, .proverCastVote prover1 1 1) g4 g5 := ⟨by rw [hw4]; exact hown, s5⟩
  have r5 := r4'.snoc (x := (ctx bob 1016, .proverCastVote prover1 1 1)) (by decide) (by decide) ⟨by decide, plain_ok (by decide)⟩ s5'
  obtain ⟨_, _, pp, c1, c2⟩ := castVote_some s5
  obtain ⟨_, _, c3⟩ := count_some c1
  obtain ⟨a4, _, _⟩ := r4.at (r4.still (t := 1015) (by decide))
  rw [v4.1, a4 prover1 (by decide), hw4, hstake] at c3
  have v5 : (g5.proposals 1).voteStart = 1015 ∧ (g5.proposals 1).voteDuration = 10 ∧ (g5.proposals 1).forVotes = 1000 := by
    rw [c2]
    dsimp only
    rw [upd_same, c3]
    exact ⟨rfl, v4.2.1, by dsimp only; rw [v4.2.2]; rfl⟩
  have hw5 : g5.w = wv := by rw [c2]; exact hw4
  have r6 : Run cfg gcfg 900 gov0 campaign g5 1026 := r5.wait (now' := 1026) (by decide) (by decide)
  have hsn : Snapshot cfg gcfg gov0 campaign g5 (g5.proposals 1).voteStart g4 := by
    rw [v5.1]
    refine ⟨campaign.take 5, [(ctx bob 1016, .proverCastVote prover1 1 1)], rfl, ?_, ?_, r4.run, ⟨g5, s5', rfl⟩⟩
    · intro x hx
      exact Nat.le_trans (r4.time x hx) (by decide)
    · intro x hx
      rw [List.mem_singleton.mp hx]
      decide
  have hq4 : g4.quorumNum.latest = 4 := by
    rw [hg4]
    show g3.quorumNum.latest = 4
    rw [q3, qb, q2, q1]; rfl
  have hpass : g5.stateOf (ctx alice 1026) 1 = some .succeeded := by
    refine (c72_passed_iff (c := ctx alice 1026) r6 1 hsn).mpr ⟨?_, ?_, ?_, ?_, ?_, ?_⟩
    · exact ⟨(ctx bob 1010, .proverPropose prover1 plan []), by simp [campaign], prover1, by decide⟩
    · intro x hx
      simp only [campaign, List.mem_cons, List.not_mem_nil, or_false] at hx
      rcases hx with rfl | rfl | rfl | rfl | rfl | rfl <;> exact fun h => nomatch h
    · intro x hx
      simp only [campaign, List.mem_cons, List.not_mem_nil, or_false] at hx
      rcases hx with rfl | rfl | rfl | rfl | rfl | rfl <;> exact fun h => nomatch h
    · rw [v5.1, v5.2.1]; decide
    · rw [hw4]; decide +kernel
    · rw [hw4, hq4]; decide +kernel
  -- the execution
  have hex : ∀ w : World, w.vapp.owner = gov → ∀ c : Ctx, c.sender = gov →
      exec cfg c (.updateMinDeposit 20) w = .ok ((), { w with vapp := { w.vapp with minDepositAmount := 20 } }) := by
    intro w ho c hs
    unfold exec
    simp only [vappUpdateMinDeposit, bind_ok, vappOnlyOwner_ok, modVapp_ok]
    exact ⟨(), w, ⟨by rw [hs, ho], rfl⟩, rfl⟩
  refine ⟨g5, { g5 with w := { g5.w with vapp := { g5.w.vapp with minDepositAmount := 20 } }, proposals := upd g5.proposals 1 { g5.proposals 1 with executed := true } },
    r6, ⟨hpass, ?_⟩, v5.1, v5.2.2, by rw [hw5]; decide +kernel, rfl, ?_⟩
  rotate_left
  · have r7 := r6.wait (now' := 1065) (by decide) (by decide)
    have d5 : g5.votingDelay = 5 ∧ g5.votingPeriod = 10 := by
      rw [c2, hg4]
      exact d3
    obtain ⟨g'', s7, _⟩ := l1_step (s := alice) (t := 1065) (k := .cancelSlash prover1 0) r7 (by decide) (by decide)
      (by decide) (by decide) d5 (by rw [hw5]; decide +kernel)
    exact ⟨g'', r7, s7⟩
  refine ⟨_, ⟨_, [], _, hex _ (by rw [show (Gov.setProposal g5 _ _).w = g5.w from rfl, hw5]; decide +kernel) _ rfl, ⟨rfl, rfl⟩, rfl, rfl⟩, rfl⟩

-- Witnesses: the hypotheses of `c72_executed` and the others hold of the campaign; unstaking $iPROVE counts in the
-- supply but not among the stakes.
example : ∃ g g', Run cfg gcfg 900 gov0 campaign g 1026 ∧ GStep cfg gcfg (ctx alice 1026, .execute plan 0) g g' :=
  let ⟨g, g', r, s, _⟩ := campaign_passes
  ⟨g, g', r, s⟩
example : ∃ g g', Run cfg gcfg 900 gov0 campaign g 1065 ∧ GStep cfg gcfg (ctx alice 1065, .l1 (.cancelSlash prover1 0)) g g' ∧
    (g.proposals 1).voteStart ≠ 0 :=
  let ⟨g, _, _, _, h, _, _, _, g'', r, s⟩ := campaign_passes
  ⟨g, g'', r, s, by rw [h]; decide⟩
-- nobody acts as the governor, and nothing is executed: nothing changes
example : genesis.staking.owner = gcfg.governor ∧ genesis.vapp.owner = gcfg.governor ∧
    ∀ x ∈ campaign, x.1.sender ≠ gcfg.governor ∧ executes gcfg x = none := by
  refine ⟨rfl, rfl, fun x hx => ?_⟩
  simp only [campaign, List.mem_cons, List.not_mem_nil, or_false] at hx
  rcases hx with rfl | rfl | rfl | rfl | rfl | rfl <;> exact ⟨by decide, rfl⟩
example : stakeOf ToyL1.w3 prover1 + ToyL1.w3.iprove.bal cfg.staking = ToyL1.w3.iprove.supply ∧
    ToyL1.w3.iprove.bal cfg.staking = 500 := by decide +kernel

end ToyL1

end Verif
