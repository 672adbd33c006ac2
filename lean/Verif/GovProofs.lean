import Verif.VotesProofs
import Verif.L1Views
/-
# Histories with voting: the invariant, and what a history says about a proposal
-/

namespace Verif
open L1

/-! ## The invariant -/

/-- What holds after every history, at time `T`. -/
structure GInv (cfg : Cfg) (T : Nat) (g : Gov) : Prop where
  reach : Reachable cfg g.w
  upto : g.v.Upto T
  quorum : g.quorumNum.Upto T
  sum : VSum g.v g.w.iprove
  self : ∀ p, g.w.staking.provers p = true → g.v.delegates p = p
  sys : ∀ a, cfg.System a → g.w.staking.provers a = false → g.v.delegates a = 0

/-- What is known of the past at time `now` is unchanged. -/
structure Gov.Next (now : Nat) (g g' : Gov) : Prop where
  v : g.v.Next now g'.v
  quorum : ∀ x, x < now → g'.quorumNum.at x = g.quorumNum.at x

theorem Gov.Next.refl (now : Nat) (g : Gov) : g.Next now g := ⟨.refl _ _, fun _ _ => rfl⟩

theorem Gov.Next.trans {now : Nat} {g g1 g2 : Gov} (h : g.Next now g1) (h' : g1.Next now g2) : g.Next now g2 :=
  ⟨h.v.trans h'.v, fun x hx => (h'.quorum x hx).trans (h.quorum x hx)⟩

theorem clock_eq {c : Ctx} (h : c.now < 2 ^ 48) : clock c = c.now := Nat.mod_eq_of_lt h

theorem GInv.genesis {cfg : Cfg} {T : Nat} {g : Gov} (h : GGenesis cfg T g) : GInv cfg T g := by
  obtain ⟨t, n, hq, ht, _⟩ := h.quorum
  have he := h.w.iprove
  refine ⟨⟨g.w, [], h.w, fun _ hx => (nomatch hx), rfl⟩, ⟨fun a e he => ?_, fun e he => ?_⟩, fun e he => ?_,
    ⟨fun d _ => ?_, ?_, ?_, ?_, ?_⟩, fun p hp => ?_, fun a _ _ => by rw [h.delegates]⟩
  · rw [h.cps] at he; exact nomatch he
  · rw [h.total] at he; exact nomatch he
  · rw [hq] at he; rw [List.mem_singleton.mp he]; exact ht
  · rw [h.cps]
    refine HasSum.zero.congr fun a => ?_
    unfold units
    rw [he]
    split <;> rfl
  · rw [h.total, he]; rfl
  · rw [h.delegates]
  · rw [he]; exact HasSum.zero
  · rw [he]; exact Nat.zero_le _
  · rw [h.w.registry.2.2.1] at hp; exact nomatch hp

theorem provers_stay {cfg : Cfg} {c : Ctx} {k : Call} {w w' : World} (h : exec cfg c k w = .ok ((), w'))
    (hk : ∀ f, k ≠ .createProver f) : w'.staking.provers = w.staking.provers := ((exec_frames h).1 hk).2.1

/-- Calls to the contracts keep the invariant. -/
theorem GInv.l1 {cfg : Cfg} (hc : cfg.WF) {T : Nat} {c : Ctx} {k : Call} {g g' : Gov} (h : GInv cfg T g)
    (hT : T ≤ c.now) (hn : c.now < 2 ^ 48) (ha : Admissible cfg (c, k)) (hs : g.L1Step cfg c k g') :
    GInv cfg c.now g' ∧ g.Next c.now g' ∧ g'.proposals = g.proposals ∧ g'.votingDelay = g.votingDelay ∧
      g'.votingPeriod = g.votingPeriod := by
  obtain ⟨w', ms, v1, he, hm, hv, hk⟩ := hs
  rw [clock_eq hn] at hv
  have ha' : Admissible cfg ({ c with votingDelay := g.votingDelay, votingPeriod := g.votingPeriod }, k) := by
    cases k <;> exact ha
  have hr' : Reachable cfg w' := by
    have := h.reach.call ha'
    rw [show Verif.call cfg _ k g.w = w' by unfold Verif.call; dsimp only; rw [he]] at this
    exact this
  obtain ⟨a1, a2, a3⟩ := h.sum.moves hm hv
  have hu := h.upto.mono hT
  by_cases hcp : ∃ f, k = .createProver f
  · obtain ⟨f, rfl⟩ := hcp
    dsimp only at hk
    obtain ⟨v2, hd, rfl⟩ := hk
    rw [clock_eq hn] at hd
    obtain ⟨p, he⟩ := drop_ok.mp he
    obtain ⟨_, _, _, hp, hnp, _, _, _, _, t, ht, hw⟩ := createProver_ok he
    dsimp only at hp
    have hprov : w'.staking.provers = upd g.w.staking.provers p true := by rw [hw]
    rw [← hp] at hd
    obtain ⟨b1, b2, _⟩ := Votes.delegate_spec hd
    have hp0 : p ≠ 0 := by rw [hp]; exact (hc.create2 _ _ _).1
    refine ⟨⟨hr', b1.upto (a2.upto hu), h.quorum.mono hT, a1.delegate hp0 hd, fun q hq => ?_, fun a hs hq => ?_⟩,
      ⟨a2.trans b1, fun _ _ => rfl⟩, rfl, rfl, rfl⟩
    · dsimp only at hq ⊢
      rw [b2]
      by_cases e : q = p
      · rw [e, upd_same]
      · rw [hprov, upd_ne _ _ e] at hq
        rw [upd_ne _ _ e, a3]
        exact h.self q hq
    · dsimp only at hq ⊢
      by_cases e : a = p
      · rw [hprov, e, upd_same] at hq; exact nomatch hq
      · rw [hprov, upd_ne _ _ e] at hq
        rw [b2, upd_ne _ _ e, a3]
        exact h.sys a hs hq
  · have hcp' : ∀ f, k ≠ .createProver f := fun f e => hcp ⟨f, e⟩
    have hg : g' = { g with w := w', v := v1 } := by
      cases k
      case createProver f => exact absurd rfl (hcp' f)
      all_goals exact hk
    rw [hg]
    have hprov := provers_stay he hcp'
    refine ⟨⟨hr', a2.upto hu, h.quorum.mono hT, a1, fun q hq => ?_, fun a hs hq => ?_⟩, ⟨a2, fun _ _ => rfl⟩, rfl, rfl, rfl⟩
    · dsimp only at hq ⊢
      rw [hprov] at hq
      rw [a3]; exact h.self q hq
    · dsimp only at hq ⊢
      rw [hprov] at hq
      rw [a3]; exact h.sys a hs hq

theorem Admissible.sender {cfg : Cfg} {c c' : Ctx} {k : Call} (h : Admissible cfg (c, k)) (e : c'.sender = c.sender) :
    Admissible cfg (c', k) := by
  unfold Admissible at h ⊢
  dsimp only at h ⊢
  rw [e]
  exact h

/-- So do the calls of a proposal. -/
theorem GInv.acts {cfg : Cfg} (hc : cfg.WF) {gc : GCfg} {c : Ctx} (hn : c.now < 2 ^ 48) : ∀ {as : List GAction} {T : Nat} {g g' : Gov},
    GInv cfg T g → T ≤ c.now → (∀ k, .l1 k ∈ as → Admissible cfg ({ c with sender := gc.governor }, k)) →
    g.Acts cfg gc c as g' → GInv cfg c.now g' ∧ g.Next c.now g' ∧ g'.proposals = g.proposals := by
  intro as
  induction as with
  | nil =>
    intro T g g' h hT _ e
    obtain rfl := e
    exact ⟨⟨h.reach, h.upto.mono hT, h.quorum.mono hT, h.sum, h.self, h.sys⟩, .refl _ _, rfl⟩
  | cons a as ih =>
    intro T g g' h hT ha hs
    obtain ⟨g1, h1, h2⟩ := hs
    have key : GInv cfg c.now g1 ∧ g.Next c.now g1 ∧ g1.proposals = g.proposals := by
      have hi : GInv cfg c.now g := ⟨h.reach, h.upto.mono hT, h.quorum.mono hT, h.sum, h.self, h.sys⟩
      cases a with
      | l1 k =>
        obtain ⟨b1, b2, b3, _⟩ := h.l1 hc (c := { c with sender := gc.governor }) hT hn (ha k List.mem_cons_self) h1
        exact ⟨b1, b2, b3⟩
      | setVotingDelay n => obtain ⟨_, rfl⟩ := h1; exact ⟨⟨hi.reach, hi.upto, hi.quorum, hi.sum, hi.self, hi.sys⟩, ⟨.refl _ _, fun _ _ => rfl⟩, rfl⟩
      | setVotingPeriod n => obtain ⟨_, _, rfl⟩ := h1; exact ⟨⟨hi.reach, hi.upto, hi.quorum, hi.sum, hi.self, hi.sys⟩, ⟨.refl _ _, fun _ _ => rfl⟩, rfl⟩
      | setProposalThreshold n => obtain ⟨_, rfl⟩ := h1; exact ⟨⟨hi.reach, hi.upto, hi.quorum, hi.sum, hi.self, hi.sys⟩, ⟨.refl _ _, fun _ _ => rfl⟩, rfl⟩
      | updateQuorumNumerator n =>
        obtain ⟨_, t, ht, rfl⟩ := h1
        rw [clock_eq hn] at ht
        obtain ⟨_, q2, q3⟩ := Trace.push_spec ht
        exact ⟨⟨hi.reach, hi.upto, q3 hi.quorum, hi.sum, hi.self, hi.sys⟩, ⟨.refl _ _, q2⟩, rfl⟩
      | other _ _ _ => obtain rfl := h1; exact ⟨hi, .refl _ _, rfl⟩
    obtain ⟨k1, k2, k3⟩ := key
    obtain ⟨i1, i2, i3⟩ := ih k1 (Nat.le_refl _) (fun k hk => ha k (List.mem_cons_of_mem _ hk)) h2
    exact ⟨i1, k2.trans i2, i3.trans k3⟩

theorem GInv.mono {cfg : Cfg} {T T' : Nat} {g : Gov} (h : GInv cfg T g) (hT : T ≤ T') : GInv cfg T' g :=
  ⟨h.reach, h.upto.mono hT, h.quorum.mono hT, h.sum, h.self, h.sys⟩

/-- Only the proposals differ. -/
theorem GInv.setProps {cfg : Cfg} {T : Nat} {g : Gov} (h : GInv cfg T g) (ps : U256 → Proposal) :
    GInv cfg T { g with proposals := ps } := ⟨h.reach, h.upto, h.quorum, h.sum, h.self, h.sys⟩

theorem GInv.delegate {cfg : Cfg} {now : Nat} {g : Gov} {v : Votes} {a d : Address} (h : GInv cfg now g)
    (ha : ¬ cfg.System a) (h0 : a ≠ 0) (hv : g.v.delegate now a d (g.w.iprove.bal a) = some v) (hc : cfg.WF) :
    GInv cfg now { g with v := v } ∧ g.Next now { g with v := v } := by
  obtain ⟨b1, b2, _⟩ := Votes.delegate_spec hv
  refine ⟨⟨h.reach, b1.upto h.upto, h.quorum, h.sum.delegate h0 hv, fun p hp => ?_, fun b hb hp => ?_⟩, b1, fun _ _ => rfl⟩
  · have : p ≠ a := by
      rintro rfl
      have := ((Registry.reachable hc _ h.reach).outsider ha).2.2
      rw [this] at hp; exact nomatch hp
    dsimp only
    rw [b2, upd_ne _ _ this]
    exact h.self p hp
  · have : b ≠ a := by rintro rfl; exact ha hb
    dsimp only
    rw [b2, upd_ne _ _ this]
    exact h.sys b hb hp

theorem propose_some {gc : GCfg} {c : Ctx} {a : Address} {as : List GAction} {d : Bytes} {g g' : Gov}
    (h : g.propose gc c a as d = some g') :
    g.mayPropose c a = true ∧ as ≠ [] ∧ gc.validFor a d = true ∧ (g.proposals (gc.pid as (gc.keccak d))).voteStart = 0 ∧
    g' = g.setProposal (gc.pid as (gc.keccak d)) fun p =>
      { p with proposer := a, voteStart := clock c + g.votingDelay, voteDuration := g.votingPeriod } := by
  unfold Gov.propose at h
  split at h
  · exact nomatch h
  · rename_i h1
    split at h
    · exact nomatch h
    · rename_i h2
      split at h
      · exact nomatch h
      · rename_i h3
        dsimp only at h
        split at h
        · exact nomatch h
        · rename_i h4
          split at h
          · exact nomatch h
          · refine ⟨by simpa using h2, fun e => h3 (by rw [e]; rfl), by simpa using h1, Decidable.not_not.mp h4, (Option.some.inj h).symm⟩

theorem cancel_some {gc : GCfg} {c : Ctx} {a : Address} {as : List GAction} {d : B256} {g g' : Gov}
    (h : g.cancel gc c a as d = some g') :
    g.stateOf c (gc.pid as d) = some .pending ∧ a = (g.proposals (gc.pid as d)).proposer ∧
    g' = g.setProposal (gc.pid as d) fun p => { p with canceled := true } := by
  unfold Gov.cancel at h
  dsimp only at h
  split at h
  · exact nomatch h
  · rename_i h1
    split at h
    · exact nomatch h
    · rename_i h2
      exact ⟨Decidable.not_not.mp h1, Decidable.not_not.mp h2, (Option.some.inj h).symm⟩

theorem castVote_some {c : Ctx} {a : Address} {id : U256} {s : Nat} {g g' : Gov} (h : g.castVote c a id s = some g') :
    g.stateOf c id = some .active ∧ (g.proposals id).voteStart < clock c ∧ ∃ p,
      (g.proposals id).count a s ((g.v.cps a).at (g.proposals id).voteStart) = some p ∧
      g' = { g with proposals := upd g.proposals id p } := by
  unfold Gov.castVote at h
  split at h
  · exact nomatch h
  · rename_i h1
    split at h
    · exact nomatch h
    · rename_i weight hw
      split at h
      · exact nomatch h
      · rename_i p hp
        unfold Gov.pastVotes at hw
        split at hw
        · rename_i ht
          rw [← Option.some.inj hw] at hp
          exact ⟨Decidable.not_not.mp h1, ht, p, hp, (Option.some.inj h).symm⟩
        · exact nomatch hw

theorem count_some {p p' : Proposal} {a : Address} {s n : Nat} (h : p.count a s n = some p') :
    p.hasVoted a = false ∧ s ≤ 2 ∧ p' = { p with
      hasVoted := upd p.hasVoted a true
      againstVotes := p.againstVotes + (if s = 0 then n else 0)
      forVotes := p.forVotes + (if s = 1 then n else 0)
      abstainVotes := p.abstainVotes + (if s = 2 then n else 0) } := by
  unfold Proposal.count at h
  split at h
  · exact nomatch h
  · rename_i hv
    have hv' : p.hasVoted a = false := by simpa using hv
    split at h
    · rename_i hs; subst hs
      exact ⟨hv', by omega, (Option.some.inj h).symm⟩
    · split at h
      · rename_i hs; subst hs
        exact ⟨hv', by omega, (Option.some.inj h).symm⟩
      · split at h
        · rename_i hs; subst hs
          exact ⟨hv', by omega, (Option.some.inj h).symm⟩
        · exact nomatch h

/-- Every accepted call keeps the invariant and the past. -/
theorem GInv.step {cfg : Cfg} (hc : cfg.WF) {gc : GCfg} {T : Nat} {x : Ctx × GCall} {g g' : Gov} (h : GInv cfg T g)
    (hT : T ≤ x.1.now) (hn : x.1.now < 2 ^ 48) (ha : GAdmissible cfg gc x) (hs : GStep cfg gc x g g') :
    GInv cfg x.1.now g' ∧ g.Next x.1.now g' := by
  obtain ⟨c, k⟩ := x
  obtain ⟨h0, ha⟩ := ha
  have hm := h.mono hT
  dsimp only at hT hn h0 ha hm ⊢
  cases k with
  | l1 k => obtain ⟨b1, b2, _⟩ := h.l1 hc hT hn ha hs; exact ⟨b1, b2⟩
  | delegate d =>
    obtain ⟨v, hv, rfl⟩ := hs
    dsimp only at hv
    rw [clock_eq hn] at hv
    exact hm.delegate ha h0 hv hc
  | delegateBySig s d =>
    obtain ⟨v, hv, rfl⟩ := hs
    dsimp only at hv
    rw [clock_eq hn] at hv
    exact hm.delegate ha.2.1 ha.2.2 hv hc
  | propose as d => obtain ⟨_, _, _, _, rfl⟩ := propose_some hs; exact ⟨hm.setProps _, ⟨.refl _ _, fun _ _ => rfl⟩⟩
  | proverPropose p as d => obtain ⟨_, _, _, _, rfl⟩ := propose_some hs.2; exact ⟨hm.setProps _, ⟨.refl _ _, fun _ _ => rfl⟩⟩
  | cancel as d => obtain ⟨_, _, rfl⟩ := cancel_some hs; exact ⟨hm.setProps _, ⟨.refl _ _, fun _ _ => rfl⟩⟩
  | proverCancel p as d => obtain ⟨_, _, rfl⟩ := cancel_some hs.2; exact ⟨hm.setProps _, ⟨.refl _ _, fun _ _ => rfl⟩⟩
  | castVote id s => obtain ⟨_, _, _, _, rfl⟩ := castVote_some hs; exact ⟨hm.setProps _, ⟨.refl _ _, fun _ _ => rfl⟩⟩
  | castVoteBySig _ _ id s => obtain ⟨_, _, _, _, rfl⟩ := castVote_some hs.2; exact ⟨hm.setProps _, ⟨.refl _ _, fun _ _ => rfl⟩⟩
  | proverCastVote _ id s => obtain ⟨_, _, _, _, rfl⟩ := castVote_some hs.2; exact ⟨hm.setProps _, ⟨.refl _ _, fun _ _ => rfl⟩⟩
  | execute as d =>
    obtain ⟨_, hs⟩ := hs
    obtain ⟨b1, b2, _⟩ := (hm.setProps _).acts hc hn (Nat.le_refl _) ha.2 hs
    exact ⟨b1, b2.v, b2.quorum⟩

/-! ## Histories -/

/-- The accepted calls keep to the rules, in time. -/
def GOk (cfg : Cfg) (gc : GCfg) (T : Nat) (h : List (Ctx × GCall)) : Prop := GTimed T h ∧ ∀ x ∈ h, GAdmissible cfg gc x

/-- The time after a history. -/
def lastTime : Nat → List (Ctx × GCall) → Nat
  | T, [] => T
  | _, x :: h => lastTime x.1.now h

theorem GRun.append {cfg : Cfg} {gc : GCfg} {h h' : List (Ctx × GCall)} : ∀ {g g' : Gov},
    GRun cfg gc g (h ++ h') g' ↔ ∃ g1, GRun cfg gc g h g1 ∧ GRun cfg gc g1 h' g' := by
  induction h with
  | nil => intro g g'; exact ⟨fun e => ⟨g, rfl, e⟩, fun ⟨g1, e, h⟩ => by rw [← (show g1 = g from e)]; exact h⟩
  | cons x h ih =>
    intro g g'
    constructor
    · rintro ⟨g1, h1, h2⟩
      obtain ⟨g2, h3, h4⟩ := ih.mp h2
      exact ⟨g2, ⟨g1, h1, h3⟩, h4⟩
    · rintro ⟨g2, ⟨g1, h1, h3⟩, h4⟩
      exact ⟨g1, h1, ih.mpr ⟨g2, h3, h4⟩⟩

theorem GTimed.append {h h' : List (Ctx × GCall)} : ∀ {T : Nat}, GTimed T (h ++ h') ↔ GTimed T h ∧ GTimed (lastTime T h) h' := by
  induction h with
  | nil => intro T; exact ⟨fun h => ⟨trivial, h⟩, fun h => h.2⟩
  | cons x h ih =>
    intro T
    show (_ ∧ _ ∧ _) ↔ (_ ∧ _ ∧ _) ∧ _
    rw [show GTimed x.1.now (h.append h') ↔ _ from ih]
    exact ⟨fun ⟨a, b, c, d⟩ => ⟨⟨a, b, c⟩, d⟩, fun ⟨⟨a, b, c⟩, d⟩ => ⟨a, b, c, d⟩⟩

theorem GOk.append {cfg : Cfg} {gc : GCfg} {T : Nat} {h h' : List (Ctx × GCall)} :
    GOk cfg gc T (h ++ h') ↔ GOk cfg gc T h ∧ GOk cfg gc (lastTime T h) h' := by
  unfold GOk
  rw [GTimed.append]
  exact ⟨fun ⟨⟨a, b⟩, c⟩ => ⟨⟨a, fun x hx => c x (List.mem_append_left _ hx)⟩, b, fun x hx => c x (List.mem_append_right _ hx)⟩,
    fun ⟨⟨a, b⟩, c, d⟩ => ⟨⟨a, c⟩, fun x hx => (List.mem_append.mp hx).elim (b x) (d x)⟩⟩

theorem lastTime_append {h h' : List (Ctx × GCall)} : ∀ {T : Nat}, lastTime T (h ++ h') = lastTime (lastTime T h) h' := by
  induction h with
  | nil => intro T; rfl
  | cons x h ih => intro T; exact ih

theorem GTimed.le {h : List (Ctx × GCall)} : ∀ {T : Nat}, GTimed T h → T ≤ lastTime T h := by
  induction h with
  | nil => intro T _; exact Nat.le_refl _
  | cons x h ih => intro T ht; exact Nat.le_trans ht.1 (ih ht.2.2)

theorem GTimed.mem {h : List (Ctx × GCall)} : ∀ {T : Nat}, GTimed T h → ∀ x ∈ h, T ≤ x.1.now ∧ x.1.now ≤ lastTime T h ∧ x.1.now < 2 ^ 48 := by
  induction h with
  | nil => intro T _ x hx; exact nomatch hx
  | cons y h ih =>
    intro T ht x hx
    rcases List.mem_cons.mp hx with rfl | hx
    · exact ⟨ht.1, ht.2.2.le, ht.2.1⟩
    · obtain ⟨h1, h2, h3⟩ := ih ht.2.2 x hx
      exact ⟨Nat.le_trans ht.1 h1, h2, h3⟩

/-- Induction along a history, with the calls so far. -/
theorem GRun.along {cfg : Cfg} {gc : GCfg} {T : Nat} {g₀ : Gov} {J : List (Ctx × GCall) → Gov → Prop} (h0 : J [] g₀)
    (hs : ∀ hp x g g', GOk cfg gc T (hp ++ [x]) → GRun cfg gc g₀ hp g → J hp g → GStep cfg gc x g g' → J (hp ++ [x]) g') :
    ∀ {h g}, GOk cfg gc T h → GRun cfg gc g₀ h g → J h g := by
  have gen : ∀ (h hp : List (Ctx × GCall)) (g g' : Gov), GOk cfg gc T (hp ++ h) → GRun cfg gc g₀ hp g → J hp g →
      GRun cfg gc g h g' → J (hp ++ h) g' := by
    intro h
    induction h with
    | nil => intro hp g g' _ _ hj e; obtain rfl := e; rw [List.append_nil]; exact hj
    | cons x h ih =>
      intro hp g g' hok hr hj hrun
      obtain ⟨g1, h1, h2⟩ := hrun
      have e : hp ++ x :: h = hp ++ [x] ++ h := by rw [List.append_assoc]; rfl
      rw [e] at hok ⊢
      exact ih (hp ++ [x]) g1 g' hok (GRun.append.mpr ⟨g, hr, g1, h1, rfl⟩)
        (hs hp x g g1 (GOk.append.mp hok).1 hr hj h1) h2
  intro h g hok hr
  exact gen h [] g₀ g hok rfl h0 hr

theorem GOk.snoc {cfg : Cfg} {gc : GCfg} {T : Nat} {hp : List (Ctx × GCall)} {x : Ctx × GCall} (h : GOk cfg gc T (hp ++ [x])) :
    GOk cfg gc T hp ∧ lastTime T hp ≤ x.1.now ∧ x.1.now < 2 ^ 48 ∧ GAdmissible cfg gc x ∧ lastTime T (hp ++ [x]) = x.1.now := by
  obtain ⟨h1, h2, h3⟩ := GOk.append.mp h
  exact ⟨h1, h2.1, h2.2.1, h3 x List.mem_cons_self, by rw [lastTime_append]; rfl⟩

theorem GInv.run {cfg : Cfg} (hc : cfg.WF) {gc : GCfg} {T : Nat} {g₀ : Gov} (hi : GInv cfg T g₀) {h : List (Ctx × GCall)} {g : Gov}
    (hok : GOk cfg gc T h) (hr : GRun cfg gc g₀ h g) : GInv cfg (lastTime T h) g :=
  GRun.along (J := fun h g => GInv cfg (lastTime T h) g) hi (fun hp x g g' hok _ hj hs => by
    obtain ⟨_, h1, h2, h3, h4⟩ := hok.snoc
    rw [h4]
    exact (hj.step hc h1 h2 h3 hs).1) hok hr

/-- Times up to `t` are not changed by what comes after `t`. -/
theorem GInv.past {cfg : Cfg} (hc : cfg.WF) {gc : GCfg} {t : Nat} : ∀ {h : List (Ctx × GCall)} {T : Nat} {g g' : Gov},
    GInv cfg T g → GOk cfg gc T h → (∀ x ∈ h, t < x.1.now) → GRun cfg gc g h g' →
    (∀ a, (g'.v.cps a).at t = (g.v.cps a).at t) ∧ g'.v.total.at t = g.v.total.at t ∧
      g'.quorumNum.at t = g.quorumNum.at t := by
  intro h
  induction h with
  | nil => intro T g g' _ _ _ e; obtain rfl := e; exact ⟨fun _ => rfl, rfl, rfl⟩
  | cons x h ih =>
    intro T g g' hi hok ht hr
    obtain ⟨g1, h1, h2⟩ := hr
    obtain ⟨b1, b2⟩ := hi.step hc hok.1.1 hok.1.2.1 (hok.2 x List.mem_cons_self) h1
    have hx := ht x List.mem_cons_self
    obtain ⟨c1, c2, c3⟩ := ih b1 ⟨hok.1.2.2, fun y hy => hok.2 y (List.mem_cons_of_mem _ hy)⟩
      (fun y hy => ht y (List.mem_cons_of_mem _ hy)) h2
    exact ⟨fun a => (c1 a).trans (b2.v.cps a t hx), c2.trans (b2.v.total t hx), c3.trans (b2.quorum t hx)⟩

/-- A history splits at any time. -/
theorem GTimed.split (t : Nat) : ∀ {h : List (Ctx × GCall)} {T : Nat}, GTimed T h → ∃ h1 h2, h = h1 ++ h2 ∧
    (∀ x ∈ h1, x.1.now ≤ t) ∧ ∀ x ∈ h2, t < x.1.now := by
  intro h
  induction h with
  | nil => intro T _; exact ⟨[], [], rfl, fun _ hx => (nomatch hx), fun _ hx => (nomatch hx)⟩
  | cons x h ih =>
    intro T ht
    by_cases hx : x.1.now ≤ t
    · obtain ⟨h1, h2, e, a, b⟩ := ih ht.2.2
      exact ⟨x :: h1, h2, by rw [e]; rfl, fun y hy => by
        rcases List.mem_cons.mp hy with rfl | hy
        · exact hx
        · exact a y hy, b⟩
    · refine ⟨[], x :: h, rfl, fun _ hx => (nomatch hx), fun y hy => ?_⟩
      rcases List.mem_cons.mp hy with rfl | hy
      · omega
      · have := (ht.2.2.mem y hy).1; omega

theorem lastTime_le {h : List (Ctx × GCall)} {t : Nat} : ∀ {T : Nat}, T ≤ t → (∀ x ∈ h, x.1.now ≤ t) → lastTime T h ≤ t := by
  induction h with
  | nil => intro T hT _; exact hT
  | cons x h ih => intro T _ hx; exact ih (hx x List.mem_cons_self) (fun y hy => hx y (List.mem_cons_of_mem _ hy))

/-! ## Votes are stakes -/

/-- The stake of a prover: the $iPROVE in its vault; nobody else has a stake to vote with. -/
def stakeOf (w : World) (a : Address) : Nat := if w.staking.provers a = true then w.iprove.bal a else 0

theorem GInv.latest {cfg : Cfg} (hc : cfg.WF) {T : Nat} {g : Gov} (h : GInv cfg T g) {d : Address} (hd : d ≠ 0) :
    (g.v.cps d).latest = stakeOf g.w d := by
  refine (h.sum.votes d hd).unique ?_
  have hi := StakingInv.reachable hc _ h.reach
  have key : units g.v g.w.iprove d = upd (fun _ => 0) d (stakeOf g.w d) := by
    funext a
    unfold units
    cases hp : g.w.staking.provers a with
    | true =>
      rw [h.self a hp]
      by_cases e : a = d
      · subst e; rw [if_pos rfl, upd_same]; unfold stakeOf; rw [if_pos hp]
      · rw [if_neg e, upd_ne _ _ e]
    | false =>
      have e1 : (if g.v.delegates a = d then g.w.iprove.bal a else 0) = 0 := by
        by_cases e : a = cfg.staking
        · rw [h.sys a (Or.inr (Or.inr (Or.inl e))) hp, if_neg (Ne.symm hd)]
        · rw [hi.stake.held a e hp]; split <;> rfl
      rw [e1]
      by_cases e : a = d
      · subst e; rw [upd_same]; unfold stakeOf; rw [if_neg (by rw [hp]; decide)]
      · rw [upd_ne _ _ e]
  rw [key]
  exact HasSum.zero.update d _ (by omega)

/-! ## What the calls of a history do to a proposal -/

/-- The vote a call casts on proposal `id`: by whom, and for what. -/
def ballot (id : U256) (x : Ctx × GCall) : Option (Address × Nat) :=
  match x.2 with
  | .castVote i s => if i = id then some (x.1.sender, s) else none
  | .castVoteBySig _ v i s => if i = id then some (v, s) else none
  | .proverCastVote p i s => if i = id then some (p, s) else none
  | _ => none

/-- The votes a history casts on proposal `id`. -/
def ballots (id : U256) (h : List (Ctx × GCall)) : List (Address × Nat) := h.filterMap (ballot id)

/-- The proposal a call makes, and the proposer. -/
def proposes (gc : GCfg) (x : Ctx × GCall) : Option (Address × U256) :=
  match x.2 with
  | .propose as d => some (x.1.sender, gc.pid as (gc.keccak d))
  | .proverPropose p as d => some (p, gc.pid as (gc.keccak d))
  | _ => none

/-- The proposal a call cancels. -/
def cancels (gc : GCfg) (x : Ctx × GCall) : Option U256 :=
  match x.2 with
  | .cancel as d | .proverCancel _ as d => some (gc.pid as d)
  | _ => none

/-- The proposal a call executes. -/
def executes (gc : GCfg) (x : Ctx × GCall) : Option U256 :=
  match x.2 with
  | .execute as d => some (gc.pid as d)
  | _ => none

/-- What an accepted call does to proposal `id`. -/
inductive PropStep (gc : GCfg) (id : U256) (x : Ctx × GCall) (g g' : Gov) : Prop where
  | keep : ballot id x = none → (∀ a, proposes gc x ≠ some (a, id)) → cancels gc x ≠ some id → executes gc x ≠ some id →
      g'.proposals id = g.proposals id → PropStep gc id x g g'
  | propose (a : Address) : proposes gc x = some (a, id) → ballot id x = none → cancels gc x ≠ some id →
      executes gc x ≠ some id → (g.proposals id).voteStart = 0 → g.mayPropose x.1 a = true →
      g'.proposals id = { g.proposals id with
        proposer := a, voteStart := clock x.1 + g.votingDelay, voteDuration := g.votingPeriod } → PropStep gc id x g g'
  | cancel : cancels gc x = some id → ballot id x = none → (∀ a, proposes gc x ≠ some (a, id)) →
      executes gc x ≠ some id → g.stateOf x.1 id = some .pending →
      g'.proposals id = { g.proposals id with canceled := true } → PropStep gc id x g g'
  | execute : executes gc x = some id → ballot id x = none → (∀ a, proposes gc x ≠ some (a, id)) →
      cancels gc x ≠ some id → g.stateOf x.1 id = some .succeeded →
      g'.proposals id = { g.proposals id with executed := true } → PropStep gc id x g g'
  | vote (a : Address) (s : Nat) : ballot id x = some (a, s) → (∀ a, proposes gc x ≠ some (a, id)) →
      cancels gc x ≠ some id → executes gc x ≠ some id → g.stateOf x.1 id = some .active →
      (g.proposals id).voteStart < clock x.1 →
      (g.proposals id).count a s ((g.v.cps a).at (g.proposals id).voteStart) = some (g'.proposals id) → PropStep gc id x g g'

theorem PropStep.ofPropose {gc : GCfg} {id : U256} {c : Ctx} {k : GCall} {g g' : Gov} {a : Address} {as : List GAction} {d : Bytes}
    (hk : k = .propose as d ∧ a = c.sender ∨ k = .proverPropose a as d) (h : g.propose gc c a as d = some g') :
    PropStep gc id (c, k) g g' := by
  obtain ⟨h1, _, _, h4, rfl⟩ := propose_some h
  have e : proposes gc (c, k) = some (a, gc.pid as (gc.keccak d)) := by
    rcases hk with ⟨rfl, rfl⟩ | rfl <;> rfl
  have e1 : ballot id (c, k) = none := by rcases hk with ⟨rfl, _⟩ | rfl <;> rfl
  have e2 : cancels gc (c, k) ≠ some id := by rcases hk with ⟨rfl, _⟩ | rfl <;> exact fun h => nomatch h
  have e3 : executes gc (c, k) ≠ some id := by rcases hk with ⟨rfl, _⟩ | rfl <;> exact fun h => nomatch h
  by_cases hid : id = gc.pid as (gc.keccak d)
  · subst hid
    refine .propose a e e1 e2 e3 h4 h1 ?_
    show upd g.proposals _ _ _ = _
    rw [upd_same]
  · refine .keep e1 (fun b hb => ?_) e2 e3 ?_
    · rw [e] at hb
      exact hid (Prod.mk.inj (Option.some.inj hb)).2.symm
    · show upd g.proposals _ _ _ = _
      rw [upd_ne _ _ hid]

theorem PropStep.ofCancel {gc : GCfg} {id : U256} {c : Ctx} {k : GCall} {g g' : Gov} {a : Address} {as : List GAction} {d : B256}
    (hk : k = .cancel as d ∨ k = .proverCancel a as d) (h : g.cancel gc c a as d = some g') :
    PropStep gc id (c, k) g g' := by
  obtain ⟨h1, _, rfl⟩ := cancel_some h
  have e : cancels gc (c, k) = some (gc.pid as d) := by rcases hk with rfl | rfl <;> rfl
  have e1 : ballot id (c, k) = none := by rcases hk with rfl | rfl <;> rfl
  have e2 : ∀ b, proposes gc (c, k) ≠ some (b, id) := by rcases hk with rfl | rfl <;> exact fun b h => nomatch h
  have e3 : executes gc (c, k) ≠ some id := by rcases hk with rfl | rfl <;> exact fun h => nomatch h
  by_cases hid : id = gc.pid as d
  · subst hid
    refine .cancel e e1 e2 e3 h1 ?_
    show upd g.proposals _ _ _ = _
    rw [upd_same]
  · refine .keep e1 e2 (fun hb => ?_) e3 ?_
    · rw [e] at hb
      exact hid (Option.some.inj hb).symm
    · show upd g.proposals _ _ _ = _
      rw [upd_ne _ _ hid]

theorem PropStep.ofVote {gc : GCfg} {id i : U256} {c : Ctx} {k : GCall} {g g' : Gov} {a : Address} {s : Nat}
    (hk : ballot id (c, k) = if i = id then some (a, s) else none) (e1 : proposes gc (c, k) = none)
    (e2 : cancels gc (c, k) = none) (e3 : executes gc (c, k) = none) (h : g.castVote c a i s = some g') :
    PropStep gc id (c, k) g g' := by
  obtain ⟨h1, h2, p, h3, rfl⟩ := castVote_some h
  by_cases hid : i = id
  · subst hid
    rw [if_pos rfl] at hk
    refine .vote a s hk (by rw [e1]; exact fun _ h => nomatch h) (by rw [e2]; exact fun h => nomatch h)
      (by rw [e3]; exact fun h => nomatch h) h1 h2 ?_
    show _ = some (upd g.proposals _ _ _)
    rw [upd_same]; exact h3
  · rw [if_neg hid] at hk
    refine .keep hk (by rw [e1]; exact fun _ h => nomatch h) (by rw [e2]; exact fun h => nomatch h)
      (by rw [e3]; exact fun h => nomatch h) ?_
    show upd g.proposals _ _ _ = _
    rw [upd_ne _ _ (Ne.symm hid)]

theorem GStep.prop {cfg : Cfg} (hc : cfg.WF) {gc : GCfg} {T : Nat} {x : Ctx × GCall} {g g' : Gov} (hi : GInv cfg T g)
    (hT : T ≤ x.1.now) (hn : x.1.now < 2 ^ 48) (ha : GAdmissible cfg gc x) (hs : GStep cfg gc x g g') (id : U256) :
    PropStep gc id x g g' := by
  obtain ⟨c, k⟩ := x
  cases k with
  | l1 k =>
    obtain ⟨_, _, b3, _⟩ := hi.l1 hc hT hn ha.2 hs
    exact .keep rfl (fun _ h => nomatch h) (fun h => nomatch h) (fun h => nomatch h) (by rw [b3])
  | delegate d =>
    obtain ⟨v, hv, rfl⟩ := hs
    exact .keep rfl (fun _ h => nomatch h) (fun h => nomatch h) (fun h => nomatch h) rfl
  | delegateBySig s d =>
    obtain ⟨v, hv, rfl⟩ := hs
    exact .keep rfl (fun _ h => nomatch h) (fun h => nomatch h) (fun h => nomatch h) rfl
  | propose as d => exact .ofPropose (Or.inl ⟨rfl, rfl⟩) hs
  | proverPropose p as d => exact .ofPropose (Or.inr rfl) hs.2
  | cancel as d => exact .ofCancel (Or.inl rfl) hs
  | proverCancel p as d => exact .ofCancel (Or.inr rfl) hs.2
  | castVote i s => exact .ofVote rfl rfl rfl rfl hs
  | castVoteBySig _ v i s => exact .ofVote rfl rfl rfl rfl hs.2
  | proverCastVote p i s => exact .ofVote rfl rfl rfl rfl hs.2
  | execute as d =>
    obtain ⟨h1, hs⟩ := hs
    obtain ⟨_, _, b3⟩ := ((hi.mono hT).setProps _).acts hc hn (Nat.le_refl _) ha.2.2 hs
    by_cases hid : id = gc.pid as d
    · subst hid
      refine .execute rfl rfl (fun _ h => nomatch h) (fun h => nomatch h) h1 ?_
      rw [b3]
      show upd g.proposals _ _ _ = _
      rw [upd_same]
    · refine .keep rfl (fun _ h => nomatch h) (fun h => nomatch h) (fun h => ?_) ?_
      · exact hid (Option.some.inj h).symm
      · rw [b3]
        show upd g.proposals _ _ _ = _
        rw [upd_ne _ _ hid]

/-! ## What a proposal's record says about the history -/

/-- The votes cast for `s`, as recorded checkpoints at time `t`. -/
def recorded (v : Votes) (t : Nat) (bs : List (Address × Nat)) (s : Nat) : Nat :=
  ((bs.filter fun b => b.2 = s).map fun b => (v.cps b.1).at t).sum

/-- The record of proposal `id` after the history `h`. -/
structure PInv (cfg : Cfg) (gc : GCfg) (T : Nat) (g₀ : Gov) (id : U256) (h : List (Ctx × GCall)) (g : Gov) : Prop where
  nodup : ((ballots id h).map (·.1)).Nodup
  voted : ∀ a, (g.proposals id).hasVoted a = true ↔ a ∈ (ballots id h).map (·.1)
  support : ∀ b ∈ ballots id h, b.2 ≤ 2
  against : (g.proposals id).againstVotes = recorded g.v (g.proposals id).voteStart (ballots id h) 0
  for_ : (g.proposals id).forVotes = recorded g.v (g.proposals id).voteStart (ballots id h) 1
  abstain : (g.proposals id).abstainVotes = recorded g.v (g.proposals id).voteStart (ballots id h) 2
  late : ballots id h ≠ [] → (g.proposals id).voteStart < lastTime T h
  unset : (g.proposals id).voteStart = 0 → ballots id h = [] ∧ (g.proposals id).executed = false ∧ (g.proposals id).canceled = false
  set : (g.proposals id).voteStart ≠ 0 → ∃ h1 x h2 g1, h = h1 ++ x :: h2 ∧ GRun cfg gc g₀ h1 g1 ∧ GRun cfg gc g1 (x :: h2) g ∧
    proposes gc x = some ((g.proposals id).proposer, id) ∧ g1.mayPropose x.1 (g.proposals id).proposer = true ∧
    (g.proposals id).voteStart = x.1.now + g1.votingDelay ∧ (g.proposals id).voteDuration = g1.votingPeriod
  exec : (g.proposals id).executed = true ↔ ∃ x ∈ h, executes gc x = some id
  canc : (g.proposals id).canceled = true ↔ ∃ x ∈ h, cancels gc x = some id

theorem ballots_snoc {id : U256} {h : List (Ctx × GCall)} {x : Ctx × GCall} :
    ballots id (h ++ [x]) = ballots id h ++ (match ballot id x with | some b => [b] | none => []) := by
  unfold ballots
  rw [List.filterMap_append]
  congr 1
  cases hb : ballot id x with
  | none => rw [List.filterMap_cons_none hb]; rfl
  | some b => rw [List.filterMap_cons_some hb]; rfl

theorem ex_snoc {P : Ctx × GCall → Prop} {h : List (Ctx × GCall)} {x : Ctx × GCall} :
    (∃ y ∈ h ++ [x], P y) ↔ (∃ y ∈ h, P y) ∨ P x := by
  constructor
  · rintro ⟨y, hy, hp⟩
    rcases List.mem_append.mp hy with hy | hy
    · exact Or.inl ⟨y, hy, hp⟩
    · rw [List.mem_singleton.mp hy] at hp; exact Or.inr hp
  · rintro (⟨y, hy, hp⟩ | hp)
    · exact ⟨y, List.mem_append_left _ hy, hp⟩
    · exact ⟨x, List.mem_append_right _ (List.mem_singleton.mpr rfl), hp⟩

theorem recorded_next {now t : Nat} {v v' : Votes} (h : v.Next now v') {bs : List (Address × Nat)} (ht : bs ≠ [] → t < now) (s : Nat) :
    recorded v' t bs s = recorded v t bs s := by
  unfold recorded
  congr 1
  refine List.map_congr_left fun b hb => ?_
  refine h.cps b.1 t (ht fun e => ?_)
  rw [e] at hb; exact nomatch hb

theorem stateOf_set {g : Gov} {c : Ctx} {id : U256} {s : PState} (h : g.stateOf c id = some s) (h1 : s ≠ .executed) (h2 : s ≠ .canceled) :
    (g.proposals id).executed = false ∧ (g.proposals id).canceled = false ∧ (g.proposals id).voteStart ≠ 0 := by
  unfold Gov.stateOf at h
  dsimp only at h
  split at h
  · exact absurd (Option.some.inj h).symm h1
  · rename_i a1
    split at h
    · exact absurd (Option.some.inj h).symm h2
    · rename_i a2
      split at h
      · exact nomatch h
      · rename_i a3
        exact ⟨by simpa using a1, by simpa using a2, a3⟩

/-- The call changes none of the record but perhaps the marks. -/
theorem PInv.mark {cfg : Cfg} (hc : cfg.WF) {gc : GCfg} {T : Nat} {g₀ : Gov} {id : U256} {h : List (Ctx × GCall)} {x : Ctx × GCall} {g g' : Gov}
    (hp : PInv cfg gc T g₀ id h g) (hi : GInv cfg (lastTime T h) g) (hok : GOk cfg gc T (h ++ [x])) (hs : GStep cfg gc x g g')
    {e c : Bool} (hb : ballot id x = none)
    (hg : g'.proposals id = { g.proposals id with executed := e, canceled := c })
    (he : e = true ↔ (g.proposals id).executed = true ∨ executes gc x = some id)
    (hca : c = true ↔ (g.proposals id).canceled = true ∨ cancels gc x = some id)
    (hset : (g.proposals id).voteStart ≠ 0 ∨ e = (g.proposals id).executed ∧ c = (g.proposals id).canceled) :
    PInv cfg gc T g₀ id (h ++ [x]) g' := by
  obtain ⟨_, o1, o2, o3, o4⟩ := hok.snoc
  have hnext := (hi.step hc o1 o2 o3 hs).2
  have eb : ballots id (h ++ [x]) = ballots id h := by rw [ballots_snoc, hb, List.append_nil]
  have hlate : ballots id h ≠ [] → (g.proposals id).voteStart < x.1.now := fun hne => Nat.lt_of_lt_of_le (hp.late hne) o1
  refine ⟨by rw [eb]; exact hp.nodup, by rw [eb, hg]; exact hp.voted, by rw [eb]; exact hp.support, ?_, ?_, ?_,
    fun hne => ?_, fun h0 => ?_, fun h0 => ?_, ?_, ?_⟩
  · rw [eb, hg, recorded_next hnext.v hlate]; exact hp.against
  · rw [eb, hg, recorded_next hnext.v hlate]; exact hp.for_
  · rw [eb, hg, recorded_next hnext.v hlate]; exact hp.abstain
  · rw [eb] at hne; rw [o4, hg]; exact hlate hne
  · rw [hg] at h0 ⊢
    rcases hset with hset | ⟨e1, e2⟩
    · exact absurd h0 hset
    · rw [eb, e1, e2]; exact hp.unset h0
  · rw [hg] at h0 ⊢
    obtain ⟨h1, y, h2, g1, e1, r1, r2, a⟩ := hp.set h0
    refine ⟨h1, y, h2 ++ [x], g1, by rw [e1, List.append_assoc]; rfl, r1, ?_, a⟩
    exact (GRun.append (h := y :: h2) (h' := [x])).mpr ⟨g, r2, g', hs, rfl⟩
  · rw [hg, ex_snoc, ← hp.exec]; exact he
  · rw [hg, ex_snoc, ← hp.canc]; exact hca

theorem PInv.run {cfg : Cfg} (hc : cfg.WF) {gc : GCfg} {T : Nat} {g₀ : Gov} (hg₀ : GGenesis cfg T g₀) (id : U256)
    {h : List (Ctx × GCall)} {g : Gov} (hok : GOk cfg gc T h) (hr : GRun cfg gc g₀ h g) : PInv cfg gc T g₀ id h g := by
  refine GRun.along (J := fun h g => PInv cfg gc T g₀ id h g) ?_ ?_ hok hr
  · obtain ⟨p1, p2, p3, p4, p5, p6, p7⟩ := hg₀.proposals id
    refine ⟨List.nodup_nil, fun a => ⟨fun h => by rw [p7] at h; exact (nomatch h), fun h => (nomatch h)⟩, fun _ h => (nomatch h),
      p4, p5, p6, fun h => absurd rfl h, fun _ => ⟨rfl, p2, p3⟩, fun h => absurd p1 h,
      ⟨fun h => by rw [p2] at h; exact (nomatch h), fun ⟨_, h, _⟩ => (nomatch h)⟩,
      ⟨fun h => by rw [p3] at h; exact (nomatch h), fun ⟨_, h, _⟩ => (nomatch h)⟩⟩
  · intro hp x g g' hok hr hj hs
    obtain ⟨o0, o1, o2, o3, o4⟩ := hok.snoc
    have hi := (GInv.genesis hg₀).run hc o0 hr
    cases GStep.prop hc hi o1 o2 o3 hs id with
    | keep b1 b2 b3 b4 b5 =>
      exact hj.mark hc hi hok hs b1 (e := (g.proposals id).executed) (c := (g.proposals id).canceled) b5
        ⟨Or.inl, fun h => h.elim (fun h => h) (fun h => absurd h b4)⟩ ⟨Or.inl, fun h => h.elim (fun h => h) (fun h => absurd h b3)⟩ (Or.inr ⟨rfl, rfl⟩)
    | cancel b1 b2 b3 b4 b5 b6 =>
      obtain ⟨_, _, s3⟩ := stateOf_set b5 (by decide) (by decide)
      exact hj.mark hc hi hok hs b2 (e := (g.proposals id).executed) (c := true) b6
        ⟨Or.inl, fun h => h.elim (fun h => h) (fun h => absurd h b4)⟩ ⟨fun _ => Or.inr b1, fun _ => rfl⟩ (Or.inl s3)
    | execute b1 b2 b3 b4 b5 b6 =>
      obtain ⟨_, _, s3⟩ := stateOf_set b5 (by decide) (by decide)
      exact hj.mark hc hi hok hs b2 (e := true) (c := (g.proposals id).canceled) b6
        ⟨fun _ => Or.inr b1, fun _ => rfl⟩ ⟨Or.inl, fun h => h.elim (fun h => h) (fun h => absurd h b4)⟩ (Or.inl s3)
    | propose a b1 b2 b3 b4 b5 b6 b7 =>
      obtain ⟨u1, u2, u3⟩ := hj.unset b5
      have eb : ballots id (hp ++ [x]) = [] := by rw [ballots_snoc, b2, u1]; rfl
      have rec0 : ∀ s, recorded g'.v (g'.proposals id).voteStart (ballots id (hp ++ [x])) s = 0 := by
        intro s; rw [eb]; rfl
      have rec1 : ∀ s, recorded g.v (g.proposals id).voteStart (ballots id hp) s = 0 := by intro s; rw [u1]; rfl
      refine ⟨by rw [eb]; exact List.nodup_nil, fun b => ?_, by rw [eb]; exact fun _ h => (nomatch h), ?_, ?_, ?_,
        fun h => absurd eb h, fun h => ⟨eb, ?_⟩, fun _ => ?_, ?_, ?_⟩
      · rw [eb, b7]
        have := hj.voted b
        rw [u1] at this
        exact this
      · rw [rec0, b7]; exact hj.against.trans (rec1 0)
      · rw [rec0, b7]; exact hj.for_.trans (rec1 1)
      · rw [rec0, b7]; exact hj.abstain.trans (rec1 2)
      · rw [b7]; exact ⟨u2, u3⟩
      · rw [b7]
        refine ⟨hp, x, [], g, rfl, hr, ⟨g', hs, rfl⟩, b1, b6, ?_, rfl⟩
        dsimp only
        rw [clock_eq o2]
      · rw [b7, ex_snoc, ← hj.exec]
        exact ⟨Or.inl, fun h => h.elim (fun h => h) (fun h => absurd h b4)⟩
      · rw [b7, ex_snoc, ← hj.canc]
        exact ⟨Or.inl, fun h => h.elim (fun h => h) (fun h => absurd h b3)⟩
    | vote a s b1 b2 b3 b4 b5 b6 b7 =>
      obtain ⟨s1, s2, s3⟩ := stateOf_set b5 (by decide) (by decide)
      rw [clock_eq o2] at b6
      obtain ⟨v1, v2, v3⟩ := count_some b7
      have hnext := (hi.step hc o1 o2 o3 hs).2
      have eb : ballots id (hp ++ [x]) = ballots id hp ++ [(a, s)] := by rw [ballots_snoc, b1]
      have hna : a ∉ (ballots id hp).map (·.1) := fun hm => by
        rw [(hj.voted a).mpr hm] at v1; exact nomatch v1
      have hrec : ∀ r, recorded g'.v (g.proposals id).voteStart (ballots id (hp ++ [x])) r =
          recorded g.v (g.proposals id).voteStart (ballots id hp) r +
            (if s = r then (g.v.cps a).at (g.proposals id).voteStart else 0) := by
        intro r
        rw [recorded_next hnext.v (fun _ => b6), eb]
        unfold recorded
        rw [List.filter_append, List.map_append, List.sum_append]
        congr 1
        by_cases hsr : s = r
        · rw [if_pos hsr, List.filter_cons_of_pos (by simpa using hsr)]
          show _ + 0 = _
          rfl
        · rw [if_neg hsr, List.filter_cons_of_neg (by simpa using hsr)]
          rfl
      have hvs : (g'.proposals id).voteStart = (g.proposals id).voteStart := by rw [v3]
      refine ⟨?_, fun b => ?_, fun b hb => ?_, ?_, ?_, ?_, fun _ => ?_, fun h => ?_, fun h => ?_, ?_, ?_⟩
      · rw [eb, List.map_append]
        refine List.nodup_append.mpr ⟨hj.nodup, by simp, ?_⟩
        intro y hy z hz
        rw [List.mem_singleton.mp hz]
        rintro rfl
        exact hna hy
      · rw [v3, eb, List.map_append, List.mem_append]
        dsimp only
        by_cases hba : b = a
        · subst hba
          rw [upd_same]
          exact ⟨fun _ => Or.inr (List.mem_singleton.mpr rfl), fun _ => rfl⟩
        · rw [upd_ne _ _ hba, hj.voted b]
          exact ⟨Or.inl, fun h => h.elim (fun h => h) (fun h => absurd (List.mem_singleton.mp h) hba)⟩
      · rw [eb] at hb
        rcases List.mem_append.mp hb with hb | hb
        · exact hj.support b hb
        · rw [List.mem_singleton.mp hb]; exact v2
      · rw [hvs, hrec, ← hj.against, v3]
      · rw [hvs, hrec, ← hj.for_, v3]
      · rw [hvs, hrec, ← hj.abstain, v3]
      · rw [o4, hvs]; exact b6
      · rw [hvs] at h; exact absurd h s3
      · obtain ⟨h1, y, h2, g1, e1, r1, r2, w⟩ := hj.set s3
        rw [hvs]
        have q1 : (g'.proposals id).proposer = (g.proposals id).proposer := by rw [v3]
        have q2 : (g'.proposals id).voteDuration = (g.proposals id).voteDuration := by rw [v3]
        rw [q1, q2]
        exact ⟨h1, y, h2 ++ [x], g1, by rw [e1, List.append_assoc]; rfl, r1, (GRun.append (h := y :: h2) (h' := [x])).mpr ⟨g, r2, g', hs, rfl⟩, w⟩
      · rw [ex_snoc, ← hj.exec, v3]
        exact ⟨Or.inl, fun h => h.elim (fun h => h) (fun h => absurd h b4)⟩
      · rw [ex_snoc, ← hj.canc, v3]
        exact ⟨Or.inl, fun h => h.elim (fun h => h) (fun h => absurd h b3)⟩

end Verif
