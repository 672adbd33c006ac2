import Verif.L1Inv
import Verif.PropsStaking4
/-
# Escrow pools cover the claims on them

An invariant of histories in which no slash takes everything from a pool with open claims.
-/

namespace Verif
open L1

/-- The unstake claims of `a` against the prover `p`. -/
def World.claimsOn (w : World) (p a : Address) : List UnstakeClaim :=
  if w.staking.stakerToProver a = p then w.staking.unstakeClaims a else []

/-- How a call changes the claims against a prover and the pool behind them. -/
inductive ClaimStep (k : Call) (p : Address) (w w' : World) : Prop
  | keep (h : ∀ a, w'.claimsOn p a = w.claimsOn p a) (e : w'.staking.escrowPools p = w.staking.escrowPools p)
  | request (a : Address) (x f t : Nat) (hf : f = if (w.staking.escrowPools p).slashFactor = 0 then SCALAR else (w.staking.escrowPools p).slashFactor)
      (h : w'.claimsOn p a = w.claimsOn p a ++ [⟨x, f, t⟩]) (ho : ∀ b, b ≠ a → w'.claimsOn p b = w.claimsOn p b)
      (e : w'.staking.escrowPools p = ⟨(w.staking.escrowPools p).iPROVEEscrow + x, f⟩)
  | finish (s : Address) (done : List UnstakeClaim) (st : Settling) (hk : k = .finishUnstake s) (hst : st.pool = (w.staking.escrowPools p).iPROVEEscrow)
      (h : (done ++ w'.claimsOn p s).Perm (w.claimsOn p s)) (ho : ∀ b, b ≠ s → w'.claimsOn p b = w.claimsOn p b)
      (e : (w'.staking.escrowPools p).iPROVEEscrow = (done.foldl (Settling.settle (w.staking.escrowPools p).slashFactor) st).pool)
      (ef : (w'.staking.escrowPools p).slashFactor = (w.staking.escrowPools p).slashFactor ∨
        (w'.staking.escrowPools p).iPROVEEscrow = 0 ∧ (w'.staking.escrowPools p).slashFactor = SCALAR)
  | slash (i : U256) (total n : Nat) (hk : k = .finishSlash p i) (h : ∀ a, w'.claimsOn p a = w.claimsOn p a)
      (hn : n ≤ total) (ht : (w.staking.escrowPools p).iPROVEEscrow ≤ total)
      (e : (w'.staking.escrowPools p).iPROVEEscrow + escrowPart n (w.staking.escrowPools p).iPROVEEscrow total =
        (w.staking.escrowPools p).iPROVEEscrow)
      (ef : (w'.staking.escrowPools p).slashFactor = slashedFactor (w.staking.escrowPools p).slashFactor n total)

theorem claimsOn_same {w w' : World} (p : Address) (h1 : w'.staking.stakerToProver = w.staking.stakerToProver)
    (h2 : w'.staking.unstakeClaims = w.staking.unstakeClaims) (a : Address) : w'.claimsOn p a = w.claimsOn p a := by
  unfold World.claimsOn
  rw [h1, h2]

theorem exec_claims {cfg : Cfg} (hc : cfg.WF) {c : Ctx} {k : Call} {w w' : World} (hr : Reachable cfg w)
    (ha : Admissible cfg (c, k)) (h : exec cfg c k w = .ok ((), w')) {p : Address} (hp : p ≠ 0) : ClaimStep k p w w' := by
  have hi := StakingInv.reachable hc w hr
  have hf := exec_fields h
  by_cases hstake : ∃ f q v, k = .stake q v ∧ f = c.sender ∨ ∃ s, k = .permitAndStake s q f v
  · obtain ⟨f, q, v, hk⟩ := hstake
    obtain ⟨_, _, _, _, _, _, _, _, _, _, _, hs, _, _, _, _, _, _, _, _, _, _, _, _, _, e⟩ := c59_stake hc hr ha h hk
    refine .keep (fun a => ?_) (by rw [e])
    have e1 : w'.staking.stakerToProver = upd w.staking.stakerToProver f q := by rw [e]
    have e2 : w'.staking.unstakeClaims = w.staking.unstakeClaims := by rw [e]
    unfold World.claimsOn
    rw [e1, e2]
    by_cases ea : a = f
    · subst ea
      rw [upd_same]
      rcases hs with hs | hs
      · rw [(hi.stake.unstaked a hs).2, ite_self, ite_self]
      · rw [hs]
    · rw [upd_ne _ _ ea]
  · by_cases hreq : ∃ v, k = .requestUnstake v
    · obtain ⟨v, rfl⟩ := hreq
      obtain ⟨q, esc, f, e1, _, _, e2, e3, e4, e5, e6, _⟩ := c40_request hc hr h
      have es := hf.s2p (fun _ _ => Call.noConfusion) (fun _ _ _ _ => Call.noConfusion) (fun _ => Call.noConfusion)
      have other : ∀ b, b ≠ c.sender → w'.claimsOn p b = w.claimsOn p b := fun b hb => by
        unfold World.claimsOn; rw [es, e4 b hb]
      by_cases eq : q = p
      · subst eq
        refine .request c.sender esc f c.now e2 ?_ other e5
        unfold World.claimsOn
        rw [es, if_pos e1.symm, if_pos e1.symm, e3]
      · refine .keep (fun b => ?_) (e6 p (Ne.symm eq))
        by_cases hb : b = c.sender
        · subst hb
          unfold World.claimsOn
          rw [es, if_neg (by rw [← e1]; exact eq), if_neg (by rw [← e1]; exact eq)]
        · exact other b hb
    · by_cases hfin : ∃ s, k = .finishUnstake s
      · obtain ⟨s, rfl⟩ := hfin
        obtain ⟨done, paid, d1, _, _, d4, d5, _⟩ := c40_finish hc hr h
        obtain ⟨n, h⟩ := drop_ok.mp h
        obtain ⟨hs0, _, _, w1, hl, rfl⟩ := finishUnstake_ok h
        have r := finishLoop_rel (PayRel.pre cfg s (w.staking.stakerToProver s)) (fun _ _ _ _ _ h => h.rel) _ _ _ _ _ _ hl
        obtain ⟨_, _, _, _, t5, t6, t7, t8, _⟩ := finishTail_same s (w.staking.stakerToProver s) w1
        have other : ∀ b, b ≠ s → (finishTail s (w.staking.stakerToProver s) w1).claimsOn p b = w.claimsOn p b := fun b hb => by
          unfold World.claimsOn; rw [t8 b hb, r.s2p, d4 b hb]
        have own : (finishTail s (w.staking.stakerToProver s) w1).staking.stakerToProver s = w.staking.stakerToProver s ∨
            (finishTail s (w.staking.stakerToProver s) w1).staking.stakerToProver s = 0 ∧
              (finishTail s (w.staking.stakerToProver s) w1).staking.unstakeClaims s = [] := by
          unfold finishTail
          dsimp only
          split <;> split
          · rename_i h2; exact Or.inr ⟨upd_same _ _ _, h2.2⟩
          · left; exact congrFun r.s2p s
          · rename_i h2; exact Or.inr ⟨upd_same _ _ _, h2.2⟩
          · left; exact congrFun r.s2p s
        by_cases ep : w.staking.stakerToProver s = p
        · subst ep
          have own' : (finishTail s (w.staking.stakerToProver s) w1).claimsOn (w.staking.stakerToProver s) s =
              (finishTail s (w.staking.stakerToProver s) w1).staking.unstakeClaims s := by
            unfold World.claimsOn
            rcases own with e | ⟨e1, e2⟩
            · rw [if_pos e]
            · rw [e2, ite_self]
          have own2 : w.claimsOn (w.staking.stakerToProver s) s = w.staking.unstakeClaims s := if_pos rfl
          refine .finish s done (settling cfg (w.staking.stakerToProver s) w 0) rfl rfl (by rw [own', own2]; exact d1) other ?_ ?_
          · exact congrArg Settling.pool d5
          · rw [t6]
            unfold finishTail
            dsimp only
            split
            · rename_i h1
              right
              refine ⟨h1.1, ?_⟩
              split <;> (dsimp only; rw [upd_same])
            · left
              split <;> exact r.factor
        · refine .keep (fun b => ?_) (by rw [t7 p (Ne.symm ep), r.pools p (Ne.symm ep)])
          by_cases hb : b = s
          · subst hb
            unfold World.claimsOn
            rw [if_neg ep]
            rcases own with e | ⟨_, e⟩
            · rw [e, if_neg ep]
            · rw [e, ite_self]
          · exact other b hb
      · by_cases hsl : ∃ q i, k = .finishSlash q i
        · obtain ⟨q, i, rfl⟩ := hsl
          obtain ⟨claim, total, n, fe, _, e1, e2, e3, e4, _, _, _, _, _, e5, _, _, e6, _, _, e7, e8⟩ := c42_finishSlash hc hr h
          by_cases eq : q = p
          · subst eq
            refine .slash i total n rfl (claimsOn_same q e8 e7) (by rw [e2]; exact Nat.min_le_right _ _) (by omega)
              (by rw [← e3]; exact e4) e5
          · exact .keep (claimsOn_same p e8 e7) (e6 p (Ne.symm eq))
        · have e1 := hf.s2p (fun q v e => hstake ⟨_, q, v, Or.inl ⟨e, rfl⟩⟩)
            (fun s q f v e => hstake ⟨f, q, v, Or.inr ⟨s, e⟩⟩) (fun s e => hfin ⟨s, e⟩)
          have e2 := hf.claims (fun v e => hreq ⟨v, e⟩) (fun s e => hfin ⟨s, e⟩)
          have e3 := hf.pools (fun v e => hreq ⟨v, e⟩) (fun s e => hfin ⟨s, e⟩) (fun q i e => hsl ⟨q, i, e⟩)
          exact .keep (claimsOn_same p e1 e2) (by rw [e3])

/-! ## The invariant -/

/-- The claims in units of `1 / D` of the factor. -/
def weight (D : Nat) (cls : List UnstakeClaim) : Nat := (cls.map fun cl => cl.iPROVEEscrow * (D / cl.slashFactor)).sum

/-- The pool covers the claims, exactly computed; and claims are open only if the factor is not 0. -/
structure Sound (p : Address) (w : World) : Prop where
  covered : ∃ D N, 0 < D ∧ (∀ a, ∀ cl ∈ w.claimsOn p a, cl.slashFactor ∣ D) ∧ HasSum (fun a => weight D (w.claimsOn p a)) N ∧
    N * (w.staking.escrowPools p).slashFactor ≤ (w.staking.escrowPools p).iPROVEEscrow * D
  alive : (w.staking.escrowPools p).slashFactor = 0 → ∀ a, w.claimsOn p a = []

theorem weight_append (D : Nat) (l m : List UnstakeClaim) : weight D (l ++ m) = weight D l + weight D m := by
  unfold weight
  rw [List.map_append, List.sum_append]

theorem weight_perm (D : Nat) {l m : List UnstakeClaim} (h : l.Perm m) : weight D l = weight D m := (h.map _).sum_nat

theorem weight_scale {D f : Nat} {l : List UnstakeClaim} (h : ∀ cl ∈ l, cl.slashFactor ∣ D) :
    weight (D * f) l = f * weight D l := by
  unfold weight
  induction l with
  | nil => rfl
  | cons cl l ih =>
    have h1 := h cl List.mem_cons_self
    rw [List.map_cons, List.sum_cons, List.map_cons, List.sum_cons, ih fun c hc => h c (List.mem_cons_of_mem _ hc), Nat.mul_add,
      Nat.mul_div_right_comm h1, Nat.mul_left_comm f, Nat.mul_comm (D / cl.slashFactor)]

theorem HasSum.scale {κ : Type} {f : κ → Nat} {n : Nat} (k : Nat) (h : HasSum f n) : HasSum (fun a => k * f a) (k * n) := by
  obtain ⟨l, h1, h2, h3⟩ := h
  refine ⟨l, h1, fun a ha => by show k * f a = 0; rw [h2 a ha, Nat.mul_zero], ?_⟩
  rw [← h3]
  clear h1 h2 h3
  induction l with
  | nil => rfl
  | cons a l ih => rw [List.map_cons, List.sum_cons, ih, List.map_cons, List.sum_cons, Nat.mul_add]

/-- Settling takes at most the claims' weight from the pool. -/
theorem settle_pool (factor D : Nat) (done : List UnstakeClaim) (hd : ∀ cl ∈ done, cl.slashFactor ∣ D) (hD : 0 < D) (st : Settling) :
    st.pool * D ≤ (done.foldl (Settling.settle factor) st).pool * D + weight D done * factor := by
  induction done generalizing st with
  | nil => simp [weight]
  | cons cl done ih =>
    rw [List.foldl_cons]
    refine Nat.le_trans ?_ (Nat.le_trans (Nat.add_le_add_right (ih (fun c hc => hd c (List.mem_cons_of_mem _ hc)) (st.settle factor cl))
      (cl.iPROVEEscrow * (D / cl.slashFactor) * factor)) ?_)
    · show st.pool * D ≤ (st.pool - min st.pool (cl.iPROVEEscrow * factor / cl.slashFactor)) * D + _
      obtain ⟨q, hq⟩ := hd cl List.mem_cons_self
      have hf : 0 < cl.slashFactor := by
        rcases Nat.eq_zero_or_pos cl.slashFactor with e | e
        · rw [e, Nat.zero_mul] at hq; omega
        · exact e
      have hdiv : D / cl.slashFactor = q := by rw [hq, Nat.mul_div_cancel_left _ hf]
      rw [hdiv]
      have h1 : cl.iPROVEEscrow * factor / cl.slashFactor * D ≤ cl.iPROVEEscrow * q * factor := by
        rw [hq, ← Nat.mul_assoc]
        have := Nat.mul_le_mul_right q (Nat.div_mul_le_self (cl.iPROVEEscrow * factor) cl.slashFactor)
        have e : cl.iPROVEEscrow * factor * q = cl.iPROVEEscrow * q * factor := by grind
        omega
      generalize cl.iPROVEEscrow * factor / cl.slashFactor = y at *
      rcases Nat.le_total st.pool y with h | h
      · have := Nat.mul_le_mul_right D h
        omega
      · rw [Nat.min_eq_right h]
        have : st.pool * D = (st.pool - y) * D + y * D := by rw [← Nat.add_mul]; congr 1; omega
        omega
    · unfold weight
      rw [List.map_cons, List.sum_cons, Nat.add_mul]
      omega

theorem slashedFactor_mul {f : Nat} (hf : f ≠ 0) (n total : Nat) : slashedFactor f n total * total ≤ f * (total - n) := by
  unfold slashedFactor
  rw [if_neg hf]
  split
  · rename_i h; rw [h, Nat.sub_zero]; exact Nat.le_refl _
  · split
    · rw [Nat.zero_mul]; exact Nat.zero_le _
    · have h1 := Nat.div_mul_le_self ((total - n) * SCALAR) total
      have h2 := Nat.div_mul_le_self (f * ((total - n) * SCALAR / total)) SCALAR
      have hS := SCALAR_pos
      generalize (total - n) * SCALAR / total = y at *
      generalize f * y / SCALAR = z at *
      generalize total - n = m at *
      generalize SCALAR = S at *
      refine Nat.le_of_mul_le_mul_right ?_ hS
      calc z * total * S = z * S * total := by grind
        _ ≤ f * y * total := Nat.mul_le_mul_right _ h2
        _ = f * (y * total) := Nat.mul_assoc ..
        _ ≤ f * (m * S) := Nat.mul_le_mul_left _ h1
        _ = f * m * S := (Nat.mul_assoc ..).symm

theorem Sound.genesis {cfg : Cfg} {w : World} (h : Genesis cfg w) (p : Address) : Sound p w := by
  have e : ∀ a, w.claimsOn p a = [] := fun a => by
    unfold World.claimsOn; rw [h.maps.2.1, ite_self]
  refine ⟨⟨1, 0, by decide, fun a cl hcl => ?_, HasSum.zero.congr fun a => ?_, by rw [Nat.zero_mul]; exact Nat.zero_le _⟩, fun _ => e⟩
  · rw [e] at hcl; exact (List.not_mem_nil hcl).elim
  · rw [e]; rfl

/-- Every call keeps the pool sound, unless it is a slash that takes everything while claims are open. -/
theorem Sound.step {k : Call} {p : Address} {w w' : World} (hs : Sound p w) (h : ClaimStep k p w w')
    (hk : (∃ i, k = .finishSlash p i) → (w'.staking.escrowPools p).slashFactor = 0 → ∀ a, w'.claimsOn p a = []) : Sound p w' := by
  obtain ⟨D, N, hD, hdvd, hsum, hle⟩ := hs.covered
  cases h with
  | keep h e =>
    refine ⟨⟨D, N, hD, fun a => by rw [h a]; exact hdvd a, hsum.congr fun a => by rw [h a], by rw [e]; exact hle⟩, ?_⟩
    rw [e]
    exact fun h0 a => by rw [h a]; exact hs.alive h0 a
  | request a x f t hf h ho e =>
    have hf0 : f ≠ 0 := by
      rw [hf]
      have := SCALAR_pos
      split <;> omega
    refine ⟨⟨D * f, f * N + x * D, Nat.mul_pos hD (Nat.pos_of_ne_zero hf0), ?_, ?_, ?_⟩, ?_⟩
    · intro b cl hcl
      by_cases hb : b = a
      · subst hb
        rw [h] at hcl
        rcases List.mem_append.mp hcl with hcl | hcl
        · exact Nat.dvd_trans (hdvd b cl hcl) (Nat.dvd_mul_right ..)
        · rw [List.mem_singleton.mp hcl]; exact Nat.dvd_mul_left ..
      · rw [ho b hb] at hcl
        exact Nat.dvd_trans (hdvd b cl hcl) (Nat.dvd_mul_right ..)
    · refine ((hsum.scale f).update a (f * weight D (w.claimsOn p a) + x * D) (m := f * N + x * D) (by omega)).congr fun b => ?_
      by_cases hb : b = a
      · subst hb
        rw [upd_same, h, weight_append, weight_scale (hdvd b)]
        congr 1
        unfold weight
        simp only [List.map_cons, List.map_nil, List.sum_cons, List.sum_nil, Nat.add_zero]
        rw [Nat.mul_div_cancel _ (Nat.pos_of_ne_zero hf0)]
      · rw [upd_ne _ _ hb, ho b hb, weight_scale (hdvd b)]
    · rw [e]
      dsimp only
      by_cases h0 : (w.staking.escrowPools p).slashFactor = 0
      · have hN : N = 0 := hsum.unique (HasSum.zero.congr fun a => by rw [hs.alive h0 a]; rfl)
        rw [hN, Nat.mul_zero, Nat.zero_add, Nat.mul_assoc]
        exact Nat.mul_le_mul_right _ (by omega)
      · rw [if_neg h0] at hf
        rw [← hf] at hle
        have := Nat.mul_le_mul_right f hle
        have e1 : (f * N + x * D) * f = N * f * f + x * D * f := by grind
        have e2 : ((w.staking.escrowPools p).iPROVEEscrow + x) * (D * f) = (w.staking.escrowPools p).iPROVEEscrow * D * f + x * D * f := by grind
        omega
    · rw [e]
      exact fun h0 => absurd h0 hf0
  | finish s done st _ hst h ho e ef =>
    have hdone : ∀ cl ∈ done, cl.slashFactor ∣ D := fun cl hcl =>
      hdvd s cl (h.subset (List.mem_append_left _ hcl))
    have hleft : ∀ cl ∈ w'.claimsOn p s, cl.slashFactor ∣ D := fun cl hcl =>
      hdvd s cl (h.subset (List.mem_append_right _ hcl))
    have hw : weight D (w.claimsOn p s) = weight D done + weight D (w'.claimsOn p s) := by
      rw [← weight_perm D h, weight_append]
    have hNle : weight D (w.claimsOn p s) ≤ N := hsum.le s
    obtain ⟨N', hN'⟩ : ∃ N', N' + weight D done = N := ⟨N - weight D done, by omega⟩
    have hsum' : HasSum (fun a => weight D (w'.claimsOn p a)) N' := by
      refine (hsum.update s (weight D (w'.claimsOn p s)) (m := N') (by omega)).congr fun b => ?_
      by_cases hb : b = s
      · subst hb; rw [upd_same]
      · rw [upd_ne _ _ hb, ho b hb]
    have hpool := settle_pool (w.staking.escrowPools p).slashFactor D done hdone hD st
    rw [hst, ← e] at hpool
    have hle' : N' * (w.staking.escrowPools p).slashFactor ≤ (w'.staking.escrowPools p).iPROVEEscrow * D := by
      rw [← hN', Nat.add_mul] at hle
      omega
    have halive : (w.staking.escrowPools p).slashFactor = 0 → ∀ a, w'.claimsOn p a = [] := by
      intro h0 b
      by_cases hb : b = s
      · subst hb
        rw [hs.alive h0 b] at h
        exact (List.append_eq_nil_iff.mp (List.perm_nil.mp h)).2
      · rw [ho b hb]; exact hs.alive h0 b
    refine ⟨⟨D, N', hD, ?_, hsum', ?_⟩, ?_⟩
    · intro b cl hcl
      by_cases hb : b = s
      · subst hb; exact hleft cl hcl
      · rw [ho b hb] at hcl; exact hdvd b cl hcl
    · rcases ef with ef | ⟨ef, es⟩
      · rw [ef]; exact hle'
      · rw [ef, Nat.zero_mul] at hle' ⊢
        rcases Nat.mul_eq_zero.mp (Nat.le_zero.mp hle') with h0 | h0
        · rw [h0, Nat.zero_mul]; exact Nat.le_refl _
        · have hN0 : N' = 0 := hsum'.unique (HasSum.zero.congr fun a => by rw [halive h0 a]; rfl)
          rw [hN0, Nat.zero_mul]; exact Nat.le_refl _
    · intro h0
      rcases ef with ef | ⟨_, es⟩
      · exact halive (by rw [← ef]; exact h0)
      · rw [es] at h0
        exact absurd h0 (by decide)
  | slash i total n hk' h hn ht e ef =>
    refine ⟨⟨D, N, hD, fun a => by rw [h a]; exact hdvd a, hsum.congr fun a => by rw [h a], ?_⟩, hk ⟨i, hk'⟩⟩
    by_cases h0 : (w.staking.escrowPools p).slashFactor = 0
    · have hN : N = 0 := hsum.unique (HasSum.zero.congr fun a => by rw [hs.alive h0 a]; rfl)
      rw [hN, Nat.zero_mul]; exact Nat.zero_le _
    · rw [ef]
      have h1 := slashedFactor_mul h0 n total
      generalize slashedFactor (w.staking.escrowPools p).slashFactor n total = g at *
      generalize (w.staking.escrowPools p).slashFactor = f at *
      generalize (w.staking.escrowPools p).iPROVEEscrow = P at *
      generalize (w'.staking.escrowPools p).iPROVEEscrow = P' at *
      rcases Nat.eq_zero_or_pos total with ht0 | ht0
      · have hP : P = 0 := by omega
        have hP' : P' = 0 := by omega
        rw [hP, Nat.zero_mul] at hle
        have hN : N = 0 := by
          rcases Nat.mul_eq_zero.mp (Nat.le_zero.mp hle) with h | h
          · exact h
          · exact absurd h h0
        rw [hN, Nat.zero_mul]; exact Nat.zero_le _
      · refine Nat.le_of_mul_le_mul_right ?_ ht0
        have h2 : escrowPart n P total * total ≤ n * P := Nat.div_mul_le_self _ _
        generalize escrowPart n P total = q at *
        have h3 : P * (total - n) ≤ P' * total := by
          have e1 : P * total = P' * total + q * total := by rw [← Nat.add_mul, e]
          have e2 : P * total = P * (total - n) + n * P := by rw [Nat.mul_comm n, ← Nat.mul_add]; congr 1; omega
          omega
        calc N * g * total = N * (g * total) := Nat.mul_assoc ..
          _ ≤ N * (f * (total - n)) := Nat.mul_le_mul_left _ h1
          _ = N * f * (total - n) := (Nat.mul_assoc ..).symm
          _ ≤ P * D * (total - n) := Nat.mul_le_mul_right _ hle
          _ = P * (total - n) * D := by grind
          _ ≤ P' * total * D := Nat.mul_le_mul_right _ h3
          _ = P' * D * total := by grind

/-! ## What it gives -/

theorem mem_claimsOn {w : World} {p a : Address} {cl : UnstakeClaim} :
    cl ∈ w.claimsOn p a ↔ w.staking.stakerToProver a = p ∧ cl ∈ w.staking.unstakeClaims a := by
  unfold World.claimsOn
  split
  · rename_i h; exact ⟨fun hc => ⟨h, hc⟩, fun hc => hc.2⟩
  · rename_i h; exact ⟨fun hc => (List.not_mem_nil hc).elim, fun hc => absurd hc.1 h⟩

theorem scaled_weight (factor D : Nat) (hD : 0 < D) (cls : List UnstakeClaim) (h : ∀ cl ∈ cls, cl.slashFactor ∣ D) :
    (cls.map (scaledClaim factor)).sum * D ≤ weight D cls * factor := by
  induction cls with
  | nil => simp [weight]
  | cons cl cls ih =>
    have ih := ih fun c hc => h c (List.mem_cons_of_mem _ hc)
    obtain ⟨q, hq⟩ := h cl List.mem_cons_self
    have hf : 0 < cl.slashFactor := by
      rcases Nat.eq_zero_or_pos cl.slashFactor with e | e
      · rw [e, Nat.zero_mul] at hq; omega
      · exact e
    have hdiv : D / cl.slashFactor = q := by rw [hq, Nat.mul_div_cancel_left _ hf]
    have h1 : scaledClaim factor cl * D ≤ cl.iPROVEEscrow * q * factor := by
      unfold scaledClaim
      rw [hq, ← Nat.mul_assoc]
      have := Nat.mul_le_mul_right q (Nat.div_mul_le_self (cl.iPROVEEscrow * factor) cl.slashFactor)
      have e : cl.iPROVEEscrow * factor * q = cl.iPROVEEscrow * q * factor := by grind
      omega
    unfold weight at ih ⊢
    rw [List.map_cons, List.sum_cons, List.map_cons, List.sum_cons, Nat.add_mul, Nat.add_mul, hdiv]
    omega

/-- The pool covers what the claims of any distinct stakers are worth together. -/
theorem Sound.claims {p : Address} {w : World} (hs : Sound p w) (l : List Address) (hl : l.Nodup)
    (hp : ∀ a ∈ l, w.staking.stakerToProver a = p) :
    (l.map fun a => ((w.staking.unstakeClaims a).map (scaledClaim (w.staking.escrowPools p).slashFactor)).sum).sum ≤
      (w.staking.escrowPools p).iPROVEEscrow := by
  obtain ⟨D, N, hD, hdvd, hsum, hle⟩ := hs.covered
  have h1 := HasSum.sum_le l hsum hl
  refine Nat.le_of_mul_le_mul_right (Nat.le_trans ?_ (Nat.le_trans (Nat.mul_le_mul_right _ h1) hle)) hD
  clear h1 hl hsum hle
  induction l with
  | nil => simp
  | cons a l ih =>
    rw [List.map_cons, List.sum_cons, List.map_cons, List.sum_cons, Nat.add_mul, Nat.add_mul]
    refine Nat.add_le_add ?_ (ih fun b hb => hp b (List.mem_cons_of_mem _ hb))
    have e : w.claimsOn p a = w.staking.unstakeClaims a := if_pos (hp a List.mem_cons_self)
    have := scaled_weight (w.staking.escrowPools p).slashFactor D hD (w.claimsOn p a) (hdvd a)
    rw [e] at this ⊢
    exact this

/-- Only a slash changes what a claim is worth that is open before and after a call, and only downwards. -/
theorem Sound.worth {k : Call} {p : Address} {w w' : World} (hs : Sound p w) (h : ClaimStep k p w w') {a : Address} {cl : UnstakeClaim}
    (h1 : cl ∈ w.claimsOn p a) (h2 : cl ∈ w'.claimsOn p a) :
    scaledClaim (w'.staking.escrowPools p).slashFactor cl ≤ scaledClaim (w.staking.escrowPools p).slashFactor cl ∧
    ((∀ i, k ≠ .finishSlash p i) →
      scaledClaim (w'.staking.escrowPools p).slashFactor cl = scaledClaim (w.staking.escrowPools p).slashFactor cl) := by
  have h0 : (w.staking.escrowPools p).slashFactor ≠ 0 := fun e => by
    rw [hs.alive e a] at h1; exact List.not_mem_nil h1
  have eq : (scaledClaim (w'.staking.escrowPools p).slashFactor cl = scaledClaim (w.staking.escrowPools p).slashFactor cl) →
      scaledClaim (w'.staking.escrowPools p).slashFactor cl ≤ scaledClaim (w.staking.escrowPools p).slashFactor cl ∧
      ((∀ i, k ≠ .finishSlash p i) →
        scaledClaim (w'.staking.escrowPools p).slashFactor cl = scaledClaim (w.staking.escrowPools p).slashFactor cl) :=
    fun e => ⟨Nat.le_of_eq e, fun _ => e⟩
  cases h with
  | keep h e => exact eq (by rw [e])
  | request b x f t hf h ho e =>
    rw [if_neg h0] at hf
    exact eq (by rw [e, hf])
  | finish s done st hk hst h ho e ef =>
    rcases ef with ef | ⟨ef, es⟩
    · exact eq (by rw [ef])
    · have hs' := hs.step (.finish s done st hk hst h ho e (Or.inr ⟨ef, es⟩)) (fun ⟨i, hi⟩ => by rw [hk] at hi; exact Call.noConfusion hi)
      obtain ⟨D, N, hD, hdvd, hsum, hle⟩ := hs'.covered
      rw [ef, es, Nat.zero_mul] at hle
      have hN : N = 0 := by
        have := SCALAR_pos
        rcases Nat.mul_eq_zero.mp (Nat.le_zero.mp hle) with h | h
        · exact h
        · omega
      have hw : weight D (w'.claimsOn p a) = 0 := by
        have := hsum.le a
        omega
      have hx : cl.iPROVEEscrow = 0 := by
        have hm : cl.iPROVEEscrow * (D / cl.slashFactor) = 0 := by
          unfold weight at hw
          exact List.sum_eq_zero_iff_forall_eq_nat.mp hw _ (List.mem_map_of_mem h2)
        obtain ⟨q, hq⟩ := hdvd a cl h2
        have hf : 0 < cl.slashFactor := by
          rcases Nat.eq_zero_or_pos cl.slashFactor with e | e
          · rw [e, Nat.zero_mul] at hq; omega
          · exact e
        rw [hq, Nat.mul_div_cancel_left _ hf] at hm
        rcases Nat.mul_eq_zero.mp hm with h | h
        · exact h
        · rw [h, Nat.mul_zero] at hq; omega
      refine eq ?_
      unfold scaledClaim
      rw [hx, Nat.zero_mul, Nat.zero_mul]
  | slash i total n hk h hn ht e ef =>
    refine ⟨?_, fun hno => absurd hk (hno i)⟩
    rw [ef]
    have := slashedFactor_le (w.staking.escrowPools p).slashFactor n total
    rw [if_neg h0] at this
    unfold scaledClaim
    exact Nat.div_le_div_right (Nat.mul_le_mul_left _ this)

end Verif
