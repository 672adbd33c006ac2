import Verif.L1VappInv
/-
# Sums over all accounts, effects of the token functions
-/

namespace Verif
open L1

/-! ## Sums over mappings -/

/-- The values of `f` over all keys add up to `n` (only finitely many are not zero). -/
def HasSum {κ : Type} (f : κ → Nat) (n : Nat) : Prop :=
  ∃ l : List κ, l.Nodup ∧ (∀ a, a ∉ l → f a = 0) ∧ (l.map f).sum = n

section
variable {κ : Type} [DecidableEq κ]

theorem sum_map_upd (f : κ → Nat) (k : κ) (v : Nat) (l : List κ) (hn : l.Nodup) :
    (k ∈ l → (l.map (upd f k v)).sum + f k = (l.map f).sum + v) ∧
    (k ∉ l → (l.map (upd f k v)).sum = (l.map f).sum) := by
  induction l with
  | nil => simp
  | cons a l ih =>
    obtain ⟨hal, hl⟩ := List.nodup_cons.mp hn
    obtain ⟨i1, i2⟩ := ih hl
    simp only [List.map_cons, List.sum_cons, List.mem_cons]
    constructor
    · intro hk
      by_cases hka : k = a
      · subst hka
        rw [upd_same, i2 hal]; omega
      · rw [upd_ne _ _ (Ne.symm hka)]
        have := i1 (hk.resolve_left hka)
        omega
    · intro hk
      rw [not_or] at hk
      rw [upd_ne _ _ (fun e => hk.1 e.symm), i2 hk.2]

theorem HasSum.update {f : κ → Nat} {n m : Nat} (h : HasSum f n) (k : κ) (v : Nat) (hm : m + f k = n + v) :
    HasSum (upd f k v) m := by
  obtain ⟨l, h1, h2, h3⟩ := h
  by_cases hk : k ∈ l
  · refine ⟨l, h1, fun a ha => ?_, ?_⟩
    · rw [upd_ne _ _ (by rintro rfl; exact ha hk)]; exact h2 a ha
    · have := (sum_map_upd f k v l h1).1 hk
      omega
  · refine ⟨k :: l, List.nodup_cons.mpr ⟨hk, h1⟩, fun a ha => ?_, ?_⟩
    · rw [List.mem_cons, not_or] at ha
      rw [upd_ne _ _ ha.1]; exact h2 a ha.2
    · rw [List.map_cons, List.sum_cons, upd_same, (sum_map_upd f k v l h1).2 hk, h3]
      have := h2 k hk
      omega

omit [DecidableEq κ] in
theorem sum_le_of_mem {f : κ → Nat} {l : List κ} {a : κ} (h : a ∈ l) : f a ≤ (l.map f).sum := by
  induction l with
  | nil => cases h
  | cons b l ih =>
    rw [List.map_cons, List.sum_cons]
    rcases List.mem_cons.mp h with rfl | h
    · omega
    · have := ih h; omega

theorem HasSum.le {f : κ → Nat} {n : Nat} (h : HasSum f n) (a : κ) : f a ≤ n := by
  obtain ⟨l, _, h2, h3⟩ := h
  by_cases ha : a ∈ l
  · rw [← h3]; exact sum_le_of_mem ha
  · rw [h2 a ha]; omega

/-- Two different keys together are also bounded by the total. -/
theorem HasSum.le_two {f : κ → Nat} {n : Nat} (h : HasSum f n) {a b : κ} (hab : a ≠ b) : f a + f b ≤ n := by
  have h' := h.update a 0 (m := n - f a) (by have := h.le a; omega)
  have := h'.le b
  rw [upd_ne _ _ (Ne.symm hab)] at this
  have := h.le a
  omega

omit [DecidableEq κ] in
theorem HasSum.zero : HasSum (fun _ : κ => 0) 0 := ⟨[], List.nodup_nil, fun _ _ => rfl, rfl⟩

omit [DecidableEq κ] in
theorem HasSum.congr {f g : κ → Nat} {n : Nat} (h : HasSum f n) (e : ∀ a, g a = f a) : HasSum g n := by
  have : g = f := funext e
  rw [this]; exact h

theorem HasSum.unique {f : κ → Nat} {n m : Nat} (h : HasSum f n) (h' : HasSum f m) : n = m := by
  obtain ⟨l, a1, a2, a3⟩ := h
  induction l generalizing f n m with
  | nil =>
    obtain ⟨l', _, b2, b3⟩ := h'
    have hz : ∀ l : List κ, (l.map f).sum = 0 := by
      intro l
      induction l with
      | nil => rfl
      | cons x l ih => rw [List.map_cons, List.sum_cons, ih, a2 x (by simp)]
    simp only [List.map_nil, List.sum_nil] at a3
    rw [hz] at b3; omega
  | cons a l ih =>
    obtain ⟨hal, hl⟩ := List.nodup_cons.mp a1
    have hle := h'.le a
    have h'' := h'.update a 0 (m := m - f a) (by omega)
    rw [List.map_cons, List.sum_cons] at a3
    have := ih (f := upd f a 0) (n := n - f a) h'' hl (fun x hx => by
      by_cases e : x = a
      · rw [e, upd_same]
      · rw [upd_ne _ _ e]; exact a2 x (by simp [e, hx])) (by rw [(sum_map_upd f a 0 l hl).2 hal]; omega)
    omega

end

/-! ## ERC20 effects -/

theorem Erc20.transfer_ok {t t' : Erc20} {f to : Address} {v : Nat} (h : t.transfer f to v = .ok t') :
    f ≠ 0 ∧ to ≠ 0 ∧ v ≤ t.bal f ∧
    t' = { t with bal := upd (upd t.bal f (t.bal f - v)) to ((upd t.bal f (t.bal f - v)) to + v) } := by
  unfold Erc20.transfer at h
  split at h
  · exact nomatch h
  · rename_i h1
    split at h
    · exact nomatch h
    · rename_i h2
      rw [not_or] at h1
      exact ⟨h1.1, h1.2, by omega, (Except.ok.inj h).symm⟩

theorem Erc20.mint_ok {t t' : Erc20} {to : Address} {v : Nat} (h : t.mint to v = .ok t') :
    to ≠ 0 ∧ t.supply + v ≤ max256 ∧ t' = { t with supply := t.supply + v, bal := upd t.bal to (t.bal to + v) } := by
  unfold Erc20.mint at h
  split at h
  · exact nomatch h
  · split at h
    · exact nomatch h
    · exact ⟨‹_›, by omega, (Except.ok.inj h).symm⟩

theorem Erc20.burn_ok {t t' : Erc20} {f : Address} {v : Nat} (h : t.burn f v = .ok t') :
    f ≠ 0 ∧ v ≤ t.bal f ∧ t' = { t with supply := t.supply - v, bal := upd t.bal f (t.bal f - v) } := by
  unfold Erc20.burn at h
  split at h
  · exact nomatch h
  · split at h
    · exact nomatch h
    · exact ⟨‹_›, by omega, (Except.ok.inj h).symm⟩

theorem Erc20.approve_ok {t t' : Erc20} {o s : Address} {v : Nat} (h : t.approve o s v = .ok t') :
    o ≠ 0 ∧ s ≠ 0 ∧ t' = { t with allow := upd t.allow o (upd (t.allow o) s v) } := by
  unfold Erc20.approve at h
  split at h
  · exact nomatch h
  · rename_i h1
    rw [not_or] at h1
    exact ⟨h1.1, h1.2, (Except.ok.inj h).symm⟩

/-- `spend` succeeds only with enough allowance; it lowers it unless it is infinite. -/
theorem Erc20.spend_ok {t t' : Erc20} {o s : Address} {v : Nat} (h : t.spend o s v = .ok t') :
    (t.allow o s = max256 ∨ v ≤ t.allow o s) ∧ t'.bal = t.bal ∧ t'.supply = t.supply ∧
    (∀ a b, (a ≠ o ∨ b ≠ s) → t'.allow a b = t.allow a b) ∧
    t'.allow o s = (if t.allow o s = max256 then max256 else t.allow o s - v) := by
  unfold Erc20.spend at h
  split at h
  · rename_i hm
    obtain rfl := Except.ok.inj h
    exact ⟨Or.inl hm, rfl, rfl, fun _ _ _ => rfl, by rw [if_pos hm, hm]⟩
  · rename_i hm
    split at h
    · exact nomatch h
    · obtain ⟨_, _, rfl⟩ := approve_ok h
      refine ⟨Or.inr (by omega), rfl, rfl, ?_, ?_⟩
      · intro a b hab
        show upd t.allow o _ a b = _
        by_cases ha : a = o
        · subst ha
          rw [upd_same, upd_ne _ _ (hab.resolve_left (fun h => h rfl))]
        · rw [upd_ne _ _ ha]
      · rw [if_neg hm]
        show upd t.allow o _ o s = _
        rw [upd_same, upd_same]

/-- Total of the balances. -/
def Erc20.Balanced (t : Erc20) : Prop := HasSum t.bal t.supply

theorem HasSum.move {f : Address → Nat} {n : Nat} (h : HasSum f n) (a b : Address) (v : Nat) (hv : v ≤ f a) :
    HasSum (upd (upd f a (f a - v)) b ((upd f a (f a - v)) b + v)) n := by
  have hle := h.le a
  have h1 := h.update a (f a - v) (m := n - v) (by omega)
  exact h1.update b _ (by omega)

theorem Erc20.Balanced.transfer {t t' : Erc20} {f to : Address} {v : Nat} (hb : t.Balanced)
    (h : t.transfer f to v = .ok t') : t'.Balanced := by
  obtain ⟨_, _, hv, rfl⟩ := transfer_ok h
  exact HasSum.move hb f to v hv

theorem Erc20.Balanced.mint {t t' : Erc20} {to : Address} {v : Nat} (hb : t.Balanced)
    (h : t.mint to v = .ok t') : t'.Balanced := by
  obtain ⟨_, _, rfl⟩ := mint_ok h
  exact HasSum.update hb to _ (by show t.supply + v + t.bal to = _; omega)

theorem Erc20.Balanced.burn {t t' : Erc20} {f : Address} {v : Nat} (hb : t.Balanced)
    (h : t.burn f v = .ok t') : t'.Balanced := by
  obtain ⟨_, hv, rfl⟩ := burn_ok h
  have := HasSum.le hb f
  exact HasSum.update hb f _ (by show t.supply - v + t.bal f = t.supply + _; omega)

theorem Erc20.Balanced.spend {t t' : Erc20} {o s : Address} {v : Nat} (hb : t.Balanced)
    (h : t.spend o s v = .ok t') : t'.Balanced := by
  obtain ⟨_, h1, h2, _⟩ := spend_ok h
  unfold Balanced; rw [h1, h2]; exact hb

theorem Erc20.Balanced.approve {t t' : Erc20} {o s : Address} {v : Nat} (hb : t.Balanced)
    (h : t.approve o s v = .ok t') : t'.Balanced := by
  obtain ⟨_, _, rfl⟩ := approve_ok h
  exact hb

/-! ## Token functions -/

theorem proveTransferFrom_ok {s f t : Address} {v : Nat} {u : Unit} {w w' : World}
    (h : proveTransferFrom s f t v w = .ok (u, w')) :
    ∃ t1 t2, w.prove.spend f s v = .ok t1 ∧ t1.transfer f t v = .ok t2 ∧ w' = { w with prove := t2 } := by
  simp only [proveTransferFrom, bind_ok, onProve_ok] at h
  obtain ⟨_, _, ⟨t1, h1, rfl⟩, t2, h2, rfl⟩ := h
  exact ⟨t1, t2, h1, h2, rfl⟩

theorem proveTransfer_ok {f t : Address} {v : Nat} {u : Unit} {w w' : World}
    (h : proveTransfer f t v w = .ok (u, w')) :
    ∃ t1, w.prove.transfer f t v = .ok t1 ∧ w' = { w with prove := t1 } := onProve_ok.mp h

/-- Who may move $iPROVE from `f` to `t`. -/
def MayMove (cfg : Cfg) (w : World) (s f t : Address) : Prop :=
  s = cfg.staking ∨ (w.staking.provers s = true ∧ (f = cfg.staking ∨ t = cfg.staking)) ∨
  (s = cfg.vapp ∧ f = 0 ∧ w.staking.provers t = true)

theorem iproveCheck_ok {cfg : Cfg} {s f t : Address} {u : Unit} {w w' : World} :
    iproveCheck cfg s f t w = .ok (u, w') ↔ MayMove cfg w s f t ∧ w' = w := by
  simp only [iproveCheck, bind_ok, get_ok, require_ok, MayMove]
  constructor
  · rintro ⟨_, _, ⟨rfl, rfl⟩, h, rfl⟩
    refine ⟨?_, rfl⟩
    simpa [or_assoc, and_assoc] using h
  · rintro ⟨h, rfl⟩
    refine ⟨w', w', ⟨rfl, rfl⟩, ?_, rfl⟩
    simpa [or_assoc, and_assoc] using h

theorem iproveMint_ok {cfg : Cfg} {s t : Address} {v : Nat} {u : Unit} {w w' : World}
    (h : iproveMint cfg s t v w = .ok (u, w')) :
    MayMove cfg w s 0 t ∧ ∃ t1, w.iprove.mint t v = .ok t1 ∧ t1.supply ≤ 2 ^ 208 - 1 ∧
      w' = { w with iprove := t1 } := by
  simp only [iproveMint, bind_ok, onIprove_ok, iproveCheck_ok, require_ok, get_ok] at h
  obtain ⟨_, _, ⟨hm, rfl⟩, _, _, ⟨t1, h1, rfl⟩, _, _, ⟨rfl, rfl⟩, h2, rfl⟩ := h
  exact ⟨hm, t1, h1, h2, rfl⟩

theorem iproveBurnShares_ok {cfg : Cfg} {s f : Address} {v : Nat} {u : Unit} {w w' : World}
    (h : iproveBurnShares cfg s f v w = .ok (u, w')) :
    MayMove cfg w s f 0 ∧ ∃ t1, w.iprove.burn f v = .ok t1 ∧ w' = { w with iprove := t1 } := by
  simp only [iproveBurnShares, bind_ok, onIprove_ok, iproveCheck_ok] at h
  obtain ⟨_, _, ⟨hm, rfl⟩, t1, h1, rfl⟩ := h
  exact ⟨hm, t1, h1, rfl⟩

theorem iproveMove_ok {cfg : Cfg} {s f t : Address} {v : Nat} {u : Unit} {w w' : World}
    (h : iproveMove cfg s f t v w = .ok (u, w')) :
    MayMove cfg w s f t ∧ ∃ t1, w.iprove.transfer f t v = .ok t1 ∧ w' = { w with iprove := t1 } := by
  simp only [iproveMove, bind_ok, onIprove_ok, iproveCheck_ok] at h
  obtain ⟨_, _, ⟨hm, rfl⟩, t1, h1, rfl⟩ := h
  exact ⟨hm, t1, h1, rfl⟩

theorem iproveSpend_ok {cfg : Cfg} {o s : Address} {v : Nat} {u : Unit} {w w' : World}
    (h : iproveSpend cfg o s v w = .ok (u, w')) :
    ∃ t1, (t1 = w.iprove ∨ w.iprove.spend o s v = .ok t1) ∧ w' = { w with iprove := t1 } := by
  unfold iproveSpend at h
  split at h
  · obtain ⟨_, rfl⟩ := pure_ok.mp h
    exact ⟨w'.iprove, Or.inl rfl, rfl⟩
  · obtain ⟨t1, h1, rfl⟩ := onIprove_ok.mp h
    exact ⟨t1, Or.inr h1, rfl⟩

theorem iproveSpend_bal {t t1 : Erc20} {o s : Address} {v : Nat} (h : t1 = t ∨ t.spend o s v = .ok t1) :
    t1.bal = t.bal ∧ t1.supply = t.supply := by
  rcases h with rfl | h
  · exact ⟨rfl, rfl⟩
  · obtain ⟨_, h1, h2, _⟩ := Erc20.spend_ok h
    exact ⟨h1, h2⟩

theorem iprovePreviewRedeem_ok {cfg : Cfg} {s a : Nat} {w w' : World}
    (h : iprovePreviewRedeem cfg s w = .ok (a, w')) :
    a = s * (w.prove.bal cfg.iprove + 1) / (w.iprove.supply + 1) ∧ w' = w := by
  simp only [iprovePreviewRedeem, bind_ok, get_ok, add256_ok, mulDiv_ok] at h
  obtain ⟨_, _, ⟨rfl, rfl⟩, _, _, ⟨_, rfl, rfl⟩, _, _, ⟨_, rfl, rfl⟩, _, _, rfl, rfl⟩ := h
  exact ⟨rfl, rfl⟩

theorem iprovePreviewDeposit_ok {cfg : Cfg} {s a : Nat} {w w' : World}
    (h : iprovePreviewDeposit cfg s w = .ok (a, w')) :
    a = s * (w.iprove.supply + 1) / (w.prove.bal cfg.iprove + 1) ∧ w' = w := by
  simp only [iprovePreviewDeposit, bind_ok, get_ok, add256_ok, mulDiv_ok] at h
  obtain ⟨_, _, ⟨rfl, rfl⟩, _, _, ⟨_, rfl, rfl⟩, _, _, ⟨_, rfl, rfl⟩, _, _, rfl, rfl⟩ := h
  exact ⟨rfl, rfl⟩

theorem iproveDeposit_ok {cfg : Cfg} {s r : Address} {a n : Nat} {w w' : World}
    (h : iproveDeposit cfg s a r w = .ok (n, w')) :
    n = a * (w.iprove.supply + 1) / (w.prove.bal cfg.iprove + 1) ∧ MayMove cfg w s 0 r ∧
    ∃ t1 t2 t3, w.prove.spend s cfg.iprove a = .ok t1 ∧ t1.transfer s cfg.iprove a = .ok t2 ∧
      w.iprove.mint r n = .ok t3 ∧ t3.supply ≤ 2 ^ 208 - 1 ∧ w' = { w with prove := t2, iprove := t3 } := by
  simp only [iproveDeposit, bind_ok, pure_ok] at h
  obtain ⟨sh, _, h1, _, _, h2, _, _, h3, rfl, rfl⟩ := h
  obtain ⟨hn, rfl⟩ := iprovePreviewDeposit_ok h1
  obtain ⟨t1, t2, h4, h5, rfl⟩ := proveTransferFrom_ok h2
  obtain ⟨hm, t3, h6, h7, rfl⟩ := iproveMint_ok h3
  exact ⟨hn, hm, t1, t2, t3, h4, h5, h6, h7, rfl⟩

theorem iproveRedeem_ok {cfg : Cfg} {s r o : Address} {v n : Nat} {w w' : World}
    (h : iproveRedeem cfg s v r o w = .ok (n, w')) :
    v ≤ w.iprove.bal o ∧ n = v * (w.prove.bal cfg.iprove + 1) / (w.iprove.supply + 1) ∧ MayMove cfg w s o 0 ∧
    ∃ i0 i1 p1, (i0 = w.iprove ∨ w.iprove.spend o s v = .ok i0) ∧ i0.burn o v = .ok i1 ∧
      w.prove.transfer cfg.iprove r n = .ok p1 ∧ w' = { w with prove := p1, iprove := i1 } := by
  simp only [iproveRedeem, bind_ok, get_ok, require_ok] at h
  obtain ⟨_, _, ⟨rfl, rfl⟩, _, _, ⟨h1, rfl⟩, a, _, h2, h⟩ := h
  obtain ⟨hn, rfl⟩ := iprovePreviewRedeem_ok h2
  split at h
  · simp only [bind_ok, pure_ok] at h
    obtain ⟨_, _, h3, _, _, h4, _, _, h5, rfl, rfl⟩ := h
    obtain ⟨i0, hi0, rfl⟩ := iproveSpend_ok h3
    obtain ⟨hm, i1, hi1, rfl⟩ := iproveBurnShares_ok h4
    obtain ⟨p1, hp1, rfl⟩ := proveTransfer_ok h5
    exact ⟨h1, hn, hm, i0, i1, p1, hi0, hi1, hp1, rfl⟩
  · simp only [bind_ok, pure_ok] at h
    obtain ⟨_, _, h4, _, _, h5, rfl, rfl⟩ := h
    obtain ⟨hm, i1, hi1, rfl⟩ := iproveBurnShares_ok h4
    obtain ⟨p1, hp1, rfl⟩ := proveTransfer_ok h5
    exact ⟨h1, hn, hm, _, i1, p1, Or.inl rfl, hi1, hp1, rfl⟩

theorem iproveBurn_ok {cfg : Cfg} {s f : Address} {v n : Nat} {w w' : World}
    (h : iproveBurn cfg s f v w = .ok (n, w')) :
    s = cfg.staking ∧ n = v * (w.prove.bal cfg.iprove + 1) / (w.iprove.supply + 1) ∧
    ∃ p1 i1, w.prove.burn cfg.iprove n = .ok p1 ∧ w.iprove.burn f v = .ok i1 ∧
      w' = { w with prove := p1, iprove := i1 } := by
  simp only [iproveBurn, bind_ok, require_ok, onProve_ok, pure_ok] at h
  obtain ⟨_, _, ⟨h1, rfl⟩, a, _, h2, _, _, ⟨p1, h3, rfl⟩, _, _, h4, rfl, rfl⟩ := h
  obtain ⟨hn, rfl⟩ := iprovePreviewRedeem_ok h2
  obtain ⟨_, i1, hi1, rfl⟩ := iproveBurnShares_ok h4
  exact ⟨h1, hn, p1, i1, h3, hi1, rfl⟩

theorem vaultCheck_ok {cfg : Cfg} {s : Address} {u : Unit} {w w' : World} :
    vaultCheck cfg s w = .ok (u, w') ↔ s = cfg.staking ∧ w' = w := require_ok

theorem vaultDeposit_ok {cfg : Cfg} {s p r : Address} {a n : Nat} {w w' : World}
    (h : vaultDeposit cfg s p a r w = .ok (n, w')) :
    n = a * ((w.vault p).supply + 1) / (w.iprove.bal p + 1) ∧ s = cfg.staking ∧
    ∃ i0 i1 v1, (i0 = w.iprove ∨ w.iprove.spend s p a = .ok i0) ∧ i0.transfer s p a = .ok i1 ∧
      (w.vault p).mint r n = .ok v1 ∧ w' = { w with iprove := i1, vault := upd w.vault p v1 } := by
  simp only [vaultDeposit, bind_ok, get_ok, add256_ok, mulDiv_ok, vaultCheck_ok, onVault_ok, pure_ok] at h
  obtain ⟨_, _, ⟨rfl, rfl⟩, _, _, ⟨_, rfl, rfl⟩, _, _, ⟨_, rfl, rfl⟩, _, _, ⟨_, _, rfl, rfl⟩, _, _, h1, _, _, h2,
    _, _, ⟨h3, rfl⟩, _, _, ⟨v1, h4, rfl⟩, rfl, rfl⟩ := h
  obtain ⟨i0, hi0, rfl⟩ := iproveSpend_ok h1
  obtain ⟨_, i1, hi1, rfl⟩ := iproveMove_ok h2
  exact ⟨rfl, h3, i0, i1, v1, hi0, hi1, h4, rfl⟩

theorem vaultRedeem_ok {cfg : Cfg} {s p r o : Address} {v n : Nat} {w w' : World}
    (h : vaultRedeem cfg s p v r o w = .ok (n, w')) :
    v ≤ (w.vault p).bal o ∧ n = v * (w.iprove.bal p + 1) / ((w.vault p).supply + 1) ∧ s = cfg.staking ∧
    ∃ v1 i1, (w.vault p).burn o v = .ok v1 ∧ w.iprove.transfer p r n = .ok i1 ∧
      w' = { w with iprove := i1, vault := upd w.vault p v1 } := by
  simp only [vaultRedeem, bind_ok, get_ok, require_ok, add256_ok, mulDiv_ok] at h
  obtain ⟨_, _, ⟨rfl, rfl⟩, _, _, ⟨h1, rfl⟩, _, _, ⟨_, rfl, rfl⟩, _, _, ⟨_, rfl, rfl⟩, _, _, ⟨_, _, rfl, rfl⟩, h⟩ := h
  have hfin : ∀ {W : World}, (vaultCheck cfg s >>= fun _ => onVault p (·.burn o v) >>= fun _ =>
      iproveMove cfg p p r (v * (W.iprove.bal p + 1) / ((W.vault p).supply + 1)) >>= fun _ =>
      (pure (v * (W.iprove.bal p + 1) / ((W.vault p).supply + 1)) : L1 Nat)) W = .ok (n, w') →
      n = v * (W.iprove.bal p + 1) / ((W.vault p).supply + 1) ∧ s = cfg.staking ∧
      ∃ v1 i1, (W.vault p).burn o v = .ok v1 ∧ W.iprove.transfer p r n = .ok i1 ∧
        w' = { W with iprove := i1, vault := upd W.vault p v1 } := by
    intro W h
    simp only [bind_ok, vaultCheck_ok, onVault_ok, pure_ok] at h
    obtain ⟨_, _, ⟨h3, rfl⟩, _, _, ⟨v1, h4, rfl⟩, _, _, h5, rfl, rfl⟩ := h
    obtain ⟨_, i1, hi1, rfl⟩ := iproveMove_ok h5
    exact ⟨rfl, h3, v1, i1, h4, hi1, rfl⟩
  split at h
  · obtain ⟨_, _, h2, h⟩ := bind_ok.mp h
    unfold vaultSpend at h2
    split at h2
    · obtain ⟨_, rfl⟩ := pure_ok.mp h2
      exact ⟨h1, hfin h⟩
    · rename_i hs
      obtain ⟨_, _, h3, _⟩ := bind_ok.mp h
      exact absurd (vaultCheck_ok.mp h3).1 hs
  · exact ⟨h1, hfin h⟩

end Verif
