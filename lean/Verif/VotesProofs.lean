import Verif.L1Units
/-
# Voting power: what the checkpoints say
-/

namespace Verif
open L1

/-! ## Checkpoints -/

/-- No entry is later than `T`. -/
def Trace.Upto (T : Nat) (t : Trace) : Prop := ∀ e ∈ t, e.1 ≤ T

theorem Trace.Upto.mono {T T' : Nat} {t : Trace} (h : t.Upto T) (hT : T ≤ T') : t.Upto T' :=
  fun e he => Nat.le_trans (h e he) hT

theorem Trace.push_some {T now v : Nat} {t : Trace} (h : t.Upto T) (hT : T ≤ now) : ∃ t', t.push now v = some t' := by
  cases t with
  | nil => exact ⟨_, rfl⟩
  | cons e r =>
    have := h e List.mem_cons_self
    unfold Trace.push
    dsimp only
    rw [if_neg (by omega)]
    split <;> exact ⟨_, rfl⟩

theorem Trace.push_spec {now v : Nat} {t t' : Trace} (h : t.push now v = some t') :
    t'.latest = v ∧ (∀ x, x < now → t'.at x = t.at x) ∧ (t.Upto now → t'.Upto now) := by
  cases t with
  | nil =>
    obtain rfl := Option.some.inj h
    refine ⟨rfl, fun x hx => ?_, fun _ e he => ?_⟩
    · show (if now ≤ x then v else 0) = 0
      rw [if_neg (by omega)]
    · rw [List.mem_singleton.mp he]
      exact Nat.le_refl _
  | cons e r =>
    obtain ⟨k, u⟩ := e
    unfold Trace.push at h
    dsimp only at h
    split at h
    · exact nomatch h
    · split at h
      · rename_i hk
        obtain rfl := Option.some.inj h
        refine ⟨rfl, fun x hx => ?_, fun hu e he => ?_⟩
        · show (if now ≤ x then v else Trace.at r x) = if k ≤ x then u else Trace.at r x
          rw [if_neg (by omega), if_neg (by omega)]
        · rcases List.mem_cons.mp he with rfl | he
          · exact Nat.le_refl _
          · exact hu e (List.mem_cons_of_mem _ he)
      · obtain rfl := Option.some.inj h
        refine ⟨rfl, fun x hx => ?_, fun hu e he => ?_⟩
        · show (if now ≤ x then v else Trace.at ((k, u) :: r) x) = _
          rw [if_neg (by omega)]
        · rcases List.mem_cons.mp he with rfl | he
          · exact Nat.le_refl _
          · exact hu e he

theorem Trace.at_latest {T x : Nat} {t : Trace} (h : t.Upto T) (hx : T ≤ x) : t.at x = t.latest := by
  cases t with
  | nil => rfl
  | cons e r =>
    have := h e List.mem_cons_self
    show (if e.1 ≤ x then e.2 else _) = e.2
    rw [if_pos (by omega)]

theorem Trace.add_spec {now n : Nat} {t t' : Trace} (h : t.add now n = some t') :
    t'.latest = t.latest + n ∧ (∀ x, x < now → t'.at x = t.at x) ∧ (t.Upto now → t'.Upto now) := by
  unfold Trace.add at h
  split at h
  · exact Trace.push_spec h
  · exact nomatch h

theorem Trace.sub_spec {now n : Nat} {t t' : Trace} (h : t.sub now n = some t') :
    t'.latest + n = t.latest ∧ (∀ x, x < now → t'.at x = t.at x) ∧ (t.Upto now → t'.Upto now) := by
  unfold Trace.sub at h
  split at h
  · obtain ⟨h1, h2, h3⟩ := Trace.push_spec h
    exact ⟨by omega, h2, h3⟩
  · exact nomatch h

/-! ## The past stays -/

/-- No checkpoint is later than `T`. -/
structure Votes.Upto (T : Nat) (v : Votes) : Prop where
  cps : ∀ a, (v.cps a).Upto T
  total : v.total.Upto T

theorem Votes.Upto.mono {T T' : Nat} {v : Votes} (h : v.Upto T) (hT : T ≤ T') : v.Upto T' :=
  ⟨fun a => (h.cps a).mono hT, h.total.mono hT⟩

/-- What happens at time `now` does not change what is known of earlier times. -/
structure Votes.Next (now : Nat) (v v' : Votes) : Prop where
  cps : ∀ a x, x < now → (v'.cps a).at x = (v.cps a).at x
  total : ∀ x, x < now → v'.total.at x = v.total.at x
  upto : v.Upto now → v'.Upto now

theorem Votes.Next.refl (now : Nat) (v : Votes) : v.Next now v := ⟨fun _ _ _ => rfl, fun _ _ => rfl, id⟩

theorem Votes.Next.trans {now : Nat} {v v1 v2 : Votes} (h : v.Next now v1) (g : v1.Next now v2) : v.Next now v2 :=
  ⟨fun a x hx => (g.cps a x hx).trans (h.cps a x hx), fun x hx => (g.total x hx).trans (h.total x hx),
    fun hu => g.upto (h.upto hu)⟩

theorem Votes.Next.cp {now : Nat} {v : Votes} {a : Address} {t : Trace}
    (h : (∀ x, x < now → t.at x = (v.cps a).at x) ∧ ((v.cps a).Upto now → t.Upto now)) :
    v.Next now { v with cps := upd v.cps a t } := by
  refine ⟨fun b x hx => ?_, fun _ _ => rfl, fun hu => ⟨fun b => ?_, hu.total⟩⟩
  · dsimp only
    by_cases hb : b = a
    · subst hb; rw [upd_same]; exact h.1 x hx
    · rw [upd_ne _ _ hb]
  · dsimp only
    by_cases hb : b = a
    · subst hb; rw [upd_same]; exact h.2 (hu.cps _)
    · rw [upd_ne _ _ hb]; exact hu.cps _

/-- What taking votes does. -/
theorem Votes.take_spec {now n : Nat} {v v' : Votes} {s : Address} (h : v.take now s n = some v') :
    v.Next now v' ∧ v'.delegates = v.delegates ∧ v'.total = v.total ∧
    ∀ x, x ≠ 0 → (v'.cps x).latest + (if x = s then n else 0) = (v.cps x).latest := by
  unfold Votes.take at h
  split at h
  · rename_i hs
    obtain rfl := Option.some.inj h
    exact ⟨.refl _ _, rfl, rfl, fun x hx => by rw [if_neg (fun e => hx (e.trans hs))]; rfl⟩
  · split at h
    · rename_i t ht
      obtain rfl := Option.some.inj h
      obtain ⟨h1, h2⟩ := Trace.sub_spec ht
      refine ⟨.cp h2, rfl, rfl, fun x _ => ?_⟩
      dsimp only
      by_cases hx : x = s
      · subst hx; rw [upd_same, if_pos rfl]; exact h1
      · rw [upd_ne _ _ hx, if_neg hx]; rfl
    · exact nomatch h

/-- What giving votes does. -/
theorem Votes.give_spec {now n : Nat} {v v' : Votes} {s : Address} (h : v.give now s n = some v') :
    v.Next now v' ∧ v'.delegates = v.delegates ∧ v'.total = v.total ∧
    ∀ x, x ≠ 0 → (v'.cps x).latest = (v.cps x).latest + (if x = s then n else 0) := by
  unfold Votes.give at h
  split at h
  · rename_i hs
    obtain rfl := Option.some.inj h
    exact ⟨.refl _ _, rfl, rfl, fun x hx => by rw [if_neg (fun e => hx (e.trans hs))]; rfl⟩
  · split at h
    · rename_i t ht
      obtain rfl := Option.some.inj h
      obtain ⟨h1, h2⟩ := Trace.add_spec ht
      refine ⟨.cp h2, rfl, rfl, fun x _ => ?_⟩
      dsimp only
      by_cases hx : x = s
      · subst hx; rw [upd_same, if_pos rfl]; exact h1
      · rw [upd_ne _ _ hx, if_neg hx]; rfl
    · exact nomatch h

theorem Votes.move_spec {now n : Nat} {v v' : Votes} {s d : Address} (h : v.move now s d n = some v') :
    v.Next now v' ∧ v'.delegates = v.delegates ∧ v'.total = v.total ∧
    ∀ x, x ≠ 0 → (v'.cps x).latest + (if x = s then n else 0) = (v.cps x).latest + (if x = d then n else 0) := by
  unfold Votes.move at h
  split at h
  · rename_i hs
    obtain rfl := Option.some.inj h
    refine ⟨.refl _ _, rfl, rfl, fun x hx => ?_⟩
    rcases hs with rfl | rfl
    · rfl
    · rw [ite_self, ite_self]
  · obtain ⟨v1, h1, h2⟩ := Option.bind_eq_some_iff.mp h
    obtain ⟨a1, a2, a3, a4⟩ := Votes.take_spec h1
    obtain ⟨b1, b2, b3, b4⟩ := Votes.give_spec h2
    refine ⟨a1.trans b1, b2.trans a2, b3.trans a3, fun x hx => ?_⟩
    have := a4 x hx
    have := b4 x hx
    omega

theorem Votes.units_spec {now n : Nat} {v v' : Votes} {s d : Address} (h : v.units now s d n = some v') :
    v.Next now v' ∧ v'.delegates = v.delegates ∧ v'.cps = v.cps ∧
    v'.total.latest + (if d = 0 then n else 0) = v.total.latest + (if s = 0 then n else 0) := by
  unfold Votes.units at h
  obtain ⟨v1, h1, h2⟩ := Option.bind_eq_some_iff.mp h
  have a : v.Next now v1 ∧ v1.delegates = v.delegates ∧ v1.cps = v.cps ∧
      v1.total.latest = v.total.latest + (if s = 0 then n else 0) := by
    split at h1
    · rename_i hs
      obtain ⟨t, ht, rfl⟩ := Option.map_eq_some_iff.mp h1
      obtain ⟨g1, g2, g3⟩ := Trace.add_spec ht
      exact ⟨⟨fun _ _ _ => rfl, g2, fun hu => ⟨hu.cps, g3 hu.total⟩⟩, rfl, rfl, by rw [if_pos hs]; exact g1⟩
    · rename_i hs
      obtain rfl := Option.some.inj h1
      exact ⟨.refl _ _, rfl, rfl, by rw [if_neg hs]; rfl⟩
  have b : v1.Next now v' ∧ v'.delegates = v1.delegates ∧ v'.cps = v1.cps ∧
      v'.total.latest + (if d = 0 then n else 0) = v1.total.latest := by
    split at h2
    · rename_i hs
      obtain ⟨t, ht, rfl⟩ := Option.map_eq_some_iff.mp h2
      obtain ⟨g1, g2, g3⟩ := Trace.sub_spec ht
      exact ⟨⟨fun _ _ _ => rfl, g2, fun hu => ⟨hu.cps, g3 hu.total⟩⟩, rfl, rfl, by rw [if_pos hs]; exact g1⟩
    · rename_i hs
      obtain rfl := Option.some.inj h2
      exact ⟨.refl _ _, rfl, rfl, by rw [if_neg hs]; rfl⟩
  obtain ⟨a1, a2, a3, a4⟩ := a
  obtain ⟨b1, b2, b3, b4⟩ := b
  exact ⟨a1.trans b1, b2.trans a2, b3.trans a3, by omega⟩

theorem Votes.transfer_spec {now n : Nat} {v v' : Votes} {s d : Address} (h : v.transfer now s d n = some v') :
    v.Next now v' ∧ v'.delegates = v.delegates ∧
    v'.total.latest + (if d = 0 then n else 0) = v.total.latest + (if s = 0 then n else 0) ∧
    ∀ x, x ≠ 0 → (v'.cps x).latest + (if x = v.delegates s then n else 0) =
      (v.cps x).latest + (if x = v.delegates d then n else 0) := by
  obtain ⟨v1, h1, h2⟩ := Option.bind_eq_some_iff.mp h
  obtain ⟨a1, a2, a3, a4⟩ := Votes.units_spec h1
  obtain ⟨b1, b2, b3, b4⟩ := Votes.move_spec h2
  exact ⟨a1.trans b1, b2.trans a2, by rw [b3]; exact a4, by rw [a3] at b4; exact b4⟩

theorem Votes.delegate_spec {now n : Nat} {v v' : Votes} {a d : Address} (h : v.delegate now a d n = some v') :
    v.Next now v' ∧ v'.delegates = upd v.delegates a d ∧ v'.total = v.total ∧
    ∀ x, x ≠ 0 → (v'.cps x).latest + (if x = v.delegates a then n else 0) =
      (v.cps x).latest + (if x = d then n else 0) := by
  obtain ⟨b1, b2, b3, b4⟩ := Votes.move_spec h
  exact ⟨⟨b1.cps, b1.total, fun hu => b1.upto ⟨hu.cps, hu.total⟩⟩, b2, b3, b4⟩

/-! ## Votes are delegated balances -/

/-- What is delegated to `d`. -/
def units (v : Votes) (t : Erc20) (d a : Address) : Nat := if v.delegates a = d then t.bal a else 0

/-- The votes of each delegate are the balances delegated to it; the total is the supply. -/
structure VSum (v : Votes) (t : Erc20) : Prop where
  votes : ∀ d, d ≠ 0 → HasSum (units v t d) (v.cps d).latest
  total : v.total.latest = t.supply
  zero : v.delegates 0 = 0
  bal : t.Balanced
  cap : t.supply ≤ 2 ^ 208 - 1

theorem VSum.congr {v : Votes} {t t' : Erc20} (h : VSum v t) (e1 : t'.bal = t.bal) (e2 : t'.supply = t.supply) :
    VSum v t' := by
  refine ⟨fun d hd => ?_, by rw [e2]; exact h.total, h.zero, ?_, by rw [e2]; exact h.cap⟩
  · unfold units; rw [e1]; exact h.votes d hd
  · unfold Erc20.Balanced; rw [e1, e2]; exact h.bal

theorem units_upd {v : Votes} {t t' : Erc20} {d a : Address} {n : Nat} (e : t'.bal = upd t.bal a n) :
    units v t' d = upd (units v t d) a (if v.delegates a = d then n else 0) := by
  funext x
  unfold units
  rw [e]
  by_cases hx : x = a
  · subst hx; rw [upd_same, upd_same]
  · rw [upd_ne _ _ hx, upd_ne _ _ hx]

/-- One balance changes. -/
theorem HasSum.units {v : Votes} {t t' : Erc20} {d a : Address} {N M n : Nat} (h : HasSum (Verif.units v t d) N)
    (e : t'.bal = upd t.bal a n) (hm : M + (if v.delegates a = d then t.bal a else 0) = N + (if v.delegates a = d then n else 0)) :
    HasSum (Verif.units v t' d) M := by
  rw [units_upd e]
  exact h.update a _ hm

theorem units_le {v : Votes} {t : Erc20} {d : Address} {N : Nat} (h : HasSum (units v t d) N) {a : Address}
    (ha : v.delegates a = d) : t.bal a ≤ N := by
  have := h.le a
  unfold units at this
  rw [if_pos ha] at this
  exact this

theorem VSum.transfer {now : Nat} {v v' : Votes} {t t' : Erc20} {m : Move} (h : VSum v t) (ha : m.Applies t t')
    (hv : v.transfer now m.src m.dst m.n = some v') : VSum v' t' := by
  obtain ⟨s, d, n⟩ := m
  obtain ⟨_, e1, e2, e3⟩ := Votes.transfer_spec hv
  dsimp only at e1 e2 e3
  have hu : ∀ t d, units v' t d = units v t d := fun t d => by unfold units; rw [e1]
  unfold Move.Applies at ha
  dsimp only at ha
  split at ha
  · rename_i hs
    obtain ⟨g1, g2, g3, g4⟩ := ha
    refine ⟨fun x hx => ?_, ?_, by rw [e1]; exact h.zero, ?_, by rw [g3]; exact g2⟩
    · rw [hu]
      refine (h.votes x hx).units g4 ?_
      have := e3 x hx
      rw [hs, h.zero, if_neg hx, Nat.add_zero] at this
      rw [this]
      by_cases hd : v.delegates d = x
      · rw [if_pos hd, if_pos hd, if_pos hd.symm]; omega
      · rw [if_neg hd, if_neg hd, if_neg (fun e => hd e.symm)]
    · rw [if_pos hs, if_neg g1, h.total] at e2
      rw [g3]; exact e2
    · unfold Erc20.Balanced
      rw [g3, g4]
      exact h.bal.update d _ (by omega)
  · rename_i hs
    split at ha
    · rename_i hd
      obtain ⟨g1, g2, g3⟩ := ha
      have hle := h.bal.le s
      refine ⟨fun x hx => ?_, ?_, by rw [e1]; exact h.zero, ?_, by rw [g2]; exact Nat.le_trans (Nat.sub_le _ _) h.cap⟩
      · rw [hu]
        refine (h.votes x hx).units g3 ?_
        have := e3 x hx
        rw [hd, h.zero, if_neg hx] at this
        by_cases hd : v.delegates s = x
        · rw [if_pos hd, if_pos hd]
          rw [if_pos hd.symm] at this
          omega
        · rw [if_neg hd, if_neg hd]
          rw [if_neg (fun e => hd e.symm)] at this
          exact this
      · rw [if_neg hs, if_pos hd, h.total] at e2
        rw [g2]; omega
      · unfold Erc20.Balanced
        rw [g2, g3]
        exact h.bal.update s _ (by omega)
    · rename_i hd
      obtain ⟨g1, g2, g3⟩ := ha
      refine ⟨fun x hx => ?_, ?_, by rw [e1]; exact h.zero, ?_, by rw [g2]; exact h.cap⟩
      · rw [hu]
        have hx3 := e3 x hx
        have key : HasSum (units v { t with bal := upd t.bal s (t.bal s - n) } x)
            ((v.cps x).latest - if v.delegates s = x then n else 0) := by
          refine (h.votes x hx).units rfl ?_
          by_cases hd : v.delegates s = x
          · rw [if_pos hd, if_pos hd, if_pos hd]
            have := units_le (h.votes x hx) hd
            omega
          · rw [if_neg hd, if_neg hd, if_neg hd]; omega
        refine key.units g3 ?_
        by_cases hd : v.delegates s = x
        · rw [if_pos hd]
          have := units_le (h.votes x hx) hd
          rw [if_pos hd.symm] at hx3
          by_cases hd' : v.delegates d = x
          · rw [if_pos hd', if_pos hd']
            rw [if_pos hd'.symm] at hx3
            dsimp only
            omega
          · rw [if_neg hd', if_neg hd']
            rw [if_neg (fun e => hd' e.symm)] at hx3
            omega
        · rw [if_neg hd]
          rw [if_neg (fun e => hd e.symm)] at hx3
          by_cases hd' : v.delegates d = x
          · rw [if_pos hd', if_pos hd']
            rw [if_pos hd'.symm] at hx3
            dsimp only
            omega
          · rw [if_neg hd', if_neg hd']
            rw [if_neg (fun e => hd' e.symm)] at hx3
            omega
      · rw [if_neg hs, if_neg hd, h.total] at e2
        rw [g2]; exact e2
      · unfold Erc20.Balanced
        rw [g2, g3]
        exact h.bal.move s d n g1

theorem VSum.moves {now : Nat} {ms : List Move} : ∀ {v v' : Votes} {t t' : Erc20}, VSum v t → Moves ms t t' →
    v.moves now ms = some v' → VSum v' t' ∧ v.Next now v' ∧ v'.delegates = v.delegates := by
  induction ms with
  | nil =>
    intro v v' t t' h hm hv
    obtain rfl := Option.some.inj hv
    exact ⟨h.congr hm.1 hm.2, .refl _ _, rfl⟩
  | cons m ms ih =>
    intro v v' t t' h hm hv
    obtain ⟨t1, h1, h2⟩ := hm
    obtain ⟨v1, g1, g2⟩ := Option.bind_eq_some_iff.mp hv
    obtain ⟨a1, a2, _⟩ := Votes.transfer_spec g1
    obtain ⟨b1, b2, b3⟩ := ih (h.transfer h1 g1) h2 g2
    exact ⟨b1, a1.trans b2, b3.trans a2⟩

theorem VSum.delegate {now : Nat} {v v' : Votes} {t : Erc20} {a d : Address} (h : VSum v t) (ha : a ≠ 0)
    (hv : v.delegate now a d (t.bal a) = some v') : VSum v' t := by
  obtain ⟨_, e1, e2, e3⟩ := Votes.delegate_spec hv
  refine ⟨fun x hx => ?_, by rw [e2]; exact h.total, by rw [e1, upd_ne _ _ (Ne.symm ha)]; exact h.zero, h.bal, h.cap⟩
  have hu : units v' t x = upd (units v t x) a (if d = x then t.bal a else 0) := by
    funext b
    unfold units
    rw [e1]
    by_cases hb : b = a
    · subst hb; rw [upd_same, upd_same]
    · rw [upd_ne _ _ hb, upd_ne _ _ hb]
  rw [hu]
  refine (h.votes x hx).update a _ ?_
  have := e3 x hx
  unfold units
  by_cases h1 : v.delegates a = x
  · rw [if_pos h1]
    rw [if_pos h1.symm] at this
    by_cases h2 : d = x
    · rw [if_pos h2]; rw [if_pos h2.symm] at this; exact this
    · rw [if_neg h2]; rw [if_neg (fun e => h2 e.symm)] at this; exact this
  · rw [if_neg h1]
    rw [if_neg (fun e => h1 e.symm)] at this
    by_cases h2 : d = x
    · rw [if_pos h2]; rw [if_pos h2.symm] at this; exact this
    · rw [if_neg h2]; rw [if_neg (fun e => h2 e.symm)] at this; exact this

/-- A partial sum is at most the sum. -/
theorem HasSum.sums_le {κ : Type} [DecidableEq κ] : ∀ (l : List κ) {f : κ → Nat} {n : Nat}, HasSum f n → l.Nodup →
    (l.map f).sum ≤ n := by
  intro l
  induction l with
  | nil => intro f n _ _; exact Nat.zero_le _
  | cons a l ih =>
    intro f n h hd
    obtain ⟨h1, h2⟩ := List.nodup_cons.mp hd
    have hle := HasSum.le h a
    have := ih (HasSum.update h a 0 (m := n - f a) (by omega)) h2
    have e : l.map (upd f a 0) = l.map f := List.map_congr_left (fun b hb => upd_ne _ _ (fun e => h1 (e ▸ hb)))
    rw [e] at this
    rw [List.map_cons, List.sum_cons]
    omega

theorem sums_mono {κ : Type} {f g : κ → Nat} (h : ∀ a, f a ≤ g a) : ∀ l : List κ, (l.map f).sum ≤ (l.map g).sum := by
  intro l
  induction l with
  | nil => exact Nat.le_refl _
  | cons a l ih =>
    rw [List.map_cons, List.map_cons, List.sum_cons, List.sum_cons]
    have := h a
    omega

/-! ## Vote keeping never blocks -/

theorem Votes.give_some {now n : Nat} {v : Votes} {d : Address} (hu : v.Upto now)
    (hn : d ≠ 0 → (v.cps d).latest + n < 2 ^ 208) : ∃ v', v.give now d n = some v' := by
  unfold Votes.give
  split
  · exact ⟨_, rfl⟩
  · rename_i hd
    obtain ⟨t, ht⟩ := Trace.push_some (v := (v.cps d).latest + n) (hu.cps d) (Nat.le_refl _)
    unfold Trace.add
    rw [if_pos (hn hd), ht]
    exact ⟨_, rfl⟩

theorem Votes.take_some {now n : Nat} {v : Votes} {s : Address} (hu : v.Upto now)
    (hn : s ≠ 0 → n ≤ (v.cps s).latest) : ∃ v', v.take now s n = some v' := by
  unfold Votes.take
  split
  · exact ⟨_, rfl⟩
  · rename_i hd
    obtain ⟨t, ht⟩ := Trace.push_some (v := (v.cps s).latest - n) (hu.cps s) (Nat.le_refl _)
    unfold Trace.sub
    rw [if_pos (hn hd), ht]
    exact ⟨_, rfl⟩

theorem Votes.move_some {now n : Nat} {v : Votes} {s d : Address} (hu : v.Upto now)
    (hs : s ≠ 0 → n ≤ (v.cps s).latest) (hd : d ≠ 0 → s ≠ d → (v.cps d).latest + n < 2 ^ 208) :
    ∃ v', v.move now s d n = some v' := by
  unfold Votes.move
  split
  · exact ⟨_, rfl⟩
  · rename_i hne
    rw [not_or] at hne
    obtain ⟨v1, h1⟩ := Votes.take_some hu hs
    obtain ⟨a1, _, _, a4⟩ := Votes.take_spec h1
    obtain ⟨v2, h2⟩ := Votes.give_some (d := d) (n := n) (a1.upto hu) (fun h => by
      have := a4 d h
      have := hd h hne.1
      omega)
    exact ⟨v2, Option.bind_eq_some_iff.mpr ⟨v1, h1, h2⟩⟩

theorem VSum.transfer_some {now : Nat} {v : Votes} {t t' : Erc20} {m : Move} (h : VSum v t) (hu : v.Upto now)
    (ha : m.Applies t t') : ∃ v', v.transfer now m.src m.dst m.n = some v' := by
  obtain ⟨s, d, n⟩ := m
  unfold Move.Applies at ha
  dsimp only at ha ⊢
  have hcap := h.cap
  -- the total
  have hun : ∃ v1, v.units now s d n = some v1 := by
    unfold Votes.units
    by_cases hs : s = 0
    · rw [if_pos hs] at ha
      obtain ⟨g1, g2, _⟩ := ha
      obtain ⟨t1, ht1⟩ := Trace.push_some (v := v.total.latest + n) hu.total (Nat.le_refl _)
      have hadd : v.total.add now n = some t1 := by
        unfold Trace.add
        rw [if_pos (by rw [h.total]; omega), ht1]
      rw [if_pos hs, hadd, Option.map_some, Option.bind_some, if_neg g1]
      exact ⟨_, rfl⟩
    · rw [if_neg hs] at ha
      rw [if_neg hs, Option.bind_some]
      split
      · rename_i hd
        rw [if_pos hd] at ha
        obtain ⟨g1, _⟩ := ha
        have hle := h.bal.le s
        obtain ⟨t1, ht1⟩ := Trace.push_some (v := v.total.latest - n) hu.total (Nat.le_refl _)
        have hsub : v.total.sub now n = some t1 := by
          unfold Trace.sub
          rw [if_pos (by rw [h.total]; omega), ht1]
        rw [hsub]
        exact ⟨_, rfl⟩
      · exact ⟨_, rfl⟩
  obtain ⟨v1, hv1⟩ := hun
  obtain ⟨a1, a2, a3, _⟩ := Votes.units_spec hv1
  have hsum : ∀ x, x ≠ 0 → (v.cps x).latest ≤ t.supply := by
    intro x hx
    obtain ⟨l, hl, _, hs⟩ := h.votes x hx
    rw [← hs]
    refine Nat.le_trans ?_ (HasSum.sums_le l h.bal hl)
    exact sums_mono (fun a => by unfold units; split <;> omega) l
  obtain ⟨v2, hv2⟩ := Votes.move_some (now := now) (n := n) (s := v.delegates s) (d := v.delegates d) (a1.upto hu)
    (fun hs => by
      rw [a3]
      have hs0 : s ≠ 0 := fun e => hs (by rw [e]; exact h.zero)
      rw [if_neg hs0] at ha
      have := units_le (h.votes _ hs) (a := s) rfl
      split at ha
      · have := ha.1; omega
      · have := ha.1; omega)
    (fun hd hne => by
      rw [a3]
      have := hsum _ hd
      by_cases hs : s = 0
      · rw [if_pos hs] at ha
        have := ha.2.1
        omega
      · rw [if_neg hs] at ha
        split at ha
        · rename_i hd0
          exact absurd (by rw [hd0]; exact h.zero) hd
        · -- the votes of `d` and the balance of `s` are both part of the supply
          have hb := ha.1
          have : (v.cps (v.delegates d)).latest + t.bal s ≤ t.supply := by
            have hsub : HasSum (upd (units v t (v.delegates d)) s (t.bal s)) ((v.cps (v.delegates d)).latest + t.bal s) := by
              refine (h.votes _ hd).update s _ ?_
              unfold units
              rw [if_neg hne]
              omega
            obtain ⟨l, hl, _, hls⟩ := hsub
            rw [← hls]
            refine Nat.le_trans ?_ (HasSum.sums_le l h.bal hl)
            refine sums_mono (fun a => ?_) l
            by_cases e : a = s
            · subst e; rw [upd_same]; exact Nat.le_refl _
            · rw [upd_ne _ _ e]; unfold units; split <;> omega
          omega)
  exact ⟨v2, Option.bind_eq_some_iff.mpr ⟨v1, hv1, hv2⟩⟩

theorem VSum.moves_some {now : Nat} {ms : List Move} : ∀ {v : Votes} {t t' : Erc20}, VSum v t → v.Upto now →
    Moves ms t t' → ∃ v', v.moves now ms = some v' := by
  induction ms with
  | nil => intro v t t' _ _ _; exact ⟨v, rfl⟩
  | cons m ms ih =>
    intro v t t' h hu hm
    obtain ⟨t1, h1, h2⟩ := hm
    obtain ⟨v1, g1⟩ := h.transfer_some hu h1
    obtain ⟨a1, _⟩ := Votes.transfer_spec g1
    obtain ⟨v2, g2⟩ := ih (h.transfer h1 g1) (a1.upto hu) h2
    exact ⟨v2, Option.bind_eq_some_iff.mpr ⟨v1, g1, g2⟩⟩

end Verif
