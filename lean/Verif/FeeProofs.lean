import Verif.Types
/-
# The fee split: exact characterisation (C16)
-/

namespace Verif

/-- The staker rate after capping the combined rate at 100 percent. -/
def cappedStakerBips (protocol staker : Nat) : Nat := min staker (10000 - protocol)

theorem except_bind_ok {ε α β : Type} {x : Except ε α} {f : α → Except ε β} {r : β} :
    (x >>= f) = .ok r ↔ ∃ a, x = .ok a ∧ f a = .ok r := by
  cases x with
  | error e => simp [bind, Except.bind]
  | ok a => simp [bind, Except.bind]

theorem failIf_ok {c : Prop} [Decidable c] {e : Panic} {u : Unit} : failIf c e = .ok u ↔ ¬ c := by
  unfold failIf; by_cases h : c <;> simp [h]

/-- The capped rate as the code computes it. -/
theorem adjusted_ok (pb sb total a : U256) (hp : pb.toNat ≤ 10000) (hs : sb.toNat ≤ 10000)
    (ht : total.toNat = pb.toNat + sb.toNat) :
    adjustedStakerBips total sb 10000 = .ok a ↔
      a.toNat = cappedStakerBips pb.toNat sb.toNat := by
  have hd : (10000 : U256).toNat = 10000 := rfl
  unfold cappedStakerBips adjustedStakerBips
  rw [hd]
  split
  · rename_i hgt
    simp only [except_bind_ok, u256sub_ok, hd]
    constructor
    · rintro ⟨o, h1, h2⟩; omega
    · intro h
      refine ⟨BitVec.ofNat 256 (total.toNat - 10000), ?_, ?_⟩
      · rw [u256_ofNat_toNat (by have := total.isLt; omega)]; omega
      · rw [u256_ofNat_toNat (by have := total.isLt; omega)]; omega
  · rename_i hle
    constructor
    · intro h; cases h; omega
    · intro h
      have : sb = a := BitVec.eq_of_toNat_eq (by omega)
      rw [this]

/-- C16. `fee` succeeds exactly when both rates are at most 100 percent and the two products fit in
256 bits, and then returns the floor of the protocol share, the floor of the (capped) staker share
and the rest. -/
theorem fee_ok_iff (amount pb sb p st o : U256) :
    fee amount pb sb = .ok (p, st, o) ↔
      pb.toNat ≤ 10000 ∧ sb.toNat ≤ 10000 ∧
      amount.toNat * pb.toNat < 2 ^ 256 ∧
      amount.toNat * cappedStakerBips pb.toNat sb.toNat < 2 ^ 256 ∧
      p.toNat = amount.toNat * pb.toNat / 10000 ∧
      st.toNat = amount.toNat * cappedStakerBips pb.toNat sb.toNat / 10000 ∧
      amount.toNat = p.toNat + st.toNat + o.toNat := by
  have hd : (10000 : U256).toNat = 10000 := rfl
  unfold fee
  simp only [failIf_ok, except_bind_ok, u256add_ok, u256sub_ok, u256mul_ok, u256div_ok, hd]
  constructor
  · rintro ⟨_, h1, _, h2, total, ht, adj, hadj, chk, hchk, _, hchk2, pm, hpm, pr, ⟨_, hpr⟩, sm, hsm, sr, ⟨_, hsr⟩,
      rest, hrest, own, hown, heq⟩
    rw [adjusted_ok pb sb total adj (by omega) (by omega) ht] at hadj
    simp only [pure, Except.pure, Except.ok.injEq, Prod.mk.injEq] at heq
    obtain ⟨rfl, rfl, rfl⟩ := heq
    have := pm.isLt
    have := sm.isLt
    refine ⟨by omega, by omega, by omega, by rw [← hadj]; omega, by rw [← hpm]; exact hpr,
      by rw [← hadj, ← hsm]; exact hsr, by omega⟩
  · rintro ⟨h1, h2, h3, h4, h5, h6, h7⟩
    have hcap : cappedStakerBips pb.toNat sb.toNat ≤ 10000 - pb.toNat := Nat.min_le_right _ _
    have e1 : (BitVec.ofNat 256 (pb.toNat + sb.toNat)).toNat = pb.toNat + sb.toNat :=
      u256_ofNat_toNat (by omega)
    have e2 : (BitVec.ofNat 256 (cappedStakerBips pb.toNat sb.toNat)).toNat =
        cappedStakerBips pb.toNat sb.toNat := u256_ofNat_toNat (by omega)
    refine ⟨(), by omega, (), by omega, _, e1, _, (adjusted_ok pb sb _ _ h1 h2 e1).mpr e2,
      BitVec.ofNat 256 (pb.toNat + cappedStakerBips pb.toNat sb.toNat), ?_, (), ?_,
      BitVec.ofNat 256 (amount.toNat * pb.toNat), u256_ofNat_toNat h3, p, ⟨by omega, ?_⟩,
      BitVec.ofNat 256 (amount.toNat * cappedStakerBips pb.toNat sb.toNat), ?_, st, ⟨by omega, ?_⟩,
      BitVec.ofNat 256 (amount.toNat - p.toNat), ?_, o, ?_, rfl⟩
    · rw [e2]; exact u256_ofNat_toNat (by omega)
    · rw [u256_ofNat_toNat (by omega)]; omega
    · rw [u256_ofNat_toNat h3]; exact h5
    · rw [e2]; exact u256_ofNat_toNat h4
    · rw [u256_ofNat_toNat h4]; exact h6
    · rw [u256_ofNat_toNat (by have := amount.isLt; omega)]; omega
    · rw [u256_ofNat_toNat (by have := amount.isLt; omega)]; omega

/-- The split is always possible arithmetically: `floor` parts never exceed the amount. -/
theorem fee_parts_le (amount pb sb : Nat) (h : pb ≤ 10000) :
    amount * pb / 10000 + amount * cappedStakerBips pb sb / 10000 ≤ amount := by
  have hcap : cappedStakerBips pb sb ≤ 10000 - pb := Nat.min_le_right _ _
  have h1 : amount * pb / 10000 + amount * cappedStakerBips pb sb / 10000 ≤
      (amount * pb + amount * cappedStakerBips pb sb) / 10000 := by omega
  have h2 : amount * pb + amount * cappedStakerBips pb sb ≤ amount * 10000 := by
    rw [← Nat.mul_add]; exact Nat.mul_le_mul_left _ (by omega)
  have h3 : (amount * pb + amount * cappedStakerBips pb sb) / 10000 ≤ amount := by
    apply Nat.div_le_of_le_mul; omega
  omega

end Verif
