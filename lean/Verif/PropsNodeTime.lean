import Verif.PropsNode
import Verif.F64Proofs
/-
# C86: the bidder's time estimate
-/

namespace Verif.Node
open F64

/-- The bidder's estimate `((request.gas_limit as f64) / self.throughput) as u64`,
`crates/node/core/src/serial.rs:196`. -/
def estimate (throughput : F64) (gasLimit : U64) : U64 := (F64.div (F64.ofU64 gasLimit) throughput).toU64

/-! ## Rounding of the estimate -/

theorem one_pos : 0 < one := by unfold one; exact Nat.two_pow_pos _

theorem ofU64_eq (g : U64) : F64.ofU64 g = .fin false (nearest (g.toNat * one) 1) := by
  unfold F64.ofU64 F64.round
  rw [if_pos]
  have h1 : nearest (2 ^ 64 * one) 1 < 2 ^ 1024 * one := by decide +kernel
  refine Nat.lt_of_le_of_lt (nearest_mono Nat.one_pos Nat.one_pos ?_) h1
  rw [Nat.mul_one, Nat.mul_one]
  exact Nat.mul_le_mul_right _ (Nat.le_of_lt g.isLt)

/-- Both roundings of the estimate. -/
theorem estimate_eq (t : Nat) (ht : 0 < t) (g : U64) :
    (estimate (.fin false t) g).toNat = min (nearest (nearest (g.toNat * one) 1 * one) t / one) (2 ^ 64 - 1) := by
  unfold estimate
  rw [ofU64_eq]
  show (F64.toU64 (if t = 0 then _ else F64.round (false != false) _ t)).toNat = _
  rw [if_neg (by omega)]
  unfold F64.round
  split
  · show (BitVec.ofNat 64 _).toNat = _
    rw [BitVec.toNat_ofNat, Nat.mod_eq_of_lt]
    have := Nat.min_le_right (nearest (nearest (g.toNat * one) 1 * one) t / one) (2 ^ 64 - 1)
    omega
  · rename_i h
    show (BitVec.ofNat 64 (2 ^ 64 - 1)).toNat = _
    rw [Nat.min_eq_right, BitVec.toNat_ofNat]
    rw [Nat.le_div_iff_mul_le one_pos]
    have h2 : (2 ^ 64 - 1) * one ≤ 2 ^ 1024 * one := Nat.mul_le_mul_right _ (by decide +kernel)
    omega

theorem gas_bounds (g : Nat) :
    2 ^ 53 * nearest (g * one) 1 ≤ 2 ^ 53 * (g * one) + g * one ∧
    2 ^ 53 * (g * one) ≤ 2 ^ 53 * nearest (g * one) 1 + g * one := by
  rcases Nat.eq_zero_or_pos g with rfl | h
  · have : nearest (0 * one) 1 = 0 := by decide +kernel
    rw [this]; omega
  · have h1 : 2 ^ 52 ≤ one := by decide +kernel
    have h2 : 1 * one ≤ g * one := Nat.mul_le_mul_right _ h
    have := nearest_normal (g * one) 1 Nat.one_pos (by omega)
    rwa [Nat.one_mul] at this

theorem estimate_ge {t : Nat} (ht : 0 < t) {g : U64} {r : Nat} (hr : r + 1 < 2 ^ 64) (h : (estimate (.fin false t) g).toNat ≤ r) :
    (2 ^ 52 - 1) * (g.toNat * one) ≤ 2 ^ 52 * ((r + 1) * t) := by
  rw [estimate_eq t ht] at h
  have h1 : nearest (nearest (g.toNat * one) 1 * one) t / one < r + 1 := by omega
  rw [Nat.div_lt_iff_lt_mul one_pos] at h1
  obtain ⟨_, a⟩ := gas_bounds g.toNat
  generalize g.toNat * one = G at *
  generalize nearest G 1 = n at *
  obtain ⟨_, b⟩ := nearest_rel (n * one) t ht
  generalize nearest (n * one) t = m at *
  have c : t * (m + 1) ≤ t * ((r + 1) * one) := Nat.mul_le_mul_left t h1
  have hp := one_pos
  generalize one = o at *
  have d : (2 ^ 53 - 1) * (n * o) ≤ 2 ^ 53 * (o * ((r + 1) * t)) := by
    have e1 : t * ((r + 1) * o) = o * ((r + 1) * t) := by grind
    rw [Nat.mul_add, e1] at c
    omega
  have d' : (2 ^ 53 - 1) * n ≤ 2 ^ 53 * ((r + 1) * t) := by
    apply Nat.le_of_mul_le_mul_left _ hp
    have e1 : o * ((2 ^ 53 - 1) * n) = (2 ^ 53 - 1) * (n * o) := by grind
    have e2 : o * (2 ^ 53 * ((r + 1) * t)) = 2 ^ 53 * (o * ((r + 1) * t)) := by grind
    omega
  omega

theorem estimate_le {t : Nat} (ht : 0 < t) {g : U64} {r : Nat} (hr : r < 2 ^ 51) (h : g.toNat * one ≤ r * t) :
    (estimate (.fin false t) g).toNat ≤ r := by
  rw [estimate_eq t ht]
  refine Nat.le_trans (Nat.min_le_left _ _) ?_
  refine Nat.le_of_lt_succ ?_
  rw [Nat.div_lt_iff_lt_mul one_pos]
  obtain ⟨a, _⟩ := gas_bounds g.toNat
  generalize g.toNat * one = G at *
  generalize nearest G 1 = n at *
  obtain ⟨b, _⟩ := nearest_rel (n * one) t ht
  generalize nearest (n * one) t = m at *
  have hp : 4 ≤ one := by decide +kernel
  generalize one = o at *
  have d : 2 ^ 53 * (n * o) ≤ (2 ^ 53 + 1) * (r * t * o) := by
    have h1 : 2 ^ 53 * n ≤ (2 ^ 53 + 1) * (r * t) := by omega
    have := Nat.mul_le_mul_right o h1
    rwa [Nat.mul_assoc, Nat.mul_assoc] at this
  have e : 2 ^ 106 * (t * m) ≤ (2 ^ 53 + 1) * ((2 ^ 53 + 1) * (r * t * o)) + 2 ^ 105 * t := by omega
  have f : 2 ^ 106 * m ≤ (2 ^ 53 + 1) * ((2 ^ 53 + 1) * (r * o)) + 2 ^ 105 := by
    apply Nat.le_of_mul_le_mul_left _ ht
    have e1 : t * (2 ^ 106 * m) = 2 ^ 106 * (t * m) := by grind
    have e2 : t * ((2 ^ 53 + 1) * ((2 ^ 53 + 1) * (r * o)) + 2 ^ 105) =
      (2 ^ 53 + 1) * ((2 ^ 53 + 1) * (r * t * o)) + 2 ^ 105 * t := by grind
    omega
  have k : r * o ≤ (2 ^ 51 - 1) * o := Nat.mul_le_mul_right o (by omega)
  have e1 : (r + 1) * o = r * o + o := by grind
  show m < (r + 1) * o
  rw [e1]
  generalize r * o = x at *
  omega

/-! ## C86 -/

/-- **C86, bids are for work that can be done in time.** A node with throughput `t / 2^1074` that bids has just been
told the details of that request and the time, and its gas limit is no more than what it proves in the time left and
one second, up to one part in 2^52. -/
theorem c86_in_time {t : Nat} (ht : 0 < t) (cfg : Config) (w : World) (r : Retry.Outcome Unit) (log : List Query)
    (hc : cfg.requiredTime = estimate (.fin false t)) (h : bidRound cfg w [] = (r, log)) (pre post : List Query)
    (b : Signed BidBody) (hb : log = pre ++ .bid b :: post) :
    ∃ pre' id d left, pre = pre' ++ [.getNonce (Address.bytes cfg.signer), .details id, .now] ∧
      (∃ body, b.body = some body ∧ body.requestId = id) ∧
      w.details (pre' ++ [.getNonce (Address.bytes cfg.signer)]) id = .ok (some d) ∧
      left = d.deadline.toNat - (w.now (pre' ++ [.getNonce (Address.bytes cfg.signer), .details id])).toNat ∧
      (left + 1 < 2 ^ 64 → (2 ^ 52 - 1) * (d.gasLimit.toNat * one) ≤ 2 ^ 52 * ((left + 1) * t)) := by
  obtain ⟨owner, t1, t2, req, pre', nonce, d, amount, _, _, _, h1, _, h2, h3, h4, _⟩ := c52_bids cfg w r log h pre post b hb
  rw [hc] at h3
  exact ⟨pre', req.requestId, d, _, h1, ⟨_, h4, rfl⟩, h2, rfl, fun hl => estimate_ge ht hl h3⟩

/-- **C86, no opportunity is missed.** If the node has no assigned request, exactly one open request is returned, the
first attempt learns nonce, details and time, and the node can prove the gas limit in the time left (less than 2^51
seconds), then it bids. -/
theorem c86_does_bid {t : Nat} (ht : 0 < t) (cfg : Config) (w : World) (r : Retry.Outcome Unit) (log : List Query)
    (hc : cfg.requiredTime = estimate (.fin false t)) (h : bidRound cfg w [] = (r, log))
    (owner : Bytes) (t1 t2 : U64) (req d : Req) (nonce : U64) (left : Nat)
    (ho : w.owner [] (Address.bytes cfg.signer) = .ok owner)
    (ht1 : w.now ((bidHeader cfg owner t1 t2).take 1) = t1) (ht2 : w.now ((bidHeader cfg owner t1 t2).take 3) = t2)
    (ha : w.filtered ((bidHeader cfg owner t1 t2).take 2) (assignedFilter owner t1) = .ok [])
    (hu : w.filtered ((bidHeader cfg owner t1 t2).take 4) (openFilter owner t2) = .ok [req])
    (hn : w.nonce (bidHeader cfg owner t1 t2) (Address.bytes cfg.signer) = .ok nonce)
    (hd : w.details (bidHeader cfg owner t1 t2 ++ [.getNonce (Address.bytes cfg.signer)]) req.requestId = .ok (some d))
    (hleft : left = d.deadline.toNat -
      (w.now (bidHeader cfg owner t1 t2 ++ [.getNonce (Address.bytes cfg.signer), .details req.requestId])).toNat)
    (hsmall : left < 2 ^ 51) (hcan : d.gasLimit.toNat * one ≤ left * t) :
    ∃ b post, log = bidHeader cfg owner t1 t2 ++
      [.getNonce (Address.bytes cfg.signer), .details req.requestId, .now] ++ .bid b :: post := by
  refine c52_does_bid cfg w r log h owner t1 t2 req d nonce ho ht1 ht2 ha hu hn hd ?_
  rw [hc, ← hleft]
  exact estimate_le ht hsmall hcan

/-- **C86, throughputs that are not positive.** With a throughput that is no number, negative or infinite the estimate
is 0 seconds for every request, so every request is bid on; with throughput 0 it is 2^64 - 1 seconds. -/
theorem c86_degenerate (g : U64) :
    estimate .nan g = 0 ∧ (∀ s, estimate (.inf s) g = 0) ∧ (∀ t, 0 < t → estimate (.fin true t) g = 0) ∧
    (g ≠ 0 → (estimate (.fin false 0) g).toNat = 2 ^ 64 - 1) := by
  unfold estimate
  rw [ofU64_eq]
  refine ⟨rfl, fun s => ?_, fun t ht => ?_, fun hg => ?_⟩
  · show F64.toU64 (.fin (false != s) 0) = 0
    cases s
    · show BitVec.ofNat 64 (min (0 / one) (2 ^ 64 - 1)) = 0
      rw [Nat.zero_div]; rfl
    · rfl
  · show F64.toU64 (if t = 0 then _ else F64.round (false != true) _ t) = 0
    rw [if_neg (by omega)]
    unfold F64.round
    split <;> rfl
  · have hn : nearest (g.toNat * one) 1 ≠ 0 := by
      have h1 : 0 < g.toNat := Nat.pos_of_ne_zero fun e => hg (BitVec.eq_of_toNat_eq e)
      obtain ⟨_, a⟩ := gas_bounds g.toNat
      have := Nat.mul_pos h1 one_pos
      omega
    generalize nearest (g.toNat * one) 1 = n at *
    have : F64.div (.fin false n) (.fin false 0) = .inf false := by simp [F64.div, hn]
    rw [this]
    rfl

/-- **C86, with such a throughput everything is bid on.** A node whose throughput is no number, infinite or negative
bids on the request it is offered whatever its gas limit and deadline, even if the deadline has passed. -/
theorem c86_bids_on_all {f : F64} (hf : f = .nan ∨ (∃ s, f = .inf s) ∨ ∃ t, 0 < t ∧ f = .fin true t)
    (cfg : Config) (w : World) (r : Retry.Outcome Unit) (log : List Query)
    (hc : cfg.requiredTime = estimate f) (h : bidRound cfg w [] = (r, log))
    (owner : Bytes) (t1 t2 : U64) (req d : Req) (nonce : U64)
    (ho : w.owner [] (Address.bytes cfg.signer) = .ok owner)
    (ht1 : w.now ((bidHeader cfg owner t1 t2).take 1) = t1) (ht2 : w.now ((bidHeader cfg owner t1 t2).take 3) = t2)
    (ha : w.filtered ((bidHeader cfg owner t1 t2).take 2) (assignedFilter owner t1) = .ok [])
    (hu : w.filtered ((bidHeader cfg owner t1 t2).take 4) (openFilter owner t2) = .ok [req])
    (hn : w.nonce (bidHeader cfg owner t1 t2) (Address.bytes cfg.signer) = .ok nonce)
    (hd : w.details (bidHeader cfg owner t1 t2 ++ [.getNonce (Address.bytes cfg.signer)]) req.requestId = .ok (some d)) :
    ∃ b post, log = bidHeader cfg owner t1 t2 ++
      [.getNonce (Address.bytes cfg.signer), .details req.requestId, .now] ++ .bid b :: post := by
  refine c52_does_bid cfg w r log h owner t1 t2 req d nonce ho ht1 ht2 ha hu hn hd ?_
  obtain ⟨h1, h2, h3, _⟩ := c86_degenerate d.gasLimit
  have he : estimate f d.gasLimit = 0 := by
    rcases hf with rfl | ⟨s, rfl⟩ | ⟨t, ht, rfl⟩
    · exact h1
    · exact h2 s
    · exact h3 t ht
  rw [hc, he]
  exact Nat.zero_le _

/-- The node of the demo with another estimate. -/
def demoAt (f : U64 → U64) : Config := { demoConfig with requiredTime := f }

/-- Witness: the node of the demo, with a throughput of five units of gas per second or more, has 100 seconds for 500
units and bids. -/
example (t : Nat) (ht : 5 * one ≤ t) (f : U64 → U64) (hf : f = estimate (.fin false t)) :
    ∃ b post, (bidRound (demoAt f) demoWorld []).2 =
      bidHeader demoConfig (Address.bytes 3) 900 900 ++ [.getNonce (Address.bytes 3), .details [1, 2], .now] ++
        .bid b :: post :=
  c86_does_bid (t := t) (by have := one_pos; omega) (demoAt f) demoWorld _ _ (show (demoAt f).requiredTime = _ from hf)
    rfl (Address.bytes 3) 900 900 demoReq demoReq 4 100 rfl rfl rfl rfl rfl rfl rfl
    (show 100 = (1000 : U64).toNat - (900 : U64).toNat by decide) (by decide) (by
      have : demoReq.gasLimit.toNat = 500 := rfl
      rw [this]
      omega)

/-- Witness: with a throughput that is not a number it bids as well. -/
example (f : U64 → U64) (hf : f = estimate .nan) :
    ∃ b post, (bidRound (demoAt f) demoWorld []).2 =
      bidHeader demoConfig (Address.bytes 3) 900 900 ++ [.getNonce (Address.bytes 3), .details [1, 2], .now] ++
        .bid b :: post :=
  c86_bids_on_all (.inl rfl) (demoAt f) demoWorld _ _ (show (demoAt f).requiredTime = _ from hf)
    rfl (Address.bytes 3) 900 900 demoReq demoReq 4 rfl rfl rfl rfl rfl rfl rfl

/-- Witness: the estimate truncates, so five units at ten per second are taken to need no time. -/
example : estimate (.fin false (10 * one)) 5 = 0 ∧ estimate (.fin false (10 * one)) 500 = 50 ∧
    estimate (.fin false (one / 2)) 3 = 6 := by decide +kernel

end Verif.Node
