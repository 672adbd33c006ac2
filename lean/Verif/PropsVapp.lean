import Verif.L1VappInv
import Verif.ToyL1
/-
# Properties of the vApp contract: C34, C35, C36

Specification vocabulary (besides the contract functions themselves):
`runCalls cfg w h` is the world after the calls `h`, where a reverting call has no effect;
`onchainOf rs` are the receipts of `rs` with an on-chain id (not 2^64-1).
-/

namespace Verif
open L1

/-! ## C34: the root chain -/

/-- An accepted step adds exactly one block on top of the latest root. -/
theorem c34_step {cfg : Cfg} {c : Ctx} {pv pr : Bytes} {w w' : World}
    (h : exec cfg c (.step pv pr) w = .ok ((), w')) :
    ∃ v, StepValues.decode pv = some v ∧
      w'.vapp.blockNumber.toNat = w.vapp.blockNumber.toNat + 1 ∧
      v.oldRoot = w.vapp.roots w.vapp.blockNumber ∧
      w'.vapp.roots w'.vapp.blockNumber = v.newRoot ∧ v.newRoot ≠ 0 ∧
      w'.vapp.timestamps w'.vapp.blockNumber = v.timestamp ∧
      (w.vapp.timestamps w.vapp.blockNumber).toNat ≤ v.timestamp.toNat ∧
      v.timestamp.toNat ≤ c.now ∧ c.now ≤ v.timestamp.toNat + 3600 ∧
      ∀ b, b ≠ w'.vapp.blockNumber →
        w'.vapp.roots b = w.vapp.roots b ∧ w'.vapp.timestamps b = w.vapp.timestamps b := by
  obtain ⟨x, h⟩ := drop_ok.mp h
  obtain ⟨_, _, _, v, h1, h2, h3, h4, h5, h6, h7, _, hr⟩ := vappStep_ok h
  obtain ⟨⟨f, t, e⟩, _⟩ := handleReceipts_ok hr
  rw [e]
  refine ⟨v, h1, inc_toNat h7, h3.symm, upd_same _ _ _, h2, upd_same _ _ _, h5, h4, by omega, ?_⟩
  intro b hb
  exact ⟨upd_ne _ _ hb, upd_ne _ _ hb⟩

/-- No other call but the owner's `fork` touches the chain. -/
theorem c34_only_step_or_fork {cfg : Cfg} {c : Ctx} {k : Call} {w w' : World}
    (h : exec cfg c k w = .ok ((), w')) (hs : ∀ pv pr, k ≠ .step pv pr) (hf : ∀ a b, k ≠ .fork a b) :
    w'.vapp.blockNumber = w.vapp.blockNumber ∧ w'.vapp.roots = w.vapp.roots ∧
      w'.vapp.timestamps = w.vapp.timestamps := by
  rcases exec_vapp_cases h with ⟨_, _, _, _, e⟩ | ⟨v, d, _, _, e⟩ | ⟨pv, pr, x, e, _⟩ | ⟨a, b, x, e, _⟩ | ⟨_, _, e⟩
  · rw [e]; exact ⟨rfl, rfl, rfl⟩
  · rw [e]; exact ⟨rfl, rfl, rfl⟩
  · exact absurd e (hs _ _)
  · exact absurd e (hf _ _)
  · exact ⟨e.2.1, e.2.2.2.2.1, e.2.2.2.2.2.1⟩

/-- A fork, too, adds exactly one block. -/
theorem c34_fork {cfg : Cfg} {c : Ctx} {k r : B256} {w w' : World}
    (h : exec cfg c (.fork k r) w = .ok ((), w')) :
    w'.vapp.blockNumber.toNat = w.vapp.blockNumber.toNat + 1 ∧
      w'.vapp.roots w'.vapp.blockNumber = r ∧ r ≠ 0 ∧
      ∀ b, b ≠ w'.vapp.blockNumber →
        w'.vapp.roots b = w.vapp.roots b ∧ w'.vapp.timestamps b = w.vapp.timestamps b := by
  obtain ⟨x, h⟩ := drop_ok.mp h
  obtain ⟨_, _, h2, h3, rfl⟩ := vappFork_ok h
  exact ⟨inc_toNat h3, upd_same _ _ _, h2, fun b hb => ⟨upd_ne _ _ hb, upd_ne _ _ hb⟩⟩

/-- `w'` extends the chain of `w`. -/
def Extends (w w' : World) : Prop :=
  w.vapp.blockNumber.toNat ≤ w'.vapp.blockNumber.toNat ∧
  ∀ b : U64, b.toNat ≤ w.vapp.blockNumber.toNat →
    w'.vapp.roots b = w.vapp.roots b ∧ w'.vapp.timestamps b = w.vapp.timestamps b

theorem Extends.pre : Pre Extends where
  refl _ := ⟨Nat.le_refl _, fun _ _ => ⟨rfl, rfl⟩⟩
  trans a b c h1 h2 := by
    refine ⟨Nat.le_trans h1.1 h2.1, fun x hx => ?_⟩
    have i1 := h1.2 x hx
    have i2 := h2.2 x (Nat.le_trans hx h1.1)
    exact ⟨i2.1.trans i1.1, i2.2.trans i1.2⟩

theorem exec_extends {cfg : Cfg} (c : Ctx) (k : Call) : Within Extends (exec cfg c k) := by
  intro w _ w' h
  have key : (∃ pv pr, k = .step pv pr) ∨ (∃ a b, k = .fork a b) ∨
      ((∀ pv pr, k ≠ .step pv pr) ∧ ∀ a b, k ≠ .fork a b) := by
    cases k <;> simp
  rcases key with ⟨pv, pr, rfl⟩ | ⟨a, b, rfl⟩ | ⟨h1, h2⟩
  · obtain ⟨v, _, hb, _, _, _, _, _, _, _, ho⟩ := c34_step h
    refine ⟨by omega, fun b hbb => ho b (fun e => ?_)⟩
    rw [e] at hbb; omega
  · obtain ⟨hb, _, _, ho⟩ := c34_fork h
    refine ⟨by omega, fun b hbb => ho b (fun e => ?_)⟩
    rw [e] at hbb; omega
  · obtain ⟨e1, e2, e3⟩ := c34_only_step_or_fork h h1 h2
    refine ⟨by rw [e1]; exact Nat.le_refl _, fun b _ => ?_⟩
    rw [e2, e3]; exact ⟨rfl, rfl⟩

/-- Over every history of calls by arbitrary callers, the roots and timestamps of existing blocks never
change. -/
theorem c34_history (cfg : Cfg) (w : World) (h : List (Ctx × Call)) :
    w.vapp.blockNumber.toNat ≤ (runCalls cfg w h).vapp.blockNumber.toNat ∧
    ∀ b : U64, b.toNat ≤ w.vapp.blockNumber.toNat →
      (runCalls cfg w h).vapp.roots b = w.vapp.roots b ∧
      (runCalls cfg w h).vapp.timestamps b = w.vapp.timestamps b :=
  runCalls_within Extends.pre exec_extends h w

/-- In every reachable world exactly the blocks up to the current one have a (non-zero) root. -/
theorem c34_roots_set {cfg : Cfg} {w : World} (h : Reachable cfg w) (b : U64) :
    w.vapp.roots b ≠ 0 ↔ b.toNat ≤ w.vapp.blockNumber.toNat := by
  revert b
  refine reachable_induction (P := fun w => ∀ b : U64, w.vapp.roots b ≠ 0 ↔ b.toNat ≤ w.vapp.blockNumber.toNat)
    ?_ ?_ w h
  · intro w hg b
    have hb := hg.vapp_ids.1
    rw [hb]
    by_cases h0 : b = 0
    · subst h0; exact ⟨fun _ => Nat.le_refl _, fun _ => hg.vapp_root.1⟩
    · have : b.toNat ≠ 0 := fun e => h0 (BitVec.eq_of_toNat_eq (by simpa using e))
      simp [hg.vapp_root.2 b h0]; omega
  · intro w c k w' ih _ h b
    have key : (∃ pv pr, k = .step pv pr) ∨ (∃ a b, k = .fork a b) ∨
        ((∀ pv pr, k ≠ .step pv pr) ∧ ∀ a b, k ≠ .fork a b) := by
      cases k <;> simp
    have one : ∀ r : B256, r ≠ 0 → w'.vapp.blockNumber.toNat = w.vapp.blockNumber.toNat + 1 →
        w'.vapp.roots w'.vapp.blockNumber = r →
        (∀ b, b ≠ w'.vapp.blockNumber →
          w'.vapp.roots b = w.vapp.roots b ∧ w'.vapp.timestamps b = w.vapp.timestamps b) →
        (w'.vapp.roots b ≠ 0 ↔ b.toNat ≤ w'.vapp.blockNumber.toNat) := by
      intro r hr hb hroot ho
      by_cases e : b = w'.vapp.blockNumber
      · rw [e, hroot]; exact ⟨fun _ => Nat.le_refl _, fun _ => hr⟩
      · rw [(ho b e).1, ih b]
        have : b.toNat ≠ w'.vapp.blockNumber.toNat := fun x => e (BitVec.eq_of_toNat_eq x)
        omega
    rcases key with ⟨pv, pr, rfl⟩ | ⟨a, b, rfl⟩ | ⟨h1, h2⟩
    · obtain ⟨v, _, hb, _, hr, hn, _, _, _, _, ho⟩ := c34_step h
      exact one _ hn hb hr ho
    · obtain ⟨hb, hr, hn, ho⟩ := c34_fork h
      exact one _ hn hb hr ho
    · obtain ⟨e1, e2, _⟩ := c34_only_step_or_fork h h1 h2
      rw [e1, e2]; exact ih b

/-- The block times of a history do not decrease and fit 64 bits. -/
def Timed (h : List (Ctx × Call)) : Prop :=
  (h.map (fun x => x.1.now)).Pairwise (· ≤ ·) ∧ ∀ x ∈ h, x.1.now < 2 ^ 64

/-- The timestamps of the chain do not decrease, and the last is at most `T`. -/
def TimesOk (T : Nat) (w : World) : Prop :=
  (∀ a b : U64, a.toNat ≤ b.toNat → b.toNat ≤ w.vapp.blockNumber.toNat →
    (w.vapp.timestamps a).toNat ≤ (w.vapp.timestamps b).toNat) ∧
  (w.vapp.timestamps w.vapp.blockNumber).toNat ≤ T

theorem TimesOk.extend {T T' : Nat} {w w' : World} {ts : U64} (ih : TimesOk T w) (hT : ts.toNat ≤ T')
    (hge : (w.vapp.timestamps w.vapp.blockNumber).toNat ≤ ts.toNat)
    (hb : w'.vapp.blockNumber.toNat = w.vapp.blockNumber.toNat + 1)
    (hts : w'.vapp.timestamps w'.vapp.blockNumber = ts)
    (ho : ∀ b, b ≠ w'.vapp.blockNumber → w'.vapp.timestamps b = w.vapp.timestamps b) : TimesOk T' w' := by
  refine ⟨fun a b hab hbb => ?_, by rw [hts]; exact hT⟩
  by_cases eb : b = w'.vapp.blockNumber
  · subst eb
    rw [hts]
    by_cases ea : a = w'.vapp.blockNumber
    · rw [ea, hts]; exact Nat.le_refl _
    · rw [ho a ea]
      have : a.toNat ≠ w'.vapp.blockNumber.toNat := fun x => ea (BitVec.eq_of_toNat_eq x)
      exact Nat.le_trans (ih.1 a _ (by omega) (Nat.le_refl _)) hge
  · have hb' : b.toNat ≠ w'.vapp.blockNumber.toNat := fun x => eb (BitVec.eq_of_toNat_eq x)
    have ea : a ≠ w'.vapp.blockNumber := by rintro rfl; omega
    rw [ho a ea, ho b eb]
    exact ih.1 a b hab (by omega)

/-- Timestamps never decrease along the chain, for every history with a non-decreasing clock. -/
theorem c34_timestamps {cfg : Cfg} {w₀ : World} (hg : Genesis cfg w₀) (h : List (Ctx × Call)) (ht : Timed h)
    (a b : U64) (hab : a.toNat ≤ b.toNat) (hb : b.toNat ≤ (runCalls cfg w₀ h).vapp.blockNumber.toNat) :
    ((runCalls cfg w₀ h).vapp.timestamps a).toNat ≤ ((runCalls cfg w₀ h).vapp.timestamps b).toNat := by
  have main : ∀ (h : List (Ctx × Call)) (w : World) (T : Nat), TimesOk T w → Timed h → (∀ x ∈ h, T ≤ x.1.now) →
      ∃ T', TimesOk T' (runCalls cfg w h) := by
    intro h
    induction h with
    | nil => intro w T hw _ _; exact ⟨T, hw⟩
    | cons x h ih =>
      intro w T hw ht hT
      obtain ⟨ht1, ht2⟩ := ht
      rw [List.map_cons, List.pairwise_cons] at ht1
      refine ih (call cfg x.1 x.2 w) x.1.now ?_ ⟨ht1.2, fun y hy => ht2 y (List.mem_cons_of_mem _ hy)⟩
        (fun y hy => ht1.1 _ (List.mem_map_of_mem hy))
      have hT0 := hT x (List.mem_cons_self ..)
      have hle : TimesOk x.1.now w := ⟨hw.1, Nat.le_trans hw.2 hT0⟩
      rcases call_ok (cfg := cfg) (c := x.1) (k := x.2) (w := w) with ⟨w', h1, h2⟩ | ⟨_, h2⟩
      · rw [h2]
        have key : (∃ pv pr, x.2 = .step pv pr) ∨ (∃ a b, x.2 = .fork a b) ∨
            ((∀ pv pr, x.2 ≠ .step pv pr) ∧ ∀ a b, x.2 ≠ .fork a b) := by
          cases x.2 <;> simp
        rcases key with ⟨pv, pr, e⟩ | ⟨a, b, e⟩ | ⟨n1, n2⟩
        · rw [e] at h1
          obtain ⟨v, _, hb, _, _, _, hts, hge, hn, _, ho⟩ := c34_step h1
          exact hw.extend hn hge hb hts (fun b hb => (ho b hb).2)
        · rw [e] at h1
          obtain ⟨hb, _, _, ho⟩ := c34_fork h1
          obtain ⟨_, h3⟩ := drop_ok.mp h1
          obtain ⟨_, _, _, _, e4⟩ := vappFork_ok h3
          have hnow : (BitVec.ofNat 64 x.1.now).toNat = x.1.now := by
            rw [BitVec.toNat_ofNat]; exact Nat.mod_eq_of_lt (ht2 x (List.mem_cons_self ..))
          refine hw.extend (ts := BitVec.ofNat 64 x.1.now) (by rw [hnow]; exact Nat.le_refl _)
            (by rw [hnow]; exact Nat.le_trans hw.2 hT0) hb ?_ (fun b hb => (ho b hb).2)
          rw [e4]; exact upd_same _ _ _
        · obtain ⟨e1, _, e3⟩ := c34_only_step_or_fork h1 n1 n2
          unfold TimesOk
          rw [e1, e3]; exact hle
      · rw [h2]; exact hle
  obtain ⟨T', hT'⟩ := main h w₀ 0 ⟨fun a b _ _ => by rw [hg.vapp_maps.1]; exact Nat.le_refl _,
    by rw [hg.vapp_maps.1]; exact Nat.le_refl _⟩ ht (fun _ _ => Nat.zero_le _)
  exact hT'.1 a b hab hb

/-! ## C35: the queue of on-chain transactions -/

/-- The transactions queued by the accepted calls of a history, in order. -/
def queueLog (cfg : Cfg) : World → List (Ctx × Call) → List (TxVariant × Bytes)
  | _, [] => []
  | w, x :: h =>
    (match exec cfg x.1 x.2 w with
      | .ok _ => (x.2.queues cfg x.1 w).toList
      | .error _ => []) ++ queueLog cfg (call cfg x.1 x.2 w) h

/-- The on-chain receipts a call delivers if it is accepted. -/
def Call.receipts : Call → List SolReceipt
  | .step pv _ =>
    match StepValues.decode pv with
    | some v => onchainOf v.receipts
    | none => []
  | _ => []

/-- The on-chain receipts of the accepted steps of a history, in order. -/
def receiptLog (cfg : Cfg) : World → List (Ctx × Call) → List SolReceipt
  | _, [] => []
  | w, x :: h =>
    (match exec cfg x.1 x.2 w with
      | .ok _ => x.2.receipts
      | .error _ => []) ++ receiptLog cfg (call cfg x.1 x.2 w) h

/-- The entry of the transaction table that the two logs call for: queued data under consecutive ids from
1, pending until the receipt with the same position arrives, then with its status. -/
def queueEntry (Q : List (TxVariant × Bytes)) (F : List SolReceipt) (i : U64) : SolTransaction :=
  if i = 0 then SolTransaction.unset
  else match Q[i.toNat - 1]? with
    | none => SolTransaction.unset
    | some q => ⟨q.1, (F[i.toNat - 1]?.map (·.status)).getD .pending, i, q.2⟩

/-- The queue agrees with the logs. -/
def QueueOk (w : World) (Q : List (TxVariant × Bytes)) (F : List SolReceipt) : Prop :=
  w.vapp.currentOnchainTxId.toNat = Q.length ∧
  w.vapp.finalizedOnchainTxId.toNat = F.length ∧
  F.length ≤ Q.length ∧
  (∀ j r, F[j]? = some r → r.onchainTxId.toNat = j + 1 ∧ (r.status = .completed ∨ r.status = .reverted) ∧
    ∃ q, Q[j]? = some q ∧ q.1 = r.variant ∧ SameAction r.variant q.2 r.action) ∧
  (∀ i, w.vapp.transactions i = queueEntry Q F i)

theorem QueueOk.of_same {w w' : World} {Q F} (h : QueueOk w Q F)
    (h1 : w'.vapp.currentOnchainTxId = w.vapp.currentOnchainTxId)
    (h2 : w'.vapp.finalizedOnchainTxId = w.vapp.finalizedOnchainTxId)
    (h3 : w'.vapp.transactions = w.vapp.transactions) : QueueOk w' Q F := by
  unfold QueueOk at *
  rw [h1, h2, h3]; exact h

theorem QueueOk.queue {w w' : World} {Q F} {v : TxVariant} {d : Bytes} (h : QueueOk w Q F)
    (hq : Queued w w' v d) : QueueOk w' (Q ++ [(v, d)]) F := by
  obtain ⟨h1, h2, h3, h4, h5⟩ := h
  obtain ⟨hlt, e⟩ := hq
  have hid := inc_toNat hlt
  refine ⟨?_, ?_, ?_, ?_, ?_⟩
  · rw [e]; simp only [hid, h1, List.length_append, List.length_singleton]
  · rw [e]; exact h2
  · simp only [List.length_append]; omega
  · intro j r hr
    obtain ⟨a, b, q, hq, hv⟩ := h4 j r hr
    refine ⟨a, b, q, ?_, hv⟩
    rw [List.getElem?_append_left (List.getElem?_eq_some_iff.mp hq).1]; exact hq
  · intro i
    rw [e]
    show upd w.vapp.transactions (w.vapp.currentOnchainTxId + 1) _ i = _
    unfold queueEntry
    by_cases hi : i = w.vapp.currentOnchainTxId + 1
    · have hi' : i.toNat = Q.length + 1 := by rw [hi, hid, h1]
      have h0 : i ≠ 0 := by rintro rfl; simp at hi'
      rw [hi, upd_same, if_neg (hi ▸ h0), ← hi, hi']
      have hF : F[Q.length]? = none := List.getElem?_eq_none h3
      simp [hF]
    · rw [upd_ne _ _ hi, h5 i]
      unfold queueEntry
      by_cases h0 : i = 0
      · rw [if_pos h0, if_pos h0]
      · rw [if_neg h0, if_neg h0]
        have hne : i.toNat ≠ Q.length + 1 := by
          intro x; apply hi; apply BitVec.eq_of_toNat_eq; rw [hid, h1, x]
        have h0' : i.toNat ≠ 0 := fun x => h0 (BitVec.eq_of_toNat_eq (by simpa using x))
        by_cases hlt : i.toNat - 1 < Q.length
        · rw [List.getElem?_append_left hlt]
        · have e1 : Q[i.toNat - 1]? = none := List.getElem?_eq_none (by omega)
          have e2 : (Q ++ [(v, d)])[i.toNat - 1]? = none :=
            List.getElem?_eq_none (by rw [List.length_append, List.length_singleton]; omega)
          rw [e1, e2]

theorem decAccountAmount_nil : decAccountAmount [] = none := by decide

theorem QueueOk.finalise {w w' : World} {cfg : Cfg} {c : Ctx} {Q F} {rs : List SolReceipt} (h : QueueOk w Q F)
    (hr : handleReceipts cfg c rs w = .ok ((), w')) : QueueOk w' Q (F ++ onchainOf rs) := by
  obtain ⟨⟨f, t, e⟩, i2, i3, i4⟩ := handleReceipts_ok hr
  obtain ⟨h1, h2, h3, h4, h5⟩ := h
  -- every receipt refers to a queued transaction
  have hin : ∀ j r, (onchainOf rs)[j]? = some r → F.length + j < Q.length ∧ r.onchainTxId ≠ 0 ∧
      r.onchainTxId.toNat - 1 = F.length + j := by
    intro j r hjr
    obtain ⟨a1, _, a3, a4, _⟩ := i3 j r hjr
    have hid0 : r.onchainTxId ≠ 0 := by
      intro e; rw [e] at a1; exact absurd a1 (by rw [show (0 : U64).toNat = 0 from rfl]; omega)
    have hsub : r.onchainTxId.toNat - 1 = F.length + j := by omega
    refine ⟨?_, hid0, hsub⟩
    apply Classical.byContradiction
    intro hge
    have hun : w.vapp.transactions r.onchainTxId = SolTransaction.unset := by
      rw [h5]; unfold queueEntry
      rw [if_neg hid0, List.getElem?_eq_none (by omega)]
    rw [hun] at a3 a4
    rw [← show TxVariant.deposit = r.variant from a3] at a4
    obtain ⟨d, hd, _⟩ := a4
    rw [show SolTransaction.unset.action = [] from rfl, decAccountAmount_nil] at hd
    exact nomatch hd
  have hlen : F.length + (onchainOf rs).length ≤ Q.length := by
    cases hn : (onchainOf rs).length with
    | zero => exact h3
    | succ n =>
      have := (hin n _ (List.getElem?_eq_getElem (by omega))).1
      omega
  refine ⟨?_, ?_, ?_, ?_, ?_⟩
  · rw [e]; exact h1
  · rw [i2, h2, List.length_append]
  · rw [List.length_append]; exact hlen
  · intro j r hjr
    by_cases hj : j < F.length
    · rw [List.getElem?_append_left hj] at hjr; exact h4 j r hjr
    · rw [List.getElem?_append_right (by omega)] at hjr
      obtain ⟨a1, a2, a3, a4, _⟩ := i3 _ r hjr
      obtain ⟨b1, b2, b3⟩ := hin _ r hjr
      have hj2 : F.length + (j - F.length) = j := by omega
      rw [hj2] at b1 b3
      have htx := h5 r.onchainTxId
      unfold queueEntry at htx
      rw [if_neg b2, b3, List.getElem?_eq_getElem b1] at htx
      rw [htx] at a3 a4
      refine ⟨by omega, ?_, Q[j], List.getElem?_eq_getElem b1, a3, a4⟩
      cases hst : r.status with
      | none => exact absurd hst a2.1
      | pending => exact absurd hst a2.2
      | completed => exact Or.inl rfl
      | reverted => exact Or.inr rfl
  · intro i
    by_cases hi : i.toNat ≤ w.vapp.finalizedOnchainTxId.toNat ∨ w'.vapp.finalizedOnchainTxId.toNat < i.toNat
    · rw [i4 i hi, h5 i]
      unfold queueEntry
      by_cases h0 : i = 0
      · rw [if_pos h0, if_pos h0]
      · rw [if_neg h0, if_neg h0]
        have h0' : i.toNat ≠ 0 := fun x => h0 (BitVec.eq_of_toNat_eq (by simpa using x))
        have : (F ++ onchainOf rs)[i.toNat - 1]? = F[i.toNat - 1]? := by
          rcases hi with hi | hi
          · rw [List.getElem?_append_left (by omega)]
          · rw [List.getElem?_eq_none (by rw [List.length_append]; omega), List.getElem?_eq_none (by omega)]
        rw [this]
    · have hlo : w.vapp.finalizedOnchainTxId.toNat < i.toNat := by omega
      have hhi : i.toNat ≤ w'.vapp.finalizedOnchainTxId.toNat := by omega
      have hj : i.toNat - 1 - F.length < (onchainOf rs).length := by omega
      have hget := List.getElem?_eq_getElem hj
      obtain ⟨a1, _, _, _, a5⟩ := i3 _ _ hget
      have hie : (onchainOf rs)[i.toNat - 1 - F.length].onchainTxId = i := by
        apply BitVec.eq_of_toNat_eq; omega
      rw [hie] at a5
      rw [a5, h5 i]
      unfold queueEntry
      have h0 : i ≠ 0 := by rintro rfl; simp at hlo
      rw [if_neg h0, if_neg h0]
      have hq : i.toNat - 1 < Q.length := by omega
      rw [List.getElem?_eq_getElem hq, List.getElem?_append_right (by omega), hget]
      rfl

theorem exec_queueOk {cfg : Cfg} {c : Ctx} {k : Call} {w w' : World} {Q F} (hw : QueueOk w Q F)
    (h : exec cfg c k w = .ok ((), w')) :
    QueueOk w' (Q ++ (k.queues cfg c w).toList) (F ++ k.receipts) := by
  have hrec : (∀ pv pr, k ≠ .step pv pr) → k.receipts = [] := by
    intro hk; cases k <;> first | rfl | exact absurd rfl (hk _ _)
  rcases exec_vapp_cases h with ⟨hq, hs, _, _, e⟩ | ⟨v, d, hq, hQ⟩ | ⟨pv, pr, x, rfl, hx⟩ | ⟨a, b, x, rfl, hx⟩ | ⟨hp, _, e⟩
  · rw [hq, hrec hs]
    simp only [Option.toList_none, List.append_nil]
    exact hw.of_same (by rw [e]) (by rw [e]) (by rw [e])
  · have hs : ∀ pv pr, k ≠ .step pv pr := by rintro pv pr rfl; exact nomatch hq
    rw [hq, hrec hs]
    simp only [Option.toList_some, List.append_nil]
    exact hw.queue hQ
  · obtain ⟨_, _, _, v, h1, _, _, _, _, _, _, _, hr⟩ := vappStep_ok hx
    have : (Call.step pv pr).receipts = onchainOf v.receipts := by simp only [Call.receipts, h1]
    rw [this]
    simp only [Call.queues, Option.toList_none, List.append_nil]
    refine QueueOk.finalise ?_ hr
    exact hw.of_same rfl rfl rfl
  · obtain ⟨_, _, _, _, rfl⟩ := vappFork_ok hx
    simp only [Call.queues, Call.receipts, Option.toList_none, List.append_nil]
    exact hw.of_same rfl rfl rfl
  · have hs : ∀ pv pr, k ≠ .step pv pr := by rintro pv pr rfl; exact nomatch hp
    have hq : k.queues cfg c w = none := by cases k <;> first | rfl | exact nomatch hp
    rw [hq, hrec hs]
    simp only [Option.toList_none, List.append_nil]
    exact hw.of_same e.2.2.1 e.2.2.2.1 e.2.2.2.2.2.2

/-- For every history of calls from deployment on: let `Q` be what was queued and `F` the on-chain receipts
of the accepted steps. Then the contract's table is exactly `Q` under ids 1, 2, ...; the receipts are for
ids 1, 2, ... in that order without gaps or repetitions, each with a final status and the same variant and
data as queued, never more than queued; and a transaction is pending exactly until its receipt arrives. -/
theorem c35_history {cfg : Cfg} {w₀ : World} (hg : Genesis cfg w₀) (h : List (Ctx × Call)) :
    QueueOk (runCalls cfg w₀ h) (queueLog cfg w₀ h) (receiptLog cfg w₀ h) := by
  have main : ∀ (h : List (Ctx × Call)) (w : World) Q F, QueueOk w Q F →
      QueueOk (runCalls cfg w h) (Q ++ queueLog cfg w h) (F ++ receiptLog cfg w h) := by
    intro h
    induction h with
    | nil => intro w Q F hw; simpa [queueLog, receiptLog, runCalls_nil] using hw
    | cons x h ih =>
      intro w Q F hw
      rw [runCalls_cons, queueLog, receiptLog, ← List.append_assoc, ← List.append_assoc]
      apply ih
      rcases call_ok (cfg := cfg) (c := x.1) (k := x.2) (w := w) with ⟨w', h1, h2⟩ | ⟨⟨e, h1⟩, h2⟩
      · rw [h1, h2]; exact exec_queueOk hw h1
      · rw [h1, h2]; simpa using hw
  have h0 : QueueOk w₀ [] [] := by
    refine ⟨by rw [hg.vapp_ids.2.1]; rfl, by rw [hg.vapp_ids.2.2]; rfl, Nat.le_refl _, ?_, ?_⟩
    · intro j r hr; simp at hr
    · intro i
      rw [hg.vapp_maps.2]
      unfold queueEntry
      split
      · rfl
      · simp
  simpa using main h w₀ [] [] h0

/-- One accepted step, from any reachable world: its on-chain receipts are for the next unfinalised ids, in
order, and agree with what is queued there. -/
theorem c35_step {cfg : Cfg} {c : Ctx} {pv pr : Bytes} {w w' : World}
    (h : exec cfg c (.step pv pr) w = .ok ((), w')) :
    ∃ v, StepValues.decode pv = some v ∧
      w'.vapp.finalizedOnchainTxId.toNat = w.vapp.finalizedOnchainTxId.toNat + (onchainOf v.receipts).length ∧
      ∀ j r, (onchainOf v.receipts)[j]? = some r →
        r.onchainTxId.toNat = w.vapp.finalizedOnchainTxId.toNat + 1 + j ∧
        (w.vapp.transactions r.onchainTxId).variant = r.variant ∧
        SameAction r.variant (w.vapp.transactions r.onchainTxId).action r.action := by
  obtain ⟨x, h⟩ := drop_ok.mp h
  obtain ⟨_, _, _, v, h1, _, _, _, _, _, _, _, hr⟩ := vappStep_ok h
  obtain ⟨_, i2, i3, _⟩ := handleReceipts_ok hr
  refine ⟨v, h1, i2, fun j r hj => ?_⟩
  obtain ⟨a, _, b, d, _⟩ := i3 j r hj
  exact ⟨a, b, d⟩

/-! ## C36: access control -/

/-- Only the auctioneer steps, with a proof the configured verifier accepts for the configured key. -/
theorem c36_step {cfg : Cfg} {c : Ctx} {pv pr : Bytes} {w w' : World}
    (h : exec cfg c (.step pv pr) w = .ok ((), w')) :
    c.sender = w.vapp.auctioneer ∧ c.verifyProof w.vapp.verifier w.vapp.vkey pv pr = true := by
  obtain ⟨x, h⟩ := drop_ok.mp h
  obtain ⟨h1, _, h3, _⟩ := vappStep_ok h
  exact ⟨h1, h3⟩

/-- Only the owner forks, pauses, unpauses, changes parameters or passes on the ownership. -/
theorem c36_owner {cfg : Cfg} {c : Ctx} {k : Call} {w w' : World} (h : exec cfg c k w = .ok ((), w'))
    (hk : k.setsParams = true ∨ ∃ a b, k = .fork a b) : c.sender = w.vapp.owner := by
  rcases hk with hk | ⟨a, b, rfl⟩
  · exact (exec_params h hk).1
  · obtain ⟨x, h⟩ := drop_ok.mp h
    exact (vappFork_ok h).1

/-- Who announces a prover to the vApp contract: the registry in its own `createProver`, else the caller. -/
def Call.announcer (cfg : Cfg) (c : Ctx) : Call → Address
  | .createProver _ => cfg.staking
  | _ => c.sender

/-- Provers are only announced to the rollup by the staking contract the owner has set. -/
theorem c36_createProver {cfg : Cfg} {c : Ctx} {k : Call} {w w' : World} {d : Bytes}
    (h : exec cfg c k w = .ok ((), w')) (hk : k.queues cfg c w = some (.createProver, d)) :
    k.announcer cfg c = w.vapp.staking := by
  cases k <;> simp only [Call.queues, Option.some.injEq, Prod.mk.injEq, reduceCtorEq, false_and] at hk
  case createProver f =>
    obtain ⟨x, h⟩ := drop_ok.mp h
    obtain ⟨_, _, _, _, _, h6, _⟩ := createProver_ok h
    exact h6
  case vappCreateProver p o f =>
    obtain ⟨x, h⟩ := drop_ok.mp h
    exact (vappCreateProver_ok h).1

/-- While paused, no deposit, prover creation or step succeeds. -/
theorem c36_paused {cfg : Cfg} {c : Ctx} {k : Call} {w : World} (hp : w.vapp.paused = true)
    (hk : (k.queues cfg c w).isSome = true ∨ ∃ pv pr, k = .step pv pr) :
    ∃ e, exec cfg c k w = .error e := by
  cases h : exec cfg c k w with
  | error e => exact ⟨e, rfl⟩
  | ok p =>
    obtain ⟨⟨⟩, w'⟩ := p
    exfalso
    rcases hk with hk | ⟨pv, pr, rfl⟩
    · obtain ⟨q, hq⟩ := Option.isSome_iff_exists.mp hk
      have := (exec_queues (v := q.1) (d := q.2) h hq).2
      rw [hp] at this; exact nomatch this
    · obtain ⟨x, h⟩ := drop_ok.mp h
      have := (vappStep_ok h).2.1
      rw [hp] at this; exact nomatch this

/-- Whoever is not the owner cannot change any parameter by any call, and the chain only moves by a step of
the auctioneer. -/
theorem c36_others {cfg : Cfg} {c : Ctx} {k : Call} {w w' : World} (h : exec cfg c k w = .ok ((), w'))
    (hs : c.sender ≠ w.vapp.owner) :
    w'.vapp.owner = w.vapp.owner ∧ w'.vapp.paused = w.vapp.paused ∧ w'.vapp.vkey = w.vapp.vkey ∧
    w'.vapp.auctioneer = w.vapp.auctioneer ∧ w'.vapp.staking = w.vapp.staking ∧
    w'.vapp.verifier = w.vapp.verifier ∧ w'.vapp.minDepositAmount = w.vapp.minDepositAmount ∧
    (c.sender ≠ w.vapp.auctioneer → w'.vapp.roots = w.vapp.roots ∧ w'.vapp.blockNumber = w.vapp.blockNumber ∧
      w'.vapp.finalizedOnchainTxId = w.vapp.finalizedOnchainTxId) := by
  rcases exec_vapp_cases h with ⟨_, _, _, _, e⟩ | ⟨v, d, _, _, e⟩ | ⟨pv, pr, x, rfl, hx⟩ | ⟨a, b, x, rfl, hx⟩ | ⟨_, ho, _⟩
  · rw [e]; exact ⟨rfl, rfl, rfl, rfl, rfl, rfl, rfl, fun _ => ⟨rfl, rfl, rfl⟩⟩
  · rw [e]; exact ⟨rfl, rfl, rfl, rfl, rfl, rfl, rfl, fun _ => ⟨rfl, rfl, rfl⟩⟩
  · obtain ⟨h1, _, _, v, _, _, _, _, _, _, _, _, hr⟩ := vappStep_ok hx
    obtain ⟨⟨f, t, e⟩, _⟩ := handleReceipts_ok hr
    rw [e]; exact ⟨rfl, rfl, rfl, rfl, rfl, rfl, rfl, fun hn => absurd h1 hn⟩
  · exact absurd (vappFork_ok hx).1 hs
  · exact absurd ho hs

/-- Over every history without a call by the (then unchanging) owner, the parameters keep their values. -/
theorem c36_history {cfg : Cfg} (w : World) (h : List (Ctx × Call)) (hn : ∀ x ∈ h, x.1.sender ≠ w.vapp.owner) :
    (runCalls cfg w h).vapp.owner = w.vapp.owner ∧ (runCalls cfg w h).vapp.paused = w.vapp.paused ∧
    (runCalls cfg w h).vapp.vkey = w.vapp.vkey ∧ (runCalls cfg w h).vapp.auctioneer = w.vapp.auctioneer ∧
    (runCalls cfg w h).vapp.staking = w.vapp.staking ∧ (runCalls cfg w h).vapp.verifier = w.vapp.verifier ∧
    (runCalls cfg w h).vapp.minDepositAmount = w.vapp.minDepositAmount := by
  induction h generalizing w with
  | nil => exact ⟨rfl, rfl, rfl, rfl, rfl, rfl, rfl⟩
  | cons x h ih =>
    rw [runCalls_cons]
    rcases call_ok (cfg := cfg) (c := x.1) (k := x.2) (w := w) with ⟨w', h1, h2⟩ | ⟨_, h2⟩
    · rw [h2]
      obtain ⟨e1, e2, e3, e4, e5, e6, e7, _⟩ := c36_others h1 (hn x (List.mem_cons_self ..))
      have := ih w' (fun y hy => by rw [e1]; exact hn y (List.mem_cons_of_mem _ hy))
      rw [e1, e2, e3, e4, e5, e6, e7] at this
      exact this
    · rw [h2]; exact ih w (fun y hy => hn y (List.mem_cons_of_mem _ hy))

/-! ## The hypotheses can be met -/

section Examples
open ToyL1

/-- The setup calls and the step are accepted, so `c34_step`, `c35_step`, `c36_step` apply to them, and the
step really finalises two transactions and pays a withdrawal. -/
example : (exec cfg step1.1 step1.2 w1).toBool = true := by decide +kernel
example : w2.vapp.blockNumber = 1 ∧ w2.vapp.roots 1 = 111 ∧ w2.vapp.roots 0 = 99 ∧ w2.vapp.timestamps 1 = 1500 := by
  decide +kernel
example : w1.vapp.currentOnchainTxId = 2 ∧ w1.vapp.finalizedOnchainTxId = 0 ∧ w2.vapp.finalizedOnchainTxId = 2 ∧
    (w1.vapp.transactions 1).status = .pending ∧ (w2.vapp.transactions 1).status = .completed := by decide +kernel
example : (queueLog cfg genesis (setup ++ [step1])).map (·.1) = [.deposit, .createProver] ∧
    (receiptLog cfg genesis (setup ++ [step1])).map (·.onchainTxId) = [1, 2] := by decide +kernel
example : w2.prove.bal alice = 100000 - 5000 + 120 ∧ w2.prove.bal cfg.vapp = 5000 - 120 := by decide +kernel
example : Reachable cfg w2 := by
  refine ⟨genesis, setup ++ [step1], genesis_ok, ?_, by
    unfold w2 w1; exact runCalls_append.symm⟩
  intro x hx
  simp only [setup, List.mem_append, List.mem_cons, List.not_mem_nil, or_false] at hx
  have ha := not_system alice (by decide) (by decide)
  have hb := not_system bob (by decide) (by decide)
  have hc := not_system auc (by decide) (by decide)
  rcases hx with (rfl | rfl | rfl) | rfl <;> (simp only [Admissible, step1]; assumption)
example : Timed (setup ++ [step1]) := by
  refine ⟨by decide, ?_⟩
  intro x hx
  simp only [setup, step1, List.mem_append, List.mem_cons, List.not_mem_nil, or_false] at hx
  rcases hx with (rfl | rfl | rfl) | rfl <;> decide
/-- The same step is refused a second time (the root has moved), from another sender, and while paused. -/
example : (exec cfg step1.1 step1.2 w2).toBool = false ∧ (exec cfg (ctx alice 1600) step1.2 w1).toBool = false ∧
    (exec cfg step1.1 step1.2 (call cfg (ctx gov 1550) .pause w1)).toBool = false ∧
    (exec cfg (ctx gov 1550) .pause w1).toBool = true ∧ (exec cfg (ctx gov 1600) (.fork 8 5) w2).toBool = true := by
  decide +kernel

end Examples

end Verif
