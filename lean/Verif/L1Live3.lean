import Verif.L1Live2
import Verif.PropsSolvency
/-
# Calls that go through: the registry, deposits, steps
-/

namespace Verif
open L1

theorem whenNotPaused_run {w : World} (h : w.vapp.paused = false) : whenNotPaused w = .ok ((), w) :=
  whenNotPaused_ok.mpr ⟨h, rfl⟩

theorem proverOwner_reg {c : Ctx} {w : World} {p o : Address} (h : w.staking.provers p = true)
    (h' : (w.info p).owner = o) : proverOwner c w p = some o := by
  unfold proverOwner
  rw [if_pos h, h']

theorem createProver_run {cfg : Cfg} {c : Ctx} {f : U256} {w : World} (hc : cfg.WF)
    (h1 : f.toNat ≤ 10000) (h2 : w.staking.ownerToProver c.sender = 0) (h3 : c.sender ≠ 0)
    (h4 : w.staking.provers (cfg.create2 c.sender (w.staking.proverCount + 1) f.toNat) = false)
    (h5 : w.vapp.staking = cfg.staking) (h6 : w.vapp.paused = false) (h7 : w.vapp.currentOnchainTxId.toNat + 1 < 2 ^ 64) :
    Runs (createProver cfg c f) w := by
  unfold createProver
  refine Runs.bind (require_run h1 _ _) (Runs.bind (get_run _) (Runs.bind (require_run h2 _ _) ?_))
  unfold deployProver
  refine Runs.bind (require_run hc.nonzero.2.1 _ _) (Runs.bind (modStaking_run _ _) (Runs.bind (get_run _)
    (Runs.bind (require_run h3 _ _) (Runs.bind (get_run _) (Runs.bind (require_run h4 _ _) (Runs.bind (modify_run _ _)
    (Runs.bind (modStaking_run _ _) ?_)))))))
  refine Runs.step ?_ fun _ w1 g => Runs.step (Runs.ok (onIprove_run (Erc20.approve_run hc.nonzero.2.2.1 (hc.create2 _ _ _).1)))
    fun _ _ _ => Runs.pure _ _
  unfold vappCreateProver
  refine Runs.bind (get_run _) (Runs.bind (require_run h5.symm _ _) (Runs.bind (whenNotPaused_run h6)
    (Runs.bind (require_run h3 _ _) (Runs.bind (get_run _) (Runs.bind (require_run ?_ _ _) (createTransaction_run h7))))))
  exact proverOwner_reg (upd_same _ _ _) (by dsimp only; rw [upd_same])

theorem vappPermitAndDeposit_run {cfg : Cfg} {signer f : Address} {v : U256} {w : World} (hc : cfg.WF) (hf : f ≠ 0)
    (hp : w.vapp.paused = false) (h1 : w.vapp.minDepositAmount ≤ v.toNat) (h2 : w.vapp.currentOnchainTxId.toNat + 1 < 2 ^ 64)
    (h3 : v.toNat ≤ w.prove.bal f) (h4 : w.prove.allow f cfg.vapp = v.toNat ∨ signer = f) :
    Runs (vappPermitAndDeposit cfg signer f v) w := by
  unfold vappPermitAndDeposit
  refine Runs.bind (whenNotPaused_run hp) (Runs.bind (get_run _) ?_)
  split
  · rename_i hne
    have hsg : signer = f := h4.resolve_left hne
    refine Runs.bind (w1 := { w with prove := { w.prove with allow := upd w.prove.allow f (upd (w.prove.allow f) cfg.vapp v.toNat) } })
      (a := ()) ((bind_run (require_run hsg _ _)).trans (onProve_run (Erc20.approve_run hf hc.nonzero.2.2.2)))
      (vappDepositFrom_run hc hf h1 h2 h3 ?_)
    show v.toNat ≤ upd w.prove.allow f (upd (w.prove.allow f) cfg.vapp v.toNat) f cfg.vapp
    rw [upd_same, upd_same]; exact Nat.le_refl _
  · rename_i he
    exact vappDepositFrom_run hc hf h1 h2 h3 (Nat.le_of_eq (Decidable.not_not.mp he).symm)

theorem vappFork_run {c : Ctx} {k r : B256} {w : World} (h1 : c.sender = w.vapp.owner) (h2 : k ≠ 0) (h3 : r ≠ 0)
    (h4 : w.vapp.blockNumber.toNat + 1 < 2 ^ 64) : Runs (vappFork c k r) w :=
  Runs.bind (vappOnlyOwner_ok.mpr ⟨h1, rfl⟩ : vappOnlyOwner c w = .ok ((), w)) (Runs.bind (require_run ⟨h2, h3⟩ _ _)
    (Runs.bind (get_run _) (Runs.bind (inc64_run h4 _) (Runs.bind (modVapp_run _ _) (Runs.pure _ _)))))

/-! ## Receipts -/

theorem handleReceipts_append {cfg : Cfg} {c : Ctx} {rs : List SolReceipt} : ∀ {rs' : List SolReceipt} {u : Unit} {w w1 w2 : World},
    handleReceipts cfg c rs w = .ok (u, w1) → handleReceipts cfg c rs' w1 = .ok ((), w2) →
    handleReceipts cfg c (rs ++ rs') w = .ok ((), w2) := by
  induction rs with
  | nil =>
    intro rs' u w w1 w2 h g
    obtain ⟨_, rfl⟩ := pure_ok.mp (show (pure () : L1 Unit) w = .ok (u, w1) from h)
    exact g
  | cons r rs ih =>
    intro rs' u w w1 w2 h g
    rw [List.cons_append]
    unfold handleReceipts at h ⊢
    split at h
    · rename_i hr
      rw [if_pos hr]
      obtain ⟨_, w0, h1, h2⟩ := bind_ok.mp h
      exact bind_ok.mpr ⟨_, w0, h1, ih h2 g⟩
    · rename_i hr
      rw [if_neg hr]
      obtain ⟨_, w0, h1, h2⟩ := bind_ok.mp h
      exact bind_ok.mpr ⟨_, w0, h1, ih h2 g⟩

theorem assertEq_run {t : SolTransaction} {r : SolReceipt} {w : World} (h1 : t.variant = r.variant)
    (h2 : SameAction r.variant t.action r.action) : Runs (assertEq t r) w := by
  unfold assertEq
  cases hv : r.variant <;> rw [hv] at h1 h2 <;> dsimp only
  · obtain ⟨d, a, b⟩ := h2
    exact Runs.bind (require_run h1 _ _) (Runs.bind (liftO_ok.mpr ⟨a, rfl⟩) (Runs.bind (liftO_ok.mpr ⟨b, rfl⟩)
      (Runs.bind (require_run rfl _ _) (Runs.ok (require_run rfl _ _)))))
  · exact h2.elim
  · obtain ⟨d, a, b⟩ := h2
    exact Runs.bind (require_run h1 _ _) (Runs.bind (liftO_ok.mpr ⟨a, rfl⟩) (Runs.bind (liftO_ok.mpr ⟨b, rfl⟩)
      (Runs.bind (require_run rfl _ _) (Runs.bind (require_run rfl _ _) (Runs.ok (require_run rfl _ _))))))

theorem handleOnchain_run {r : SolReceipt} {w : World} (h1 : r.onchainTxId.toNat = w.vapp.finalizedOnchainTxId.toNat + 1)
    (h2 : r.status = .completed) (h3 : (w.vapp.transactions r.onchainTxId).variant = r.variant)
    (h4 : SameAction r.variant (w.vapp.transactions r.onchainTxId).action r.action) : Runs (handleOnchain r) w := by
  have hlt := r.onchainTxId.isLt
  have hid : w.vapp.finalizedOnchainTxId + 1 = r.onchainTxId := by
    apply BitVec.eq_of_toNat_eq
    rw [inc_toNat (by omega), h1]
  unfold handleOnchain
  refine Runs.bind (get_run _) (Runs.bind (inc64_run (by omega) _) (Runs.bind (modVapp_run _ _) (Runs.bind (require_run hid _ _)
    (Runs.bind (requireFinal_ok.mpr ⟨by rw [h2]; simp, rfl⟩ : requireFinal r _ = .ok ((), _)) (Runs.bind (get_run _) ?_)))))
  rw [hid]
  refine Runs.step (assertEq_run h3 h4) fun _ w1 g => Runs.bind (modVapp_run _ _) ?_
  rw [h2, if_neg (by simp)]
  refine Runs.ok (require_run ?_ _ _)
  cases hv : r.variant
  · exact Or.inl rfl
  · rw [hv] at h4; exact h4.elim
  · exact Or.inr rfl

theorem decCreateProver_words (a b : Address) (v : U256) :
    decCreateProver (abiWord a.toNat ++ (abiWord b.toNat ++ abiWord v.toNat)) = some (a, b, v) := by
  have ha : a.toNat < 2 ^ 160 := a.isLt
  have hb : b.toNat < 2 ^ 160 := b.isLt
  have h0 : At (abiWord a.toNat ++ (abiWord b.toNat ++ abiWord v.toNat)) 0
    (abiWord a.toNat ++ (abiWord b.toNat ++ abiWord v.toNat)) := At.self _
  have h1 := readWord_at (Nat.lt_trans ha (by decide)) h0.left
  have h2 := readWord_at (Nat.lt_trans hb (by decide)) (h0.right' (n := 32) (by rw [abiWord_len])).left
  have h3 := readWord_at v.isLt ((h0.right' (n := 32) (by rw [abiWord_len])).right' (n := 64) (by rw [abiWord_len]))
  simp only [decCreateProver, h1, h2, h3, wordAddr, Option.bind_eq_bind, Option.bind_some, if_pos ha, if_pos hb, Option.pure_def,
    BitVec.ofNat_toNat, BitVec.setWidth_eq]

theorem decCreateProver_abi (d : CreateProver) : decCreateProver d.abi = some (d.prover, d.owner, d.stakerFeeBips) :=
  decCreateProver_words _ _ _

theorem Receipt.same_action (r : Receipt) (h : r.onchain = true) : SameAction r.sol.variant r.sol.action r.sol.action := by
  cases r with
  | deposit id st d => exact ⟨_, decAccountAmount_deposit d, decAccountAmount_deposit d⟩
  | createProver id st d => exact ⟨_, decCreateProver_abi d, decCreateProver_abi d⟩
  | withdraw st d => exact nomatch h

theorem Receipt.action_ne (r : Receipt) : r.sol.action ≠ [] := by
  have h : ∀ n, abiWord n ≠ [] := fun n e => by
    have := abiWord_len n
    rw [e] at this; exact nomatch this
  cases r <;> simp [Receipt.sol, Deposit.abi, CreateProver.abi, Withdraw.abi, h]

/-- What stays true while the receipts of a step are handled. -/
structure PayInv (cfg : Cfg) (w : World) : Prop where
  balanced : w.prove.Balanced
  small : w.prove.supply < 2 ^ 160
  backed : w.iprove.supply ≤ w.prove.bal cfg.iprove
  allow : w.prove.allow cfg.vapp cfg.iprove = max256
  staking : w.vapp.staking = cfg.staking

theorem PayInv.payable {cfg : Cfg} (hc : cfg.WF) {c : Ctx} {to : Address} {n : Nat} {w : World} (hi : PayInv cfg w) (hto : to ≠ 0)
    (hn : n ≤ w.prove.bal cfg.vapp) :
    ∃ w', processWithdraw cfg c to n w = .ok ((), w') ∧ PayInv cfg w' := by
  have hne := vapp_ne_iprove hc
  have run : Runs (processWithdraw cfg c to n) w := by
    unfold processWithdraw
    refine Runs.bind (get_run w) ?_
    split
    · rename_i h
      unfold isProverFor at h
      rw [if_pos hi.staking] at h
      exact Runs.step (iproveDeposit_run hc hi.balanced hi.small hi.backed hto hc.nonzero.2.2.2 hne hi.allow hn
        (Or.inr (Or.inr ⟨rfl, rfl, h⟩))) fun _ _ _ => Runs.pure _ _
    · exact Runs.ok (onProve_run (Erc20.transfer_run hc.nonzero.2.2.2 hto hn))
  obtain ⟨_, w', h⟩ := run
  refine ⟨w', h, ?_⟩
  have hmax := (processWithdraw_within (KeepsMax.tok cfg) _ _ _ _ _ _ _ h).keeps _ _ (Or.inr (Or.inr (Or.inr (Or.inl rfl)))) hi.allow
  simp only [processWithdraw, bind_ok, get_ok] at h
  obtain ⟨_, _, ⟨rfl, rfl⟩, h⟩ := h
  split at h
  · simp only [bind_ok, pure_ok] at h
    obtain ⟨m, _, h, _, rfl⟩ := h
    obtain ⟨hm, _, t1, t2, t3, h1, h2, h3, _, rfl⟩ := iproveDeposit_ok h
    have hx := ((Erc20.transfer_exact h2).1 hne).2
    have hb := (hi.balanced.spend h1).transfer h2
    obtain ⟨_, a2, a3, _⟩ := Erc20.spend_ok h1
    obtain ⟨_, _, _, e2⟩ := Erc20.transfer_ok h2
    obtain ⟨_, _, e3⟩ := Erc20.mint_ok h3
    have hle := deposit_le (v := n) hi.backed
    rw [← hm] at hle
    have hb' := hi.backed
    refine ⟨hb, ?_, ?_, hmax, hi.staking⟩
    · show t2.supply < _
      rw [e2]; show t1.supply < _; rw [a3]; exact hi.small
    · show t3.supply ≤ t2.bal cfg.iprove
      rw [hx, a2, e3]
      show _ + m ≤ _
      omega
  · obtain ⟨t, g, rfl⟩ := proveTransfer_ok h
    have hk := Erc20.transfer_keeps (a := cfg.iprove) g (Or.inl hne)
    obtain ⟨_, _, _, e2⟩ := Erc20.transfer_ok g
    refine ⟨hi.balanced.transfer g, ?_, Nat.le_trans hi.backed hk, hmax, hi.staking⟩
    show t.supply < _
    rw [e2]; exact hi.small


theorem handleReceipts_cons_run {cfg : Cfg} {c : Ctx} {r : SolReceipt} {rs : List SolReceipt} {w w1 : World}
    (h : (if r.onchainTxId ≠ BitVec.allOnes 64 then handleOnchain r else handleOffchain cfg c r) w = .ok ((), w1))
    (h2 : Runs (handleReceipts cfg c rs) w1) : Runs (handleReceipts cfg c (r :: rs)) w := by
  unfold handleReceipts
  split at h
  · rename_i hr
    rw [if_pos hr]; exact Runs.bind h h2
  · rename_i hr
    rw [if_neg hr]; exact Runs.bind h h2

theorem handleReceipts_single {cfg : Cfg} {c : Ctx} {r : SolReceipt} {w w1 : World}
    (h : (if r.onchainTxId ≠ BitVec.allOnes 64 then handleOnchain r else handleOffchain cfg c r) w = .ok ((), w1)) :
    handleReceipts cfg c [r] w = .ok ((), w1) := by
  unfold handleReceipts
  split at h
  · rename_i hr
    rw [if_pos hr]; exact bind_ok.mpr ⟨_, _, h, rfl⟩
  · rename_i hr
    rw [if_neg hr]; exact bind_ok.mpr ⟨_, _, h, rfl⟩

/-- The receipts of on-chain transactions among `rs` are those of the next queued transactions of the
contract, in order and with the same content. -/
def FollowsQueue (w : World) (rs : List Receipt) : Prop :=
  ∀ j r, (rs.filter Receipt.onchain)[j]? = some r →
    r.sol.onchainTxId.toNat = w.vapp.finalizedOnchainTxId.toNat + 1 + j ∧
    (w.vapp.transactions r.sol.onchainTxId).variant = r.sol.variant ∧
    (w.vapp.transactions r.sol.onchainTxId).action = r.sol.action

theorem FollowsQueue.id_ne {w : World} {rs : List Receipt} (h : FollowsQueue w rs) (hq : QueueInv w)
    (hmax : w.vapp.currentOnchainTxId.toNat + 1 < 2 ^ 64) (r : Receipt) (hr : r ∈ rs) (ho : r.onchain = true) :
    r.sol.onchainTxId ≠ BitVec.allOnes 64 := by
  obtain ⟨j, hj⟩ := List.getElem?_of_mem (List.mem_filter.mpr ⟨hr, ho⟩)
  obtain ⟨_, _, h3⟩ := h j r hj
  intro e
  have : w.vapp.transactions r.sol.onchainTxId = SolTransaction.unset := by
    refine hq.2 _ ?_
    rw [e, BitVec.toNat_allOnes]; omega
  rw [this] at h3
  exact r.action_ne h3.symm

theorem onchainOf_map {rs : List Receipt} (h : ∀ r ∈ rs, r.onchain = true → r.sol.onchainTxId ≠ BitVec.allOnes 64) :
    onchainOf (rs.map Receipt.sol) = (rs.filter Receipt.onchain).map Receipt.sol := by
  induction rs with
  | nil => rfl
  | cons r rs ih =>
    have ih := ih fun r hr => h r (List.mem_cons_of_mem _ hr)
    unfold onchainOf at ih ⊢
    rw [List.map_cons]
    cases ho : r.onchain with
    | true =>
      have := h r (List.mem_cons_self ..) ho
      rw [List.filter_cons_of_pos (by simpa using this), List.filter_cons_of_pos ho, List.map_cons, ih]
    | false =>
      have : r.sol.onchainTxId = BitVec.allOnes 64 := by
        cases r <;> first | rfl | exact nomatch ho
      rw [List.filter_cons_of_neg (by simpa using this), List.filter_cons_of_neg (by rw [ho]; simp), ih]

/-- The receipts `rs` of transactions executed on a rollup state that the contract's holdings cover are all
handled, if those of on-chain transactions follow the queue and no withdrawal names the zero address. -/
theorem handleReceipts_run {env : Env} {cfg : Cfg} (hc : cfg.WF) {c : Ctx} {w : World} {s s' : FullState}
    {txs : List (Int × Tx)} {rs : List Receipt} (hw : Reachable cfg w)
    (hsolv : s.plain.total + w.pendingDeposits ≤ w.prove.bal cfg.vapp)
    (hrun : runTxs merkleOps merkleOps env txs s = some (rs, s'))
    (hmax : w.vapp.currentOnchainTxId.toNat + 1 < 2 ^ 64)
    (hord : FollowsQueue w rs) (hto : ∀ st d, Receipt.withdraw st d ∈ rs → d.account ≠ 0)
    (b : U64) (r : U64 → B256) (t : U64 → U64) : ∀ (rs₂ rs₁ : List Receipt) (w₁ : World), rs = rs₁ ++ rs₂ →
    handleReceipts cfg c (rs₁.map Receipt.sol)
      { w with vapp := { w.vapp with blockNumber := b, roots := r, timestamps := t } } = .ok ((), w₁) →
    PayInv cfg w₁ → Runs (handleReceipts cfg c (rs₂.map Receipt.sol)) w₁ := by
  have hq : QueueInv w := by
    obtain ⟨w₀, h, hg, _, rfl⟩ := hw
    exact QueueInv.of_ok (c35_history hg h)
  have hst : ∀ r ∈ rs, r.status = .completed := by
    have hplain := runTxs_merkle env txs s
    rw [hrun] at hplain
    simp only [Option.map_some] at hplain
    exact (runTxs_flow env _ _ _ _ hplain).1
  intro rs₂
  induction rs₂ with
  | nil => exact fun _ w₁ _ _ _ => Runs.pure () w₁
  | cons x rs₂ ih =>
    intro rs₁ w₁ hsplit hproc hi
    have hmem : x ∈ rs := by rw [hsplit]; simp
    have key : ∃ w₂, (if x.sol.onchainTxId ≠ BitVec.allOnes 64 then handleOnchain x.sol else handleOffchain cfg c x.sol) w₁ =
        .ok ((), w₂) ∧ PayInv cfg w₂ := by
      cases ho : x.onchain with
      | false =>
        cases x with
        | withdraw st d =>
          have hle := c37_payable hc hw hsolv hrun hsplit b r t hproc
          obtain ⟨w₂, h1, h2⟩ := hi.payable hc (c := c) (hto st d hmem) hle
          refine ⟨w₂, ?_, h2⟩
          rw [if_neg (fun h => h rfl)]
          exact handleOffchain_pays (hst _ hmem) h1
        | deposit => exact nomatch ho
        | createProver => exact nomatch ho
      | true =>
        have hne := hord.id_ne hq hmax x hmem ho
        rw [if_pos hne]
        obtain ⟨_, p2, _, p4⟩ := handleReceipts_ok hproc
        rw [onchainOf_map (fun r hr => hord.id_ne hq hmax r (by rw [hsplit]; exact List.mem_append_left _ hr)),
          List.length_map] at p2
        obtain ⟨o1, o2, o3⟩ := hord (rs₁.filter Receipt.onchain).length x (by
          rw [hsplit, List.filter_append, List.filter_cons_of_pos ho, List.getElem?_append_right (Nat.le_refl _)]
          simp)
        change w₁.vapp.finalizedOnchainTxId.toNat = w.vapp.finalizedOnchainTxId.toNat + _ at p2
        have ht := p4 x.sol.onchainTxId (Or.inr (by rw [o1, p2]; omega))
        change w₁.vapp.transactions x.sol.onchainTxId = w.vapp.transactions x.sol.onchainTxId at ht
        have hs : x.sol.status = .completed := by
          rw [← hst x hmem]; cases x <;> rfl
        obtain ⟨_, w₂, h⟩ := handleOnchain_run (r := x.sol) (w := w₁) (by rw [o1, p2]; omega) hs (by rw [ht, o2])
          (by rw [ht, o3]; exact x.same_action ho)
        refine ⟨w₂, h, ?_⟩
        obtain ⟨_, _, _, _, _, rfl⟩ := handleOnchain_ok h
        exact ⟨hi.balanced, hi.small, hi.backed, hi.allow, hi.staking⟩
    obtain ⟨w₂, h1, h2⟩ := key
    rw [List.map_cons]
    refine handleReceipts_cons_run h1 (ih (rs₁ ++ [x]) w₂ (by rw [hsplit]; simp) ?_ h2)
    rw [List.map_append]
    exact handleReceipts_append hproc (handleReceipts_single h1)

theorem vappStep_run {cfg : Cfg} {c : Ctx} {pv pr : Bytes} {v : StepValues} {w : World} (h1 : c.sender = w.vapp.auctioneer)
    (h2 : w.vapp.paused = false) (h3 : c.verifyProof w.vapp.verifier w.vapp.vkey pv pr = true)
    (h4 : StepValues.decode pv = some v) (h5 : v.newRoot ≠ 0) (h6 : w.vapp.roots w.vapp.blockNumber = v.oldRoot)
    (h7 : v.timestamp.toNat ≤ c.now) (h8 : (w.vapp.timestamps w.vapp.blockNumber).toNat ≤ v.timestamp.toNat)
    (h9 : c.now - v.timestamp.toNat ≤ 3600) (h10 : w.vapp.blockNumber.toNat + 1 < 2 ^ 64)
    (h11 : Runs (handleReceipts cfg c v.receipts) { w with vapp := { w.vapp with
        blockNumber := w.vapp.blockNumber + 1
        roots := upd w.vapp.roots (w.vapp.blockNumber + 1) v.newRoot
        timestamps := upd w.vapp.timestamps (w.vapp.blockNumber + 1) v.timestamp } }) :
    Runs (vappStep cfg c pv pr) w := by
  unfold vappStep
  exact Runs.bind (get_run _) (Runs.bind (require_run h1 _ _) (Runs.bind (whenNotPaused_run h2) (Runs.bind (get_run _)
    (Runs.bind (require_run h3 _ _) (Runs.bind (liftO_ok.mpr ⟨h4, rfl⟩) (Runs.bind (require_run h5 _ _)
    (Runs.bind (require_run h6 _ _) (Runs.bind (require_run h7 _ _) (Runs.bind (require_run h8 _ _)
    (Runs.bind (require_run h9 _ _) (Runs.bind (inc64_run h10 _) (Runs.bind (modVapp_run _ _)
    (Runs.step h11 fun _ _ _ => Runs.pure _ _)))))))))))))

end Verif
