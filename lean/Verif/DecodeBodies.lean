import Verif.DecodeProofs
/-
# Writing and reading each kind of message
-/

namespace Verif

theorem ReservedMetadata.sized (m : ReservedMetadata) :
    ∀ f ∈ m.fields, 1 ≤ f.1 ∧ f.1 < 2 ^ 29 ∧ f.2.Sized := by
  intro f hf
  obtain ⟨x⟩ := m
  cases x with
  | none => cases hf
  | some v =>
    simp only [ReservedMetadata.fields, fOptFloat, List.mem_singleton] at hf
    subst hf
    exact ⟨show 1 ≤ 1 by decide, show 1 < 2 ^ 29 by decide, trivial⟩

theorem Raw.metadata_enc (m : ReservedMetadata) : Raw.metadata none (.len (encFields m.fields)) = some m := by
  unfold Raw.metadata
  simp only
  rw [readFields_encFields _ m.sized]
  obtain ⟨x⟩ := m
  cases x <;> rfl

theorem fold_Rep {β : Type} {m : β → Nat × Raw → Option β} {rest : List (Nat × Raw)} {t : Nat}
    {x : List Bytes} {g : List Bytes → β} {s s' : β} (h : ∀ l v, m (g l) (t, .len v) = some (g (l ++ [v])))
    (hs : s = g []) (hs' : s' = g x) : ((fRep t x).map rawField ++ rest).foldlM m s = rest.foldlM m s' := by
  have key : ∀ l, ((fRep t x).map rawField ++ rest).foldlM m (g l) = rest.foldlM m (g (l ++ x)) := by
    clear hs hs'
    induction x with
    | nil => intro l; rw [List.append_nil]; rfl
    | cons v x ih =>
      intro l
      have := ih (l ++ [v])
      rw [List.append_assoc, List.singleton_append] at this
      rw [← this]
      unfold fRep
      rw [List.map_cons, List.map_cons, List.cons_append, List.foldlM_cons]
      show (m (g l) (t, .len v)).bind _ = _
      rw [h]
      rfl
  rw [hs, hs', key]
  rfl

theorem DelegateBody.merge_fields (b : DelegateBody) (hfee : utf8 b.fee = true) :
    (b.fields.map rawField).foldlM DelegateBody.merge {} = some b := by
  unfold DelegateBody.fields
  simp only [List.map_append]
  rw [← List.append_nil ((fBytes 7 b.fee).map rawField)]
  rw [fold_U64 (s' := { nonce := b.nonce }) (by simp only [DelegateBody.merge, Raw.u64_toNat]; rfl) (by intro h; rw [h])]
  rw [fold_Bytes (s' := { nonce := b.nonce, delegate := b.delegate }) rfl (by intro h; rw [h])]
  rw [fold_Bytes (s' := { nonce := b.nonce, delegate := b.delegate, prover := b.prover }) rfl (by intro h; rw [h])]
  rw [fold_Bytes (s' := { nonce := b.nonce, delegate := b.delegate, prover := b.prover, domain := b.domain }) rfl (by intro h; rw [h])]
  rw [fold_Enum (s' := { nonce := b.nonce, delegate := b.delegate, prover := b.prover, domain := b.domain, variant := b.variant }) (by simp only [DelegateBody.merge, Raw.i32_signExtend]; rfl) (by intro h; rw [h])]
  rw [fold_Bytes (s' := { nonce := b.nonce, delegate := b.delegate, prover := b.prover, domain := b.domain, variant := b.variant, auctioneer := b.auctioneer }) rfl (by intro h; rw [h])]
  rw [fold_Bytes (s' := b) (by simp only [DelegateBody.merge, Raw.string_of hfee]; rfl) (by intro h; rw [← h])]
  rfl

theorem TransferBody.merge_fields (b : TransferBody) (hamount : utf8 b.amount = true) (hfee : utf8 b.fee = true) :
    (b.fields.map rawField).foldlM TransferBody.merge {} = some b := by
  unfold TransferBody.fields
  simp only [List.map_append]
  rw [← List.append_nil ((fBytes 7 b.fee).map rawField)]
  rw [fold_U64 (s' := { nonce := b.nonce }) (by simp only [TransferBody.merge, Raw.u64_toNat]; rfl) (by intro h; rw [h])]
  rw [fold_Bytes (s' := { nonce := b.nonce, to := b.to }) rfl (by intro h; rw [h])]
  rw [fold_Bytes (s' := { nonce := b.nonce, to := b.to, amount := b.amount }) (by simp only [TransferBody.merge, Raw.string_of hamount]; rfl) (by intro h; rw [h])]
  rw [fold_Bytes (s' := { nonce := b.nonce, to := b.to, amount := b.amount, domain := b.domain }) rfl (by intro h; rw [h])]
  rw [fold_Enum (s' := { nonce := b.nonce, to := b.to, amount := b.amount, domain := b.domain, variant := b.variant }) (by simp only [TransferBody.merge, Raw.i32_signExtend]; rfl) (by intro h; rw [h])]
  rw [fold_Bytes (s' := { nonce := b.nonce, to := b.to, amount := b.amount, domain := b.domain, variant := b.variant, auctioneer := b.auctioneer }) rfl (by intro h; rw [h])]
  rw [fold_Bytes (s' := b) (by simp only [TransferBody.merge, Raw.string_of hfee]; rfl) (by intro h; rw [← h])]
  rfl

theorem WithdrawBody.merge_fields (b : WithdrawBody) (hamount : utf8 b.amount = true) (hfee : utf8 b.fee = true) :
    (b.fields.map rawField).foldlM WithdrawBody.merge {} = some b := by
  unfold WithdrawBody.fields
  simp only [List.map_append]
  rw [← List.append_nil ((fBytes 7 b.fee).map rawField)]
  rw [fold_U64 (s' := { nonce := b.nonce }) (by simp only [WithdrawBody.merge, Raw.u64_toNat]; rfl) (by intro h; rw [h])]
  rw [fold_Bytes (s' := { nonce := b.nonce, account := b.account }) rfl (by intro h; rw [h])]
  rw [fold_Bytes (s' := { nonce := b.nonce, account := b.account, amount := b.amount }) (by simp only [WithdrawBody.merge, Raw.string_of hamount]; rfl) (by intro h; rw [h])]
  rw [fold_Bytes (s' := { nonce := b.nonce, account := b.account, amount := b.amount, domain := b.domain }) rfl (by intro h; rw [h])]
  rw [fold_Enum (s' := { nonce := b.nonce, account := b.account, amount := b.amount, domain := b.domain, variant := b.variant }) (by simp only [WithdrawBody.merge, Raw.i32_signExtend]; rfl) (by intro h; rw [h])]
  rw [fold_Bytes (s' := { nonce := b.nonce, account := b.account, amount := b.amount, domain := b.domain, variant := b.variant, auctioneer := b.auctioneer }) rfl (by intro h; rw [h])]
  rw [fold_Bytes (s' := b) (by simp only [WithdrawBody.merge, Raw.string_of hfee]; rfl) (by intro h; rw [← h])]
  rfl

theorem RequestBody.merge_fields (b : RequestBody) (hversion : utf8 b.version = true) (hstdinUri : utf8 b.stdinUri = true) (hbaseFee : utf8 b.baseFee = true) (hmaxPricePerPgu : utf8 b.maxPricePerPgu = true) :
    (b.fields.map rawField).foldlM RequestBody.merge {} = some b := by
  unfold RequestBody.fields
  simp only [List.map_append]
  rw [← List.append_nil ((fBool 21 b.stdinPrivate).map rawField)]
  rw [fold_U64 (s' := { nonce := b.nonce }) (by simp only [RequestBody.merge, Raw.u64_toNat]; rfl) (by intro h; rw [h])]
  rw [fold_Bytes (s' := { nonce := b.nonce, vkHash := b.vkHash }) rfl (by intro h; rw [h])]
  rw [fold_Bytes (s' := { nonce := b.nonce, vkHash := b.vkHash, version := b.version }) (by simp only [RequestBody.merge, Raw.string_of hversion]; rfl) (by intro h; rw [h])]
  rw [fold_Enum (s' := { nonce := b.nonce, vkHash := b.vkHash, version := b.version, mode := b.mode }) (by simp only [RequestBody.merge, Raw.i32_signExtend]; rfl) (by intro h; rw [h])]
  rw [fold_Enum (s' := { nonce := b.nonce, vkHash := b.vkHash, version := b.version, mode := b.mode, strategy := b.strategy }) (by simp only [RequestBody.merge, Raw.i32_signExtend]; rfl) (by intro h; rw [h])]
  rw [fold_Bytes (s' := { nonce := b.nonce, vkHash := b.vkHash, version := b.version, mode := b.mode, strategy := b.strategy, stdinUri := b.stdinUri }) (by simp only [RequestBody.merge, Raw.string_of hstdinUri]; rfl) (by intro h; rw [h])]
  rw [fold_U64 (s' := { nonce := b.nonce, vkHash := b.vkHash, version := b.version, mode := b.mode, strategy := b.strategy, stdinUri := b.stdinUri, deadline := b.deadline }) (by simp only [RequestBody.merge, Raw.u64_toNat]; rfl) (by intro h; rw [h])]
  rw [fold_U64 (s' := { nonce := b.nonce, vkHash := b.vkHash, version := b.version, mode := b.mode, strategy := b.strategy, stdinUri := b.stdinUri, deadline := b.deadline, cycleLimit := b.cycleLimit }) (by simp only [RequestBody.merge, Raw.u64_toNat]; rfl) (by intro h; rw [h])]
  rw [fold_U64 (s' := { nonce := b.nonce, vkHash := b.vkHash, version := b.version, mode := b.mode, strategy := b.strategy, stdinUri := b.stdinUri, deadline := b.deadline, cycleLimit := b.cycleLimit, gasLimit := b.gasLimit }) (by simp only [RequestBody.merge, Raw.u64_toNat]; rfl) (by intro h; rw [h])]
  rw [fold_U64 (s' := { nonce := b.nonce, vkHash := b.vkHash, version := b.version, mode := b.mode, strategy := b.strategy, stdinUri := b.stdinUri, deadline := b.deadline, cycleLimit := b.cycleLimit, gasLimit := b.gasLimit, minAuctionPeriod := b.minAuctionPeriod }) (by simp only [RequestBody.merge, Raw.u64_toNat]; rfl) (by intro h; rw [h])]
  rw [fold_Rep (m := RequestBody.merge) (s := { nonce := b.nonce, vkHash := b.vkHash, version := b.version, mode := b.mode, strategy := b.strategy, stdinUri := b.stdinUri, deadline := b.deadline, cycleLimit := b.cycleLimit, gasLimit := b.gasLimit, minAuctionPeriod := b.minAuctionPeriod }) (s' := { nonce := b.nonce, vkHash := b.vkHash, version := b.version, mode := b.mode, strategy := b.strategy, stdinUri := b.stdinUri, deadline := b.deadline, cycleLimit := b.cycleLimit, gasLimit := b.gasLimit, minAuctionPeriod := b.minAuctionPeriod, whitelist := b.whitelist })
    (g := fun l => { nonce := b.nonce, vkHash := b.vkHash, version := b.version, mode := b.mode, strategy := b.strategy, stdinUri := b.stdinUri, deadline := b.deadline, cycleLimit := b.cycleLimit, gasLimit := b.gasLimit, minAuctionPeriod := b.minAuctionPeriod, whitelist := l }) (by intro l v; rfl) rfl rfl]
  rw [fold_Bytes (s' := { nonce := b.nonce, vkHash := b.vkHash, version := b.version, mode := b.mode, strategy := b.strategy, stdinUri := b.stdinUri, deadline := b.deadline, cycleLimit := b.cycleLimit, gasLimit := b.gasLimit, minAuctionPeriod := b.minAuctionPeriod, whitelist := b.whitelist, domain := b.domain }) rfl (by intro h; rw [h])]
  rw [fold_Bytes (s' := { nonce := b.nonce, vkHash := b.vkHash, version := b.version, mode := b.mode, strategy := b.strategy, stdinUri := b.stdinUri, deadline := b.deadline, cycleLimit := b.cycleLimit, gasLimit := b.gasLimit, minAuctionPeriod := b.minAuctionPeriod, whitelist := b.whitelist, domain := b.domain, auctioneer := b.auctioneer }) rfl (by intro h; rw [h])]
  rw [fold_Bytes (s' := { nonce := b.nonce, vkHash := b.vkHash, version := b.version, mode := b.mode, strategy := b.strategy, stdinUri := b.stdinUri, deadline := b.deadline, cycleLimit := b.cycleLimit, gasLimit := b.gasLimit, minAuctionPeriod := b.minAuctionPeriod, whitelist := b.whitelist, domain := b.domain, auctioneer := b.auctioneer, executor := b.executor }) rfl (by intro h; rw [h])]
  rw [fold_Bytes (s' := { nonce := b.nonce, vkHash := b.vkHash, version := b.version, mode := b.mode, strategy := b.strategy, stdinUri := b.stdinUri, deadline := b.deadline, cycleLimit := b.cycleLimit, gasLimit := b.gasLimit, minAuctionPeriod := b.minAuctionPeriod, whitelist := b.whitelist, domain := b.domain, auctioneer := b.auctioneer, executor := b.executor, verifier := b.verifier }) rfl (by intro h; rw [h])]
  rw [fold_OptBytes (s' := { nonce := b.nonce, vkHash := b.vkHash, version := b.version, mode := b.mode, strategy := b.strategy, stdinUri := b.stdinUri, deadline := b.deadline, cycleLimit := b.cycleLimit, gasLimit := b.gasLimit, minAuctionPeriod := b.minAuctionPeriod, whitelist := b.whitelist, domain := b.domain, auctioneer := b.auctioneer, executor := b.executor, verifier := b.verifier, publicValuesHash := b.publicValuesHash }) (by intro v h; rw [h]; rfl) (by intro h; rw [h])]
  rw [fold_Bytes (s' := { nonce := b.nonce, vkHash := b.vkHash, version := b.version, mode := b.mode, strategy := b.strategy, stdinUri := b.stdinUri, deadline := b.deadline, cycleLimit := b.cycleLimit, gasLimit := b.gasLimit, minAuctionPeriod := b.minAuctionPeriod, whitelist := b.whitelist, domain := b.domain, auctioneer := b.auctioneer, executor := b.executor, verifier := b.verifier, publicValuesHash := b.publicValuesHash, baseFee := b.baseFee }) (by simp only [RequestBody.merge, Raw.string_of hbaseFee]; rfl) (by intro h; rw [h])]
  rw [fold_Bytes (s' := { nonce := b.nonce, vkHash := b.vkHash, version := b.version, mode := b.mode, strategy := b.strategy, stdinUri := b.stdinUri, deadline := b.deadline, cycleLimit := b.cycleLimit, gasLimit := b.gasLimit, minAuctionPeriod := b.minAuctionPeriod, whitelist := b.whitelist, domain := b.domain, auctioneer := b.auctioneer, executor := b.executor, verifier := b.verifier, publicValuesHash := b.publicValuesHash, baseFee := b.baseFee, maxPricePerPgu := b.maxPricePerPgu }) (by simp only [RequestBody.merge, Raw.string_of hmaxPricePerPgu]; rfl) (by intro h; rw [h])]
  rw [fold_Enum (s' := { nonce := b.nonce, vkHash := b.vkHash, version := b.version, mode := b.mode, strategy := b.strategy, stdinUri := b.stdinUri, deadline := b.deadline, cycleLimit := b.cycleLimit, gasLimit := b.gasLimit, minAuctionPeriod := b.minAuctionPeriod, whitelist := b.whitelist, domain := b.domain, auctioneer := b.auctioneer, executor := b.executor, verifier := b.verifier, publicValuesHash := b.publicValuesHash, baseFee := b.baseFee, maxPricePerPgu := b.maxPricePerPgu, variant := b.variant }) (by simp only [RequestBody.merge, Raw.i32_signExtend]; rfl) (by intro h; rw [h])]
  rw [fold_Bytes (s' := { nonce := b.nonce, vkHash := b.vkHash, version := b.version, mode := b.mode, strategy := b.strategy, stdinUri := b.stdinUri, deadline := b.deadline, cycleLimit := b.cycleLimit, gasLimit := b.gasLimit, minAuctionPeriod := b.minAuctionPeriod, whitelist := b.whitelist, domain := b.domain, auctioneer := b.auctioneer, executor := b.executor, verifier := b.verifier, publicValuesHash := b.publicValuesHash, baseFee := b.baseFee, maxPricePerPgu := b.maxPricePerPgu, variant := b.variant, treasury := b.treasury }) rfl (by intro h; rw [h])]
  rw [fold_Bool (s' := b) (by intro h; cases b; simp only at h; subst h; rfl) (by intro h; rw [← h])]
  rfl

theorem BidBody.merge_fields (b : BidBody) (hamount : utf8 b.amount = true) :
    (b.fields.map rawField).foldlM BidBody.merge {} = some b := by
  unfold BidBody.fields
  simp only [List.map_append]
  rw [← List.append_nil ((fEnum 6 b.variant).map rawField)]
  rw [fold_U64 (s' := { nonce := b.nonce }) (by simp only [BidBody.merge, Raw.u64_toNat]; rfl) (by intro h; rw [h])]
  rw [fold_Bytes (s' := { nonce := b.nonce, requestId := b.requestId }) rfl (by intro h; rw [h])]
  rw [fold_Bytes (s' := { nonce := b.nonce, requestId := b.requestId, amount := b.amount }) (by simp only [BidBody.merge, Raw.string_of hamount]; rfl) (by intro h; rw [h])]
  rw [fold_Bytes (s' := { nonce := b.nonce, requestId := b.requestId, amount := b.amount, domain := b.domain }) rfl (by intro h; rw [h])]
  rw [fold_Bytes (s' := { nonce := b.nonce, requestId := b.requestId, amount := b.amount, domain := b.domain, prover := b.prover }) rfl (by intro h; rw [h])]
  rw [fold_Enum (s' := b) (by simp only [BidBody.merge, Raw.i32_signExtend]; rfl) (by intro h; rw [← h])]
  rfl

theorem SettleBody.merge_fields (b : SettleBody) :
    (b.fields.map rawField).foldlM SettleBody.merge {} = some b := by
  unfold SettleBody.fields
  simp only [List.map_append]
  rw [← List.append_nil ((fEnum 5 b.variant).map rawField)]
  rw [fold_U64 (s' := { nonce := b.nonce }) (by simp only [SettleBody.merge, Raw.u64_toNat]; rfl) (by intro h; rw [h])]
  rw [fold_Bytes (s' := { nonce := b.nonce, requestId := b.requestId }) rfl (by intro h; rw [h])]
  rw [fold_Bytes (s' := { nonce := b.nonce, requestId := b.requestId, winner := b.winner }) rfl (by intro h; rw [h])]
  rw [fold_Bytes (s' := { nonce := b.nonce, requestId := b.requestId, winner := b.winner, domain := b.domain }) rfl (by intro h; rw [h])]
  rw [fold_Enum (s' := b) (by simp only [SettleBody.merge, Raw.i32_signExtend]; rfl) (by intro h; rw [← h])]
  rfl

theorem ExecuteBody.merge_fields (b : ExecuteBody) (hpunishment : ∀ v, b.punishment = some v → utf8 v = true) :
    (b.fields.map rawField).foldlM ExecuteBody.merge {} = some b := by
  unfold ExecuteBody.fields
  simp only [List.map_append]
  rw [← List.append_nil ((fEnum 10 b.variant).map rawField)]
  rw [fold_U64 (s' := { nonce := b.nonce }) (by simp only [ExecuteBody.merge, Raw.u64_toNat]; rfl) (by intro h; rw [h])]
  rw [fold_Bytes (s' := { nonce := b.nonce, requestId := b.requestId }) rfl (by intro h; rw [h])]
  rw [fold_Enum (s' := { nonce := b.nonce, requestId := b.requestId, executionStatus := b.executionStatus }) (by simp only [ExecuteBody.merge, Raw.i32_signExtend]; rfl) (by intro h; rw [h])]
  rw [fold_OptBytes (s' := { nonce := b.nonce, requestId := b.requestId, executionStatus := b.executionStatus, publicValuesHash := b.publicValuesHash }) (by intro v h; rw [h]; rfl) (by intro h; rw [h])]
  rw [fold_OptU64 (s' := { nonce := b.nonce, requestId := b.requestId, executionStatus := b.executionStatus, publicValuesHash := b.publicValuesHash, cycles := b.cycles }) (by intro v h; simp only [ExecuteBody.merge, Raw.u64_toNat, h]; rfl) (by intro h; rw [h])]
  rw [fold_OptU64 (s' := { nonce := b.nonce, requestId := b.requestId, executionStatus := b.executionStatus, publicValuesHash := b.publicValuesHash, cycles := b.cycles, pgus := b.pgus }) (by intro v h; simp only [ExecuteBody.merge, Raw.u64_toNat, h]; rfl) (by intro h; rw [h])]
  rw [fold_Bytes (s' := { nonce := b.nonce, requestId := b.requestId, executionStatus := b.executionStatus, publicValuesHash := b.publicValuesHash, cycles := b.cycles, pgus := b.pgus, domain := b.domain }) rfl (by intro h; rw [h])]
  rw [fold_OptBytes (s' := { nonce := b.nonce, requestId := b.requestId, executionStatus := b.executionStatus, publicValuesHash := b.publicValuesHash, cycles := b.cycles, pgus := b.pgus, domain := b.domain, punishment := b.punishment }) (by intro v h; simp only [ExecuteBody.merge, Raw.string_of (hpunishment v h), h]; rfl) (by intro h; rw [h])]
  rw [fold_OptEnum (s' := { nonce := b.nonce, requestId := b.requestId, executionStatus := b.executionStatus, publicValuesHash := b.publicValuesHash, cycles := b.cycles, pgus := b.pgus, domain := b.domain, punishment := b.punishment, failureCause := b.failureCause }) (by intro v h; simp only [ExecuteBody.merge, Raw.i32_signExtend, h]; rfl) (by intro h; rw [h])]
  rw [fold_Enum (s' := b) (by simp only [ExecuteBody.merge, Raw.i32_signExtend]; rfl) (by intro h; rw [← h])]
  rfl

theorem FulfillBody.merge_fields (b : FulfillBody) :
    (b.fields.map rawField).foldlM FulfillBody.merge {} = some b := by
  unfold FulfillBody.fields
  simp only [List.map_append]
  rw [← List.append_nil ((fEnum 6 b.variant).map rawField)]
  rw [fold_U64 (s' := { nonce := b.nonce }) (by simp only [FulfillBody.merge, Raw.u64_toNat]; rfl) (by intro h; rw [h])]
  rw [fold_Bytes (s' := { nonce := b.nonce, requestId := b.requestId }) rfl (by intro h; rw [h])]
  rw [fold_Bytes (s' := { nonce := b.nonce, requestId := b.requestId, proof := b.proof }) rfl (by intro h; rw [h])]
  rw [fold_OptMsg (s' := { nonce := b.nonce, requestId := b.requestId, proof := b.proof, reservedMetadata := b.reservedMetadata }) (by intro v h; simp only [FulfillBody.merge, Raw.metadata_enc, h]; rfl) (by intro h; rw [h])]
  rw [fold_Bytes (s' := { nonce := b.nonce, requestId := b.requestId, proof := b.proof, reservedMetadata := b.reservedMetadata, domain := b.domain }) rfl (by intro h; rw [h])]
  rw [fold_Enum (s' := b) (by simp only [FulfillBody.merge, Raw.i32_signExtend]; rfl) (by intro h; rw [← h])]
  rfl

end Verif
