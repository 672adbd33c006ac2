import Verif.Config
/-
# Property C116: what the deployment scripts take from the configuration
-/

namespace Verif.Config
open L1

/-! ## Specification -/

/-- The environment gives no address for a key: it is not set, or set to the zero address. -/
def EnvSilent (ch : Cheats) (st : Store) (key : String) : Prop :=
  st.env key = none ∨ ∃ t, st.env key = some t ∧ ch.addr t = some 0

/-- The configuration says that the address of `key` is `a`: in the environment, or, if that is silent, in the file. -/
inductive SaysAddress (ch : Cheats) (st : Store) (key : String) (a : Address) : Prop
  | env (t : String) (h1 : st.env key = some t) (h2 : ch.addr t = some a) (h3 : a ≠ 0)
  | file (f : String → Option String) (t : String) (h1 : EnvSilent ch st key) (h2 : st.file = some f)
      (h3 : f key = some t) (h4 : ch.addr t = some a)

/-- The same for a hash. -/
inductive SaysHash (ch : Cheats) (st : Store) (key : String) (a : B256) : Prop
  | env (t : String) (h1 : st.env key = some t) (h2 : ch.b32 t = some a) (h3 : a ≠ 0)
  | file (f : String → Option String) (t : String)
      (h1 : st.env key = none ∨ ∃ t, st.env key = some t ∧ ch.b32 t = some 0) (h2 : st.file = some f)
      (h3 : f key = some t) (h4 : ch.b32 t = some a)

/-- A number, which only the environment gives. -/
def SaysNumber (ch : Cheats) (st : Store) (key : String) (n : U256) : Prop :=
  ∃ t, st.env key = some t ∧ ch.uint t = some n

/-- Neither the environment nor the file gives an address for a key. -/
def Unknown (ch : Cheats) (st : Store) (key : String) : Prop :=
  EnvSilent ch st key ∧ ∀ f, st.file = some f → f key = none

/-- The keys of the four contracts that a deployment creates. -/
def fourKeys : List String := ["STAKING", "VAPP", "I_PROVE", "GOVERNOR"]

/-! ## Lemmas -/

section
variable {ch : Cheats}

theorem cbind_ok {α β : Type} {m : Except ConfigErr α} {f : α → Except ConfigErr β} {r : β} :
    (m >>= f) = .ok r ↔ ∃ a, m = .ok a ∧ f a = .ok r := by
  cases m with
  | ok a => exact ⟨fun h => ⟨a, rfl, h⟩, fun ⟨_, e, h⟩ => by cases e; exact h⟩
  | error e => exact ⟨fun h => (nomatch h), fun ⟨_, e, _⟩ => (nomatch e)⟩

theorem parsed_ok {α : Type} {o : Option α} {a : α} : parsed o = .ok a ↔ o = some a := by
  cases o with
  | none => exact ⟨fun h => (nomatch h), fun h => (nomatch h)⟩
  | some b => exact ⟨fun h => by cases h; rfl, fun h => by cases h; rfl⟩

theorem fileEntry_ok {st : Store} {key t : String} :
    fileEntry st key = .ok t ↔ ∃ f, st.file = some f ∧ f key = some t := by
  unfold fileEntry
  cases st.file with
  | none => exact ⟨fun h => (nomatch h), fun ⟨_, h, _⟩ => (nomatch h)⟩
  | some f =>
    dsimp only
    cases e : f key with
    | none => exact ⟨fun h => (nomatch h), fun ⟨_, h, h'⟩ => by cases h; rw [e] at h'; exact nomatch h'⟩
    | some u =>
      exact ⟨fun h => by cases h; exact ⟨f, rfl, e⟩, fun ⟨_, h, h'⟩ => by cases h; rw [e] at h'; cases h'; rfl⟩

theorem pure_ok' {α : Type} {a b : α} : (pure a : Except ConfigErr α) = .ok b ↔ a = b :=
  ⟨fun h => by cases h; rfl, fun h => by rw [h]; rfl⟩

end

/-! ## The property -/

/-- **C116 (reading).** A script gets an address exactly if the configuration says it, and then that one; the environment
wins over the file, but cannot set an address back to zero. -/
theorem c116_reads (ch : Cheats) (st : Store) (key : String) (a : Address) :
    readAddress ch st key = .ok a ↔ SaysAddress ch st key a := by
  unfold readAddress
  rw [cbind_ok]
  unfold envAddress
  constructor
  · rintro ⟨b, h1, h2⟩
    have hb : (EnvSilent ch st key ∧ b = 0) ∨ ∃ t, st.env key = some t ∧ ch.addr t = some b := by
      cases e : st.env key with
      | none => rw [e] at h1; cases h1; exact .inl ⟨.inl e, rfl⟩
      | some t => rw [e] at h1; exact .inr ⟨t, rfl, parsed_ok.mp h1⟩
    by_cases h0 : b = 0
    · rw [if_neg (fun h => h h0)] at h2
      obtain ⟨t, h3, h4⟩ := cbind_ok.mp h2
      obtain ⟨f, h5, h6⟩ := fileEntry_ok.mp h3
      refine .file f t ?_ h5 h6 (parsed_ok.mp h4)
      rcases hb with ⟨hb, _⟩ | ⟨u, hb, hb'⟩
      · exact hb
      · exact .inr ⟨u, hb, by rw [hb', h0]⟩
    · rw [if_pos h0] at h2
      have e := pure_ok'.mp h2
      subst e
      rcases hb with ⟨_, hb⟩ | ⟨u, hb, hb'⟩
      · exact absurd hb h0
      · exact .env u hb hb' h0
  · intro h
    cases h with
    | env t h1 h2 h3 =>
      refine ⟨a, by rw [h1]; exact parsed_ok.mpr h2, ?_⟩
      rw [if_pos h3]; rfl
    | file f t h1 h2 h3 h4 =>
      refine ⟨0, ?_, ?_⟩
      · rcases h1 with h1 | ⟨u, h1, h1'⟩
        · rw [h1]
        · rw [h1]; exact parsed_ok.mpr h1'
      · rw [if_neg (fun h => h rfl), cbind_ok]
        exact ⟨t, fileEntry_ok.mpr ⟨f, h2, h3⟩, parsed_ok.mpr h4⟩

/-- The same for a hash. -/
theorem c116_reads_hash (ch : Cheats) (st : Store) (key : String) (a : B256) :
    readBytes32 ch st key = .ok a ↔ SaysHash ch st key a := by
  unfold readBytes32
  rw [cbind_ok]
  unfold envBytes32
  constructor
  · rintro ⟨b, h1, h2⟩
    have hb : (st.env key = none ∧ b = 0) ∨ ∃ t, st.env key = some t ∧ ch.b32 t = some b := by
      cases e : st.env key with
      | none => rw [e] at h1; cases h1; exact .inl ⟨rfl, rfl⟩
      | some t => rw [e] at h1; exact .inr ⟨t, rfl, parsed_ok.mp h1⟩
    by_cases h0 : b = 0
    · rw [if_neg (fun h => h h0)] at h2
      obtain ⟨t, h3, h4⟩ := cbind_ok.mp h2
      obtain ⟨f, h5, h6⟩ := fileEntry_ok.mp h3
      refine .file f t ?_ h5 h6 (parsed_ok.mp h4)
      rcases hb with ⟨hb, _⟩ | ⟨u, hb, hb'⟩
      · exact .inl hb
      · exact .inr ⟨u, hb, by rw [hb', h0]⟩
    · rw [if_pos h0] at h2
      have e := pure_ok'.mp h2
      subst e
      rcases hb with ⟨_, hb⟩ | ⟨u, hb, hb'⟩
      · exact absurd hb h0
      · exact .env u hb hb' h0
  · intro h
    cases h with
    | env t h1 h2 h3 =>
      refine ⟨a, by rw [h1]; exact parsed_ok.mpr h2, ?_⟩
      rw [if_pos h3]; rfl
    | file f t h1 h2 h3 h4 =>
      refine ⟨0, ?_, ?_⟩
      · rcases h1 with h1 | ⟨u, h1, h1'⟩
        · rw [h1]
        · rw [h1]; exact parsed_ok.mpr h1'
      · rw [if_neg (fun h => h rfl), cbind_ok]
        exact ⟨t, fileEntry_ok.mpr ⟨f, h2, h3⟩, parsed_ok.mpr h4⟩

theorem readUint256_ok {ch : Cheats} {st : Store} {key : String} {n : U256} :
    readUint256 ch st key = .ok n ↔ SaysNumber ch st key n := by
  unfold readUint256 SaysNumber
  cases st.env key with
  | none => exact ⟨fun h => (nomatch h), fun ⟨_, h, _⟩ => (nomatch h)⟩
  | some t => exact ⟨fun h => ⟨t, rfl, parsed_ok.mp h⟩, fun ⟨_, h, h'⟩ => by cases h; exact parsed_ok.mpr h'⟩

theorem readUint48_ok {ch : Cheats} {st : Store} {key : String} {m : BitVec 48} :
    readUint48 ch st key = .ok m ↔ ∃ n, SaysNumber ch st key n ∧ m.toNat = n.toNat % 2 ^ 48 := by
  unfold readUint48
  rw [cbind_ok]
  constructor
  · rintro ⟨n, h1, h2⟩
    cases pure_ok'.mp h2
    exact ⟨n, readUint256_ok.mp h1, BitVec.toNat_setWidth ..⟩
  · rintro ⟨n, h1, h2⟩
    refine ⟨n, readUint256_ok.mpr h1, pure_ok'.mpr (BitVec.eq_of_toNat_eq ?_)⟩
    rw [h2]; exact BitVec.toNat_setWidth ..

theorem readUint32_ok {ch : Cheats} {st : Store} {key : String} {m : BitVec 32} :
    readUint32 ch st key = .ok m ↔ ∃ n, SaysNumber ch st key n ∧ m.toNat = n.toNat % 2 ^ 32 := by
  unfold readUint32
  rw [cbind_ok]
  constructor
  · rintro ⟨n, h1, h2⟩
    cases pure_ok'.mp h2
    exact ⟨n, readUint256_ok.mp h1, BitVec.toNat_setWidth ..⟩
  · rintro ⟨n, h1, h2⟩
    refine ⟨n, readUint256_ok.mpr h1, pure_ok'.mpr (BitVec.eq_of_toNat_eq ?_)⟩
    rw [h2]; exact BitVec.toNat_setWidth ..

/-- **C116 (the atomic script).** The parameters of a run of the atomic script are those of the configuration, each from
the key that bears its name, up to the upper bits of the voting delay and period, which are dropped; and a configuration
that has all of them is enough. -/
theorem c116_atomic_partial (ch : Cheats) (x : Chain) (st : Store) (salt : B256) (p1 : Params1) (p2 : Params2)
    (p3 : Params3) :
    atomicParams ch x st = .ok (salt, p1, p2, p3) ↔
      SaysHash ch st "CREATE2_SALT" salt ∧
      x.create salt .stakingImpl = some p1.stakingImpl ∧ x.create salt .vappImpl = some p2.vappImpl ∧
      SaysAddress ch st "PROVE" p1.prove ∧
      (∃ n, SaysNumber ch st "VOTING_DELAY" n ∧ p1.votingDelay.toNat = n.toNat % 2 ^ 48) ∧
      (∃ n, SaysNumber ch st "VOTING_PERIOD" n ∧ p1.votingPeriod.toNat = n.toNat % 2 ^ 32) ∧
      SaysNumber ch st "PROPOSAL_THRESHOLD" p1.proposalThreshold ∧
      SaysNumber ch st "QUORUM_FRACTION" p1.quorumFraction ∧
      SaysAddress ch st "OWNER" p2.owner ∧ SaysAddress ch st "AUCTIONEER" p2.auctioneer ∧
      SaysAddress ch st "VERIFIER" p2.verifier ∧ SaysNumber ch st "MIN_DEPOSIT_AMOUNT" p2.minDepositAmount ∧
      SaysHash ch st "VKEY" p2.vkey ∧
      SaysAddress ch st "DISPENSER" p3.dispenser ∧ SaysNumber ch st "MIN_STAKE_AMOUNT" p3.minStakeAmount ∧
      SaysNumber ch st "MAX_UNSTAKE_REQUESTS" p3.maxUnstakeRequests ∧
      SaysNumber ch st "UNSTAKE_PERIOD" p3.unstakePeriod ∧
      SaysNumber ch st "SLASH_CANCELLATION_PERIOD" p3.slashCancellationPeriod ∧
      SaysHash ch st "GENESIS_STATE_ROOT" p3.genesisStateRoot := by
  have hcr : ∀ s k a, create x s k = .ok a ↔ x.create s k = some a := by
    intro s k a
    unfold create
    cases x.create s k with
    | none => exact ⟨fun h => (nomatch h), fun h => (nomatch h)⟩
    | some b => exact ⟨fun h => by cases h; rfl, fun h => by cases h; rfl⟩
  unfold atomicParams
  simp only [cbind_ok, c116_reads, c116_reads_hash, readUint256_ok, readUint48_ok, readUint32_ok, hcr, pure_ok']
  constructor
  · rintro ⟨s, a1, ow, a2, pr, a3, ve, a4, si, a5, vi, a6, vd, a7, vp, a8, pt, a9, qf, a10, au, a11, md, a12, vk, a13, di, a14,
      ms, a15, mu, a16, up, a17, sc, a18, gr, a19, e⟩
    cases e
    exact ⟨a1, a5, a6, a3, a7, a8, a9, a10, a2, a11, a4, a12, a13, a14, a15, a16, a17, a18, a19⟩
  · rintro ⟨a1, a5, a6, a3, a7, a8, a9, a10, a2, a11, a4, a12, a13, a14, a15, a16, a17, a18, a19⟩
    exact ⟨_, a1, _, a2, _, a3, _, a4, _, a5, _, a6, _, a7, _, a8, _, a9, _, a10, _, a11, _, a12, _, a13, _, a14, _, a15, _, a16,
      _, a17, _, a18, _, a19, rfl⟩

/-- **C116 (handing on).** After the atomic script has written the addresses, every later script reads them, unless the
environment has another address under the same key: then that one is read, whatever was deployed. Other keys read as
before. -/
theorem c116_handed_on_partial (ch : Cheats) (hr : ∀ a, ch.addr (ch.showAddr a) = some a) (st : Store)
    (staking vapp iprove governor stakingImpl vappImpl : Address) :
    (∀ key a, (key, a) ∈ [("STAKING", staking), ("VAPP", vapp), ("I_PROVE", iprove), ("GOVERNOR", governor),
        ("STAKING_IMPL", stakingImpl), ("VAPP_IMPL", vappImpl)] →
      (EnvSilent ch st key →
        readAddress ch (atomicWrites ch st staking vapp iprove governor stakingImpl vappImpl) key = .ok a) ∧
      ∀ t b, st.env key = some t → ch.addr t = some b → b ≠ 0 →
        readAddress ch (atomicWrites ch st staking vapp iprove governor stakingImpl vappImpl) key = .ok b) ∧
    ∀ key b, key ∉ ["STAKING", "VAPP", "I_PROVE", "GOVERNOR", "STAKING_IMPL", "VAPP_IMPL"] →
      (readAddress ch (atomicWrites ch st staking vapp iprove governor stakingImpl vappImpl) key = .ok b ↔
        readAddress ch st key = .ok b) := by
  refine ⟨fun key a hk => ⟨fun hs => ?_, fun t b h1 h2 h3 => ?_⟩, fun key b hk => ?_⟩
  · refine (c116_reads ..).mpr (.file _ (ch.showAddr a) hs rfl ?_ (hr a))
    simp only [List.mem_cons, Prod.mk.injEq, List.not_mem_nil, or_false] at hk
    rcases hk with ⟨rfl, rfl⟩ | ⟨rfl, rfl⟩ | ⟨rfl, rfl⟩ | ⟨rfl, rfl⟩ | ⟨rfl, rfl⟩ | ⟨rfl, rfl⟩ <;> rfl
  · exact (c116_reads ..).mpr (.env t h1 h2 h3)
  · rw [c116_reads, c116_reads]
    simp only [List.mem_cons, List.not_mem_nil, or_false, not_or] at hk
    obtain ⟨k1, k2, k3, k4, k5, k6⟩ := hk
    have he : ((atomicWrites ch st staking vapp iprove governor stakingImpl vappImpl).file.getD fun _ => none) key =
        (st.file.getD fun _ => none) key := by
      simp only [atomicWrites, writeAddress, Option.getD_some, if_neg k1, if_neg k2, if_neg k3, if_neg k4, if_neg k5, if_neg k6]
    constructor
    · intro h
      cases h with
      | env t h1 h2 h3 => exact .env t h1 h2 h3
      | file f t h1 h2 h3 h4 =>
        have := he
        rw [h2] at this
        dsimp only [Option.getD_some] at this
        rw [h3] at this
        cases e : st.file with
        | none => rw [e] at this; exact nomatch this
        | some g =>
          rw [e] at this
          exact .file g t h1 e this.symm h4
    · intro h
      cases h with
      | env t h1 h2 h3 => exact .env t h1 h2 h3
      | file f t h1 h2 h3 h4 =>
        refine .file _ t h1 rfl ?_ h4
        have := he
        rw [h2] at this
        exact this.trans h3

/-! ### The scripts for single contracts -/

theorem Unknown.not_read {ch : Cheats} {st : Store} {key : String} (h : Unknown ch st key) (a : Address) :
    readAddress ch st key ≠ .ok a := by
  intro hr
  cases (c116_reads ..).mp hr with
  | env t h1 h2 h3 =>
    rcases h.1 with h0 | ⟨u, h0, h0'⟩
    · rw [h1] at h0; exact nomatch h0
    · rw [h1] at h0; cases h0
      rw [h2] at h0'; cases h0'; exact h3 rfl
  | file f t h1 h2 h3 h4 => rw [h.2 f h2] at h3; exact nomatch h3

theorem Unknown.write {ch : Cheats} {st : Store} {key k : String} (h : Unknown ch st key) (hk : key ≠ k) (a : Address) :
    Unknown ch (writeAddress ch st k a) key := by
  refine ⟨h.1, ?_⟩
  intro f hf
  cases hf
  dsimp only
  rw [if_neg hk]
  cases e : st.file with
  | none => rfl
  | some g => exact h.2 g e

/-- **C116 (single contracts).** From a configuration that knows none of the four contracts, the scripts for single
contracts never deploy any of them: in whatever order, how often and with whatever answers of the chain they are run, none
of the four scripts ever succeeds, and the file never gets one of the four addresses. -/
theorem c116_stuck (ch : Cheats) (st : Store) (hu : ∀ k ∈ fourKeys, Unknown ch st k) (h : List (Script × Chain)) :
    (∀ k ∈ fourKeys, Unknown ch (runScripts ch st h) k) ∧
    ∀ s x st', Script.run ch x (runScripts ch st h) s = .ok st' → s = .prove := by
  have key : ∀ st : Store, (∀ k ∈ fourKeys, Unknown ch st k) → ∀ (s : Script) x st', s.run ch x st = .ok st' → s = .prove := by
    intro st hu s x st' hs
    have u1 := hu "STAKING" (by decide)
    have u2 := hu "VAPP" (by decide)
    have u3 := hu "I_PROVE" (by decide)
    cases s with
    | prove => rfl
    | staking =>
      simp only [Script.run, stakingScript, cbind_ok] at hs
      obtain ⟨_, _, _, _, _, _, a, ha, _⟩ := hs
      exact absurd ha (u2.not_read a)
    | iprove =>
      simp only [Script.run, iproveScript, cbind_ok] at hs
      obtain ⟨_, _, _, _, a, ha, _⟩ := hs
      exact absurd ha (u1.not_read a)
    | governor =>
      simp only [Script.run, governorScript, cbind_ok] at hs
      obtain ⟨_, _, a, ha, _⟩ := hs
      exact absurd ha (u3.not_read a)
    | vapp =>
      simp only [Script.run, vappScript, cbind_ok] at hs
      obtain ⟨_, _, _, _, _, _, a, ha, _⟩ := hs
      exact absurd ha (u3.not_read a)
    | vappUpgrade =>
      simp only [Script.run, vappUpgradeScript, cbind_ok] at hs
      obtain ⟨_, _, a, ha, _⟩ := hs
      exact absurd ha (u2.not_read a)
  suffices hk : ∀ k ∈ fourKeys, Unknown ch (runScripts ch st h) k from ⟨hk, key _ hk⟩
  induction h generalizing st with
  | nil => exact hu
  | cons y h ih =>
    obtain ⟨s, x⟩ := y
    unfold runScripts
    cases e : s.run ch x st with
    | error e => exact ih st hu
    | ok st' =>
      refine ih st' fun k hk => ?_
      have hs := key st hu s x st' e
      subst hs
      simp only [Script.run, proveScript, cbind_ok, pure_ok'] at e
      obtain ⟨_, _, _, _, a, _, rfl⟩ := e
      refine (hu k hk).write ?_ a
      rintro rfl
      exact absurd hk (by decide)

/-! ## Concrete cases, and what is false -/

namespace ToyConfig

/-- Texts stand for their length. -/
def cheats : Cheats where
  addr t := some (BitVec.ofNat 160 t.length)
  b32 t := some (BitVec.ofNat 256 t.length)
  uint t := if t = "281474976710657" then some 281474976710657 else some (BitVec.ofNat 256 t.length)
  showAddr a := String.ofList (List.replicate a.toNat 'x')

theorem roundTrip (a : Address) : cheats.addr (cheats.showAddr a) = some a := by
  simp [cheats]

/-- The keys of `contracts/.env.example`. -/
def env (delay : String) : String → Option String := fun k =>
  if k = "VOTING_DELAY" then some delay
  else if k ∈ ["CREATE2_SALT", "OWNER", "DISPENSER", "AUCTIONEER"] then some "xxxx"
  else if k ∈ ["MIN_STAKE_AMOUNT", "MAX_UNSTAKE_REQUESTS", "UNSTAKE_PERIOD", "SLASH_CANCELLATION_PERIOD", "DISPENSE_RATE",
    "MIN_DEPOSIT_AMOUNT", "VOTING_PERIOD", "PROPOSAL_THRESHOLD", "QUORUM_FRACTION"] then some "xx"
  else none

/-- The file of `contracts/DEPLOYMENT.md:46-55`. -/
def file : String → Option String := fun k =>
  if k ∈ ["VKEY", "GENESIS_STATE_ROOT", "PROVE", "VERIFIER"] then some "xxxxx" else none

def store (delay : String) : Store := ⟨env delay, some file⟩
def chain : Chain := ⟨fun _ _ => some 9, fun _ _ => true⟩

def params (delay : BitVec 48) : B256 × Params1 × Params2 × Params3 :=
  (4, ⟨9, 5, delay, 2, 2, 2⟩, ⟨9, 4, 4, 5, 2, 5⟩, ⟨4, 2, 2, 2, 2, 5⟩)

end ToyConfig

open ToyConfig in
/-- The documented configuration is enough for the atomic script, and knows none of the four contracts. -/
example : atomicParams cheats chain (store "xxx") = .ok (params 3) ∧ ∀ k ∈ fourKeys, Unknown cheats (store "xxx") k := by
  refine ⟨rfl, fun k hk => ?_⟩
  simp only [fourKeys, List.mem_cons, List.not_mem_nil, or_false] at hk
  rcases hk with rfl | rfl | rfl | rfl <;> exact ⟨.inl (by decide), fun f hf => by cases hf; decide⟩

/-- What `c116_atomic_partial` leaves open is false: a voting delay of 2^48 + 1 seconds in the configuration becomes one
second, and the script goes through. -/
theorem c116_atomic_false : ¬ ∀ (ch : Cheats) (x : Chain) (st : Store) salt p1 p2 p3 n,
    atomicParams ch x st = .ok (salt, p1, p2, p3) → SaysNumber ch st "VOTING_DELAY" n → p1.votingDelay.toNat = n.toNat := by
  intro h
  have := h ToyConfig.cheats ToyConfig.chain (ToyConfig.store "281474976710657") _ _ _ _ 281474976710657
    (show atomicParams _ _ _ = .ok (ToyConfig.params 1) from rfl) ⟨"281474976710657", rfl, rfl⟩
  exact absurd this (by decide)

/-- What `c116_handed_on_partial` leaves open is false: with an old address in the environment, as after the export that
`contracts/OPERATIONS.md:7-11` recommends, the scripts go on using that after a new deployment. -/
theorem c116_handed_on_false : ¬ ∀ (ch : Cheats) (_ : ∀ a, ch.addr (ch.showAddr a) = some a) (st : Store)
    (staking vapp iprove governor stakingImpl vappImpl : Address),
    readAddress ch (atomicWrites ch st staking vapp iprove governor stakingImpl vappImpl) "STAKING" = .ok staking := by
  intro h
  have := h ToyConfig.cheats ToyConfig.roundTrip ⟨fun k => if k = "STAKING" then some "x" else none, none⟩ 2 3 4 5 6 7
  rw [((c116_handed_on_partial ToyConfig.cheats ToyConfig.roundTrip _ 2 3 4 5 6 7).1 "STAKING" 2 (by simp)).2 "x" 1 rfl rfl
    (by decide)] at this
  exact absurd (Except.ok.inj this) (by decide)

/-- A file with the addresses of an earlier deployment: then the scripts for single contracts do run, as replacements. -/
example : (iproveScript ToyConfig.cheats ToyConfig.chain
    (writeAddress ToyConfig.cheats (ToyConfig.store "xxx") "STAKING" 7)).toBool = true := rfl

end Verif.Config
