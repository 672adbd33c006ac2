import Verif.Permit
import Verif.L1Spend
import Verif.ToyL1
/-
# C70: permits are used once, in time, and cost their signer no more than they say
-/

namespace Verif
open L1

theorem on_ok {α : Type} {m : L1 α} {s s' : Chain} :
    s.on m = .ok s' ↔ ∃ a, m s.w = .ok (a, s'.w) ∧ s'.nonces = s.nonces := by
  unfold Chain.on
  constructor
  · intro h
    split at h
    · rename_i a w e
      obtain rfl := Except.ok.inj h
      exact ⟨a, e, rfl⟩
    · exact nomatch h
  · rintro ⟨a, h, g⟩
    rw [h]
    obtain ⟨w', n'⟩ := s'
    dsimp only at g ⊢
    rw [g]

theorem ebind_ok {α β : Type} {x : Except L1Err α} {f : α → Except L1Err β} {b : β} :
    (x >>= f) = .ok b ↔ ∃ a, x = .ok a ∧ f a = .ok b := by
  cases x with
  | error e => exact ⟨fun h => (nomatch h), fun ⟨_, h, _⟩ => (nomatch h)⟩
  | ok a => exact ⟨fun h => ⟨a, rfl, h⟩, fun ⟨_, h, g⟩ => by obtain rfl := Except.ok.inj h; exact g⟩

/-- The nonce of `owner` at `token` has gone up by one, the others stayed. -/
def Bumped (s s' : Chain) (token owner : Address) : Prop :=
  s'.nonces = upd s.nonces token (upd (s.nonces token) owner (s.nonces token owner + 1))

theorem Bumped.same {s s' : Chain} {t o : Address} (h : Bumped s s' t o) : s'.nonces t o = s.nonces t o + 1 := by
  rw [Bumped] at h
  rw [h, upd_same, upd_same]

theorem Bumped.le {s s' : Chain} {t o : Address} (h : Bumped s s' t o) (t' o' : Address) :
    s.nonces t' o' ≤ s'.nonces t' o' := by
  rw [Bumped] at h
  rw [h]
  by_cases e : t' = t
  · subst e
    rw [upd_same]
    by_cases e : o' = o
    · subst e; rw [upd_same]; omega
    · rw [upd_ne _ _ e]; exact Nat.le_refl _
  · rw [upd_ne _ _ e]; exact Nat.le_refl _

theorem usePermit_ok {rc : Recover} {c : Ctx} {t o sp : Address} {v : U256} {d : Nat} {sig : Bytes} {s s' : Chain} :
    usePermit rc c t o sp v d sig s = .ok s' ↔
    c.now ≤ d ∧ rc.permit ⟨t, o, sp, v, s.nonces t o, d⟩ sig = some o ∧ s'.w = s.w ∧ Bumped s s' t o := by
  unfold usePermit Bumped
  constructor
  · intro h
    split at h
    · exact nomatch h
    · split at h
      · rename_i h1 h2
        obtain rfl := Except.ok.inj h
        exact ⟨by omega, h2, rfl, rfl⟩
      · exact nomatch h
  · rintro ⟨h1, h2, h3, h4⟩
    rw [if_neg (by omega), if_pos h2]
    obtain ⟨w', n'⟩ := s'
    dsimp only at h3 h4 ⊢
    rw [h3, h4]

/-- The call of the model without signatures that has the same effect on the contracts. -/
def SCall.base (cfg : Cfg) (c : Ctx) (s : Chain) : SCall → Option Call
  | .plain k => some k
  | .provePermit o sp v _ _ => some (.provePermit o o sp v)
  | .iprovePermit o sp v _ _ => some (.iprovePermit o o sp v)
  | .iproveDelegateBySig .. => none
  | .permitAndDeposit f v _ _ =>
    some (.permitAndDeposit (if s.w.prove.allow f cfg.vapp ≠ v.toNat then f else c.sender) f v)
  | .permitAndStake p f v _ _ =>
    some (.permitAndStake (if s.w.prove.allow f p ≠ v.toNat then f else c.sender) p f v)

/-- What a successful call has done. -/
structure Effect (cfg : Cfg) (rc : Recover) (c : Ctx) (k : SCall) (s s' : Chain) : Prop where
  world : match k.base cfg c s with
    | none => s'.w = s.w
    | some b => exec cfg c b s.w = .ok ((), s'.w)
  plain : ∀ b, k = .plain b → b.signed = false
  used : ∀ m, k.message cfg s = some m → c.now ≤ m.deadline ∧ rc.permit m k.sig = some m.owner ∧
    m.nonce = s.nonces m.token m.owner ∧ Bumped s s' m.token m.owner
  nonces : ∀ t o, s.nonces t o ≤ s'.nonces t o

theorem sexec_ok {cfg : Cfg} {rc : Recover} {c : Ctx} {k : SCall} {s s' : Chain} (h : sexec cfg rc c s k = .ok s') :
    Effect cfg rc c k s s' := by
  cases k
  case plain b =>
    simp only [sexec] at h
    split at h
    · exact nomatch h
    · rename_i hb
      obtain ⟨⟨⟩, h1, h2⟩ := on_ok.mp h
      refine ⟨h1, ?_, ?_, ?_⟩
      · intro b' e
        cases e
        simpa using hb
      · intro m e; exact nomatch e
      · intro t o; rw [h2]; exact Nat.le_refl _
  case provePermit o sp v d sig =>
    simp only [sexec, ebind_ok] at h
    obtain ⟨s1, h1, h2⟩ := h
    obtain ⟨g1, g2, g3, g4⟩ := usePermit_ok.mp h1
    obtain ⟨⟨⟩, h2, h3⟩ := on_ok.mp h2
    rw [g3] at h2
    have hb : Bumped s s' cfg.prove o := by rw [Bumped, h3]; exact g4
    refine ⟨?_, fun _ e => (nomatch e), ?_, hb.le⟩
    · simp only [SCall.base, exec, Verif.provePermit, bind_ok, require_ok]
      exact ⟨(), s.w, ⟨trivial, rfl⟩, h2⟩
    · intro m e
      obtain rfl := Option.some.inj e
      exact ⟨g1, g2, rfl, hb⟩
  case iprovePermit o sp v d sig =>
    simp only [sexec, ebind_ok] at h
    obtain ⟨s1, h1, h2⟩ := h
    obtain ⟨g1, g2, g3, g4⟩ := usePermit_ok.mp h1
    obtain ⟨⟨⟩, h2, h3⟩ := on_ok.mp h2
    rw [g3] at h2
    have hb : Bumped s s' cfg.iprove o := by rw [Bumped, h3]; exact g4
    refine ⟨?_, fun _ e => (nomatch e), ?_, hb.le⟩
    · simp only [SCall.base, exec, bind_ok, require_ok]
      exact ⟨(), s.w, ⟨trivial, rfl⟩, h2⟩
    · intro m e
      obtain rfl := Option.some.inj e
      exact ⟨g1, g2, rfl, hb⟩
  case iproveDelegateBySig d n x sig =>
    simp only [sexec] at h
    split at h
    · exact nomatch h
    · split at h
      · exact nomatch h
      · rename_i o _
        split at h
        · rename_i hn
          obtain rfl := Except.ok.inj h
          refine ⟨rfl, fun _ e => (nomatch e), fun _ e => (nomatch e), ?_⟩
          subst hn
          exact Bumped.le (t := cfg.iprove) (o := o) rfl
        · exact nomatch h
  case permitAndDeposit f v d sig =>
    simp only [sexec, ebind_ok] at h
    obtain ⟨s1, h1, h⟩ := h
    obtain ⟨⟨⟩, h1, h1'⟩ := on_ok.mp h1
    obtain ⟨hp, hw⟩ := whenNotPaused_ok.mp h1
    split at h
    · rename_i ha
      simp only [ebind_ok] at h
      obtain ⟨s2, h2, s3, h3, h4⟩ := h
      obtain ⟨g1, g2, g3, g4⟩ := usePermit_ok.mp h2
      obtain ⟨⟨⟩, h3, h3'⟩ := on_ok.mp h3
      obtain ⟨id, h4, h4'⟩ := on_ok.mp h4
      rw [g3, hw] at h3
      rw [hw] at ha
      have hb : Bumped s s' cfg.prove f := by rw [Bumped, h4', h3', ← h1']; exact g4
      refine ⟨?_, fun _ e => (nomatch e), ?_, hb.le⟩
      · simp only [SCall.base, if_pos ha, exec, drop_ok, vappPermitAndDeposit, bind_ok, get_ok]
        refine ⟨id, (), s.w, whenNotPaused_ok.mpr ⟨hp, rfl⟩, _, _, ⟨rfl, rfl⟩, ?_⟩
        rw [if_pos ha]
        simp only [Verif.provePermit, bind_ok, require_ok]
        exact ⟨(), s3.w, ⟨(), s.w, ⟨trivial, rfl⟩, h3⟩, h4⟩
      · intro m e
        simp only [SCall.message, if_pos ha] at e
        obtain rfl := Option.some.inj e
        exact ⟨g1, by rw [← h1']; exact g2, rfl, hb⟩
    · rename_i ha
      obtain ⟨id, h4, h4'⟩ := on_ok.mp h
      rw [hw] at ha h4
      refine ⟨?_, fun _ e => (nomatch e), ?_, ?_⟩
      · simp only [SCall.base, if_neg ha, exec, drop_ok, vappPermitAndDeposit, bind_ok, get_ok]
        refine ⟨id, (), s.w, whenNotPaused_ok.mpr ⟨hp, rfl⟩, _, _, ⟨rfl, rfl⟩, ?_⟩
        rw [if_neg ha]
        exact h4
      · intro m e
        simp only [SCall.message, if_neg ha] at e
        exact nomatch e
      · intro t o
        rw [h4', h1']; exact Nat.le_refl _
  case permitAndStake p f v d sig =>
    simp only [sexec, ebind_ok] at h
    obtain ⟨s1, h1, h⟩ := h
    obtain ⟨⟨⟩, h1, h1'⟩ := on_ok.mp h1
    obtain ⟨hp, hw⟩ := onlyForProver_ok.mp h1
    split at h
    · rename_i ha
      simp only [ebind_ok] at h
      obtain ⟨s2, h2, s3, h3, s4, h4, h5⟩ := h
      obtain ⟨g1, g2, g3, g4⟩ := usePermit_ok.mp h2
      obtain ⟨⟨⟩, h3, h3'⟩ := on_ok.mp h3
      obtain ⟨⟨⟩, h4, h4'⟩ := on_ok.mp h4
      obtain ⟨n, h5, h5'⟩ := on_ok.mp h5
      rw [g3, hw] at h3
      rw [hw] at ha
      have hb : Bumped s s' cfg.prove f := by rw [Bumped, h5', h4', h3', ← h1']; exact g4
      refine ⟨?_, fun _ e => (nomatch e), ?_, hb.le⟩
      · simp only [SCall.base, if_pos ha, exec, drop_ok, Verif.permitAndStake, bind_ok, get_ok]
        refine ⟨n, (), s.w, onlyForProver_ok.mpr ⟨hp, rfl⟩, _, _, ⟨rfl, rfl⟩, ?_⟩
        rw [if_pos ha]
        simp only [Verif.provePermit, bind_ok, require_ok]
        exact ⟨(), s3.w, ⟨(), s.w, ⟨trivial, rfl⟩, h3⟩, (), s4.w, h4, h5⟩
      · intro m e
        simp only [SCall.message, if_pos ha] at e
        obtain rfl := Option.some.inj e
        exact ⟨g1, by rw [← h1']; exact g2, rfl, hb⟩
    · rename_i ha
      simp only [ebind_ok] at h
      obtain ⟨s4, h4, h5⟩ := h
      obtain ⟨⟨⟩, h4, h4'⟩ := on_ok.mp h4
      obtain ⟨n, h5, h5'⟩ := on_ok.mp h5
      rw [hw] at ha h4
      refine ⟨?_, fun _ e => (nomatch e), ?_, ?_⟩
      · simp only [SCall.base, if_neg ha, exec, drop_ok, Verif.permitAndStake, bind_ok, get_ok]
        refine ⟨n, (), s.w, onlyForProver_ok.mpr ⟨hp, rfl⟩, _, _, ⟨rfl, rfl⟩, ?_⟩
        rw [if_neg ha]
        exact bind_ok.mpr ⟨(), s4.w, h4, h5⟩
      · intro m e
        simp only [SCall.message, if_neg ha] at e
        exact nomatch e
      · intro t o
        rw [h5', h4', h1']; exact Nat.le_refl _

/-! ## Once, and in time -/

/-- A successful call that checks a permit. -/
theorem permitsUsed_cons {cfg : Cfg} {rc : Recover} {s : Chain} {x : Ctx × SCall} {h : List (Ctx × SCall)} :
    permitsUsed cfg rc s (x :: h) =
    (match sexec cfg rc x.1 s x.2 with
     | .ok _ => (x.2.message cfg s).toList
     | .error _ => []) ++ permitsUsed cfg rc (scall cfg rc s x) h := rfl

theorem used_nonce {cfg : Cfg} {rc : Recover} (h : List (Ctx × SCall)) (s : Chain) :
    (∀ m ∈ permitsUsed cfg rc s h, s.nonces m.token m.owner ≤ m.nonce) ∧
    ((permitsUsed cfg rc s h).map fun m => (m.token, m.owner, m.nonce)).Nodup := by
  induction h generalizing s with
  | nil => exact ⟨fun m hm => (nomatch hm), List.nodup_nil⟩
  | cons x h ih =>
    rw [permitsUsed_cons]
    cases e : sexec cfg rc x.1 s x.2 with
    | error er =>
      have hs : scall cfg rc s x = s := by unfold scall; rw [e]
      rw [hs]
      exact ih s
    | ok s' =>
      have hs : scall cfg rc s x = s' := by unfold scall; rw [e]
      rw [hs]
      have he := sexec_ok e
      obtain ⟨i1, i2⟩ := ih s'
      cases hm : x.2.message cfg s with
      | none =>
        simp only [Option.toList_none, List.nil_append]
        exact ⟨fun m hm => Nat.le_trans (he.nonces _ _) (i1 m hm), i2⟩
      | some m =>
        obtain ⟨_, _, hn, hb⟩ := he.used m hm
        simp only [Option.toList_some, List.cons_append, List.nil_append, List.map_cons, List.nodup_cons, List.mem_cons]
        refine ⟨?_, ?_, i2⟩
        · rintro m' (rfl | hm')
          · omega
          · exact Nat.le_trans (he.nonces _ _) (i1 m' hm')
        · intro hin
          obtain ⟨m', hm', hk⟩ := List.mem_map.mp hin
          have := i1 m' hm'
          simp only [Prod.mk.injEq] at hk
          rw [hk.1, hk.2.1, hb.same, hk.2.2] at this
          omega

/-- **C70 (used once).** Over any history of calls by anyone, from any state, no two successful calls use permits of
the same owner at the same token with the same nonce. In particular no signed permit is used twice, through whichever
function it is presented. -/
theorem c70_once (cfg : Cfg) (rc : Recover) (s : Chain) (h : List (Ctx × SCall)) :
    ((permitsUsed cfg rc s h).map fun m => (m.token, m.owner, m.nonce)).Nodup ∧ (permitsUsed cfg rc s h).Nodup := by
  have := (used_nonce (cfg := cfg) (rc := rc) h s).2
  refine ⟨this, ?_⟩
  refine List.Pairwise.imp ?_ (List.pairwise_map.mp this)
  intro m m' hne e
  exact hne (by rw [e])

/-- **C70 (in time, and by its owner).** A call that uses a permit succeeds only up to the permit's deadline, with a
signature of the owner over exactly this owner, spender, amount, nonce, deadline and token, and for the nonce that is
next; and it uses the nonce up. -/
theorem c70_valid (cfg : Cfg) (rc : Recover) (s s' : Chain) (c : Ctx) (k : SCall) (m : PermitMsg)
    (h : sexec cfg rc c s k = .ok s') (hm : k.message cfg s = some m) :
    c.now ≤ m.deadline ∧ rc.permit m k.sig = some m.owner ∧ m.nonce = s.nonces m.token m.owner ∧
    s'.nonces m.token m.owner = m.nonce + 1 := by
  obtain ⟨h1, h2, h3, h4⟩ := (sexec_ok h).used m hm
  exact ⟨h1, h2, h3, by rw [h4.same, h3]⟩

/-! ## The model without signatures -/

/-- **C70 (nothing else).** Every history with signatures acts on the contracts as a history of the model without
signatures, with the same senders; permits there are signed by their owner. So everything proved of the reachable
states of that model holds here. -/
theorem c70_refines (cfg : Cfg) (rc : Recover) (s : Chain) (h : List (Ctx × SCall))
    (hsend : ∀ x ∈ h, Admissible cfg (x.1, match x.2 with | .plain k => k | _ => .pause))
    (hsig : ∀ m sig a, rc.permit m sig = some a → ¬ cfg.System a) :
    ∃ h', (∀ x ∈ h', Admissible cfg x) ∧ (srun cfg rc s h).w = runCalls cfg s.w h' := by
  induction h generalizing s with
  | nil => exact ⟨[], fun _ hx => (nomatch hx), rfl⟩
  | cons x h ih =>
    obtain ⟨h', ha, hr⟩ := ih (scall cfg rc s x) (fun y hy => hsend y (List.mem_cons_of_mem _ hy))
    have hx := hsend x List.mem_cons_self
    have hrun : srun cfg rc s (x :: h) = srun cfg rc (scall cfg rc s x) h := rfl
    rw [hrun, hr]
    cases e : sexec cfg rc x.1 s x.2 with
    | error er =>
      have hs : scall cfg rc s x = s := by unfold scall; rw [e]
      rw [hs]
      exact ⟨h', ha, rfl⟩
    | ok s' =>
      have hs : scall cfg rc s x = s' := by unfold scall; rw [e]
      rw [hs]
      have he := sexec_ok e
      have hw := he.world
      cases hb : x.2.base cfg x.1 s with
      | none =>
        rw [hb] at hw
        dsimp only at hw
        rw [hw]
        exact ⟨h', ha, rfl⟩
      | some b =>
        rw [hb] at hw
        dsimp only at hw
        refine ⟨(x.1, b) :: h', ?_, ?_⟩
        · rintro y hy
          rcases List.mem_cons.mp hy with rfl | hy
          · obtain ⟨c, k⟩ := x
            cases k
            case plain k =>
              obtain rfl := Option.some.inj hb
              exact hx
            case iproveDelegateBySig => exact nomatch hb
            case provePermit o sp v d sig =>
              obtain rfl := Option.some.inj hb
              exact ⟨hx, hsig _ _ _ (he.used _ rfl).2.1⟩
            case iprovePermit o sp v d sig =>
              obtain rfl := Option.some.inj hb
              exact ⟨hx, hsig _ _ _ (he.used _ rfl).2.1⟩
            case permitAndDeposit f v d sig =>
              obtain rfl := Option.some.inj hb
              refine ⟨hx, ?_⟩
              split
              · rename_i hne
                exact hsig _ _ _ (he.used _ (if_pos hne)).2.1
              · exact hx
            case permitAndStake p f v d sig =>
              obtain rfl := Option.some.inj hb
              refine ⟨hx, ?_⟩
              split
              · rename_i hne
                exact hsig _ _ _ (he.used _ (if_pos hne)).2.1
              · exact hx
          · exact ha y hy
        · rw [runCalls_cons]
          unfold call
          rw [hw]

/-! ## What permits can cost -/

/-- The value of the permits of $PROVE in a list that `a` owns. -/
def permitted (cfg : Cfg) (a : Address) (l : List PermitMsg) : Nat :=
  (l.map fun m => if m.owner = a ∧ m.token = cfg.prove then m.value.toNat else 0).sum

theorem permitted_append (cfg : Cfg) (a : Address) (l l' : List PermitMsg) :
    permitted cfg a (l ++ l') = permitted cfg a l + permitted cfg a l' := by
  simp [permitted]

/-- Distinct permits from a list add up to no more than the list. -/
theorem permitted_le {cfg : Cfg} {a : Address} (l S : List PermitMsg) (hl : l.Nodup)
    (hs : ∀ m ∈ l, m.owner = a → m.token = cfg.prove → m ∈ S) : permitted cfg a l ≤ permitted cfg a S := by
  induction l generalizing S with
  | nil => exact Nat.zero_le _
  | cons m l ih =>
    obtain ⟨hm, hl'⟩ := List.nodup_cons.mp hl
    by_cases hc : m.owner = a ∧ m.token = cfg.prove
    · have hin := hs m List.mem_cons_self hc.1 hc.2
      obtain ⟨S1, S2, rfl⟩ := List.append_of_mem hin
      have := ih (S1 ++ S2) hl' (fun x hx h1 h2 => by
        have := hs x (List.mem_cons_of_mem _ hx) h1 h2
        rcases List.mem_append.mp this with h | h
        · exact List.mem_append.mpr (Or.inl h)
        · rcases List.mem_cons.mp h with rfl | h
          · exact absurd hx hm
          · exact List.mem_append.mpr (Or.inr h))
      simp only [permitted, List.map_cons, List.sum_cons, List.map_append, List.sum_append] at this ⊢
      omega
    · have := ih S hl' (fun x hx => hs x (List.mem_cons_of_mem _ hx))
      simp only [permitted, List.map_cons, List.sum_cons, if_neg hc] at this ⊢
      omega

/-- One call. -/
theorem sexec_covers {cfg : Cfg} {rc : Recover} {c : Ctx} {k : SCall} {s s' : Chain} {a : Address} {B P : Nat}
    (ha : ¬ cfg.System a) (h : sexec cfg rc c s k = .ok s')
    (hc : s.w.prove.Covers a B P) :
    s'.w.prove.Covers a B (P + k.ownLetsGo a c + permitted cfg a (k.message cfg s).toList) := by
  have he := sexec_ok h
  have hw := he.world
  cases k
  case plain b =>
    dsimp only [SCall.base] at hw
    have := exec_covers ha hw hc
    have hb := he.plain b rfl
    refine this.mono ?_
    cases b <;> first
      | exact nomatch (show true = false from hb)
      | (simp only [Call.letsGo, SCall.ownLetsGo]; omega)
  case provePermit o sp v d sig =>
    have := exec_covers ha hw hc
    refine this.mono ?_
    simp only [Call.letsGo, SCall.ownLetsGo, SCall.message, permitted, Option.toList_some, List.map_cons, List.map_nil,
      List.sum_cons, List.sum_nil, and_true]
    omega
  case iprovePermit o sp v d sig =>
    have := exec_covers ha hw hc
    refine this.mono ?_
    simp only [Call.letsGo]
    omega
  case iproveDelegateBySig d n x sig =>
    dsimp only [SCall.base] at hw
    rw [hw]
    exact hc.mono (by omega)
  case permitAndDeposit f v d sig =>
    dsimp only [SCall.base] at hw
    refine (exec_covers ha hw hc).mono ?_
    simp only [Call.letsGo, SCall.message, permitted]
    by_cases hx : s.w.prove.allow f cfg.vapp ≠ v.toNat
    · simp only [hx, Option.toList_some, List.map_cons, List.map_nil, List.sum_cons, List.sum_nil, and_true, ne_eq, not_false_eq_true, reduceIte]
      omega
    · rw [if_neg (fun e => hx e.2)]
      omega
  case permitAndStake p f v d sig =>
    dsimp only [SCall.base] at hw
    refine (exec_covers ha hw hc).mono ?_
    simp only [Call.letsGo, SCall.message, permitted]
    by_cases hx : s.w.prove.allow f p ≠ v.toNat
    · simp only [hx, Option.toList_some, List.map_cons, List.map_nil, List.sum_cons, List.sum_nil, and_true, ne_eq, not_false_eq_true, reduceIte]
      omega
    · rw [if_neg (fun e => hx e.2)]
      omega

/-- What `a` lets go of over a history by its own calls. -/
def ownLetsGo (a : Address) (h : List (Ctx × SCall)) : Nat := (h.map fun x => x.2.ownLetsGo a x.1).sum

theorem srun_covers {cfg : Cfg} {rc : Recover} {a : Address} {B : Nat} (ha : ¬ cfg.System a)
    (h : List (Ctx × SCall)) (s : Chain) (P : Nat) (hc : s.w.prove.Covers a B P) :
    (srun cfg rc s h).w.prove.Covers a B (P + ownLetsGo a h + permitted cfg a (permitsUsed cfg rc s h)) := by
  induction h generalizing s P with
  | nil => exact hc.mono (by omega)
  | cons x h ih =>
    have hrun : srun cfg rc s (x :: h) = srun cfg rc (scall cfg rc s x) h := rfl
    rw [hrun, permitsUsed_cons, permitted_append]
    have ho : ownLetsGo a (x :: h) = x.2.ownLetsGo a x.1 + ownLetsGo a h := by simp [ownLetsGo]
    cases e : sexec cfg rc x.1 s x.2 with
    | error er =>
      have hs : scall cfg rc s x = s := by unfold scall; rw [e]
      rw [hs, ho]
      exact (ih s P hc).mono (by omega)
    | ok s' =>
      have hs : scall cfg rc s x = s' := by unfold scall; rw [e]
      rw [hs, ho]
      exact (ih s' _ (sexec_covers ha e hc)).mono (by dsimp only; omega)

/-- **C70 (what permits can cost).** `a` is an account outside the system; `S` lists the permits it has signed. Over
any history of calls by anyone, in which the tokens accept signatures of `a` only on permits in `S`, `a` loses at most
what it transfers, burns or approves itself, the allowances it had given before (at most `A` in all), and the amounts
of the permits in `S`, each counted once - however often and through whichever functions they are presented. -/
theorem c70_cost (cfg : Cfg) (rc : Recover) (s : Chain) (h : List (Ctx × SCall)) (a : Address) (A : Nat)
    (S : List PermitMsg) (ha : ¬ cfg.System a) (hB : s.w.prove.bal a ≤ max256)
    (hA : ∀ L : List Address, L.Nodup → (L.map (s.w.prove.allow a)).sum ≤ A)
    (hS : ∀ m ∈ permitsUsed cfg rc s h, m.owner = a → m.token = cfg.prove → m ∈ S) :
    s.w.prove.bal a ≤ (srun cfg rc s h).w.prove.bal a + A + ownLetsGo a h +
      (S.map fun m => if m.owner = a ∧ m.token = cfg.prove then m.value.toNat else 0).sum := by
  have h0 : s.w.prove.Covers a (s.w.prove.bal a) A := by
    refine Or.inr ⟨fun x => ?_, fun L hL => ?_⟩
    · have := hA [x] (by simp)
      simpa using this
    · have := hA L hL
      omega
  have h1 := permitted_le _ S (c70_once cfg rc s h).2 hS
  simp only [permitted] at h1
  rcases srun_covers (rc := rc) ha h s A h0 with h2 | ⟨_, h2⟩
  · simp only [permitted] at h2
    omega
  · have := h2 [] List.nodup_nil
    simp only [permitted, List.map_nil, List.sum_nil] at this
    omega

/-! ## Front-running -/

/-- Setting an allowance to the value it has changes nothing. -/
theorem approve_same {t t' : Erc20} {o s : Address} {v : Nat} (h : t.approve o s v = .ok t') (e : t.allow o s = v) :
    t' = t := by
  obtain ⟨_, _, rfl⟩ := Erc20.approve_ok h
  have : upd t.allow o (upd (t.allow o) s v) = t.allow := by
    funext x
    by_cases hx : x = o
    · subst hx
      rw [upd_same]
      funext y
      by_cases hy : y = s
      · subst hy; rw [upd_same, e]
      · rw [upd_ne _ _ hy]
    · rw [upd_ne _ _ hx]
  rw [this]

/-- The state after a permit of $PROVE. -/
theorem provePermit_state {cfg : Cfg} {rc : Recover} {c : Ctx} {o sp : Address} {v : U256} {d : Nat} {sig : Bytes}
    {s s1 : Chain} (h : sexec cfg rc c s (.provePermit o sp v d sig) = .ok s1) :
    ∃ t, s.w.prove.approve o sp v.toNat = .ok t ∧ s1.w = { s.w with prove := t } ∧ t.allow o sp = v.toNat := by
  simp only [sexec, ebind_ok] at h
  obtain ⟨s0, h1, h2⟩ := h
  obtain ⟨_, _, g3, _⟩ := usePermit_ok.mp h1
  obtain ⟨⟨⟩, h2, _⟩ := on_ok.mp h2
  rw [g3] at h2
  obtain ⟨t, ht, hw⟩ := onProve_ok.mp h2
  refine ⟨t, ht, hw, ?_⟩
  obtain ⟨_, _, rfl⟩ := Erc20.approve_ok ht
  dsimp only
  rw [upd_same, upd_same]

/-- **C70 (front-running a deposit).** If somebody takes the permit out of a `permitAndDeposit` that would succeed
and has it accepted first, the `permitAndDeposit` still succeeds, whoever sends it and whenever, with the same effect. -/
theorem c70_frontrun_deposit (cfg : Cfg) (rc : Recover) (s s1 s2 : Chain) (c c1 c2 : Ctx) (f : Address) (v : U256)
    (d : Nat) (sig : Bytes)
    (h1 : sexec cfg rc c1 s (.provePermit f cfg.vapp v d sig) = .ok s1)
    (h2 : sexec cfg rc c2 s (.permitAndDeposit f v d sig) = .ok s2) :
    ∃ s3, sexec cfg rc c s1 (.permitAndDeposit f v d sig) = .ok s3 ∧ s3.w = s2.w := by
  obtain ⟨t, ht, hw1, hal⟩ := provePermit_state h1
  simp only [sexec, ebind_ok] at h2
  obtain ⟨sa, ha, h2⟩ := h2
  obtain ⟨⟨⟩, ha, ha'⟩ := on_ok.mp ha
  obtain ⟨hp, hwa⟩ := whenNotPaused_ok.mp ha
  have key : ∃ id, vappDepositFrom cfg f v s1.w = .ok (id, s2.w) := by
    split at h2
    · simp only [ebind_ok] at h2
      obtain ⟨sb, hb, sc, hc, hd⟩ := h2
      obtain ⟨_, _, g3, _⟩ := usePermit_ok.mp hb
      obtain ⟨⟨⟩, hc, _⟩ := on_ok.mp hc
      obtain ⟨id, hd, _⟩ := on_ok.mp hd
      rw [g3, hwa] at hc
      obtain ⟨t', ht', hw'⟩ := onProve_ok.mp hc
      obtain rfl := Except.ok.inj (ht.symm.trans ht')
      rw [hw', ← hw1] at hd
      exact ⟨id, hd⟩
    · rename_i he
      rw [hwa] at he
      obtain ⟨id, hd, _⟩ := on_ok.mp h2
      have := approve_same ht (Decidable.not_not.mp he)
      rw [this] at hw1
      rw [hwa] at hd
      refine ⟨id, ?_⟩
      rw [hw1]
      exact hd
  obtain ⟨id, key⟩ := key
  refine ⟨⟨s2.w, s1.nonces⟩, ?_, rfl⟩
  simp only [sexec, ebind_ok]
  refine ⟨s1, on_ok.mpr ⟨(), whenNotPaused_ok.mpr ⟨by rw [hw1]; exact hp, rfl⟩, rfl⟩, ?_⟩
  rw [if_neg (by rw [hw1]; exact fun g => g hal)]
  exact on_ok.mpr ⟨id, key, rfl⟩

/-- **C70 (front-running a stake).** The same for `permitAndStake`. -/
theorem c70_frontrun_stake (cfg : Cfg) (rc : Recover) (s s1 s2 : Chain) (c c1 c2 : Ctx) (p f : Address) (v : U256)
    (d : Nat) (sig : Bytes)
    (h1 : sexec cfg rc c1 s (.provePermit f p v d sig) = .ok s1)
    (h2 : sexec cfg rc c2 s (.permitAndStake p f v d sig) = .ok s2) :
    ∃ s3, sexec cfg rc c s1 (.permitAndStake p f v d sig) = .ok s3 ∧ s3.w = s2.w := by
  obtain ⟨t, ht, hw1, hal⟩ := provePermit_state h1
  simp only [sexec, ebind_ok] at h2
  obtain ⟨sa, ha, h2⟩ := h2
  obtain ⟨⟨⟩, ha, ha'⟩ := on_ok.mp ha
  obtain ⟨hp, hwa⟩ := onlyForProver_ok.mp ha
  have key : ∃ n w, transferProveToStaking cfg cfg.staking p f v.toNat s1.w = .ok ((), w) ∧
      stakeFor cfg f p v.toNat w = .ok (n, s2.w) := by
    split at h2
    · simp only [ebind_ok] at h2
      obtain ⟨sb, hb, sc, hc, sd, hd, he⟩ := h2
      obtain ⟨_, _, g3, _⟩ := usePermit_ok.mp hb
      obtain ⟨⟨⟩, hc, _⟩ := on_ok.mp hc
      obtain ⟨⟨⟩, hd, _⟩ := on_ok.mp hd
      obtain ⟨n, he, _⟩ := on_ok.mp he
      rw [g3, hwa] at hc
      obtain ⟨t', ht', hw'⟩ := onProve_ok.mp hc
      obtain rfl := Except.ok.inj (ht.symm.trans ht')
      rw [hw', ← hw1] at hd
      exact ⟨n, sd.w, hd, he⟩
    · rename_i hx
      rw [hwa] at hx
      simp only [ebind_ok] at h2
      obtain ⟨sd, hd, he⟩ := h2
      obtain ⟨⟨⟩, hd, _⟩ := on_ok.mp hd
      obtain ⟨n, he, _⟩ := on_ok.mp he
      have := approve_same ht (Decidable.not_not.mp hx)
      rw [this] at hw1
      rw [hwa] at hd
      refine ⟨n, sd.w, ?_, he⟩
      rw [hw1]
      exact hd
  obtain ⟨n, w, k1, k2⟩ := key
  refine ⟨⟨s2.w, s1.nonces⟩, ?_, rfl⟩
  simp only [sexec, ebind_ok]
  refine ⟨s1, on_ok.mpr ⟨(), onlyForProver_ok.mpr ⟨by rw [hw1]; exact hp, rfl⟩, rfl⟩, ?_⟩
  rw [if_neg (by rw [hw1]; exact fun g => g hal)]
  simp only [ebind_ok]
  exact ⟨⟨w, s1.nonces⟩, on_ok.mpr ⟨(), k1, rfl⟩, on_ok.mpr ⟨n, k2, rfl⟩⟩

/-! ## Concrete cases -/

namespace ToyL1

/-- A permit of alice for the vApp. -/
def permit0 : PermitMsg := ⟨cfg.prove, alice, cfg.vapp, 500, 0, 1000⟩
/-- A later permit of alice for the first prover. -/
def permit1 : PermitMsg := ⟨cfg.prove, alice, cfg.create2 bob 1 100, 300, 1, 1000⟩
/-- alice has signed these two, and nothing else is a signature. -/
def rc : Recover where
  permit m sig := if m = permit0 ∧ sig = [7] then some alice else if m = permit1 ∧ sig = [8] then some alice else none
  delegation _ _ := none
/-- The deployment, with no permit used. -/
def chain : Chain := ⟨genesis, fun _ _ => 0⟩
/-- bob deposits for alice with the permit, tries again, too late too; then stakes for alice; alice sends 50. -/
def permitHistory : List (Ctx × SCall) :=
  [(ctx bob 10, .plain (.createProver 100)),
   (ctx bob 10, .permitAndDeposit alice 500 1000 [7]),
   (ctx bob 11, .permitAndDeposit alice 500 1000 [7]),
   (ctx bob 11, .provePermit alice cfg.vapp 500 1000 [7]),
   (ctx bob 1001, .permitAndStake (cfg.create2 bob 1 100) alice 300 1000 [8]),
   (ctx bob 12, .permitAndStake (cfg.create2 bob 1 100) alice 300 1000 [8]),
   (ctx alice 13, .plain (.proveTransfer bob 50))]

-- both permits are used, once each, and the loss is exactly what was signed and sent
example : permitsUsed cfg rc chain permitHistory = [permit0, permit1] ∧
    (srun cfg rc chain permitHistory).w.prove.bal alice = 100000 - 500 - 300 - 50 ∧
    ownLetsGo alice permitHistory = 50 ∧ ¬ cfg.System alice := by
  refine ⟨by decide +kernel, by decide +kernel, by decide +kernel, not_system _ (by decide) (by decide)⟩
-- the hypotheses of the cost theorem hold
example : ∀ L : List Address, L.Nodup → (L.map (chain.w.prove.allow alice)).sum ≤ 0 := by
  intro L _
  have : L.map (chain.w.prove.allow alice) = L.map fun _ => 0 := by
    refine List.map_congr_left fun x _ => ?_
    show (if (alice = cfg.vapp ∨ alice = cfg.staking) ∧ x = cfg.iprove then max256 else 0) = 0
    rw [if_neg]
    rintro ⟨h, _⟩
    exact absurd h (by decide)
  rw [this]
  clear this
  induction L with
  | nil => decide
  | cons x L ih => simp_all
-- every sender is admissible
example : ∀ x ∈ permitHistory, Admissible cfg (x.1, match x.2 with | .plain k => k | _ => .pause) := by
  have hb : ¬ cfg.System bob := not_system _ (by decide) (by decide)
  have ha : ¬ cfg.System alice := not_system _ (by decide) (by decide)
  intro x hx
  simp only [permitHistory, List.mem_cons, List.not_mem_nil, or_false] at hx
  rcases hx with rfl | rfl | rfl | rfl | rfl | rfl | rfl <;> first | exact hb | exact ha
/-- Whether a call succeeds. -/
def accepted (x : Except L1Err Chain) : Bool := match x with | .ok _ => true | .error _ => false
-- the permit alone and the deposit are both possible, as the front-running theorem needs
example : accepted (sexec cfg rc (ctx auc 9) chain (.provePermit alice cfg.vapp 500 1000 [7])) = true ∧
    accepted (sexec cfg rc (ctx bob 10) chain (.permitAndDeposit alice 500 1000 [7])) = true := by
  decide +kernel
-- and for a stake
example : let s := srun cfg rc chain (permitHistory.take 2)
    accepted (sexec cfg rc (ctx auc 9) s (.provePermit alice (cfg.create2 bob 1 100) 300 1000 [8])) = true ∧
    accepted (sexec cfg rc (ctx bob 10) s (.permitAndStake (cfg.create2 bob 1 100) alice 300 1000 [8])) = true := by
  decide +kernel

end ToyL1
end Verif
