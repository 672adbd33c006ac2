import Verif.MerkleProofs
/-
# Lemmas about `calculate_new_root`
-/

namespace Verif

section
variable {K V : Type} (kc : Bytes → B256) (abi : V → Bytes)

/-- `f` with the updates `upd` applied at the indices in `done`. -/
def applied (f : Contents V) (upd : SMap V) (done : List Nat) : Contents V :=
  fun j => if j ∈ done then (upd.get? j).or (f j) else f j

/-- `i` is the ancestor of `j` at level `l` exactly if `j` is in the range of `i`. -/
theorem range_iff (l i j : Nat) : (i * 2 ^ l ≤ j ∧ j < (i + 1) * 2 ^ l) ↔ j / 2 ^ l = i := by
  have hpos : 0 < 2 ^ l := Nat.pow_pos (by omega)
  constructor
  · intro h
    exact Nat.div_eq_of_lt_le h.1 h.2
  · intro h; subst h
    refine ⟨Nat.div_mul_le_self j _, ?_⟩
    rw [Nat.add_mul, Nat.one_mul]
    exact Nat.lt_div_mul_add hpos

theorem nodeHash_congr' (f g : Contents V) (l i : Nat) (h : ∀ j, j / 2 ^ l = i → f j = g j) :
    nodeHash kc abi f l i = nodeHash kc abi g l i :=
  nodeHash_congr kc abi f g l i (fun j h1 h2 => h j ((range_iff l i j).mp ⟨h1, h2⟩))

theorem siblingOf_ne (i : Nat) : siblingOf i ≠ i := by unfold siblingOf; split <;> omega

theorem div_pow_succ (j l : Nat) : j / 2 ^ l / 2 = j / 2 ^ (l + 1) := by
  rw [Nat.div_div_eq_div_mul, Nat.pow_succ]

/-- Invariant of the node map: entries are true hashes of the updated tree, except for the ancestors
above level `l` of the leaf `j` whose path is being replayed. -/
structure WInv (g : Contents V) (bits : Nat) (done : List Nat) (j l : Nat) (nodes : Cache) : Prop where
  entries : ∀ l' i' h, l' ≤ bits → nodes l' i' = some h → (l' ≤ l ∨ i' ≠ j / 2 ^ l') →
    h = nodeHash kc abi g l' i'
  covered : ∀ k ∈ done, ∀ l' ≤ bits, (nodes l' (k / 2 ^ l')).isSome = true
  path : ∀ l' ≤ l, (nodes l' (j / 2 ^ l')).isSome = true

theorem Cache.insert_same (c : Cache) (l i : Nat) (h : B256) : c.insert l i h l i = some h := by
  simp [Cache.insert]

theorem Cache.insert_isSome (c : Cache) (l i : Nat) (h : B256) (l' i' : Nat)
    (hs : (c l' i').isSome = true) : (c.insert l i h l' i').isSome = true := by
  unfold Cache.insert; split
  · rfl
  · exact hs

theorem Cache.orInsert_cases (c : Cache) (l i : Nat) (h : B256) :
    c.orInsert l i h = c ∨ c.orInsert l i h = c.insert l i h := by
  unfold Cache.orInsert
  cases c l i <;> simp

theorem walkUp_inv (f g : Contents V) (bits : Nat) (done : List Nat) (j : Nat)
    (hfg : ∀ k, k ∉ done → k ≠ j → f k = g k)
    (n l : Nat) (nodes : Cache) (hl : l + n = bits)
    (hinv : WInv kc abi g bits done j l nodes) :
    WInv kc abi g bits done j bits
      (walkUp kc ((List.range n).map (fun t => nodeHash kc abi f (l + t) (siblingOf (j / 2 ^ l / 2 ^ t))))
        l (j / 2 ^ l) (nodeHash kc abi g l (j / 2 ^ l)) nodes) := by
  induction n generalizing l nodes with
  | zero =>
    have : l = bits := by omega
    subst this
    exact hinv
  | succ n ih =>
    rw [List.range_succ_eq_map, List.map_cons, List.map_map]
    simp only [walkUp, sib_xor, shr_one, Nat.add_zero, Nat.pow_zero, Nat.div_one]
    generalize hi : j / 2 ^ l = i at *
    -- the sibling hash used is the true one in the updated tree
    have hsib : (nodes l (siblingOf i)).getD (nodeHash kc abi f l (siblingOf i)) =
        nodeHash kc abi g l (siblingOf i) := by
      cases hq : nodes l (siblingOf i) with
      | some x => exact hinv.entries l _ x (by omega) hq (Or.inl (by omega))
      | none =>
        apply nodeHash_congr'
        intro k hk
        apply hfg
        · intro hkd
          have := hinv.covered k hkd l (by omega)
          rw [hk, hq] at this
          simp at this
        · intro hkj
          subst hkj
          rw [hi] at hk
          exact siblingOf_ne i hk.symm
    rw [hsib]
    have hstep : (if i % 2 = 0 then hashPair kc (nodeHash kc abi g l i) (nodeHash kc abi g l (siblingOf i))
        else hashPair kc (nodeHash kc abi g l (siblingOf i)) (nodeHash kc abi g l i)) =
        nodeHash kc abi g (l + 1) (i / 2) := by
      rw [nodeHash_succ]
      unfold siblingOf
      split
      · rw [show 2 * (i / 2) = i by omega]
      · rw [show 2 * (i / 2) + 1 = i by omega, show 2 * (i / 2) = i - 1 by omega]
    rw [hstep]
    have hi2 : i / 2 = j / 2 ^ (l + 1) := by rw [← hi, div_pow_succ]
    have hlist : List.map ((fun t => nodeHash kc abi f (l + t) (siblingOf (i / 2 ^ t))) ∘ Nat.succ)
        (List.range n) =
        List.map (fun t => nodeHash kc abi f (l + 1 + t) (siblingOf (j / 2 ^ (l + 1) / 2 ^ t)))
          (List.range n) := by
      apply List.map_congr_left
      intro t _
      simp only [Function.comp]
      congr 1
      · omega
      · congr 1
        rw [← hi2, Nat.div_div_eq_div_mul, Nat.pow_succ, Nat.mul_comm 2]
    rw [hlist, hi2]
    apply ih (l + 1) _ (by omega)
    -- the invariant after this level
    generalize hn1 : Cache.orInsert nodes l (siblingOf i) (nodeHash kc abi g l (siblingOf i)) = nodes1
    have hmono : ∀ l' i', (nodes l' i').isSome = true → (nodes1 l' i').isSome = true := by
      intro l' i' hs
      rw [← hn1]
      rcases Cache.orInsert_cases nodes l (siblingOf i) (nodeHash kc abi g l (siblingOf i)) with e | e <;> rw [e]
      · exact hs
      · exact Cache.insert_isSome _ _ _ _ _ _ hs
    have hent : ∀ l' i' h, l' ≤ bits → nodes1 l' i' = some h → (l' ≤ l ∨ i' ≠ j / 2 ^ l') →
        h = nodeHash kc abi g l' i' := by
      intro l' i' h hb hh hor
      rw [← hn1] at hh
      rcases Cache.orInsert_cases nodes l (siblingOf i) (nodeHash kc abi g l (siblingOf i)) with e | e <;>
        rw [e] at hh
      · exact hinv.entries l' i' h hb hh hor
      · unfold Cache.insert at hh
        split at hh
        · rename_i hc; rw [hc.1, hc.2]; simpa using hh.symm
        · exact hinv.entries l' i' h hb hh hor
    constructor
    · intro l' i' h hb hh hor
      unfold Cache.insert at hh
      split at hh
      · rename_i hc; rw [hc.1, hc.2]; simpa using hh.symm
      · rename_i hc
        apply hent l' i' h hb hh
        by_cases hle : l' ≤ l
        · exact Or.inl hle
        · right
          cases hor with
          | inl h1 =>
            have hl1 : l' = l + 1 := by omega
            subst hl1
            intro he
            exact hc ⟨rfl, he⟩
          | inr h2 => exact h2
    · intro k hk l' hl'
      exact Cache.insert_isSome _ _ _ _ _ _ (hmono _ _ (hinv.covered k hk l' hl'))
    · intro l' hl'
      by_cases hle : l' ≤ l
      · exact Cache.insert_isSome _ _ _ _ _ _ (hmono _ _ (hinv.path l' hle))
      · have : l' = l + 1 := by omega
        subst this
        rw [Cache.insert_same]; rfl

/-- Invariant between two proofs. -/
structure NInv (f : Contents V) (upd : SMap V) (bits : Nat) (done : List Nat) (nodes : Cache) : Prop where
  entries : ∀ l i h, l ≤ bits → nodes l i = some h → h = nodeHash kc abi (applied f upd done) l i
  covered : ∀ k ∈ done, ∀ l ≤ bits, (nodes l (k / 2 ^ l)).isSome = true

/-- A proof that tells the truth about the tree of `f`. -/
def TrueProof [TreeKey K] (f : Contents V) (p : MerkleProof K V) : Prop :=
  p.value = f (StoreKey.index p.key) ∧
  p.proof = truePath kc abi f (TreeKey.bits K) (StoreKey.index p.key)

theorem replayProof_inv [TreeKey K] (f : Contents V) (upd : SMap V) (done : List Nat) (nodes : Cache)
    (p : MerkleProof K V) (hp : TrueProof kc abi f p)
    (hinv : NInv kc abi f upd (TreeKey.bits K) done nodes) :
    NInv kc abi f upd (TreeKey.bits K) (StoreKey.index p.key :: done)
      (replayProof kc abi upd nodes p) := by
  obtain ⟨hv, hpath⟩ := hp
  unfold replayProof
  simp only
  generalize hj : StoreKey.index p.key = j at *
  generalize hg : applied f upd (j :: done) = g at *
  have hleaf : replayLeaf kc abi upd p = nodeHash kc abi g 0 j := by
    unfold replayLeaf
    rw [← hg, hj]
    simp only [nodeHash, applied, List.mem_cons, true_or, ↓reduceIte]
    cases upd.get? j with
    | some v => rfl
    | none => simp only [optHash_eq, hv, Option.none_or]
  rw [hleaf]
  have hfg : ∀ k, k ∉ done → k ≠ j → f k = g k := by
    intro k h1 h2
    rw [← hg]
    simp [applied, h1, h2]
  have hw : WInv kc abi g (TreeKey.bits K) done j 0 (nodes.insert 0 j (nodeHash kc abi g 0 j)) := by
    constructor
    · intro l' i' h hb hh hor
      unfold Cache.insert at hh
      split at hh
      · rename_i hc; rw [hc.1, hc.2]; simpa using hh.symm
      · rename_i hc
        rw [hinv.entries l' i' h hb hh]
        apply nodeHash_congr'
        intro k hk
        rw [← hg]
        have hkj : k ≠ j := by
          intro he
          subst he
          cases hor with
          | inl h0 =>
            have : l' = 0 := by omega
            subst this
            simp at hk
            exact hc ⟨rfl, hk.symm⟩
          | inr h1 => exact h1 hk.symm
        simp [applied, hkj]
    · intro k hk l' hl'
      exact Cache.insert_isSome _ _ _ _ _ _ (hinv.covered k hk l' hl')
    · intro l' hl'
      have : l' = 0 := by omega
      subst this
      simp [Cache.insert]
  have hres := walkUp_inv kc abi f g (TreeKey.bits K) done j hfg (TreeKey.bits K) 0 _ (by omega) hw
  simp only [Nat.zero_add, Nat.pow_zero, Nat.div_one] at hres
  rw [hpath]
  unfold truePath
  constructor
  · intro l i h hb hh
    rw [hg]
    exact hres.entries l i h hb hh (Or.inl hb)
  · intro k hk l hl
    simp only [List.mem_cons] at hk
    cases hk with
    | inl h1 => rw [h1]; exact hres.path l hl
    | inr h2 => exact hres.covered k h2 l hl

theorem replayAll_inv [TreeKey K] (f : Contents V) (upd : SMap V) (ps : List (MerkleProof K V))
    (hps : ∀ p ∈ ps, TrueProof kc abi f p) (done : List Nat) (nodes : Cache)
    (hinv : NInv kc abi f upd (TreeKey.bits K) done nodes) :
    NInv kc abi f upd (TreeKey.bits K) ((ps.map (fun p => StoreKey.index p.key)).reverse ++ done)
      (ps.foldl (replayProof kc abi upd) nodes) := by
  induction ps generalizing done nodes with
  | nil => exact hinv
  | cons p ps ih =>
    have := ih (fun q hq => hps q (by simp [hq])) _ _
      (replayProof_inv kc abi f upd done nodes p (hps p (by simp)) hinv)
    simpa using this

theorem write_eq [StoreKey K] (f : Contents V) (new : List (K × V)) (j : Nat) :
    f.write new j = ((updateMap new).get? j).or (f j) := by
  have key : ∀ (new : List (K × V)) (g : Contents V) (m : SMap V),
      (∀ j, g j = (m.get? j).or (f j)) →
      ∀ j, (new.foldl (fun f e => f.set (StoreKey.index e.1) (some e.2)) g) j =
        ((new.foldl (fun m e => m.insert (StoreKey.index e.1) e.2) m).get? j).or (f j) := by
    intro new
    induction new with
    | nil => intro g m h j; exact h j
    | cons e new ih =>
      intro g m h j
      simp only [List.foldl_cons]
      apply ih
      intro j
      simp only [Contents.set, SMap.get?_insert]
      split
      · simp
      · exact h j
  exact key new f SMap.empty (by simp) j

theorem updateMap_mem [StoreKey K] (new : List (K × V)) (j : Nat) (v : V)
    (h : (updateMap new).get? j = some v) : ∃ e ∈ new, StoreKey.index e.1 = j := by
  have key : ∀ (new : List (K × V)) (m : SMap V) (j : Nat) (v : V),
      (new.foldl (fun m e => m.insert (StoreKey.index e.1) e.2) m).get? j = some v →
      (∃ e ∈ new, StoreKey.index e.1 = j) ∨ m.get? j = some v := by
    intro new
    induction new with
    | nil => intro m j v h; exact Or.inr h
    | cons e new ih =>
      intro m j v h
      rcases ih _ j v h with ⟨x, hx, hxe⟩ | h1
      · exact Or.inl ⟨x, by simp [hx], hxe⟩
      · rw [SMap.get?_insert] at h1
        split at h1
        · rename_i hj; exact Or.inl ⟨e, by simp, hj.symm⟩
        · exact Or.inr h1
  rcases key new SMap.empty j v h with h1 | h1
  · exact h1
  · simp at h1

theorem verifyAll_ok_iff [TreeKey K] (root : B256) (ps : List (MerkleProof K V)) :
    verifyAll kc abi root ps = .ok () ↔ ∀ p ∈ ps, verifyProof kc abi root p = .ok () := by
  induction ps with
  | nil => simp [verifyAll]
  | cons p ps ih =>
    simp only [verifyAll]
    cases h : verifyProof kc abi root p with
    | error e => simp [h]
    | ok u => simp [h, ih]

/-- Correctness of the update once all proofs are known to be true. -/
theorem calculateNewRoot_true [TreeKey K] [DecidableEq K] (f : Contents V)
    (ps : List (MerkleProof K V)) (new : List (K × V)) (hps : ∀ p ∈ ps, TrueProof kc abi f p)
    (hnew : ∀ e ∈ new, ∃ p ∈ ps, p.key = e.1) :
    calculateNewRoot kc abi (treeRoot kc abi (TreeKey.bits K) f) ps new =
      .ok (treeRoot kc abi (TreeKey.bits K) (f.write new)) := by
  have hver : verifyAll kc abi (treeRoot kc abi (TreeKey.bits K) f) ps = .ok () := by
    rw [verifyAll_ok_iff]
    intro p hp
    obtain ⟨h1, h2⟩ := hps p hp
    rw [verifyProof_ok_iff, h1, h2]
    refine ⟨by simp [truePath], truePath_root kc abi f _ _ (TreeKey.index_lt p.key)⟩
  unfold calculateNewRoot
  split
  · rename_i h
    have : new = [] := by simpa using h.1
    subst this
    rfl
  · rename_i hne
    rw [hver]
    simp only
    have hall : new.all (fun e => ps.any (fun p => p.key = e.1)) = true := by
      simp only [List.all_eq_true, List.any_eq_true, decide_eq_true_eq]
      exact fun e he => hnew e he
    rw [if_neg (by simp [hall])]
    have hpsne : ps ≠ [] := by
      intro h
      subst h
      cases new with
      | nil => simp at hne
      | cons e new =>
        obtain ⟨p, hp, _⟩ := hnew e (by simp)
        simp at hp
    have hinv := replayAll_inv kc abi f (updateMap new) ps hps [] (fun _ _ => none)
      ⟨by intro l i h _ hh; simp at hh, by simp⟩
    have hsome : ∃ h, (ps.foldl (replayProof kc abi (updateMap new)) (fun _ _ => none))
        (TreeKey.bits K) 0 = some h := by
      cases ps with
      | nil => exact absurd rfl hpsne
      | cons p ps =>
        have := hinv.covered (StoreKey.index p.key) (by simp) (TreeKey.bits K) (Nat.le_refl _)
        rw [Nat.div_eq_of_lt (TreeKey.index_lt p.key)] at this
        exact Option.isSome_iff_exists.mp this
    obtain ⟨h, hh⟩ := hsome
    rw [hh]
    simp only
    rw [hinv.entries _ _ _ (Nat.le_refl _) hh]
    unfold treeRoot
    congr 1
    apply nodeHash_congr'
    intro j _
    rw [write_eq]
    unfold applied
    split
    · rfl
    · rename_i hj
      cases hu : (updateMap new).get? j with
      | none => rfl
      | some v =>
        obtain ⟨e, he, hej⟩ := updateMap_mem new j v hu
        obtain ⟨p, hp, hpe⟩ := hnew e he
        exfalso
        apply hj
        simp only [List.append_nil, List.mem_reverse, List.mem_map]
        exact ⟨p, hp, by rw [hpe, hej]⟩

/-- What success of the update says about the proofs. -/
theorem calculateNewRoot_ok [TreeKey K] [DecidableEq K] (old new_ : B256)
    (ps : List (MerkleProof K V)) (new : List (K × V))
    (h : calculateNewRoot kc abi old ps new = .ok new_) :
    (∀ p ∈ ps, verifyProof kc abi old p = .ok ()) ∧ (∀ e ∈ new, ∃ p ∈ ps, p.key = e.1) := by
  unfold calculateNewRoot at h
  split at h
  · rename_i he
    have h1 : new = [] := by simpa using he.1
    have h2 : ps = [] := by simpa using he.2
    subst h1; subst h2
    simp
  · cases hv : verifyAll kc abi old ps with
    | error e => rw [hv] at h; simp at h
    | ok u =>
      rw [hv] at h
      simp only at h
      split at h
      · simp at h
      · rename_i ha
        simp only [Decidable.not_not, List.all_eq_true, List.any_eq_true, decide_eq_true_eq] at ha
        exact ⟨(verifyAll_ok_iff kc abi old ps).mp hv, ha⟩

end
end Verif
