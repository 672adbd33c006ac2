import Verif.MerkleSpec
/-
# Lemmas about the Merkle model
-/

namespace Verif

theorem sib_xor (i : Nat) : i ^^^ 1 = siblingOf i := by
  unfold siblingOf
  apply Nat.eq_of_testBit_eq
  intro j
  rw [Nat.testBit_xor]
  cases j with
  | zero =>
    rcases Nat.mod_two_eq_zero_or_one i with h | h
    · simp [Nat.testBit_zero, h]; omega
    · simp [Nat.testBit_zero, h]; omega
  | succ j =>
    have h1 : Nat.testBit 1 (j + 1) = false := by rw [Nat.testBit_succ]; simp
    rw [h1, Nat.testBit_succ, Bool.xor_false]
    split
    · rw [Nat.testBit_succ]; congr 1; omega
    · rw [Nat.testBit_succ]; congr 1; omega

theorem or_one_even {i : Nat} (h : i % 2 = 0) : i ||| 1 = i + 1 := by
  apply Nat.eq_of_testBit_eq
  intro j
  rw [Nat.testBit_or]
  cases j with
  | zero => simp [Nat.testBit_zero]; omega
  | succ j =>
    have h1 : Nat.testBit 1 (j + 1) = false := by rw [Nat.testBit_succ]; simp
    rw [h1, Nat.testBit_succ, Bool.or_false, Nat.testBit_succ]
    congr 1; omega

theorem shr_one (i : Nat) : i >>> 1 = i / 2 := by rw [Nat.shiftRight_eq_div_pow]

theorem shl256_eq {i n : Nat} (h : i * 2 ^ n < 2 ^ 256) : shl256 i n = i * 2 ^ n := by
  unfold shl256; rw [Nat.shiftLeft_eq, Nat.mod_eq_of_lt h]

section
variable {V : Type} (kc : Bytes → B256) (abi : V → Bytes)

theorem optHash_eq (o : Option V) : optHash kc abi o = leafWord kc abi o := by cases o <;> rfl

theorem nodeHash_succ (f : Contents V) (l i : Nat) :
    nodeHash kc abi f (l + 1) i =
      hashPair kc (nodeHash kc abi f l (2 * i)) (nodeHash kc abi f l (2 * i + 1)) := rfl

theorem nodeHash_congr (f g : Contents V) (l i : Nat)
    (h : ∀ j, i * 2 ^ l ≤ j → j < (i + 1) * 2 ^ l → f j = g j) :
    nodeHash kc abi f l i = nodeHash kc abi g l i := by
  induction l generalizing i with
  | zero =>
    have := h i (by omega) (by omega)
    simp only [nodeHash, this]
  | succ l ih =>
    have hp : 2 ^ (l + 1) = 2 * 2 ^ l := by rw [Nat.pow_succ]; omega
    rw [hp] at h
    have e1 : i * (2 * 2 ^ l) = 2 * i * 2 ^ l := by rw [← Nat.mul_assoc]; congr 1; omega
    have e2 : (i + 1) * (2 * 2 ^ l) = (2 * i + 1 + 1) * 2 ^ l := by rw [← Nat.mul_assoc]; congr 1; omega
    rw [e1, e2] at h
    have e3 : (2 * i + 1) * 2 ^ l = 2 * i * 2 ^ l + 2 ^ l := by rw [Nat.add_mul]; omega
    have e4 : (2 * i + 1 + 1) * 2 ^ l = 2 * i * 2 ^ l + 2 ^ l + 2 ^ l := by
      rw [Nat.add_mul, Nat.add_mul]; omega
    rw [nodeHash_succ, nodeHash_succ, ih (2 * i) (fun j h1 h2 => h j h1 (by omega)),
      ih (2 * i + 1) (fun j h1 h2 => h j (by omega) h2)]

theorem nodeHash_none (l i : Nat) : nodeHash kc abi (fun _ => none) l i = zeroHash kc l := by
  induction l generalizing i with
  | zero => rfl
  | succ l ih => rw [nodeHash_succ, ih, ih]; rfl

theorem nodeHash_empty (f : Contents V) (l i : Nat)
    (h : ∀ j, i * 2 ^ l ≤ j → j < (i + 1) * 2 ^ l → f j = none) :
    nodeHash kc abi f l i = zeroHash kc l := by
  rw [nodeHash_congr kc abi f (fun _ => none) l i h, nodeHash_none]

/-! ## `root` -/

/-- A layer map represents level `l` of the tree. -/
def RepLayer (f : Contents V) (l : Nat) (m : SMap B256) : Prop :=
  ∀ i, match m.get? i with
    | some h => h = nodeHash kc abi f l i
    | none => nodeHash kc abi f l i = zeroHash kc l

theorem RepLayer.getD {f : Contents V} {l : Nat} {m : SMap B256} (h : RepLayer kc abi f l m) (i : Nat) :
    (m.get? i).getD (zeroHash kc l) = nodeHash kc abi f l i := by
  have := h i
  cases hg : m.get? i with
  | none => rw [hg] at this; exact this.symm
  | some x => rw [hg] at this; exact this

/-- Every entry of the next layer is the hash of the two children. -/
def Good (z : B256) (cur next : SMap B256) : Prop :=
  ∀ p h, next.get? p = some h →
    h = hashPair kc ((cur.get? (2 * p)).getD z) ((cur.get? (2 * p + 1)).getD z)

theorem layerStep_good (z : B256) (cur next : SMap B256) (e : Nat × B256)
    (he : cur.get? e.1 = some e.2) (hn : Good kc z cur next) :
    Good kc z cur (layerStep kc z cur next e) ∧
    ((layerStep kc z cur next e).get? (e.1 / 2)).isSome = true ∧
    ∀ p, (next.get? p).isSome = true → ((layerStep kc z cur next e).get? p).isSome = true := by
  obtain ⟨i, h⟩ := e
  simp only at he
  unfold layerStep
  simp only [shr_one]
  by_cases hp : i % 2 = 0
  · have hi : i = 2 * (i / 2) := by omega
    simp only [hp, ↓reduceIte, or_one_even hp]
    have hl : (cur.get? (2 * (i / 2))).getD z = h := by rw [← hi, he]; rfl
    have hr : cur.get? (2 * (i / 2) + 1) = cur.get? (i + 1) := by congr 1; omega
    cases hs : cur.get? (i + 1) with
    | some sib =>
      refine ⟨?_, by simp, ?_⟩
      · intro p x hx
        rw [SMap.get?_insert] at hx
        split at hx
        · rename_i hpi; subst hpi
          rw [hl, hr, hs]; simpa using hx.symm
        · cases hq : next.get? (i / 2) with
          | some y => rw [hq] at hx; exact hn p x hx
          | none =>
            rw [hq] at hx
            simp only [SMap.get?_insert] at hx
            rw [if_neg (by assumption)] at hx
            exact hn p x hx
      · intro p hpp
        rw [SMap.get?_insert]
        split
        · rfl
        · cases hq : next.get? (i / 2) with
          | some y => exact hpp
          | none => simp only [SMap.get?_insert]; rw [if_neg (by assumption)]; exact hpp
    | none =>
      cases hq : next.get? (i / 2) with
      | some y => exact ⟨hn, by simp [hq], fun p hpp => hpp⟩
      | none =>
        refine ⟨?_, by simp, ?_⟩
        · intro p x hx
          simp only [SMap.get?_insert] at hx
          split at hx
          · rename_i hpi; subst hpi
            rw [hl, hr, hs]; simpa using hx.symm
          · exact hn p x hx
        · intro p hpp
          simp only [SMap.get?_insert]
          split
          · rfl
          · exact hpp
  · have hi : i = 2 * (i / 2) + 1 := by omega
    simp only [hp, ↓reduceIte]
    have hl : (cur.get? (2 * (i / 2) + 1)).getD z = h := by rw [← hi, he]; rfl
    have hr : cur.get? (2 * (i / 2)) = cur.get? (i - 1) := by congr 1; omega
    cases hs : cur.get? (i - 1) with
    | some sib =>
      refine ⟨?_, by simp, ?_⟩
      · intro p x hx
        rw [SMap.get?_insert] at hx
        split at hx
        · rename_i hpi; subst hpi
          rw [hl, hr, hs]; simpa using hx.symm
        · cases hq : next.get? (i / 2) with
          | some y => rw [hq] at hx; exact hn p x hx
          | none =>
            rw [hq] at hx
            simp only [SMap.get?_insert] at hx
            rw [if_neg (by assumption)] at hx
            exact hn p x hx
      · intro p hpp
        rw [SMap.get?_insert]
        split
        · rfl
        · cases hq : next.get? (i / 2) with
          | some y => exact hpp
          | none => simp only [SMap.get?_insert]; rw [if_neg (by assumption)]; exact hpp
    | none =>
      cases hq : next.get? (i / 2) with
      | some y => exact ⟨hn, by simp [hq], fun p hpp => hpp⟩
      | none =>
        refine ⟨?_, by simp, ?_⟩
        · intro p x hx
          simp only [SMap.get?_insert] at hx
          split at hx
          · rename_i hpi; subst hpi
            rw [hl, hr, hs]; simpa using hx.symm
          · exact hn p x hx
        · intro p hpp
          simp only [SMap.get?_insert]
          split
          · rfl
          · exact hpp

theorem foldl_layerStep (z : B256) (cur : SMap B256) (l : List (Nat × B256)) (next : SMap B256)
    (he : ∀ e ∈ l, cur.get? e.1 = some e.2) (hn : Good kc z cur next) :
    Good kc z cur (l.foldl (layerStep kc z cur) next) ∧
    (∀ e ∈ l, ((l.foldl (layerStep kc z cur) next).get? (e.1 / 2)).isSome = true) ∧
    ∀ p, (next.get? p).isSome = true → ((l.foldl (layerStep kc z cur) next).get? p).isSome = true := by
  induction l generalizing next with
  | nil => exact ⟨hn, by simp, fun p h => h⟩
  | cons e l ih =>
    obtain ⟨h1, h2, h3⟩ := layerStep_good kc z cur next e (he e (by simp)) hn
    obtain ⟨i1, i2, i3⟩ := ih _ (fun x hx => he x (by simp [hx])) h1
    refine ⟨i1, ?_, fun p hp => i3 p (h3 p hp)⟩
    intro x hx
    simp only [List.mem_cons] at hx
    cases hx with
    | inl hx => subst hx; exact i3 _ h2
    | inr hx => exact i2 x hx

theorem nextLayer_rep (f : Contents V) (l : Nat) (cur : SMap B256) (h : RepLayer kc abi f l cur) :
    RepLayer kc abi f (l + 1) (nextLayer kc (l + 1) cur) := by
  have hfold := foldl_layerStep kc (zeroHash kc l) cur cur.list SMap.empty
    (fun e he => (SMap.get?_eq_some_iff cur e.1 e.2).mpr he)
    (fun p x hx => by simp at hx)
  obtain ⟨h1, h2, -⟩ := hfold
  intro i
  have hd : nextLayer kc (l + 1) cur = cur.list.foldl (layerStep kc (zeroHash kc l) cur) SMap.empty := rfl
  rw [hd]
  cases hg : (cur.list.foldl (layerStep kc (zeroHash kc l) cur) SMap.empty).get? i with
  | some x =>
    have := h1 i x hg
    rw [h.getD, h.getD] at this
    simp only [this, nodeHash_succ]
  | none =>
    have none_of : ∀ j, j / 2 = i → cur.get? j = none := by
      intro j hj
      cases hc : cur.get? j with
      | none => rfl
      | some x =>
        have := h2 (j, x) ((SMap.get?_eq_some_iff cur j x).mp hc)
        simp only [hj, hg] at this
        simp at this
    have ha := h (2 * i)
    have hb := h (2 * i + 1)
    rw [none_of _ (by omega)] at ha
    rw [none_of _ (by omega)] at hb
    simp only [nodeHash_succ, ha, hb]
    rfl

theorem buildLayers_rep (f : Contents V) (cur : SMap B256) (h : RepLayer kc abi f 0 cur) (n : Nat) :
    RepLayer kc abi f n (buildLayers kc cur n) := by
  induction n with
  | zero => exact h
  | succ n ih => exact nextLayer_rep kc abi f n _ ih

theorem leafLayer_get (m : SMap V) (i : Nat) :
    (leafLayer kc abi m).get? i = (m.get? i).map (fun v => kc (abi v)) := by
  have key : ∀ (l : List (Nat × V)) (acc : SMap B256), l.Pairwise (fun a b => a.1 < b.1) →
      (∀ e ∈ l, acc.get? e.1 = none) →
      (l.foldl (fun m e => m.insert e.1 (kc (abi e.2))) acc).get? i =
        match SMap.lget l i with
        | some v => some (kc (abi v))
        | none => acc.get? i := by
    intro l
    induction l with
    | nil => intro acc _ _; rfl
    | cons e l ih =>
      intro acc hs hd
      rw [List.pairwise_cons] at hs
      simp only [List.foldl_cons]
      rw [ih _ hs.2 ?_]
      · simp only [SMap.lget]
        by_cases hi : e.1 = i
        · have hno : SMap.lget l i = none := by
            cases hl : SMap.lget l i with
            | none => rfl
            | some v =>
              have := hs.1 _ (SMap.lget_mem l i v hl)
              simp only at this; omega
          rw [hno]; simp [hi]
        · have hi' : ¬ (i = e.1) := fun h => hi h.symm
          cases hl : SMap.lget l i with
          | none => simp [hi']
          | some v => simp [hi']
      · intro x hx
        have := hs.1 x hx
        rw [SMap.get?_insert_ne _ _ (by omega)]
        exact hd x (by simp [hx])
  have := key m.list SMap.empty m.sorted (by simp)
  unfold leafLayer SMap.get?
  unfold SMap.get? at this
  rw [this]
  cases SMap.lget m.list i <;> rfl

theorem leafLayer_rep (m : SMap V) : RepLayer kc abi m.get? 0 (leafLayer kc abi m) := by
  intro i
  rw [leafLayer_get]
  cases h : m.get? i with
  | none => simp [nodeHash, h, leafWord, zeroHash]
  | some v => simp [nodeHash, h, leafWord]

theorem root_eq {K : Type} [TreeKey K] (m : Merkle K V) :
    m.root kc abi = treeRoot kc abi (TreeKey.bits K) m.leaves.get? := by
  unfold Merkle.root treeRoot
  split
  · rename_i h
    have := (SMap.isEmpty_iff _).mp h
    rw [nodeHash_empty kc abi m.leaves.get? (TreeKey.bits K) 0 (fun j _ _ => this j)]
  · have h := buildLayers_rep kc abi m.leaves.get? _ (leafLayer_rep kc abi m.leaves) (TreeKey.bits K) 0
    cases hg : (buildLayers kc (leafLayer kc abi m.leaves) (TreeKey.bits K)).get? 0 with
    | some x => rw [hg] at h; exact h
    | none => rw [hg] at h; exact h.symm

/-! ## `proof` -/

theorem subtreeEmpty_iff (m : SMap V) (hk : ∀ j, (m.get? j).isSome = true → j < 2 ^ 256) (l i : Nat)
    (hb : (i + 1) * 2 ^ l ≤ 2 ^ 256) :
    subtreeEmpty m l i = true ↔ ∀ j, i * 2 ^ l ≤ j → j < (i + 1) * 2 ^ l → m.get? j = none := by
  have hpos : 0 < 2 ^ l := Nat.pow_pos (by omega)
  have hadd : (i + 1) * 2 ^ l = i * 2 ^ l + 2 ^ l := by rw [Nat.add_mul]; omega
  have hs : shl256 i l = i * 2 ^ l := shl256_eq (by omega)
  have hmem : ∀ j, m.get? j = none ↔ ∀ e ∈ m.list, e.1 ≠ j := by
    intro j
    constructor
    · intro h e he hj
      have := (SMap.get?_eq_some_iff m e.1 e.2).mpr he
      rw [hj, h] at this; simp at this
    · intro h
      cases hg : m.get? j with
      | none => rfl
      | some v => exact absurd rfl (h _ ((SMap.get?_eq_some_iff m j v).mp hg))
  have hlt : ∀ e ∈ m.list, e.1 < 2 ^ 256 := by
    intro e he
    exact hk e.1 (by rw [(SMap.get?_eq_some_iff m e.1 e.2).mpr he]; rfl)
  have goal : (∀ j, i * 2 ^ l ≤ j → j < (i + 1) * 2 ^ l → m.get? j = none) ↔
      ∀ e ∈ m.list, ¬ (i * 2 ^ l ≤ e.1 ∧ e.1 < (i + 1) * 2 ^ l) := by
    constructor
    · intro h e he hc
      exact (hmem e.1).mp (h e.1 hc.1 hc.2) e he rfl
    · intro h j h1 h2
      rw [hmem]
      intro e he hej
      exact h e he (by omega)
  rw [goal]
  unfold subtreeEmpty
  simp only [hs]
  have h1 : (i * 2 ^ l + shl256 1 l) % 2 ^ 256 = ((i + 1) * 2 ^ l) % 2 ^ 256 := by
    unfold shl256
    rw [Nat.shiftLeft_eq, Nat.one_mul, Nat.add_mod_mod, hadd]
  rw [h1]
  generalize hE : (i + 1) * 2 ^ l = E at *
  by_cases hfull : E = 2 ^ 256
  · rw [hfull, Nat.mod_self]
    simp only [↓reduceIte, List.all_eq_true, decide_eq_true_eq]
    constructor
    · intro h e he hc; exact h e he hc.1
    · intro h e he hc; exact h e he ⟨hc, hlt e he⟩
  · rw [Nat.mod_eq_of_lt (by omega)]
    rw [if_neg (by omega)]
    simp only [List.all_eq_true, decide_eq_true_eq]

/-- The cache only holds true node hashes. -/
def CacheOk (f : Contents V) (c : Cache) : Prop :=
  ∀ l i h, c l i = some h → h = nodeHash kc abi f l i

theorem CacheOk.none (f : Contents V) : CacheOk kc abi f (fun _ _ => none) := by
  intro l i h hh; simp at hh

theorem CacheOk.insert {f : Contents V} {c : Cache} (h : CacheOk kc abi f c) (l i : Nat) :
    CacheOk kc abi f (c.insert l i (nodeHash kc abi f l i)) := by
  intro l' i' x hx
  unfold Cache.insert at hx
  split at hx
  · rename_i hc; rw [hc.1, hc.2]; simpa using hx.symm
  · exact h l' i' x hx

theorem computeNode_ok (bits : Nat) (m : SMap V)
    (hk : ∀ j, (m.get? j).isSome = true → j < 2 ^ 256) (l i : Nat) (c : Cache)
    (hb : (i + 1) * 2 ^ l ≤ 2 ^ 256) (hc : CacheOk kc abi m.get? c) :
    (computeNode kc abi bits m l i c).1 = nodeHash kc abi m.get? l i ∧
    CacheOk kc abi m.get? (computeNode kc abi bits m l i c).2 := by
  induction l generalizing i c with
  | zero => exact ⟨by simp only [computeNode, optHash_eq]; rfl, hc⟩
  | succ l ih =>
    simp only [computeNode]
    cases hq : c (l + 1) i with
    | some h => exact ⟨hc _ _ _ hq, hc⟩
    | none =>
      simp only
      split
      · rename_i he
        rw [subtreeEmpty_iff m hk (l + 1) i hb] at he
        exact ⟨(nodeHash_empty kc abi _ _ _ he).symm, hc⟩
      · have hp : 2 ^ (l + 1) = 2 * 2 ^ l := by rw [Nat.pow_succ]; omega
        have hpos : 0 < 2 ^ l := Nat.pow_pos (by omega)
        have hbb : (i + 1) * 2 ^ (l + 1) = 2 * i * 2 ^ l + 2 ^ l + 2 ^ l := by
          rw [hp, ← Nat.mul_assoc, show (i + 1) * 2 = 2 * i + 1 + 1 by omega, Nat.add_mul, Nat.add_mul]; omega
        have h2i : shl256 i 1 = 2 * i := by
          rw [shl256_eq]
          · omega
          · have : i * 2 ≤ 2 * i * 2 ^ l := by
              rw [Nat.mul_comm i 2]; exact Nat.le_mul_of_pos_right _ hpos
            omega
        have h2i1 : 2 * i ||| 1 = 2 * i + 1 := or_one_even (by omega)
        rw [h2i, h2i1]
        obtain ⟨a1, a2⟩ := ih (2 * i) c (by rw [Nat.add_mul]; omega) hc
        obtain ⟨b1, b2⟩ := ih (2 * i + 1) (computeNode kc abi bits m l (2 * i) c).2
          (by rw [Nat.add_mul, Nat.add_mul]; omega) a2
        rw [a1, b1, ← nodeHash_succ]
        refine ⟨rfl, ?_⟩
        split
        · exact b2.insert kc abi _ _
        · exact b2

theorem siblingHash_ok (bits : Nat) (m : SMap V)
    (hk : ∀ j, (m.get? j).isSome = true → j < 2 ^ 256) (l i : Nat) (c : Cache)
    (hb : (i + 1) * 2 ^ l ≤ 2 ^ 256) (hc : CacheOk kc abi m.get? c) :
    (siblingHash kc abi bits m l i c).1 = nodeHash kc abi m.get? l i ∧
    CacheOk kc abi m.get? (siblingHash kc abi bits m l i c).2 := by
  unfold siblingHash
  split
  · rename_i h; subst h
    exact ⟨by simp only [optHash_eq]; rfl, hc⟩
  · cases hq : c l i with
    | some h => exact ⟨hc _ _ _ hq, hc⟩
    | none =>
      simp only
      split
      · rename_i he
        rw [subtreeEmpty_iff m hk l i hb] at he
        exact ⟨(nodeHash_empty kc abi _ _ _ he).symm, hc⟩
      · exact computeNode_ok kc abi bits m hk l i c hb hc

theorem siblingOf_lt {i n : Nat} (h : i < 2 ^ (n + 1)) : siblingOf i < 2 ^ (n + 1) := by
  unfold siblingOf
  rw [Nat.pow_succ] at *
  split <;> omega

theorem proofLoop_ok (bits : Nat) (hbits : bits ≤ 256) (m : SMap V)
    (hk : ∀ j, (m.get? j).isSome = true → j < 2 ^ 256) (n l i : Nat) (c : Cache)
    (hl : l + n = bits) (hi : i < 2 ^ n) (hc : CacheOk kc abi m.get? c) :
    (proofLoop kc abi bits m n l i c).1 =
      (List.range n).map (fun t => nodeHash kc abi m.get? (l + t) (siblingOf (i / 2 ^ t))) ∧
    CacheOk kc abi m.get? (proofLoop kc abi bits m n l i c).2 := by
  induction n generalizing l i c with
  | zero => exact ⟨rfl, hc⟩
  | succ n ih =>
    simp only [proofLoop, sib_xor, shr_one]
    have hsib : (siblingOf i + 1) * 2 ^ l ≤ 2 ^ 256 := by
      have h1 := siblingOf_lt hi
      calc (siblingOf i + 1) * 2 ^ l ≤ 2 ^ (n + 1) * 2 ^ l := Nat.mul_le_mul_right _ (by omega)
        _ = 2 ^ bits := by rw [← Nat.pow_add]; congr 1; omega
        _ ≤ 2 ^ 256 := Nat.pow_le_pow_right (by omega) hbits
    obtain ⟨a1, a2⟩ := siblingHash_ok kc abi bits m hk l (siblingOf i) c hsib hc
    obtain ⟨b1, b2⟩ := ih (l + 1) (i / 2) _ (by omega)
      (by rw [Nat.pow_succ] at hi; omega) a2
    refine ⟨?_, b2⟩
    rw [a1, b1, List.range_succ_eq_map, List.map_cons, List.map_map]
    simp only [Nat.add_zero, Nat.pow_zero, Nat.div_one, List.cons.injEq, true_and]
    apply List.map_congr_left
    intro t _
    simp only [Function.comp]
    congr 1
    · omega
    · congr 1
      rw [Nat.div_div_eq_div_mul, Nat.pow_succ, Nat.mul_comm 2]

/-! ## Verification of true paths -/

theorem proofRoot_true (f : Contents V) (n l i : Nat) :
    proofRoot kc (nodeHash kc abi f l i) i
      ((List.range n).map (fun t => nodeHash kc abi f (l + t) (siblingOf (i / 2 ^ t)))) =
    nodeHash kc abi f (l + n) (i / 2 ^ n) := by
  induction n generalizing l i with
  | zero => simp [proofRoot]
  | succ n ih =>
    rw [List.range_succ_eq_map, List.map_cons, List.map_map]
    simp only [proofRoot, shr_one, Nat.add_zero, Nat.pow_zero, Nat.div_one]
    have hstep : (if i % 2 = 0 then hashPair kc (nodeHash kc abi f l i) (nodeHash kc abi f l (siblingOf i))
        else hashPair kc (nodeHash kc abi f l (siblingOf i)) (nodeHash kc abi f l i)) =
        nodeHash kc abi f (l + 1) (i / 2) := by
      rw [nodeHash_succ]
      unfold siblingOf
      split
      · rw [show 2 * (i / 2) = i by omega]
      · rw [show 2 * (i / 2) + 1 = i by omega, show 2 * (i / 2) = i - 1 by omega]
    rw [hstep]
    have := ih (l + 1) (i / 2)
    rw [show l + (n + 1) = l + 1 + n by omega, Nat.pow_succ, Nat.mul_comm, ← Nat.div_div_eq_div_mul,
      ← this]
    congr 1
    apply List.map_congr_left
    intro t _
    simp only [Function.comp]
    congr 1
    · omega
    · congr 1
      rw [Nat.div_div_eq_div_mul, Nat.pow_succ, Nat.mul_comm 2]

theorem truePath_root (f : Contents V) (bits i : Nat) (hi : i < 2 ^ bits) :
    proofRoot kc (leafWord kc abi (f i)) i (truePath kc abi f bits i) = treeRoot kc abi bits f := by
  have := proofRoot_true kc abi f bits 0 i
  simp only [Nat.zero_add] at this
  rw [Nat.div_eq_of_lt hi] at this
  exact this

theorem verifyProof_ok_iff {K : Type} [TreeKey K] (root : B256) (p : MerkleProof K V) :
    verifyProof kc abi root p = .ok () ↔
      p.proof.length = TreeKey.bits K ∧
      proofRoot kc (leafWord kc abi p.value) (StoreKey.index p.key) p.proof = root := by
  unfold verifyProof verifyProofWithHash
  rw [optHash_eq]
  split
  · simp; intro h; contradiction
  · split
    · simp; intro _ h; contradiction
    · rename_i h1 h2
      simp only [Decidable.not_not] at h1 h2
      simp [h1, h2]

theorem verifyProof_cases {K : Type} [TreeKey K] (root : B256) (p : MerkleProof K V) :
    verifyProof kc abi root p = .ok () ∨ ∃ e, verifyProof kc abi root p = .error e := by
  cases h : verifyProof kc abi root p with
  | ok u => exact Or.inl rfl
  | error e => exact Or.inr ⟨e, rfl⟩

/-! ## Soundness of verification -/

theorem bytes_append_inj {a b c d : B256}
    (h : B256.bytes a ++ B256.bytes b = B256.bytes c ++ B256.bytes d) : a = c ∧ b = d := by
  have := List.append_inj h (by rw [B256.bytes_length, B256.bytes_length])
  exact ⟨B256.bytes_inj this.1, B256.bytes_inj this.2⟩

/-- The input of the parent of node `i` of level `l`. -/
def parentInput (f : Contents V) (l i : Nat) : Bytes :=
  B256.bytes (nodeHash kc abi f l (2 * (i / 2))) ++ B256.bytes (nodeHash kc abi f l (2 * (i / 2) + 1))

theorem proofRoot_sound (f : Contents V) (S : Bytes → Prop) (hcf : CollisionFree kc S)
    (ss : List B256) (l i : Nat) (h : B256)
    (hf : ∀ x ∈ foldInputs kc h i ss, S x)
    (ht : ∀ t, t < ss.length → S (parentInput kc abi f (l + t) (i / 2 ^ t)))
    (hr : proofRoot kc h i ss = nodeHash kc abi f (l + ss.length) (i / 2 ^ ss.length)) :
    h = nodeHash kc abi f l i ∧
    ss = (List.range ss.length).map (fun t => nodeHash kc abi f (l + t) (siblingOf (i / 2 ^ t))) := by
  induction ss generalizing l i h with
  | nil => simpa [proofRoot] using hr
  | cons s ss ih =>
    simp only [proofRoot, shr_one, foldInputs, List.length_cons] at *
    generalize hx : (if i % 2 = 0 then B256.bytes h ++ B256.bytes s else B256.bytes s ++ B256.bytes h) = x at *
    have hkx : (if i % 2 = 0 then hashPair kc h s else hashPair kc s h) = kc x := by
      rw [← hx]; unfold hashPair; split <;> rfl
    rw [hkx] at hr
    have hih := ih (l + 1) (i / 2) (kc x) (fun y hy => hf y (by simp [hy]))
      (fun t ht' => by
        have := ht (t + 1) (by omega)
        rwa [Nat.pow_succ, Nat.mul_comm, ← Nat.div_div_eq_div_mul,
          show l + (t + 1) = l + 1 + t by omega] at this)
      (by
        rw [hr, show l + (ss.length + 1) = l + 1 + ss.length by omega, Nat.pow_succ, Nat.mul_comm,
          ← Nat.div_div_eq_div_mul])
    obtain ⟨h1, h2⟩ := hih
    have h0 := ht 0 (by omega)
    simp only [Nat.add_zero, Nat.pow_zero, Nat.div_one] at h0
    have hxe : x = parentInput kc abi f l i := by
      apply hcf x _ (hf x (by simp)) h0
      rw [h1]; rfl
    have hboth : h = nodeHash kc abi f l i ∧ s = nodeHash kc abi f l (siblingOf i) := by
      unfold parentInput at hxe
      rw [← hx] at hxe
      unfold siblingOf
      split at hxe
      · rename_i hp
        have := bytes_append_inj hxe
        rw [show 2 * (i / 2) = i by omega] at this
        simpa [hp] using this
      · rename_i hp
        have := bytes_append_inj hxe
        rw [show 2 * (i / 2) + 1 = i by omega, show 2 * (i / 2) = i - 1 by omega] at this
        simp only [hp, ↓reduceIte]
        exact ⟨this.2, this.1⟩
    refine ⟨hboth.1, ?_⟩
    rw [List.range_succ_eq_map, List.map_cons, List.map_map]
    simp only [Nat.add_zero, Nat.pow_zero, Nat.div_one, List.cons.injEq]
    refine ⟨hboth.2, ?_⟩
    refine h2.trans ?_
    apply List.map_congr_left
    intro t _
    simp only [Function.comp]
    congr 1
    · omega
    · congr 1
      rw [Nat.div_div_eq_div_mul, Nat.pow_succ, Nat.mul_comm 2]

/-- Equal leaf words mean equal values. -/
theorem leafWord_inj (habi : ∀ a b : V, abi a = abi b → a = b) (o o' : Option V) (S : Bytes → Prop)
    (hcf : CollisionFree kc S) (h1 : ∀ x ∈ leafInputs abi o, S x ∧ kc x ≠ 0)
    (h2 : ∀ x ∈ leafInputs abi o', S x ∧ kc x ≠ 0)
    (h : leafWord kc abi o = leafWord kc abi o') : o = o' := by
  cases o with
  | none =>
    cases o' with
    | none => rfl
    | some b => exact absurd h.symm (h2 _ (by simp [leafInputs])).2
  | some a =>
    cases o' with
    | none => exact absurd h (h1 _ (by simp [leafInputs])).2
    | some b =>
      have := hcf _ _ (h1 _ (by simp [leafInputs])).1 (h2 _ (by simp [leafInputs])).1 h
      rw [habi a b this]

theorem verify_sound {K : Type} [TreeKey K] (habi : ∀ a b : V, abi a = abi b → a = b)
    (f : Contents V) (p : MerkleProof K V) (S : Bytes → Prop) (hcf : CollisionFree kc S)
    (hp : ∀ x ∈ proofInputs kc abi p, S x)
    (ht : ∀ x ∈ pathInputs kc abi f (TreeKey.bits K) (StoreKey.index p.key), S x)
    (hz : ∀ x ∈ leafInputs abi p.value ++ leafInputs abi (f (StoreKey.index p.key)), kc x ≠ 0)
    (hv : verifyProof kc abi (treeRoot kc abi (TreeKey.bits K) f) p = .ok ()) :
    p.value = f (StoreKey.index p.key) ∧
    p.proof = truePath kc abi f (TreeKey.bits K) (StoreKey.index p.key) := by
  rw [verifyProof_ok_iff] at hv
  obtain ⟨hlen, hroot⟩ := hv
  have hi : StoreKey.index p.key < 2 ^ TreeKey.bits K := TreeKey.index_lt p.key
  have h := proofRoot_sound kc abi f S hcf p.proof 0 (StoreKey.index p.key) (leafWord kc abi p.value)
    (fun x hx => hp x (by unfold proofInputs; simp [hx]))
    (fun t htt => ht _ (by
      unfold pathInputs parentInput
      simp only [List.mem_append, List.mem_map, List.mem_range]
      right
      refine ⟨t, by omega, ?_⟩
      rw [Nat.zero_add, Nat.pow_succ, Nat.div_div_eq_div_mul]))
    (by rw [hroot, hlen, Nat.div_eq_of_lt hi, Nat.zero_add]; rfl)
  simp only [Nat.zero_add, hlen] at h
  refine ⟨?_, h.2⟩
  apply leafWord_inj kc abi habi _ _ S hcf _ _ h.1
  · intro x hx
    exact ⟨hp x (by unfold proofInputs; simp [hx]), hz x (by simp [hx])⟩
  · intro x hx
    exact ⟨ht x (by unfold pathInputs; simp [hx]), hz x (by simp [hx])⟩

end
end Verif
