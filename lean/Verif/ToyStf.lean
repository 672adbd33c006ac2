import Verif.PropsMerkle
import Verif.Toy
import Verif.Stf
/-
# A toy hash function without collisions on the hashes of a one-leaf tree

Used only to show that the hypotheses of C25 to C28 are met at the real tree height of 160.
-/

namespace Verif

/-- The inputs hashed when a true proof is checked are those on the true path. -/
theorem foldInputs_true {V : Type} (kc : Bytes → B256) (abi : V → Bytes) (f : Contents V) (i n : Nat) :
    ∀ l x, x ∈ foldInputs kc (nodeHash kc abi f l (i / 2 ^ l)) (i / 2 ^ l)
        ((List.range' l n).map (fun l => nodeHash kc abi f l (siblingOf (i / 2 ^ l)))) →
      ∃ l', l ≤ l' ∧ l' < l + n ∧ x = B256.bytes (nodeHash kc abi f l' (2 * (i / 2 ^ (l' + 1)))) ++
        B256.bytes (nodeHash kc abi f l' (2 * (i / 2 ^ (l' + 1)) + 1)) := by
  induction n with
  | zero => intro l x hx; simp [foldInputs] at hx
  | succ n ih =>
    intro l x hx
    rw [List.range'_succ, List.map_cons, foldInputs] at hx
    have hd : i / 2 ^ (l + 1) = i / 2 ^ l / 2 := by rw [Nat.pow_succ, Nat.div_div_eq_div_mul]
    have hx0 : (if i / 2 ^ l % 2 = 0 then
          B256.bytes (nodeHash kc abi f l (i / 2 ^ l)) ++
            B256.bytes (nodeHash kc abi f l (siblingOf (i / 2 ^ l)))
        else B256.bytes (nodeHash kc abi f l (siblingOf (i / 2 ^ l))) ++
            B256.bytes (nodeHash kc abi f l (i / 2 ^ l))) =
        B256.bytes (nodeHash kc abi f l (2 * (i / 2 ^ (l + 1)))) ++
        B256.bytes (nodeHash kc abi f l (2 * (i / 2 ^ (l + 1)) + 1)) := by
      rw [hd]
      unfold siblingOf
      split
      · rename_i h
        have e : 2 * (i / 2 ^ l / 2) = i / 2 ^ l := by omega
        rw [e]
      · rename_i h
        have e : 2 * (i / 2 ^ l / 2) + 1 = i / 2 ^ l := by omega
        have e' : 2 * (i / 2 ^ l / 2) = i / 2 ^ l - 1 := by omega
        rw [e, e']
    rw [hx0, List.mem_cons] at hx
    rcases hx with hx | hx
    · exact ⟨l, by omega, by omega, hx⟩
    · have e : kc (B256.bytes (nodeHash kc abi f l (2 * (i / 2 ^ (l + 1)))) ++
          B256.bytes (nodeHash kc abi f l (2 * (i / 2 ^ (l + 1)) + 1))) =
          nodeHash kc abi f (l + 1) (i / 2 ^ (l + 1)) := rfl
      rw [e, ← hd] at hx
      obtain ⟨l', h1, h2, h3⟩ := ih (l + 1) x hx
      exact ⟨l', by omega, by omega, h3⟩

/-- A true proof hashes only tree inputs. -/
theorem proofsInput_tree {K V : Type} [TreeKey K] (kc : Bytes → B256) (abi : V → Bytes)
    (f : Contents V) (ps : List (MerkleProof K V)) (h : ∀ p ∈ ps, TrueProof kc abi f p) (x : Bytes)
    (hx : proofsInput kc abi f ps x) : TreeInput kc abi f (TreeKey.bits K) x := by
  obtain ⟨p, hp, hx⟩ := hx
  obtain ⟨hv, hpf⟩ := h p hp
  have hlt := TreeKey.index_lt p.key
  have leaf : x ∈ leafInputs abi (f (StoreKey.index p.key)) → TreeInput kc abi f (TreeKey.bits K) x := by
    intro hl
    cases hf : f (StoreKey.index p.key) with
    | none => rw [hf] at hl; simp [leafInputs] at hl
    | some v =>
      rw [hf] at hl
      simp only [leafInputs, List.mem_singleton] at hl
      exact Or.inl ⟨_, v, hlt, hf, hl⟩
  have node : ∀ l, l < TreeKey.bits K →
      x = B256.bytes (nodeHash kc abi f l (2 * (StoreKey.index p.key / 2 ^ (l + 1)))) ++
        B256.bytes (nodeHash kc abi f l (2 * (StoreKey.index p.key / 2 ^ (l + 1)) + 1)) →
      TreeInput kc abi f (TreeKey.bits K) x := by
    intro l hl hx
    refine Or.inr ⟨l, _, hl, ?_, hx⟩
    apply Nat.div_lt_of_lt_mul
    rw [← Nat.pow_add]
    have : l + 1 + (TreeKey.bits K - (l + 1)) = TreeKey.bits K := by omega
    rw [this]
    exact hlt
  rcases hx with hx | hx
  · unfold proofInputs at hx
    rw [hv, hpf, List.mem_append] at hx
    rcases hx with hx | hx
    · exact leaf hx
    · have e : leafWord kc abi (f (StoreKey.index p.key)) =
        nodeHash kc abi f 0 (StoreKey.index p.key / 2 ^ 0) := by simp [nodeHash]
      rw [e] at hx
      have e2 : truePath kc abi f (TreeKey.bits K) (StoreKey.index p.key) =
          (List.range' 0 (TreeKey.bits K)).map
            (fun l => nodeHash kc abi f l (siblingOf (StoreKey.index p.key / 2 ^ l))) := by
        unfold truePath; rw [List.range_eq_range']
      rw [e2] at hx
      obtain ⟨l, _, h2, h3⟩ := foldInputs_true kc abi f (StoreKey.index p.key) (TreeKey.bits K) 0 x
        (by simpa using hx)
      exact node l (by omega) h3
  · unfold pathInputs at hx
    rw [List.mem_append] at hx
    rcases hx with hx | hx
    · exact leaf hx
    · obtain ⟨l, hl, hx⟩ := List.mem_map.mp hx
      exact node l (List.mem_range.mp hl) hx.symm

namespace Toy

/-- The successor of the larger half on 64-byte strings, a polynomial (offset by a power of two of the
length for whole words) on others. -/
def kcMax (bs : Bytes) : B256 :=
  if bs.length = 64 then BitVec.ofNat 256 (1 + max (beNat (bs.take 32)) (beNat (bs.drop 32)))
  else if bs.length % 32 = 0 then BitVec.ofNat 256
    (2 ^ (min bs.length 230) + bs.foldl (fun n b => (n * 1003 + b.toNat) % 2 ^ 20) 7)
  else BitVec.ofNat 256 (2 ^ 200 * bs.foldl (fun n b => (n * 1003 + b.toNat) % 2 ^ 50) 7)

theorem kcMax_pair (a b : B256) (h : a.toNat < 2 ^ 255) (h' : b.toNat < 2 ^ 255) :
    (kcMax (B256.bytes a ++ B256.bytes b)).toNat = 1 + max a.toNat b.toNat := by
  unfold kcMax
  have l1 := B256.bytes_length a
  have l2 := B256.bytes_length b
  rw [if_pos (by rw [List.length_append, l1, l2]), List.take_left' l1, List.drop_left' l1]
  unfold B256.bytes
  rw [beNat_beBytes, beNat_beBytes, Nat.mod_eq_of_lt (a := a.toNat) (by omega),
    Nat.mod_eq_of_lt (a := b.toNat) (by omega), BitVec.toNat_ofNat]
  apply Nat.mod_eq_of_lt
  omega

theorem kcMax_container (bs : Bytes) (hl : bs.length = 224) : 2 ^ 200 < (kcMax bs).toNat := by
  unfold kcMax
  rw [hl, if_neg (by decide), if_pos (by decide), BitVec.toNat_ofNat]
  have hb : ∀ (bs : Bytes) n, n < 2 ^ 20 →
      bs.foldl (fun n b => (n * 1003 + b.toNat) % 2 ^ 20) n < 2 ^ 20 := by
    intro bs
    induction bs with
    | nil => intro n hn; exact hn
    | cons b bs ih => intro n hn; exact ih _ (Nat.mod_lt _ (by decide))
  have hb' := hb bs 7 (by decide)
  generalize List.foldl _ _ _ = z at hb'
  rw [Nat.mod_eq_of_lt]
  · have : (2 : Nat) ^ 200 < 2 ^ min 224 230 := by decide
    omega
  · have : (2 : Nat) ^ min 224 230 + 2 ^ 20 < 2 ^ 256 := by decide
    omega

/-- One leaf. -/
def single {V : Type} (k : Nat) (v : V) : Contents V := fun i => if i = k then some v else none

theorem node_single {V : Type} (abi : V → Bytes) (k : Nat) (v : V)
    (hA : (kcMax (abi v)).toNat < 2 ^ 240) (hA' : 1000 < (kcMax (abi v)).toNat) :
    ∀ l, l ≤ 160 → ∀ i, (nodeHash kcMax abi (single k v) l i).toNat =
      if i = k / 2 ^ l then (kcMax (abi v)).toNat + l else l := by
  intro l
  induction l with
  | zero =>
    intro _ i
    simp only [nodeHash, single, Nat.pow_zero, Nat.div_one, Nat.add_zero]
    split <;> rfl
  | succ l ih =>
    intro hl i
    have h1 := ih (by omega) (2 * i)
    have h2 := ih (by omega) (2 * i + 1)
    have hd : k / 2 ^ (l + 1) = k / 2 ^ l / 2 := by rw [Nat.pow_succ, Nat.div_div_eq_div_mul]
    rw [hd]
    have b1 : (nodeHash kcMax abi (single k v) l (2 * i)).toNat < 2 ^ 255 := by
      rw [h1]; split <;> omega
    have b2 : (nodeHash kcMax abi (single k v) l (2 * i + 1)).toNat < 2 ^ 255 := by
      rw [h2]; split <;> omega
    rw [nodeHash, kcMax_pair _ _ b1 b2, h1, h2]
    generalize k / 2 ^ l = q
    repeat' split
    all_goals omega

theorem node_empty {V : Type} (abi : V → Bytes) :
    ∀ l, l ≤ 160 → ∀ i, (nodeHash kcMax abi (fun _ => none) l i).toNat = l := by
  intro l
  induction l with
  | zero => intro _ i; rfl
  | succ l ih =>
    intro hl i
    have h1 := ih (by omega) (2 * i)
    have h2 := ih (by omega) (2 * i + 1)
    rw [nodeHash, kcMax_pair _ _ (by omega) (by omega), h1, h2]
    omega

theorem node_le {V : Type} (abi : V → Bytes) (f : Contents V) (B : Nat) (hB : B < 2 ^ 240)
    (hf : ∀ i, (leafWord kcMax abi (f i)).toNat ≤ B) :
    ∀ l, l ≤ 160 → ∀ i, (nodeHash kcMax abi f l i).toNat ≤ l + B := by
  intro l
  induction l with
  | zero => intro _ i; rw [Nat.zero_add]; exact hf i
  | succ l ih =>
    intro hl i
    have h1 := ih (by omega) (2 * i)
    have h2 := ih (by omega) (2 * i + 1)
    rw [nodeHash, kcMax_pair _ _ (by omega) (by omega)]
    omega

theorem node_ge {V : Type} (abi : V → Bytes) (f : Contents V) (B : Nat) (hB : B < 2 ^ 240)
    (hf : ∀ i, (leafWord kcMax abi (f i)).toNat ≤ B) (k : Nat) :
    ∀ l, l ≤ 160 → l + (leafWord kcMax abi (f k)).toNat ≤ (nodeHash kcMax abi f l (k / 2 ^ l)).toNat := by
  intro l
  induction l with
  | zero => intro _; rw [Nat.zero_add, Nat.pow_zero, Nat.div_one]; exact Nat.le_refl _
  | succ l ih =>
    intro hl
    have h0 := ih (by omega)
    have hd : k / 2 ^ (l + 1) = k / 2 ^ l / 2 := by rw [Nat.pow_succ, Nat.div_div_eq_div_mul]
    rw [hd]
    generalize k / 2 ^ l = q at h0
    have h1 := node_le abi f B hB hf l (by omega) (2 * (q / 2))
    have h2 := node_le abi f B hB hf l (by omega) (2 * (q / 2) + 1)
    rw [nodeHash, kcMax_pair _ _ (by omega) (by omega)]
    have hq : q = 2 * (q / 2) ∨ q = 2 * (q / 2) + 1 := by omega
    rcases hq with e | e <;> rw [e] at h0
    · have : 2 * (q / 2) / 2 = q / 2 := by omega
      omega
    · omega

/-- With this hash the root is 160 plus the largest leaf hash. -/
theorem root_max {K V : Type} [TreeKey K] (hK : TreeKey.bits K = 160) (abi : V → Bytes) (m : Merkle K V) (B : Nat) (hB : B < 2 ^ 240)
    (h1 : ∀ e ∈ m.leaves.list, (kcMax (abi e.2)).toNat ≤ B)
    (h2 : ∃ e ∈ m.leaves.list, e.1 < 2 ^ 160 ∧ (kcMax (abi e.2)).toNat = B) : (m.root kcMax abi).toNat = 160 + B := by
  have hf : ∀ i, (leafWord kcMax abi (m.leaves.get? i)).toNat ≤ B := by
    intro i
    cases h : m.leaves.get? i with
    | none => exact Nat.zero_le _
    | some v => exact h1 (i, v) ((SMap.get?_eq_some_iff _ _ _).mp h)
  obtain ⟨⟨k, v⟩, hm, hk, hv⟩ := h2
  have hg := node_ge abi _ B hB hf k 160 (Nat.le_refl _)
  rw [(SMap.get?_eq_some_iff _ _ _).mpr hm, Nat.div_eq_of_lt hk] at hg
  have hl := node_le abi _ B hB hf 160 (Nat.le_refl _) 0
  rw [root_eq, hK]
  unfold treeRoot
  have : (leafWord kcMax abi (some v)).toNat = B := hv
  omega

attribute [local irreducible] beBytes

/-- The kinds of inputs hashed for a state with one account (leaf hash `A`, index `k`) and no
transaction, with their hashes. -/
def Kind (A : Nat) (leaf cont : Bytes) (k h : Nat) (x : Bytes) : Prop :=
  (h = A ∧ x = leaf) ∨ (A + 1000 < h ∧ x = cont) ∨
  (∃ l, l < 160 ∧ h = l + 1 ∧ x = beBytes 32 l ++ beBytes 32 l) ∨
  (∃ l, l < 160 ∧ k / 2 ^ l % 2 = 0 ∧ h = A + l + 1 ∧ x = beBytes 32 (A + l) ++ beBytes 32 l) ∨
  (∃ l, l < 160 ∧ k / 2 ^ l % 2 = 1 ∧ h = A + l + 1 ∧ x = beBytes 32 l ++ beBytes 32 (A + l))

theorem Kind.inj {A : Nat} {leaf cont : Bytes} {k h : Nat} {x y : Bytes}
    (hA' : 1000 < A) (hx : Kind A leaf cont k h x) (hy : Kind A leaf cont k h y) : x = y := by
  rcases hx with ⟨h1, e1⟩ | ⟨h1, e1⟩ | ⟨l, h0, h1, e1⟩ | ⟨l, h0, hb, h1, e1⟩ | ⟨l, h0, hb, h1, e1⟩ <;>
  rcases hy with ⟨g1, e2⟩ | ⟨g1, e2⟩ | ⟨j, g0, g1, e2⟩ | ⟨j, g0, gb, g1, e2⟩ | ⟨j, g0, gb, g1, e2⟩ <;>
  first
    | exact e1.trans e2.symm
    | (exfalso; omega)
    | (have e : l = j := by omega
       subst e; first | exact e1.trans e2.symm | (exfalso; omega))

theorem tree_kind {V : Type} (abi : V → Bytes) (k : Nat) (v : V) (cont : Bytes)
    (hA : (kcMax (abi v)).toNat < 2 ^ 130) (hA' : 1000 < (kcMax (abi v)).toNat) (x : Bytes)
    (hx : TreeInput kcMax abi (single k v) 160 x) :
    Kind (kcMax (abi v)).toNat (abi v) cont k (kcMax x).toNat x := by
  have hA2 : (kcMax (abi v)).toNat < 2 ^ 240 := Nat.lt_trans hA (by decide)
  rcases hx with ⟨i, w, _, hf, rfl⟩ | ⟨l, i, hl, _, rfl⟩
  · unfold single at hf
    split at hf
    · simp only [Option.some.injEq] at hf
      subst hf
      exact Or.inl ⟨rfl, rfl⟩
    · simp at hf
  · have h1 := node_single abi k v hA2 hA' l (by omega) (2 * i)
    have h2 := node_single abi k v hA2 hA' l (by omega) (2 * i + 1)
    rw [kcMax_pair _ _ (by rw [h1]; split <;> omega) (by rw [h2]; split <;> omega)]
    unfold B256.bytes
    rw [h1, h2]
    by_cases c1 : 2 * i = k / 2 ^ l
    · rw [if_pos c1, if_neg (by omega)]
      have e : 1 + max ((kcMax (abi v)).toNat + l) l = (kcMax (abi v)).toNat + l + 1 := by omega
      rw [e]
      exact Or.inr (Or.inr (Or.inr (Or.inl ⟨l, hl, by omega, rfl, rfl⟩)))
    · rw [if_neg c1]
      by_cases c2 : 2 * i + 1 = k / 2 ^ l
      · rw [if_pos c2]
        have e : 1 + max l ((kcMax (abi v)).toNat + l) = (kcMax (abi v)).toNat + l + 1 := by omega
        rw [e]
        exact Or.inr (Or.inr (Or.inr (Or.inr ⟨l, hl, by omega, rfl, rfl⟩)))
      · rw [if_neg c2]
        have e : 1 + max l l = l + 1 := by omega
        rw [e]
        exact Or.inr (Or.inr (Or.inl ⟨l, hl, rfl, rfl⟩))

theorem empty_kind {V W : Type} (abi : V → Bytes) (abi' : W → Bytes) (k : Nat) (v : V) (cont : Bytes)
    (x : Bytes) (hx : TreeInput kcMax abi' (fun _ => none) 160 x) :
    Kind (kcMax (abi v)).toNat (abi v) cont k (kcMax x).toNat x := by
  rcases hx with ⟨i, w, _, hf, rfl⟩ | ⟨l, i, hl, _, rfl⟩
  · simp at hf
  · have h1 := node_empty abi' l (by omega) (2 * i)
    have h2 := node_empty abi' l (by omega) (2 * i + 1)
    rw [kcMax_pair _ _ (by omega) (by omega)]
    unfold B256.bytes
    rw [h1, h2]
    have e : 1 + max l l = l + 1 := by omega
    rw [e]
    exact Or.inr (Or.inr (Or.inl ⟨l, hl, rfl, rfl⟩))

end Toy
end Verif
