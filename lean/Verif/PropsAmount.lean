import Verif.Amount
import Verif.Domain
import Verif.PropsNodeLedger
/-
# C89: an amount means the number it is written as
-/

namespace Verif.Amount
open Domain (ascii)

/-! ## Specification -/

/-- The number that digits stand for in base `r`. -/
def value (r : Nat) : List Nat → Nat
  | [] => 0
  | d :: ds => d * r ^ ds.length + value r ds

/-- The characters for digits. -/
def symbols : List (UInt8 × UInt8) :=
  (ascii "0123456789abcdefghijklmnopqrstuvwxyz".toList).zip (ascii "0123456789ABCDEFGHIJKLMNOPQRSTUVWXYZ".toList)

/-- The character `c` stands for the digit `d`. -/
def Shows (c : UInt8) (d : Nat) : Prop := ∃ p, symbols[d]? = some p ∧ (c = p.1 ∨ c = p.2)

/-- The text consists of the digits `ds` in base `r`, with underscores anywhere. -/
inductive Digits (r : Nat) : Bytes → List Nat → Prop
  | nil : Digits r [] []
  | underscore {bs ds} : Digits r bs ds → Digits r (95 :: bs) ds
  | digit {c d bs ds} : d < r → Shows c d → Digits r bs ds → Digits r (c :: bs) (d :: ds)

/-- Prefixes and the bases they choose. -/
def bases : List (Bytes × Nat) :=
  [(ascii "0x".toList, 16), (ascii "0X".toList, 16), (ascii "0o".toList, 8), (ascii "0O".toList, 8), (ascii "0b".toList, 2),
    (ascii "0B".toList, 2), ([], 10)]

/-- The text is a numeral for `n`. -/
def Means (bs : Bytes) (n : Nat) : Prop :=
  ∃ p ∈ bases, ∃ rest ds, bs = p.1 ++ rest ∧ Digits p.2 rest ds ∧ n = value p.2 ds

/-! ## Reading -/

theorem digit_shows (c : UInt8) (d : Nat) : digit c = some d ↔ Shows c d := by
  have fwd : ∀ n : Fin 256, ∀ d, digit (UInt8.ofNat n.val) = some d → ∃ p, symbols[d]? = some p ∧ (UInt8.ofNat n.val = p.1 ∨ UInt8.ofNat n.val = p.2) := by
    intro n d h
    have h36 : d < 36 := by
      unfold digit at h
      split at h
      · have := Option.some.inj h; omega
      · split at h
        · have := Option.some.inj h; omega
        · split at h
          · have := Option.some.inj h; omega
          · exact nomatch h
    have key : ∀ n : Fin 256, ∀ d : Fin 36, digit (UInt8.ofNat n.val) = some d.val →
      (UInt8.ofNat n.val = (symbols[d.val]?.getD (0, 0)).1 ∨ UInt8.ofNat n.val = (symbols[d.val]?.getD (0, 0)).2) ∧ symbols[d.val]?.isSome := by
      decide +kernel
    obtain ⟨h1, h2⟩ := key n ⟨d, h36⟩ h
    obtain ⟨p, hp⟩ := Option.isSome_iff_exists.mp h2
    refine ⟨p, hp, ?_⟩
    dsimp only at h1
    rw [hp] at h1
    exact h1
  have hc : UInt8.ofNat (⟨c.toNat, UInt8.toNat_lt c⟩ : Fin 256).val = c := UInt8.ofNat_toNat
  constructor
  · intro h
    have := fwd ⟨c.toNat, UInt8.toNat_lt c⟩ d
    rw [hc] at this
    exact this h
  · rintro ⟨p, hp, h⟩
    have hd : d < symbols.length := by
      rcases Nat.lt_or_ge d symbols.length with h1 | h1
      · exact h1
      · rw [List.getElem?_eq_none h1] at hp
        exact nomatch hp
    have hlen : symbols.length = 36 := by decide +kernel
    rw [hlen] at hd
    have key : ∀ d : Fin 36, ∀ p, symbols[d.val]? = some p → digit p.1 = some d.val ∧ digit p.2 = some d.val := by
      have : ∀ d : Fin 36, (symbols[d.val]?.all fun p => decide (digit p.1 = some d.val ∧ digit p.2 = some d.val)) = true := by
        decide +kernel
      intro d p hp
      have := this d
      rw [hp] at this
      exact of_decide_eq_true this
    obtain ⟨h1, h2⟩ := key ⟨d, hd⟩ p hp
    rcases h with rfl | rfl
    · exact h1
    · exact h2

theorem shows_ne {c : UInt8} {d : Nat} (h : Shows c d) : c ≠ 95 := by
  rintro rfl
  exact nomatch ((digit_shows 95 d).mpr h)

theorem fromRadix_iff (r : Nat) (hr : 0 < r) (bs : Bytes) : ∀ n v, n < 2 ^ 256 →
    (fromRadix r bs n = some v ↔ ∃ ds, Digits r bs ds ∧ v = n * r ^ ds.length + value r ds ∧ v < 2 ^ 256) := by
  induction bs with
  | nil =>
    intro n v hn
    constructor
    · intro h
      obtain rfl := Option.some.inj h
      exact ⟨[], .nil, by simp [value], hn⟩
    · rintro ⟨ds, hd, hv, _⟩
      cases hd
      simp [fromRadix, hv, value]
  | cons c cs ih =>
    intro n v hn
    unfold fromRadix
    by_cases hc : c = 95
    · rw [if_pos hc, ih n v hn]
      subst hc
      constructor
      · rintro ⟨ds, hd, h⟩; exact ⟨ds, .underscore hd, h⟩
      · rintro ⟨ds, hd, h⟩
        cases hd with
        | underscore hd => exact ⟨ds, hd, h⟩
        | digit _ hs _ => exact absurd rfl (shows_ne hs)
    · rw [if_neg hc]
      cases hd : digit c with
      | none =>
        refine ⟨fun h => (nomatch h), ?_⟩
        rintro ⟨ds, hds, _⟩
        cases hds with
        | underscore _ => exact absurd rfl hc
        | digit _ hs _ =>
          rw [(digit_shows _ _).mpr hs] at hd
          exact nomatch hd
      | some d =>
        have uniq : ∀ ds, Digits r (c :: cs) ds → ∃ ds', ds = d :: ds' ∧ d < r ∧ Digits r cs ds' := by
          intro ds hds
          cases hds with
          | underscore _ => exact absurd rfl hc
          | digit hlt hs ht =>
            rw [(digit_shows _ _).mpr hs] at hd
            obtain rfl := Option.some.inj hd
            exact ⟨_, rfl, hlt, ht⟩
        have expand : ∀ ds' : List Nat, n * r ^ (d :: ds').length + value r (d :: ds') =
            (n * r + d) * r ^ ds'.length + value r ds' := by
          intro ds'
          simp only [value, List.length_cons, Nat.pow_succ]
          grind
        dsimp only
        by_cases hlt : d < r
        · rw [if_pos hlt]
          by_cases ho : n * r + d < 2 ^ 256
          · rw [if_pos ho, ih _ v ho]
            constructor
            · rintro ⟨ds, hds, hv, hb⟩
              exact ⟨d :: ds, .digit hlt ((digit_shows _ _).mp hd) hds, by rw [expand]; exact hv, hb⟩
            · rintro ⟨ds, hds, hv, hb⟩
              obtain ⟨ds', rfl, _, ht⟩ := uniq ds hds
              exact ⟨ds', ht, by rw [← expand]; exact hv, hb⟩
          · rw [if_neg ho]
            refine ⟨fun h => (nomatch h), ?_⟩
            rintro ⟨ds, hds, hv, hb⟩
            obtain ⟨ds', rfl, _, _⟩ := uniq ds hds
            rw [expand] at hv
            have h1 : 1 ≤ r ^ ds'.length := Nat.pow_pos hr
            have h2 := Nat.mul_le_mul_left (n * r + d) h1
            omega
        · rw [if_neg hlt]
          refine ⟨fun h => (nomatch h), ?_⟩
          rintro ⟨ds, hds, _⟩
          obtain ⟨_, _, h, _⟩ := uniq ds hds
          exact absurd h hlt

theorem digits_ten_ne {c : UInt8} {rest : Bytes} {ds : List Nat} (h : Digits 10 (48 :: c :: rest) ds)
    (hc : c = 120 ∨ c = 88 ∨ c = 111 ∨ c = 79 ∨ c = 98 ∨ c = 66) : False := by
  have key : ∀ ds, Digits 10 (c :: rest) ds → False := by
    intro ds h
    cases h with
    | underscore _ => simp at hc
    | digit hlt hs _ =>
      have := (digit_shows _ _).mpr hs
      rcases hc with rfl | rfl | rfl | rfl | rfl | rfl <;>
      · have := Option.some.inj this
        simp at this
        omega
  cases h with
  | digit _ _ ht => exact key _ ht

theorem read_iff (bs : Bytes) (v : Nat) : read bs = some v ↔ Means bs v ∧ v < 2 ^ 256 := by
  have base : ∀ r rest, 0 < r → (fromRadix r rest 0 = some v ↔ ∃ ds, Digits r rest ds ∧ v = value r ds ∧ v < 2 ^ 256) := by
    intro r rest hr
    rw [fromRadix_iff r hr rest 0 v (by decide)]
    simp only [Nat.zero_mul, Nat.zero_add]
  have e1 : ascii "0x".toList = [48, 120] := by decide +kernel
  have e2 : ascii "0X".toList = [48, 88] := by decide +kernel
  have e3 : ascii "0o".toList = [48, 111] := by decide +kernel
  have e4 : ascii "0O".toList = [48, 79] := by decide +kernel
  have e5 : ascii "0b".toList = [48, 98] := by decide +kernel
  have e6 : ascii "0B".toList = [48, 66] := by decide +kernel
  have ten : fromRadix 10 bs 0 = some v → Means bs v ∧ v < 2 ^ 256 := fun h => by
    obtain ⟨ds, hd, hv, hb⟩ := (base 10 bs (by decide)).mp h
    exact ⟨⟨([], 10), by simp [bases], bs, ds, rfl, hd, hv⟩, hb⟩
  unfold Means bases at ten ⊢
  rw [e1, e2, e3, e4, e5, e6] at ten ⊢
  constructor
  · intro h
    unfold read at h
    split at h
    · rename_i c rest
      split at h
      · rename_i hc
        obtain ⟨ds, hd, hv, hb⟩ := (base 16 rest (by decide)).mp h
        rcases hc with rfl | rfl
        · exact ⟨⟨([48, 120], 16), by simp, rest, ds, rfl, hd, hv⟩, hb⟩
        · exact ⟨⟨([48, 88], 16), by simp, rest, ds, rfl, hd, hv⟩, hb⟩
      · split at h
        · rename_i hc
          obtain ⟨ds, hd, hv, hb⟩ := (base 8 rest (by decide)).mp h
          rcases hc with rfl | rfl
          · exact ⟨⟨([48, 111], 8), by simp, rest, ds, rfl, hd, hv⟩, hb⟩
          · exact ⟨⟨([48, 79], 8), by simp, rest, ds, rfl, hd, hv⟩, hb⟩
        · split at h
          · rename_i hc
            obtain ⟨ds, hd, hv, hb⟩ := (base 2 rest (by decide)).mp h
            rcases hc with rfl | rfl
            · exact ⟨⟨([48, 98], 2), by simp, rest, ds, rfl, hd, hv⟩, hb⟩
            · exact ⟨⟨([48, 66], 2), by simp, rest, ds, rfl, hd, hv⟩, hb⟩
          · exact ten h
    · exact ten h
  · rintro ⟨⟨p, hp, rest, ds, hbs, hd, hv⟩, hb⟩
    simp only [List.mem_cons, List.not_mem_nil, or_false] at hp
    rcases hp with rfl | rfl | rfl | rfl | rfl | rfl | rfl
    · subst hbs; exact (base 16 rest (by decide)).mpr ⟨ds, hd, hv, hb⟩
    · subst hbs; exact (base 16 rest (by decide)).mpr ⟨ds, hd, hv, hb⟩
    · subst hbs; exact (base 8 rest (by decide)).mpr ⟨ds, hd, hv, hb⟩
    · subst hbs; exact (base 8 rest (by decide)).mpr ⟨ds, hd, hv, hb⟩
    · subst hbs; exact (base 2 rest (by decide)).mpr ⟨ds, hd, hv, hb⟩
    · subst hbs; exact (base 2 rest (by decide)).mpr ⟨ds, hd, hv, hb⟩
    · rw [List.nil_append] at hbs
      subst hbs
      have ten := (base 10 bs (by decide)).mpr ⟨ds, hd, hv, hb⟩
      unfold read
      split
      · rename_i c rest
        rw [if_neg fun h => digits_ten_ne hd (by rcases h with h | h <;> simp [h]),
          if_neg fun h => digits_ten_ne hd (by rcases h with h | h <;> simp [h]),
          if_neg fun h => digits_ten_ne hd (by rcases h with h | h <;> simp [h])]
        exact ten
      · exact ten

/-! ## C89 -/

/-- **C89, reading.** A text is read as the amount `v` exactly if it is a numeral for `v`. -/
theorem c89_parse (bs : Bytes) (v : U256) : parse bs = some v ↔ Means bs v.toNat := by
  unfold parse
  constructor
  · intro h
    obtain ⟨n, hn, rfl⟩ := Option.map_eq_some_iff.mp h
    obtain ⟨hm, hb⟩ := (read_iff bs n).mp hn
    rw [BitVec.toNat_ofNat, Nat.mod_eq_of_lt hb]
    exact hm
  · intro h
    rw [(read_iff bs v.toNat).mpr ⟨h, v.isLt⟩, Option.map_some, BitVec.ofNat_toNat, BitVec.setWidth_eq]

/-- **C89, what is refused.** A text is refused exactly if it is no numeral or one for a number of `2^256` or more. -/
theorem c89_refused (bs : Bytes) : parse bs = none ↔ ∀ n, Means bs n → 2 ^ 256 ≤ n := by
  unfold parse
  rw [Option.map_eq_none_iff]
  constructor
  · intro h n hm
    rcases Nat.lt_or_ge n (2 ^ 256) with hb | hb
    · rw [(read_iff bs n).mpr ⟨hm, hb⟩] at h
      exact nomatch h
    · exact hb
  · intro h
    cases e : read bs with
    | none => rfl
    | some n =>
      obtain ⟨hm, hb⟩ := (read_iff bs n).mp e
      have := h n hm
      omega

theorem digits_unique {r : Nat} {bs : Bytes} {ds ds' : List Nat} (h : Digits r bs ds) (h' : Digits r bs ds') : ds = ds' := by
  induction h generalizing ds' with
  | nil => cases h'; rfl
  | underscore _ ih =>
    cases h' with
    | underscore h' => exact ih h'
    | digit _ hs _ => exact absurd rfl (shows_ne hs)
  | digit _ hs _ ih =>
    cases h' with
    | underscore _ => exact absurd rfl (shows_ne hs)
    | digit _ hs' h' =>
      have := (digit_shows _ _).mpr hs
      rw [(digit_shows _ _).mpr hs'] at this
      rw [Option.some.inj this, ih h']

theorem bases_eq : bases = [([48, 120], 16), ([48, 88], 16), ([48, 111], 8), ([48, 79], 8), ([48, 98], 2), ([48, 66], 2), ([], 10)] := by
  decide +kernel

/-- **C89, one meaning.** A text is a numeral for at most one number. -/
theorem c89_unique {bs : Bytes} {n m : Nat} (hn : Means bs n) (hm : Means bs m) : n = m := by
  obtain ⟨p, hp, rest, ds, hbs, hd, rfl⟩ := hn
  obtain ⟨q, hq, rest', ds', hbs', hd', rfl⟩ := hm
  rw [bases_eq] at hp hq
  have same : p = q → value p.2 ds = value q.2 ds' := by
    rintro rfl
    rw [hbs] at hbs'
    obtain rfl := List.append_cancel_left hbs'
    rw [digits_unique hd hd']
  have ten : ∀ (p q : Bytes × Nat) rest rest' ds, p ∈ [(([48, 120] : Bytes), 16), ([48, 88], 16), ([48, 111], 8), ([48, 79], 8), ([48, 98], 2), ([48, 66], 2)] →
      q = ([], 10) → bs = p.1 ++ rest → bs = q.1 ++ rest' → Digits q.2 rest' ds → False := by
    intro p q rest rest' ds hp hq h h' hd
    subst hq
    rw [List.nil_append] at h'
    rw [← h', h] at hd
    simp only [List.mem_cons, List.not_mem_nil, or_false] at hp
    rcases hp with rfl | rfl | rfl | rfl | rfl | rfl <;> exact digits_ten_ne hd (by simp)
  by_cases e : p = q
  · exact same e
  · by_cases ep : p = ([], 10)
    · refine (ten q p rest' rest ds ?_ ep hbs' hbs hd).elim
      simp only [List.mem_cons, List.not_mem_nil, or_false] at hq ⊢
      rw [← ep] at hq
      rcases hq with h | h | h | h | h | h | h
      · exact Or.inl h
      · exact Or.inr (Or.inl h)
      · exact Or.inr (Or.inr (Or.inl h))
      · exact Or.inr (Or.inr (Or.inr (Or.inl h)))
      · exact Or.inr (Or.inr (Or.inr (Or.inr (Or.inl h))))
      · exact Or.inr (Or.inr (Or.inr (Or.inr (Or.inr h))))
      · exact absurd h.symm e
    · by_cases eq : q = ([], 10)
      · refine (ten p q rest rest' ds' ?_ eq hbs hbs' hd').elim
        simp only [List.mem_cons, List.not_mem_nil, or_false] at hp ⊢
        rcases hp with h | h | h | h | h | h | h
        · exact Or.inl h
        · exact Or.inr (Or.inl h)
        · exact Or.inr (Or.inr (Or.inl h))
        · exact Or.inr (Or.inr (Or.inr (Or.inl h)))
        · exact Or.inr (Or.inr (Or.inr (Or.inr (Or.inl h))))
        · exact Or.inr (Or.inr (Or.inr (Or.inr (Or.inr h))))
        · exact absurd h ep
      · refine absurd ?_ e
        simp only [List.mem_cons, List.not_mem_nil, or_false, ep, eq] at hp hq
        rcases hp with rfl | rfl | rfl | rfl | rfl | rfl <;> rcases hq with rfl | rfl | rfl | rfl | rfl | rfl <;>
          first | rfl | (exfalso; rw [hbs] at hbs'; simp at hbs')

theorem symbols_ten : ∀ d < 10, symbols[d]? = some (UInt8.ofNat (48 + d), UInt8.ofNat (48 + d)) := by decide +kernel

theorem value_append (r : Nat) (ds : List Nat) (d : Nat) : value r (ds ++ [d]) = value r ds * r + d := by
  induction ds with
  | nil => simp [value]
  | cons e ds ih =>
    rw [List.cons_append, value, ih, value, List.length_append, List.length_singleton, Nat.pow_succ]
    grind

theorem digits_append {r : Nat} {bs : Bytes} {ds : List Nat} (h : Digits r bs ds) {c : UInt8} {d : Nat} (hd : d < r)
    (hs : Shows c d) : Digits r (bs ++ [c]) (ds ++ [d]) := by
  induction h with
  | nil => exact .digit hd hs .nil
  | underscore _ ih => exact .underscore ih
  | digit h1 h2 _ ih => exact .digit h1 h2 ih

theorem digits_decimal (n : Nat) : ∃ ds, Digits 10 (Node.decimal n) ds ∧ value 10 ds = n := by
  induction n using Nat.strongRecOn with
  | ind n ih =>
    rw [Node.decimal]
    split
    · rename_i h
      exact ⟨[n], .digit h ⟨_, symbols_ten n h, Or.inl rfl⟩ .nil, by simp [value]⟩
    · obtain ⟨ds, hd, hv⟩ := ih (n / 10) (by omega)
      refine ⟨_, digits_append hd (Nat.mod_lt n (by decide)) ⟨_, symbols_ten (n % 10) (Nat.mod_lt n (by decide)), Or.inl rfl⟩, ?_⟩
      rw [value_append, hv]
      omega

/-- **C89, written and read back.** What is printed for a number is read as this number if it fits, and refused if
it does not. -/
theorem c89_decimal (n : Nat) : parse (Node.decimal n) = if n < 2 ^ 256 then some (BitVec.ofNat 256 n) else none := by
  obtain ⟨ds, hd, hv⟩ := digits_decimal n
  have hm : Means (Node.decimal n) n := ⟨([], 10), by rw [bases_eq]; simp, _, ds, rfl, hd, hv.symm⟩
  split
  · rename_i h
    rw [c89_parse, BitVec.toNat_ofNat, Nat.mod_eq_of_lt h]
    exact hm
  · rename_i h
    rw [c89_refused]
    intro m hm'
    have := c89_unique hm hm'
    omega

theorem digits_chars {r : Nat} {bs : Bytes} {ds : List Nat} (h : Digits r bs ds) : ∀ c ∈ bs, c = 95 ∨ ∃ d, digit c = some d := by
  induction h with
  | nil => exact fun _ h => nomatch h
  | underscore _ ih =>
    intro c hc
    rcases List.mem_cons.mp hc with h | h
    · exact Or.inl h
    · exact ih c h
  | digit _ hs _ ih =>
    intro c hc
    rcases List.mem_cons.mp hc with h | h
    · rw [h]; exact Or.inr ⟨_, (digit_shows _ _).mpr hs⟩
    · exact ih c h

/-- **C89, no signs, points or spaces.** A text with a character that is no letter, digit or underscore is refused. -/
theorem c89_plain (bs : Bytes) (c : UInt8) (hc : c ∈ bs)
    (hn : c ∉ ascii "0123456789abcdefghijklmnopqrstuvwxyzABCDEFGHIJKLMNOPQRSTUVWXYZ_".toList) : parse bs = none := by
  rw [c89_refused]
  rintro n ⟨p, hp, rest, ds, hbs, hd, _⟩
  exfalso
  have all : ∀ n : Fin 256, (UInt8.ofNat n.val = 95 ∨ (digit (UInt8.ofNat n.val)).isSome) →
      UInt8.ofNat n.val ∈ ascii "0123456789abcdefghijklmnopqrstuvwxyzABCDEFGHIJKLMNOPQRSTUVWXYZ_".toList := by decide +kernel
  have all := all ⟨c.toNat, UInt8.toNat_lt c⟩
  rw [show UInt8.ofNat (⟨c.toNat, UInt8.toNat_lt c⟩ : Fin 256).val = c from UInt8.ofNat_toNat] at all
  refine hn (all ?_)
  rw [hbs] at hc
  rcases List.mem_append.mp hc with h | h
  · right
    rw [bases_eq] at hp
    simp only [List.mem_cons, List.not_mem_nil, or_false] at hp
    rcases hp with rfl | rfl | rfl | rfl | rfl | rfl | rfl <;> simp only [List.mem_cons, List.not_mem_nil, or_false] at h
    all_goals rcases h with rfl | rfl <;> decide
  · rcases digits_chars hd c h with h | ⟨d, h⟩
    · exact Or.inl h
    · right; rw [h]; rfl

/-- **C89, transfers.** A successful transfer moves the number that its amount is a numeral for, and charges the number
that its fee is a numeral for. -/
theorem c89_transfer (env : Env) (hp : env.parseU256 = parse) (t : Signed TransferBody) (body : TransferBody)
    (hb : t.body = some body) (n f : Nat) (hn : Means body.amount n) (hf : Means body.fee f) (s s' : Ledger) (r : Option Receipt)
    (h : Ledger.execute env (.transfer t) s = (.ok r, s')) :
    ∃ signer to auctioneer, SignedBy env (.transfer body) t.format t.signature signer ∧ body.to = Address.bytes to ∧
      body.auctioneer = Address.bytes auctioneer ∧ n + f ≤ s.bal signer ∧
      ∀ a, s'.bal a + pay (a = signer) (n + f) = s.bal a + pay (a = to) n + pay (a = auctioneer) f := by
  obtain ⟨b, signer, to, amount, fee, auctioneer, h1, h2, h3, h4, h5, h6, h7, h8, _⟩ := c07_transfer env t s s' r h
  rw [hb] at h1
  rw [← Option.some.inj h1] at h2 h3 h4 h5 h6
  rw [hp, c89_parse] at h4 h5
  rw [c89_unique h4 hn, c89_unique h5 hf] at h7 h8
  exact ⟨signer, to, auctioneer, h2, h3, h6, h7, h8⟩

/-- **C89, withdrawals.** The receipt of a successful withdrawal, which the contract pays out, names the number that the
amount is a numeral for. -/
theorem c89_withdraw (env : Env) (hp : env.parseU256 = parse) (w : Signed WithdrawBody) (body : WithdrawBody)
    (hb : w.body = some body) (n : Nat) (hn : Means body.amount n) (s s' : Ledger) (r : Option Receipt)
    (h : Ledger.execute env (.withdraw w) s = (.ok r, s')) :
    ∃ account, body.account = Address.bytes account ∧ n < 2 ^ 256 ∧
      r = some (.withdraw .completed ⟨account, BitVec.ofNat 256 n⟩) := by
  obtain ⟨b, signer, account, amount, fee, auctioneer, h1, _, h3, h4, _, _, h7, _⟩ := c08_withdraw env w s s' r h
  rw [hb] at h1
  rw [← Option.some.inj h1] at h3 h4
  rw [hp, c89_parse] at h4
  have e := c89_unique h4 hn
  refine ⟨account, h3, by rw [← e]; exact amount.isLt, ?_⟩
  rw [h7, ← e, BitVec.ofNat_toNat, BitVec.setWidth_eq]

/-- **C89, clears.** A successful clear of an executed request charges the base fee and the bid price as they are
written. -/
theorem c89_clear (env : Env) (hp : env.parseU256 = parse) (c : ClearTx) (request : RequestBody) (bid : BidBody)
    (execute : ExecuteBody) (hr : c.request.body = some request) (hb : c.bid.body = some bid)
    (he : c.execute.body = some execute) (hst : execute.executionStatus ≠ 3) (base price : Nat)
    (h1 : Means request.baseFee base) (h2 : Means bid.amount price) (s s' : Ledger) (r : Option Receipt)
    (h : Ledger.execute env (.clear c) s = (.ok r, s')) :
    ∃ requester pgus prover treasury stakerPart ownerPart,
      SignedBy env (.request request) c.request.format c.request.signature requester ∧ execute.pgus = some pgus ∧
      bid.prover = Address.bytes prover ∧ request.treasury = Address.bytes treasury ∧
      base + price * pgus.toNat = stakerPart + ownerPart ∧
      ∀ a, s'.bal a + pay (a = requester) (base + price * pgus.toNat) =
        s.bal a + pay (a = prover) stakerPart + pay (a = s.owner prover) ownerPart := by
  obtain ⟨q, b, e, requester, prover, treasury, base', price', pgus, st, o, e1, e2, e3, e4, e5, e6, e7, e8, e9, _, _, e12, e13, _⟩ :=
    c12_fulfilled env c s s' r h (fun e h => by rw [he] at h; rw [← Option.some.inj h]; exact hst)
  rw [hr] at e1
  rw [hb] at e2
  rw [he] at e3
  rw [← Option.some.inj e1] at e4 e6 e7
  rw [← Option.some.inj e2] at e5 e8
  rw [← Option.some.inj e3] at e9
  rw [hp, c89_parse] at e7 e8
  rw [c89_unique e7 h1, c89_unique e8 h2] at e12 e13
  refine ⟨requester, pgus, prover, treasury, st, o, e4, e9, e5, e6, by omega, fun a => ?_⟩
  rw [e13 a]
  have : pay (a = treasury) 0 = 0 := by unfold pay; split <;> rfl
  omega

/-- **C89, the node.** A ledger that reads amounts so understands what the node writes: the assumption of C75 and C76
about numbers holds. -/
theorem c89_node (bs : Bytes) (n : U256) (hdig : ∀ c ∈ bs, 48 ≤ c.toNat ∧ c.toNat ≤ 57)
    (h : Node.decVal bs = n.toNat) : parse bs = some n := by
  rw [c89_parse, ← h]
  have key : ∀ bs : Bytes, (∀ c ∈ bs, 48 ≤ c.toNat ∧ c.toNat ≤ 57) → ∃ ds, Digits 10 bs ds ∧ ∀ k, bs.foldl (fun n b => n * 10 + (b.toNat - 48)) k = k * 10 ^ ds.length + value 10 ds := by
    intro bs
    induction bs with
    | nil => exact fun _ => ⟨[], .nil, by simp [value]⟩
    | cons c cs ih =>
      intro hd
      obtain ⟨ds, h1, h2⟩ := ih fun c hc => hd c (List.mem_cons_of_mem _ hc)
      have hc := hd c List.mem_cons_self
      refine ⟨(c.toNat - 48) :: ds, .digit (by omega) ((digit_shows _ _).mp (by unfold digit; rw [if_pos hc])) h1, fun k => ?_⟩
      rw [List.foldl_cons, h2, value, List.length_cons, Nat.pow_succ]
      generalize c.toNat - 48 = d
      grind
  obtain ⟨ds, h1, h2⟩ := key bs hdig
  refine ⟨([], 10), by rw [bases_eq]; simp, bs, ds, rfl, h1, ?_⟩
  unfold Node.decVal
  rw [h2, Nat.zero_mul, Nat.zero_add]

/-- Amounts have many spellings, and an empty text is zero. -/
example : [parse (ascii "255".toList), parse (ascii "0255".toList), parse (ascii "2_5_5".toList), parse (ascii "0xfF".toList),
    parse (ascii "0b1111_1111".toList), parse (ascii "0O377".toList)].all (· == some 255) ∧ parse [] = some 0 ∧
    parse (ascii "0x".toList) = some 0 ∧ parse (ascii "-1".toList) = none ∧ parse (ascii "1.5".toList) = none ∧
    parse (ascii "0b2".toList) = none ∧ parse (ascii "ff".toList) = none := by decide +kernel

/-- The toy environment with amounts read this way. -/
def env : Env := { Toy.env with parseU256 := parse }

/-- The hypotheses of `c89_transfer` hold: a transfer of `"1_00"` at a fee of `"0x7"`. -/
example : env.parseU256 = parse ∧ (Ledger.execute env (.transfer ⟨1, Address.bytes Toy.alice, some
    { to := Address.bytes Toy.bob, amount := ascii "1_00".toList, fee := ascii "0x7".toList, domain := B256.bytes Toy.dom,
      variant := 6, auctioneer := Address.bytes Toy.auctioneer }⟩) Toy.s2).1 = .ok none := ⟨rfl, by decide +kernel⟩

/-- Those of `c89_withdraw`: a withdrawal of `"0b11"`. -/
example : (Ledger.execute env (.withdraw ⟨1, Address.bytes Toy.alice, some
    { account := Address.bytes Toy.alice, amount := ascii "0b11".toList, fee := [], domain := B256.bytes Toy.dom,
      variant := 7, auctioneer := Address.bytes Toy.auctioneer }⟩) Toy.s2).1 =
    .ok (some (.withdraw .completed ⟨Toy.alice, 3⟩)) := by decide +kernel

/-- Those of `c89_clear`: the request at a base fee of `"10"` with a bid of `"2"` for 50 units of gas costs 110. -/
example : let out := Ledger.execute env (.clear (Node.nodeClear
      ⟨1, Address.bytes Toy.owner, some { requestId := B256.bytes Node.nodeRequestId, amount := ascii "2".toList, domain := B256.bytes Toy.dom, prover := Address.bytes Toy.prover, variant := 1 }⟩
      ⟨1, Address.bytes Toy.owner, some { requestId := B256.bytes Node.nodeRequestId, domain := B256.bytes Toy.dom, variant := 4 }⟩)) Toy.s2
    out.1 = .ok none ∧ out.2.bal Toy.alice + 110 = Toy.s2.bal Toy.alice := by decide +kernel

end Verif.Amount
