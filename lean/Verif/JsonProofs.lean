import Verif.Json
import Verif.PropsNode
/-
# JSON texts determine what they are made of
-/

namespace Verif.Json
open Domain (ascii)
open Node (decimal)

/-- The characters that end a value. -/
def stop (c : UInt8) : Bool := c == 44 || c == 93 || c == 125

/-- A text that begins with the end of a value. -/
def Stop (r : Bytes) : Prop := ∃ c t, r = c :: t ∧ stop c = true

theorem span_inj {a b r s : Bytes} (ha : ∀ c ∈ a, stop c = false) (hb : ∀ c ∈ b, stop c = false) (hr : Stop r) (hs : Stop s)
    (h : a ++ r = b ++ s) : a = b ∧ r = s := by
  obtain ⟨c, t, rfl, hc⟩ := hr
  obtain ⟨d, u, rfl, hd⟩ := hs
  induction a generalizing b with
  | nil =>
    cases b with
    | nil => exact ⟨rfl, h⟩
    | cons y b =>
      simp only [List.nil_append, List.cons_append, List.cons.injEq] at h
      rw [h.1, hb y List.mem_cons_self] at hc
      exact absurd hc (by decide)
  | cons x a ih =>
    cases b with
    | nil =>
      simp only [List.nil_append, List.cons_append, List.cons.injEq] at h
      rw [← h.1, ha x List.mem_cons_self] at hd
      exact absurd hd (by decide)
    | cons y b =>
      simp only [List.cons_append, List.cons.injEq] at h
      obtain ⟨e1, e2⟩ := ih (fun c hc => ha c (List.mem_cons_of_mem _ hc)) (fun c hc => hb c (List.mem_cons_of_mem _ hc)) h.2
      exact ⟨by rw [h.1, e1], e2⟩

/-! ## Numbers -/

theorem digit_free (n : Nat) : ∀ c ∈ decimal n, stop c = false := by
  intro c hc
  have h := Node.decimal_digits n c hc
  simp only [stop, Bool.or_eq_false_iff, beq_eq_false_iff_ne, ne_eq]
  refine ⟨⟨?_, ?_⟩, ?_⟩ <;> (rintro rfl; revert h; decide)

theorem decimal_inj {m n : Nat} (h : decimal m = decimal n) : m = n := by
  rw [← Node.decVal_decimal m, ← Node.decVal_decimal n, h]

/-- The first character of a number is a digit. -/
theorem decimal_head (n : Nat) : ∃ c t, decimal n = c :: t ∧ 48 ≤ c.toNat ∧ c.toNat ≤ 57 := by
  cases h : decimal n with
  | nil => exact absurd h (Node.decimal_ne_nil n)
  | cons c t => exact ⟨c, t, rfl, Node.decimal_digits n c (by rw [h]; exact List.mem_cons_self)⟩

theorem int_free (x : I32) : ∀ c ∈ int x, stop c = false := by
  unfold int
  split
  · intro c hc
    rcases List.mem_cons.mp hc with rfl | hc
    · decide
    · exact digit_free _ c hc
  · exact digit_free _

theorem int_inj {x y : I32} (h : int x = int y) : x = y := by
  have key : ∀ n m : Nat, (45 :: decimal n : Bytes) ≠ decimal m := by
    intro n m e
    obtain ⟨c, t, hc, h1, _⟩ := decimal_head m
    rw [hc] at e
    injection e with e1
    rw [← e1] at h1
    exact absurd h1 (by decide)
  unfold int at h
  apply BitVec.eq_of_toInt_eq
  split at h <;> split at h
  · have := decimal_inj (List.cons.inj h).2; omega
  · exact absurd h (key _ _)
  · exact absurd h.symm (key _ _)
  · have := decimal_inj h; omega

theorem int_head (x : I32) : ∃ c t, int x = c :: t ∧ c.toNat ≤ 57 := by
  unfold int
  split
  · exact ⟨45, _, rfl, by decide⟩
  · obtain ⟨c, t, h, _, h2⟩ := decimal_head x.toInt.natAbs
    exact ⟨c, t, h, h2⟩

/-! ## Strings -/

/-- The inverse of `hex`. -/
def unhex (c : UInt8) : Nat := if c.toNat < 58 then c.toNat - 48 else c.toNat - 87

/-- Reads one character of a string. -/
def unescape : Bytes → Option (UInt8 × Bytes)
  | 92 :: 34 :: r => some (34, r)
  | 92 :: 92 :: r => some (92, r)
  | 92 :: 98 :: r => some (8, r)
  | 92 :: 116 :: r => some (9, r)
  | 92 :: 110 :: r => some (10, r)
  | 92 :: 102 :: r => some (12, r)
  | 92 :: 114 :: r => some (13, r)
  | 92 :: 117 :: _ :: _ :: h :: l :: r => some (UInt8.ofNat (unhex h * 16 + unhex l), r)
  | c :: r => some (c, r)
  | [] => none

theorem unhex_hex (b : UInt8) (h : b.toNat < 32) : UInt8.ofNat (unhex (hex (b.toNat / 16)) * 16 + unhex (hex (b.toNat % 16))) = b := by
  have key : ∀ n : Fin 32, UInt8.ofNat (unhex (hex (n.val / 16)) * 16 + unhex (hex (n.val % 16))) = UInt8.ofNat n.val := by decide +kernel
  have := key ⟨b.toNat, h⟩
  dsimp only at this
  rw [this]
  exact UInt8.ofNat_toNat

theorem unescape_escape (b : UInt8) (r : Bytes) : unescape (escape b ++ r) = some (b, r) := by
  unfold escape
  split
  · rename_i h; rw [h]; rfl
  · split
    · rename_i h; rw [h]; rfl
    · split
      · rename_i h; rw [h]; rfl
      · split
        · rename_i h; rw [h]; rfl
        · split
          · rename_i h; rw [h]; rfl
          · split
            · rename_i h; rw [h]; rfl
            · split
              · rename_i h; rw [h]; rfl
              · split
                · rename_i h
                  show some (UInt8.ofNat (unhex (hex (b.toNat / 16)) * 16 + unhex (hex (b.toNat % 16))), r) = _
                  rw [unhex_hex b h]
                · rename_i h92 _ _ _ _ _ _
                  show unescape (b :: r) = _
                  unfold unescape
                  split <;> simp_all

theorem escape_head (b : UInt8) : ∃ c t, escape b = c :: t ∧ c ≠ 34 := by
  unfold escape
  repeat' split
  all_goals first
    | exact ⟨92, _, rfl, by decide⟩
    | exact ⟨b, [], rfl, by assumption⟩

theorem chars_inj {a b r s : Bytes} (h : a.flatMap escape ++ 34 :: r = b.flatMap escape ++ 34 :: s) : a = b ∧ r = s := by
  induction a generalizing b with
  | nil =>
    cases b with
    | nil => exact ⟨rfl, (List.cons.inj h).2⟩
    | cons y b =>
      obtain ⟨c, t, hc, hne⟩ := escape_head y
      rw [List.flatMap_cons, hc] at h
      exact absurd (List.cons.inj h).1.symm hne
  | cons x a ih =>
    cases b with
    | nil =>
      obtain ⟨c, t, hc, hne⟩ := escape_head x
      rw [List.flatMap_cons, hc] at h
      exact absurd (List.cons.inj h).1 hne
    | cons y b =>
      rw [List.flatMap_cons, List.flatMap_cons, List.append_assoc, List.append_assoc] at h
      have := congrArg unescape h
      rw [unescape_escape, unescape_escape] at this
      have e := Option.some.inj this
      obtain ⟨e1, e2⟩ := ih (congrArg Prod.snd e)
      exact ⟨by rw [show x = y from congrArg Prod.fst e, e1], e2⟩

theorem string_inj {a b r s : Bytes} (h : string a ++ r = string b ++ s) : a = b ∧ r = s := by
  unfold string at h
  simp only [List.cons_append, List.append_assoc, List.nil_append, List.cons.injEq, true_and] at h
  exact chars_inj h

/-! ## Arrays and objects -/

/-- What follows the first of several texts. -/
def more : List Bytes → Bytes
  | [] => []
  | t :: ts => 44 :: commas (t :: ts)

theorem commas_cons (t : Bytes) (ts : List Bytes) : commas (t :: ts) = t ++ more ts := by
  cases ts with
  | nil => exact (List.append_nil t).symm
  | cons u us => rfl

theorem stop_more (ts : List Bytes) {c : UInt8} (hc : stop c = true) (r : Bytes) : Stop (more ts ++ c :: r) := by
  cases ts with
  | nil => exact ⟨c, r, rfl, hc⟩
  | cons t ts => exact ⟨44, _, rfl, by decide⟩

/-- Texts with commas between them determine their parts, if each part does when the end of a value follows. -/
theorem commas_inj {β γ : Type} {g : β → Bytes} {P : β → Prop} {n : β → γ}
    (hg : ∀ x y r s, P x → P y → Stop r → Stop s → g x ++ r = g y ++ s → n x = n y ∧ r = s)
    {z : UInt8} (hz : stop z = true) (hz' : z ≠ 44) (h0 : ∀ x, P x → ∃ c t, g x = c :: t ∧ stop c = false)
    {xs ys : List β} {r s : Bytes} (hx : ∀ x ∈ xs, P x) (hy : ∀ y ∈ ys, P y)
    (h : commas (xs.map g) ++ z :: r = commas (ys.map g) ++ z :: s) : xs.map n = ys.map n ∧ r = s := by
  induction xs generalizing ys with
  | nil =>
    cases ys with
    | nil => exact ⟨rfl, (List.cons.inj h).2⟩
    | cons y ys =>
      obtain ⟨c, t, hc, hs⟩ := h0 y (hy y List.mem_cons_self)
      rw [List.map_cons, commas_cons, hc] at h
      rw [← (List.cons.inj h).1, hz] at hs
      exact absurd hs (by decide)
  | cons x xs ih =>
    cases ys with
    | nil =>
      obtain ⟨c, t, hc, hs⟩ := h0 x (hx x List.mem_cons_self)
      rw [List.map_cons, commas_cons, hc] at h
      rw [(List.cons.inj h).1, hz] at hs
      exact absurd hs (by decide)
    | cons y ys =>
      rw [List.map_cons, List.map_cons, commas_cons, commas_cons, List.append_assoc, List.append_assoc] at h
      obtain ⟨e1, e2⟩ := hg x y _ _ (hx x List.mem_cons_self) (hy y List.mem_cons_self) (stop_more _ hz r) (stop_more _ hz s) h
      rw [List.map_cons, List.map_cons, e1]
      cases xs with
      | nil =>
        cases ys with
        | nil => exact ⟨rfl, (List.cons.inj e2).2⟩
        | cons y' ys => exact absurd (List.cons.inj e2).1 hz'
      | cons x' xs =>
        cases ys with
        | nil => exact absurd (List.cons.inj e2).1.symm hz'
        | cons y' ys =>
          obtain ⟨e3, e4⟩ := ih (fun x hm => hx x (List.mem_cons_of_mem _ hm)) (fun y hm => hy y (List.mem_cons_of_mem _ hm))
            (List.cons.inj e2).2
          exact ⟨by rw [e3], e4⟩

theorem array_inj {β : Type} {g : β → Bytes} (hg : ∀ x y r s, Stop r → Stop s → g x ++ r = g y ++ s → x = y ∧ r = s)
    (h0 : ∀ x, ∃ c t, g x = c :: t ∧ stop c = false) {xs ys : List β} {r s : Bytes}
    (h : array (xs.map g) ++ r = array (ys.map g) ++ s) : xs = ys ∧ r = s := by
  unfold array at h
  simp only [List.cons_append, List.append_assoc, List.nil_append, List.cons.injEq, true_and] at h
  have := commas_inj (g := g) (P := fun _ => True) (n := id) (fun x y r s _ _ => hg x y r s) (z := 93) (by decide) (by decide)
    (fun x _ => h0 x) (fun _ _ => trivial) (fun _ _ => trivial) h
  rw [List.map_id, List.map_id] at this
  exact this

theorem digit_start (n : Nat) : ∃ c t, decimal n = c :: t ∧ stop c = false := by
  obtain ⟨c, t, h, _⟩ := decimal_head n
  exact ⟨c, t, h, digit_free n c (by rw [h]; exact List.mem_cons_self)⟩

theorem bytes_inj {a b r s : Bytes} (h : bytes a ++ r = bytes b ++ s) : a = b ∧ r = s := by
  unfold bytes at h
  refine array_inj (g := fun x : UInt8 => decimal x.toNat) ?_ (fun x => digit_start _) h
  intro x y r s hr hs e
  obtain ⟨e1, e2⟩ := span_inj (digit_free _) (digit_free _) hr hs e
  exact ⟨UInt8.toNat_inj.mp (decimal_inj e1), e2⟩

theorem list_inj {a b : List Bytes} {r s : Bytes} (h : array (a.map bytes) ++ r = array (b.map bytes) ++ s) : a = b ∧ r = s :=
  array_inj (fun _ _ _ _ _ _ e => bytes_inj e) (fun _ => ⟨91, _, rfl, by decide⟩) h

/-- An option is determined if its value is and never begins like `null`. -/
theorem option_inj {α : Type} {f : α → Bytes} (hf : ∀ x y r s, Stop r → Stop s → f x ++ r = f y ++ s → x = y ∧ r = s)
    (h0 : ∀ x, ∃ c t, f x = c :: t ∧ c ≠ 110) {o o' : Option α} {r s : Bytes} (hr : Stop r) (hs : Stop s)
    (h : option f o ++ r = option f o' ++ s) : o = o' ∧ r = s := by
  cases o with
  | none =>
    cases o' with
    | none => exact ⟨rfl, List.append_cancel_left h⟩
    | some y =>
      obtain ⟨c, t, hc, hne⟩ := h0 y
      dsimp only [option, null] at h
      rw [hc] at h
      exact absurd (List.cons.inj h).1.symm hne
  | some x =>
    cases o' with
    | none =>
      obtain ⟨c, t, hc, hne⟩ := h0 x
      dsimp only [option, null] at h
      rw [hc] at h
      exact absurd (List.cons.inj h).1 hne
    | some y =>
      obtain ⟨e1, e2⟩ := hf x y r s hr hs h
      exact ⟨by rw [e1], e2⟩

/-! ## Fields -/

/-- What is assumed of the rendering of finite `f32` numbers: it reads back, and it is a number. -/
structure Ryu (ryu : BitVec 32 → Bytes) : Prop where
  inj : ∀ v w, finite v = true → finite w = true → ryu v = ryu w → v = w
  free : ∀ w, finite w = true → ∀ c ∈ ryu w, stop c = false
  notNull : ∀ w, finite w = true → ryu w ≠ null

/-- Metadata as it is rendered: a ratio that is not finite is as good as none. -/
def seen (m : ReservedMetadata) : ReservedMetadata := ⟨m.onDemandRatio.filter finite⟩

theorem null_free : ∀ c ∈ null, stop c = false := by decide

theorem ratio_text (ryu : BitVec 32 → Bytes) (o : Option (BitVec 32)) :
    option (float ryu) o = match o.filter finite with | none => null | some w => ryu w := by
  cases o with
  | none => rfl
  | some w =>
    cases h : finite w <;> simp [Option.filter, option, float, h]

theorem filter_finite {o : Option (BitVec 32)} {w : BitVec 32} (h : o.filter finite = some w) : finite w = true := by
  cases o with
  | none => exact nomatch h
  | some v =>
    unfold Option.filter at h
    dsimp only at h
    split at h
    · rename_i hv
      cases h; exact hv
    · exact nomatch h

theorem ratio_inj {ryu : BitVec 32 → Bytes} (hr : Ryu ryu) {o o' : Option (BitVec 32)} {r s : Bytes} (h1 : Stop r) (h2 : Stop s)
    (h : option (float ryu) o ++ r = option (float ryu) o' ++ s) : o.filter finite = o'.filter finite ∧ r = s := by
  rw [ratio_text, ratio_text] at h
  cases e : o.filter finite with
  | none =>
    rw [e] at h
    cases e' : o'.filter finite with
    | none => rw [e'] at h; exact ⟨rfl, List.append_cancel_left h⟩
    | some w =>
      rw [e'] at h
      have hw := filter_finite e'
      exact absurd (span_inj null_free (hr.free w hw) h1 h2 h).1.symm (hr.notNull w hw)
  | some v =>
    rw [e] at h
    have hv := filter_finite e
    cases e' : o'.filter finite with
    | none =>
      rw [e'] at h
      exact absurd (span_inj (hr.free v hv) null_free h1 h2 h).1 (hr.notNull v hv)
    | some w =>
      rw [e'] at h
      have hw := filter_finite e'
      obtain ⟨e1, e2⟩ := span_inj (hr.free v hv) (hr.free w hw) h1 h2 h
      exact ⟨by rw [hr.inj v w hv hw e1], e2⟩

theorem metadata_inj {ryu : BitVec 32 → Bytes} (hr : Ryu ryu) {o o' : Option ReservedMetadata} {r s : Bytes}
    (h : Val.text ryu (.metadata o) ++ r = Val.text ryu (.metadata o') ++ s) : o.map seen = o'.map seen ∧ r = s := by
  cases o with
  | none =>
    cases o' with
    | none => exact ⟨rfl, List.append_cancel_left h⟩
    | some m => exact absurd (List.cons.inj h).1 (by decide)
  | some m =>
    cases o' with
    | none => exact absurd (List.cons.inj h).1 (by decide)
    | some m' =>
      dsimp only [Val.text, option, object, List.map, commas] at h
      simp only [List.cons_append, List.append_assoc, List.nil_append, List.cons.injEq, true_and] at h
      have h := (string_inj h).2
      have h := (List.cons.inj h).2
      obtain ⟨e1, e2⟩ := ratio_inj hr ⟨125, _, rfl, by decide⟩ ⟨125, _, rfl, by decide⟩ h
      refine ⟨?_, (List.cons.inj e2).2⟩
      show some (seen m) = some (seen m')
      unfold seen
      rw [e1]

/-- A field as it is rendered. -/
def Val.seen : Val → Val
  | .metadata o => .metadata (o.map Json.seen)
  | v => v

/-- The type of a field. -/
def Val.shape : Val → Nat
  | .u64 _ => 0 | .i32 _ => 1 | .bool _ => 2 | .bytes _ => 3 | .string _ => 4 | .list _ => 5
  | .optBytes _ => 6 | .optU64 _ => 7 | .optI32 _ => 8 | .optString _ => 9 | .metadata _ => 10

theorem bool_free (x : Bool) : ∀ c ∈ (if x then ascii "true".toList else ascii "false".toList), stop c = false := by
  cases x <;> decide

theorem decimal_sep (x y : U64) (r s : Bytes) (hr : Stop r) (hs : Stop s) (h : decimal x.toNat ++ r = decimal y.toNat ++ s) :
    x = y ∧ r = s := by
  obtain ⟨e1, e2⟩ := span_inj (digit_free _) (digit_free _) hr hs h
  exact ⟨BitVec.eq_of_toNat_eq (decimal_inj e1), e2⟩

theorem int_sep (x y : I32) (r s : Bytes) (hr : Stop r) (hs : Stop s) (h : int x ++ r = int y ++ s) :
    x = y ∧ r = s := by
  obtain ⟨e1, e2⟩ := span_inj (int_free _) (int_free _) hr hs h
  exact ⟨int_inj e1, e2⟩

theorem small_ne {c : UInt8} (h : c.toNat ≤ 57) : c ≠ 110 := by
  rintro rfl
  exact absurd h (by decide)

/-- The text of a field determines it, given its type. -/
theorem text_inj {ryu : BitVec 32 → Bytes} (hr : Ryu ryu) {v w : Val} {r s : Bytes} (hs : v.shape = w.shape) (h1 : Stop r) (h2 : Stop s)
    (h : v.text ryu ++ r = w.text ryu ++ s) : v.seen = w.seen ∧ r = s := by
  cases v <;> cases w <;> first | (exfalso; simp [Val.shape] at hs; done) | skip
  · obtain ⟨e1, e2⟩ := decimal_sep _ _ _ _ h1 h2 h; exact ⟨by rw [e1], e2⟩
  · obtain ⟨e1, e2⟩ := int_sep _ _ _ _ h1 h2 h; exact ⟨by rw [e1], e2⟩
  · rename_i x y
    obtain ⟨e1, e2⟩ := span_inj (bool_free x) (bool_free y) h1 h2 h
    refine ⟨?_, e2⟩
    cases x <;> cases y <;> first | rfl | exact absurd e1 (by decide)
  · obtain ⟨e1, e2⟩ := bytes_inj h; exact ⟨by rw [e1], e2⟩
  · obtain ⟨e1, e2⟩ := string_inj h; exact ⟨by rw [e1], e2⟩
  · obtain ⟨e1, e2⟩ := list_inj h; exact ⟨by rw [e1], e2⟩
  · obtain ⟨e1, e2⟩ := option_inj (fun _ _ _ _ _ _ e => bytes_inj e) (fun _ => ⟨91, _, rfl, by decide⟩) h1 h2 h
    exact ⟨by rw [e1], e2⟩
  · obtain ⟨e1, e2⟩ := option_inj (f := fun x : U64 => decimal x.toNat) decimal_sep (fun x => by
      obtain ⟨c, t, hc, _, hle⟩ := decimal_head x.toNat
      exact ⟨c, t, hc, small_ne hle⟩) h1 h2 h
    exact ⟨by rw [e1], e2⟩
  · obtain ⟨e1, e2⟩ := option_inj int_sep (fun x => by
      obtain ⟨c, t, hc, hle⟩ := int_head x
      exact ⟨c, t, hc, small_ne hle⟩) h1 h2 h
    exact ⟨by rw [e1], e2⟩
  · obtain ⟨e1, e2⟩ := option_inj (fun _ _ _ _ _ _ e => string_inj e) (fun _ => ⟨34, _, rfl, by decide⟩) h1 h2 h
    exact ⟨by rw [e1], e2⟩
  · obtain ⟨e1, e2⟩ := metadata_inj hr h
    exact ⟨congrArg Val.metadata e1, e2⟩

/-! ## Bodies -/

/-- The names of fields and their types. -/
def names : List (String × Nat) :=
  [("nonce", 0), ("delegate", 3), ("prover", 3), ("domain", 3), ("variant", 1), ("auctioneer", 3), ("fee", 4), ("to", 3),
   ("amount", 4), ("account", 3), ("vk_hash", 3), ("version", 4), ("mode", 1), ("strategy", 1), ("stdin_uri", 4), ("deadline", 0),
   ("cycle_limit", 0), ("gas_limit", 0), ("min_auction_period", 0), ("whitelist", 5), ("executor", 3), ("verifier", 3),
   ("public_values_hash", 6), ("base_fee", 4), ("max_price_per_pgu", 4), ("treasury", 3), ("stdin_private", 2), ("request_id", 3),
   ("winner", 3), ("execution_status", 1), ("cycles", 7), ("pgus", 7), ("punishment", 9), ("failure_cause", 8), ("proof", 3),
   ("reserved_metadata", 10)]

set_option maxRecDepth 4000 in
theorem names_inj : ∀ x ∈ names, ∀ y ∈ names, ascii x.1.toList = ascii y.1.toList → x = y := by decide +kernel

theorem fields_named (b : Body) : ∀ f ∈ fields b, (f.1, f.2.shape) ∈ names := by
  cases b <;> simp [fields, delegate, transfer, withdraw, request, bid, settle, execute, fulfill, Val.shape, names]

theorem fields_inj {ryu : BitVec 32 → Bytes} (hr : Ryu ryu) {a b : Body} (h : body ryu a = body ryu b) :
    (fields a).map (fun f => (f.1, f.2.seen)) = (fields b).map (fun f => (f.1, f.2.seen)) := by
  unfold body object at h
  have h := (List.cons.inj h).2
  rw [List.map_map, List.map_map] at h
  refine (commas_inj (P := fun f : String × Val => (f.1, f.2.shape) ∈ names) (n := fun f => (f.1, f.2.seen)) ?_
    (z := 125) (r := []) (s := []) (by decide) (by decide) ?_ (fields_named a) (fields_named b) h).1
  · rintro ⟨x, v⟩ ⟨y, w⟩ r s hx hy h1 h2 e
    dsimp only [Function.comp] at hx hy e ⊢
    rw [List.append_assoc, List.append_assoc] at e
    obtain ⟨e1, e2⟩ := string_inj e
    have e3 := names_inj _ hx _ hy e1
    obtain ⟨e4, e5⟩ := text_inj hr (congrArg Prod.snd e3) h1 h2 (List.cons.inj e2).2
    exact ⟨by rw [e4, show x = y from congrArg Prod.fst e3], e5⟩
  · intro x _
    exact ⟨34, _, rfl, by decide⟩

end Verif.Json
