/-
# Bytes, fixed-width words and checked arithmetic

Models `alloy_primitives::{Address, B256, U256}` as used by `crates/vapp` (external crate, so the
citation is to the use sites) and `crates/vapp/src/u256.rs`.
-/

namespace Verif

/-- A Rust `Vec<u8>` / `&[u8]`; also the UTF-8 content of a Rust `String`
(simplification: every byte string is allowed, not only valid UTF-8). -/
abbrev Bytes := List UInt8

/-- `alloy_primitives::Address` (20 bytes), `crates/vapp/src/storage.rs:56-64`. -/
abbrev Address := BitVec 160

/-- `alloy_primitives::B256` and `RequestId = [u8; 32]`, `crates/vapp/src/storage.rs:66-67`. -/
abbrev B256 := BitVec 256

/-- `alloy_primitives::U256`. -/
abbrev U256 := BitVec 256

/-- Rust `u64`; `+` wraps, as in the release profile (no `overflow-checks` in any Cargo.toml). -/
abbrev U64 := BitVec 64

/-- Rust `i32`, the representation of protobuf enums. -/
abbrev I32 := BitVec 32

/-! ## Big-endian conversion -/

/-- Value of a big-endian byte string, `U256::from_be_slice` (`crates/vapp/src/storage.rs:58,71`). -/
def beNat (bs : Bytes) : Nat := bs.foldl (fun n b => n * 256 + b.toNat) 0

/-- The `k` big-endian bytes of `n` (`Address::as_slice`, `B256::as_slice`, ABI words). -/
def beBytes : Nat → Nat → Bytes
  | 0, _ => []
  | k + 1, n => beBytes k (n / 256) ++ [UInt8.ofNat (n % 256)]

theorem beBytes_length (k n : Nat) : (beBytes k n).length = k := by
  induction k generalizing n with
  | zero => rfl
  | succ k ih => simp [beBytes, ih]

theorem beNat_append_singleton (bs : Bytes) (b : UInt8) :
    beNat (bs ++ [b]) = beNat bs * 256 + b.toNat := by
  simp [beNat]

theorem beNat_beBytes (k n : Nat) : beNat (beBytes k n) = n % 256 ^ k := by
  induction k generalizing n with
  | zero => simp [beBytes, beNat, Nat.mod_one]
  | succ k ih =>
    rw [beBytes, beNat_append_singleton, ih]
    have h1 : (UInt8.ofNat (n % 256)).toNat = n % 256 := by simp
    rw [h1, Nat.pow_succ, Nat.mul_comm (256 ^ k) 256, Nat.mod_mul]
    omega

theorem beNat_foldl (bs : Bytes) (n : Nat) :
    bs.foldl (fun n b => n * 256 + b.toNat) n = n * 256 ^ bs.length + beNat bs := by
  induction bs generalizing n with
  | nil => simp [beNat]
  | cons b bs ih =>
    have h := ih (n * 256 + b.toNat)
    have h2 := ih (0 * 256 + b.toNat)
    simp only [List.foldl_cons, List.length_cons, beNat] at *
    rw [h, h2, Nat.pow_succ]
    simp only [Nat.add_mul, Nat.zero_mul]
    have : n * 256 * 256 ^ bs.length = n * (256 ^ bs.length * 256) := by
      rw [Nat.mul_assoc, Nat.mul_comm 256]
    omega

theorem beNat_cons (b : UInt8) (bs : Bytes) :
    beNat (b :: bs) = b.toNat * 256 ^ bs.length + beNat bs := by
  rw [beNat, List.foldl_cons, beNat_foldl]; simp

theorem beNat_append (xs ys : Bytes) :
    beNat (xs ++ ys) = beNat xs * 256 ^ ys.length + beNat ys := by
  rw [beNat, List.foldl_append, beNat_foldl]; rfl

theorem beNat_lt (bs : Bytes) : beNat bs < 256 ^ bs.length := by
  induction bs with
  | nil => simp [beNat]
  | cons b bs ih =>
    rw [beNat_cons, List.length_cons, Nat.pow_succ]
    have hb : b.toNat ≤ 255 := by have := b.toNat_lt; omega
    have : b.toNat * 256 ^ bs.length ≤ 255 * 256 ^ bs.length := Nat.mul_le_mul_right _ hb
    omega

theorem beNat_inj {xs ys : Bytes} (hl : xs.length = ys.length) (h : beNat xs = beNat ys) :
    xs = ys := by
  induction xs generalizing ys with
  | nil => cases ys with
    | nil => rfl
    | cons _ _ => simp at hl
  | cons x xs ih =>
    cases ys with
    | nil => simp at hl
    | cons y ys =>
      simp only [List.length_cons, Nat.add_right_cancel_iff] at hl
      rw [beNat_cons, beNat_cons, hl] at h
      have h1 := beNat_lt xs
      have h2 := beNat_lt ys
      rw [hl] at h1
      have hd : x.toNat = y.toNat := by
        have e1 : (x.toNat * 256 ^ ys.length + beNat xs) / 256 ^ ys.length = x.toNat := by
          rw [Nat.mul_comm, Nat.mul_add_div (by exact Nat.pow_pos (by omega)), Nat.div_eq_of_lt h1]; rfl
        have e2 : (y.toNat * 256 ^ ys.length + beNat ys) / 256 ^ ys.length = y.toNat := by
          rw [Nat.mul_comm, Nat.mul_add_div (by exact Nat.pow_pos (by omega)), Nat.div_eq_of_lt h2]; rfl
        rw [← e1, ← e2, h]
      rw [hd] at h
      have : x = y := UInt8.toNat_inj.mp hd
      rw [this, ih hl (by omega)]

theorem beBytes_beNat (bs : Bytes) : beBytes bs.length (beNat bs) = bs := by
  apply beNat_inj (beBytes_length _ _)
  rw [beNat_beBytes, Nat.mod_eq_of_lt (beNat_lt bs)]

theorem beBytes_inj {k a b : Nat} (ha : a < 256 ^ k) (hb : b < 256 ^ k)
    (h : beBytes k a = beBytes k b) : a = b := by
  have := congrArg beNat h
  rwa [beNat_beBytes, beNat_beBytes, Nat.mod_eq_of_lt ha, Nat.mod_eq_of_lt hb] at this

/-! ## Addresses and 32-byte words as byte strings -/

/-- `Address::as_slice` / `Address::to_vec` (use: `crates/vapp/src/state.rs:287,708`). -/
def Address.bytes (a : Address) : Bytes := beBytes 20 a.toNat

/-- `Address::try_from(&[u8])`: succeeds exactly on 20-byte strings
(use: `crates/vapp/src/utils.rs:22-24`, `crates/vapp/src/state.rs:300`). -/
def Address.ofBytes? (bs : Bytes) : Option Address :=
  if bs.length = 20 then some (BitVec.ofNat 160 (beNat bs)) else none

/-- `B256::as_slice`, `[u8; 32]::as_slice` (use: `crates/vapp/src/state.rs:668`). -/
def B256.bytes (h : B256) : Bytes := beBytes 32 h.toNat

/-- `B256::try_from(&[u8])` and `<[u8; 32]>::try_from`: succeeds exactly on 32-byte strings
(use: `crates/vapp/src/state.rs:268,653,842`). -/
def B256.ofBytes? (bs : Bytes) : Option B256 :=
  if bs.length = 32 then some (BitVec.ofNat 256 (beNat bs)) else none

theorem Address.bytes_length (a : Address) : (Address.bytes a).length = 20 := beBytes_length _ _
theorem B256.bytes_length (a : B256) : (B256.bytes a).length = 32 := beBytes_length _ _

theorem Address.ofBytes?_bytes (a : Address) : Address.ofBytes? (Address.bytes a) = some a := by
  unfold Address.ofBytes?
  rw [if_pos (Address.bytes_length a)]
  unfold Address.bytes
  rw [beNat_beBytes, Nat.mod_eq_of_lt (by have := a.isLt; simpa using this)]
  simp

theorem B256.ofBytes?_bytes (a : B256) : B256.ofBytes? (B256.bytes a) = some a := by
  unfold B256.ofBytes?
  rw [if_pos (B256.bytes_length a)]
  unfold B256.bytes
  rw [beNat_beBytes, Nat.mod_eq_of_lt (by have := a.isLt; simpa using this)]
  simp

theorem Address.ofBytes?_eq_some {bs : Bytes} {a : Address} :
    Address.ofBytes? bs = some a ↔ bs = Address.bytes a := by
  constructor
  · intro h
    unfold Address.ofBytes? at h
    split at h
    · rename_i hl
      simp only [Option.some.injEq] at h
      subst h
      have hlt : beNat bs < 2 ^ 160 := by have := beNat_lt bs; rw [hl] at this; simpa using this
      unfold Address.bytes
      rw [BitVec.toNat_ofNat, Nat.mod_eq_of_lt hlt]
      have hb := beBytes_beNat bs
      rw [hl] at hb
      exact hb.symm
    · simp at h
  · intro h; rw [h]; exact Address.ofBytes?_bytes a

theorem B256.ofBytes?_eq_some {bs : Bytes} {a : B256} :
    B256.ofBytes? bs = some a ↔ bs = B256.bytes a := by
  constructor
  · intro h
    unfold B256.ofBytes? at h
    split at h
    · rename_i hl
      simp only [Option.some.injEq] at h
      subst h
      have hlt : beNat bs < 2 ^ 256 := by have := beNat_lt bs; rw [hl] at this; simpa using this
      unfold B256.bytes
      rw [BitVec.toNat_ofNat, Nat.mod_eq_of_lt hlt]
      have hb := beBytes_beNat bs
      rw [hl] at hb
      exact hb.symm
    · simp at h
  · intro h; rw [h]; exact B256.ofBytes?_bytes a

theorem Address.bytes_inj {a b : Address} (h : Address.bytes a = Address.bytes b) : a = b := by
  have := Address.ofBytes?_bytes a
  rw [h, Address.ofBytes?_bytes] at this
  exact (Option.some.inj this).symm

theorem B256.bytes_inj {a b : B256} (h : B256.bytes a = B256.bytes b) : a = b := by
  have := B256.ofBytes?_bytes a
  rw [h, B256.ofBytes?_bytes] at this
  exact (Option.some.inj this).symm

/-! ## Storage indices -/

/-- `StorageKey::index` for `Address`, `crates/vapp/src/storage.rs:57-59`. -/
def Address.index (a : Address) : Nat := beNat (Address.bytes a)

/-- `StorageKey::index` for `RequestId`: the first 20 bytes, `crates/vapp/src/storage.rs:70-72`. -/
def B256.index (h : B256) : Nat := beNat ((B256.bytes h).take 20)

theorem Address.index_eq (a : Address) : a.index = a.toNat := by
  unfold Address.index Address.bytes
  rw [beNat_beBytes, Nat.mod_eq_of_lt (by have := a.isLt; simpa using this)]

theorem Address.index_lt (a : Address) : a.index < 2 ^ 160 := by
  rw [Address.index_eq]; exact a.isLt

theorem Address.index_inj {a b : Address} (h : a.index = b.index) : a = b := by
  rw [Address.index_eq, Address.index_eq] at h
  exact BitVec.eq_of_toNat_eq h

theorem B256.index_lt (h : B256) : B256.index h < 2 ^ 160 := by
  have := beNat_lt ((B256.bytes h).take 20)
  rw [List.length_take, B256.bytes_length] at this
  simpa [B256.index] using this

end Verif
