import Verif.Basic
/-
# The example program

`programs/examples/is-prime/src/main.rs`; `programs/examples/fibonacci/src/main.rs` is the same program (it is the one
that the calibrator of the node proves).
-/

namespace Verif.Prime

/-- The loop of `is_prime`, `programs/examples/is-prime/src/main.rs:22-29`, for at most `fuel` rounds; `none` if it takes
more, or divides by zero. Programs are built in release mode, where multiplication and addition of `u64` wrap around. -/
def loop : Nat → U64 → U64 → Option Bool
  | 0, _, _ => none
  | fuel + 1, n, i =>
    if i * i ≤ n then
      if i = 0 then none
      else if n % i = 0 then some false
      else if i + 2 = 0 then none
      else if n % (i + 2) = 0 then some false
      else loop fuel n (i + 6)
    else some true

/-- `is_prime`, `programs/examples/is-prime/src/main.rs:12-30`. After 2^64 rounds `i` has been everything it will be. -/
def isPrime (n : U64) : Option Bool :=
  if n ≤ 1 then some false
  else if n ≤ 3 then some true
  else if n % 2 = 0 ∨ n % 3 = 0 then some false
  else loop (2 ^ 64) n 5

/-- `main`, `programs/examples/is-prime/src/main.rs:4-10`: what the program commits to, a `bool` in `bincode`. -/
def committed (n : U64) : Option (Bytes) := (isPrime n).map fun b => [if b then 1 else 0]

end Verif.Prime
