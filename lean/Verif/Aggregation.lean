import Verif.Abi
/-
# The aggregation program

Model of `programs/vapp/aggregation/src/main.rs`.
-/

namespace Verif

/-- What the aggregation guest gets from its environment: `Sha256::digest` and `verify_sp1_proof`
(`programs/vapp/aggregation/src/main.rs:25-28`; the guest aborts where this is `false`), and the STF
verification key compiled in (`main.rs:11-15`). -/
structure AggEnv where
  sha256 : Bytes → B256
  verifyProof : List (BitVec 32) → B256 → Bool
  stfVkey : List (BitVec 32)

/-- The loop over consecutive steps, `programs/vapp/aggregation/src/main.rs:40-60`. -/
def checkChain : List StepValues → Bool
  | a :: b :: rest =>
    decide (a.newRoot = b.oldRoot) && decide (a.timestamp.toNat ≤ b.timestamp.toNat) &&
      checkChain (b :: rest)
  | _ => true

/-- The validation and the output of the program on decoded steps,
`programs/vapp/aggregation/src/main.rs:22,39-77`; `none` is an abort. -/
def aggregateSteps : List StepValues → Option StepValues
  | [] => none
  | first :: rest =>
    if checkChain (first :: rest) then
      some
        { oldRoot := first.oldRoot
          newRoot := (rest.getLast?.getD first).newRoot
          timestamp := (rest.getLast?.getD first).timestamp
          receipts := (first :: rest).flatMap StepValues.receipts }
    else none

/-- `abi_decode` of every element, `programs/vapp/aggregation/src/main.rs:31-37`. -/
def decodeAll : List Bytes → Option (List StepValues)
  | [] => some []
  | b :: bs =>
    match StepValues.decode b with
    | none => none
    | some s =>
      match decodeAll bs with
      | none => none
      | some ss => some (s :: ss)

/-- `main`, `programs/vapp/aggregation/src/main.rs:17-81`: the bytes committed, or `none` for an
abort. -/
def aggregate (env : AggEnv) (publicValues : List Bytes) : Option Bytes :=
  if publicValues.isEmpty then none
  else if publicValues.all (fun pv => env.verifyProof env.stfVkey (env.sha256 pv)) then
    match decodeAll publicValues with
    | none => none
    | some steps =>
      match aggregateSteps steps with
      | none => none
      | some out => some out.encode
  else none

end Verif
