import Verif.L1Calls
/-
# Signed approvals: nonces and deadlines

`L1Calls` takes the address recovered from a permit signature as an argument of the call. Here the calls carry the
signature itself, and the tokens keep the nonces that make each signature usable once.
-/

namespace Verif
open L1

/-- The message of an ERC-2612 permit. `token` stands for the EIP-712 domain, which names the verifying contract
(OpenZeppelin `ERC20Permit`, used by `contracts/src/tokens/Succinct.sol:20-21` and
`contracts/src/tokens/IntermediateSuccinct.sol:27-40`). -/
structure PermitMsg where
  token : Address
  owner : Address
  spender : Address
  value : U256
  nonce : Nat
  deadline : Nat
  deriving DecidableEq

/-- The message of `delegateBySig` on $iPROVE (OpenZeppelin `Votes`), which draws on the same nonces as permits. -/
structure DelegateMsg where
  delegatee : Address
  nonce : Nat
  expiry : Nat
  deriving DecidableEq

/-- `ECDSA.recover` on the digest of a message, for the signature given as bytes. Simplification: a function of the
message instead of its hash, so different messages have different digests. -/
structure Recover where
  permit : PermitMsg → Bytes → Option Address
  delegation : DelegateMsg → Bytes → Option Address

/-- The contracts' state together with the nonces of the two tokens that know permits: by token, then by owner
(OpenZeppelin `Nonces`; a `uint256` that is incremented unchecked, here a natural number). -/
structure Chain where
  w : World
  nonces : Address → Address → Nat

/-- A call as it is sent: permits come with a deadline and a signature. -/
inductive SCall where
  /-- any other call -/
  | plain (k : Call)
  /-- `permit` on $PROVE -/
  | provePermit (owner spender : Address) (v : U256) (deadline : Nat) (sig : Bytes)
  /-- `permit` on $iPROVE -/
  | iprovePermit (owner spender : Address) (v : U256) (deadline : Nat) (sig : Bytes)
  /-- `delegateBySig` on $iPROVE -/
  | iproveDelegateBySig (delegatee : Address) (nonce expiry : Nat) (sig : Bytes)
  /-- `permitAndDeposit`, `contracts/src/SuccinctVApp.sol:184-199` -/
  | permitAndDeposit (from_ : Address) (v : U256) (deadline : Nat) (sig : Bytes)
  /-- `permitAndStake`, `contracts/src/SuccinctStaking.sol:261-281` -/
  | permitAndStake (prover from_ : Address) (v : U256) (deadline : Nat) (sig : Bytes)

/-- The calls of `Call` that stand for a call with a signature. -/
def Call.signed : Call → Bool
  | .provePermit .. | .iprovePermit .. | .permitAndDeposit .. | .permitAndStake .. => true
  | _ => false

/-- `permit` up to the approval (OpenZeppelin `ERC20Permit`): the deadline, the signature over the current nonce,
and the nonce is used up. -/
def usePermit (rc : Recover) (c : Ctx) (token owner spender : Address) (v : U256) (deadline : Nat) (sig : Bytes)
    (s : Chain) : Except L1Err Chain :=
  if deadline < c.now then .error .invalidPermit
  else if rc.permit ⟨token, owner, spender, v, s.nonces token owner, deadline⟩ sig = some owner then
    .ok { s with nonces := upd s.nonces token (upd (s.nonces token) owner (s.nonces token owner + 1)) }
  else .error .invalidPermit

/-- Run contract code on the contracts' state. -/
def Chain.on {α : Type} (m : L1 α) (s : Chain) : Except L1Err Chain :=
  match m s.w with
  | .ok (_, w) => .ok { s with w := w }
  | .error e => .error e

/-- Dispatch of a call with its signature. -/
def sexec (cfg : Cfg) (rc : Recover) (c : Ctx) (s : Chain) : SCall → Except L1Err Chain
  | .plain k => if k.signed then .error .notReachable else s.on (exec cfg c k)
  | .provePermit o sp v d sig => do
    let s ← usePermit rc c cfg.prove o sp v d sig s
    s.on (onProve (·.approve o sp v.toNat))
  | .iprovePermit o sp v d sig => do
    let s ← usePermit rc c cfg.iprove o sp v d sig s
    s.on (onIprove (·.approve o sp v.toNat))
  | .iproveDelegateBySig d n x sig =>
    if x < c.now then .error .invalidPermit
    else match rc.delegation ⟨d, n, x⟩ sig with
      | none => .error .invalidPermit
      | some o =>
        if s.nonces cfg.iprove o = n then
          .ok { s with nonces := upd s.nonces cfg.iprove (upd (s.nonces cfg.iprove) o (n + 1)) }
        else .error .invalidPermit
  | .permitAndDeposit f v d sig => do
    let s ← s.on whenNotPaused
    if s.w.prove.allow f cfg.vapp ≠ v.toNat then
      let s ← usePermit rc c cfg.prove f cfg.vapp v d sig s
      let s ← s.on (onProve (·.approve f cfg.vapp v.toNat))
      s.on (vappDepositFrom cfg f v)
    else s.on (vappDepositFrom cfg f v)
  | .permitAndStake p f v d sig => do
    let s ← s.on (onlyForProver p)
    if s.w.prove.allow f p ≠ v.toNat then
      let s ← usePermit rc c cfg.prove f p v d sig s
      let s ← s.on (onProve (·.approve f p v.toNat))
      let s ← s.on (transferProveToStaking cfg cfg.staking p f v.toNat)
      s.on (stakeFor cfg f p v.toNat)
    else
      let s ← s.on (transferProveToStaking cfg cfg.staking p f v.toNat)
      s.on (stakeFor cfg f p v.toNat)

/-- A transaction: a reverted call changes nothing. -/
def scall (cfg : Cfg) (rc : Recover) (s : Chain) (x : Ctx × SCall) : Chain :=
  match sexec cfg rc x.1 s x.2 with
  | .ok s' => s'
  | .error _ => s

/-- A history of calls. -/
def srun (cfg : Cfg) (rc : Recover) (s : Chain) (h : List (Ctx × SCall)) : Chain := h.foldl (scall cfg rc) s

/-! ## What a permit is used for -/

/-- The permit a call has checked if it succeeds in state `s`. -/
def SCall.message (cfg : Cfg) (s : Chain) : SCall → Option PermitMsg
  | .provePermit o sp v d _ => some ⟨cfg.prove, o, sp, v, s.nonces cfg.prove o, d⟩
  | .iprovePermit o sp v d _ => some ⟨cfg.iprove, o, sp, v, s.nonces cfg.iprove o, d⟩
  | .permitAndDeposit f v d _ =>
    if s.w.prove.allow f cfg.vapp ≠ v.toNat then some ⟨cfg.prove, f, cfg.vapp, v, s.nonces cfg.prove f, d⟩ else none
  | .permitAndStake p f v d _ =>
    if s.w.prove.allow f p ≠ v.toNat then some ⟨cfg.prove, f, p, v, s.nonces cfg.prove f, d⟩ else none
  | _ => none

/-- The signature a call carries. -/
def SCall.sig : SCall → Bytes
  | .plain _ => []
  | .provePermit _ _ _ _ sig | .iprovePermit _ _ _ _ sig | .iproveDelegateBySig _ _ _ sig
  | .permitAndDeposit _ _ _ sig | .permitAndStake _ _ _ _ sig => sig

/-- The permits used in a history: of the calls that succeed, in order. -/
def permitsUsed (cfg : Cfg) (rc : Recover) : Chain → List (Ctx × SCall) → List PermitMsg
  | _, [] => []
  | s, x :: h =>
    (match sexec cfg rc x.1 s x.2 with
     | .ok _ => (x.2.message cfg s).toList
     | .error _ => []) ++ permitsUsed cfg rc (scall cfg rc s x) h

/-- What `a` lets go of by a call of its own. -/
def SCall.ownLetsGo (a : Address) (c : Ctx) : SCall → Nat
  | .plain (.proveTransfer _ v) | .plain (.proveBurn v) | .plain (.proveApprove _ v) =>
    if c.sender = a then v.toNat else 0
  | _ => 0

end Verif
