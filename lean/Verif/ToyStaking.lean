import Verif.ToyL1
import Verif.L1VappInv
/-
# Concrete staking histories, used to show that hypotheses of the staking theorems can be met
-/

namespace Verif.ToyL1
open Verif L1

/-- A plain account of the concrete deployment. -/
def plain (a : Address) : Bool := decide (4 < a.toNat) && decide (a.toNat < 2 ^ 159)

theorem plain_ok {a : Address} (h : plain a = true) : ¬ cfg.System a := by
  unfold plain at h
  rw [Bool.and_eq_true, decide_eq_true_eq, decide_eq_true_eq] at h
  exact not_system a h.1 h.2

/-- A check that implies `Admissible`. -/
def admissible (x : Ctx × Call) : Bool :=
  match x.2 with
  | .requestSlash _ _ => decide (x.1.sender = cfg.vapp)
  | .provePermit s _ _ _ | .iprovePermit s _ _ _ | .permitAndDeposit s _ _ | .permitAndStake s _ _ _ =>
    plain x.1.sender && plain s
  | _ => plain x.1.sender

theorem admissible_ok {x : Ctx × Call} (h : admissible x = true) : Admissible cfg x := by
  obtain ⟨c, k⟩ := x
  cases k
  case requestSlash => exact Or.inr (of_decide_eq_true h)
  case provePermit => exact ⟨plain_ok (Bool.and_eq_true _ _ ▸ h).1, plain_ok (Bool.and_eq_true _ _ ▸ h).2⟩
  case iprovePermit => exact ⟨plain_ok (Bool.and_eq_true _ _ ▸ h).1, plain_ok (Bool.and_eq_true _ _ ▸ h).2⟩
  case permitAndDeposit => exact ⟨plain_ok (Bool.and_eq_true _ _ ▸ h).1, plain_ok (Bool.and_eq_true _ _ ▸ h).2⟩
  case permitAndStake => exact ⟨plain_ok (Bool.and_eq_true _ _ ▸ h).1, plain_ok (Bool.and_eq_true _ _ ▸ h).2⟩
  all_goals exact plain_ok h

/-- Histories that pass the check lead to reachable worlds. -/
theorem reachable {h : List (Ctx × Call)} (ha : h.all admissible = true) : Reachable cfg (runCalls cfg genesis h) :=
  ⟨genesis, h, genesis_ok, fun _ hx => admissible_ok (List.all_eq_true.mp ha _ hx), rfl⟩

/-- Alice stakes 1000 and bob 500 with `prover1`; alice asks for 400 and later 100 back; a slash of 300 is
requested. -/
def stakes : List (Ctx × Call) := setup ++
  [ (ctx alice 1000, .proveApprove cfg.staking 5000), (ctx alice 1000, .stake prover1 1000),
    (ctx bob 1000, .proveApprove cfg.staking 5000), (ctx bob 1000, .stake prover1 500),
    (ctx alice 1100, .requestUnstake 400), (ctx alice 1150, .requestUnstake 100),
    (ctx cfg.vapp 1160, .requestSlash prover1 300) ]

/-- The world after `stakes`. -/
def w3 : World := runCalls cfg genesis stakes

/-- Then the slash of 300 is executed. -/
def w4 : World := call cfg (ctx gov 1170) (.finishSlash prover1 0) w3

/-- A history in which a claim that was slashed completely pays in full: alice asks for all of their stake
back and is slashed to nothing, bob stakes and asks for theirs back, alice finishes. -/
def revival : List (Ctx × Call) := setup ++
  [ (ctx alice 1000, .proveApprove cfg.staking 5000), (ctx alice 1000, .stake prover1 1000),
    (ctx alice 1100, .requestUnstake 1000), (ctx cfg.vapp 1160, .requestSlash prover1 1000),
    (ctx gov 1170, .finishSlash prover1 0) ]

/-- What bob does next. -/
def bobUnstakes : List (Ctx × Call) :=
  [ (ctx bob 1200, .proveApprove cfg.staking 5000), (ctx bob 1200, .stake prover1 1000),
    (ctx bob 1230, .requestUnstake 1000) ]

/-- The world in which alice's claim is worth nothing. -/
def w5 : World := runCalls cfg genesis revival
/-- The world after bob's calls. -/
def w6 : World := runCalls cfg w5 bobUnstakes

end Verif.ToyL1
