import Verif.Model.State

/-
Specification vocabulary for whole runs. These definitions do not use any function of the model.
-/

namespace Spasm.Spec

/-- How bad a diagnostic shown on the screen is, as an exit status: warning 1, error 2, fatal error 3. -/
def severity : Ev → Nat
  | .warning _ => 1
  | .error _ => 2
  | .fatal _ => 3
  | _ => 0

/-- The exit status of a finished process; a run that hits undefined behaviour or the limits of the model
has none. -/
def exitStatus : Res Nat → Option Nat
  | .ok c _ => some c
  | .stop (.exit c) _ => some c
  | _ => none

/-- A file was written. -/
def isWrite : Ev → Bool
  | .wrote _ _ => true
  | .appended _ _ => true
  | _ => false

/-- The run returns, with a result and a final state that satisfy a test; for examples. -/
def returns {α : Type} (r : Res α) (test : α → S → Bool) : Bool :=
  match r with
  | .ok a s => test a s
  | .stop _ _ => false

theorem returns_elim {α : Type} {r : Res α} {test : α → S → Bool} (h : returns r test = true) :
    ∃ a s, r = .ok a s ∧ test a s = true := by
  cases r with
  | ok a s => exact ⟨a, s, rfl, h⟩
  | stop e s => cases h

end Spasm.Spec
