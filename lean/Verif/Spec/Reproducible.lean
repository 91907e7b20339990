import Verif.Model.Main
import Verif.Spec.Export

/-
Specification: what a user sees of a run, and the result of a program.
-/

namespace Spasm.Spec

/-- How a run ends: the process ends with a status, or it meets undefined behaviour or something that is not modelled. -/
def ending : Res Nat → Stop
  | .ok c _ => .exit c
  | .stop e _ => e

/-- Everything a user sees of a run: how it ends, and the messages printed and the files written, in order. -/
def observed (r : Res Nat) : Stop × List Ev := (ending r, r.state.log)

/-- The inputs of the process: files, working directory and command line; `md5` is the hash function linked in. -/
structure Input where
  md5 : List Nat → List Nat
  fs : Str → Option (List Nat)
  cwd : Str
  args : List Str

/-- The run with the given initial contents of the memory block for the output, random numbers and recursion budget. -/
def Input.run (i : Input) (budget : Nat) (mem rand : Nat → Nat) : Res Nat := spasm budget i.md5 i.fs mem rand i.cwd i.args

/-- The run ends in `r`: every large enough recursion budget gives `r`, and the budget is not used up. -/
def Outcome (i : Input) (mem rand : Nat → Nat) (r : Res Nat) : Prop :=
  ending r ≠ .fuel ∧ ∃ n, ∀ m, n ≤ m → i.run m mem rand = r

/-- No random number has been used: no character constant `'\#'` was evaluated. -/
def NoRandom (r : Res Nat) : Prop := r.state.randPos = 0

/-- No .seek has been executed. -/
def NoSeek (r : Res Nat) : Prop := r.state.sought = false

/-- At least two bytes were assembled, or no `.8xp` file was written. -/
def LongEnough (r : Res Nat) : Prop :=
  2 ≤ r.state.outPtr ∨ ∀ file bytes, Ev.wrote file bytes ∈ r.state.log → ¬ HasExt file (b! "8xp")

end Spasm.Spec
