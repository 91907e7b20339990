import Verif.Model.State

/-
Specification vocabulary for error sessions. Nothing here mentions how the program stores problems.
-/

namespace Spasm.Spec

/-- What client code does with errors: record a problem, hand everything recorded in the current session so
far to the enclosing session, or do some work in a session of its own. -/
inductive ErrOp
  | record (code : Nat) (warn : Bool)
  | replay
  | session (body : List ErrOp)

/-- A problem: its code and whether it is a warning. -/
abbrev Problem := Nat × Bool

mutual
/-- What one operation leaves: the problems seen by the current session, oldest first, and those handed to the
enclosing session. Code 0 means "no problem". -/
def ErrOp.effect : ErrOp → List Problem × List Problem → List Problem × List Problem
  | .record c w, (own, up) => (if c = 0 then own else own ++ [(c, w)], up)
  | .replay, (own, up) => ([], up ++ own)
  | .session body, (own, up) => (own ++ (effects body ([], [])).2, up)
/-- The same for a sequence of operations. -/
def effects : List ErrOp → List Problem × List Problem → List Problem × List Problem
  | [], x => x
  | o :: os, x => effects os (o.effect x)
end

/-- The problems a state has on record for a session number, newest first. -/
def onRecord (n : Int) (s : S) : List Problem := (s.errors.filter (fun e => e.sess == n)).map (fun e => (e.code, e.warn))

/-- A fatal problem is on record: any but a forward reference to a local label, an unknown label and too deep
text substitution. -/
def fatalOnRecord (s : S) : Prop := ∃ e ∈ s.errors, e.code ≠ 0x100 ∧ e.code ≠ 0x106 ∧ e.code ≠ 0x129 ∧ e.code ≠ 0

end Spasm.Spec
