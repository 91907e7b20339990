import Lean

/-
A tactic for compositional proofs: the goal `P … (f x y)` is proved by the theorem whose name is the given
prefix followed by the name of `f`.
-/

namespace Spasm
open Lean Elab Tactic Meta

/-- `dispatch "p"` applies the theorem `Spasm.p‹f›` to a goal whose last argument is a call of `f`; remaining
hypotheses are looked up among the assumptions. -/
elab "dispatch " pre:str : tactic => withMainContext do
  let tgt ← instantiateMVars (← getMainTarget)
  let .app _ m := tgt | throwError "no call"
  match m.getAppFn with
  | .const n _ =>
    let name := `Spasm ++ Name.mkSimple (pre.getString ++ n.getString!)
    unless (← getEnv).contains name do throwError "no fact"
    let gs ← (← getMainGoal).apply (← mkConstWithFreshMVarLevels name)
    let gs ← gs.filterM fun g => do
      if ← g.isAssigned then return false
      try g.assumption; return false catch _ => return true
    replaceMainGoal gs
  | _ => throwError "no function"

end Spasm
