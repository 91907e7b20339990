import Verif.Model.PassOne
import Verif.Model.Bitmap

/-
The program with a recursion budget: every function body with the callbacks of one level less.
-/

namespace Spasm

/-- Callbacks with recursion budget `n`. -/
def knot : Nat → Rec
  | 0 => {
      fuel := 0
      numFull := fun _ _ => M.halt .fuel
      expandFull := fun _ _ _ => M.halt .fuel
      handlePreop := fun _ => M.halt .fuel
      preopIf := fun _ => M.halt .fuel
      lineSec := fun _ => M.halt .fuel
      emitString := fun _ _ => M.halt .fuel }
  | n + 1 => {
      fuel := n + 1
      numFull := numFullBody (knot n)
      expandFull := expandFullBody (knot n)
      handlePreop := handlePreopBody (knot n) (handleBitmap (knot n))
      preopIf := preopIfBody (knot n)
      lineSec := lineSecBody (knot n)
      emitString := emitStringBody (knot n) }

end Spasm
