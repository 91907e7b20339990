import Verif.Spec.Data

/-
Specification vocabulary: names that stand for operands of data directives. These definitions do not use any function
of the model.
-/

namespace Spasm.Spec

/-- The operands `args` of a directive for data of `n` bytes, placed at address `pc`, stand for the bytes `bs` and cause
the warnings `ws`. An operand is a number, a string, or a name whose text is itself a list of operands. The text of a
name may contain such names again, less than `nest` deep. It is not a single number, since the name is then a number.
The warnings about operands in the text of a name are lost. -/
inductive Listed (ez80 : Bool) (label : List Nat → Option Int) (text : List Nat → Option (List Nat)) (depth n : Nat) :
    Nat → Nat → List (List Nat) → List Nat → List Nat → Prop
  | nil (nest pc) : Listed ez80 label text depth n nest pc [] [] []
  | number (nest pc d t v args bs ws) : Denotes (asInt32 pc) label text d t v → d < depth →
      Listed ez80 label text depth n nest (pc + n) args bs ws →
      Listed ez80 label text depth n nest pc (t :: args) (littleEndian n v ++ bs) (truncation ez80 n v ++ ws)
  | string (nest pc body cs args bs ws) : Chars body cs → Listed ez80 label text depth n nest (pc + cs.length) args bs ws →
      Listed ez80 label text depth n nest pc ((34 :: body ++ [34]) :: args) (cs ++ bs) ws
  | named (nest pc t written inner bs' ws' args bs ws) : Name t → text t = some written → Joined inner written →
      (∀ a d v, inner = [a] → ¬ Denotes (asInt32 pc) label text d a v) →
      Listed ez80 label text depth n nest pc inner bs' ws' →
      Listed ez80 label text depth n (nest + 1) (pc + bs'.length) args bs ws →
      Listed ez80 label text depth n (nest + 1) pc (t :: args) (bs' ++ bs) ws

/-- The state after the bytes `bs` were placed, where `spread` tells whether a name stood for several operands so far.
This variable is not part of the program. -/
def afterListed (bs ws : List Nat) (depth : Int) (fwd spread : Bool) (s : S) : S :=
  { afterData bs ws depth fwd s with spread := spread }

end Spasm.Spec
