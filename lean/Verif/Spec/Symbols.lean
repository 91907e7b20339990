import Verif.Spec.Expr
import Verif.Spec.Names

/-
Specification vocabulary for labels and anonymous labels.
-/

namespace Spasm.Spec

/-- The anonymous labels known are at the addresses `addrs`, in the order of the source; the first `c` of them stand
before the point of use. -/
structure Anonymous (addrs : List Nat) (c : Nat) (s : S) : Prop where
  total : s.totalReusables = addrs.length
  passed : s.currReusable = c
  addr : ∀ (i a : Nat), addrs[i]? = some a → s.reusables i = a

/-- What may follow a label at the start of a line: a colon, which is dropped, or anything that is neither part of the
name nor an opening parenthesis. -/
def LabelEnd (rest after : List Nat) : Prop :=
  rest = 58 :: after ∨ (rest = after ∧ ∀ c, after.head? = some c → ¬ NameChar c ∧ c ≠ 40 ∧ c ≠ 58)

end Spasm.Spec
