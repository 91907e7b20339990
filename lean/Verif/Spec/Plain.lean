import Verif.Spec.Names

/-
Specification vocabulary: expressions and texts that do not refer to texts with parameters.
-/

namespace Spasm.Spec

/-- The text does not contain any of the excluded names, in upper or lower case. -/
def Free (out : List Nat → Prop) (t : List Nat) : Prop := ∀ a g c, t = a ++ g ++ c → ¬ out g ∧ ¬ out (g.map upperCase)

/-- Excluding the names `out`, the texts in force are plain: they have no parameters and no `#`, and do not contain the
excluded names either. Among the excluded names are the built-in function `getc` and `__FILE`, and none is a number. -/
structure PlainTexts (out : List Nat → Prop) (s : S) : Prop where
  getc : out (b! "GETC")
  file : out (b! "__FILE")
  numbers : ∀ k, out k → ∃ c ∈ k, c ≠ 45 ∧ ¬ (48 ≤ c ∧ c ≤ 57)
  defines : ∀ p ∈ s.defines, ¬ out p.1 → p.2.args = [] ∧ ∀ c, p.2.contents = some c → 35 ∉ c ∧ Free out c
  arguments : ∀ t ∈ s.argSets, ∀ p ∈ t, ¬ out p.1 → p.2.args = [] ∧ ∀ c, p.2.contents = some c → 35 ∉ c ∧ Free out c

end Spasm.Spec
