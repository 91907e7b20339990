import Verif.Spec.Cond

/-
Specification vocabulary: lines that stand for nothing. These definitions do not use any function of the model.
-/

namespace Spasm.Spec

/-- The words at the beginning of lines without effect. -/
def markers : List (List Nat) := [b! "#region", b! "#endregion", b! ".list", b! ".nolist", b! ".end"]

/-- A line with one of these words, in any case, and any text without a backslash behind a blank. -/
def MarkerLine (l : List Nat) : Prop :=
  ∃ b w word u nl, l = b ++ w ++ u ++ nl ∧ Blanks b ∧ word ∈ markers ∧ SameText w word ∧ (∀ c ∈ u.head?, c = 32 ∨ c = 9) ∧
    (∀ c ∈ u, c ≠ 10 ∧ c ≠ 13 ∧ c ≠ 92) ∧ NewLine nl

/-- A block comment: `#comment`, possibly with text behind it, and whole lines up to the one that begins with
`#endcomment`. The text reads as statements, in which every conditional group is complete. -/
def BlockComment (t : List Nat) : Prop :=
  ∃ b w b1 sts text b2 w2 u nl, t = b ++ w ++ b1 ++ text ++ (b2 ++ w2 ++ u ++ nl) ∧ Blanks b ∧ SameText w (b! "#comment") ∧ Blanks b1 ∧
    (∃ c r, text = c :: r ∧ (b1 = [] → c = 10 ∨ c = 13) ∧ c ≠ 32 ∧ c ≠ 9 ∧ c ≠ 11 ∧ c ≠ 12) ∧
    Lines sts text ∧ Nesting [b! "#endcomment"] 0 sts 0 ∧
    Blanks b2 ∧ SameText w2 (b! "#endcomment") ∧ (∀ c ∈ u, c ≠ 10 ∧ c ≠ 13) ∧ NewLine nl

end Spasm.Spec
