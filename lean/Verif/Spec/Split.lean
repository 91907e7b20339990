import Verif.Spec.Expr

/-
Specification vocabulary: balanced texts, and lists of arguments separated by commas. These definitions do not
use any function of the model.
-/

namespace Spasm.Spec

/-- A character that is no quote, backslash or parenthesis and does not end a statement. -/
def Ordinary (c : Nat) : Prop :=
  c ≠ 34 ∧ c ≠ 39 ∧ c ≠ 92 ∧ c ≠ 40 ∧ c ≠ 41 ∧ c ≠ 10 ∧ c ≠ 13 ∧ c ≠ 59

instance (c : Nat) : Decidable (Ordinary c) := by unfold Ordinary; infer_instance

/-- What may stand between the quotes of a string: any characters, but quotes and backslashes only behind a
backslash. -/
inductive StringBody : List Nat → Prop
  | nil : StringBody []
  | char (c t) : c ≠ 34 → c ≠ 92 → StringBody t → StringBody (c :: t)
  | escape (c t) : StringBody t → StringBody (92 :: c :: t)

/-- A balanced text: characters, character constants, strings and balanced texts in parentheses. The characters in
`delims` occur only in quotes or inside parentheses (`true`: the text is itself inside parentheses). -/
inductive Balanced (delims : List Nat) : Bool → List Nat → Prop
  | nil (i) : Balanced delims i []
  | char (i c t) : Ordinary c → (i = false → c ∉ delims) → Balanced delims i t → Balanced delims i (c :: t)
  | quoted (i c t) : c ≠ 92 → Balanced delims i t → Balanced delims i (39 :: c :: 39 :: t)
  | escaped (i c t) : Balanced delims i t → Balanced delims i (39 :: 92 :: c :: 39 :: t)
  | string (i b t) : StringBody b → Balanced delims i t → Balanced delims i (34 :: b ++ 34 :: t)
  | paren (i u t) : Balanced delims true u → Balanced delims i t → Balanced delims i (40 :: u ++ 41 :: t)

/-- White space of any kind. -/
def White (c : Nat) : Prop := c = 32 ∨ (9 ≤ c ∧ c ≤ 13)

instance (c : Nat) : Decidable (White c) := by unfold White; infer_instance

/-- A text that neither starts nor ends with white space and is not empty. -/
def Trimmed (t : List Nat) : Prop := t ≠ [] ∧ (∀ c ∈ t.head?, ¬ White c) ∧ (∀ c ∈ t.getLast?, ¬ White c)

/-- An argument: balanced, with commas only in quotes or parentheses. -/
structure Argument (a : List Nat) : Prop where
  balanced : Balanced [44] false a
  trimmed : Trimmed a

/-- Arguments written one after the other, with blanks around them, separated by commas. Each is at most 254
characters long including the blanks behind it. -/
inductive Joined : List (List Nat) → List Nat → Prop
  | one (b a b') : Blanks b → Blanks b' → Argument a → (a ++ b').length ≤ 254 → Joined [a] (b ++ a ++ b')
  | more (b a b' as t) : Blanks b → Blanks b' → Argument a → (a ++ b').length ≤ 254 → Joined as t →
      Joined (a :: as) (b ++ a ++ b' ++ [44] ++ t)

/-- The end of an argument list: the end of the statement or a closing parenthesis. -/
def EndsList (rest : List Nat) : Prop :=
  rest = [] ∨ ∃ c r, rest = c :: r ∧ (c = 10 ∨ c = 13 ∨ c = 59 ∨ c = 92 ∨ c = 41)

end Spasm.Spec
