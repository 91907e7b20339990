import Verif.Spec.Define
import Verif.Spec.Message

/-
Specification vocabulary: `.option`, `.show` and the names that the assembler maintains.
-/

namespace Spasm.Spec

/-- An operand of `.option` sets `name` to `text`: the text behind the equals sign, or `1` if there is none. -/
inductive Sets : List Nat → List Nat → List Nat → Prop
  | bare (name) : Sets name name [49]
  | nothing (name b) : Blanks b → Sets (name ++ b ++ [61]) name [49]
  | text (name b t) : Blanks b → t ≠ [] → Sets (name ++ b ++ 61 :: t) name t

/-- The name under which an option is kept. -/
def optionName (name : List Nat) : List Nat := 95 :: 95 :: name

/-- The name of an option: it starts with a letter, and its define is not a label, a macro argument or maintained by the
assembler. -/
structure OptionName (s : S) (name : List Nat) : Prop where
  letter : ∃ c r, name = c :: r ∧ ((65 ≤ c ∧ c ≤ 90) ∨ (97 ≤ c ∧ c ≤ 122))
  chars : ∀ c ∈ name, NameChar c
  noLabel : labelOf s (optionName name) = none
  noArgument : argumentOf s (optionName name) = none
  ours : ¬ Maintained s (optionName name)

/-- The text of the define `name` after some options, the first one first; `old` is its text before. -/
def optionText (key : List Nat → List Nat) (name : List Nat) (old : Option (List Nat)) : List (List Nat × List Nat) → Option (List Nat)
  | [] => old
  | (n, text) :: os => optionText key name (if key (optionName n) = key name then some text else old) os

/-- Names separated by commas and blanks. -/
def commaList : List (List Nat) → List Nat
  | [] => []
  | [a] => a
  | a :: as => a ++ [44, 32] ++ commaList as

/-- The line printed for a define: its name, its parameters and its text. -/
def shownLine (d : Define) : List Nat :=
  d.name ++ (if d.args = [] then [] else [40] ++ commaList d.args ++ [41]) ++
    (match d.contents with | some t => [58, 32] ++ t | none => []) ++ [10]

/-- What a name means to `.show`: the macro argument of this name in the innermost call, or else the define. -/
def shownDefine (s : S) (name : List Nat) : Option Define :=
  match argumentOf s name with
  | some d => some d
  | none => defineOf s name

end Spasm.Spec
