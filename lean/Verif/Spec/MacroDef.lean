import Verif.Spec.Cond
import Verif.Spec.Define

/-
Specification vocabulary: definitions of macros.
-/

namespace Spasm.Spec

/-- What stands behind the name in the first line of a macro: the parameters in parentheses, separated by commas, and
whatever follows them. Without parameters there may be empty parentheses or none. -/
inductive ParamText : List (List Nat) → List Nat → Prop
  | none (b t) : Blanks b → (∀ c ∈ (b ++ t).head?, ¬ NameChar c) → (∀ c ∈ t.head?, c ≠ 40 ∧ ¬ White c) → ParamText [] (b ++ t)
  | empty (b b1 t) : Blanks b → Blanks b1 → ParamText [] (b ++ [40] ++ b1 ++ [41] ++ t)
  | list (b ps u t) : Blanks b → Joined ps u → ParamText ps (b ++ [40] ++ u ++ [41] ++ t)

/-- The first line of a macro. -/
def MacroLine (name : List Nat) (params : List (List Nat)) (l : List Nat) : Prop :=
  ∃ b w c b1 t nl, l = b ++ 35 :: (w ++ c :: (b1 ++ name ++ t)) ++ nl ∧ Blanks b ∧ w.map upperCase = b! "MACRO" ∧ (c = 32 ∨ c = 9) ∧ Blanks b1 ∧
    ParamText params t ∧ (∀ c ∈ t, c ≠ 10 ∧ c ≠ 13) ∧ NewLine nl

/-- The lines of a macro: whole statements, in which every conditional group is complete, without an `#endmacro` outside of
them. -/
def MacroBody (text : List Nat) : Prop := ∃ sts, Lines sts text ∧ Nesting [b! "#endmacro"] 0 sts 0

/-- The statement that ends a macro. -/
def EndMacro (e : List Nat) : Prop := ∃ b w b1, e = b ++ w ++ b1 ∧ Blanks b ∧ SameText w (b! "#endmacro") ∧ Blanks b1

/-- From `s` to `s'` the name became a macro with these parameters and lines; nothing else was changed. If the name is new,
the macro belongs to the line behind the present one; a name that was defined keeps its old file, and its old line moves on
by one. -/
structure NowMacro (name : List Nat) (params : List (List Nat)) (body : List Nat) (s s' : S) : Prop where
  this : ∃ d, defineOf s' name = some d ∧ d.contents = some body ∧ d.args = params ∧
    (defineOf s name = none → d.file = s.currFile ∧ d.line = s.lineNum + 1) ∧
    ∀ d0, defineOf s name = some d0 → d.file = d0.file ∧ d.line = d0.line + 1
  others : ∀ other, nameKey s other ≠ nameKey s name → defineOf s' other = defineOf s other
  rest : s' = { s with defines := s'.defines, lineNum := s.lineNum + 1 + (body.count 10 : Nat) }

end Spasm.Spec
