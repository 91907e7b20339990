import Verif.Spec.Instr
import Verif.Spec.Symbols

/-
Specification vocabulary: conditional assembly. What a text that is passed over looks like, how deep a statement of it is
nested, and which branch of a group is chosen. These definitions do not use any function of the model.
-/

namespace Spasm.Spec

/-- Nothing, or a comment up to the end of the line. -/
def Comment (t : List Nat) : Prop := t = [] ∨ ∃ r, t = 59 :: r ∧ ∀ c ∈ r, c ≠ 10 ∧ c ≠ 13

/-- The text of a statement: characters, character constants and strings on one line. Backslashes and semicolons occur
only in quotes. An apostrophe may also stand alone, before two characters that are not quotes. -/
inductive CodeText : List Nat → Prop
  | nil : CodeText []
  | char (c t) : c ≠ 34 ∧ c ≠ 39 ∧ c ≠ 92 ∧ c ≠ 10 ∧ c ≠ 13 ∧ c ≠ 59 → CodeText t → CodeText (c :: t)
  | quoted (c t) : c ≠ 92 ∧ c ≠ 10 ∧ c ≠ 13 → CodeText t → CodeText (39 :: c :: 39 :: t)
  | escaped (c t) : c ≠ 10 ∧ c ≠ 13 → CodeText t → CodeText (39 :: 92 :: c :: 39 :: t)
  | string (b t) : StringBody b → (∀ c ∈ b, c ≠ 10 ∧ c ≠ 13) → CodeText t → CodeText (34 :: b ++ 34 :: t)
  | lone (c d t) : (c ≠ 34 ∧ c ≠ 39 ∧ c ≠ 92 ∧ c ≠ 10 ∧ c ≠ 13 ∧ c ≠ 59) → (d ≠ 34 ∧ d ≠ 39 ∧ d ≠ 92) → CodeText (c :: d :: t) →
      CodeText (39 :: c :: d :: t)

/-- The text starts with this word, in any case, behind any blanks. -/
def Begins (word t : List Nat) : Prop := ∃ b w r, t = b ++ w ++ r ∧ Blanks b ∧ SameText w word

/-- The end of a line. -/
def NewLine (nl : List Nat) : Prop := nl = [10] ∨ nl = [13, 10]

/-- Statements in lines, each behind the other: there is a backslash behind a statement, or possibly a comment and the end
of the line. A statement does not start with a closing parenthesis. There is no backslash at the end of a line, and a
statement that ends with a lone apostrophe, as `ex af,af'` does, is the last of its line; the next line does not start with
a quote or a backslash. -/
inductive Lines : List (List Nat) → List Nat → Prop
  | nil : Lines [] []
  | backslash (t sts text) : CodeText t → ¬ Begins [41] t → Lines sts text → (∀ c ∈ text.head?, c ≠ 10 ∧ c ≠ 13) →
      Lines (t :: sts) (t ++ 92 :: text)
  | newline (t com nl sts text) : CodeText t → ¬ Begins [41] t → Comment com → NewLine nl → Lines sts text →
      Lines (t :: sts) (t ++ com ++ nl ++ text)
  | apostrophe (t b com nl sts text) : CodeText t → ¬ Begins [41] t → Blanks b → Comment com → (b = [] → com = []) → NewLine nl →
      Lines sts text → (∀ c ∈ text.head?, c ≠ 34 ∧ c ≠ 39 ∧ c ≠ 92) → Lines ((t ++ 39 :: b) :: sts) (t ++ 39 :: b ++ com ++ nl ++ text)

/-- How deep the statements are nested in conditional groups: from depth `n` in front of them to depth `m` behind them.
At depth 0 there is none that starts with one of the `stops`. -/
inductive Nesting (stops : List (List Nat)) : Nat → List (List Nat) → Nat → Prop
  | nil (n) : Nesting stops n [] n
  | opens (n m t sts) : Begins (b! "#if") t → Nesting stops (n + 1) sts m → Nesting stops n (t :: sts) m
  | closes (n m t sts) : Begins (b! "#endif") t → Nesting stops n sts m → Nesting stops (n + 1) (t :: sts) m
  | other (n m t sts) : ¬ Begins (b! "#if") t → ¬ Begins (b! "#endif") t → (n = 0 → ∀ w ∈ stops, ¬ Begins w t) →
      Nesting stops n sts m → Nesting stops n (t :: sts) m

/-- The text of a branch: whole statements, in which every conditional group is complete, and without an `#else` or `#elif` of
the group to which the branch belongs. -/
def Branch (text : List Nat) : Prop := ∃ sts, Lines sts text ∧ Nesting [b! "#else", b! "#elif", b! "#endif"] 0 sts 0

/-- A line that consists of this word alone, possibly with a comment. -/
def WordLine (word line : List Nat) : Prop :=
  ∃ b w b1 com nl, line = b ++ w ++ b1 ++ com ++ nl ∧ Blanks b ∧ SameText w word ∧ Blanks b1 ∧ (b1 = [] → com = []) ∧ Comment com ∧ NewLine nl

/-- A line with this word and a further text, possibly with a comment; there is no backslash in the comment. -/
def ClauseLine (word text line : List Nat) : Prop :=
  ∃ b w c b1 com nl, line = b ++ w ++ c :: (b1 ++ text ++ com) ++ nl ∧ Blanks b ∧ SameText w word ∧ Blanks (c :: b1) ∧
    text ≠ [] ∧ CodeText text ∧ (∀ c ∈ text.head?, ¬ White c ∧ c ≠ 41 ∧ c ≠ 35) ∧ Comment com ∧ 92 ∉ com ∧ NewLine nl

/-- The rest of a group behind a chosen branch, up to its `#endif`: no condition of it matters. -/
inductive Unchosen : List Nat → Prop
  | endif (e) : WordLine (b! "#endif") e → Unchosen e
  | else_ (l t e) : WordLine (b! "#else") l → Branch t → WordLine (b! "#endif") e → Unchosen (l ++ t ++ e)
  | elif (l c t u) : ClauseLine (b! "#elif") c l → Branch t → Unchosen u → Unchosen (l ++ t ++ u)

/-- A group from a line with a condition up to its `#endif`, and the branch chosen: the first whose condition is true,
or that of `#else` when there is none, or nothing. `holds word text b` says that the condition `text` behind `word` has the
truth value `b`; `word` is the word of the first line. -/
inductive Group (holds : List Nat → List Nat → Bool → Prop) : List Nat → List Nat → List Nat → Prop
  | yes (word c l t u) : ClauseLine word c l → holds word c true → Branch t → Unchosen u → Group holds word (l ++ t ++ u) t
  | no (word c l t e) : ClauseLine word c l → holds word c false → Branch t → WordLine (b! "#endif") e → Group holds word (l ++ t ++ e) []
  | else_ (word c l t e t' e') : ClauseLine word c l → holds word c false → Branch t → WordLine (b! "#else") e → Branch t' →
      WordLine (b! "#endif") e' → Group holds word (l ++ t ++ e ++ t' ++ e') t'
  | elif (word c l t u chosen) : ClauseLine word c l → holds word c false → Branch t → Group holds (b! "#elif") u chosen →
      Group holds word (l ++ t ++ u) chosen

/-- Whether there is a macro argument or else a define of this name that has a text. -/
def isDefined (s : S) (name : List Nat) : Bool :=
  match argumentOf s name with
  | some d => d.contents.isSome
  | none => match defineOf s name with
    | some d => d.contents.isSome
    | none => false

/-- The truth value of a condition where the state is `s`: of `#if` and `#elif` by the value of the expression, whose names
stand for each other at most `d` deep; of `#ifdef` and `#ifndef` by the name. -/
inductive Holds (s : S) (d : Nat) : List Nat → List Nat → Bool → Prop
  | value (word t b v) : word ∈ [b! "#if", b! "#elif"] → Denotes (toI32 s.pc) (visibleLabel s) (visibleText s) d t v → Blanks b →
      Holds s d word (t ++ b) (decide (v ≠ 0))
  | ifdef (name b) : Name name → ¬ Maintained s name → Blanks b → Holds s d (b! "#ifdef") (name ++ b) (isDefined s name)
  | ifndef (name b) : Name name → ¬ Maintained s name → Blanks b → Holds s d (b! "#ifndef") (name ++ b) (!isDefined s name)

/-- The words that open a group. -/
def openings : List (List Nat) := [b! "#if", b! "#ifdef", b! "#ifndef"]

end Spasm.Spec
