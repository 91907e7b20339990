import Verif.Spec.Names
import Verif.Spec.Split

/-
Specification vocabulary: definitions of names by preprocessor statements.
-/

namespace Spasm.Spec

/-- The inside of a string on one line, without doubled backslashes. -/
inductive LineString : List Nat → Prop
  | nil : LineString []
  | char (c t) : c ≠ 34 ∧ c ≠ 92 ∧ c ≠ 10 ∧ c ≠ 13 → LineString t → LineString (c :: t)
  | escape (c t) : c ≠ 92 ∧ c ≠ 10 ∧ c ≠ 13 → LineString t → LineString (92 :: c :: t)

/-- A text on one line: any characters, with semicolons only in strings and backslashes only in strings and
character constants. -/
inductive LineText : List Nat → Prop
  | nil : LineText []
  | char (c t) : c ≠ 34 ∧ c ≠ 39 ∧ c ≠ 92 ∧ c ≠ 10 ∧ c ≠ 13 ∧ c ≠ 59 → LineText t → LineText (c :: t)
  | quoted (c t) : c ≠ 34 ∧ c ≠ 92 ∧ c ≠ 10 ∧ c ≠ 13 ∧ c ≠ 59 → LineText t → LineText (39 :: c :: 39 :: t)
  | escaped (c t) : c ≠ 10 ∧ c ≠ 13 ∧ c ≠ 59 → LineText t → LineText (39 :: 92 :: c :: 39 :: t)
  | string (b t) : LineString b → LineText t → LineText (34 :: b ++ 34 :: t)

/-- The end of a line: a line break or a comment. -/
def LineEnd (rest : List Nat) : Prop := rest = [] ∨ ∃ c r, rest = c :: r ∧ (c = 10 ∨ c = 13 ∨ c = 59)

/-- `w` is a word of the text: name characters, and no further ones beside them. -/
def Word (text w : List Nat) : Prop :=
  w ≠ [] ∧ (∀ c ∈ w, NameChar c) ∧
    ∃ p q, text = p ++ w ++ q ∧ (∀ c ∈ p.getLast?, ¬ NameChar c) ∧ (∀ c ∈ q.head?, ¬ NameChar c)

/-- The text uses one of the functions `eval(…)` and `concat(…)`, which compute the text to define. -/
def Computed (text : List Nat) : Prop :=
  ∃ b w b' r, text = b ++ w ++ b' ++ r ∧ Blanks b ∧ (∀ c ∈ b', White c) ∧ (w.map upperCase = b! "EVAL" ∨ w.map upperCase = b! "CONCAT") ∧
    (r = [] ∨ ∃ t, r = 40 :: t ∨ r = 41 :: t)

/-- The text that `#define` gives to a name: that after the name, or `1` if there is none. -/
def given (text : List Nat) : List Nat := if ∀ c ∈ text, c = 32 ∨ c = 9 ∨ c = 11 ∨ c = 12 then [49] else text

/-- The name can be defined with this text: it is a name, not that of a label, a macro argument or a define that the
assembler maintains; the text fits on a line, is no parameter list, is not longer than 254 characters and is not computed
by a function. If the name has a text already, the new one does not mention it, nor any label. -/
structure Definable (s : S) (name text : List Nat) : Prop where
  nonempty : name ≠ []
  chars : ∀ c ∈ name, NameChar c
  noLabel : labelOf s name = none
  noArgument : argumentOf s name = none
  ours : ¬ Maintained s name
  apart : ∀ c ∈ text.head?, ¬ NameChar c ∧ c ≠ 40
  line : LineText text
  short : text.length ≤ 254
  plain : ¬ Computed text
  again : (defineOf s name).bind (fun d => d.contents) ≠ none →
    ∀ w, Word text w → labelOf s w = none ∧ nameKey s w ≠ nameKey s name

/-- The spelling `b#define name text`, followed by `rest`. -/
def Written (word : List Nat) (name text rest t : List Nat) : Prop :=
  ∃ b w c b1, t = b ++ 35 :: (w ++ c :: (b1 ++ name ++ text ++ rest)) ∧ Blanks b ∧ w.map upperCase = word ∧ (c = 32 ∨ c = 9) ∧
    Blanks b1

/-- Every define is stored under its own name. -/
def WellNamed (s : S) : Prop := ∀ p ∈ s.defines, p.2.name = p.1

/-- From `s` to `s'` the name was given this text, without parameters; nothing else was changed. -/
structure NowMeans (name text : List Nat) (s s' : S) : Prop where
  this : (defineOf s' name).bind Define.text = some text
  others : ∀ other, nameKey s other ≠ nameKey s name → defineOf s' other = defineOf s other
  rest : s' = { s with defines := s'.defines, lastDefine := s'.lastDefine }

/-- From `s` to `s'` the define of this name was removed; nothing else was changed. -/
structure NowUndefined (name : List Nat) (s s' : S) : Prop where
  this : defineOf s' name = none
  others : ∀ other, nameKey s other ≠ nameKey s name → defineOf s' other = defineOf s other
  rest : s' = { s with defines := s'.defines }

/-- A change of the table of defines. -/
inductive Change
  | define (name text : List Nat)
  | undef (name : List Nat)

/-- The change can be made at any time, whatever is defined: the text of a definition mentions neither the name itself
nor any label. -/
def Permitted (s : S) : Change → Prop
  | .define name text => Definable { s with defines := [] } name text ∧
      ∀ w, Word text w → labelOf s w = none ∧ nameKey s w ≠ nameKey s name
  | .undef name => name ≠ [] ∧ ∀ c ∈ name, NameChar c

/-- A statement for a change. -/
def Change.Statement : Change → List Nat → Prop
  | .define name text, t => ∃ rest, LineEnd rest ∧ Written (b! "DEFINE") name text rest t
  | .undef name, t => ∃ rest word, (∀ c ∈ rest.head?, ¬ NameChar c) ∧ (word = b! "UNDEF" ∨ word = b! "UNDEFINE") ∧
      Written word name [] rest t

/-- The text a name has after some changes, the oldest first, if it had the text `old` before; `key` tells which spellings
are the same name. -/
def latest (key : List Nat → List Nat) (name : List Nat) (old : Option (List Nat)) : List Change → Option (List Nat)
  | [] => old
  | .define n text :: cs => latest key name (if key n = key name then some (given text) else old) cs
  | .undef n :: cs => latest key name (if key n = key name then none else old) cs

end Spasm.Spec
