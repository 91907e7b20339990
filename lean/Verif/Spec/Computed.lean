import Verif.Spec.Define
import Verif.Spec.Macro
import Verif.Spec.Message

/-
Specification vocabulary: definitions whose text is computed. A definition of a name that has a text already may refer to
that text; `eval(…)` and `concat(…)` compute texts; `#defcont` continues a text.
-/

namespace Spasm.Spec

/-- The text with every word `w` replaced by `f w`. Strings stay as they are; there is none at once behind another. -/
inductive Rewritten (f : List Nat → List Nat) : List Nat → List Nat → Prop
  | nil : Rewritten f [] []
  | char (c t t') : ¬ NameChar c → c ≠ 34 → Rewritten f t t' → Rewritten f (c :: t) (c :: t')
  | word (w t t') : w ≠ [] → (∀ c ∈ w, NameChar c) → (∀ c ∈ t.head?, ¬ NameChar c) → Rewritten f t t' → Rewritten f (w ++ t) (f w ++ t')
  | string (b t t') : StringBody b → t.head? ≠ some 34 → Rewritten f t t' → Rewritten f (34 :: b ++ 34 :: t) (34 :: b ++ 34 :: t')

/-- What becomes of a word when a name with the text `old` gets a new text: the name itself is replaced by the old text,
and a label by its value in decimal notation (no more than nine characters of it). -/
def replaced (s : S) (name old : List Nat) (w : List Nat) : List Nat :=
  if nameKey s w = nameKey s name then old
  else match labelOf s w with
    | some v => (decimal v).take 9
    | none => w

/-- The text has no word to replace: neither the name nor a label. -/
def Unmoved (s : S) (name text : List Nat) : Prop := ∀ w, Word text w → labelOf s w = none ∧ nameKey s w ≠ nameKey s name

/-- The values of labels are 32-bit numbers. -/
def SmallLabels (s : S) : Prop := ∀ w v, labelOf s w = some v → -2147483648 ≤ v ∧ v ≤ 2147483647

/-- The name has the text `old` and can be given the new text `text`, which becomes `out`. -/
structure Redefinable (s : S) (name old text out : List Nat) : Prop where
  nonempty : name ≠ []
  chars : ∀ c ∈ name, NameChar c
  noLabel : labelOf s name = none
  noArgument : argumentOf s name = none
  ours : ¬ Maintained s name
  apart : ∀ c ∈ text.head?, ¬ NameChar c ∧ c ≠ 40
  line : LineText text
  short : text.length ≤ 254
  plain : ¬ Computed text
  visible : ¬ Blanks text
  before : (defineOf s name).bind (fun d => d.contents) = some old
  settled : Unmoved s name old
  labels : SmallLabels s
  result : Rewritten (replaced s name old) text out

/-- A line `#defcont text`. -/
def ContLine (text l : List Nat) : Prop :=
  ∃ b w c b1, l = b ++ 35 :: (w ++ c :: (b1 ++ text)) ∧ Blanks b ∧ w.map upperCase = b! "DEFCONT" ∧ (c = 32 ∨ c = 9) ∧ Blanks b1 ∧ text ≠ [] ∧
    (∀ c ∈ text.head?, ¬ White c) ∧ ∀ c ∈ text, c ≠ 10 ∧ c ≠ 13

/-- From `s` to `s'` the text of the name became `text`; nothing else was changed. -/
structure NowContinues (name text : List Nat) (d : Define) (s s' : S) : Prop where
  this : defineOf s' name = some { d with contents := some text }
  others : ∀ other, nameKey s other ≠ nameKey s name → defineOf s' other = defineOf s other
  rest : s' = { s with defines := s'.defines }

/-- The definition `#define name f(args)` for one of the functions, up to the closing parenthesis. -/
def FunctionLine (fname name args l : List Nat) : Prop :=
  ∃ b w c b1 c1 b2 f b3, l = b ++ 35 :: (w ++ c :: (b1 ++ name ++ c1 :: (b2 ++ f ++ b3 ++ 40 :: (args ++ [41])))) ∧ Blanks b ∧
    w.map upperCase = b! "DEFINE" ∧ (c = 32 ∨ c = 9) ∧ Blanks b1 ∧ (c1 = 32 ∨ c1 = 9) ∧ Blanks b2 ∧ f.map upperCase = fname ∧ Blanks b3 ∧
    b3.length < 240

/-- The name can be given this computed text. If it has a text already, the new one does not mention it, nor any label. -/
structure Computable (s : S) (name text : List Nat) : Prop where
  nonempty : name ≠ []
  chars : ∀ c ∈ name, NameChar c
  noLabel : labelOf s name = none
  noArgument : argumentOf s name = none
  ours : ¬ Maintained s name
  again : (defineOf s name).bind (fun d => d.contents) ≠ none → Unmoved s name text

/-- From `s` to `s'` the name was given this text, without parameters, as the value of an expression; nothing else was
changed but two flags that every evaluation sets. -/
structure NowComputed (name text : List Nat) (s s' : S) : Prop where
  this : (defineOf s' name).bind Define.text = some text
  others : ∀ other, nameKey s other ≠ nameKey s name → defineOf s' other = defineOf s other
  rest : s' = { s with defines := s'.defines, lastDefine := s'.lastDefine, parseDepth := s'.parseDepth, fwdRef := s'.fwdRef }

/-- The operands of `concat(…)` make up the text: strings give their characters, names their texts, other expressions
their values in decimal notation, with nothing between them. -/
inductive Concat (s : S) (depth : Nat) : List (List Nat) → List Nat → Prop
  | nil : Concat s depth [] []
  | string (body cs args m) : Chars body cs → Concat s depth args m → Concat s depth ((34 :: body ++ [34]) :: args) (cs ++ m)
  | text (w x args m) : visibleText s w = some x → w.head? ≠ some 34 → (∀ c ∈ x, c ≠ 34 ∧ c ≠ 92 ∧ c ≠ 0) → Concat s depth args m → Concat s depth (w :: args) (x ++ m)
  | number (d t v args m) : argumentOf s t = none → defineOf s t = none → t.head? ≠ some 34 → Denotes (toI32 s.pc) (visibleLabel s) (visibleText s) d t v → d < depth →
      -2147483648 ≤ v → v ≤ 2147483647 → Concat s depth args m → Concat s depth (t :: args) (decimal v ++ m)

end Spasm.Spec
