import Mathlib.Data.List.Forall2
import Verif.Spec.Calls
import Verif.Spec.Cond
import Verif.Spec.Define
import Verif.Spec.Files
import Verif.Spec.FunctionDef
import Verif.Spec.Ignored
import Verif.Spec.Macro
import Verif.Spec.MacroDef
import Verif.Spec.Named

/-
Specification vocabulary: whole programs of labels, equates, instructions, data, origins, defines, macros, conditional groups
and included files, with what they stand for. All expressions are read with the final addresses of the labels, whether the
label stands before or after the expression. These definitions do not use any function of the model.
-/

namespace Spasm.Spec

/-- The names of the predefined symbols. -/
def predefinedNames : List (List Nat) :=
  [b! "SPASM", b! "SPASMVER", b! "__LINE", b! "__FILE", b! "TRUE", b! "FALSE", b! "__BM_SHD", b! "__BM_MSK_RGB", b! "RGB", b! "GETC"]

/-- Names with values. -/
abbrev Defs := List (List Nat × Int)

/-- Names with the parameters and texts given to them, the latest first; `none` stands for the removal of the text. A text
without parameters is what `#define` gives to a name, one with parameters is a function; with or without parameters it can be the
lines of a macro. -/
abbrev Texts := List (List Nat × Option (List (List Nat) × List Nat))

/-- What is fixed while a program is assembled: the processor, the instruction table, whether the case of names matters,
the final values of the labels, all names that have a text at some point, those of them that are parameters of macros, the
texts that names have at the beginning, how deep expressions may be nested, the files, the directories in which included
files are looked for, and whether the statistics are asked for, in which the bytes of imported files are missing. -/
structure Setting where
  ez80 : Bool
  opcodes : List Opcode
  caseSens : Bool
  label : List Nat → Option Int
  defined : List (List Nat)
  params : List (List Nat)
  start : Texts
  depth : Nat
  fs : List Nat → Option (List Nat)
  dirs : List (List Nat)
  stats : Bool

/-- The form of a name that decides which label it means. -/
def Setting.key (g : Setting) (name : List Nat) : List Nat := if g.caseSens then name else name.map upperCase

/-- The value of a name in a list of definitions. -/
def Setting.find (g : Setting) (defs : Defs) (name : List Nat) : Option Int :=
  (defs.find? (fun p => decide (g.key p.1 = g.key name))).map (·.2)

/-- The parameters and the text of a name in a list of texts. -/
def Setting.meaning (g : Setting) (tx : Texts) (name : List Nat) : Option (List (List Nat) × List Nat) :=
  (tx.find? (fun p => decide (g.key p.1 = g.key name))).bind (·.2)

/-- The text of a name that has no parameters. -/
def Setting.text (g : Setting) (tx : Texts) (name : List Nat) : Option (List Nat) :=
  (g.meaning tx name).bind (fun m => if m.1 = [] then some m.2 else none)

/-- What the names in an expression at address `pc` stand for, where the labels `known` have been defined and names have the
texts `tx`. Functions are the names with parameters; a parameter of a macro is none. -/
def Setting.scope (g : Setting) (known : Defs) (tx : Texts) (pc : Nat) : Scope :=
  { pc := asInt32 pc, key := g.key, label := g.find known, text := g.text tx, func := fun w => if g.key w ∈ g.params then none else g.meaning tx w }

/-- The value of an expression at address `pc`, where the labels `known` have been defined and names have the texts `tx`; in the
second case with calls of functions. -/
inductive Worth (g : Setting) (known : Defs) (tx : Texts) (pc : Nat) (t : List Nat) (v : Int) : Prop
  | plain (d) : Denotes (asInt32 pc) (g.find known) (g.text tx) d t v → d < g.depth → Worth g known tx pc t v
  | calls (d) : FunDenotes (g.scope known tx pc) d t v → d + 2 < g.depth → Worth g known tx pc t v

/-- An expression in which no constant contains the name of a symbol: the word behind `$`, a quote or a backslash is
neither a label nor a define. There are no string quotes in it. -/
def Unambiguous (g : Setting) (t : List Nat) : Prop :=
  34 ∉ t ∧ ∀ a c w b, t = a ++ c :: (w ++ b) → (c = 36 ∨ c = 39 ∨ c = 92) → w ≠ [] → (∀ x ∈ w, NameChar x) →
    (∀ x ∈ b.head?, ¬ NameChar x) → g.label w = none ∧ g.key w ∉ predefinedNames ∧ g.key w ∉ g.defined

/-- A mnemonic is followed by `u`: nothing, or on an eZ80 a suffix; an eZ80 is in ADL mode. -/
def SuffixFor (ez80 : Bool) (u pre : List Nat) (long : Bool) : Prop :=
  (u = [] ∧ pre = [] ∧ long = ez80) ∨ (ez80 = true ∧ ∃ x ∈ suffixes true, SameText u x.1 ∧ pre = [x.2.1] ∧ long = x.2.2)

/-- The operands of a directive for data of `n` bytes at address `pc`, and the bytes they stand for. A number is an
expression of labels that are already known, names that have a text and calls of functions, or an expression of any labels; it needs no
truncation. A name whose text is a list of operands stands for these; labels in them must be known. -/
inductive Items (g : Setting) (known : Defs) (tx : Texts) (n : Nat) : Nat → List (List Nat) → List Nat → Prop
  | nil (pc) : Items g known tx n pc [] []
  | now (pc t v args bs) : Worth g known tx pc t v → truncation g.ez80 n v = [] →
      Items g known tx n (pc + n) args bs → Items g known tx n pc (t :: args) (littleEndian n v ++ bs)
  | later (pc d t v args bs) : Denotes (asInt32 pc) g.label (fun _ => none) d t v → Unambiguous g t → d < g.depth → truncation g.ez80 n v = [] →
      Items g known tx n (pc + n) args bs → Items g known tx n pc (t :: args) (littleEndian n v ++ bs)
  | string (pc body cs args bs) : Chars body cs → Items g known tx n (pc + cs.length) args bs →
      Items g known tx n pc ((34 :: body ++ [34]) :: args) (cs ++ bs)
  | named (pc nest depth t bs' args bs) : Name t → Listed g.ez80 (g.find known) (g.text tx) depth n nest pc [t] bs' [] → nest + depth + 1 < g.depth →
      Items g known tx n (pc + bs'.length) args bs → Items g known tx n pc (t :: args) (bs' ++ bs)

/-- What a statement does, apart from defining a label. In `Action g known tx pc t bs pc'`, the text `t` stands at address
`pc`, where the labels `known` have been defined and names have the texts `tx`; it stands for the bytes `bs`, and the next
address is `pc'`.

An instruction is the first entry of its mnemonic that the operands fit; its operands have values that need no
truncation and are not in parentheses. They are expressions of labels that are already known, names that have a text and calls of functions;
or, unless the instruction is a restart, expressions of any labels. An origin and the operands of a fill can use only labels
that are already known. -/
inductive Action (g : Setting) (known : Defs) (tx : Texts) (pc : Nat) : List Nat → List Nat → Nat → Prop
  | empty (b) : Blanks b → Action g known tx pc b [] pc
  | data (b name n c args t bs) : Blanks b → (name, n) ∈ dataDirectives → (c = 32 ∨ c = 9) → Joined args t →
      Items g known tx n pc args bs → Action g known tx pc (b ++ name ++ c :: t) bs (pc + bs.length)
  | code (b m u bl text pre long i ops vs bs) : b ≠ [] → Blanks b → Mnemonic m → SuffixFor g.ez80 u pre long → Blanks bl →
      (∀ c ∈ (bl ++ text).head?, ¬ NameChar c) → (∀ c ∈ text.head?, ¬ White c) →
      (∀ j ∈ entriesOf m g.opcodes, Regular j.args ∧ Readable j.args text) → FirstFit (entriesOf m g.opcodes) text i ops → Writable i →
      (∀ o ∈ ops, Wrapped o = false) →
      (ValuesBy (Worth g known tx pc) i.args ops vs ∨
        (Values (asInt32 pc) g.label (fun _ => none) g.depth i.args ops vs ∧ 35 ∉ i.args ∧ ∀ o ∈ ops, Unambiguous g o)) →
      codeBytes g.ez80 long pc (pre.length + encodedLength long i : Nat) i vs = some bs → operandWarnings g.ez80 long i.args vs = [] →
      Action g known tx pc (b ++ m ++ u ++ bl ++ text) (pre ++ bs) (pc + (pre ++ bs).length)
  | org (b name c b1 t b2) (v : Nat) : Blanks b → name ∈ [b! ".org", b! ".ORG"] → (c = 32 ∨ c = 9) → Blanks b1 → Blanks b2 → (t ++ b2).length ≤ 254 →
      Worth g known tx pc t v → Action g known tx pc (b ++ name ++ c :: (b1 ++ t ++ b2)) [] v
  | fill (b name c b1 t b2 second) (size : Nat) (v : Int) : Blanks b → name ∈ [b! ".fill", b! ".FILL", b! ".block", b! ".BLOCK"] → (c = 32 ∨ c = 9) →
      Blanks b1 → Blanks b2 → (t ++ b2).length ≤ 254 → Worth g known tx pc t size →
      ((second = [] ∧ v = 0) ∨ ∃ b3 t' b4, second = 44 :: b3 ++ t' ++ b4 ∧ Blanks b3 ∧ Blanks b4 ∧ (t' ++ b4).length ≤ 254 ∧
        Worth g known tx pc t' v) → -128 ≤ v ∧ v ≤ 255 →
      Action g known tx pc (b ++ name ++ c :: (b1 ++ t ++ b2 ++ second)) (List.replicate size (v % 256).toNat) (pc + size)

/-- What may follow a label: a colon, or a text that does not continue the name. -/
def LabelSep (sep t : List Nat) : Prop := sep = [58] ∨ (sep = [] ∧ ∀ c ∈ t.head?, ¬ NameChar c ∧ c ≠ 40 ∧ c ≠ 58)

/-- A statement with the labels it defines: none, one with the address of the statement, or an equate. In an equate the
name itself stands for the address, and other labels must be known. -/
inductive Stmt (g : Setting) (known : Defs) (tx : Texts) (pc : Nat) : List Nat → Defs → List Nat → Nat → Prop
  | plain (t bs pc') : Action g known tx pc t bs pc' → Stmt g known tx pc t [] bs pc'
  | label (name sep t bs pc') : Name name → LabelSep sep t → Action g ((name, (pc : Int)) :: known) tx pc t bs pc' →
      Stmt g known tx pc (name ++ sep ++ t) [(name, (pc : Int))] bs pc'
  | equ (name sep b dir c b1 t b2 v) : Name name → LabelSep sep (b ++ dir ++ c :: (b1 ++ t ++ b2)) → Blanks b → dir ∈ [b! ".equ", b! ".EQU"] →
      (c = 32 ∨ c = 9) → Blanks b1 → Blanks b2 → (t ++ b2).length ≤ 254 →
      Worth g ((name, (pc : Int)) :: known) tx pc t v →
      Stmt g known tx pc (name ++ sep ++ (b ++ dir ++ c :: (b1 ++ t ++ b2))) [(name, v)] [] pc
  | assign (name sep b b1 t b2 v) : Name name → LabelSep sep (b ++ 61 :: (b1 ++ t ++ b2)) → Blanks b → Blanks b1 → Blanks b2 → (t ++ b2).length ≤ 254 →
      Worth g ((name, (pc : Int)) :: known) tx pc t v →
      Stmt g known tx pc (name ++ sep ++ (b ++ 61 :: (b1 ++ t ++ b2))) [(name, v)] [] pc

/-- The statements of a line, separated by backslashes. Definitions are listed with the latest first; addresses stay
below 2^24. -/
inductive Line (g : Setting) (tx : Texts) : Defs → Nat → List Nat → Defs → List Nat → Nat → Prop
  | one (known pc t new bs pc') : Stmt g known tx pc t new bs pc' → pc' < 16777216 → Line g tx known pc t new bs pc'
  | more (known pc t new bs pc' l new' bs' pc'') : Stmt g known tx pc t new bs pc' → pc' < 16777216 → Line g tx (new ++ known) pc' l new' bs' pc'' →
      Line g tx known pc (t ++ 92 :: l) (new' ++ new) (bs ++ bs') pc''

/-- The truth value of a condition at address `pc`, where the labels `known` have been defined and names have the texts `tx`:
an expression of these, or whether a name has a text. A label has none. -/
inductive Condition (g : Setting) (known : Defs) (tx : Texts) (pc : Nat) : List Nat → List Nat → Bool → Prop
  | value (word t b v) : word ∈ [b! "#if", b! "#elif"] → Worth g known tx pc t v → Blanks b →
      Condition g known tx pc word (t ++ b) (decide (v ≠ 0))
  | ifdef (name b) : Name name → g.key name ∉ predefinedNames → Blanks b →
      Condition g known tx pc (b! "#ifdef") (name ++ b) (g.meaning tx name).isSome
  | ifndef (name b) : Name name → g.key name ∉ predefinedNames → Blanks b →
      Condition g known tx pc (b! "#ifndef") (name ++ b) (g.meaning tx name).isNone

/-- `#define name text`, where names have the texts `tx` and the labels `known` have been defined: a name that is neither
predefined nor a parameter, and behind it a text on the line, no parameters, not longer than 254 characters and not computed by a function.
If the name has a text already, the new one mentions neither the name nor any label. -/
structure Defines (g : Setting) (known : Defs) (tx : Texts) (name text : List Nat) : Prop where
  named : Name name
  ours : g.key name ∉ predefinedNames
  free : g.key name ∉ g.params
  listed : g.key name ∈ g.defined
  apart : ∀ c ∈ text.head?, ¬ NameChar c ∧ c ≠ 40
  line : LineText text
  short : text.length ≤ 254
  plain : ¬ Computed text
  again : g.meaning tx name ≠ none → ∀ w, Word text w → g.find known w = none ∧ g.key w ≠ g.key name

/-- `#define name(params) text`: the same for a function with at most 16 different parameters; its text may be of any length. -/
structure DefinesFunction (g : Setting) (known : Defs) (tx : Texts) (name : List Nat) (params : List (List Nat)) (text : List Nat) : Prop where
  named : Name name
  ours : g.key name ∉ predefinedNames
  free : g.key name ∉ g.params
  listed : g.key name ∈ g.defined
  different : (params.map g.key).Nodup
  few : params.length ≤ 16
  nonempty : text ≠ []
  line : LineText text
  again : g.meaning tx name ≠ none → ∀ w, Word text w → g.find known w = none ∧ g.key w ≠ g.key name

/-- The statement `#include "file"`. -/
def Includes (file l : List Nat) : Prop :=
  ∃ b w c b1 b2, l = b ++ 35 :: (w ++ c :: (b1 ++ (34 :: file ++ [34]) ++ b2)) ∧ Blanks b ∧ w.map upperCase = b! "INCLUDE" ∧
    (c = 32 ∨ c = 9) ∧ Blanks b1 ∧ Blanks b2 ∧ StringBody file ∧ (∀ c ∈ file, c ≠ 34 ∧ c ≠ 10 ∧ c ≠ 13 ∧ c ≠ 59) ∧
    (34 :: file ++ [34] ++ b2).length ≤ 254

/-- The statement `#import "file"`. -/
def Imports (file l : List Nat) : Prop :=
  ∃ b w c b1 b2, l = b ++ 35 :: (w ++ c :: (b1 ++ (34 :: file ++ [34]) ++ b2)) ∧ Blanks b ∧ w.map upperCase = b! "IMPORT" ∧
    (c = 32 ∨ c = 9) ∧ Blanks b1 ∧ Blanks b2 ∧ StringBody file ∧ (∀ c ∈ file, c ≠ 34 ∧ c ≠ 10 ∧ c ≠ 13 ∧ c ≠ 59) ∧
    (34 :: file ++ [34] ++ b2).length ≤ 254

/-- The text of a source file with these bytes, with or without a byte order mark. A text has no zero bytes and is not
empty. -/
def TextOf (bytes text : List Nat) : Prop :=
  0 ∉ text ∧ ((bytes = text ∧ text ≠ [] ∧ text.head? ≠ some 0xEF) ∨ bytes = 0xEF :: 0xBB :: 0xBF :: text)

/-- The definition of a macro with these parameters: at most 16, which are different, and a name that is neither predefined nor
a parameter of any macro. -/
structure MakesMacro (g : Setting) (name : List Nat) (params : List (List Nat)) : Prop where
  named : Name name
  ours : g.key name ∉ predefinedNames
  free : g.key name ∉ g.params
  listed : g.key name ∈ g.defined
  different : (params.map g.key).Nodup
  few : params.length ≤ 16

/-- The name of a macro that can be called in this way: not a mnemonic, and not `buf`, `clr`, `wr` or `run` or the beginning
of one of these. The parameters are different names that are not predefined. -/
structure Callable (g : Setting) (name : List Nat) (params : List (List Nat)) : Prop where
  named : Name name
  ours : g.key name ∉ predefinedNames
  free : g.key name ∉ g.params
  noMnemonic : ∀ o ∈ g.opcodes, o.name.map upperCase ≠ name.map upperCase
  noSuffix : g.ez80 = true → 46 ∉ name
  notBuiltIn : ∀ w ∈ [b! "BUF", b! "CLR", b! "WR", b! "RUN"], ¬ name.map upperCase <+: w
  different : (params.map g.key).Nodup
  params : ∀ p ∈ params, Name p ∧ g.key p ∈ g.params

/-- An argument of a call at address `pc`, where the labels `known` have been defined and names have the texts `tx`: an
expression with a value, which is not the smallest of the 32-bit numbers; the same with calls of functions; or (`none`) a name that means
nothing yet. The names `params` (the parameters in front of its own) do not occur. -/
inductive CallArg (g : Setting) (known : Defs) (tx : Texts) (pc : Nat) (params : List (List Nat)) : List Nat → Option Int → Prop
  | value (d a v) : Denotes (asInt32 pc) (g.find known) (fun w => if g.key w ∈ params.map g.key then none else g.text tx w) d a v → d < g.depth →
      -2147483648 < v ∧ v ≤ 2147483647 → CallArg g known tx pc params a (some v)
  | calls (d a v) : FunDenotes ((g.scope known tx pc).without params) d a v → d + 2 < g.depth → -2147483648 < v ∧ v ≤ 2147483647 →
      CallArg g known tx pc params a (some v)
  | name (a) : Name a → g.key a ∉ params.map g.key → g.key a ∉ predefinedNames → g.find known a = none → g.meaning tx a = none →
      CallArg g known tx pc params a none

/-- What the parameters stand for in the macro: the values of the arguments, written as numbers, and the unknown names. -/
def passedTexts (params args : List (List Nat)) (vs : List (Option Int)) : Texts :=
  (params.zip (args.zip vs)).map fun q => (q.1, some ([], match q.2.2 with
    | some v => numberText v
    | none => q.2.1))

/-- A call with these arguments: in parentheses, separated by commas; or without parentheses and arguments, behind a blank. -/
inductive CallText (name : List Nat) : List (List Nat) → List Nat → Prop
  | args (b args u) : Blanks b → Joined args u → CallText name args (b ++ name ++ [40] ++ u ++ [41])
  | none (b) : b ≠ [] → Blanks b → CallText name [] (b ++ name)

mutual
/-- A statement as above, or a call of a macro, which counts as the program in the lines of the macro; with any number of labels in
front of it, which have the address of the statement. The last arguments are the address and the texts behind it. The lines of a
macro are read with a blank in front of the first one, and with its parameters as texts; texts that are defined in them remain, and
the parameters do not. -/
inductive Clause (g : Setting) : Defs → Texts → Nat → List Nat → Defs → List Nat → Nat → Texts → Prop
  | stmt (known tx pc t new bs pc') : Stmt g known tx pc t new bs pc' → pc' < 16777216 → Clause g known tx pc t new bs pc' tx
  | call (known tx pc name params body args l vs b new bs pc' added) : g.meaning tx name = some (params, body) →
      Callable g name params → CallText name args l → InOrder (CallArg g known tx pc) [] params args vs → Blanks b →
      Program g known (passedTexts params args vs ++ tx) pc (32 :: body) new bs pc' (added ++ (passedTexts params args vs ++ tx)) →
      Clause g known tx pc (l ++ b) new bs pc' (added ++ tx)
  | labelled (known tx) (pc : Nat) (name sep t new bs pc' tx') : Name name → LabelSep sep t → Clause g ((name, (pc : Int)) :: known) tx pc t new bs pc' tx' →
      Clause g known tx pc (name ++ sep ++ t) (new ++ [(name, (pc : Int))]) bs pc' tx'

/-- The statements and calls of a line, separated by backslashes. -/
inductive Row (g : Setting) : Defs → Texts → Nat → List Nat → Defs → List Nat → Nat → Texts → Prop
  | one (known tx pc t new bs pc' tx') : Clause g known tx pc t new bs pc' tx' → Row g known tx pc t new bs pc' tx'
  | more (known tx pc t new bs pc' tx' l new' bs' pc'' tx'') : Clause g known tx pc t new bs pc' tx' → Row g (new ++ known) tx' pc' l new' bs' pc'' tx'' →
      Row g known tx pc (t ++ 92 :: l) (new' ++ new) (bs ++ bs') pc'' tx''

/-- Whole lines, each followed by a comment or not and the end of the line: statements and calls, lines without effect, block comments,
defines, functions and their removal, inclusions of other files, which count as the program in the file, definitions of macros, and conditional
groups, of which the chosen branch counts and everything else may be any text. An included file does not start with `BM`: such files
are taken for pictures. -/
inductive Block (g : Setting) : Defs → Texts → Nat → List Nat → Defs → List Nat → Nat → Texts → Prop
  | nil (known tx pc) : Block g known tx pc [] [] [] pc tx
  | line (known tx pc l com nl new bs pc' tx' t new' bs' pc'' tx'') : Row g known tx pc l new bs pc' tx' → Comment com → NewLine nl →
      Block g (new ++ known) tx' pc' t new' bs' pc'' tx'' → Block g known tx pc (l ++ com ++ nl ++ t) (new' ++ new) (bs ++ bs') pc'' tx''
  | ignored (known tx pc l t new bs pc' tx') : MarkerLine l ∨ BlockComment l → Block g known tx pc t new bs pc' tx' →
      Block g known tx pc (l ++ t) new bs pc' tx'
  | define (known tx pc name text l com nl t new bs pc' tx') : Defines g known tx name text → Written (b! "DEFINE") name text [] l →
      Comment com → NewLine nl → Block g known ((name, some ([], given text)) :: tx) pc t new bs pc' tx' →
      Block g known tx pc (l ++ com ++ nl ++ t) new bs pc' tx'
  | func (known tx pc name params text l com nl t new bs pc' tx') : DefinesFunction g known tx name params text →
      FunctionWritten name params text [] l → Comment com → NewLine nl → Block g known ((name, some (params, text)) :: tx) pc t new bs pc' tx' →
      Block g known tx pc (l ++ com ++ nl ++ t) new bs pc' tx'
  | undef (known tx pc word name l b com nl t new bs pc' tx') : Name name → g.key name ∉ predefinedNames → g.key name ∉ g.params →
      word ∈ [b! "UNDEF", b! "UNDEFINE"] → Written word name [] [] l → Blanks b → Comment com → NewLine nl →
      Block g known ((name, none) :: tx) pc t new bs pc' tx' → Block g known tx pc (l ++ b ++ com ++ nl ++ t) new bs pc' tx'
  | incl (known tx pc file l com nl bytes text new bs pc' tx' t new' bs' pc'' tx'') : Includes file l → Comment com → NewLine nl →
      Found g.fs g.dirs (slashes file) bytes → bytes.take 2 ≠ b! "BM" → TextOf bytes text → Program g known tx pc text new bs pc' tx' →
      Block g (new ++ known) tx' pc' t new' bs' pc'' tx'' →
      Block g known tx pc (l ++ com ++ nl ++ t) (new' ++ new) (bs ++ bs') pc'' tx''
  | import (known tx pc file l com nl bytes t new bs pc' tx') : g.stats = false → Imports file l → Comment com → NewLine nl →
      Found g.fs g.dirs (slashes file) bytes → (∀ x ∈ bytes, x < 256) → pc + bytes.length < 16777216 →
      Block g known tx (pc + bytes.length) t new bs pc' tx' → Block g known tx pc (l ++ com ++ nl ++ t) new (bytes ++ bs) pc' tx'
  | macro (known tx pc name params l body e com nl t new bs pc' tx') : MakesMacro g name params → MacroLine name params l → MacroBody body →
      EndMacro e → Comment com → NewLine nl → Block g known ((name, some (params, body)) :: tx) pc t new bs pc' tx' →
      Block g known tx pc (l ++ body ++ e ++ com ++ nl ++ t) new bs pc' tx'
  | group (known tx pc word c chosen new bs pc' tx' t new' bs' pc'' tx'') : Group (Condition g known tx pc) word c chosen → word ∈ openings →
      Block g known tx pc chosen new bs pc' tx' → Block g (new ++ known) tx' pc' t new' bs' pc'' tx'' →
      Block g known tx pc (c ++ t) (new' ++ new) (bs ++ bs') pc'' tx''

/-- A program: lines and groups, and possibly a last line without a line end. -/
inductive Program (g : Setting) : Defs → Texts → Nat → List Nat → Defs → List Nat → Nat → Texts → Prop
  | whole (known tx pc t new bs pc' tx') : Block g known tx pc t new bs pc' tx' → Program g known tx pc t new bs pc' tx'
  | ends (known tx pc t new bs pc' tx' l com new' bs' pc'' tx'') : Block g known tx pc t new bs pc' tx' →
      Row g (new ++ known) tx' pc' l new' bs' pc'' tx'' → Comment com →
      Program g known tx pc (t ++ (l ++ com)) (new' ++ new) (bs ++ bs') pc'' tx''
end

/-- A line of statements without calls. -/
theorem Line.row {g : Setting} {tx : Texts} {known : Defs} {pc : Nat} {l : List Nat} {new : Defs} {bs : List Nat} {pc' : Nat} (h : Line g tx known pc l new bs pc') :
    Row g known tx pc l new bs pc' tx := by
  induction h with
  | one known pc t new bs pc' h hp => exact .one _ _ _ _ _ _ _ _ (.stmt _ _ _ _ _ _ _ h hp)
  | more known pc t new bs pc' l new' bs' pc'' h hp hl ih => exact .more _ _ _ _ _ _ _ _ _ _ _ _ _ (.stmt _ _ _ _ _ _ _ h hp) ih

theorem Block.stmts {g : Setting} (known : Defs) (tx : Texts) (pc : Nat) (l com nl : List Nat) (new : Defs) (bs : List Nat) (pc' : Nat) (t : List Nat) (new' : Defs)
    (bs' : List Nat) (pc'' : Nat) (tx' : Texts) (h : Line g tx known pc l new bs pc') (hc : Comment com) (hn : NewLine nl)
    (ht : Block g (new ++ known) tx pc' t new' bs' pc'' tx') : Block g known tx pc (l ++ com ++ nl ++ t) (new' ++ new) (bs ++ bs') pc'' tx' :=
  .line _ _ _ _ _ _ _ _ _ _ _ _ _ _ _ h.row hc hn ht

/-- The text is a program with the final labels of the setting and stands for the bytes `bs`: every label is defined
once, under a name that is not predefined and never has a text, with a value of at most nine digits. Names of parameters are not
predefined and have no text outside of macros. -/
def Assembles (g : Setting) (text bs : List Nat) : Prop :=
  ∃ defs pc tx, Program g [] g.start 0 text defs bs pc tx ∧ g.label = g.find defs ∧ (defs.map (fun p => g.key p.1)).Nodup ∧
    (∀ p ∈ defs, g.key p.1 ∉ predefinedNames ∧ g.key p.1 ∉ g.defined ∧ 0 ≤ p.2 ∧ p.2 ≤ 999999999) ∧
    (∀ w ∈ g.params, w ∈ g.defined ∧ w ∉ predefinedNames) ∧
    ∀ p ∈ g.start, Name p.1 ∧ g.key p.1 ∉ predefinedNames ∧ g.key p.1 ∈ g.defined ∧ g.key p.1 ∉ g.params

/-- The statements `sts`, one after the other, with the labels they define, their bytes and the address behind them. -/
inductive Sequence (g : Setting) (tx : Texts) : Defs → Nat → List (List Nat) → Defs → List Nat → Prop
  | nil (known pc) : Sequence g tx known pc [] [] []
  | cons (known pc t new bs pc' sts new' bs') : Stmt g known tx pc t new bs pc' → pc' < 16777216 → Sequence g tx (new ++ known) pc' sts new' bs' →
      Sequence g tx known pc (t :: sts) (new' ++ new) (bs ++ bs')

/-- A way of writing statements in lines: behind each there is a backslash, or possibly a comment and the end of the line.
Behind the last statement of the text there may be nothing. -/
inductive Layout : List (List Nat) → List Nat → Prop
  | nil : Layout [] []
  | last (t com) : Comment com → Layout [t] (t ++ com)
  | backslash (t sts text) : Layout sts text → Layout (t :: sts) (t ++ 92 :: text)
  | newline (t com nl sts text) : Comment com → nl = [10] ∨ nl = [13, 10] → Layout sts text → Layout (t :: sts) (t ++ com ++ nl ++ text)

end Spasm.Spec
