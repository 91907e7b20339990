import Verif.Spec.Names
import Verif.Spec.Split
import Verif.Spec.Data

/-
Specification vocabulary: macros with parameters, and what a call passes to them.
-/

namespace Spasm.Spec

/-- The name is one of the parameters. -/
def IsParam (s : S) (params : List (List Nat)) (w : List Nat) : Prop := nameKey s w ∈ params.map (nameKey s)

instance (s : S) (params : List (List Nat)) (w : List Nat) : Decidable (IsParam s params w) := by unfold IsParam; infer_instance

/-- The labels with names other than the parameters. -/
def outerLabel (s : S) (params : List (List Nat)) (w : List Nat) : Option Int :=
  if IsParam s params w then none else visibleLabel s w

/-- The texts with names other than the parameters. -/
def outerText (s : S) (params : List (List Nat)) (w : List Nat) : Option (List Nat) :=
  if IsParam s params w then none else visibleText s w

/-- The arguments of a call with their values, in the order of the parameters: each is as `R` says, which may depend on the
parameters `done` in front of its own. -/
inductive InOrder (R : List (List Nat) → List Nat → Option Int → Prop) :
    List (List Nat) → List (List Nat) → List (List Nat) → List (Option Int) → Prop
  | nil (done) : InOrder R done [] [] []
  | cons (done p ps a as v vs) : R done a v → InOrder R (p :: done) ps as vs → InOrder R done (p :: ps) (a :: as) (v :: vs)

/-- What an argument is: an expression with a value, or (`none`) a name that means nothing yet. The names `params` (the parameters
in front of its own) do not occur. The value of an expression is a 32-bit number other than the smallest; it is nested less than `depth`
deep. -/
def ArgValue (s : S) (params : List (List Nat)) (depth : Nat) (a : List Nat) : Option Int → Prop
  | some v => ∃ d, d < depth ∧ Denotes (toI32 s.pc) (outerLabel s params) (outerText s params) d a v ∧ -2147483648 < v ∧ v ≤ 2147483647
  | none => Name a ∧ ¬ IsParam s params a ∧ argumentOf s a = none ∧ labelOf s a = none ∧ defineOf s a = none

/-- The hexadecimal digits of a number, with capital letters and without zeros in front. -/
def hexDigits (n : Nat) : List Nat := (if n < 16 then [] else hexDigits (n / 16)) ++ [if n % 16 < 10 then 48 + n % 16 else 55 + n % 16]

/-- A number in an expression: a minus sign if it is negative, `$` and the hexadecimal digits. -/
def numberText (v : Int) : List Nat := (if v < 0 then [45] else []) ++ 36 :: hexDigits v.natAbs

/-- The text is the number. -/
def NumberText (v : Int) (x : List Nat) : Prop := x = numberText v

/-- The text a parameter stands for: its value, written as a number, or the name that was passed. -/
def ArgText (a : List Nat) (v : Option Int) (x : List Nat) : Prop :=
  match v with
  | some v => NumberText v x
  | none => x = a

/-- The parameters of a call: each has the text of its argument, and nothing else is bound. -/
structure Bindings (s : S) (params args : List (List Nat)) (vs : List (Option Int)) (set : List (List Nat × Define)) : Prop where
  bound : ∀ p a v, (p, a, v) ∈ params.zip (args.zip vs) → ∃ df x,
    (set.find? (fun q => decide (q.1 = nameKey s p))).map (·.2) = some df ∧ df.args = [] ∧ df.contents = some x ∧ ArgText a v x
  others : ∀ w, ¬ IsParam s params w → (set.find? (fun q => decide (q.1 = nameKey s w))).map (·.2) = none

/-- A list of parameters: different names, none of them starting with `@` or maintained by the program. -/
structure Parameters (s : S) (params : List (List Nat)) : Prop where
  different : (params.map (nameKey s)).Nodup
  plain : ∀ p ∈ params, p.head? ≠ some 64
  fixed : ∀ p ∈ params, ¬ Maintained s p

/-- The name of a macro or text in statement position: not a mnemonic, not one of the built-in statements `buf`, `clr`,
`wr` and `run` or the beginning of one (`C55_prefix_of_built_in` shows that the program takes `r(1)` for `run(1)`), and
defined as `df`. The mnemonics of the instruction table consist of letters and digits. -/
structure MacroName (s : S) (name : List Nat) (df : Define) : Prop where
  proper : Name name
  defined : defineOf s name = some df
  noArgument : argumentOf s name = none
  fixed : ¬ Maintained s name
  table : ∀ o ∈ s.opcodes, ∀ c ∈ o.name, Alnum c
  noMnemonic : ∀ o ∈ s.opcodes, o.name.map upperCase ≠ name.map upperCase
  noSuffix : s.mode.ez80 = true → 46 ∉ name
  notBuiltIn : ∀ w ∈ [b! "BUF", b! "CLR", b! "WR", b! "RUN"], ¬ name.map upperCase <+: w

/-- The state in which the body of a macro is assembled: the parameters are bound (`sets` is empty for a call without
parentheses), the place is that of the definition, and a new session of messages is open. -/
def inside (s : S) (df : Define) (sets : List (List (List Nat × Define))) : S :=
  { s with session := s.session + 1, inMacro := s.inMacro + 1, argSets := sets ++ s.argSets, currFile := df.file, lineNum := df.line }

/-- Back at the call: what the body `s'` did, without the parameters (`n` sets of them) and at the place of the call. The
messages of the body are now those of the call. -/
def returned (n : Nat) (s s' : S) : S :=
  { s' with
    session := s'.session - 1
    inMacro := s'.inMacro - 1
    argSets := s'.argSets.drop n
    currFile := s.currFile
    lineNum := s.lineNum
    errors := s'.errors.map (fun e => if e.sess = s'.session then { e with sess := e.sess - 1 } else e) }

/-- The body added messages of its own session only. -/
def OwnMessages (s s' : S) : Prop :=
  s'.session = s.session + 1 ∧ ∃ own, s'.errors = own ++ s.errors ∧ ∀ e ∈ own, e.sess = s.session + 1

/-- The labels as the body of a macro sees them: parameters are labels with the values of their arguments. -/
def bodyLabel (s : S) (params : List (List Nat)) (vs : List (Option Int)) (w : List Nat) : Option Int :=
  if IsParam s params w then ((params.zip vs).find? (fun p => decide (nameKey s p.1 = nameKey s w))).bind (·.2) else visibleLabel s w

/-- Lines of data directives at address `pc`, which stand for the bytes. -/
inductive DataLines (ez80 : Bool) (label : List Nat → Option Int) (text : List Nat → Option (List Nat)) (depth : Nat) :
    Nat → List Nat → List Nat → Prop
  | nil (pc) : DataLines ez80 label text depth pc [] []
  | line (pc b name n c args t bs rest bs') : Blanks b → (name, n) ∈ dataDirectives → (c = 32 ∨ c = 9) → Joined args t →
      Data ez80 label text depth n pc args bs [] → DataLines ez80 label text depth (pc + bs.length) rest bs' →
      DataLines ez80 label text depth pc (b ++ name ++ c :: t ++ [10] ++ rest) (bs ++ bs')

end Spasm.Spec
