import Verif.Spec.Data

/-
Specification vocabulary: messages. These definitions do not use any function of the model.
-/

namespace Spasm.Spec

/-- The decimal digits of a number. -/
def decimalDigits (n : Nat) : List Nat := if n < 10 then [48 + n] else decimalDigits (n / 10) ++ [48 + n % 10]

/-- A number in decimal notation. -/
def decimal (v : Int) : List Nat := (if v < 0 then [45] else []) ++ decimalDigits v.natAbs

/-- The operands `args` make up the message `m`: numbers are expressions and appear in decimal notation, strings as their
characters, with nothing between them. -/
inductive Message (pc : Int) (label : List Nat → Option Int) (text : List Nat → Option (List Nat)) (depth : Nat) : List (List Nat) → List Nat → Prop
  | nil : Message pc label text depth [] []
  | number (d t v args m) : Denotes pc label text d t v → d < depth → -2147483648 ≤ v → v ≤ 2147483647 → Message pc label text depth args m →
      Message pc label text depth (t :: args) (decimal v ++ m)
  | string (body cs args m) : Chars body cs → Message pc label text depth args m →
      Message pc label text depth ((34 :: body ++ [34]) :: args) (cs ++ m)

/-- A message as a string in source text, with a backslash before quotes and backslashes. -/
def quoted (m : List Nat) : List Nat := 34 :: m.flatMap (fun c => if c = 34 ∨ c = 92 then [92, c] else [c]) ++ [34]

/-- A file name without backslashes, leading blanks and drive letters. -/
def PlainPath (fn : List Nat) : Prop := 92 ∉ fn ∧ (∀ c ∈ fn.head?, ¬ White c) ∧ fn[1]? ≠ some 58

/-- The path of a file: names that start with `/` are absolute, others are relative to the directory. -/
def filePath (dir fn : List Nat) : List Nat := if fn.head? = some 47 then fn else dir ++ 47 :: fn

end Spasm.Spec
