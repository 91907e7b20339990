import Verif.Model.State
import Verif.Spec.Literal

/-
Specification of expressions: which texts are expressions and which number each stands for.
`Denotes pc label text depth t v` reads: `t` is an expression, nested `depth` deep, whose value is `v`, when the
program counter is `pc`, labels have the values given by `label` and defines the texts given by `text`. Parentheses
and the text of a define each nest one level deeper.
-/

namespace Spasm.Spec

/-- The binary operators. -/
inductive BinOp
  | add | sub | mul | div | mod | xor | bitand | bitor | shl | shr
  | land | lor | le | ge | lt | gt | eq | ne
  deriving DecidableEq, Repr

/-- How an operator may be written. -/
def BinOp.spelled : BinOp → List (List Nat)
  | .add => [b! "+"] | .sub => [b! "-"] | .mul => [b! "*"] | .div => [b! "/"] | .mod => [b! "%"]
  | .xor => [b! "^"] | .bitand => [b! "&"] | .bitor => [b! "|"] | .shl => [b! "<<"] | .shr => [b! ">>"]
  | .land => [b! "&&"] | .lor => [b! "||"] | .le => [b! "<="] | .ge => [b! ">="] | .lt => [b! "<"]
  | .gt => [b! ">"] | .eq => [b! "==", b! "="] | .ne => [b! "!="]

/-- A value that a 32-bit signed integer can hold. -/
def fits (v : Int) : Option Int := if -2147483648 ≤ v ∧ v ≤ 2147483647 then some v else none

/-- 1 for true, 0 for false. -/
def truth (p : Prop) [Decidable p] : Int := if p then 1 else 0

/-- 32-bit signed arithmetic as in C: none where C leaves the result undefined or the operation traps.
Shifting left discards the bits that do not fit. -/
def binary : BinOp → Int → Int → Option Int
  | .add, a, b => fits (a + b)
  | .sub, a, b => fits (a - b)
  | .mul, a, b => fits (a * b)
  | .div, a, b => if b = 0 then none else fits (a.tdiv b)
  | .mod, a, b => if b = 0 ∨ (a = -2147483648 ∧ b = -1) then none else fits (a.tmod b)
  | .xor, a, b => some (BitVec.ofInt 32 a ^^^ BitVec.ofInt 32 b).toInt
  | .bitand, a, b => some (BitVec.ofInt 32 a &&& BitVec.ofInt 32 b).toInt
  | .bitor, a, b => some (BitVec.ofInt 32 a ||| BitVec.ofInt 32 b).toInt
  | .shl, a, b => if 0 ≤ b ∧ b < 32 then some (BitVec.ofInt 32 (a * 2 ^ b.toNat)).toInt else none
  | .shr, a, b => if 0 ≤ b ∧ b < 32 then some (a / 2 ^ b.toNat) else none
  | .land, a, b => some (truth (a ≠ 0 ∧ b ≠ 0))
  | .lor, a, b => some (truth (a ≠ 0 ∨ b ≠ 0))
  | .le, a, b => some (truth (a ≤ b))
  | .ge, a, b => some (truth (a ≥ b))
  | .lt, a, b => some (truth (a < b))
  | .gt, a, b => some (truth (a > b))
  | .eq, a, b => some (truth (a = b))
  | .ne, a, b => some (truth (a ≠ b))

/-- White space inside a line. -/
def Blanks (s : List Nat) : Prop := ∀ c ∈ s, c = 32 ∨ c = 9 ∨ c = 11 ∨ c = 12

/-- A character that can be part of a name. -/
def NameChar (c : Nat) : Prop := Alnum c ∨ c = 95 ∨ c = 91 ∨ c = 93 ∨ c = 33 ∨ c = 63 ∨ c = 46

/-- A name: starts with a letter or underscore, is not the anonymous label. -/
def Name (t : List Nat) : Prop :=
  (∃ c r, t = c :: r ∧ (c = 95 ∨ (65 ≤ c ∧ c ≤ 90) ∨ (97 ≤ c ∧ c ≤ 122)) ∧ ∀ x ∈ r, NameChar x) ∧ t ≠ [95]

/-- The characters with an escape sequence and the codes they stand for. -/
def escapes : List (Nat × Int) :=
  [(110, 10), (78, 10), (114, 13), (82, 13), (116, 9), (84, 9), (48, 0), (92, 92), (39, 39), (34, 34)]

variable (pc : Int) (label : List Nat → Option Int) (text : List Nat → Option (List Nat))

/-- Numbers, `$`, character constants and labels. -/
inductive Atom : List Nat → Int → Prop
  | literal (base ds text) : Literal base ds text → (∀ c ∈ ds, IsDigit base c) → value base ds ≤ 4294967295 →
      Atom text (asInt32 (value base ds))
  | here : Atom [36] pc
  | char (c : Nat) : c ≠ 92 → 0 < c → c < 128 → Atom [39, c, 39] c
  | escape (c : Nat) (v : Int) : (c, v) ∈ escapes → Atom [39, 92, c, 39] v
  | label (t v) : Name t → label t = some v → Atom t v

mutual
/-- An operand: an atom, a parenthesised expression or the name of a text that is an expression. -/
inductive Operand : Nat → List Nat → Int → Prop
  | atom (t v) : Atom pc label t v → Operand 0 t v
  | paren (d b t b' v) : Blanks b → Blanks b' → Denotes d t v →
      Operand (d + 1) ([40] ++ b ++ t ++ b' ++ [41]) v
  | named (d t b e b' v) : Name t → text t = some (b ++ e ++ b') → Blanks b → Blanks b' → Denotes d e v →
      Operand (d + 1) t v

/-- An operand with at most one of the prefixes `-`, `+`, `~`. -/
inductive Prefixed : Nat → List Nat → Int → Prop
  | plain (d t v) : Operand d t v → Prefixed d t v
  | plus (d b t v) : Blanks b → Operand d t v → Prefixed d ([43] ++ b ++ t) v
  | minus (d b t v) : Blanks b → Operand d t v → v ≠ -2147483648 →
      Prefixed d ([45] ++ b ++ t) (-v)
  | invert (d b t v) : Blanks b → Operand d t v → Prefixed d ([126] ++ b ++ t) (-v - 1)

/-- An expression: operands joined by operators, evaluated strictly from left to right. The characters
`!=` are read as an operator only after white space or a closing parenthesis, because `!` may be part of a
name. -/
inductive Denotes : Nat → List Nat → Int → Prop
  | one (d t v) : Prefixed d t v → Denotes d t v
  | join (d₁ t₁ v₁ b op optext b' d₂ t₂ v₂ v) : Denotes d₁ t₁ v₁ → Blanks b → Blanks b' →
      optext ∈ BinOp.spelled op → (op = .ne → b ≠ [] ∨ t₁.getLast? = some 41) →
      Prefixed d₂ t₂ v₂ → binary op v₁ v₂ = some v →
      Denotes (max d₁ d₂) (t₁ ++ b ++ optext ++ b' ++ t₂) v
end

end Spasm.Spec
