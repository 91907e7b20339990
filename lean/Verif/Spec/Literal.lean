/-
Specification vocabulary: what a numeric literal is and which number it stands for.
-/

namespace Spasm.Spec

/-- The value of a digit character: 0-9, A-F, a-f. -/
def digit (c : Nat) : Option Nat :=
  if 48 ≤ c ∧ c ≤ 57 then some (c - 48)
  else if 65 ≤ c ∧ c ≤ 70 then some (c - 65 + 10)
  else if 97 ≤ c ∧ c ≤ 102 then some (c - 97 + 10)
  else none

/-- `c` is a digit of the base. -/
def IsDigit (base c : Nat) : Prop := ∃ d, digit c = some d ∧ d < base

/-- The positional value of a digit string, most significant digit first. -/
def value (base : Nat) : List Nat → Nat
  | [] => 0
  | c :: t => (digit c).getD 0 * base ^ t.length + value base t

/-- A letter or a decimal digit. -/
def Alnum (c : Nat) : Prop := (48 ≤ c ∧ c ≤ 57) ∨ (65 ≤ c ∧ c ≤ 90) ∨ (97 ≤ c ∧ c ≤ 122)

/-- `text` is written like a literal of the base with the digits `ds` (which may still be wrong
digits): `$ds`, `dsh`, `%ds`, `dsb`, `ds`, `dsd`; letters of either case. A literal without a prefix starts with
a decimal digit, and one without prefix and suffix does not end in a suffix letter. -/
def Literal (base : Nat) (ds text : List Nat) : Prop :=
  ds ≠ [] ∧ (∀ c ∈ ds, Alnum c) ∧
  ((base = 16 ∧ text = 36 :: ds ∧ IsDigit 16 (ds.headD 0)) ∨
   (base = 2 ∧ text = 37 :: ds) ∨
   (IsDigit 10 (ds.headD 0) ∧
     ((base = 16 ∧ (text = ds ++ [104] ∨ text = ds ++ [72])) ∨
      (base = 2 ∧ (text = ds ++ [98] ∨ text = ds ++ [66])) ∨
      (base = 10 ∧ (text = ds ++ [100] ∨ text = ds ++ [68])) ∨
      (base = 10 ∧ text = ds ∧ ds.getLastD 0 ∉ [104, 72, 98, 66, 100, 68]))))

/-- The text does not go on with a letter or digit. -/
def EndsWord (rest : List Nat) : Prop := ∀ c ∈ rest.head?, ¬ Alnum c

/-- A 32-bit pattern read as a signed number. -/
def asInt32 (n : Nat) : Int := if n % 4294967296 < 2147483648 then (n % 4294967296 : Nat) else (n % 4294967296 : Nat) - 4294967296

end Spasm.Spec
