import Verif.Spec.Names
import Verif.Spec.Hex

/-
Specification vocabulary: the symbol tables as a whole, and the symbol file.
-/

namespace Spasm.Spec

/-- No name stands for two things: labels and defines are stored in the order of their names without repetition, each
under its own name, and no name is both. If the case of letters does not matter, all names are stored in capital letters. -/
structure OneMeaning (s : S) : Prop where
  labelOrder : (s.labels.map (fun p => p.1)).Pairwise (· < ·)
  defineOrder : (s.defines.map (fun p => p.1)).Pairwise (· < ·)
  labelNames : ∀ p ∈ s.labels, p.2.name = p.1
  defineNames : ∀ p ∈ s.defines, p.2.name = p.1
  notBoth : ∀ p ∈ s.labels, ∀ q ∈ s.defines, p.2.name ≠ q.2.name
  capitals : s.caseSens = false → (∀ p ∈ s.labels, p.1.map upperCase = p.1) ∧ ∀ p ∈ s.defines, p.1.map upperCase = p.1

/-- The small letter for a capital letter. -/
def lowerCase (c : Nat) : Nat := if 65 ≤ c ∧ c ≤ 90 then c + 32 else c

/-- Case-insensitive alphabetical order. -/
def Alphabetical (names : List (List Nat)) : Prop :=
  (names.map (fun n => n.map lowerCase)).Pairwise (fun a b => ¬ b < a)

/-- The number written by some hexadecimal digits behind a number already read. -/
def hexNumber : List Nat → Nat → Option Nat
  | [], v => some v
  | c :: t, v => (nibble c).bind (fun d => hexNumber t (16 * v + d))

/-- A line of a symbol file: the name, ` = $` and the 32-bit value in hexadecimal, with at least four digits and no
more zeros in front than needed for that. -/
def SymbolLine (e : List Nat × Int) (line : List Nat) : Prop :=
  ∃ digits, line = e.1 ++ b! " = $" ++ digits ++ [10] ∧ hexNumber digits 0 = some (e.2 % 4294967296).toNat ∧
    4 ≤ digits.length ∧ (4 < digits.length → digits.head? ≠ some 48)

/-- The label of this name has this value. -/
def IsLabel (s : S) (e : List Nat × Int) : Prop := ∃ p ∈ s.labels, p.2.name = e.1 ∧ p.2.value = e.2

/-- There is a define of this name. -/
def IsDefine (s : S) (name : List Nat) : Prop := ∃ p ∈ s.defines, p.2.name = name

end Spasm.Spec
