import Verif.Model.Basic

/-
Specification vocabulary for the text utilities. These definitions do not use any function of the model.
-/

namespace Spasm.Spec

/-- ASCII upper case of one byte. -/
def upper (c : Nat) : Nat := if 97 ≤ c ∧ c ≤ 122 then c - 32 else c
/-- ASCII lower case of one byte. -/
def lower (c : Nat) : Nat := if 65 ≤ c ∧ c ≤ 90 then c + 32 else c
/-- A printable ASCII byte, or a question mark. -/
def printable (c : Nat) : Nat := if 32 ≤ c ∧ c ≤ 126 then c else 63

/-- An operation on a string being built. -/
inductive Edit where
  | append (text : List Nat)
  | insert (offset : Nat) (text : List Nat)

/-- The operation on an ordinary string; an insertion point must lie in the string or at its end. -/
def Edit.apply : Edit → List Nat → Option (List Nat)
  | .append t, l => some (l ++ t)
  | .insert o t, l => if o ≤ l.length then some (l.take o ++ t ++ l.drop o) else none

/-- A sequence of operations. -/
def applyAll : List Edit → List Nat → Option (List Nat)
  | [], l => some l
  | e :: es, l => (e.apply l).bind (applyAll es)

/-- A path with an extension: what is before the last dot, and what is after it. -/
def Splits (path before ext : List Nat) : Prop := path = before ++ 46 :: ext ∧ 46 ∉ ext

/-- The UTF-8 byte order mark. -/
def bom : List Nat := [0xEF, 0xBB, 0xBF]

end Spasm.Spec
