import Verif.Spec.Split

/-
Specification vocabulary: names of files in preprocessor statements.
-/

namespace Spasm.Spec

/-- A file name with slashes in place of backslashes. -/
def slashes (name : List Nat) : List Nat := name.map (fun c => if c = 92 then 47 else c)

/-- An absolute file name: starts with a slash or, as on other systems, with a letter and a colon. Blanks in front of
it do not count. -/
def Absolute (name : List Nat) : Prop :=
  ∃ b t, name = b ++ t ∧ Blanks b ∧
    ((∃ r, t = 47 :: r) ∨ ∃ c r, t = c :: 58 :: r ∧ ((65 ≤ c ∧ c ≤ 90) ∨ (97 ≤ c ∧ c ≤ 122)))

/-- The file `name` of a preprocessor statement has these contents: the file of this name, if the name is absolute, or else
the first one of this name in the directories. -/
inductive Found (fs : List Nat → Option (List Nat)) (dirs : List (List Nat)) (name : List Nat) (contents : List Nat) : Prop
  | absolute : Absolute name → fs name = some contents → Found fs dirs name contents
  | relative (before dir after) : (Absolute name → fs name = none) → dirs = before ++ dir :: after →
      (∀ d ∈ before, fs (slashes (d ++ [47] ++ name)) = none) →
      fs (slashes (dir ++ [47] ++ name)) = some contents → Found fs dirs name contents

/-- The file `name` of a preprocessor statement is a file of the file system with these contents, looked for in the
include directories. -/
abbrev Located (s : S) (name : List Nat) (contents : List Nat) : Prop := Found s.fs s.includeDirs name contents

end Spasm.Spec
