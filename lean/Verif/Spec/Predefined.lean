import Verif.Spec.Option
import Verif.Spec.Function

/-
Specification vocabulary: the names that are defined before the source is read.
-/

namespace Spasm.Spec

/-- The names that are defined in every program, with their parameters and texts. -/
def builtIns : List (List Nat × List (List Nat) × List Nat) :=
  [(b! "SPASM", [], b! "1"), (b! "SPASMVER", [], b! "2"), (b! "__LINE", [], b! "0"), (b! "__FILE", [], b! "Init"),
    (b! "TRUE", [], b! "1"), (b! "FALSE", [], b! "0"), (b! "__BM_SHD", [], b! "2"), (b! "__BM_MSK_RGB", [], b! "RGB(0, 255, 0)"),
    (b! "RGB", [b! "__R", b! "__G", b! "__B"], b! "((__R) << 16)|((__G) << 8)|(__B)"), (b! "GETC", [b! "__A", b! "__N"], b! "(0)")]

/-- The name is defined with these parameters and this text. -/
def DefinedAs (s : S) (name : List Nat) (params : List (List Nat)) (text : List Nat) : Prop :=
  (defineOf s name).map (fun d => (d.args, d.contents)) = some (params, some text)

/-- The text of `__LINE` and `__FILE` at a place in the source: the number of the line, and the path of the file in quotes, with
backslashes doubled. -/
def placeText (key : List Nat) (line : Int) (file : List Nat) : List Nat :=
  if key = b! "__LINE" then decimal line else 34 :: file.flatMap (fun c => if c = 92 then [92, 92] else [c]) ++ [34]

/-- The state `s'` is `s`, except for the text of the define with this key. -/
structure OnlyText (key : List Nat) (s s' : S) : Prop where
  others : ∀ name, nameKey s name ≠ key → defineOf s' name = defineOf s name
  rest : s' = { s with defines := s'.defines }

end Spasm.Spec
