import Verif.Spec.Literal
import Verif.Spec.Names

/-
Specification vocabulary: the program files of the calculators, byte by byte. These definitions do not use any function of
the model.
-/

namespace Spasm.Spec

/-- A 16-bit number, low byte first. -/
def lowHigh (n : Nat) : List Nat := [n % 256, n / 256 % 256]

/-- A kind of program file: its extension, the name of the calculator in the signature, the bytes before the name, those after it, how the name is spelt, whether it must be
letters and digits, and what the program is stored as. -/
structure Format where
  ext : List Nat
  mark : List Nat
  kind : List Nat → List Nat
  version : List Nat
  spelt : List Nat → List Nat
  checked : Bool
  content : List Nat → List Nat
  deriving Inhabited

/-- The hexadecimal digits of a byte, in upper case. -/
def hexPair (b : Nat) : List Nat := [(b! "0123456789ABCDEF").getD (b / 16) 0, (b! "0123456789ABCDEF").getD (b % 16) 0]

/-- The formats: programs of the TI-73, of the TI-83, which are written as hexadecimal digits and end with the tokens
`End 0000 End` in lines of their own, of the TI-83 Plus and 84 Plus, application variables of these, and programs of the TI-86,
which start with a token. -/
def formats : List Format :=
  [⟨b! "73P", b! "73*", fun _ => [6], [], List.map upperCase, true, id⟩,
   ⟨b! "83P", b! "83*", fun _ => [6], [], List.map upperCase, true,
    fun bs => bs.flatMap hexPair ++ [0x3F, 0xD4, 0x3F, 0x30, 0x30, 0x30, 0x30, 0x3F, 0xD4]⟩,
   ⟨b! "8XP", b! "83F", fun _ => [6], [0, 0], List.map upperCase, true, id⟩,
   ⟨b! "8XV", b! "83F", fun _ => [0x15], [0, 0], fun n => (n.take 1).map upperCase ++ n.drop 1, true, id⟩,
   ⟨b! "86P", b! "86*", fun n => [0x12, n.length], [], id, false, fun bs => [0x8E, 0x28] ++ bs⟩]

/-- The entry for the variable: the length of its header, which is the length of the variable, its type, its name, of which eight
characters count, filled up with zeros, and its version; the length of the
variable again, and the variable: the length of its contents, and the
contents. -/
def entryOf (f : Format) (name content : List Nat) : List Nat :=
  lowHigh (2 + (f.kind name).length + 8 + f.version.length) ++
    (lowHigh (content.length + 2) ++ f.kind name ++ (name.take 8 ++ List.replicate (8 - name.length) 0) ++ f.version) ++
    lowHigh (content.length + 2) ++ (lowHigh content.length ++ content)

/-- The file: a signature, a comment of 42 bytes, the length of the entry, the entry, and the sum of its bytes. -/
def programFile (f : Format) (name bs : List Nat) : List Nat :=
  b! "**TI" ++ f.mark ++ b! "*" ++ [0x1A, 0x0A, 0] ++ (b! "File generated by spasm" ++ List.replicate 19 0) ++
    lowHigh (entryOf f name (f.content bs)).length ++ entryOf f name (f.content bs) ++ lowHigh (entryOf f name (f.content bs)).sum

/-- The name of a file without directories: what follows the last slash or backslash. -/
def LastPart (path base : List Nat) : Prop :=
  base ≠ [] ∧ 47 ∉ base ∧ 92 ∉ base ∧ (path = base ∨ ∃ dir c, dir ≠ [] ∧ (c = 47 ∨ c = 92) ∧ path = dir ++ c :: base)

/-- The program can be stored without any remark: the name consists of letters and digits and starts with a capital letter,
the variable fits in the memory of the calculator, and a program for the TI-83 Plus, 84 Plus or 84 Plus CE starts with the
token of its kind. -/
def Unremarkable (f : Format) (ez80 : Bool) (name bs : List Nat) : Prop :=
  (f.checked = true → (∀ c ∈ name, Alnum c) ∧ ∃ c ∈ name.head?, 65 ≤ c ∧ c ≤ 90) ∧
  (f.content bs).length + 2 ≤ (if ez80 then 65535 else 24575) ∧
  (f.ext = b! "8XP" → ∃ t ∈ (if ez80 then [[0xEF, 0x7B]] else [[0xBB, 0x6D], [0xEF, 0x69]]), t <+: bs)

end Spasm.Spec
