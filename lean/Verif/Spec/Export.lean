import Verif.Spec.Hex
import Verif.Model.State

/-
Specification vocabulary for output files. These definitions do not use any function of the model.
-/

namespace Spasm.Spec

/-- The program: the bytes of the output buffer up to the output position. -/
def image (s : S) : List Nat := (List.range s.outPtr.toNat).map s.mem

/-- The output buffer holds bytes and the output position lies in it (its size is 8000000 bytes). -/
def GoodOutput (s : S) : Prop := 0 ≤ s.outPtr ∧ s.outPtr ≤ 8000000 ∧ ∀ i, s.mem i < 256

/-- The file name is a stem and an extension, the given one but for case. -/
def HasExt (name ext : Str) : Prop :=
  ∃ stem e, stem ≠ [] ∧ name = stem ++ 46 :: e ∧ 46 ∉ e ∧ e.map toLower = ext.map toLower

/-- The run ends normally after writing one file, with these contents, as its last act. -/
def Writes (r : Res Unit) (name : Str) (file : List Nat) : Prop :=
  ∃ s' evs, r = .ok () s' ∧ s'.log = evs ++ [.wrote name file]

/-- The 16-bit number at an offset, low byte first. -/
def word (file : List Nat) (i : Nat) : Nat := file.getD i 0 + 256 * file.getD (i + 1) 0

/-- The 32-bit number at an offset, low byte first. -/
def dword (file : List Nat) (i : Nat) : Nat := word file i + 65536 * word file (i + 2)

/-- The contents of the first header field with the given identifier, from that place to the end of the
application. A field is 80h, an identifier whose low four bits are the length, and the contents. -/
def fieldIn (isIt : Nat → Bool) : Nat → List Nat → Option (List Nat)
  | 0, _ => none
  | n + 1, 0x80 :: id :: rest => if isIt id then some rest else fieldIn isIt n (rest.drop (id % 16))
  | _, _ => none

/-- Header fields start after the six bytes of the length field. -/
def appField (id : Nat) (app : List Nat) : Option (List Nat) :=
  fieldIn (fun v => v == id) app.length (app.drop 6)

/-- The number of pages of 16384 bytes an image needs. -/
def pagesOf (size : Nat) : Nat := (size + 16383) / 16384

/-- The length fields of a calculator file. The length of everything between the 55-byte header and the
checksum is at offset 53, the length of the variable at offset 57 and again at offset `p`, just before the
variable, and the variable starts with the length of the rest of it. Each is the number of bytes that follow,
up to the two bytes of the checksum. -/
structure FieldsAgree (file : List Nat) (p : Nat) : Prop where
  data : word file 53 + 55 + 2 = file.length
  variable₁ : word file 57 + (p + 2) + 2 = file.length
  variable₂ : word file p + (p + 2) + 2 = file.length
  program : word file (p + 2) + (p + 4) + 2 = file.length

/-- Where the second copy of the variable length is in the file types with an eight-byte name. -/
def lengthAt : List (Str × Nat) :=
  [(b! "73P", 68), (b! "82P", 68), (b! "83P", 68), (b! "8XP", 70), (b! "8XV", 70), (b! "86P", 69)]

/-- The program file extensions. -/
def programExts : List Str :=
  [b! "73P", b! "82P", b! "83P", b! "8XP", b! "8XV", b! "85P", b! "86P", b! "85S", b! "86S"]

/-- The checksum: the last two bytes, low byte first, are the sum modulo 65536 of the bytes after the 55-byte
header. -/
def ChecksumOk (file : List Nat) : Prop :=
  ∃ header body lo hi, file = header ++ body ++ [lo, hi] ∧ header.length = 55 ∧ lo < 256 ∧ hi < 256 ∧
    lo + 256 * hi = body.sum % 65536

end Spasm.Spec
