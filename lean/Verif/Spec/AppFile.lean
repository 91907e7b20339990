import Verif.Spec.Signature
import Verif.Spec.Export

/-
Applications for the TI-83 Plus family and the file that carries them. Nothing here uses the model.
-/

namespace Spasm.Spec

/-- The header fields of an application, each with its identifier and its contents. -/
abbrev AppFields := List (Nat × List Nat)

/-- A field is the byte 80h, the identifier and the contents. -/
def fieldBytes : AppFields → List Nat
  | [] => []
  | f :: fs => 0x80 :: f.1 :: f.2 ++ fieldBytes fs

/-- An application: the length field 80 0F with four bytes, the other fields, and whatever comes behind them. -/
def application (len : List Nat) (fields : AppFields) (code : List Nat) : List Nat :=
  [0x80, 0x0F] ++ len ++ fieldBytes fields ++ code

/-- A header with all that is needed. The field 80 81 for the number of pages stands between `before` and `after`.
The low four bits of an identifier are the length of the contents, the first field 80 12 asks for the key 0104, and the
first field 80 4x holds the name. -/
structure GoodHeader (before after : AppFields) (name : List Nat) : Prop where
  sizes : ∀ f ∈ before ++ after, f.2.length = f.1 % 16
  kind : (before ++ after).find? (fun f => f.1 == 0x12) = some (0x12, [1, 4])
  pages : ∀ f ∈ before, f.1 ≠ 0x81
  named : ∃ id content, (before ++ after).find? (fun f => f.1 / 16 == 4) = some (id, content) ∧ name = content.take 8

/-- With its signature of 96 bytes an application of this size fills a page, or ends well inside one; a first page may end
anywhere. There are at most 255 pages. -/
def FitsPages (size : Nat) : Prop :=
  size ≤ 4177824 ∧ (size + 96 < 16384 ∨ (size + 96) % 16384 = 0 ∨ 1024 ≤ (size + 96) % 16384)

/-- Four bytes, the highest first and the lowest first. -/
def highFirst4 (n : Nat) : List Nat := [n / 16777216 % 256, n / 65536 % 256, n / 256 % 256, n % 256]
def lowFirst4 (n : Nat) : List Nat := [n % 256, n / 256 % 256, n / 65536 % 256, n / 16777216 % 256]

/-- The file: the mark `**TIFL**`, version 1.1, a flag, the object type, the date 01/01/1997, the name, the device and data
type, the length of the text and the text. -/
def appFile (name : List Nat) (text : List Nat) : List Nat :=
  b! "**TIFL**" ++ [1, 1, 1, 0x88, 0x01, 0x01, 0x19, 0x97] ++ name.length :: name ++ List.replicate (8 - name.length) 0
    ++ List.replicate 23 0 ++ [0x73, 0x24] ++ List.replicate 24 0 ++ lowFirst4 text.length ++ text

/-- The application followed by a signature that the calculator accepts, 96 bytes in all. -/
def SignedApp (md5 : List Nat → List Nat) (app whole : List Nat) : Prop :=
  ∃ signature f pad, whole = app ++ signatureField signature f ++ List.replicate pad 0xFF ∧ whole.length = app.length + 96 ∧
    (∀ b ∈ signature, b < 256) ∧ Verifies (md5 app) (number signature) f

/-- What an application lacks, with the number of the error that says so. The fields of the header end where no further byte
80h stands, and their identifiers give their lengths. The first thing that is missing is reported: room for the signature on the
last page, the length field, a program type field asking for the key 0104, the field for the number of pages, the name. -/
inductive Lacking : List Nat → Nat → Prop
  | room (bs) : 16384 < bs.length → 0 < (bs.length + 96) % 16384 → (bs.length + 96) % 16384 < 97 → Lacking bs 0x505
  | length (bs) : FitsPages bs.length → bs.take 2 ≠ [0x80, 0x0F] → Lacking bs 0x501
  | kind (len fields code) : FitsPages (application len fields code).length → len.length = 4 → (∀ f ∈ fields, f.2.length = f.1 % 16) →
      code.head? ≠ some 0x80 → fields.find? (fun f => f.1 == 0x12) ≠ some (0x12, [1, 4]) → Lacking (application len fields code) 0x502
  | pages (len fields code) : FitsPages (application len fields code).length → len.length = 4 → (∀ f ∈ fields, f.2.length = f.1 % 16) →
      code.head? ≠ some 0x80 → fields.find? (fun f => f.1 == 0x12) = some (0x12, [1, 4]) → (∀ f ∈ fields, f.1 ≠ 0x81) →
      Lacking (application len fields code) 0x503
  | name (len fields code) : FitsPages (application len fields code).length → len.length = 4 → (∀ f ∈ fields, f.2.length = f.1 % 16) →
      code.head? ≠ some 0x80 → fields.find? (fun f => f.1 == 0x12) = some (0x12, [1, 4]) → (∃ f ∈ fields, f.1 = 0x81) →
      (∀ f ∈ fields, f.1 / 16 ≠ 4) → Lacking (application len fields code) 0x504

end Spasm.Spec
