import Verif.Model.Basic

/-
An independent reader of Intel HEX text in TI's format, and of hexadecimal text. Nothing here uses the model of
the writer.
-/

namespace Spasm.Spec

/-- The value of an upper-case hexadecimal digit. -/
def nibble (c : Nat) : Option Nat :=
  if 48 ≤ c ∧ c ≤ 57 then some (c - 48) else if 65 ≤ c ∧ c ≤ 70 then some (c - 55) else none

/-- Hexadecimal text: two digits for each byte. -/
def hexText : Str → Option (List Nat)
  | [] => some []
  | [_] => none
  | a :: b :: t =>
    match nibble a, nibble b, hexText t with
    | some x, some y, some r => some ((16 * x + y) :: r)
    | _, _, _ => none

/-- The lines of a text; a line ends with CR LF, the last one also at the end of the text. -/
def crlfLines : Str → List Str
  | [] => [[]]
  | 13 :: 10 :: t => [] :: crlfLines t
  | c :: t =>
    match crlfLines t with
    | [] => [[c]]
    | l :: ls => (c :: l) :: ls

/-- One record: address, type, data. -/
structure Record where
  address : Nat
  type : Nat
  data : List Nat
  deriving DecidableEq, Repr

/-- A record is `:`, then the bytes length, address (2, high byte first), type, data, checksum; all the bytes
sum to 0 modulo 256. -/
def readRecord : Str → Option Record
  | 58 :: t =>
    match hexText t with
    | some (n :: ah :: al :: ty :: rest) =>
      if rest.length = n + 1 ∧ (n + ah + al + ty + rest.sum) % 256 = 0 then
        some ⟨256 * ah + al, ty, rest.take n⟩
      else none
    | _ => none
  | _ => none

/-- A byte at an address of a page. -/
structure Cell where
  page : Nat
  address : Nat
  byte : Nat
  deriving DecidableEq, Repr

/-- Consecutive bytes from an address on. -/
def cellsAt (page address : Nat) : List Nat → List Cell
  | [] => []
  | b :: t => ⟨page, address, b⟩ :: cellsAt page (address + 1) t

/-- The records in order. A type 2 record (with two bytes, high byte first) selects a page, a type 0 record
stores bytes, a type 1 record ends the file and nothing may follow it. -/
def readRecords (page : Nat) : List Str → Option (List Cell)
  | [] => none
  | l :: ls =>
    match readRecord l with
    | none => none
    | some r =>
      if r.type = 1 then (if r.data = [] ∧ ls = [] then some [] else none)
      else if r.type = 2 then
        match r.data with
        | [hi, lo] => readRecords (256 * hi + lo) ls
        | _ => none
      else if r.type = 0 then
        match readRecords page ls with
        | none => none
        | some cs => some (cellsAt page r.address r.data ++ cs)
      else none

/-- The contents of an Intel HEX file. -/
def readHex (text : Str) : Option (List Cell) := readRecords 0 (crlfLines text)

/-- Where an image belongs: 16384 bytes for each page, from 4000h. -/
def placed (bytes : List Nat) : List Cell :=
  (List.range bytes.length).map fun i => ⟨i / 16384, 0x4000 + i % 16384, bytes.getD i 0⟩

end Spasm.Spec
