import Verif.Spec.Decode

/-
Specification vocabulary: an eZ80 decoder, written from the opcode maps of the processor and independent of the assembler
and its table.
-/

namespace Spasm.Spec

/-- Does a form use the index register? -/
def usesIndex (i : Index) (f : Form) : Bool :=
  f.2.any fun p =>
    match p with
    | .text t => (List.range t.length).any fun k => i.name.isPrefixOf (t.drop k)
    | _ => false

/-- An opcode without a prefix, or after DDh or FDh. The eZ80 has all Z80 instructions, but LD B,B, LD C,C, LD D,D and
LD E,E are the prefixes that select the size of data and addresses. After DDh and FDh only instructions with an index
register exist, among them new ones that load and store 16- or 24-bit registers at an indexed place. -/
def ezPlainForm (i : Index) (op : Nat) : Option Form :=
  match i with
  | .hl => if op ∈ [0x40, 0x49, 0x52, 0x5B] then none else plainForm .hl op
  | i =>
    let other : Index := if i = .ix then .iy else .ix
    let load (r : List Nat) : Option Form := some (b! "LD", .text (r ++ b! ",") :: i.place)
    let store (r : List Nat) : Option Form := some (b! "LD", i.place ++ [.text (b! "," ++ r)])
    match op with
    | 0x07 => load (b! "BC")
    | 0x17 => load (b! "DE")
    | 0x27 => load (b! "HL")
    | 0x31 => load other.name
    | 0x37 => load i.name
    | 0x0F => store (b! "BC")
    | 0x1F => store (b! "DE")
    | 0x2F => store (b! "HL")
    | 0x3E => store other.name
    | 0x3F => store i.name
    | op => (plainForm i op).bind fun f => if usesIndex i f then some f else none

/-- An opcode after CBh. There is no SLL, and after DDh CBh and FDh CBh only the forms with z = 6 exist. -/
def ezBitForm (i : Index) (op : Nat) : Option Form :=
  if op / 8 = 6 then none
  else if i ≠ .hl ∧ op % 8 ≠ 6 then none
  else bitForm i op

/-- An opcode after EDh. The port register is called BC. -/
def ezExtForm (op : Nat) : Option Form :=
  let x := op / 64
  let y := op / 8 % 8
  let z := op % 8
  let rr := reg16 .hl (y / 2)
  let even := y % 2 = 0
  let lea (r : List Nat) (i : Index) : Option Form := some (b! "LEA", [.text (r ++ b! "," ++ i.name), .signed])
  match x, z with
  | 0, 0 => if y = 6 then some (b! "IN0", [.text (b! "F,("), .byte, .text (b! ")")])
    else some (b! "IN0", reg8 .hl .hl y ++ [.text (b! ",("), .byte, .text (b! ")")])
  | 0, 1 =>
    if y = 6 then some (b! "LD", [.text (b! "IY,(HL)")])
    else some (b! "OUT0", [.text (b! "("), .byte, .text (b! "),")] ++ reg8 .hl .hl y)
  | 0, 2 => if even then lea (if y = 6 then b! "IX" else rr) .ix else none
  | 0, 3 => if even then lea (if y = 6 then b! "IY" else rr) .iy else none
  | 0, 4 => some (b! "TST", .text (b! "A,") :: reg8 .hl .hl y)
  | 0, 6 => if y = 7 then some (b! "LD", [.text (b! "(HL),IY")]) else none
  | 0, 7 =>
    let r := if y / 2 = 3 then b! "IX" else rr
    if even then some (b! "LD", [.text (r ++ b! ",(HL)")]) else some (b! "LD", [.text (b! "(HL)," ++ r)])
  | 1, 0 => if y = 6 then some (b! "IN", [.text (b! "F,(BC)")]) else some (b! "IN", reg8 .hl .hl y ++ [.text (b! ",(BC)")])
  | 1, 1 => if y = 6 then none else some (b! "OUT", .text (b! "(BC),") :: reg8 .hl .hl y)
  | 1, 2 => some (if even then b! "SBC" else b! "ADC", [.text (b! "HL," ++ rr)])
  | 1, 3 =>
    if even then some (b! "LD", [.text (b! "("), .word, .text (b! ")," ++ rr)])
    else some (b! "LD", [.text (rr ++ b! ",("), .word, .text (b! ")")])
  | 1, 4 =>
    if ¬ even then some (b! "MLT", [.text rr])
    else
      match y with
      | 0 => some (b! "NEG", [])
      | 2 => lea (b! "IX") .iy
      | 4 => some (b! "TST", [.text (b! "A,"), .byte])
      | _ => some (b! "TSTIO", [.byte])
  | 1, 5 =>
    match y with
    | 0 => some (b! "RETN", [])
    | 1 => some (b! "RETI", [])
    | 2 => lea (b! "IY") .ix
    | 4 => some (b! "PEA", [.text (b! "IX"), .signed])
    | 5 => some (b! "LD", [.text (b! "MB,A")])
    | 7 => some (b! "STMIX", [])
    | _ => none
  | 1, 6 =>
    match y with
    | 0 => some (b! "IM", [.text (b! "0")])
    | 2 => some (b! "IM", [.text (b! "1")])
    | 3 => some (b! "IM", [.text (b! "2")])
    | 4 => some (b! "PEA", [.text (b! "IY"), .signed])
    | 5 => some (b! "LD", [.text (b! "A,MB")])
    | 6 => some (b! "SLP", [])
    | 7 => some (b! "RSMIX", [])
    | _ => none
  | 1, 7 =>
    match y with
    | 0 => some (b! "LD", [.text (b! "I,A")])
    | 1 => some (b! "LD", [.text (b! "R,A")])
    | 2 => some (b! "LD", [.text (b! "A,I")])
    | 3 => some (b! "LD", [.text (b! "A,R")])
    | 4 => some (b! "RRD", [])
    | 5 => some (b! "RLD", [])
    | _ => none
  | 2, 0 => [b! "LDI", b! "LDD", b! "LDIR", b! "LDDR"][y - 4]?.bind fun n => if 4 ≤ y then some (n, []) else none
  | 2, 1 => [b! "CPI", b! "CPD", b! "CPIR", b! "CPDR"][y - 4]?.bind fun n => if 4 ≤ y then some (n, []) else none
  | 2, 2 => [b! "INIM", b! "INDM", b! "INIMR", b! "INDMR", b! "INI", b! "IND", b! "INIR", b! "INDR"][y]?.map fun n => (n, [])
  | 2, 3 => [b! "OTIM", b! "OTDM", b! "OTIMR", b! "OTDMR", b! "OUTI", b! "OUTD", b! "OTIR", b! "OTDR"][y]?.map fun n => (n, [])
  | 2, 4 => [b! "INI2", b! "IND2", b! "INI2R", b! "IND2R", b! "OUTI2", b! "OUTD2", b! "OTI2R", b! "OTD2R"][y]?.map fun n => (n, [])
  | 3, _ =>
    match op with
    | 0xC2 => some (b! "INIRX", [])
    | 0xC3 => some (b! "OTIRX", [])
    | 0xC7 => some (b! "LD", [.text (b! "I,HL")])
    | 0xCA => some (b! "INDRX", [])
    | 0xCB => some (b! "OTDRX", [])
    | 0xD7 => some (b! "LD", [.text (b! "HL,I")])
    | _ => none
  | _, _ => none

/-- The eZ80, with immediates and addresses of 24 bits or of 16 bits. -/
def ez80 (long : Bool) : Cpu := ⟨ezPlainForm, ezBitForm, ezExtForm, true, long⟩

/-- The prefix bytes, the suffixes they stand for, and whether immediates and addresses have 24 bits. -/
def prefixes : List (Nat × List Nat × Bool) :=
  [(0x40, b! ".SIS", false), (0x49, b! ".LIS", false), (0x52, b! ".SIL", true), (0x5B, b! ".LIL", true)]

/-- The instruction at the beginning of some bytes, in ADL mode or in Z80 mode: suffix, mnemonic, operands, and the bytes
after it. -/
def decodeEz80 (adl : Bool) (bs : List Nat) : Option (List Nat × List Nat × List Tok × List Nat) :=
  match prefixes.find? (fun p => bs.head? = some p.1) with
  | some p => (decode (ez80 p.2.2) bs.tail).map fun d => (p.2.1, d)
  | none => (decode (ez80 adl) bs).map fun d => ([], d)

/-- Ways to write the same eZ80 instruction: those of the Z80; the port register BC can be called C as on the Z80; and
input that only sets the flags can be written with or without the register F. -/
inductive EzSynonym : List Nat × List Tok → List Nat × List Tok → Prop
  | z80 (x y) : Synonym x y → EzSynonym x y
  | port (m a b) : m ∈ [b! "IN", b! "OUT"] → EzSynonym (m, a ++ (b! "(BC)").map .ch ++ b) (m, a ++ (b! "(C)").map .ch ++ b)
  | flags (m t) : m ∈ [b! "IN", b! "IN0"] → EzSynonym (m, .ch 70 :: .ch 44 :: t) (m, t)
  | portFlags : EzSynonym (b! "IN", (b! "F,(BC)").map .ch) (b! "IN", (b! "(C)").map .ch)

/-- The suffixes in full: a letter that is missing is S in Z80 mode and L in ADL mode. -/
def fullSuffixes (adl : Bool) : List (List Nat × List Nat) :=
  [([], []), (b! ".SIS", b! ".SIS"), (b! ".LIS", b! ".LIS"), (b! ".SIL", b! ".SIL"), (b! ".LIL", b! ".LIL"),
   (b! ".S", if adl then b! ".SIL" else b! ".SIS"), (b! ".L", if adl then b! ".LIL" else b! ".LIS"),
   (b! ".IS", if adl then b! ".LIS" else b! ".SIS"), (b! ".IL", if adl then b! ".LIL" else b! ".SIL")]

end Spasm.Spec
