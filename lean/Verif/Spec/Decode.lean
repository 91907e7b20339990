import Verif.Spec.Emit

/-
Specification vocabulary: a Z80 decoder, written from the structure of the opcode byte (two bits x, three bits y,
three bits z) and independent of the assembler and its table.
-/

namespace Spasm.Spec

/-- A piece of a decoded instruction: text, a number that is part of the opcode, or an operand that follows the
opcode. -/
inductive Part
  | text (t : List Nat)
  | num (v : Int)
  /-- one byte -/
  | byte
  /-- two bytes, or three if immediates are long, the low one first -/
  | word
  /-- one byte with a sign -/
  | signed
  deriving DecidableEq

/-- The mnemonic and the operands of an opcode. -/
abbrev Form := List Nat × List Part

/-- What `H`, `L` and `(HL)` mean: themselves, or under a prefix byte the halves of an index register and an indexed
place. -/
inductive Index
  | hl | ix | iy
  deriving DecidableEq

def Index.name : Index → List Nat
  | .hl => b! "HL"
  | .ix => b! "IX"
  | .iy => b! "IY"

def Index.high : Index → List Nat
  | .hl => b! "H"
  | .ix => b! "IXH"
  | .iy => b! "IYH"

def Index.low : Index → List Nat
  | .hl => b! "L"
  | .ix => b! "IXL"
  | .iy => b! "IYL"

/-- The place `(HL)`, `(IX+d)` or `(IY+d)`. -/
def Index.place : Index → List Part
  | .hl => [.text (b! "(HL)")]
  | .ix => [.text (b! "(IX"), .signed, .text (b! ")")]
  | .iy => [.text (b! "(IY"), .signed, .text (b! ")")]

/-- The 8-bit operand of a number; `i` replaces `H` and `L`, `j` replaces `(HL)`. -/
def reg8 (i j : Index) : Nat → List Part
  | 0 => [.text (b! "B")]
  | 1 => [.text (b! "C")]
  | 2 => [.text (b! "D")]
  | 3 => [.text (b! "E")]
  | 4 => [.text i.high]
  | 5 => [.text i.low]
  | 6 => j.place
  | _ => [.text (b! "A")]

/-- The 16-bit register of a number. -/
def reg16 (i : Index) : Nat → List Nat
  | 0 => b! "BC"
  | 1 => b! "DE"
  | 2 => i.name
  | _ => b! "SP"

/-- The 16-bit register of a number, for PUSH and POP. -/
def reg16s (i : Index) : Nat → List Nat
  | 3 => b! "AF"
  | p => reg16 i p

def cond : Nat → List Nat
  | 0 => b! "NZ"
  | 1 => b! "Z"
  | 2 => b! "NC"
  | 3 => b! "C"
  | 4 => b! "PO"
  | 5 => b! "PE"
  | 6 => b! "P"
  | _ => b! "M"

/-- The arithmetic operation of a number with an operand. -/
def alu (y : Nat) (operand : List Part) : Form :=
  match y with
  | 0 => (b! "ADD", .text (b! "A,") :: operand)
  | 1 => (b! "ADC", .text (b! "A,") :: operand)
  | 2 => (b! "SUB", operand)
  | 3 => (b! "SBC", .text (b! "A,") :: operand)
  | 4 => (b! "AND", operand)
  | 5 => (b! "XOR", operand)
  | 6 => (b! "OR", operand)
  | _ => (b! "CP", operand)

def rotation : Nat → List Nat
  | 0 => b! "RLC"
  | 1 => b! "RRC"
  | 2 => b! "RL"
  | 3 => b! "RR"
  | 4 => b! "SLA"
  | 5 => b! "SRA"
  | 6 => b! "SLL"
  | _ => b! "SRL"

/-- An opcode without a prefix, or after DDh (`i` is `ix`) or FDh (`iy`). -/
def plainForm (i : Index) (op : Nat) : Option Form :=
  let x := op / 64
  let y := op / 8 % 8
  let z := op % 8
  let p := y / 2
  let even := y % 2 = 0
  let rr := reg16 i p
  match x, z with
  | 0, 0 =>
    match y with
    | 0 => some (b! "NOP", [])
    | 1 => some (b! "EX", [.text (b! "AF,AF'")])
    | 2 => some (b! "DJNZ", [.signed])
    | 3 => some (b! "JR", [.signed])
    | y => some (b! "JR", [.text (cond (y - 4) ++ b! ","), .signed])
  | 0, 1 => if even then some (b! "LD", [.text (rr ++ b! ","), .word]) else some (b! "ADD", [.text (i.name ++ b! "," ++ rr)])
  | 0, 2 =>
    match y with
    | 0 => some (b! "LD", [.text (b! "(BC),A")])
    | 1 => some (b! "LD", [.text (b! "A,(BC)")])
    | 2 => some (b! "LD", [.text (b! "(DE),A")])
    | 3 => some (b! "LD", [.text (b! "A,(DE)")])
    | 4 => some (b! "LD", [.text (b! "("), .word, .text (b! ")," ++ i.name)])
    | 5 => some (b! "LD", [.text (i.name ++ b! ",("), .word, .text (b! ")")])
    | 6 => some (b! "LD", [.text (b! "("), .word, .text (b! "),A")])
    | _ => some (b! "LD", [.text (b! "A,("), .word, .text (b! ")")])
  | 0, 3 => some (if even then b! "INC" else b! "DEC", [.text rr])
  | 0, 4 => some (b! "INC", reg8 i i y)
  | 0, 5 => some (b! "DEC", reg8 i i y)
  | 0, 6 => some (b! "LD", reg8 i i y ++ [.text (b! ","), .byte])
  | 0, _ =>
    match y with
    | 0 => some (b! "RLCA", [])
    | 1 => some (b! "RRCA", [])
    | 2 => some (b! "RLA", [])
    | 3 => some (b! "RRA", [])
    | 4 => some (b! "DAA", [])
    | 5 => some (b! "CPL", [])
    | 6 => some (b! "SCF", [])
    | _ => some (b! "CCF", [])
  | 1, _ =>
    if y = 6 ∧ z = 6 then some (b! "HALT", [])
    else if y = 6 ∨ z = 6 then some (b! "LD", reg8 .hl i y ++ [.text (b! ",")] ++ reg8 .hl i z)
    else some (b! "LD", reg8 i i y ++ [.text (b! ",")] ++ reg8 i i z)
  | 2, _ => some (alu y (reg8 i i z))
  | 3, 0 => some (b! "RET", [.text (cond y)])
  | 3, 1 =>
    match y with
    | 1 => some (b! "RET", [])
    | 3 => some (b! "EXX", [])
    | 5 => some (b! "JP", [.text (b! "(" ++ i.name ++ b! ")")])
    | 7 => some (b! "LD", [.text (b! "SP," ++ i.name)])
    | _ => some (b! "POP", [.text (reg16s i p)])
  | 3, 2 => some (b! "JP", [.text (cond y ++ b! ","), .word])
  | 3, 3 =>
    match y with
    | 0 => some (b! "JP", [.word])
    | 2 => some (b! "OUT", [.text (b! "("), .byte, .text (b! "),A")])
    | 3 => some (b! "IN", [.text (b! "A,("), .byte, .text (b! ")")])
    | 4 => some (b! "EX", [.text (b! "(SP)," ++ i.name)])
    | 5 => some (b! "EX", [.text (b! "DE,HL")])
    | 6 => some (b! "DI", [])
    | 7 => some (b! "EI", [])
    | _ => none
  | 3, 4 => some (b! "CALL", [.text (cond y ++ b! ","), .word])
  | 3, 5 => if even then some (b! "PUSH", [.text (reg16s i p)]) else if y = 1 then some (b! "CALL", [.word]) else none
  | 3, 6 => some (alu y [.byte])
  | 3, _ => some (b! "RST", [.num (8 * y)])
  | _, _ => none

/-- An opcode after CBh. After DDh CBh and FDh CBh it works on the indexed place, and the result also goes to a
register, written first, unless z is 6. -/
def bitForm (i : Index) (op : Nat) : Option Form :=
  let x := op / 64
  let y := op / 8 % 8
  let z := op % 8
  let also : List Part := if i = .hl ∨ z = 6 ∨ x = 1 then [] else reg8 .hl .hl z ++ [.text (b! ",")]
  let operand : List Part := if i = .hl then reg8 .hl .hl z else i.place
  match x with
  | 0 => some (rotation y, also ++ operand)
  | 1 => some (b! "BIT", [.num y, .text (b! ",")] ++ operand)
  | 2 => some (b! "RES", also ++ [.num y, .text (b! ",")] ++ operand)
  | 3 => some (b! "SET", also ++ [.num y, .text (b! ",")] ++ operand)
  | _ => none

/-- An opcode after EDh. -/
def extForm (op : Nat) : Option Form :=
  let x := op / 64
  let y := op / 8 % 8
  let z := op % 8
  let rr := reg16 .hl (y / 2)
  let even := y % 2 = 0
  match x, z with
  | 1, 0 => if y = 6 then some (b! "IN", [.text (b! "F,(C)")]) else some (b! "IN", reg8 .hl .hl y ++ [.text (b! ",(C)")])
  | 1, 1 => if y = 6 then some (b! "OUT", [.text (b! "(C),0")]) else some (b! "OUT", .text (b! "(C),") :: reg8 .hl .hl y)
  | 1, 2 => some (if even then b! "SBC" else b! "ADC", [.text (b! "HL," ++ rr)])
  | 1, 3 =>
    if even then some (b! "LD", [.text (b! "("), .word, .text (b! ")," ++ rr)])
    else some (b! "LD", [.text (rr ++ b! ",("), .word, .text (b! ")")])
  | 1, 4 => some (b! "NEG", [])
  | 1, 5 => some (if y = 1 then b! "RETI" else b! "RETN", [])
  | 1, 6 =>
    match y % 4 with
    | 2 => some (b! "IM", [.text (b! "1")])
    | 3 => some (b! "IM", [.text (b! "2")])
    | _ => some (b! "IM", [.text (b! "0")])
  | 1, _ =>
    match y with
    | 0 => some (b! "LD", [.text (b! "I,A")])
    | 1 => some (b! "LD", [.text (b! "R,A")])
    | 2 => some (b! "LD", [.text (b! "A,I")])
    | 3 => some (b! "LD", [.text (b! "A,R")])
    | 4 => some (b! "RRD", [])
    | 5 => some (b! "RLD", [])
    | _ => some (b! "NOP", [])
  | 2, 0 => [b! "LDI", b! "LDD", b! "LDIR", b! "LDDR"][y - 4]?.bind fun n => if 4 ≤ y then some (n, []) else none
  | 2, 1 => [b! "CPI", b! "CPD", b! "CPIR", b! "CPDR"][y - 4]?.bind fun n => if 4 ≤ y then some (n, []) else none
  | 2, 2 => [b! "INI", b! "IND", b! "INIR", b! "INDR"][y - 4]?.bind fun n => if 4 ≤ y then some (n, []) else none
  | 2, 3 => [b! "OUTI", b! "OUTD", b! "OTIR", b! "OTDR"][y - 4]?.bind fun n => if 4 ≤ y then some (n, []) else none
  | _, _ => none

/-- A processor: the meaning of an opcode without a prefix or after DDh or FDh, after CBh, and after EDh; whether addresses have
24 bits, and whether immediates and addresses in instructions do. -/
structure Cpu where
  plain : Index → Nat → Option Form
  bit : Index → Nat → Option Form
  ext : Nat → Option Form
  ez80 : Bool
  long : Bool

/-- The Z80. -/
def z80 : Cpu := ⟨plainForm, bitForm, extForm, false, false⟩

/-- The opcode at the beginning of some bytes, and the bytes from the first operand on. After DDh CBh and FDh CBh
the displacement comes before the opcode. -/
def opcodeOf (cpu : Cpu) : List Nat → Option (Form × List Nat)
  | 0xDD :: 0xCB :: d :: op :: r => (cpu.bit .ix op).map fun f => (f, d :: r)
  | 0xFD :: 0xCB :: d :: op :: r => (cpu.bit .iy op).map fun f => (f, d :: r)
  | 0xDD :: op :: r => (cpu.plain .ix op).map fun f => (f, r)
  | 0xFD :: op :: r => (cpu.plain .iy op).map fun f => (f, r)
  | 0xED :: op :: r => (cpu.ext op).map fun f => (f, r)
  | 0xCB :: op :: r => (cpu.bit .hl op).map fun f => (f, r)
  | op :: r => (cpu.plain .hl op).map fun f => (f, r)
  | [] => none

/-- A piece of an instruction in the source: a character or a number. -/
inductive Tok
  | ch (c : Nat)
  | num (v : Int)
  deriving DecidableEq

/-- Read the operands: the instruction and the bytes after it. -/
def readOperands (long : Bool) : List Part → List Nat → Option (List Tok × List Nat)
  | [], bs => some ([], bs)
  | .text t :: ps, bs => (readOperands long ps bs).map fun p => (t.map .ch ++ p.1, p.2)
  | .num v :: ps, bs => (readOperands long ps bs).map fun p => (.num v :: p.1, p.2)
  | .byte :: ps, b :: bs => (readOperands long ps bs).map fun p => (.num b :: p.1, p.2)
  | .word :: ps, l :: h :: bs =>
    if long then
      match bs with
      | u :: bs => (readOperands long ps bs).map fun p => (.num (l + 256 * h + 65536 * u) :: p.1, p.2)
      | [] => none
    else (readOperands long ps bs).map fun p => (.num (l + 256 * h) :: p.1, p.2)
  | .signed :: ps, b :: bs => (readOperands long ps bs).map fun p => (.num (if b < 128 then b else b - 256) :: p.1, p.2)
  | _, _ => none

/-- The instruction at the beginning of some bytes: mnemonic, operands, and the bytes after it. -/
def decode (cpu : Cpu) (bs : List Nat) : Option (List Nat × List Tok × List Nat) :=
  (opcodeOf cpu bs).bind fun p => (readOperands cpu.long p.1.2 p.2).map fun q => (p.1.1, q.1, q.2)

/-! ### The instruction a table entry stands for -/

/-- The type of an operand of a pattern. -/
def operandType (c : Nat) : Option ArgTy :=
  if c = 42 then some .num16
  else if c = 38 then some .num8
  else if c = 37 then some .addrOffset
  else if c = 64 then some .ixIyOffset
  else if c = 35 then some .rst
  else if c = 94 then some .bitNum
  else none

/-- The type of an operand when immediates are long (24 bits) or not. -/
def longType (long : Bool) (c : Nat) : Option ArgTy := if c = 42 ∧ long = true then some .num24 else operandType c

/-- What an operand value comes to in the instruction: a byte, a word, the distance of a jump, or itself. -/
def operandValue (ez80 : Bool) (pc size : Int) (ty : ArgTy) (v : Int) : Int :=
  let space : Int := if ez80 then 16777216 else 65536
  match ty with
  | .num8 => v % 256
  | .num16 => v % 65536
  | .num24 => v % 16777216
  | .addrOffset => v % space - (pc % space + size)
  | _ => v

/-- The operands as written: the pattern with the values in place of the operand characters. -/
def written (ez80 long : Bool) (pc size : Int) : List Nat → List Int → List Tok
  | [], _ => []
  | c :: p, vs =>
    match longType long c, vs with
    | none, vs => .ch c :: written ez80 long pc size p vs
    | some ty, v :: vs => .num (operandValue ez80 pc size ty v) :: written ez80 long pc size p vs
    | some _, [] => []

/-- The operand bytes between the opcode bytes and the last byte of an instruction of `size` bytes. -/
def operandCode (ez80 long : Bool) (pc size : Int) : List Nat → List Int → Option (List Nat)
  | [], [] => some []
  | [], _ :: _ => none
  | c :: p, vs =>
    match longType long c, vs with
    | none, vs => operandCode ez80 long pc size p vs
    | some .bitNum, _ :: vs => operandCode ez80 long pc size p vs
    | some ty, v :: vs =>
      match encode ez80 pc ty size 0 v, operandCode ez80 long pc size p vs with
      | some bs, some r => some (bs ++ r)
      | _, _ => none
    | some _, [] => none

/-- The value of the bit number in the pattern. -/
def bitNumber : List Nat → List Int → Option Int
  | [], _ => none
  | c :: p, vs =>
    match operandType c, vs with
    | none, vs => bitNumber p vs
    | some .bitNum, v :: _ => some v
    | some _, _ :: vs => bitNumber p vs
    | some _, [] => none

/-- The bytes of an instruction of `size` bytes in all at address `pc`: the opcode bytes, the operands, and a last byte
that a bit number is combined with. -/
def codeBytes (ez80 long : Bool) (pc size : Int) (i : Instr) (vs : List Int) : Option (List Nat) :=
  match operandCode ez80 long pc size i.args vs with
  | none => none
  | some m =>
    if i.hasEnd then
      match bitNumber i.args vs with
      | none => some (i.data ++ m ++ [i.endData])
      | some b => (encode ez80 pc .bitNum size i.endData b).map fun e => i.data ++ m ++ e
    else some (i.data ++ m)

/-- Ways to write the same instruction: the accumulator may be written as first operand where it is the only
possibility; SL1 is another name of SLL; a restart vector can be written in the Intel way. -/
inductive Synonym : List Nat × List Tok → List Nat × List Tok → Prop
  | same (x) : Synonym x x
  | accumulator (m t) : m ∈ [b! "SUB", b! "AND", b! "XOR", b! "OR", b! "CP"] → Synonym (m, t) (m, .ch 65 :: .ch 44 :: t)
  | sl1 (t) : Synonym (b! "SLL", t) (b! "SL1", t)
  | vector (n : Nat) (t : List Nat) : [b! "00H", b! "08H", b! "10H", b! "18H", b! "20H", b! "28H", b! "30H", b! "38H"][n]? = some t →
      Synonym (b! "RST", [.num (8 * n)]) (b! "RST", t.map .ch)

end Spasm.Spec
