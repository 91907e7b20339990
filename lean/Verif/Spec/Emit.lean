import Verif.Model.State

/-
Specification vocabulary: operands and the places they take in the output. These definitions do not use any
function of the model.
-/

namespace Spasm.Spec

/-- The number of bytes an operand takes in the output. -/
def width : ArgTy → Nat
  | .num16 => 2
  | .num24 => 3
  | .num8 | .rst | .addrOffset | .ixIyOffset | .bitNum => 1

/-- Address `i` of the output belongs to the place reserved for a deferred operand. -/
def Reserved (e : PExpr) (i : Nat) : Prop := e.out ≤ i ∧ (i : Int) < e.out + width e.ty

/-- `n` bytes were appended to the output, and no other byte of it was changed. -/
def Appended (n : Nat) (s s' : S) : Prop :=
  s'.outPtr = s.outPtr + n ∧ ∀ i : Nat, (i : Int) < s.outPtr ∨ s.outPtr + n ≤ i → s'.mem i = s.mem i

/-- The symbols an expression can refer to, and the settings that affect how they are found, are the same; the
predefined `__LINE` and `__FILE` follow the position in the source. -/
structure SameSymbols (s s' : S) : Prop where
  labels : s'.labels = s.labels
  defines : ∀ name, name ≠ b! "__LINE" → name ≠ b! "__FILE" → s'.defines.find? (·.1 == name) = s.defines.find? (·.1 == name)
  anonymous : s'.reusables = s.reusables
  anonymousCount : s'.totalReusables = s.totalReusables
  caseSens : s'.caseSens = s.caseSens
  mode : s'.mode = s.mode
  files : s'.fs = s.fs

/-- The state with the position of a deferred operand: address, line, file and number of anonymous labels passed. -/
def atPlaceOf (e : PExpr) (s : S) : S :=
  { s with pc := e.pc % 4294967296, lineNum := e.line, currFile := e.file, currReusable := e.reusable + 1 }

/-- The bytes of an operand with a value, for an instruction of `size` bytes at address `pc`; none if the value is
out of range. `base` is the opcode byte that a bit number is combined with. -/
def encode (ez80 : Bool) (pc : Int) (ty : ArgTy) (size : Int) (base v : Int) : Option (List Nat) :=
  let byte (x : Int) : Nat := (x % 256).toNat
  let space : Int := if ez80 then 16777216 else 65536
  let dist := v % space - (pc % space + size)
  match ty with
  | .num8 => some [byte v]
  | .num16 => some [byte v, byte (v / 256)]
  | .num24 => some [byte v, byte (v / 256), byte (v / 65536)]
  | .addrOffset => if -128 ≤ dist ∧ dist ≤ 127 then some [byte dist] else none
  | .ixIyOffset => if -128 ≤ v ∧ v ≤ 127 then some [byte v] else none
  | .bitNum => if 0 ≤ v ∧ v ≤ 7 then some [byte (ior (v * 8) base)] else none
  | .rst => if 0 ≤ v ∧ v ≤ 0x38 ∧ v % 8 = 0 then some [byte (0xC7 + v)] else none

/-- Inside at least one error session, with no problem of a later session on record; so are all states while a
source is assembled. -/
def InSession (s : S) : Prop := 1 ≤ s.session ∧ ∀ e ∈ s.errors, e.sess ≤ s.session

/-- The number of fatal problems on record: all but forward references to local labels, unknown labels and too
deep text substitution. -/
def fatalCount (s : S) : Nat := s.errors.countP (fun e => !(e.code == 0x100 || e.code == 0x106 || e.code == 0x129 || e.code == 0))

/-- A statement led from `s` to `s'` and was accepted: it put no fatal problem on record; no operand was a malformed
string behind another operand, no define was used as several operands, and no evaluation of a define ran a
preprocessor line. -/
structure Accepted (s s' : S) : Prop where
  noFatal : fatalCount s' ≤ fatalCount s
  noStale : s'.stale = false
  noSpread : s'.spread = false
  noPreop : s'.ranPreop = false

/-- The address and the output advanced together by `n` bytes; the address has 32 bits. -/
def Together (n : Nat) (s s' : S) : Prop := Appended n s s' ∧ s'.pc % 4294967296 = (s.pc + n) % 4294967296

/-- The number of bytes an operand of an instruction pattern takes: `*` is an immediate of 16 bits, or 24 bits if
`long`; `&` a byte, `%` a jump distance, `@` an index displacement, `#` a restart vector. -/
def operandBytes (long : Bool) (c : Nat) : Nat :=
  if c = 42 then (if long then 3 else 2)
  else if c = 38 ∨ c = 37 ∨ c = 64 ∨ c = 35 then 1
  else 0

/-- The number of bytes of an instruction: opcode bytes, operands and the trailing opcode byte. -/
def encodedLength (long : Bool) (i : Instr) : Nat :=
  i.data.length + (i.args.map (operandBytes long)).sum + (if i.hasEnd then 1 else 0)

/-- Does an instruction take 24-bit immediates? A suffix decides (0 is SIS, 1 LIS, 2 SIL, 3 LIL), otherwise the
mode of an eZ80. -/
def longImmediate (suffix : Option Nat) (s : S) : Bool :=
  match suffix with
  | some x => decide (x ≥ 2)
  | none => s.mode.ez80 && s.adl

end Spasm.Spec
