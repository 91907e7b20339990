import Verif.Spec.Data
import Verif.Spec.Decode
import Verif.Spec.Names
import Verif.Spec.Emit

/-
Specification vocabulary: instruction statements. These definitions do not use any function of the model.
-/

namespace Spasm.Spec

/-- The operands of an instruction end here, for this operand: the end of the list, a comma or a closing parenthesis. -/
def OperandEnds (t : List Nat) : Prop := t = [] ∨ ∃ r, t = 44 :: r ∨ t = 41 :: r

/-- The text `text` is written after the operand pattern `pat`, with the texts `ops` in the places of the operand
characters: the other characters of the pattern appear as they are, in upper or lower case, with blanks anywhere
between them. An operand is a balanced text up to the next comma or parenthesis; it can be empty only in front of one. A
displacement (`@`) does not start with a character of a name, and may be missing at the end. -/
inductive Fits : List Nat → List Nat → List (List Nat) → Prop
  | done : Fits [] [] []
  | literal (c x bl pat t ops) : operandType c = none → ¬ White c → upperCase x = upperCase c → Blanks bl → Fits pat t ops →
      Fits (c :: pat) (x :: bl ++ t) ops
  | operand (c o bl pat t ops) : operandType c ≠ none → Balanced [44] false o → Trimmed o → Blanks bl → OperandEnds t →
      (c = 64 → ∀ x ∈ o.head?, ¬ NameChar x) → Fits pat t ops → Fits (c :: pat) (o ++ bl ++ t) (o :: ops)
  | empty (c pat t ops) : operandType c ≠ none → t ≠ [] → OperandEnds t → Fits pat t ops → Fits (c :: pat) t ([] :: ops)
  | missing : Fits [64] [] [[]]

/-- `i` is the first of the entries whose pattern the text is written after; `ops` are the operands. -/
def FirstFit (entries : List Instr) (text : List Nat) (i : Instr) (ops : List (List Nat)) : Prop :=
  ∃ before after, entries = before ++ i :: after ∧ Fits i.args text ops ∧ ∀ j ∈ before, ∀ ops', ¬ Fits j.args text ops'

/-- Two texts are the same but for upper and lower case. -/
def SameText (a b : List Nat) : Prop := a.map upperCase = b.map upperCase

instance (a b : List Nat) : Decidable (SameText a b) := by unfold SameText; infer_instance

/-- The entries of a mnemonic: those of the first opcode of that name and of the following ones with the same name. -/
def entriesOf (name : List Nat) (opcodes : List Opcode) : List Instr :=
  ((opcodes.dropWhile (fun o => !decide (SameText o.name name))).takeWhile (fun o => decide (SameText o.name name))).flatMap (·.instrs)

/-- An operand list that can be scanned from any place: its parentheses, strings and character constants are complete,
no comma has a comma or a closing parenthesis right behind it, and it is not too long. -/
structure Scannable (text : List Nat) : Prop where
  balanced : Balanced [] true text
  commas : ∀ a b, text ≠ a ++ 44 :: 44 :: b ∧ text ≠ a ++ 44 :: 41 :: b
  short : text.length ≤ 254

/-- The pattern has no operands. -/
def NoOperands (pat : List Nat) : Prop := ∀ c ∈ pat, operandType c = none

/-- An instruction pattern that is usable: at most three operands, and no blanks. -/
structure Regular (pat : List Nat) : Prop where
  few : (pat.filter (fun c => (operandType c).isSome)).length ≤ 3
  blanks : ∀ c ∈ pat, ¬ White c

/-- Operand lists for the pattern: any text without statement ends if the pattern has no operands, otherwise a text that
can be scanned. -/
def Readable (pat text : List Nat) : Prop :=
  (Scannable text ∧ 34 ∉ pat ∧ 39 ∉ pat) ∨ (NoOperands pat ∧ ∀ c ∈ text, c ≠ 10 ∧ c ≠ 13 ∧ c ≠ 59 ∧ c ≠ 92)

/-- The operands `ops` in the places of the operand characters of the pattern have the values `vs`. Every operand is an
expression, evaluated at the address of the instruction; a displacement is empty or begins with a sign, and is added
to 0. -/
inductive Values (pc : Int) (label : List Nat → Option Int) (text : List Nat → Option (List Nat)) (depth : Nat) :
    List Nat → List (List Nat) → List Int → Prop
  | nil : Values pc label text depth [] [] []
  | literal (c pat ops vs) : operandType c = none → Values pc label text depth pat ops vs → Values pc label text depth (c :: pat) ops vs
  | operand (c o d v pat ops vs) : operandType c ≠ none → c ≠ 64 → Denotes pc label text d o v → d < depth →
      Values pc label text depth pat ops vs → Values pc label text depth (c :: pat) (o :: ops) (v :: vs)
  | displacement (o d v pat ops vs) : (o = [] ∨ ∃ r, o = 43 :: r ∨ o = 45 :: r) → Denotes pc label text d (48 :: o) v → d < depth →
      Values pc label text depth pat ops vs → Values pc label text depth (64 :: pat) (o :: ops) (v :: vs)

/-- The same for any notion `worth` of the value of an expression. -/
inductive ValuesBy (worth : List Nat → Int → Prop) : List Nat → List (List Nat) → List Int → Prop
  | nil : ValuesBy worth [] [] []
  | literal (c pat ops vs) : operandType c = none → ValuesBy worth pat ops vs → ValuesBy worth (c :: pat) ops vs
  | operand (c o v pat ops vs) : operandType c ≠ none → c ≠ 64 → worth o v → ValuesBy worth pat ops vs → ValuesBy worth (c :: pat) (o :: ops) (v :: vs)
  | displacement (o v pat ops vs) : (o = [] ∨ ∃ r, o = 43 :: r ∨ o = 45 :: r) → worth (48 :: o) v → ValuesBy worth pat ops vs →
      ValuesBy worth (64 :: pat) (o :: ops) (v :: vs)

/-- An operand in parentheses: the one in front is still open before the last character. -/
def Wrapped (o : List Nat) : Bool :=
  o.head? == some 40 && (List.range (o.length - 2)).all (fun k => decide ((o.take (k + 1)).count 41 < (o.take (k + 1)).count 40))

/-- The warnings for operands that lose bits. -/
def operandWarnings (ez80 long : Bool) : List Nat → List Int → List Nat
  | [], _ => []
  | c :: p, vs =>
    match longType long c, vs with
    | none, vs => operandWarnings ez80 long p vs
    | some .num8, v :: vs => truncation ez80 1 v ++ operandWarnings ez80 long p vs
    | some .num16, v :: vs => truncation ez80 2 v ++ operandWarnings ez80 long p vs
    | some _, _ :: vs => operandWarnings ez80 long p vs
    | some _, [] => []

/-- An entry that can be written: bytes are bytes, there is at most one bit number, no jump distance together with an
immediate, and the recorded size is the number of bytes, which is not huge. -/
structure Writable (i : Instr) : Prop where
  regular : Regular i.args
  bytes : (∀ b ∈ i.data, b < 256) ∧ i.endData < 256
  oneBit : i.args.count 94 ≤ 1
  jump : 37 ∈ i.args → 42 ∉ i.args
  size : i.size = encodedLength false i
  short : encodedLength false i ≤ 60000

/-- An entry that can be written, whatever size is recorded for it. -/
structure Encodable (i : Instr) : Prop where
  regular : Regular i.args
  bytes : (∀ b ∈ i.data, b < 256) ∧ i.endData < 256
  oneBit : i.args.count 94 ≤ 1
  jump : 37 ∈ i.args → 42 ∉ i.args
  size : 0 ≤ i.size ∧ i.size ≤ 60000

/-- By how much an instruction moves the address: the recorded size, the prefix byte, and another byte for every
immediate of 24 bits. -/
def movesBy (long : Bool) (pre : List Nat) (i : Instr) : Int := pre.length + i.size + if long then (i.args.count 42 : Int) else 0

/-- How long an instruction takes at least and at most: the times of its entry, one cycle for the prefix byte, and what ADL
mode adds. That is counted in ADL mode for instructions without a suffix, and for every suffix but `.SIS`. -/
def takes (adl : Bool) (pre : List Nat) (i : Instr) : Int × Int :=
  let more : Int := pre.length + if (if pre = [] then adl else pre != [0x40]) then i.adlTime else 0
  (i.minTime + more, i.maxTime + more)

/-- The state after the instruction bytes `bs`, which take the times `t`, were placed at the current address, with the
warnings `ws` on record and `n` suggestions to remove parentheses shown. Two variables of the expression parser that nobody else reads may
change. -/
def afterCode (t : Int × Int) (bs ws : List Nat) (n : Nat) (depth : Int) (fwd : Bool) (s : S) : S :=
  { emitted bs s with
    pc := (s.pc + bs.length) % 4294967296
    statsCode := s.statsCode + bs.length
    statsMin := s.statsMin + t.1
    statsMax := s.statsMax + t.2
    errors := ws.reverse.map (fun c => ⟨c, s.session, true, s.lineNum, s.currFile⟩) ++ s.errors
    exitCode := if n = 0 then s.exitCode else max s.exitCode 1
    log := s.log ++ List.replicate n (.warning .parenAdvice)
    parseDepth := depth
    fwdRef := fwd }

/-- The same when the address moves by `n`. -/
def afterCodeBy (n : Int) (t : Int × Int) (bs ws : List Nat) (k : Nat) (depth : Int) (fwd : Bool) (s : S) : S :=
  { afterCode t bs ws k depth fwd s with pc := (s.pc + n) % 4294967296, statsCode := s.statsCode + n }

/-- The suffixes of an eZ80 instruction, with the prefix byte, and whether immediates have 24 bits. The first letter
selects the registers and addresses, the second the length of immediates; with one letter missing the mode decides. -/
def suffixes (adl : Bool) : List (List Nat × Nat × Bool) :=
  [(b! ".SIS", 0x40, false), (b! ".LIS", 0x49, false), (b! ".SIL", 0x52, true), (b! ".LIL", 0x5B, true),
   (b! ".S", if adl then 0x52 else 0x40, adl), (b! ".L", if adl then 0x5B else 0x49, adl),
   (b! ".IS", if adl then 0x49 else 0x40, false), (b! ".IL", if adl then 0x5B else 0x52, true)]

/-- A mnemonic is followed by `u`: nothing, or on an eZ80 a suffix. `pre` is the prefix byte for it, and `long` says
whether immediates have 24 bits. -/
def Suffixed (s : S) (u pre : List Nat) (long : Bool) : Prop :=
  (u = [] ∧ pre = [] ∧ long = (s.mode.ez80 && s.adl)) ∨
  (s.mode.ez80 = true ∧ ∃ x ∈ suffixes s.adl, SameText u x.1 ∧ pre = [x.2.1] ∧ long = x.2.2)

/-- A mnemonic: letters and digits, beginning with a letter. -/
structure Mnemonic (m : List Nat) : Prop where
  letter : ∃ c r, m = c :: r ∧ ((65 ≤ c ∧ c ≤ 90) ∨ (97 ≤ c ∧ c ≤ 122))
  chars : ∀ c ∈ m, Alnum c

end Spasm.Spec
