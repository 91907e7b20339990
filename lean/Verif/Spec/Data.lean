import Verif.Spec.Split
import Verif.Spec.Output

/-
Specification vocabulary: the operands of data directives. These definitions do not use any function of the model.
-/

namespace Spasm.Spec

/-- The text between the quotes of a string, and the characters it stands for: escape sequences are replaced,
other characters stand for themselves. -/
inductive Chars : List Nat → List Nat → Prop
  | nil : Chars [] []
  | char (c t cs) : c ≠ 34 → c ≠ 92 → 0 < c → c < 256 → Chars t cs → Chars (c :: t) (c :: cs)
  | escape (c : Nat) (v : Int) (t cs) : (c, v) ∈ escapes → v ≠ 0 → Chars t cs → Chars (92 :: c :: t) (v.toNat :: cs)

/-- The `n` bytes of a number, the least significant first. -/
def littleEndian : Nat → Int → List Nat
  | 0, _ => []
  | n + 1, v => (v % 256).toNat :: littleEndian n (v / 256)

/-- The warning for a number that loses bits: always for one byte, in eZ80 mode for two bytes. -/
def truncation (ez80 : Bool) (n : Nat) (v : Int) : List Nat :=
  if n = 1 ∧ ¬ (-128 ≤ v ∧ v ≤ 255) then [0x800]
  else if n = 2 ∧ ez80 = true ∧ ¬ (-32768 ≤ v ∧ v ≤ 65535) then [0x801]
  else []

/-- The operands `args` of a directive for data of `n` bytes, placed at address `pc`, stand for the bytes `bs` and
cause the warnings `ws`. A number is an expression, evaluated at the address of its own place; parentheses and
texts of names are nested less than `depth` deep. -/
inductive Data (ez80 : Bool) (label : List Nat → Option Int) (text : List Nat → Option (List Nat)) (depth n : Nat) :
    Nat → List (List Nat) → List Nat → List Nat → Prop
  | nil (pc) : Data ez80 label text depth n pc [] [] []
  | number (pc d t v args bs ws) : Denotes (asInt32 pc) label text d t v → d < depth → Data ez80 label text depth n (pc + n) args bs ws →
      Data ez80 label text depth n pc (t :: args) (littleEndian n v ++ bs) (truncation ez80 n v ++ ws)
  | string (pc body cs args bs ws) : Chars body cs → Data ez80 label text depth n (pc + cs.length) args bs ws →
      Data ez80 label text depth n pc ((34 :: body ++ [34]) :: args) (cs ++ bs) ws

/-- The directives for data and the number of bytes of each datum. -/
def dataDirectives : List (List Nat × Nat) :=
  [(b! ".db", 1), (b! ".DB", 1), (b! ".byte", 1), (b! ".BYTE", 1),
   (b! ".dw", 2), (b! ".DW", 2), (b! ".word", 2), (b! ".WORD", 2),
   (b! ".dl", 3), (b! ".DL", 3), (b! ".long", 3), (b! ".LONG", 3)]

/-- The state after the bytes `bs` were placed at the current address, with the warnings `ws` on record. Two variables
of the expression parser that nobody else reads may change. -/
def afterData (bs ws : List Nat) (depth : Int) (fwd : Bool) (s : S) : S :=
  { emitted bs s with
    pc := (s.pc + bs.length) % 4294967296
    statsData := s.statsData + bs.length
    errors := ws.reverse.map (fun c => ⟨c, s.session, true, s.lineNum, s.currFile⟩) ++ s.errors
    parseDepth := depth
    fwdRef := fwd }

end Spasm.Spec
