import Verif.Spec.Instr
import Verif.Spec.Define

/-
Specification vocabulary: definitions of instructions with .addinstr.
-/

namespace Spasm.Spec

/-- Hexadecimal digits, two for every byte. The bytes `bs` are listed in the order of the code, which is from right to
left: `6069` stands for the bytes 69h, 60h, as in the instruction tables of TASM. -/
inductive HexBytes : List Nat → List Nat → Prop
  | nil : HexBytes [] []
  | cons (h l x y t bs) : digit h = some x → digit l = some y → HexBytes t bs → HexBytes (h :: l :: t) (bs ++ [16 * x + y])

/-- A word of a definition: there are blanks and tabs only in parentheses or quotes. -/
structure Column (w : List Nat) : Prop where
  balanced : Balanced [32, 9] false w
  trimmed : Trimmed w
  short : w.length ≤ 254

/-- Blanks between words. -/
def Gap (g : List Nat) : Prop := ∃ c b, g = c :: b ∧ (c = 32 ∨ c = 9) ∧ Blanks b

/-- The operand pattern is written as it is or in string quotes, which is how an empty pattern is written. -/
def PatternText (w pat : List Nat) : Prop :=
  Column w ∧ (∀ c ∈ pat, c ≠ 34 ∧ c ≠ 92 ∧ c ≠ 0) ∧ (w = pat ∨ w = 34 :: pat ++ [34])

/-- What may follow the size: up to two words, which have no meaning, or two words and the last byte of the instruction. -/
inductive Extras : List Nat → Option Nat → Prop
  | none : Extras [] none
  | one (g w) : Gap g → Column w → Extras (g ++ w) none
  | two (g w g' w') : Gap g → Column w → Gap g' → Column w' → Extras (g ++ w ++ g' ++ w') none
  | last (g w g' w' g'' h b) : Gap g → Column w → Gap g' → Column w' → Gap g'' → HexBytes h [b] → Extras (g ++ w ++ g' ++ w' ++ g'' ++ h) (some b)

/-- A `*` in a pattern stands for a word if two bytes are left for operands, and for a byte otherwise. -/
def widen (left : Int) (pat : List Nat) : List Nat := if left = 2 then pat else pat.map fun c => if c = 42 then 38 else c

/-- The entry for a definition with these opcode bytes, last byte and size. -/
def addedEntry (pat bs : List Nat) (last : Option Nat) (size : Int) : Instr where
  args := widen (size - bs.length - if last.isSome then 1 else 0) pat
  data := bs
  hasEnd := last.isSome
  endData := last.getD 0
  size := size
  minTime := 0
  maxTime := 0
  adlTime := 0

/-- A definition: mnemonic, operand pattern, opcode bytes, size, and the rest. -/
structure Definition (m w pat hex bs : List Nat) (sz ex : List Nat) (last : Option Nat) (text : List Nat) : Prop where
  mnemonic : Mnemonic m ∧ m.length ≤ 254
  pattern : PatternText w pat ∧ pat.count 42 ≤ 1
  bytes : HexBytes hex bs ∧ bs ≠ [] ∧ bs.length ≤ 4
  size : Column sz
  extras : Extras ex last
  text : ∃ g1 g2 g3 b, Gap g1 ∧ Gap g2 ∧ Gap g3 ∧ (b = [] ∨ Gap b) ∧ text = m ++ g1 ++ w ++ g2 ++ hex ++ g3 ++ sz ++ ex ++ b

end Spasm.Spec
