import Verif.Spec.Macro
import Verif.Spec.Message

/-
Specification vocabulary: the text buffers of `buf`, `clr`, `wr` and `run`.
-/

namespace Spasm.Spec

/-- `name` is the built-in statement `word` in small or capital letters, and no mnemonic of the instruction table, which
consists of letters and digits, is called so. -/
structure BuiltIn (s : S) (word name : List Nat) : Prop where
  same : name.map upperCase = word
  table : ∀ o ∈ s.opcodes, ∀ c ∈ o.name, Alnum c
  noMnemonic : ∀ o ∈ s.opcodes, o.name.map upperCase ≠ word

/-- The text of buffer `i` is now `v`. -/
def withBuffer (i : Nat) (v : Option (List Nat)) (s : S) : S := { s with bufs := fun j => if j = i then v else s.bufs j }

/-- What can be done with the buffers: selecting one of the ten, emptying the selected one, adding a line to it. -/
inductive BufferOp where
  | select (i : Nat)
  | clear
  | write (m : List Nat)

/-- The effect on the number of the selected buffer and the texts of the buffers. -/
def BufferOp.apply : BufferOp → Nat × (Nat → Option (List Nat)) → Nat × (Nat → Option (List Nat))
  | select i, (_, t) => (i, t)
  | clear, (i, t) => (i, fun j => if j = i then some [] else t j)
  | write m, (i, t) => (i, fun j => if j = i then some ((t i).getD [] ++ m ++ [10]) else t j)

/-- The statement `l` says to do this: `buf(number)`, `clr()`, or `wr(…)` with the line as strings and numbers. -/
def BufferStatement (s : S) (depth : Nat) (op : BufferOp) (l : List Nat) : Prop :=
  ∃ b name, Blanks b ∧ match op with
    | .select i => ∃ b1 a b2 d, BuiltIn s (b! "BUF") name ∧ l = b ++ name ++ 40 :: (b1 ++ a ++ b2 ++ [41]) ∧ Blanks b1 ∧ Blanks b2 ∧
        (a ++ b2).length ≤ 254 ∧ Denotes (toI32 s.pc) (visibleLabel s) (visibleText s) d a i ∧ d < depth ∧ i < 10
    | .clear => BuiltIn s (b! "CLR") name ∧ l = b ++ name ++ [40, 41]
    | .write m => ∃ args t, BuiltIn s (b! "WR") name ∧ l = b ++ name ++ 40 :: (t ++ [41]) ∧ Joined args t ∧
        Message (toI32 s.pc) (visibleLabel s) (visibleText s) depth args m

/-- The state in which the lines of a buffer are assembled: as the lines of a file of their own, from line 1 on and, on an
eZ80, in ADL mode; a new session of messages is open. -/
def inBuffer (s : S) : S :=
  { s with session := s.session + 1, currFile := b! "Built-in fcreate", lineNum := 1, adl := if s.mode.ez80 then true else s.adl }

/-- Back behind `run()`: what the lines did (`s'`), with the buffer gone and at the place of the statement. The messages of
the lines are now those of the statement. -/
def afterBuffer (i : Nat) (s s' : S) : S :=
  withBuffer i none
    { s' with
      session := s'.session - 1
      inMacro := s.inMacro
      currFile := s.currFile
      lineNum := s.lineNum
      errors := s'.errors.map (fun e => if e.sess = s'.session then { e with sess := e.sess - 1 } else e) }

end Spasm.Spec
