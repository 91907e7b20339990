import Verif.Model.State

/-
Specification vocabulary: bytes appended to the output, problems put on record, diagnostics shown.
These definitions do not use any function of the model.
-/

namespace Spasm.Spec

/-- The state after the bytes `bs` were stored at the output position, and nothing else happened. -/
def emitted (bs : List Nat) (s : S) : S :=
  { s with
    mem := fun a =>
      if s.outPtr.toNat ≤ a ∧ a < s.outPtr.toNat + bs.length then bs.getD (a - s.outPtr.toNat) 0 else s.mem a
    outPtr := s.outPtr + bs.length }

/-- The output buffer has room for `n` more bytes (its size is 8000000 bytes). -/
def HasRoom (n : Nat) (s : S) : Prop := 0 ≤ s.outPtr ∧ s.outPtr + n ≤ 8000000

/-- The state after an error was put on record in the current session, and nothing else happened. -/
def errorAt (code : Nat) (s : S) : S :=
  { s with errors := ⟨code, s.session, false, s.lineNum, s.currFile⟩ :: s.errors }

/-- The state after a warning was put on record in the current session, and nothing else happened. -/
def warningAt (code : Nat) (s : S) : S :=
  { s with errors := ⟨code, s.session, true, s.lineNum, s.currFile⟩ :: s.errors }

/-- The state after an error message was shown at once: exit status at least 2. -/
def errorShown (m : Msg) (s : S) : S :=
  { s with exitCode := max s.exitCode 2, log := s.log ++ [.error m] }

/-- The number a byte stands for as a signed 8-bit number. -/
def signed8 (b : Nat) : Int := if b < 128 then b else (b : Int) - 256

end Spasm.Spec
