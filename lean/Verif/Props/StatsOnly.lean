import Verif.Lemmas.Veil
import Verif.Props.Statistics

/-
C76: asking for statistics changes nothing else.
-/

namespace Spasm.Props
open Spasm Spec

/-- C76: -S in front of any command line, for any files. The run ends in the same way, with the same status. What it shows and writes
is the same, in the same order; if the run comes to its end, one text with statistics may follow. -/
theorem C76_only_statistics (fuel : Nat) (md5 : List Nat → List Nat) (fs : Str → Option (List Nat)) (mem rand : Nat → Nat) (cwd : Str)
    (args : List Str) (h : args ≠ []) :
    (∃ e s s', spasm fuel md5 fs mem rand cwd args = .stop e s ∧ spasm fuel md5 fs mem rand cwd (b! "-S" :: args) = .stop e s' ∧
      s'.log = s.log) ∨
    ∃ c s s', spasm fuel md5 fs mem rand cwd args = .ok c s ∧ spasm fuel md5 fs mem rand cwd (b! "-S" :: args) = .ok c s' ∧
      (s'.log = s.log ∨ ∃ labels defines code data, s'.log = s.log ++ [.text (statistics labels defines code data)]) := by
  unfold spasm
  rcases beside_mainBody fuel md5 cwd args h (startState fs mem rand) with ⟨e, t, h1, h2⟩ | ⟨c, t, h1, h2⟩
  · exact .inl ⟨e, t, veil false t, h1, h2, rfl⟩
  · refine .inr ⟨c, t, ?_⟩
    rcases h2 with h2 | h2
    · exact ⟨veil false t, h1, h2, .inl rfl⟩
    · refine ⟨counted t, h1, h2, ?_⟩
      unfold counted
      dsimp only
      split
      · exact .inl rfl
      · exact .inr ⟨_, _, _, _, by rw [statsText_eq]⟩

/-- A program with a label and an operand that cannot be read: with -S the same message, file and status, then the statistics. -/
example : let p := asm (b! "a: .db 30,a\n .dw a\n ld a,b c\n") [b! "a.asm"]
    let q := asm (b! "a: .db 30,a\n .dw a\n ld a,b c\n") [b! "-S", b! "a.asm"]
    p.state.log = [.printed E.LABEL_NOT_FOUND false, .wrote (b! "a.bin") [30, 0, 0, 0, 62, 0]] ∧
      q.state.log = p.state.log ++ [.text (statistics 1 10 2 4)] := by
  decide +kernel

/-- A run that ends early: with -S the same. -/
example : exitStatus (asm (b! " .db 300\n") [b! "a.asm"]) = some 3 ∧
    (asm (b! " .db 300\n") [b! "-S", b! "a.asm"]).state.log = (asm (b! " .db 300\n") [b! "a.asm"]).state.log := by
  decide +kernel

end Spasm.Props
