import Verif.Lemmas.Fuel
import Verif.Lemmas.ReproMain
import Verif.Props.Run
import Verif.Spec.Reproducible

/-
C66: a program has one result, and assembling it again gives the same messages and the same files.
-/

namespace Spasm.Props
open Spec

/-! ### The recursion budget does not matter -/

/-- C66: once the recursion budget suffices, a larger budget changes nothing. -/
theorem C66_budget (i : Input) (mem rand : Nat → Nat) (n m : Nat) (h : n ≤ m) (hn : ending (i.run n mem rand) ≠ .fuel) :
    i.run m mem rand = i.run n mem rand := by
  rcases spasm_le h i.md5 i.fs mem rand i.cwd i.args with e | ⟨s, e⟩
  · exact e.symm
  · unfold Input.run at hn
    rw [e] at hn
    exact absurd rfl hn

/-- C66: a run has at most one outcome. -/
theorem C66_outcome_unique (i : Input) (mem rand : Nat → Nat) (r r' : Res Nat) (h : Outcome i mem rand r)
    (h' : Outcome i mem rand r') : r = r' := by
  obtain ⟨_, n, h⟩ := h
  obtain ⟨_, n', h'⟩ := h'
  rw [← h (max n n') (Nat.le_max_left ..), h' (max n n') (Nat.le_max_right ..)]

/-- C66: a run that ends within some budget has that result as its outcome; the other runs use up every budget. -/
theorem C66_outcome (i : Input) (mem rand : Nat → Nat) :
    (∀ n, ending (i.run n mem rand) ≠ .fuel → Outcome i mem rand (i.run n mem rand)) ∧
    ((¬ ∃ r, Outcome i mem rand r) → ∀ n, ending (i.run n mem rand) = .fuel) := by
  have h1 : ∀ n, ending (i.run n mem rand) ≠ .fuel → Outcome i mem rand (i.run n mem rand) :=
    fun n hn => ⟨hn, n, fun m hm => C66_budget i mem rand n m hm hn⟩
  refine ⟨h1, fun h n => ?_⟩
  by_cases hn : ending (i.run n mem rand) = .fuel
  · exact hn
  · exact absurd ⟨_, h1 n hn⟩ h

/-- The input of the examples: one source file `a.asm`. -/
def oneFile (src : Str) (args : List Str) : Input :=
  ⟨fun _ => [], fun p => if p = b! "a.asm" then some src else none, [], args⟩

/-- What the examples of the other properties show for a budget of 9 is the outcome. -/
theorem asm_outcome (src : Str) (args : List Str) (h : ending (asm src args) ≠ .fuel) :
    Outcome (oneFile src args) (fun _ => 0) (fun _ => 0) (asm src args) :=
  (C66_outcome (oneFile src args) _ _).1 9 h

/-- A program with a loop, a macro and a label defined later. -/
def sample : Str := b! "#macro twice(x)\n .dw x\n .dw x\n#endmacro\n#define n 3\na: ld hl,later\n twice(n*2)\n #ifdef n\n djnz a\n#endif\nlater:\n .db \"ab\",0\n"

example : ending (asm sample [b! "a.asm"]) ≠ .fuel ∧ Ev.wrote (b! "a.bin") [33, 9, 0, 6, 0, 6, 0, 16, 247, 97, 98, 0] ∈ (asm sample [b! "a.asm"]).state.log := by
  decide +kernel

/-! ### The same result again -/

/-- C66, partial: the other contents of the output buffer and other random numbers give the same status, messages and files, in
every program that uses neither '\#' nor .seek and that is not a program for the TI-83 Plus of fewer than two bytes.
Missing: those three cases, in which it is false, see below. -/
theorem C66_reproducible_partial (i : Input) (budget : Nat) (mem rand mem' rand' : Nat → Nat)
    (hr : NoRandom (i.run budget mem rand)) (hs : NoSeek (i.run budget mem rand)) (hl : Spec.LongEnough (i.run budget mem rand)) :
    observed (i.run budget mem' rand') = observed (i.run budget mem rand) := by
  obtain ⟨ν, e⟩ := (end_mainBody budget i.md5 i.cwd i.args (startState i.fs mem rand)).run mem' rand' hr hs hl
    (fun j hj => absurd hj (Nat.not_lt_zero j))
  have e2 : i.run budget mem' rand' = (i.run budget mem rand).onState (swap ν rand') := e
  rw [e2]
  cases i.run budget mem rand <;> rfl

/-- C66, partial: the same for outcomes. -/
theorem C66_outcome_reproducible_partial (i : Input) (mem rand mem' rand' : Nat → Nat) (r : Res Nat) (h : Outcome i mem rand r)
    (hr : NoRandom r) (hs : NoSeek r) (hl : Spec.LongEnough r) :
    ∃ r', Outcome i mem' rand' r' ∧ observed r' = observed r := by
  obtain ⟨hf, n, hn⟩ := h
  have e := hn n (Nat.le_refl n)
  have ho := C66_reproducible_partial i n mem rand mem' rand' (e ▸ hr) (e ▸ hs) (e ▸ hl)
  refine ⟨_, (C66_outcome i mem' rand').1 n ?_, e ▸ ho⟩
  rw [show ending (i.run n mem' rand') = ending (i.run n mem rand) from congrArg Prod.fst ho, e]
  exact hf

/-- The program above meets the conditions, as a `.bin` file and as a `.8xp` file. -/
example : NoRandom (asm sample [b! "a.asm", b! "a.8xp"]) ∧ NoSeek (asm sample [b! "a.asm", b! "a.8xp"]) ∧
    2 ≤ (asm sample [b! "a.asm", b! "a.8xp"]).state.outPtr ∧ exitStatus (asm sample [b! "a.asm", b! "a.8xp"]) = some 1 ∧
    NoRandom (asm sample [b! "a.asm"]) ∧ NoSeek (asm sample [b! "a.asm"]) ∧ exitStatus (asm sample [b! "a.asm"]) = some 0 := by
  unfold NoRandom NoSeek
  decide +kernel

/-- C66 fails for .seek: the bytes skipped are whatever the memory held. -/
theorem C66_seek_gap :
    let i := oneFile (b! " .seek 1\n .db 7\n") [b! "a.asm"]
    (Ev.wrote (b! "a.bin") [0, 7] ∈ (i.run 9 (fun _ => 0) (fun _ => 0)).state.log) ∧
    (Ev.wrote (b! "a.bin") [85, 7] ∈ (i.run 9 (fun _ => 85) (fun _ => 0)).state.log) := by
  decide +kernel

/-- C66 fails for '\#': the byte is random. -/
theorem C66_random : observed ((oneFile (b! " .db '\\#'\n") [b! "a.asm"]).run 9 (fun _ => 0) (fun _ => 3)) ≠
    observed ((oneFile (b! " .db '\\#'\n") [b! "a.asm"]).run 9 (fun _ => 0) (fun _ => 4)) := by
  decide +kernel

/-- C66 fails for a program for the TI-83 Plus of fewer than two bytes: whether the warning is given that the program does not
begin with the bytes `BB 6D` depends on what the memory held. -/
theorem C66_short_program :
    let i := oneFile (b! " .db $BB\n") [b! "a.asm", b! "a.8xp"]
    (Ev.warning (.misc 4) ∈ (i.run 9 (fun _ => 0) (fun _ => 0)).state.log) ∧
    (Ev.warning (.misc 4) ∉ (i.run 9 (fun _ => 109) (fun _ => 0)).state.log) := by
  decide +kernel

end Spasm.Props
