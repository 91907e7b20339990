import Verif.Lemmas.InstrAdv
import Verif.Props.Run

/-
Instruction sizes, and the agreement of the program counter with the output (C18, C22).
-/

namespace Spasm.Props
open Spasm Spec

/-! ### C18 -/

/-- The size of every entry of the two tables, as a computation. -/
theorem table_sizes : (z80Table ++ ez80Table).all (fun o => o.instrs.all (fun i => i.size == encodedLength false i)) = true := by
  decide +kernel

/-- C18, the tables: the size of every entry is the number of its opcode bytes, operand bytes and trailing byte. -/
theorem C18_tables : ∀ o ∈ z80Table ++ ez80Table, ∀ i ∈ o.instrs, i.size = encodedLength false i := by
  intro o ho i hi
  have h1 := List.all_eq_true.mp table_sizes o ho
  exact eq_of_beq (List.all_eq_true.mp h1 i hi)

/-- C18: writing an instruction with any operands appends exactly as many bytes as the size it returns, which is
the number of bytes of the entry, one more for a suffix and one more for a 24-bit immediate. The hypothesis on the
entry holds for all built-in ones by `C18_tables`. Missing: operands in whose evaluation a define with preprocessor
lines is run (part of `Accepted`). -/
theorem C18_emitted_partial (n : Nat) (i : Instr) (operands : List (Str × Str)) (suffix : Option Nat) (size : Int)
    (s s' : S) (hi : i.size = encodedLength false i) (hs : InSession s)
    (hmode : s.mode.normal = true ∨ s.mode.list = true)
    (h : writeInstr (knot n) i operands suffix s = .ok size s') (ha : Accepted s s') :
    Appended size.toNat s s' ∧
      size = encodedLength (longImmediate suffix s) i + (if suffix.isSome then 1 else 0) := by
  obtain ⟨g, hsz⟩ := grow_writeInstr h hi (wf_of_inSession hs) (calm_of_accepted ha) (by
    unfold Emitting; rcases hmode with h | h <;> simp [h])
  refine ⟨?_, hsz⟩
  have : size.toNat = encodedLength (longImmediate suffix s) i + (if suffix.isSome then 1 else 0) := by
    rw [hsz]
    split <;> rfl
  rw [this]
  exact ⟨g.out, g.mem⟩

/-- A state inside an error session, for examples. -/
def busy : S :=
  { session := 1, outPtr := 100, pc := 0x9D95, opcodes := z80Table,
    labels := [(b! "X", ⟨b! "X", 0x34, 1, []⟩)] }

example : InSession busy := ⟨show (1 : Int) ≤ 1 by decide, fun _ he => absurd he (List.not_mem_nil)⟩

example : returns (writeInstr (knot 6) ⟨b! "(IX@),&", [0xdd, 0x36], false, 0, 4, 19, 19, 0⟩ [(b! "+5),x", b! "),x"), (b! "x", b! "")]
    none busy) (fun size s' => size == 4 && s'.outPtr == 104 && fatalCount s' == 0 && !s'.stale && !s'.spread &&
      !s'.ranPreop && (List.range 4).map (fun j => s'.mem (100 + j)) == [0xdd, 0x36, 5, 0x34]) = true := by
  decide +kernel

/-! ### C22 -/

/-- C22, instructions: a statement that is an instruction of a table advances the program counter by exactly the
number of bytes it appends to the output. -/
theorem C22_instruction_partial (n : Nat) (name rest rest' : Str) (suffix : Option Nat) (nameLength : Nat)
    (s s' : S) (htab : s.opcodes = z80Table ∨ s.opcodes = ez80Table) (hs : InSession s)
    (hmode : s.mode.normal = true ∨ s.mode.list = true)
    (h : doInstr (knot n) (findOpcode (name ++ rest) nameLength s.opcodes) name rest suffix s = .ok rest' s')
    (ha : Accepted s s') : ∃ m, Together m s s' := by
  have ho : ∀ o ∈ findOpcode (name ++ rest) nameLength s.opcodes, ∀ i ∈ o.instrs, i.size = encodedLength false i := by
    intro o ho
    have := findOpcode_mem ho
    refine C18_tables o (List.mem_append.mpr ?_)
    rcases htab with h | h <;> rw [h] at this
    · exact .inl this
    · exact .inr this
  obtain ⟨s1, h⟩ := adv_doInstr h ho (wf_of_inSession hs) (calm_of_accepted ha) (by
    unfold Emitting; rcases hmode with h | h <;> simp [h])
  rcases h with ⟨_, _, a⟩ | ⟨i, caps, _, a⟩
  · exact ⟨_, ⟨a.out, a.mem⟩, a.pc⟩
  · exact ⟨_, ⟨a.out, a.mem⟩, a.pc⟩

example : returns (doInstr (knot 6) (findOpcode (b! "ld hl,later") 2 busy.opcodes) (b! "ld") (b! " hl,later") none busy)
    (fun _ s' => s'.pc == 0x9D98 && s'.outPtr == 103 && fatalCount s' == 0 && !s'.stale && !s'.spread &&
      !s'.ranPreop) = true := by
  decide +kernel

/-- C22, data directives (.db, .byte, .dw, .word, .dl, .long, .fill, .block) with any operand list. -/
theorem C22_data_partial (n : Nat) (d : Dir) (operands : Str) (rest : Option Str) (s s' : S)
    (hd : d ∈ [Dir.db, .byte, .dw, .word, .dl, .long, .fill, .block]) (hs : InSession s)
    (hmode : s.mode.normal = true ∨ s.mode.list = true)
    (h : runDir (knot n) d operands s = .ok rest s') (ha : Accepted s s') : ∃ m, Together m s s' := by
  obtain ⟨m, a⟩ := adv_runDir (by simp at hd; rcases hd with rfl | rfl | rfl | rfl | rfl | rfl | rfl | rfl <;> rfl) h
    (wf_of_inSession hs) (calm_of_accepted ha) (by unfold Emitting; rcases hmode with h | h <;> simp [h])
  exact ⟨m, ⟨a.out, a.mem⟩, a.pc⟩

example : returns (runDir (knot 6) .dw (b! "1,\"ab\",x,later") busy)
    (fun _ s' => s'.pc == 0x9D95 + 8 && s'.outPtr == 108 && fatalCount s' == 0 && !s'.stale && !s'.spread &&
      !s'.ranPreop) = true := by
  decide +kernel

end Spasm.Props
