import Verif.Lemmas.Output
import Verif.Model.Instr

/-
C10-C14 and the first-pass part of C15: what write_arg stores for each operand type.
Every theorem gives the complete final state, so nothing else is changed.
-/

namespace Spasm.Props
open Spasm Spec

/-! ### C10 -/

/-- C10: one byte, congruent to the value modulo 256; a truncation warning exactly outside -128..255. -/
theorem C10_num8 (value size orv : Int) (s : S) (room : HasRoom 1 s) :
    ∃ b : Nat, b < 256 ∧ (b : Int) % 256 = value % 256 ∧
      writeArg value .num8 size orv s =
        .ok () (emitted [b] (if -128 ≤ value ∧ value ≤ 255 then s else warningAt 0x800 s)) := by
  refine ⟨(value % 256).toNat, by omega, by omega, ?_⟩
  unfold writeArg
  by_cases h : -128 ≤ value ∧ value ≤ 255
  · rw [if_pos h]
    have hd : decide (value < -128 ∨ value > 255) = false := by simp; omega
    simp only [hd, M.when_false, M.pure_bind]
    exact writeOut_ok value s room
  · rw [if_neg h]
    have hd : decide (value < -128 ∨ value > 255) = true := by simp; omega
    simp only [hd, M.when_true]
    rw [M.bind_ok (setWarning_apply _ s (by decide))]
    exact writeOut_ok value _ room

example : HasRoom 1 ({} : S) := by unfold HasRoom; decide
example : ∃ s', writeArg (-1) .num8 0 0 ({} : S) = .ok () s' ∧ s'.mem 0 = 255 ∧ s'.errors = [] :=
  ⟨_, rfl, by decide, by decide⟩
example : ∃ s', writeArg 300 .num8 0 0 ({} : S) = .ok () s' ∧ s'.mem 0 = 44 ∧ s'.errors.length = 1 :=
  ⟨_, rfl, by decide, by decide⟩

/-! ### C11 -/

/-- C11, 16 bits: the two little-endian bytes of the value modulo 2^16; a warning exactly in eZ80 mode
outside -32768..65535. -/
theorem C11_num16 (value size orv : Int) (s : S) (room : HasRoom 2 s) :
    ∃ lo hi : Nat, lo < 256 ∧ hi < 256 ∧ (lo + 256 * hi : Int) = value % 65536 ∧
      writeArg value .num16 size orv s =
        .ok () (emitted [lo, hi]
          (if s.mode.ez80 = true ∧ ¬ (-32768 ≤ value ∧ value ≤ 65535) then warningAt 0x801 s else s)) := by
  refine ⟨(value % 256).toNat, (value / 256 % 256).toNat, by omega, by omega, by omega, ?_⟩
  have key : ∀ t : S, HasRoom 2 t →
      (do writeOut value; writeOut (value / 256) : M Unit) t =
        .ok () (emitted [(value % 256).toNat, (value / 256 % 256).toNat] t) := by
    intro t ht
    have h0 := ht.1
    rw [M.bind_ok (writeOut_ok value t ⟨ht.1, by have := ht.2; omega⟩), writeOut_ok, emitted_append _ _ _ h0]
    · rfl
    · rw [hasRoom_emitted _ _ _ h0]; exact ht
  unfold writeArg
  simp only [M.get_bind]
  by_cases h : s.mode.ez80 = true ∧ ¬ (-32768 ≤ value ∧ value ≤ 65535)
  · rw [if_pos h]
    have hd : (s.mode.ez80 && decide (value < -32768 ∨ value > 65535)) = true := by
      simp only [Bool.and_eq_true, decide_eq_true_eq]
      exact ⟨h.1, by omega⟩
    simp only [hd, M.when_true]
    rw [M.bind_ok (setWarning_apply _ s (by decide))]
    exact key _ room
  · rw [if_neg h]
    have hd : (s.mode.ez80 && decide (value < -32768 ∨ value > 65535)) = false := by
      cases he : s.mode.ez80
      · rfl
      · simp only [Bool.true_and, decide_eq_false_iff_not]
        intro hv
        exact h ⟨he, by omega⟩
    simp only [hd, M.when_false, M.pure_bind]
    exact key _ room

/-- C11, 24 bits: the three little-endian bytes of the value modulo 2^24, never a warning. -/
theorem C11_num24 (value size orv : Int) (s : S) (room : HasRoom 3 s) :
    ∃ b0 b1 b2 : Nat, b0 < 256 ∧ b1 < 256 ∧ b2 < 256 ∧
      (b0 + 256 * b1 + 65536 * b2 : Int) = value % 16777216 ∧
      writeArg value .num24 size orv s = .ok () (emitted [b0, b1, b2] s) := by
  refine ⟨(value % 256).toNat, (value / 256 % 256).toNat, (value / 65536 % 256).toNat,
    by omega, by omega, by omega, by omega, ?_⟩
  have h0 := room.1
  have h1 := room.2
  unfold writeArg
  simp only
  rw [M.bind_ok (writeOut_ok value s ⟨h0, by omega⟩)]
  rw [M.bind_ok (writeOut_ok _ _ ((hasRoom_emitted _ _ _ h0).2 ⟨h0, by simp; omega⟩)), emitted_append _ _ _ h0]
  rw [writeOut_ok _ _ ((hasRoom_emitted _ _ _ h0).2 ⟨h0, by simp; omega⟩), emitted_append _ _ _ h0]
  rfl

example : ∃ s', writeArg 0x1234 .num16 0 0 ({} : S) = .ok () s' ∧ s'.mem 0 = 0x34 ∧ s'.mem 1 = 0x12 :=
  ⟨_, rfl, by decide, by decide⟩
example : ∃ s', writeArg (-2) .num24 0 0 ({} : S) = .ok () s' ∧ s'.mem 0 = 0xFE ∧ s'.mem 2 = 0xFF :=
  ⟨_, rfl, by decide, by decide⟩

/-! ### C12 -/

/-- The size of the address space a relative jump is computed in. -/
def addrSpace (ez80 : Bool) : Int := if ez80 then 16777216 else 65536

/-- C12: for an instruction of `size` bytes at the program counter, a target is accepted exactly when its
distance from the address after the instruction is in -128..127; then one byte is emitted whose signed
value, added to the address after the instruction, is the target. Otherwise the jump-range error (0x120) is
recorded (and a zero byte keeps the place). -/
theorem C12_relative_jump (target size orv : Int) (s : S) (room : HasRoom 1 s)
    (hsize : 0 ≤ size ∧ size ≤ 65535) :
    let m := addrSpace s.mode.ez80
    let next := s.pc % m + size
    (∀ d : Int, d = target % m - next → -128 ≤ d → d ≤ 127 →
      ∃ b : Nat, b < 256 ∧ next + signed8 b = target % m ∧
        writeArg target .addrOffset size orv s = .ok () (emitted [b] s)) ∧
    (¬ (-128 ≤ target % m - next ∧ target % m - next ≤ 127) →
      writeArg target .addrOffset size orv s = .ok () (emitted [0] (errorAt 0x120 s))) := by
  intro m next
  have hm : m = 16777216 ∨ m = 65536 := by
    show addrSpace _ = _ ∨ addrSpace _ = _
    unfold addrSpace
    cases s.mode.ez80 <;> simp
  have hd : displacement s.mode.ez80 target s.pc size = target % m - next := by
    have : m = addrSpace s.mode.ez80 := rfl
    unfold displacement toI32
    unfold addrSpace at this
    cases he : s.mode.ez80 <;> simp only [he] at this <;> simp only [Bool.false_eq_true, if_false, if_true] at this ⊢
    · show _ = target % m - (s.pc % m + size)
      rw [this]; omega
    · show _ = target % m - (s.pc % m + size)
      rw [this]; omega
  unfold writeArg
  simp only [M.get_bind, hd]
  constructor
  · intro d hdd hlo hhi
    rw [if_neg (by omega)]
    refine ⟨(d % 256).toNat, by omega, ?_, ?_⟩
    · unfold signed8; split <;> omega
    · rw [← hdd]; exact writeOut_ok d s room
  · intro h
    rw [if_pos (by omega)]
    rw [M.bind_ok (setError_apply _ s (by decide))]
    exact writeOut_ok 0 _ room

example : ∃ s', writeArg 0x8000 .addrOffset 2 0 ({ pc := 0x8010 } : S) = .ok () s' ∧ s'.mem 0 = 0xEE :=
  ⟨_, rfl, by decide⟩
example : ∃ s', writeArg 0x9000 .addrOffset 2 0 ({ pc := 0x8010 } : S) = .ok () s' ∧
    s'.errors.map Err.code = [0x120] := ⟨_, rfl, by decide⟩

/-! ### C13 -/

/-- C13: a displacement in -128..127 emits one byte with that signed value; any other is recorded as the
index-range error (0x121). -/
theorem C13_index (d size orv : Int) (s : S) (room : HasRoom 1 s) :
    (-128 ≤ d → d ≤ 127 → ∃ b : Nat, b < 256 ∧ signed8 b = d ∧
      writeArg d .ixIyOffset size orv s = .ok () (emitted [b] s)) ∧
    (¬ (-128 ≤ d ∧ d ≤ 127) →
      writeArg d .ixIyOffset size orv s = .ok () (emitted [0] (errorAt 0x121 s))) := by
  unfold writeArg
  simp only
  constructor
  · intro h1 h2
    rw [if_neg (by omega)]
    refine ⟨(d % 256).toNat, by omega, ?_, writeOut_ok d s room⟩
    unfold signed8; split <;> omega
  · intro h
    rw [if_pos (by omega)]
    rw [M.bind_ok (setError_apply _ s (by decide))]
    exact writeOut_ok 0 _ room

example : ∃ s', writeArg (-5) .ixIyOffset 3 0 ({} : S) = .ok () s' ∧ s'.mem 0 = 251 := ⟨_, rfl, by decide⟩

/-! ### C14 -/

/-- The OR of a bit number in place with a base byte whose bits 3..5 are clear: all 8 * 256 cases. -/
theorem or_bits : ∀ v : Fin 8, ∀ b : Fin 256, b.val / 8 % 8 = 0 →
    ior ((v.val : Int) * 8) b.val = (b.val : Int) + 8 * v.val := by decide +kernel

/-- C14: for a final opcode byte whose bits 3..5 are clear, a bit number in 0..7 is placed in bits 3..5 and
the other bits are kept; any other value shows an error (exit status at least 2). -/
theorem C14_bit (v size : Int) (base : Nat) (hb : base < 256) (hbits : base / 8 % 8 = 0) (s : S)
    (room : HasRoom 1 s) :
    (0 ≤ v → v ≤ 7 → ∃ b : Nat, b < 256 ∧ ((b / 8 % 8 : Nat) : Int) = v ∧ b % 8 = base % 8 ∧ b / 64 = base / 64 ∧
      writeArg v .bitNum size base s = .ok () (emitted [b] s)) ∧
    (¬ (0 ≤ v ∧ v ≤ 7) →
      writeArg v .bitNum size base s = .ok () (emitted [base] (errorShown .bitRange s))) := by
  unfold writeArg
  simp only
  constructor
  · intro h1 h2
    rw [if_neg (by omega)]
    have := or_bits ⟨v.toNat, by omega⟩ ⟨base, hb⟩ hbits
    simp only at this
    have hv : ((v.toNat : Nat) : Int) = v := by omega
    rw [hv] at this
    rw [this]
    have hw := writeOut_ok ((base : Int) + 8 * v) s room
    refine ⟨base + 8 * v.toNat, by omega, by omega, by omega, by omega, ?_⟩
    rw [hw]
    have : (((base : Int) + 8 * v) % 256).toNat = base + 8 * v.toNat := by omega
    rw [this]
  · intro h
    rw [if_pos (by omega)]
    rw [M.bind_ok (showError_apply _ s)]
    have := or_bits 0 ⟨base, hb⟩ hbits
    simp only [Fin.val_zero] at this
    have h0 : ior 0 (base : Int) = base := by simpa using this
    have hw := writeOut_ok (base : Int) (errorShown .bitRange s) room
    have hm : ((base : Int) % 256).toNat = base := by omega
    rw [h0]
    rw [hm] at hw
    exact hw

/-- Every table entry with a bit operand has an end byte, with bits 3..5 clear. -/
def bitEntryOk (i : Instr) : Bool :=
  !i.args.contains 94 || (i.hasEnd && decide (i.endData < 256) && i.endData / 8 % 8 == 0)

/-- C14: all BIT/SET/RES entries of both built-in tables meet the hypothesis of `C14_bit`. -/
theorem C14_tables : (z80Table ++ ez80Table).all (fun o => o.instrs.all bitEntryOk) = true := by
  decide +kernel

/-- There are such entries: 58 and 30 of them. -/
example : (z80Table.flatMap (fun o => o.instrs)).countP (fun i => i.args.contains 94) = 58 := by decide +kernel
example : (ez80Table.flatMap (fun o => o.instrs)).countP (fun i => i.args.contains 94) = 30 := by decide +kernel

/-! ### C15 -/

/-- C15, vector known on the first pass: the eight legal vectors emit C7h + n, anything else is rejected
with the RST error (0x127) and nothing is emitted. -/
theorem C15_rst_partial (n size orv : Int) (s : S) (room : HasRoom 1 s) :
    (n ∈ [0x00, 0x08, 0x10, 0x18, 0x20, 0x28, 0x30, 0x38] →
      writeArg n .rst size orv s = .ok () (emitted [0xC7 + n.toNat] s)) ∧
    (n ∉ [0x00, 0x08, 0x10, 0x18, 0x20, 0x28, 0x30, 0x38] →
      writeArg n .rst size orv s = .ok () (errorAt 0x127 s)) := by
  unfold writeArg
  simp only
  constructor
  · intro h
    have hr : isRst n = true := by
      simp only [List.mem_cons, List.not_mem_nil, or_false] at h
      rcases h with h | h | h | h | h | h | h | h <;> subst h <;> decide
    rw [if_pos hr, writeOut_ok _ _ room]
    simp only [List.mem_cons, List.not_mem_nil, or_false] at h
    rcases h with h | h | h | h | h | h | h | h <;> subst h <;> rfl
  · intro h
    have hr : ¬ isRst n = true := by
      intro hr
      apply h
      unfold isRst at hr
      simp only [Bool.or_eq_true, beq_iff_eq] at hr
      simp only [List.mem_cons, List.not_mem_nil, or_false]
      omega
    rw [if_neg hr]
    exact setError_apply _ s (by decide)

example : ∃ s', writeArg 0x28 .rst 1 0 ({} : S) = .ok () s' ∧ s'.mem 0 = 0xEF := ⟨_, rfl, by decide⟩

end Spasm.Props
