import Verif.Props.Decode
import Verif.Spec.DecodeEz80
import Verif.Model.Ez80Table

/-
C57 and C58: the eZ80 instruction table.
-/

namespace Spasm.Props
open Spasm Spec

/-- `(C)` becomes `(BC)`. -/
def portName : Str → Str
  | 40 :: 67 :: 41 :: r => 40 :: 66 :: 67 :: 41 :: r
  | c :: r => c :: portName r
  | [] => []

/-- The way the decoder writes the operands of an entry. -/
def normalArgs (name args : Str) : Str :=
  if name = b! "IN" ∧ (args = b! "(C)" ∨ args = b! "(BC)") then b! "F,(BC)"
  else if name = b! "IN0" ∧ args = b! "(&)" then b! "F,(&)"
  else if (name = b! "IN" ∨ name = b! "OUT") ∧ portName args ≠ args then portName args
  else args

/-- The entries that are not instructions of an eZ80. -/
def isPrefix (name args : Str) : Bool := name == b! "LD" && (args == b! "B,B" || args == b! "C,C" || args == b! "D,D" || args == b! "E,E")

def ezOk (long : Bool) : Bool :=
  ez80Table.all fun o => o.instrs.all fun i => isPrefix o.name i.args ||
    ((List.range 8).all fun b => entryOk (ez80 long) o.name { i with args := normalArgs o.name i.args } b)

theorem ez_table_ok : ezOk false = true ∧ ezOk true = true := by
  decide +kernel

/-- The entries that are written in another way than the decoder does have no operands, but for IN0. -/
theorem ez_changed : (ez80Table.all fun o => o.instrs.all fun i => !((o.name == b! "IN" || o.name == b! "OUT") && portName i.args != i.args) ||
    operandChars i.args == []) = true := by
  decide +kernel

theorem portName_split (a : Str) (h : portName a ≠ a) : ∃ x y, a = x ++ b! "(C)" ++ y ∧ portName a = x ++ b! "(BC)" ++ y := by
  fun_induction portName a with
  | case1 r => exact ⟨[], r, rfl, rfl⟩
  | case2 c r hc ih =>
    obtain ⟨x, y, h1, h2⟩ := ih (fun e => h (by rw [e]))
    exact ⟨c :: x, y, by rw [h1]; rfl, by rw [h2]; rfl⟩
  | case3 => exact absurd rfl h

theorem operandChars_append (a b : Str) : operandChars (a ++ b) = operandChars a ++ operandChars b := List.filter_append ..

theorem codeBytes_args (cpu : Cpu) (pc size : Int) (i : Instr) (args : Str) (vs : List Int) (h : operandChars i.args = operandChars args) :
    codeBytes cpu.ez80 cpu.long pc size { i with args := args } vs = codeBytes cpu.ez80 cpu.long pc size i vs := by
  unfold codeBytes
  dsimp only
  rw [middle_chars (cpu := cpu) pc size args, middle_chars (cpu := cpu) pc size i.args, bitNumber_chars args, bitNumber_chars i.args, h]

theorem ez_encodings (long : Bool) (o : Opcode) (ho : o ∈ ez80Table) (i : Instr) (hi : i ∈ o.instrs) (hno : isPrefix o.name i.args = false)
    (pc size : Int) (vs : List Int) (bs rest : List Nat) (hb : codeBytes true long pc size i vs = some bs) :
    ∃ m t, decode (ez80 long) (bs ++ rest) = some (m, t, rest) ∧ EzSynonym (m, t) (o.name, written true long pc size i.args vs) := by
  have hall : ∀ b < 8, entryOk (ez80 long) o.name { i with args := normalArgs o.name i.args } b = true := by
    have hok : ezOk long = true := by cases long <;> simp [ez_table_ok]
    have h1 := List.all_eq_true.1 (List.all_eq_true.1 hok o ho) i hi
    rw [hno, Bool.false_or] at h1
    intro b hb
    exact List.all_eq_true.1 h1 b (List.mem_range.2 hb)
  have hchars : (o.name = b! "IN" ∨ o.name = b! "OUT") ∧ portName i.args ≠ i.args → operandChars i.args = [] := by
    intro h
    have h1 := List.all_eq_true.1 (List.all_eq_true.1 ez_changed o ho) i hi
    simp only [Bool.or_eq_true, Bool.not_eq_true', Bool.and_eq_false_iff, beq_iff_eq, Bool.or_eq_false_iff] at h1
    rcases h1 with (h1 | h1) | h1
    · rcases h.1 with hn | hn <;> simp [hn] at h1
    · simp [h.2] at h1
    · exact h1
  have key : ∀ args : Str, normalArgs o.name i.args = args → operandChars i.args = operandChars args →
      ∃ m t, decode (ez80 long) (bs ++ rest) = some (m, t, rest) ∧ Synonym (m, t) (o.name, written true long pc size args vs) := by
    intro args h1 h2
    rw [h1] at hall
    exact encodings (cpu := ez80 long) o.name { i with args := args } hall pc size vs bs rest
      ((codeBytes_args (ez80 long) pc size i args vs h2).trans hb)
  -- entries with other names are synonyms themselves
  have plain : ∀ {m t n args}, Synonym (m, t) (n, args) → n ∈ [b! "IN", b! "OUT", b! "IN0"] → (m, t) = (n, args) := by
    intro m t n args hs hn
    cases hs with
    | same => rfl
    | accumulator m t hm =>
      simp only [List.mem_cons, List.not_mem_nil, or_false] at hm hn
      rcases hm with rfl | rfl | rfl | rfl | rfl <;> simp at hn
    | sl1 => simp at hn
    | vector => simp at hn
  unfold normalArgs at key
  split at key
  · rename_i hn
    have hw : ∀ args : Str, operandChars args = [] → written true long pc size args vs = args.map .ch :=
      fun args h => written_text (cpu := ez80 long) pc size args vs h
    obtain ⟨m, t, h1, h2⟩ := key _ rfl (by rcases hn.2 with h | h <;> rw [h] <;> decide)
    have e := plain h2 (by rw [hn.1]; simp)
    rw [hw _ (by decide)] at e
    refine ⟨m, t, h1, ?_⟩
    rw [e, hn.1]
    rcases hn.2 with h | h
    · rw [h, hw _ (by decide)]
      exact .portFlags
    · rw [h, hw _ (by decide)]
      exact .flags _ _ (by simp)
  · split at key
    · rename_i hn
      obtain ⟨m, t, h1, h2⟩ := key _ rfl (by rw [hn.2]; decide)
      have e := plain h2 (by rw [hn.1]; simp)
      refine ⟨m, t, h1, ?_⟩
      have hw : written true long pc size (b! "F,(&)") vs = .ch 70 :: .ch 44 :: written true long pc size (b! "(&)") vs := by
        cases long <;> rfl
      rw [e, hn.1, hn.2, hw]
      exact .flags _ _ (by simp)
    · split at key
      · rename_i hn
        have hc := hchars hn
        obtain ⟨x, y, hx, hy⟩ := portName_split i.args hn.2
        have hc' : operandChars (portName i.args) = [] := by
          rw [hx, operandChars_append, operandChars_append] at hc
          rw [hy, operandChars_append, operandChars_append]
          simp only [List.append_eq_nil_iff] at hc ⊢
          exact ⟨⟨hc.1.1, by decide⟩, hc.2⟩
        obtain ⟨m, t, h1, h2⟩ := key _ rfl (by rw [hc, hc'])
        have e := plain h2 (by rcases hn.1 with h | h <;> rw [h] <;> simp)
        refine ⟨m, t, h1, ?_⟩
        rw [e, show written true long pc size (portName i.args) vs = _ from written_text (cpu := ez80 long) pc size _ vs hc',
          show written true long pc size i.args vs = _ from written_text (cpu := ez80 long) pc size _ vs hc, hy]
        conv => rhs; rw [hx]
        simp only [List.map_append]
        exact .port _ _ _ (by rcases hn.1 with h | h <;> rw [h] <;> simp)
      · obtain ⟨m, t, h1, h2⟩ := key _ rfl rfl
        exact ⟨m, t, h1, .z80 _ _ h2⟩

/-- A prefix byte and its effect: none, or one of the four. -/
def Prefix (adl : Bool) (pre sfx : List Nat) (long : Bool) : Prop :=
  (pre = [] ∧ sfx = [] ∧ long = adl) ∨ ∃ p ∈ prefixes, pre = [p.1] ∧ sfx = p.2.1 ∧ long = p.2.2

theorem decode_start {long : Bool} {bs : List Nat} {d : List Nat × List Tok × List Nat} (h : decode (ez80 long) bs = some d) :
    prefixes.find? (fun p => bs.head? = some p.1) = none := by
  rw [List.find?_eq_none]
  intro p hp hb
  have hb : bs.head? = some p.1 := by simpa using hb
  cases bs with
  | nil => cases hb
  | cons x bs =>
    cases hb
    have hn : decode (ez80 long) (p.1 :: bs) = none := by
      unfold prefixes at hp
      simp only [List.mem_cons, List.not_mem_nil, or_false] at hp
      rcases hp with rfl | rfl | rfl | rfl <;> rfl
    rw [hn] at h
    cases h

/-- C57: for every entry of the eZ80 table but four, every suffix and all operand values, an eZ80 decoder reads the bytes of
the entry back as the mnemonic and the operands of the entry, and stops exactly at the end. -/
theorem C57_encodings_partial (adl : Bool) (pre sfx : List Nat) (long : Bool) (hp : Prefix adl pre sfx long) (o : Opcode) (ho : o ∈ ez80Table)
    (i : Instr) (hi : i ∈ o.instrs) (hno : ¬ (o.name = b! "LD" ∧ i.args ∈ [b! "B,B", b! "C,C", b! "D,D", b! "E,E"]))
    (pc size : Int) (vs : List Int) (bs rest : List Nat) (hb : codeBytes true long pc size i vs = some bs) :
    ∃ m t, decodeEz80 adl (pre ++ bs ++ rest) = some (sfx, m, t, rest) ∧ EzSynonym (m, t) (o.name, written true long pc size i.args vs) := by
  have hno' : isPrefix o.name i.args = false := by
    unfold isPrefix
    simp only [List.mem_cons, List.not_mem_nil, or_false] at hno
    rw [Bool.eq_false_iff]
    intro h
    apply hno
    simp only [Bool.and_eq_true, Bool.or_eq_true, beq_iff_eq] at h
    grind
  obtain ⟨m, t, h1, h2⟩ := ez_encodings long o ho i hi hno' pc size vs bs rest hb
  refine ⟨m, t, ?_, h2⟩
  rcases hp with ⟨rfl, rfl, rfl⟩ | ⟨p, hp, rfl, rfl, rfl⟩
  · unfold decodeEz80
    rw [List.nil_append, decode_start h1, h1]
    rfl
  · unfold decodeEz80
    have : prefixes.find? (fun q => ([p.1] ++ bs ++ rest).head? = some q.1) = some p := by
      unfold prefixes at hp ⊢
      simp only [List.mem_cons, List.not_mem_nil, or_false] at hp
      rcases hp with rfl | rfl | rfl | rfl <;> rfl
    rw [this]
    show (decode (ez80 p.2.2) (bs ++ rest)).map _ = _
    rw [h1]
    rfl

/-- C57 is violated by the other four entries: the byte of `LD B,B` and the like is a prefix on an eZ80, so it is no
instruction of its own but changes the next one. -/
theorem C57_fails_same_register : ∀ p ∈ [(b! "B,B", 0x40), (b! "C,C", 0x49), (b! "D,D", 0x52), (b! "E,E", 0x5B)],
    ∃ o ∈ ez80Table, ∃ i ∈ o.instrs, o.name = b! "LD" ∧ i.args = p.1 ∧
      (∀ (long : Bool) (pc size : Int), codeBytes true long pc size i [] = some [p.2]) ∧
      ∀ adl rest, ∃ sfx long, decodeEz80 adl (p.2 :: rest) = (decode (ez80 long) rest).map fun d => (sfx, d) := by
  intro p hp
  simp only [List.mem_cons, List.not_mem_nil, or_false] at hp
  have hld : (⟨b! "LD", ez80_ld⟩ : Opcode) ∈ ez80Table := by decide +kernel
  rcases hp with rfl | rfl | rfl | rfl
  · exact ⟨_, hld, ⟨b! "B,B", [0x40], false, 0, 1, 1, 1, 0⟩, by decide +kernel, rfl, rfl, fun l _ _ => by cases l <;> rfl, fun _ _ => ⟨_, false, rfl⟩⟩
  · exact ⟨_, hld, ⟨b! "C,C", [0x49], false, 0, 1, 1, 1, 0⟩, by decide +kernel, rfl, rfl, fun l _ _ => by cases l <;> rfl, fun _ _ => ⟨_, false, rfl⟩⟩
  · exact ⟨_, hld, ⟨b! "D,D", [0x52], false, 0, 1, 1, 1, 0⟩, by decide +kernel, rfl, rfl, fun l _ _ => by cases l <;> rfl, fun _ _ => ⟨_, true, rfl⟩⟩
  · exact ⟨_, hld, ⟨b! "E,E", [0x5B], false, 0, 1, 1, 1, 0⟩, by decide +kernel, rfl, rfl, fun l _ _ => by cases l <;> rfl, fun _ _ => ⟨_, true, rfl⟩⟩

theorem ez_all_entries : allEntries (ez80 false) ez80Table = true ∧ allEntries (ez80 true) ez80Table = true := by
  decide +kernel

/-- C58: every instruction the eZ80 decoder knows can be written and assembled: its suffix is none or one of the four, and the
table has an entry of that mnemonic whose pattern, with suitable operand values, is the decoded text. (Jump distances are taken
at address 128.) -/
theorem C58_complete (adl : Bool) (bs rest : List Nat) (hb : ∀ x ∈ bs, x < 256) (sfx m : List Nat) (t : List Tok)
    (h : decodeEz80 adl bs = some (sfx, m, t, rest)) :
    ∃ pre long, Prefix adl pre sfx long ∧ ∃ o ∈ ez80Table, ∃ i ∈ o.instrs, ∃ vs bs', o.name = m ∧ written true long 128 i.size i.args vs = t ∧
      codeBytes true long 128 i.size i vs = some bs' := by
  have tab : ∀ long, allEntries (ez80 long) ez80Table = true := by intro long; cases long <;> simp [ez_all_entries]
  unfold decodeEz80 at h
  split at h
  · rename_i p hp
    obtain ⟨d, hd, he⟩ := Option.map_eq_some_iff.1 h
    cases he
    exact ⟨[p.1], p.2.2, .inr ⟨p, List.mem_of_find?_eq_some hp, rfl, rfl, rfl⟩,
      complete (tab _) bs.tail rest (fun x hx => hb x (List.mem_of_mem_tail hx)) m t hd⟩
  · obtain ⟨d, hd, he⟩ := Option.map_eq_some_iff.1 h
    cases he
    exact ⟨[], adl, .inl ⟨rfl, rfl, rfl⟩, complete (tab _) bs rest hb m t hd⟩

/-- `LEA BC,IX-2` with the suffix `.LIL`. -/
example : decodeEz80 false [0x5B, 0xED, 0x02, 0xFE, 0x00] =
    some (b! ".LIL", b! "LEA", [.ch 66, .ch 67, .ch 44, .ch 73, .ch 88, .num (-2)], [0x00]) := by
  decide +kernel

example : codeBytes true true 0x9D95 3 ⟨b! "BC,IX@", [0xed, 0x2], false, 0, 3, 3, 3, 0⟩ [-2] = some [0xED, 0x02, 0xFE] := by decide +kernel

/-- An immediate of 24 bits. -/
example : decodeEz80 true [0x21, 0x56, 0x34, 0x12] = some ([], b! "LD", [.ch 72, .ch 76, .ch 44, .num 0x123456], []) := by
  decide +kernel

end Spasm.Props
