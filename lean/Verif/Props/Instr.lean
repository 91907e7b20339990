import Verif.Lemmas.Mnemonic
import Verif.Props.DecodeEz80
import Verif.Props.Run
import Verif.Model.Ez80Table

/-
C20, C21 and C53: instruction statements.
-/

namespace Spasm.Props
open Spasm Spec

instance instDecidableAlnum (c : Nat) : Decidable (Alnum c) := by unfold Alnum; infer_instance

theorem takeName_stop (t rest : Str) (ht : ∀ c ∈ t, NameChar c) (hr : ∀ c ∈ rest.head?, ¬ NameChar c) :
    takeName (t ++ rest) = t ∧ skipNameEnd (t ++ rest) = rest := by
  have h1 : ∀ c ∈ t, isNameChar c = true := fun c hc => (isNameChar_iff c).2 (ht c hc)
  have h2 : rest.takeWhile isNameChar = [] ∧ rest.dropWhile isNameChar = rest := by
    cases rest with
    | nil => exact ⟨rfl, rfl⟩
    | cons c r =>
      have := hr c rfl
      rw [← isNameChar_iff] at this
      simp [this]
  unfold takeName skipNameEnd
  rw [List.takeWhile_append_of_pos h1, List.dropWhile_append_of_pos h1, h2.1, h2.2]
  simp

/-- An instruction statement: a blank at the beginning of the line, the mnemonic, a suffix, and the operands, up to the
end of the statement. -/
structure Statement (s : S) (b m u bl text rest : Str) : Prop where
  indented : b ≠ [] ∧ Blanks b
  mnemonic : Mnemonic m
  blanks : Blanks bl
  nameEnds : ∀ c ∈ (bl ++ text).head?, ¬ NameChar c
  operands : ∀ c ∈ text.head?, ¬ White c
  stop : AtEnd rest
  table : ∀ o ∈ s.opcodes, ∀ c ∈ o.name, Alnum c

/-- The statement is handled as an instruction or macro. -/
theorem statement_lineSec (k : Rec) (b m t : Str) (hb : b ≠ [] ∧ Blanks b) (hm : Mnemonic m) (f : Nat) (s : S) :
    lineSecLoop k (f + 1) (b ++ m ++ t) s = opcodeOrMacro k (m ++ t) s := by
  obtain ⟨hne, hbl⟩ := hb
  obtain ⟨x, r, rfl, hx⟩ := hm.letter
  have hsp : isBlank x = false := by
    unfold isBlank isSpace
    simp
    omega
  have hal : isAlpha x = true := by
    unfold isAlpha isUpper isLower
    simp
    omega
  cases b with
  | nil => exact absurd rfl hne
  | cons c b =>
    have hs : skipWs (c :: b ++ (x :: r) ++ t) = (x :: r) ++ t := by
      rw [List.append_assoc, skipWs_blanks _ _ hbl]
      exact skipWs_cons _ _ hsp
    have hc := hbl c (by simp)
    rw [lineSecLoop]
    have h1 : isEnd (c :: b ++ (x :: r) ++ t) = false := by rcases hc with rfl | rfl | rfl | rfl <;> rfl
    have h2 : (isAlpha (hd (c :: b ++ (x :: r) ++ t)) || hd (c :: b ++ (x :: r) ++ t) == 95) = false := by rcases hc with rfl | rfl | rfl | rfl <;> rfl
    have h3 : isSpace (hd (c :: b ++ (x :: r) ++ t)) = true := by rcases hc with rfl | rfl | rfl | rfl <;> rfl
    dsimp only
    rw [h1, h2, h3, hs]
    simp only [Bool.false_eq_true, if_false, if_true]
    rw [if_pos (show (isAlpha (hd ((x :: r) ++ t)) || hd ((x :: r) ++ t) == 95) = true by
      show (isAlpha x || x == 95) = true; rw [hal]; rfl)]

theorem alnum_nameChar {c : Nat} (h : Alnum c) : NameChar c := .inl h

theorem suffix_nameChar (adl : Bool) (u : Str) (x : List Nat × Nat × Bool) (hx : x ∈ suffixes adl) (h : SameText u x.1) :
    (∀ c ∈ u, NameChar c) ∧ ∃ r, u = 46 :: r ∧ ∀ c ∈ r, Alnum c := by
  have hr : ∃ r, x.1 = 46 :: r ∧ ∀ c ∈ r, 65 ≤ c ∧ c ≤ 90 := by
    simp only [suffixes, List.mem_cons, List.not_mem_nil, or_false] at hx
    rcases hx with rfl | rfl | rfl | rfl | rfl | rfl | rfl | rfl <;> exact ⟨_, rfl, by decide⟩
  obtain ⟨r, hr, hl⟩ := hr
  rw [hr] at h
  unfold SameText at h
  cases u with
  | nil => cases h
  | cons a u =>
    simp only [List.map_cons, List.cons.injEq] at h
    have h0 := upperCase_dot a h.1
    subst h0
    have hu : ∀ c ∈ u, Alnum c := by
      intro c hc
      have : upperCase c ∈ r.map upperCase := by rw [← h.2]; exact List.mem_map_of_mem hc
      obtain ⟨y, hy, e⟩ := List.mem_map.1 this
      have hy := hl y hy
      unfold upperCase at e
      unfold Alnum
      rw [if_neg (by omega)] at e
      split at e <;> omega
    refine ⟨?_, u, rfl, hu⟩
    intro c hc
    rcases List.mem_cons.1 hc with rfl | hc
    · unfold NameChar; omega
    · exact .inl (hu c hc)

theorem atEnd_not_nameChar (rest : Str) (h : AtEnd rest) : ∀ c ∈ rest.head?, ¬ NameChar c := by
  intro c hc hn
  cases rest with
  | nil => cases hc
  | cons x r =>
    cases hc
    rcases h with h | ⟨y, r', h, hy⟩
    · cases h
    · cases h
      unfold NameChar Alnum at hn
      rcases hy with rfl | rfl | rfl | rfl <;> omega

theorem operands_entry {s : S} {b m u bl text rest : Str} (h : Statement s b m u bl text rest) :
    (∀ c ∈ (bl ++ text ++ rest).head?, ¬ NameChar c) ∧ skipWs (bl ++ text ++ rest) = text ++ rest ∧ between (bl ++ text ++ rest) (text ++ rest) = bl := by
  refine ⟨?_, ?_, ?_⟩
  · cases hbt : bl ++ text with
    | nil => simpa using atEnd_not_nameChar rest h.stop
    | cons c r =>
      have := h.nameEnds
      rw [hbt] at this
      simpa using this
  · rw [List.append_assoc, skipWs_blanks _ _ h.blanks]
    cases text with
    | nil =>
      rcases h.stop with rfl | ⟨y, r', rfl, hy⟩
      · rfl
      · exact skipWs_cons _ _ (by rcases hy with rfl | rfl | rfl | rfl <;> rfl)
    | cons c r =>
      have := h.operands c rfl
      rw [← isSpace_iff] at this
      exact skipWs_cons _ _ (by unfold isBlank; simp [this])
  · rw [List.append_assoc, between_append]

theorem suffixed_parse {s : S} {u pre : Str} {long : Bool} (m : Str) (hm : ∀ c ∈ m, Alnum c) (h : Suffixed s u pre long) :
    ∃ sfx : Option (Nat × Nat), (if s.mode.ez80 then parseSuffix s.adl (m ++ u) else none) = sfx ∧
      (match sfx with | some (_, n) => (m ++ u).length - n | none => (m ++ u).length) = m.length ∧
      prefixByte (sfx.map (·.1)) = pre ∧ longImmediate (sfx.map (·.1)) s = long ∧ (∀ x ∈ sfx.map (·.1), x < 4) := by
  rcases h with ⟨rfl, rfl, rfl⟩ | ⟨hez, x, hx, hs, rfl, rfl⟩
  · refine ⟨none, ?_, by simp, rfl, rfl, by simp⟩
    simp [parseSuffix_none s.adl m hm]
  · obtain ⟨c, h1, h2, h3, h4⟩ := parseSuffix_suffix s.adl m u x hx hs
    refine ⟨some (c, u.length), ?_, ?_, ?_, ?_, ?_⟩
    · rw [hez, if_pos rfl, h1]
    · simp
    · simp [prefixByte, h3]
    · simp only [Option.map_some, longImmediate]; exact h4
    · simp; exact h2

/-- The head of an instruction statement: the entries of the mnemonic are tried. -/
theorem statement_head (k : Rec) {s : S} {b m u bl text rest pre : Str} {long : Bool} (h : Statement s b m u bl text rest) (hu : Suffixed s u pre long)
    (hne : entriesOf m s.opcodes ≠ []) :
    ∃ sfx o os, s.opcodes.dropWhile (fun o => !decide (SameText o.name m)) = o :: os ∧ SameText o.name m ∧ prefixByte sfx = pre ∧
      longImmediate sfx s = long ∧ (∀ x ∈ sfx, x < 4) ∧
      lineSecBody k (b ++ m ++ u ++ bl ++ text ++ rest) s =
        (matchArgs (bl.reverse ++ (m ++ u).reverse) (text ++ rest) (o :: os) >>= fun p =>
          (match p.1 with
          | none => pure (some p.2)
          | some (i, caps) => writeInstr k i caps sfx >>= fun size => advance size >>= fun _ =>
              M.modify (fun s => { s with statsCode := s.statsCode + size, statsMin := s.statsMin + (i.minTime + timePenalty sfx s.adl i), statsMax := s.statsMax + (i.maxTime + timePenalty sfx s.adl i) }) >>= fun _ => pure (some p.2))) s := by
  obtain ⟨hr, hsk, hbt⟩ := operands_entry h
  obtain ⟨sfx, hp, hlen, h1, h2, h3⟩ := suffixed_parse m h.mnemonic.chars hu
  have hun : ∀ c ∈ m ++ u, NameChar c := by
    intro c hc
    rcases List.mem_append.1 hc with hc | hc
    · exact .inl (h.mnemonic.chars c hc)
    · rcases hu with ⟨rfl, -⟩ | ⟨-, x, hx, hs, -⟩
      · cases hc
      · exact (suffix_nameChar _ u x hx hs).1 c hc
  obtain ⟨ht, hk⟩ := takeName_stop (m ++ u) (bl ++ text ++ rest) hun hr
  have hal : ∀ c ∈ (u ++ (bl ++ text ++ rest)).head?, ¬ Alnum c := by
    intro c hc hn
    rcases hu with ⟨rfl, -⟩ | ⟨-, x, hx, hs, -⟩
    · exact hr c hc (.inl hn)
    · obtain ⟨r, rfl, -⟩ := (suffix_nameChar _ u x hx hs).2
      cases hc
      unfold Alnum at hn
      omega
  have hf := findOpcode_eq m (u ++ (bl ++ text ++ rest)) s.opcodes h.mnemonic.chars hal h.table
  have hgrp : ∃ o os, s.opcodes.dropWhile (fun o => !decide (SameText o.name m)) = o :: os := by
    cases hd : s.opcodes.dropWhile (fun o => !decide (SameText o.name m)) with
    | nil => exact absurd (by unfold entriesOf; rw [hd]; rfl) hne
    | cons o os => exact ⟨o, os, rfl⟩
  obtain ⟨o, os, hd⟩ := hgrp
  have ho : SameText o.name m := by
    have := List.head?_dropWhile_not (fun o : Opcode => !decide (SameText o.name m)) s.opcodes
    rw [hd] at this
    simpa using this
  refine ⟨sfx.map (·.1), o, os, hd, ho, h1, h2, h3, ?_⟩
  unfold lineSecBody
  have he : b ++ m ++ u ++ bl ++ text ++ rest = b ++ m ++ (u ++ (bl ++ text ++ rest)) := by simp
  rw [he, statement_lineSec k b m _ h.indented h.mnemonic]
  unfold opcodeOrMacro
  have ht' : takeName (m ++ (u ++ (bl ++ text ++ rest))) = m ++ u := by rw [← List.append_assoc]; exact ht
  have hk' : skipNameEnd (m ++ (u ++ (bl ++ text ++ rest))) = bl ++ text ++ rest := by rw [← List.append_assoc]; exact hk
  rw [ht', hk']
  dsimp only
  rw [M.get_bind, hp]
  cases sfx with
  | none =>
    simp only at hlen
    dsimp only
    rw [hlen, hf, hd]
    dsimp only
    unfold doInstr
    dsimp only
    rw [hsk, hbt, M.bind_assoc]
    refine congrFun ?_ s
    congr 1
    funext p
    obtain ⟨p1, p2⟩ := p
    cases p1 with
    | none => rfl
    | some ic => obtain ⟨i, caps⟩ := ic; simp only [M.bind_assoc, M.pure_bind]
  | some y =>
    obtain ⟨c, n⟩ := y
    simp only at hlen
    dsimp only
    rw [hlen, hf, hd]
    dsimp only
    unfold doInstr
    dsimp only
    rw [hsk, hbt, M.bind_assoc]
    refine congrFun ?_ s
    congr 1
    funext p
    obtain ⟨p1, p2⟩ := p
    cases p1 with
    | none => rfl
    | some ic => obtain ⟨i, caps⟩ := ic; simp only [M.bind_assoc, M.pure_bind]

theorem con_head {s : S} {b m u bl text rest pre : Str} {long : Bool} (h : Statement s b m u bl text rest) (hu : Suffixed s u pre long) :
    ∀ c ∈ (bl.reverse ++ (m ++ u).reverse).head?, c ≠ 44 := by
  have : ∀ c ∈ bl.reverse ++ (m ++ u).reverse, c ≠ 44 := by
    intro c hc
    simp only [List.mem_append, List.mem_reverse] at hc
    rcases hc with hc | hc | hc
    · rcases h.blanks c hc with rfl | rfl | rfl | rfl <;> decide
    · have := h.mnemonic.chars c hc
      unfold Alnum at this
      omega
    · rcases hu with ⟨rfl, -⟩ | ⟨-, x, hx, hs, -⟩
      · cases hc
      · have := (suffix_nameChar _ u x hx hs).1 c hc
        unfold NameChar Alnum at this
        omega
  exact fun c hc => this c (List.mem_of_mem_head? hc)

theorem takes_prefix (adl : Bool) (sfx : Option Nat) (i : Instr) (h : ∀ x ∈ sfx, x < 4) :
    takes adl (prefixByte sfx) i = (i.minTime + timePenalty sfx adl i, i.maxTime + timePenalty sfx adl i) := by
  cases sfx with
  | none => cases adl <;> simp [takes, prefixByte, timePenalty]
  | some x =>
    have := h x rfl
    have : x = 0 ∨ x = 1 ∨ x = 2 ∨ x = 3 := by omega
    rcases this with rfl | rfl | rfl | rfl <;> simp [takes, prefixByte, timePenalty]

/-- C20 (and C21): an instruction statement writes the first entry of its mnemonic that the operand list fits, with the
values of its operands, behind the prefix byte of its suffix; the address moves by the bytes written. `n` is the number
of times superfluous parentheses are pointed out. -/
theorem C20_selected_partial (k D : Nat) (b m u bl text rest pre : Str) (long : Bool) (s : S) (i : Instr) (ops : List Str) (vs : List Int) (bs : List Nat)
    (h : Statement s b m u bl text rest) (hu : Suffixed s u pre long)
    (he : ∀ j ∈ entriesOf m s.opcodes, Regular j.args ∧ Readable j.args text) (hi : FirstFit (entriesOf m s.opcodes) text i ops) (hw : Writable i)
    (hD : D ≤ 20 ∧ D ≤ k) (hv : Values (toI32 s.pc) (visibleLabel s) (visibleText s) D i.args ops vs)
    (hc : codeBytes s.mode.ez80 long s.pc (pre.length + encodedLength long i : Nat) i vs = some bs) (hs : InSession s)
    (hn : s.mode.normal = true) (room : HasRoom (pre.length + bs.length) s) :
    ∃ n d f, (knot (k + 1)).lineSec (b ++ m ++ u ++ bl ++ text ++ rest) s =
        .ok (some rest) (afterCode (takes s.adl pre i) (pre ++ bs) (operandWarnings s.mode.ez80 long i.args vs) n d f s) ∧
      n = ops.countP Wrapped := by
  have hne : entriesOf m s.opcodes ≠ [] := by
    obtain ⟨x, y, hxy, -⟩ := hi
    rw [hxy]; simp
  obtain ⟨sfx, o, os, hd, ho, rfl, rfl, h4, hl⟩ := statement_head (knot k) h hu hne
  have hg : group m (o :: os) = entriesOf m s.opcodes := by unfold group entriesOf; rw [hd]
  obtain ⟨cs, hcs, hm⟩ := (matchArgs_spec (bl.reverse ++ (m ++ u).reverse) text rest h.stop s h.operands (con_head h hu) m os o ho
    (by rw [hg]; exact he)).1 i ops (by rw [hg]; exact hi)
  obtain ⟨n, d, f, hwr, hno⟩ := writeInstr_ok k D i ops vs cs sfx bs s hw hD.2 hD.1 hv hcs hs hn h4 hc room
  refine ⟨n, d, f, ?_, hno⟩
  show lineSecBody (knot k) (b ++ m ++ u ++ bl ++ text ++ rest) s = _
  rw [hl, M.bind_ok hm]
  dsimp only
  rw [M.bind_ok hwr, takes_prefix s.adl sfx i h4]
  rfl

example : Wrapped (b! "((1)+2)") = true ∧ Wrapped (b! "(1+2)*3") = false ∧ Wrapped (b! "(1)+(2)") = false ∧ Wrapped (b! "5") = false := by decide

/-- The same for entries with a recorded size that need not be the number of bytes written: the address moves by the
recorded size. -/
theorem selected_sized (k D : Nat) (b m u bl text rest pre : Str) (long : Bool) (s : S) (i : Instr) (ops : List Str) (vs : List Int) (bs : List Nat)
    (h : Statement s b m u bl text rest) (hu : Suffixed s u pre long)
    (he : ∀ j ∈ entriesOf m s.opcodes, Regular j.args ∧ Readable j.args text) (hi : FirstFit (entriesOf m s.opcodes) text i ops) (hw : Encodable i)
    (hD : D ≤ 20 ∧ D ≤ k) (hv : Values (toI32 s.pc) (visibleLabel s) (visibleText s) D i.args ops vs)
    (hc : codeBytes s.mode.ez80 long s.pc (movesBy long pre i) i vs = some bs) (hs : InSession s)
    (hn : s.mode.normal = true) (room : HasRoom (pre.length + bs.length) s) :
    ∃ n d f, (knot (k + 1)).lineSec (b ++ m ++ u ++ bl ++ text ++ rest) s =
        .ok (some rest) (afterCodeBy (movesBy long pre i) (takes s.adl pre i) (pre ++ bs) (operandWarnings s.mode.ez80 long i.args vs) n d f s) ∧
      n = ops.countP Wrapped := by
  have hne : entriesOf m s.opcodes ≠ [] := by
    obtain ⟨x, y, hxy, -⟩ := hi
    rw [hxy]; simp
  obtain ⟨sfx, o, os, hd, ho, rfl, rfl, h4, hl⟩ := statement_head (knot k) h hu hne
  have hg : group m (o :: os) = entriesOf m s.opcodes := by unfold group entriesOf; rw [hd]
  obtain ⟨cs, hcs, hm⟩ := (matchArgs_spec (bl.reverse ++ (m ++ u).reverse) text rest h.stop s h.operands (con_head h hu) m os o ho
    (by rw [hg]; exact he)).1 i ops (by rw [hg]; exact hi)
  obtain ⟨n, d, f, hwr, hno⟩ := writeInstr_sized k D i ops vs cs sfx bs s hw hD.2 hD.1 hv hcs hs hn h4 hc room
  refine ⟨n, d, f, ?_, hno⟩
  show lineSecBody (knot k) (b ++ m ++ u ++ bl ++ text ++ rest) s = _
  rw [hl, M.bind_ok hm]
  dsimp only
  rw [M.bind_ok hwr, takes_prefix s.adl sfx i h4]
  rfl

/-- C20, for any operands: whatever their texts mean, and whether they have values now, later or never, the statement is carried out
as the first entry of its mnemonic that the operand list fits, with exactly the texts of the operands (blanks may follow them), and
the rest of the line remains. Nothing else has happened before the instruction is written. -/
theorem C20_chosen (k : Nat) (b m u bl text rest pre : Str) (long : Bool) (s : S) (i : Instr) (ops : List Str)
    (h : Statement s b m u bl text rest) (hu : Suffixed s u pre long)
    (he : ∀ j ∈ entriesOf m s.opcodes, Regular j.args ∧ Readable j.args text) (hi : FirstFit (entriesOf m s.opcodes) text i ops) :
    ∃ sfx caps, prefixByte sfx = pre ∧ longImmediate sfx s = long ∧
      List.Forall₂ (fun c o => ∃ bl, Blanks bl ∧ capText c = o ++ bl) caps ops ∧
      (knot (k + 1)).lineSec (b ++ m ++ u ++ bl ++ text ++ rest) s =
        (do let size ← writeInstr (knot k) i caps sfx
            advance size
            M.modify (fun s => { s with statsCode := s.statsCode + size, statsMin := s.statsMin + (i.minTime + timePenalty sfx s.adl i), statsMax := s.statsMax + (i.maxTime + timePenalty sfx s.adl i) })
            pure (some rest) : M (Option Str)) s := by
  have hne : entriesOf m s.opcodes ≠ [] := by
    obtain ⟨x, y, hxy, -⟩ := hi
    rw [hxy]; simp
  obtain ⟨sfx, o, os, hd, ho, hp, hlong, h4, hl⟩ := statement_head (knot k) h hu hne
  have hg : group m (o :: os) = entriesOf m s.opcodes := by unfold group entriesOf; rw [hd]
  obtain ⟨cs, hcs, hm⟩ := (matchArgs_spec (bl.reverse ++ (m ++ u).reverse) text rest h.stop s h.operands (con_head h hu) m os o ho
    (by rw [hg]; exact he)).1 i ops (by rw [hg]; exact hi)
  refine ⟨sfx, cs, hp, hlong, hcs.imp (fun _ _ ⟨bl, h1, h2, _⟩ => ⟨bl, h1, h2⟩), ?_⟩
  show lineSecBody (knot k) (b ++ m ++ u ++ bl ++ text ++ rest) s = _
  rw [hl, M.bind_ok hm]

/-- C20 is false for operand lists with a parenthesis that is not closed: the operand that is captured goes on in the following
lines, which are lost. The program reads ` ld a,(5` as a load of the number 5, and the file does not contain the byte of the second
line. -/
theorem C20_swallows_line : (asm (b! " ld a,(5\n .db 1\n") [b! "a.asm"]).state.log =
    [.warning .parenAdvice, .warning .missingParen, .wrote (b! "a.bin") [0x3E, 5]] := by decide +kernel

/-- C20: if the operand list fits no entry of the mnemonic, an operand error is put on record and nothing else happens. -/
theorem C20_none (k : Nat) (b m u bl text rest pre : Str) (long : Bool) (s : S) (h : Statement s b m u bl text rest) (hu : Suffixed s u pre long)
    (he : ∀ j ∈ entriesOf m s.opcodes, Regular j.args ∧ Readable j.args text) (hne : entriesOf m s.opcodes ≠ [])
    (hno : ∀ j ∈ entriesOf m s.opcodes, ∀ ops, ¬ Spec.Fits j.args text ops) :
    ∃ t', (knot (k + 1)).lineSec (b ++ m ++ u ++ bl ++ text ++ rest) s = .ok (some (t' ++ rest)) (errorAt 0x110 s) := by
  obtain ⟨sfx, o, os, hd, ho, rfl, rfl, h4, hl⟩ := statement_head (knot k) h hu hne
  have hg : group m (o :: os) = entriesOf m s.opcodes := by unfold group entriesOf; rw [hd]
  obtain ⟨t', hm⟩ := (matchArgs_spec (bl.reverse ++ (m ++ u).reverse) text rest h.stop s h.operands (con_head h hu) m os o ho
    (by rw [hg]; exact he)).2 (by rw [hg]; exact hno)
  refine ⟨t', ?_⟩
  show lineSecBody (knot k) (b ++ m ++ u ++ bl ++ text ++ rest) s = _
  rw [hl, M.bind_ok hm]
  rfl

/-- C21: the suffixes of the eZ80 write their prefix byte in front of the instruction, and immediates have 16 or 24 bits
as the suffix says. -/
theorem C21_suffix (k D : Nat) (b m u bl text rest : Str) (x : List Nat × Nat × Bool) (s : S) (i : Instr) (ops : List Str) (vs : List Int) (bs : List Nat)
    (h : Statement s b m u bl text rest) (hez : s.mode.ez80 = true) (hx : x ∈ suffixes s.adl) (hu : SameText u x.1)
    (he : ∀ j ∈ entriesOf m s.opcodes, Regular j.args ∧ Readable j.args text) (hi : FirstFit (entriesOf m s.opcodes) text i ops) (hw : Writable i)
    (hD : D ≤ 20 ∧ D ≤ k) (hv : Values (toI32 s.pc) (visibleLabel s) (visibleText s) D i.args ops vs)
    (hc : codeBytes true x.2.2 s.pc (1 + encodedLength x.2.2 i : Nat) i vs = some bs) (hs : InSession s)
    (hn : s.mode.normal = true) (room : HasRoom (1 + bs.length) s) :
    ∃ n d f, (knot (k + 1)).lineSec (b ++ m ++ u ++ bl ++ text ++ rest) s =
        .ok (some rest) (afterCode (takes s.adl [x.2.1] i) (x.2.1 :: bs) (operandWarnings true x.2.2 i.args vs) n d f s) ∧ bs.length = encodedLength x.2.2 i := by
  obtain ⟨n, d, f, h1, -⟩ := C20_selected_partial k D b m u bl text rest [x.2.1] x.2.2 s i ops vs bs h (.inr ⟨hez, x, hx, hu, rfl, rfl⟩) he hi hw hD hv
    (by rw [hez]; exact hc) hs hn room
  rw [hez] at h1
  exact ⟨n, d, f, h1, codeBytes_length hc⟩

/-- C21: without a suffix there is no prefix byte, and immediates have 24 bits only on an eZ80 in ADL mode. -/
theorem C21_unsuffixed (k D : Nat) (b m bl text rest : Str) (s : S) (i : Instr) (ops : List Str) (vs : List Int) (bs : List Nat)
    (h : Statement s b m [] bl text rest)
    (he : ∀ j ∈ entriesOf m s.opcodes, Regular j.args ∧ Readable j.args text) (hi : FirstFit (entriesOf m s.opcodes) text i ops) (hw : Writable i)
    (hD : D ≤ 20 ∧ D ≤ k) (hv : Values (toI32 s.pc) (visibleLabel s) (visibleText s) D i.args ops vs)
    (hc : codeBytes s.mode.ez80 (s.mode.ez80 && s.adl) s.pc (encodedLength (s.mode.ez80 && s.adl) i : Nat) i vs = some bs) (hs : InSession s)
    (hn : s.mode.normal = true) (room : HasRoom bs.length s) :
    ∃ n d f, (knot (k + 1)).lineSec (b ++ m ++ bl ++ text ++ rest) s =
        .ok (some rest) (afterCode (takes s.adl [] i) bs (operandWarnings s.mode.ez80 (s.mode.ez80 && s.adl) i.args vs) n d f s) ∧
      bs.length = encodedLength (s.mode.ez80 && s.adl) i := by
  obtain ⟨n, d, f, h1, -⟩ := C20_selected_partial k D b m [] bl text rest [] _ s i ops vs bs h (.inl ⟨rfl, rfl, rfl⟩) he hi hw hD hv
    (by simpa using hc) hs hn (by simpa using room)
  exact ⟨n, d, f, by simpa using h1, codeBytes_length hc⟩

/-- C21: a name with a dot is nothing but a mnemonic with one of the suffixes; any other text behind the dot, or a suffix
when the processor is not an eZ80, is an unknown opcode. (Names of defines can have dots, though.) -/
theorem C21_unknown (k : Nat) (b m w r : Str) (s : S) (hb : b ≠ [] ∧ Blanks b) (hm : Mnemonic m) (hw : ∀ c ∈ w, NameChar c)
    (hr : ∀ c ∈ r.head?, ¬ NameChar c) (table : ∀ o ∈ s.opcodes, ∀ c ∈ o.name, Alnum c)
    (hno : s.mode.ez80 = true → ∀ x ∈ suffixes s.adl, ¬ SameText (46 :: w) x.1)
    (hd : argumentOf s (m ++ 46 :: w) = none ∧ defineOf s (m ++ 46 :: w) = none) :
    (knot (k + 1)).lineSec (b ++ m ++ 46 :: w ++ r) s = .ok (some r) (errorAt 0x113 s) := by
  show lineSecBody (knot k) (b ++ m ++ 46 :: w ++ r) s = _
  unfold lineSecBody
  rw [List.append_assoc (b ++ m), statement_lineSec (knot k) b m (46 :: w ++ r) hb hm]
  unfold opcodeOrMacro
  have hun : ∀ c ∈ m ++ 46 :: w, NameChar c := by
    intro c hc
    rcases List.mem_append.1 hc with hc | hc
    · exact .inl (hm.chars c hc)
    · rcases List.mem_cons.1 hc with rfl | hc
      · unfold NameChar; omega
      · exact hw c hc
  obtain ⟨ht, hk⟩ := takeName_stop (m ++ 46 :: w) r hun hr
  have e0 : m ++ (46 :: w ++ r) = (m ++ 46 :: w) ++ r := by simp
  rw [e0, ht, hk]
  dsimp only
  rw [M.get_bind]
  generalize hp : (if s.mode.ez80 then parseSuffix s.adl (m ++ 46 :: w) else none) = sfx
  have hlen : ∀ n, (∀ c, sfx = some (c, n) → m.length < (m ++ 46 :: w).length - n) := by
    intro n c hc
    subst hc
    split at hp
    · rename_i hez
      obtain ⟨m', u, hmu, hul, x, hx, hs⟩ := parseSuffix_only _ _ _ _ hp
      obtain ⟨-, u', rfl, hu'⟩ := suffix_nameChar _ u x hx hs
      by_cases hlt : m.length < (m ++ 46 :: w).length - n
      · exact hlt
      · exfalso
        have h1 : m'.length ≤ m.length := by rw [hmu] at hlt; simp at hlt hul; omega
        rcases Nat.lt_or_ge m'.length m.length with h2 | h2
        · have : (m ++ 46 :: w)[m'.length]? = (m' ++ 46 :: u')[m'.length]? := by rw [hmu]
          rw [List.getElem?_append_left h2, List.getElem?_append_right (Nat.le_refl _)] at this
          simp at this
          have hin := hm.chars 46 (List.mem_of_getElem? this)
          unfold Alnum at hin
          omega
        · have heq := List.append_inj hmu (by omega)
          rw [← heq.2] at hs
          exact hno hez x hx hs
    · cases hp
  have hf : findOpcode ((m ++ 46 :: w) ++ r) (match sfx with | some (_, n) => (m ++ 46 :: w).length - n | none => (m ++ 46 :: w).length) s.opcodes = [] := by
    rw [List.append_assoc]
    refine findOpcode_dot m (w ++ r) s.opcodes _ ?_ table
    cases sfx with
    | none => simp
    | some y => exact hlen y.2 y.1 rfl
  have hbuf : ∀ n : Str, (∀ c ∈ n, Alnum c) → eqCaseN ((m ++ 46 :: w) ++ r) n (m ++ 46 :: w).length = false := by
    intro n hn
    rw [List.append_assoc]
    exact eqCaseN_dot m (w ++ r) n _ (by simp) hn
  rw [hbuf (b! "buf") (by decide), hbuf (b! "clr") (by decide), hbuf (b! "wr") (by decide), hbuf (b! "run") (by decide)]
  simp only [Bool.false_and, Bool.false_eq_true, if_false]
  have hfin : (searchDefines (m ++ 46 :: w) >>= fun x => match x with
      | some (_, d) => do pure (some (← callMacro (knot k) d r))
      | none => do
        setError E.UNKNOWN_OPCODE
        pure (some r) : M (Option Str)) s = .ok (some r) (errorAt 0x113 s) := by
    rw [M.bind_ok (searchDefines_none _ s hd.1 hd.2)]
    rfl
  cases sfx with
  | none => dsimp only at hf ⊢; rw [hf]; exact hfin
  | some y => obtain ⟨c, n⟩ := y; dsimp only at hf ⊢; rw [hf]; exact hfin

/-! ### The tables -/

/-- A check of a table entry. -/
def entryCheck (i : Instr) : Bool :=
  decide ((i.args.filter (fun c => (operandType c).isSome)).length ≤ 3) && i.args.all (fun c => !isSpace c) && i.data.all (· < 256) &&
  decide (i.endData < 256) && decide (i.args.count 94 ≤ 1) && (!i.args.contains 37 || !i.args.contains 42) &&
  decide (i.size = encodedLength false i) && decide (encodedLength false i ≤ 60000) &&
  ((!i.args.contains 34 && !i.args.contains 39) || i.args.all (fun c => (operandType c).isNone))

theorem entryCheck_tables : (z80Table ++ ez80Table).all (fun o => o.instrs.all entryCheck && o.name.all (fun c => isAlpha c || isDigit c)) = true := by
  decide +kernel

theorem entryCheck_spec {i : Instr} (h : entryCheck i = true) : Writable i ∧ ((34 ∉ i.args ∧ 39 ∉ i.args) ∨ NoOperands i.args) := by
  unfold entryCheck at h
  simp only [Bool.and_eq_true, decide_eq_true_eq, List.all_eq_true, Bool.or_eq_true, Bool.not_eq_true', List.contains_eq_mem, decide_eq_false_iff_not] at h
  obtain ⟨⟨⟨⟨⟨⟨⟨⟨h1, h2⟩, h3⟩, h4⟩, h5⟩, h6⟩, h7⟩, h8⟩, h9⟩ := h
  refine ⟨⟨⟨h1, fun c hc => ?_⟩, ⟨h3, h4⟩, h5, ?_, h7, h8⟩, ?_⟩
  · have := h2 c hc
    rw [← isSpace_iff]
    simp [this]
  · intro a b
    rcases h6 with h | h
    · exact h a
    · exact h b
  · rcases h9 with h | h
    · exact .inl h
    · refine .inr fun c hc => ?_
      simpa using h c hc

/-- The entries of both tables are writable, and the mnemonics are names. -/
theorem tables_writable (o : Opcode) (ho : o ∈ z80Table ++ ez80Table) :
    (∀ c ∈ o.name, Alnum c) ∧ ∀ i ∈ o.instrs, Writable i ∧ ((34 ∉ i.args ∧ 39 ∉ i.args) ∨ NoOperands i.args) := by
  have := entryCheck_tables
  rw [List.all_eq_true] at this
  have := this o ho
  rw [Bool.and_eq_true, List.all_eq_true, List.all_eq_true] at this
  refine ⟨fun c hc => ?_, fun i hi => entryCheck_spec (this.1 i hi)⟩
  have := this.2 c hc
  unfold isAlpha isDigit isUpper isLower at this
  simp at this
  unfold Alnum
  omega

/-- Operand lists for the mnemonics of both tables. -/
theorem tables_readable (table : List Opcode) (ht : ∀ o ∈ table, o ∈ z80Table ++ ez80Table) (m text : Str) (hends : ∀ c ∈ text, c ≠ 10 ∧ c ≠ 13 ∧ c ≠ 59 ∧ c ≠ 92)
    (hs : Scannable text ∨ ∀ j ∈ entriesOf m table, NoOperands j.args) :
    ∀ j ∈ entriesOf m table, Regular j.args ∧ Readable j.args text := by
  intro j hj
  have hjo : ∃ o ∈ table, j ∈ o.instrs := by
    obtain ⟨o, ho, hi⟩ := List.mem_flatMap.1 hj
    exact ⟨o, (List.dropWhile_sublist _).subset ((List.takeWhile_sublist _).subset ho), hi⟩
  obtain ⟨o, ho, hi⟩ := hjo
  obtain ⟨hw, hq⟩ := (tables_writable o (ht o ho)).2 j hi
  refine ⟨hw.regular, ?_⟩
  rcases hs with hs | hs
  · rcases hq with hq | hq
    · exact .inl ⟨hs, hq⟩
    · exact .inr ⟨hq, hends⟩
  · exact .inr ⟨hs j hj, hends⟩

theorem mem_of_firstFit {table : List Opcode} {m text : Str} {i : Instr} {ops : List Str} (hi : FirstFit (entriesOf m table) text i ops) :
    ∃ o ∈ table, SameText o.name m ∧ i ∈ o.instrs := by
  obtain ⟨x, y, hxy, -⟩ := hi
  have : i ∈ entriesOf m table := by rw [hxy]; simp
  obtain ⟨o, ho, hi⟩ := List.mem_flatMap.1 this
  refine ⟨o, (List.dropWhile_sublist _).subset ((List.takeWhile_sublist _).subset ho), ?_, hi⟩
  have := List.all_eq_true.1 List.all_takeWhile o ho
  simpa using this

/-- C53: an instruction statement assembles to the instruction it names. The bytes appended to the output are decoded, by
a decoder written after the processor's opcode map, to the mnemonic and the operands of the statement, with the values of
the operands (or to a synonym). -/
theorem C53_assembles (k D : Nat) (b m bl text rest : Str) (s : S) (i : Instr) (ops : List Str) (vs : List Int) (bs : List Nat)
    (h : Statement s b m [] bl text rest) (hz : s.mode.ez80 = false) (ht : s.opcodes = z80Table)
    (hends : ∀ c ∈ text, c ≠ 10 ∧ c ≠ 13 ∧ c ≠ 59 ∧ c ≠ 92) (hsc : Scannable text ∨ ∀ j ∈ entriesOf m z80Table, NoOperands j.args)
    (hi : FirstFit (entriesOf m z80Table) text i ops) (hD : D ≤ 20 ∧ D ≤ k)
    (hv : Values (toI32 s.pc) (visibleLabel s) (visibleText s) D i.args ops vs)
    (hc : codeBytes false false s.pc i.size i vs = some bs) (hs : InSession s) (hn : s.mode.normal = true) (room : HasRoom bs.length s) :
    (∃ n d f, (knot (k + 1)).lineSec (b ++ m ++ bl ++ text ++ rest) s =
        .ok (some rest) (afterCode (takes s.adl [] i) bs (operandWarnings false false i.args vs) n d f s)) ∧
    ∀ more, ∃ m' t name, decode z80 (bs ++ more) = some (m', t, more) ∧ SameText name m ∧ Synonym (m', t) (name, written false false s.pc i.size i.args vs) := by
  obtain ⟨o, ho, hom, hio⟩ := mem_of_firstFit hi
  have hw := ((tables_writable o (by simp [ho])).2 i hio).1
  have hread := tables_readable z80Table (fun o ho => by simp [ho]) m text hends hsc
  constructor
  · obtain ⟨n, d, f, h1, -⟩ := C21_unsuffixed k D b m bl text rest s i ops vs bs h (by rw [ht]; exact hread) (by rw [ht]; exact hi) hw hD hv
      (by rw [hz]; simp only [Bool.false_and]; rw [← hw.size]; exact hc) hs hn room
    rw [hz] at h1
    exact ⟨n, d, f, h1⟩
  · intro more
    obtain ⟨m', t, h1, h2⟩ := C19_encodings o ho i hio s.pc vs bs more hc
    exact ⟨m', t, o.name, h1, hom, h2⟩

/-- C53 for the eZ80: with the eZ80 table, the bytes of a statement, the one for its suffix included, are decoded to the
suffix in full, the mnemonic and the operands of the statement (or to a synonym); immediates have 24 bits or 16 as the
suffix and the mode say. The four instructions `LD B,B`, `LD C,C`, `LD D,D` and `LD E,E` are missing: see
`C57_fails_same_register`. -/
theorem C53_assembles_ez80_partial (k D : Nat) (b m u bl text rest pre : Str) (long : Bool) (s : S) (i : Instr) (ops : List Str) (vs : List Int)
    (bs : List Nat) (h : Statement s b m u bl text rest) (hu : Suffixed s u pre long) (hz : s.mode.ez80 = true) (ht : s.opcodes = ez80Table)
    (hends : ∀ c ∈ text, c ≠ 10 ∧ c ≠ 13 ∧ c ≠ 59 ∧ c ≠ 92) (hsc : Scannable text ∨ ∀ j ∈ entriesOf m ez80Table, NoOperands j.args)
    (hi : FirstFit (entriesOf m ez80Table) text i ops)
    (hno : ¬ (SameText m (b! "LD") ∧ i.args ∈ [b! "B,B", b! "C,C", b! "D,D", b! "E,E"])) (hD : D ≤ 20 ∧ D ≤ k)
    (hv : Values (toI32 s.pc) (visibleLabel s) (visibleText s) D i.args ops vs)
    (hc : codeBytes true long s.pc (pre.length + encodedLength long i : Nat) i vs = some bs) (hs : InSession s) (hn : s.mode.normal = true)
    (room : HasRoom (pre.length + bs.length) s) :
    (∃ n d f, (knot (k + 1)).lineSec (b ++ m ++ u ++ bl ++ text ++ rest) s =
        .ok (some rest) (afterCode (takes s.adl pre i) (pre ++ bs) (operandWarnings true long i.args vs) n d f s)) ∧
    ∀ more, ∃ sfx m' t name, decodeEz80 s.adl (pre ++ bs ++ more) = some (sfx, m', t, more) ∧
      (∃ x ∈ fullSuffixes s.adl, SameText u x.1 ∧ sfx = x.2) ∧ SameText name m ∧
      EzSynonym (m', t) (name, written true long s.pc (pre.length + encodedLength long i : Nat) i.args vs) := by
  obtain ⟨o, ho, hom, hio⟩ := mem_of_firstFit hi
  have hw := ((tables_writable o (by simp [ho])).2 i hio).1
  have hread := tables_readable ez80Table (fun o ho => by simp [ho]) m text hends hsc
  constructor
  · obtain ⟨n, d, f, h1, -⟩ := C20_selected_partial k D b m u bl text rest pre long s i ops vs bs h hu (by rw [ht]; exact hread) (by rw [ht]; exact hi)
      hw hD hv (by rw [hz]; exact hc) hs hn room
    rw [hz] at h1
    exact ⟨n, d, f, h1⟩
  · intro more
    obtain ⟨sfx, hp, hx⟩ : ∃ sfx, Prefix s.adl pre sfx long ∧ ∃ x ∈ fullSuffixes s.adl, SameText u x.1 ∧ sfx = x.2 := by
      rcases hu with ⟨rfl, rfl, hl⟩ | ⟨-, x, hx, hux, rfl, rfl⟩
      · rw [hz, Bool.true_and] at hl
        exact ⟨[], .inl ⟨rfl, rfl, hl⟩, ([], []), by simp [fullSuffixes], rfl, rfl⟩
      · have : ∀ adl, ∀ x ∈ suffixes adl, ∃ p ∈ prefixes, x.2.1 = p.1 ∧ x.2.2 = p.2.2 ∧ (x.1, p.2.1) ∈ fullSuffixes adl := by decide
        obtain ⟨p, hp, e1, e2, e3⟩ := this _ x hx
        exact ⟨p.2.1, .inr ⟨p, hp, by rw [e1], rfl, e2⟩, _, e3, hux, rfl⟩
    obtain ⟨m', t, h1, h2⟩ := C57_encodings_partial s.adl pre sfx long hp o ho i hio
      (fun hh => hno ⟨by rw [← hh.1]; exact hom.symm, hh.2⟩) s.pc _ vs bs more hc
    exact ⟨sfx, m', t, o.name, h1, hx, hom, h2⟩

/-! ### Examples -/

theorem scannable_plain (t : Str) (h : ∀ c ∈ t, Ordinary c ∧ c ≠ 44) (hl : t.length ≤ 254) : Scannable t := by
  refine ⟨?_, fun a b => ⟨?_, ?_⟩, hl⟩
  · clear hl
    induction t with
    | nil => exact .nil _
    | cons c t ih => exact .char _ _ _ (h c (by simp)).1 (by simp) (ih fun x hx => h x (by simp [hx]))
  · rintro rfl
    exact (h 44 (by simp)).2 rfl
  · rintro rfl
    exact (h 44 (by simp)).2 rfl

/-- ` djnz $` meets the hypotheses of C53. -/
example (fs : Str → Option (List Nat)) (mem rand : Nat → Nat) :
    let s := { startState fs mem rand with session := 1, pc := 0x9D95 }
    ∃ n d f, (knot 5).lineSec (b! "\tdjnz $ ; wait\n") s = .ok (some (b! "; wait\n")) (afterCode (8, 13) [0x10, 0xFE] [] n d f s) := by
  intro s
  have hden : Denotes (toI32 s.pc) (visibleLabel s) (visibleText s) 0 [36] 0x9D95 := .one 0 _ _ (.plain 0 _ _ (.atom _ _ .here))
  have nb : Blanks [32] := by intro c hc; simp at hc; subst hc; simp
  have hbal : Balanced [44] false [36] := .char _ _ _ (by decide) (by decide) (.nil _)
  have hfit : Spec.Fits [37] [36, 32] [[36]] :=
    .operand 37 [36] [32] [] [] [] (by decide) hbal ⟨by decide, by decide, by decide⟩ nb (.inl rfl) (by intro h; cases h) .done
  exact (C53_assembles 4 4 [9] (b! "djnz") [32] [36, 32] (b! "; wait\n") s ⟨[37], [0x10], false, 0, 2, 8, 13, 0⟩ [[36]] [0x9D95] [0x10, 0xFE]
    { indented := ⟨by decide, by intro c hc; simp at hc; subst hc; simp⟩
      mnemonic := ⟨⟨_, _, rfl, by decide⟩, by decide⟩
      blanks := nb
      nameEnds := by intro c hc; cases hc; unfold NameChar Alnum; omega
      operands := by intro c hc; cases hc; decide
      stop := .inr ⟨_, _, rfl, by decide⟩
      table := fun o ho => (tables_writable o (List.mem_append_left _ ho)).1 }
    rfl rfl (by decide) (.inl (scannable_plain _ (by decide) (by decide)))
    ⟨[], [], by decide +kernel, hfit, by simp⟩ (by omega)
    (.operand _ _ 0 _ _ _ _ (by decide) (by decide) hden (by omega) .nil)
    (show codeBytes false false 0x9D95 2 ⟨[37], [0x10], false, 0, 2, 8, 13, 0⟩ [0x9D95] = some [0x10, 0xFE] by decide +kernel)
    ⟨show (1 : Int) ≤ 1 by decide, by intro e he; cases he⟩ rfl ⟨show (0 : Int) ≤ 0 by decide, show (0 : Int) + 2 ≤ 8000000 by decide⟩).1

example : decode z80 [0x10, 0xFE] = some (b! "DJNZ", [.num (-2)], []) := by decide

/-- ` djnz later` where the label is not defined meets the hypotheses of C20_chosen. -/
example (fs : Str → Option (List Nat)) (mem rand : Nat → Nat) :
    let s := { startState fs mem rand with session := 1, pc := 0x9D95 }
    ∃ sfx caps, prefixByte sfx = [] ∧ longImmediate sfx s = false ∧
      List.Forall₂ (fun c o => ∃ bl, Blanks bl ∧ capText c = o ++ bl) caps [b! "later"] ∧
      (knot 5).lineSec (b! "\tdjnz later ; wait\n") s =
        (do let size ← writeInstr (knot 4) ⟨[37], [0x10], false, 0, 2, 8, 13, 0⟩ caps sfx
            advance size
            M.modify (fun s => { s with statsCode := s.statsCode + size, statsMin := s.statsMin + (8 + timePenalty sfx s.adl ⟨[37], [0x10], false, 0, 2, 8, 13, 0⟩), statsMax := s.statsMax + (13 + timePenalty sfx s.adl ⟨[37], [0x10], false, 0, 2, 8, 13, 0⟩) })
            pure (some (b! "; wait\n")) : M (Option Str)) s := by
  intro s
  have nb : Blanks [32] := by intro c hc; simp at hc; subst hc; simp
  have hbal : Balanced [44] false (b! "later") := .char _ _ _ (by decide) (by decide) (.char _ _ _ (by decide) (by decide) (.char _ _ _ (by decide) (by decide)
    (.char _ _ _ (by decide) (by decide) (.char _ _ _ (by decide) (by decide) (.nil _)))))
  have hfit : Spec.Fits [37] (b! "later ") [b! "later"] :=
    .operand 37 (b! "later") [32] [] [] [] (by decide) hbal ⟨by decide, by decide, by decide⟩ nb (.inl rfl) (by intro h; cases h) .done
  exact C20_chosen 4 [9] (b! "djnz") [] [32] (b! "later ") (b! "; wait\n") [] false s ⟨[37], [0x10], false, 0, 2, 8, 13, 0⟩ [b! "later"]
    { indented := ⟨by decide, by intro c hc; simp at hc; subst hc; simp⟩
      mnemonic := ⟨⟨_, _, rfl, by decide⟩, by decide⟩
      blanks := nb
      nameEnds := by intro c hc; cases hc; unfold NameChar Alnum; omega
      operands := by intro c hc; cases hc; decide
      stop := .inr ⟨_, _, rfl, by decide⟩
      table := fun o ho => (tables_writable o (List.mem_append_left _ ho)).1 }
    (.inl ⟨rfl, rfl, rfl⟩) (tables_readable z80Table (fun o ho => by simp [ho]) (b! "djnz") (b! "later ") (by decide) (.inl (scannable_plain _ (by decide) (by decide))))
    ⟨[], [], (show entriesOf (b! "djnz") z80Table = [⟨[37], [0x10], false, 0, 2, 8, 13, 0⟩] by decide +kernel), hfit, by simp⟩

/-- A whole program with instructions. -/
example : (asm (b! " LD a , (ix+3)\n bit 7,(IY)\n ex af,af'\n jp nz,$+1\n out(4),A") [b! "a.asm"]).state.log =
    [.wrote (b! "a.bin") [0xDD, 0x7E, 3, 0xFD, 0xCB, 0, 0x7E, 0x08, 0xC2, 9, 0, 0xD3, 4]] := by decide +kernel

example : (asm (b! ".assume adl=0\n ld.sis hl,1\n ld.LIL hl,1\n ld hl,1\n.assume adl=1\n ld hl,1\n ld.s a,(1)") [b! "-E", b! "a.asm"]).state.log =
    [.wrote (b! "a.bin") [0x40, 0x21, 1, 0, 0x5B, 0x21, 1, 0, 0, 0x21, 1, 0, 0x21, 1, 0, 0, 0x52, 0x3A, 1, 0, 0]] := by decide +kernel

/-- ` djnz.lil $` on an eZ80 in Z80 mode meets the hypotheses of C53 for the eZ80. -/
example (fs : Str → Option (List Nat)) (mem rand : Nat → Nat) :
    let s := { startState fs mem rand with session := 1, pc := 0x9D95, opcodes := ez80Table, mode := { (startState fs mem rand).mode with ez80 := true } }
    ∃ n d f, (knot 5).lineSec (b! "\tdjnz.lil $ ; wait\n") s = .ok (some (b! "; wait\n")) (afterCode (3, 5) [0x5B, 0x10, 0xFD] [] n d f s) := by
  intro s
  have hden : Denotes (toI32 s.pc) (visibleLabel s) (visibleText s) 0 [36] 0x9D95 := .one 0 _ _ (.plain 0 _ _ (.atom _ _ .here))
  have nb : Blanks [32] := by intro c hc; simp at hc; subst hc; simp
  have hbal : Balanced [44] false [36] := .char _ _ _ (by decide) (by decide) (.nil _)
  have hfit : Spec.Fits [37] [36, 32] [[36]] :=
    .operand 37 [36] [32] [] [] [] (by decide) hbal ⟨by decide, by decide, by decide⟩ nb (.inl rfl) (by intro h; cases h) .done
  exact (C53_assembles_ez80_partial 4 4 [9] (b! "djnz") (b! ".lil") [32] [36, 32] (b! "; wait\n") [0x5B] true s ⟨[37], [0x10], false, 0, 2, 2, 4, 0⟩ [[36]]
    [0x9D95] [0x10, 0xFD]
    { indented := ⟨by decide, by intro c hc; simp at hc; subst hc; simp⟩
      mnemonic := ⟨⟨_, _, rfl, by decide⟩, by decide⟩
      blanks := nb
      nameEnds := by intro c hc; cases hc; unfold NameChar Alnum; omega
      operands := by intro c hc; cases hc; decide
      stop := .inr ⟨_, _, rfl, by decide⟩
      table := fun o ho => (tables_writable o (List.mem_append_right _ ho)).1 }
    (.inr ⟨rfl, (b! ".LIL", 0x5B, true), by simp [suffixes], by decide, rfl, rfl⟩)
    rfl rfl (by decide) (.inl (scannable_plain _ (by decide) (by decide)))
    ⟨[], [], by decide +kernel, hfit, by simp⟩ (by decide) (by omega)
    (.operand _ _ 0 _ _ _ _ (by decide) (by decide) hden (by omega) .nil)
    (show codeBytes true true 0x9D95 3 ⟨[37], [0x10], false, 0, 2, 2, 4, 0⟩ [0x9D95] = some [0x10, 0xFD] by decide +kernel)
    ⟨show (1 : Int) ≤ 1 by decide, by intro e he; cases he⟩ rfl ⟨show (0 : Int) ≤ 0 by decide, show (0 : Int) + 3 ≤ 8000000 by decide⟩).1

end Spasm.Props
