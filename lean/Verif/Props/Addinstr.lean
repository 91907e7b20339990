import Verif.Lemmas.Addinstr
import Verif.Props.Instr
import Verif.Props.Run

/-
C45: instructions defined with .addinstr.
-/

namespace Spasm.Props
open Spec

theorem mnemonic_column {m : Str} (h : Mnemonic m ∧ m.length ≤ 254) : Column m := by
  obtain ⟨⟨⟨c, r, rfl, -⟩, h2⟩, h3⟩ := h
  exact column_alnum h2 (by simp) h3

theorem hex_column {h bs : Str} (hb : HexBytes h bs) (hne : bs ≠ []) (hl : bs.length ≤ 4) : Column h := by
  obtain ⟨h1, h2, -⟩ := hexBytes_digits hb
  refine column_alnum (fun c hc => ?_) ?_ (by omega)
  · obtain ⟨v, hv, -⟩ := h1 c hc
    unfold digit at hv
    unfold Alnum
    by_contra hcon
    rw [if_neg (by omega), if_neg (by omega), if_neg (by omega)] at hv
    cases hv
  · intro h0
    rw [h0] at h2
    exact hne (List.length_eq_zero_iff.1 (by simp at h2; simp [h2]))

theorem tail_stops {b rest : Str} (hb : b = [] ∨ Gap b) (hr : Spec.LineEnd rest) : Stops [32, 9] (b ++ rest) := by
  rcases hb with rfl | hb
  · exact lineEnd_stops hr _
  · exact gap_stops hb _

theorem tail_blanks {b : Str} (hb : b = [] ∨ Gap b) : Blanks b := by
  rcases hb with rfl | hb
  · intro c hc; simp at hc
  · exact gap_blanks hb

/-- The words behind the size. -/
theorem extras_read {ex : Str} {last : Option Nat} (h : Extras ex last) (b rest : Str) (hb : b = [] ∨ Gap b) (hr : Spec.LineEnd rest) (s : S) :
    ∃ f1 w1 r1 f2 w2 r2 w3, readExpr [32, 9] (ex ++ (b ++ rest)) true s = .ok (f1, w1, r1) s ∧ readExpr [32, 9] r1 true s = .ok (f2, w2, r2) s ∧
      ∃ r3, readExpr [32, 9] r2 true s = .ok (last.isSome, w3, r3) s ∧ skipToLineEnd false false r3 = rest ∧
      ∀ e ∈ last, ∃ v, convHex w3 w3.length s = .ok (some v) s ∧ (v % 256).toNat = e := by
  have none : ∀ b, (b = [] ∨ Gap b) → readExpr [32, 9] (b ++ rest) true s = .ok (false, [], rest) s := fun b hb =>
    readExpr_none b rest s (tail_blanks hb) hr
  have one : ∀ g w r, Gap g → Column w → Stops [32, 9] r → readExpr [32, 9] (g ++ (w ++ r)) true s = .ok (true, w, r) s := by
    intro g w r hg hw hs
    rw [← List.append_assoc]
    exact readExpr_word g w r s (gap_blanks hg) hw hs
  cases h with
  | none => exact ⟨_, _, _, _, _, _, _, none b hb, none [] (.inl rfl), _, none [] (.inl rfl), skipToLineEnd_lineEnd hr, by simp⟩
  | one g w hg hw =>
    rw [List.append_assoc]
    exact ⟨_, _, _, _, _, _, _, one g w _ hg hw (tail_stops hb hr), none b hb, _, none [] (.inl rfl), skipToLineEnd_lineEnd hr, by simp⟩
  | two g w g' w' hg hw hg' hw' =>
    simp only [List.append_assoc]
    exact ⟨_, _, _, _, _, _, _, one g w _ hg hw (gap_stops hg' _), one g' w' _ hg' hw' (tail_stops hb hr), _, none b hb, skipToLineEnd_lineEnd hr, by simp⟩
  | last g w g' w' g'' h e hg hw hg' hw' hg'' he =>
    simp only [List.append_assoc]
    refine ⟨_, _, _, _, _, _, _, one g w _ hg hw (gap_stops hg' _), one g' w' _ hg' hw' (gap_stops hg'' _), _,
      one g'' h _ hg'' (hex_column he (by simp) (by simp)) (tail_stops hb hr), ?_, ?_⟩
    · rcases hb with rfl | hb
      · exact skipToLineEnd_lineEnd hr
      · have : ∀ u : Str, Blanks u → skipToLineEnd false false (u ++ rest) = rest := by
          intro u
          induction u with
          | nil => intro _; exact skipToLineEnd_lineEnd hr
          | cons c u ih =>
            intro h
            have hc := h c (by simp)
            have := ih fun x hx => h x (by simp [hx])
            rw [List.cons_append]
            unfold skipToLineEnd
            rw [if_neg (by simp; omega)]
            have h1 : (c == 34) = false := by simp; omega
            have h2 : (c == 39) = false := by simp; omega
            have h3 : (c == 92) = false := by simp; omega
            simp [h1, h2, h3, this]
        exact this b (gap_blanks hb)
    · intro x hx
      simp only [Option.mem_def, Option.some.injEq] at hx
      subst hx
      obtain ⟨v, h1, h2, -⟩ := convHex_bytes he (by simp) (by simp) s
      refine ⟨v, h1, ?_⟩
      simpa [instrBytes] using h2

/-- The directive itself. -/
theorem addinstr_runs (k d : Nat) (m w pat hex bs sz ex text : Str) (last : Option Nat) (rest : Str) (size : Int) (s : S)
    (h : Definition m w pat hex bs sz ex last text) (hr : Spec.LineEnd rest) (hd : d < 20) (hk : d < k)
    (hsz : Denotes (toI32 s.pc) (visibleLabel s) (visibleText s) d sz size) :
    dirAddinstr (knot k) (text ++ rest) s = .ok (some rest) { s with
      parseDepth := 0, fwdRef := false, opcodes := insertOpcode ⟨m, [addedEntry pat bs last size]⟩ s.opcodes } := by
  obtain ⟨hm, ⟨hp, hstar⟩, ⟨hhex, hne, hl⟩, hfs, hex', g1, g2, g3, b, hg1, hg2, hg3, hb, rfl⟩ := h
  have nb : Blanks [] := by intro c hc; simp at hc
  have e1 := readExpr_word [] m (g1 ++ (w ++ (g2 ++ (hex ++ (g3 ++ (sz ++ (ex ++ (b ++ rest)))))))) s nb (mnemonic_column hm) (gap_stops hg1 _)
  have e2 := readExpr_word g1 w (g2 ++ (hex ++ (g3 ++ (sz ++ (ex ++ (b ++ rest)))))) s (gap_blanks hg1) hp.1 (gap_stops hg2 _)
  have e3 := readExpr_word g2 hex (g3 ++ (sz ++ (ex ++ (b ++ rest)))) s (gap_blanks hg2) (hex_column hhex hne hl) (gap_stops hg3 _)
  have hst : Stops [32, 9] (ex ++ (b ++ rest)) := by
    cases hex' with
    | none => simpa using tail_stops hb hr
    | one g w hg hw => rw [List.append_assoc]; exact gap_stops hg _
    | two g w g' w' hg hw hg' hw' => simp only [List.append_assoc]; exact gap_stops hg _
    | last g w g' w' g'' h e hg hw hg' hw' hg'' he => simp only [List.append_assoc]; exact gap_stops hg _
  have e4 := readExpr_word g3 sz (ex ++ (b ++ rest)) s (gap_blanks hg3) hfs hst
  obtain ⟨v, e5, e6, -⟩ := convHex_bytes hhex hne hl s
  have e7 := C03_value s d k [] sz [] [] size hsz hd hk nb nb (.inl rfl)
  obtain ⟨f1, w1, r1, f2, w2, r2, w3, x1, x2, r3, x3, x4, x5⟩ := extras_read hex' b rest hb hr { s with parseDepth := 0, fwdRef := false }
  have hlen := (hexBytes_digits hhex).2.1
  simp only [List.nil_append, List.append_nil] at e1 e7
  simp only [List.append_assoc] at e1 e2 e3 e4 ⊢
  unfold dirAddinstr
  rw [M.bind_ok e1]; dsimp only
  rw [if_neg (by decide), M.bind_ok e2]; dsimp only
  rw [if_neg (by decide), M.bind_ok (reduce_plain (knot k) hp s), M.bind_ok e3]; dsimp only
  rw [if_neg (by decide), M.bind_ok e5]; dsimp only
  have hn : hex.length / 2 = bs.length := by omega
  rw [hn, if_neg (by omega), if_neg (by omega), e6, M.pure_bind, M.bind_ok e4]; dsimp only
  rw [if_neg (by decide), M.bind_ok e7]; dsimp only
  rw [M.bind_ok x1]; dsimp only
  rw [M.bind_ok x2]; dsimp only
  rw [M.bind_ok x3]; dsimp only
  cases last with
  | none =>
    simp only [Option.isSome_none, Bool.false_eq_true, if_false]
    rw [M.pure_bind, M.modify_bind, x4, fixWild_one _ _ hstar]
    rfl
  | some e =>
    obtain ⟨v', y1, y2⟩ := x5 e rfl
    simp only [Option.isSome_some, if_true]
    rw [M.bind_ok y1]
    dsimp only
    rw [M.pure_bind, M.modify_bind, x4, fixWild_one _ _ hstar, y2]
    rfl

/-- C45: a definition with .addinstr adds its entry in front of the other entries of the mnemonic and changes nothing
else; the statement reaches to the end of the line. The size is an expression. Partial: up to four opcode bytes, and one
`*` in the pattern (`Definition`); see the cases below for more. -/
theorem C45_defined_partial (name : Str) (hn : name ∈ [b! "addinstr", b! "ADDINSTR"]) (k d : Nat) (hd : d < 20) (hk : d < k) (b b1 : Str) (c : Nat)
    (m w pat hex bs sz ex text : Str) (last : Option Nat) (rest : Str) (size : Int) (s : S)
    (h : Definition m w pat hex bs sz ex last text) (hsz : Denotes (toI32 s.pc) (visibleLabel s) (visibleText s) d sz size)
    (hb : Blanks b) (hb1 : Blanks b1) (hc : c = 32 ∨ c = 9) (hr : Spec.LineEnd rest) :
    ∃ table, (knot (k + 1)).lineSec (b ++ 46 :: name ++ c :: b1 ++ text ++ rest) s =
        .ok (some rest) { s with parseDepth := 0, fwdRef := false, opcodes := table } ∧
      (∀ n, entriesOf n table = (if SameText m n then [addedEntry pat bs last size] else []) ++ entriesOf n s.opcodes) ∧
      ((∀ o ∈ s.opcodes, ∀ c ∈ o.name, Alnum c) → ∀ o ∈ table, ∀ c ∈ o.name, Alnum c) := by
  have hdir : (∀ x ∈ name, isSpace x = false) ∧ name.length < 32 ∧ (dirNames.find? (fun d => eqCase d.1 name)).map (·.2) = some .addinstr := by
    simp only [List.mem_cons, List.not_mem_nil, or_false] at hn
    rcases hn with rfl | rfl <;> decide
  have hstart : ∃ x y, text = x :: y ∧ isBlank x = false := by
    obtain ⟨⟨⟨⟨x, r, rfl, hx⟩, -⟩, -⟩, -, -, -, -, g1, g2, g3, b', -, -, -, -, rfl⟩ := h
    exact ⟨x, r ++ (g1 ++ (w ++ (g2 ++ (hex ++ (g3 ++ (sz ++ (ex ++ b'))))))), by simp, by unfold isBlank isSpace; simp; omega⟩
  refine ⟨_, ?_, fun n => insertOpcode_entries ⟨m, [addedEntry pat bs last size]⟩ n s.opcodes, ?_⟩
  · rw [lineSec_directive k name .addinstr hdir.1 hdir.2.1 hdir.2.2 b b1 text rest c hb hb1 hc hstart s]
    exact addinstr_runs k d m w pat hex bs sz ex text last rest size s h hr hd hk hsz
  · intro ht o ho x hx
    rw [insertOpcode_mem] at ho
    rcases ho with rfl | ho
    · exact h.mnemonic.1.chars x hx
    · exact ht o ho x hx

theorem takes_added (adl : Bool) (pre pat data : List Nat) (last : Option Nat) (size : Int) :
    takes adl pre (addedEntry pat data last size) = ((pre.length : Int), (pre.length : Int)) := by
  simp [takes, addedEntry]

/-- C45: an instruction statement that fits the pattern of the definition writes the bytes of the definition, with the
values of its operands, and moves the address by the size of the definition. `old` are the earlier entries of the mnemonic. -/
theorem C45_emits (k D : Nat) (b m u bl text rest pre : Str) (long : Bool) (s : S) (pat data : Str) (last : Option Nat) (size : Int)
    (old : List Instr) (ops : List Str) (vs : List Int) (bs : List Nat)
    (hent : entriesOf m s.opcodes = addedEntry pat data last size :: old)
    (h : Statement s b m u bl text rest) (hu : Suffixed s u pre long)
    (he : ∀ j ∈ entriesOf m s.opcodes, Regular j.args ∧ Readable j.args text)
    (hfit : Spec.Fits (addedEntry pat data last size).args text ops) (hw : Encodable (addedEntry pat data last size))
    (hD : D ≤ 20 ∧ D ≤ k) (hv : Values (toI32 s.pc) (visibleLabel s) (visibleText s) D (addedEntry pat data last size).args ops vs)
    (hc : codeBytes s.mode.ez80 long s.pc (movesBy long pre (addedEntry pat data last size)) (addedEntry pat data last size) vs = some bs)
    (hs : InSession s) (hn : s.mode.normal = true) (room : HasRoom (pre.length + bs.length) s) :
    ∃ n d f, (knot (k + 1)).lineSec (b ++ m ++ u ++ bl ++ text ++ rest) s =
        .ok (some rest) (afterCodeBy (movesBy long pre (addedEntry pat data last size)) (pre.length, pre.length) (pre ++ bs)
          (operandWarnings s.mode.ez80 long (addedEntry pat data last size).args vs) n d f s) ∧
      n = ops.countP Wrapped := by
  have := selected_sized k D b m u bl text rest pre long s _ ops vs bs h hu he ⟨[], old, hent, hfit, by simp⟩ hw hD hv hc hs hn room
  rwa [takes_added] at this

/-- C45: with an empty operand pattern, the statement writes the bytes of the definition and moves the address by its
size, whatever that is. -/
theorem C45_plain (k : Nat) (b m bl rest : Str) (s : S) (data : Str) (last : Option Nat) (size : Int) (old : List Instr)
    (hent : entriesOf m s.opcodes = addedEntry [] data last size :: old) (hm : Mnemonic m) (hb : b ≠ [] ∧ Blanks b) (hbl : Blanks bl) (hr : AtEnd rest)
    (table : ∀ o ∈ s.opcodes, ∀ c ∈ o.name, Alnum c) (hold : ∀ j ∈ old, Regular j.args ∧ 34 ∉ j.args ∧ 39 ∉ j.args)
    (hdata : (∀ x ∈ data, x < 256) ∧ ∀ x ∈ last, x < 256) (hsize : 0 ≤ size ∧ size ≤ 60000)
    (hs : InSession s) (hn : s.mode.normal = true) (room : HasRoom (data ++ last.toList).length s) :
    ∃ d f, (knot (k + 1)).lineSec (b ++ m ++ bl ++ rest) s =
        .ok (some rest) (afterCodeBy size (0, 0) (data ++ last.toList) [] 0 d f s) := by
  have hargs : (addedEntry [] data last size).args = [] := by
    unfold addedEntry widen; simp
  have hcode : ∀ z, codeBytes s.mode.ez80 (s.mode.ez80 && s.adl) s.pc z (addedEntry [] data last size) [] = some (data ++ last.toList) := by
    intro z
    unfold codeBytes
    rw [hargs]
    cases last with
    | none => simp [operandCode, addedEntry]
    | some e => simp [operandCode, addedEntry, bitNumber]
  have hscan : Scannable [] := ⟨.nil _, by simp, by simp⟩
  have hmoves : movesBy (s.mode.ez80 && s.adl) [] (addedEntry [] data last size) = size := by
    unfold movesBy
    rw [hargs]
    simp [addedEntry]
  obtain ⟨n, d, f, h1, h2⟩ := C45_emits k 0 b m [] bl [] rest [] (s.mode.ez80 && s.adl) s [] data last size old [] [] (data ++ last.toList) hent
    { indented := hb, mnemonic := hm, blanks := hbl,
      nameEnds := by
        rw [List.append_nil]
        intro c hc
        have := hbl c (List.mem_of_mem_head? hc)
        unfold NameChar Alnum; omega
      operands := by simp, stop := hr, table := table }
    (.inl ⟨rfl, rfl, rfl⟩)
    (by
      rw [hent]
      intro j hj
      rcases List.mem_cons.1 hj with rfl | hj
      · rw [hargs]
        exact ⟨⟨by simp, by simp⟩, .inl ⟨hscan, by simp, by simp⟩⟩
      · exact ⟨(hold j hj).1, .inl ⟨hscan, (hold j hj).2⟩⟩)
    (by rw [hargs]; exact .done)
    { regular := by rw [hargs]; exact ⟨by simp, by simp⟩
      bytes := ⟨hdata.1, by
        cases last with
        | none => show 0 < 256; decide
        | some e => exact hdata.2 e rfl⟩
      oneBit := by rw [hargs]; decide
      jump := by rw [hargs]; simp
      size := hsize }
    ⟨by omega, by omega⟩ (by rw [hargs]; exact .nil) (hcode _) hs hn (by simpa using room)
  simp only [List.countP_nil, Nat.le_zero] at h2
  subst h2
  rw [hmoves, hargs] at h1
  exact ⟨d, f, by simpa [operandWarnings] using h1⟩

/-! ### Cases -/

/-- The hypotheses of `C45_defined_partial` for ` .addinstr FOO *,A 6069 4 NOP 1`. -/
theorem definition_sample : Definition (b! "FOO") (b! "*,A") (b! "*,A") (b! "6069") [0x69, 0x60] (b! "4") (b! " NOP 1") none (b! "FOO *,A 6069 4 NOP 1") := by
  have gap : Gap [32] := ⟨32, [], rfl, .inl rfl, by intro c hc; simp at hc⟩
  refine ⟨⟨⟨⟨_, _, rfl, by decide⟩, by decide⟩, by decide⟩, ⟨⟨⟨?_, ⟨by decide, by decide, by decide⟩, by decide⟩, by decide, .inl rfl⟩, by decide⟩,
    ⟨?_, by decide, by decide⟩, column_alnum (by decide) (by decide) (by decide), ?_, [32], [32], [32], [], gap, gap, gap, .inl rfl, rfl⟩
  · exact .char _ _ _ (by decide) (by decide) (.char _ _ _ (by decide) (by decide) (.char _ _ _ (by decide) (by decide) (.nil _)))
  · exact .cons 54 48 6 0 _ _ rfl rfl (.cons 54 57 6 9 _ _ rfl rfl .nil)
  · exact .two [32] (b! "NOP") [32] (b! "1") gap (column_alnum (by decide) (by decide) (by decide)) gap (column_alnum (by decide) (by decide) (by decide))

example : (asm (b! " .addinstr FOO *,A 6069 4 NOP 1\n foo 1234h,a\nx: .dw x\n") [b! "a.asm"]).state.log =
    [.wrote (b! "a.bin") [0x69, 0x60, 0x34, 0x12, 4, 0]] := by decide +kernel

example (fs : Str → Option (List Nat)) (mem rand : Nat → Nat) :
    let s := { startState fs mem rand with session := 1 }
    ∃ table, (knot 2).lineSec (b! " .addinstr FOO *,A 6069 4 NOP 1\n") s =
        .ok (some (b! "\n")) { s with parseDepth := 0, fwdRef := false, opcodes := table } ∧
      entriesOf (b! "foo") table = [⟨b! "*,A", [0x69, 0x60], false, 0, 4, 0, 0, 0⟩] := by
  intro s
  have hden : Denotes (toI32 s.pc) (visibleLabel s) (visibleText s) 0 (b! "4") 4 := .one 0 _ _ (.plain 0 _ _ (.atom _ _ (atom_digit _ _ 52 (by decide) (by decide))))
  obtain ⟨table, h1, h2, -⟩ := C45_defined_partial (b! "addinstr") (by decide) 1 0 (by decide) (by decide) [32] [] 32 _ _ _ _ _ _ _ _ none (b! "\n") 4 s
    definition_sample hden (by intro c hc; simp at hc; subst hc; simp) (by intro c hc; simp at hc) (.inl rfl) (.inr ⟨10, [], rfl, .inl rfl⟩)
  refine ⟨table, h1, ?_⟩
  rw [h2, if_pos (by decide)]
  have : entriesOf (b! "foo") s.opcodes = [] := by
    show entriesOf (b! "foo") z80Table = []
    decide +kernel
  rw [this]
  rfl

/-- The bytes need not be as many as the size says: labels count by the size. -/
example : (asm (b! " .addinstr BAR \"\" 01 3\nx: bar\ny: .db y-x\n") [b! "a.asm"]).state.log =
    [.wrote (b! "a.bin") [1, 3]] := by decide +kernel

example (fs : Str → Option (List Nat)) (mem rand : Nat → Nat) :
    let s := { startState fs mem rand with session := 1, opcodes := ⟨b! "BAR", [addedEntry [] [1] (some 7) 3]⟩ :: z80Table }
    ∃ d f, (knot 1).lineSec (b! " bar ; x\n") s = .ok (some (b! "; x\n")) (afterCodeBy 3 (0, 0) [1, 7] [] 0 d f s) := by
  intro s
  refine C45_plain 0 [32] (b! "bar") [32] (b! "; x\n") s [1] (some 7) 3 [] ?_ ⟨⟨_, _, rfl, by decide⟩, by decide⟩ ⟨by decide, ?_⟩ ?_ (.inr ⟨59, _, rfl, by decide⟩)
    ?_ (by simp) ⟨by decide, by decide⟩ (by decide) ⟨Int.le_refl 1, by intro e he; cases he⟩ rfl ?_
  · show entriesOf (b! "bar") (⟨b! "BAR", [addedEntry [] [1] (some 7) 3]⟩ :: z80Table) = [addedEntry [] [1] (some 7) 3]
    decide +kernel
  · intro c hc; simp at hc; subst hc; simp
  · intro c hc; simp at hc; subst hc; simp
  · show ∀ o ∈ (⟨b! "BAR", [addedEntry [] [1] (some 7) 3]⟩ :: z80Table : List Opcode), ∀ c ∈ o.name, Alnum c
    decide +kernel
  · exact ⟨Int.le_refl 0, show (0 : Int) + 2 ≤ 8000000 by decide⟩

/-- C45 fails for five opcode bytes or more: the number of the definition has 32 bits, and is shifted by more than that
to get at the fifth byte, which is undefined. -/
theorem C45_fails_five_bytes : ∃ s, asm (b! " .addinstr FOO \"\" 0102030405 5\n") [b! "a.asm"] = .stop (.ub .badShift) s := by
  have h : (match asm (b! " .addinstr FOO \"\" 0102030405 5\n") [b! "a.asm"] with
    | .stop (.ub .badShift) _ => true
    | _ => false) = true := by decide +kernel
  split at h
  · exact ⟨_, ‹_›⟩
  · cases h

/-- C45 fails for two `*` in a pattern: of an instruction with a size of five bytes and one opcode byte, four bytes are
written, as the first operand becomes a byte. -/
theorem C45_fails_two_words : (asm (b! " .addinstr FOO *,* 01 5\n foo 1,2\nx: .db x\n") [b! "a.asm"]).state.log =
    [.wrote (b! "a.bin") [1, 1, 2, 0, 5]] := by decide +kernel

/-- C49 fails behind .addinstr: statements behind a backslash are lost, as the directive skips the rest of the line. -/
theorem C45_fails_rest_of_line : (asm (b! " .addinstr FOO \"\" 01 1 \\ ret\n foo\n") [b! "a.asm"]).state.log =
      [.wrote (b! "a.bin") [1]] ∧
    (asm (b! " .addinstr FOO \"\" 01 1\n ret\n foo\n") [b! "a.asm"]).state.log = [.wrote (b! "a.bin") [0xC9, 1]] := by
  constructor <;> decide +kernel

end Spasm.Props
