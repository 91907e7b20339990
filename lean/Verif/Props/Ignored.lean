import Verif.Props.Include

/-
C74: block comments and marker lines stand for nothing.
-/

namespace Spasm.Props
open Spec

/-- C74, in the first pass: a line that begins with one of the marker words does nothing but count. -/
theorem C74_marker (k f : Nat) (l rest : Str) (s : S) (h : MarkerLine l) (hg : s.errOccurred = false) :
    pass (k + 2) (f + 1) (l ++ rest) s = pass (k + 2) f rest { s with lineNum := s.lineNum + 1 } :=
  (marker_passes h s hg k f (Answers.refl _) rest).1

/-- C74, in the first pass: a block comment does nothing but count its lines.

Missing: comments whose text is not complete statements, above all one with an odd number of conditional words
(`C74_fails_if`), and one with a line that starts with a closing parenthesis (`C74_fails_parenthesis`). -/
theorem C74_comment_partial (k f : Nat) (t rest : Str) (s : S) (h : BlockComment t) (hg : s.errOccurred = false) (hs : InSession s) :
    pass (k + 2) (f + 1) (t ++ rest) s = pass (k + 2) f rest { s with lineNum := s.lineNum + (t.count 10 : Nat) } :=
  comment_passes h s hg hs k f (Answers.refl _) rest

/-- C74, for whole programs: a source file with marker lines or a block comment in it, and the same source file without
these, are assembled to the same bytes. The programs are those of C54. -/
theorem C74_removed_partial (md5 : List Nat → List Nat) (fs : Str → Option (List Nat)) (mem rand : Nat → Nat) (cwd : Str)
    (dirs : List Str) (label : Str → Option Int) (defined params : List Str) (depth : Nat) (hd : depth ≤ 20) (g : Setting)
    -- the program with the ignored lines
    (args : List Str) (is : List Item) (ha : Asks args is none) (hp : Plain is) (input : Str) (hin : inputFor is = some input)
    (hdirs : Searched cwd is input dirs) (hg : g = settingFor is fs dirs label defined params depth) (hn : HasExt (outputFor is input) (b! "BIN"))
    -- the program without
    (args' : List Str) (is' : List Item) (ha' : Asks args' is' none) (hp' : Plain is') (input' : Str) (hin' : inputFor is' = some input')
    (hdirs' : Searched cwd is' input' dirs) (hg' : g = settingFor is' fs dirs label defined params depth) (hn' : HasExt (outputFor is' input') (b! "BIN"))
    -- what they have in common
    (before after l : Str) (hl : MarkerLine l ∨ BlockComment l)
    (hs : Source fs is input (before ++ (l ++ after))) (hs' : Source fs is' input' (before ++ after))
    (new0 new2 : Defs) (tx0 tx2 : Texts) (pc0 pc2 : Nat) (bs0 bs2 : List Nat)
    (h0 : Block g [] g.start 0 before new0 bs0 pc0 tx0) (h2 : Program g new0 tx0 pc0 after new2 bs2 pc2 tx2)
    (hlab : label = g.find (new2 ++ new0)) (hnd : ((new2 ++ new0).map (fun p => g.key p.1)).Nodup)
    (hgood : ∀ p ∈ new2 ++ new0, g.key p.1 ∉ predefinedNames ∧ g.key p.1 ∉ g.defined ∧ 0 ≤ p.2 ∧ p.2 ≤ 999999999)
    (hpar : ∀ w ∈ g.params, w ∈ g.defined ∧ w ∉ predefinedNames)
    (hstart : ∀ p ∈ g.start, Name p.1 ∧ g.key p.1 ∉ predefinedNames ∧ g.key p.1 ∈ g.defined ∧ g.key p.1 ∉ g.params)
    (hlen : (bs0 ++ bs2).length ≤ 8000000) :
    ∃ K, ∀ fuel, K ≤ fuel → ∃ s s', spasm fuel md5 fs mem rand cwd args = .ok 0 s ∧ spasm fuel md5 fs mem rand cwd args' = .ok 0 s' ∧
      s.log = [.wrote (outputFor is input) (bs0 ++ bs2)] ∧ s'.log = [.wrote (outputFor is' input') (bs0 ++ bs2)] := by
  have hdep : g.label = label := by rw [hg]; rfl
  have p1 : Program g [] g.start 0 (before ++ after) (new2 ++ new0) (bs0 ++ bs2) pc2 tx2 := program_prepend h0 (by simpa using h2)
  have p2 : Program g [] g.start 0 (before ++ (l ++ after)) (new2 ++ new0) (bs0 ++ bs2) pc2 tx2 := by
    have a : Block g new0 tx0 pc0 l [] [] pc0 tx0 := by simpa using Block.ignored new0 tx0 pc0 l [] _ _ _ _ hl (.nil _ _ _)
    have b := program_prepend a (by simpa using h2)
    exact program_prepend h0 (by simpa using b)
  obtain ⟨K, r⟩ := C54_assembles_partial md5 fs mem rand cwd args is ha hp input hin _ hs dirs hdirs label defined params depth hd _
    ⟨_, pc2, tx2, by rw [← hg]; exact p2, by rw [← hg, hdep, hlab], by rw [← hg]; exact hnd, by rw [← hg]; exact hgood, by rw [← hg]; exact hpar, by rw [← hg]; exact hstart⟩ hlen hn
  obtain ⟨K', r'⟩ := C54_assembles_partial md5 fs mem rand cwd args' is' ha' hp' input' hin' _ hs' dirs hdirs' label defined params depth hd _
    ⟨_, pc2, tx2, by rw [← hg']; exact p1, by rw [← hg', hdep, hlab], by rw [← hg']; exact hnd, by rw [← hg']; exact hgood, by rw [← hg']; exact hpar, by rw [← hg']; exact hstart⟩ hlen hn'
  refine ⟨max K K', fun fuel hf => ?_⟩
  obtain ⟨s, a, b⟩ := r fuel (by omega)
  obtain ⟨s', a', b'⟩ := r' fuel (by omega)
  exact ⟨s, s', a, a', b, b'⟩

/-! ### Examples -/

theorem sample_marker : MarkerLine (b! "\t.NoList it's \"quiet ; now\n") :=
  ⟨[9], b! ".NoList", b! ".nolist", b! " it's \"quiet ; now", [10], rfl, by intro c hc; simp at hc; omega, by decide, by decide, by
    intro c hc; cases hc; exact .inl rfl, by decide, .inl rfl⟩

theorem sample_comment : BlockComment (b! "#comment old\n .db 3 ; three\n#if 1\n ld (\n#endif\n #EndComment here\r\n") :=
  ⟨[], b! "#comment", [32], _, b! "old\n .db 3 ; three\n#if 1\n ld (\n#endif\n", [32], b! "#EndComment", b! " here", [13, 10], rfl,
    by intro c hc; simp at hc, by decide, by intro c hc; simp at hc; omega, ⟨111, _, rfl, by decide, by decide, by decide, by decide, by decide⟩,
    lines_plain [(b! "old", []), (b! " .db 3 ", b! "; three"), (b! "#if 1", []), (b! " ld (", []), (b! "#endif", [])] (by decide),
    nesting_depth _ (by decide) _ _ _ (by decide), by intro c hc; simp at hc; omega, by decide, by decide, .inr rfl⟩

/-- Both in a program: a name that stands for a string and a label, a block comment, and a marker line. -/
theorem sample_ignored (fs : Str → Option (List Nat)) (cwd : Str) : Assembles (settingFor [.file (b! "a.asm")] fs [cwd]
    (fun w => ([(b! "x", 0)].find? (fun p : Str × Int => decide (p.1.map upperCase = w.map upperCase))).map (·.2)) [b! "MSG"] [] 4)
    (b! "#define msg \"hi\",x\n#comment old\n .db 3 ; three\n#if 1\n ld (\n#endif\n #EndComment here\r\nx:\n\t.NoList it's \"quiet ; now\n .db msg,2\n")
    [104, 105, 0, 2] := by
  refine ⟨[(b! "x", 0)], 4, [(b! "msg", some ([], given (b! " \"hi\",x")))], ?_, rfl, ?_, ?_, (by intro w hw; cases hw), by intro p hp; cases hp⟩
  rotate_left
  · show (([(b! "x", 0)] : Defs).map (fun p => p.1.map upperCase)).Nodup
    decide
  · show ∀ p ∈ ([(b! "x", 0)] : Defs), p.1.map upperCase ∉ predefinedNames ∧ p.1.map upperCase ∉ ([b! "MSG"] : List Str) ∧ 0 ≤ p.2 ∧ p.2 ≤ 999999999
    decide
  show Program _ [] [] _ _ _ _ _ _
  generalize hg : (settingFor [.file (b! "a.asm")] fs [cwd]
    (fun w => ([(b! "x", 0)].find? (fun p : Str × Int => decide (p.1.map upperCase = w.map upperCase))).map (·.2)) [b! "MSG"] [] 4) = g
  have hkey : ∀ w, g.key w = w.map upperCase := by intro w; rw [← hg]; rfl
  have hdepth : g.depth = 4 := by rw [← hg]; rfl
  have hez : g.ez80 = false := by rw [← hg]; rfl
  have hdef : g.defined = [b! "MSG"] := by rw [← hg]; rfl
  have hpar : g.params = [] := by rw [← hg]; rfl
  have hx : Name (b! "x") := ⟨⟨_, _, rfl, by decide, by simp [NameChar, Alnum]⟩, by decide⟩
  have hmsg : Name (b! "msg") := ⟨⟨109, b! "sg", rfl, by decide, by
    intro x hx; simp at hx; unfold NameChar; rcases hx with rfl | rfl <;> decide⟩, by decide⟩
  have nb : Blanks [32] := by intro c hc; simp at hc; subst hc; simp
  have nn : Blanks [] := by intro c hc; simp at hc
  have text : LineText (b! " \"hi\",x") := .char _ _ (by decide) (.string (b! "hi") _
    (.char _ _ (by decide) (.char _ _ (by decide) .nil)) (.char _ _ (by decide) (.char _ _ (by decide) .nil)))
  have l0 : Defines g [] [] (b! "msg") (b! " \"hi\",x") := by
    refine ⟨hmsg, by rw [hkey]; decide, (by rw [hpar]; intro h; cases h), by rw [hkey, hdef]; decide, ?_, text, by decide, ?_, fun h => absurd rfl h⟩
    · intro c hc; cases hc; unfold NameChar Alnum; omega
    · rintro ⟨b, w, b', r, e, hb, -, hw, -⟩
      have h65 : (65 : Nat) ∈ w.map upperCase := by rcases hw with hw | hw <;> rw [hw] <;> decide
      obtain ⟨c, hc, hu⟩ := List.mem_map.1 h65
      have : c ∈ (b! " \"hi\",x" : Str) := by rw [e]; simp [hc]
      exact absurd hu ((by decide : ∀ c ∈ (b! " \"hi\",x" : Str), upperCase c ≠ 65) c this)
  have w0 : Written (b! "DEFINE") (b! "msg") (b! " \"hi\",x") [] (b! "#define msg \"hi\",x") := ⟨[], b! "define", 32, [], rfl, nn, by decide, .inl rfl, nn⟩
  generalize htx : ([(b! "msg", some ([], given (b! " \"hi\",x")))] : Texts) = tx
  have c1 : Chars (b! "hi") [104, 105] :=
    .char 104 _ _ (by decide) (by decide) (by decide) (by decide) (.char 105 _ _ (by decide) (by decide) (by decide) (by decide) .nil)
  have q1 : Argument (b! "\"hi\"") :=
    ⟨Balanced.string (delims := [44]) false (b! "hi") [] (chars_stringBody c1) (.nil _), by simp, by simp [White], by decide⟩
  have ax : Argument (b! "x") := ⟨.char _ _ _ (by decide) (by decide) (.nil _), by decide, by decide, by decide⟩
  have a2 : Argument (b! "2") := ⟨.char _ _ _ (by decide) (by decide) (.nil _), by decide, by decide, by decide⟩
  have am : Argument (b! "msg") := ⟨(argument_name hmsg [44] (by simp [NameChar, Alnum])).1, (argument_name hmsg [44] (by simp [NameChar, Alnum])).2⟩
  have hlist : Listed g.ez80 (g.find [(b! "x", 0)]) (g.text tx) 1 1 1 0 [b! "msg"] [104, 105, 0] [] := by
    rw [hez]
    refine .named 0 0 (b! "msg") (b! " \"hi\",x") [b! "\"hi\"", b! "x"] [104, 105, 0] [] [] [] [] hmsg (by rw [← htx, ← hg]; rfl) ?_ (by intro a d v h; simp at h) ?_ (.nil _ _)
    · exact .more [32] (b! "\"hi\"") [] _ (b! "x") nb nn q1 (by decide) (.one [] (b! "x") [] nn nn ax (by decide))
    · exact .string _ _ _ _ _ _ _ c1 (.number _ _ 0 _ 0 _ _ _ (.one 0 _ _ (.plain 0 _ _ (.atom _ _ (.label _ _ hx (by rw [← hg]; rfl))))) (by omega) (.nil _ _))
  have l1 : Stmt g [] tx 0 (b! "x:") [(b! "x", 0)] [] 0 := .label (b! "x") [58] [] _ _ hx (.inl rfl) (.empty [] nn)
  have l2 : Stmt g [(b! "x", 0)] tx 0 (b! " .db msg,2") [] [104, 105, 0, 2] 4 :=
    .plain _ _ _ (.data [32] (b! ".db") 1 32 [b! "msg", b! "2"] (b! "msg,2") [104, 105, 0, 2] nb (by decide) (.inl rfl)
      (.more [] (b! "msg") [] _ (b! "2") nn nn am (by decide) (.one [] (b! "2") [] nn nn a2 (by decide)))
      (.named 0 1 1 (b! "msg") [104, 105, 0] _ [2] hmsg hlist (by omega)
        (.now _ _ 2 _ [] (.plain 0 (.one 0 _ _ (.plain 0 _ _ (.atom _ _ (atom_digit _ _ 50 (by decide) (by decide))))) (by omega)) (by rw [hez]; decide) (.nil _))))
  refine .whole _ _ _ _ _ _ _ _ (.define [] [] 0 (b! "msg") (b! " \"hi\",x") (b! "#define msg \"hi\",x") [] [10] _ _ _ _ _ l0 w0 (.inl rfl) (.inl rfl) ?_)
  rw [htx]
  refine .ignored _ _ _ (b! "#comment old\n .db 3 ; three\n#if 1\n ld (\n#endif\n #EndComment here\r\n") _ _ _ _ _ (.inr sample_comment) ?_
  refine .stmts _ _ _ (b! "x:") [] [10] [(b! "x", 0)] _ _ (b! "\t.NoList it's \"quiet ; now\n .db msg,2\n") [] [104, 105, 0, 2] _ _ (.one _ _ _ _ _ _ l1 (by decide)) (.inl rfl) (.inl rfl) ?_
  refine .ignored _ _ _ (b! "\t.NoList it's \"quiet ; now\n") _ _ _ _ _ (.inl sample_marker) ?_
  exact .stmts _ _ _ (b! " .db msg,2") [] [10] [] [104, 105, 0, 2] _ [] [] [] _ _ (.one _ _ _ _ _ _ l2 (by decide)) (.inl rfl) (.inl rfl) (.nil _ _ _)

example (md5 : List Nat → List Nat) (fs : Str → Option (List Nat)) (mem rand : Nat → Nat) (cwd : Str)
    (h : fs (b! "a.asm") = some (b! "#define msg \"hi\",x\n#comment old\n .db 3 ; three\n#if 1\n ld (\n#endif\n #EndComment here\r\nx:\n\t.NoList it's \"quiet ; now\n .db msg,2\n")) :
    ∃ K, ∀ fuel, K ≤ fuel → ∃ s, spasm fuel md5 fs mem rand cwd [b! "a.asm"] = .ok 0 s ∧ s.log = [.wrote (b! "a.bin") [104, 105, 0, 2]] :=
  C54_assembles_partial md5 fs mem rand cwd [b! "a.asm"] [.file (b! "a.asm")] (.file _ _ _ _ (by decide) .nil)
    (by intro c hc; simp at hc) (b! "a.asm") rfl _ (.inr ⟨rfl, _, h, by decide, .inl ⟨rfl, by decide, by decide⟩⟩) [cwd] (current_a cwd) _ _ _ 4 (by decide) _
    (sample_ignored fs cwd) (by decide) ⟨b! "a", b! "bin", by decide, by decide, by decide, by decide⟩

/-- A program with a comment and the same program without: the hypotheses of `C74_removed_partial` are met. -/
example (md5 : List Nat → List Nat) (fs : Str → Option (List Nat)) (mem rand : Nat → Nat) (cwd : Str)
    (ha : fs (b! "a.asm") = some (b! " .db 7\n#comment old\n .db 3 ; three\n#if 1\n ld (\n#endif\n #EndComment here\r\n .db 2\n"))
    (hc : fs (b! "c.asm") = some (b! " .db 7\n .db 2\n")) :
    ∃ K, ∀ fuel, K ≤ fuel → ∃ s s', spasm fuel md5 fs mem rand cwd [b! "a.asm"] = .ok 0 s ∧ spasm fuel md5 fs mem rand cwd [b! "c.asm"] = .ok 0 s' ∧
      s.log = [.wrote (b! "a.bin") [7, 2]] ∧ s'.log = [.wrote (b! "c.bin") [7, 2]] := by
  generalize hg : settingFor [.file (b! "a.asm")] fs [cwd] (fun _ => none) [] [] 1 = g
  have nb : Blanks [32] := by intro c hc; simp at hc; subst hc; simp
  have nn : Blanks [] := by intro c hc; simp at hc
  have hez : g.ez80 = false := by rw [← hg]; rfl
  have hdep : g.depth = 1 := by rw [← hg]; rfl
  have hst : g.start = [] := by rw [← hg]; rfl
  have hpar : g.params = [] := by rw [← hg]; rfl
  have one : ∀ (pc c : Nat) (tx : Texts), 48 ≤ c → c ≤ 57 → pc + 1 < 16777216 → Block g [] tx pc ([32, 46, 100, 98, 32, c] ++ [] ++ [10] ++ []) [] [c - 48] (pc + 1) tx := by
    intro pc c tx h1 h2 h3
    have hle : littleEndian 1 ((c : Int) - 48) = [c - 48] := by
      simp only [littleEndian, List.cons.injEq, and_true]
      omega
    have htr : truncation g.ez80 1 ((c : Int) - 48) = [] := by
      rw [hez]
      unfold truncation
      rw [if_neg (by omega), if_neg (by simp)]
    refine .stmts _ _ _ [32, 46, 100, 98, 32, c] [] [10] [] [c - 48] _ [] [] [] _ _ (.one _ _ _ _ _ _ (.plain _ _ _ ?_) h3) (.inl rfl) (.inl rfl) (.nil _ _ _)
    have := Action.data (g := g) (known := []) (tx := tx) (pc := pc) [32] (b! ".db") 1 32 [[c]] [c] (littleEndian 1 ((c : Int) - 48) ++ []) nb (by decide) (.inl rfl)
      (.one [] [c] [] nn nn ⟨.char _ _ _ (by unfold Ordinary; omega) (by intro _; simp; omega) (.nil _), by simp, by simp [White]; omega, by simp [White]; omega⟩ (by simp))
      (.now _ _ _ _ [] (.plain 0 (.one 0 _ _ (.plain 0 _ _ (.atom _ _ (atom_digit _ _ c h1 h2)))) (by omega)) htr (.nil _))
    rw [hle] at this
    exact this
  refine C74_removed_partial md5 fs mem rand cwd [cwd] (fun _ => none) [] [] 1 (by decide) g
    [b! "a.asm"] [.file (b! "a.asm")] (.file _ _ _ _ (by decide) .nil) (by intro c hc; simp at hc) (b! "a.asm") rfl (current_a cwd) hg.symm
    ⟨b! "a", b! "bin", by decide, by decide, by decide, by decide⟩
    [b! "c.asm"] [.file (b! "c.asm")] (.file _ _ _ _ (by decide) .nil) (by intro c hc; simp at hc) (b! "c.asm") rfl
    (.current [] (by rw [← isAbsPath_iff _ (by decide)]; decide) (by decide) (.other _ _ _ (by intro t h; cases h) .nil)) (by rw [← hg]; rfl)
    ⟨b! "c", b! "bin", by decide, by decide, by decide, by decide⟩
    (b! " .db 7\n") (b! " .db 2\n") _ (.inr sample_comment)
    (.inr ⟨rfl, _, ha, by decide, .inl ⟨rfl, by decide, by decide⟩⟩) (.inr ⟨rfl, _, hc, by decide, .inl ⟨rfl, by decide, by decide⟩⟩)
    [] [] [] [] 1 2 [7] [2] (by rw [hst]; exact one 0 55 [] (by decide) (by decide) (by decide)) (.whole _ _ _ _ _ _ _ _ (one 1 50 [] (by decide) (by decide) (by decide)))
    ?_ (by simp) (by simp) (by rw [hpar]; simp) (by rw [hst]; simp) (by decide)
  funext w
  rw [← hg]
  rfl

/-! ### What goes wrong -/

/-- C74 fails when a line of the comment happens to begin with `#if`: the end of the comment is not seen, the rest of the
program is lost, and the run succeeds without a word. -/
theorem C74_fails_if :
    exitStatus (asm (b! "#comment\n#if you like\n#endcomment\n .db 1\n") [b! "a.asm"]) = some 0 ∧
    (asm (b! "#comment\n#if you like\n#endcomment\n .db 1\n") [b! "a.asm"]).state.log = [.wrote (b! "a.bin") []] := by
  decide +kernel

/-- C74 fails for a comment that is not closed: nothing is reported, although everything behind it is lost. -/
theorem C74_fails_unclosed :
    exitStatus (asm (b! " .db 0\n#comment\n foo \n .db 1\n") [b! "a.asm"]) = some 0 ∧
    (asm (b! " .db 0\n#comment\n foo \n .db 1\n") [b! "a.asm"]).state.log = [.wrote (b! "a.bin") [0]] := by
  decide +kernel

/-- C74 fails when a line of the comment starts with a closing parenthesis: the search for the end of the comment goes on
forever, whatever number of rounds it is given. -/
theorem C74_fails_parenthesis :
    (∀ (rounds level : Nat) (s : S), skipLine [b! "#endcomment"] 7 rounds level (b! ")\n#endcomment\n") s = .stop .fuel s) ∧
    (match asm (b! "#comment\n)\n#endcomment\n") [b! "a.asm"] with
      | .stop .fuel _ => true
      | _ => false) = true := by
  refine ⟨?_, by decide +kernel⟩
  intro rounds
  induction rounds with
  | zero => intro level s; rfl
  | succ n ih =>
    intro level s
    have h1 : lineHasWord (b! ")\n#endcomment\n") (b! "#IF") = false := by decide
    have h2 : lineHasWord (b! ")\n#endcomment\n") (b! "#ENDIF") = false := by decide
    have h3 : [b! "#endcomment"].any (fun w => lineHasWord (b! ")\n#endcomment\n") w) = false := by decide
    have h4 : nextCodeLine (b! ")\n#endcomment\n") = b! ")\n#endcomment\n" := by decide
    rw [skipLine, h1, h2, h3, h4]
    simp only [Bool.and_false, Bool.false_eq_true, if_false]
    exact ih level s

/-- C74 fails for `.list`, `.nolist` and `.end` when a comment follows directly behind the word. -/
theorem C74_fails_comment :
    exitStatus (asm (b! " .list;x\n .db 1\n") [b! "a.asm"]) = some 3 ∧ exitStatus (asm (b! " .list ;x\n .db 1\n") [b! "a.asm"]) = some 0 := by
  decide +kernel

end Spasm.Props
