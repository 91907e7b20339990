import Verif.Props.Program
import Verif.Props.Bitmap

/-
C61: included source files.
-/

namespace Spasm.Props
open Spasm Spec

/-- C61: the statement `#include "file"` has the effect of a pass over the text of the file, as over a source file of its own
that starts in the present state; behind it the assembler is back in the file and line of the statement. On an eZ80 the
text starts in ADL mode, whatever the present mode is. -/
theorem C61_include (k : Nat) (file l rest : Str) (hl : Includes file l) (hr : AtEnd rest) (s : S) (bytes text : List Nat)
    (hfile : Located s (slashes file) bytes) (hbm : bytes.take 2 ≠ b! "BM") (ht : TextOf bytes text) :
    ∃ path, s.fs path = some bytes ∧ (path = slashes file ∨ ∃ d ∈ s.includeDirs, path = slashes (d ++ [47] ++ slashes file)) ∧
      (knot (k + 2)).lineSec (l ++ rest) s = (do
        runFirstPass (knot k) text
        M.modify fun s' => { s' with currFile := s.currFile, lineNum := s.lineNum, inMacro := s.inMacro }
        pure (some rest) : M (Option Str)) { s with currFile := path } ∧
      ∀ x : S, runFirstPass (knot k) text x = firstPassLoop (runLine (knot k)) (text.length + 1) text
        { x with lineNum := 1, adl := if x.mode.ez80 then true else x.adl } := by
  obtain ⟨path, p1, p2, p3⟩ := fullPath_where s (slashes file) bytes (slashes_no92 _) hfile
  obtain ⟨b, w, c, b1, b2, e1, hb, hw, hcc, hb1, hb2, hstr, hch, hlen⟩ := hl
  have hbm' : isBitmap bytes = false := by unfold isBitmap; simpa using hbm
  have e2 := include_text k w hw b b1 file b2 rest c s path text bytes p1 p2 hbm' (fileText_of ht.1 ht.2) hb hb1 hb2 hcc hstr
    (fun h => (hch 34 h).1 rfl) (fun c hc => (hch c hc).2) hlen hr
  refine ⟨path, p2, p3, ?_, fun x => rfl⟩
  rw [show l ++ rest = b ++ 35 :: (w ++ c :: (b1 ++ (34 :: file ++ [34]) ++ b2 ++ rest)) by rw [e1]; simp, e2]
  rfl

theorem block_append {g : Setting} {known new new' : Defs} {tx tx' tx'' : Texts} {pc pc' pc'' : Nat} {t t' : Str} {bs bs' : List Nat}
    (h : Block g known tx pc t new bs pc' tx') (h' : Block g (new ++ known) tx' pc' t' new' bs' pc'' tx'') :
    Block g known tx pc (t ++ t') (new' ++ new) (bs ++ bs') pc'' tx'' := by
  refine Block.rec (motive_3 := fun known tx pc t new bs pc' tx' _ => ∀ t' new' bs' pc'' tx'', Block g (new ++ known) tx' pc' t' new' bs' pc'' tx'' →
      Block g known tx pc (t ++ t') (new' ++ new) (bs ++ bs') pc'' tx'') (motive_1 := fun _ _ _ _ _ _ _ _ _ => True) (motive_2 := fun _ _ _ _ _ _ _ _ _ => True)
    (motive_4 := fun _ _ _ _ _ _ _ _ _ => True) ?_ ?_ ?_ ?_ ?_ ?_ ?_ ?_ ?_ ?_ ?_ ?_ ?_ ?_ ?_ ?_ ?_ h
    t' new' bs' pc'' tx'' h'
  · intros; trivial
  · intros; trivial
  · intros; trivial
  · intros; trivial
  · intros; trivial
  · intro known tx pc t' new' bs' pc'' tx'' h
    simpa using h
  · intro known tx pc l com nl new bs pc' tx' t new1 bs1 pc1 tx1 hl hc hn _ _ ih t' new' bs' pc'' tx'' h
    have := Block.line known tx pc l com nl new bs pc' tx' (t ++ t') (new' ++ new1) (bs1 ++ bs') pc'' tx'' hl hc hn (ih _ _ _ _ _ (by simpa using h))
    simpa using this
  · intro known tx pc l t new bs pc' tx1 hi _ ih t' new' bs' pc'' tx'' h
    have := Block.ignored known tx pc l (t ++ t') _ _ pc'' tx'' hi (ih _ _ _ _ _ h)
    simpa using this
  · intro known tx pc name text l com nl t new bs pc' tx1 hd hw hc hn _ ih t' new' bs' pc'' tx'' h
    have := Block.define known tx pc name text l com nl (t ++ t') _ _ pc'' tx'' hd hw hc hn (ih _ _ _ _ _ h)
    simpa using this
  · intro known tx pc name params text l com nl t new bs pc' tx1 hd hw hc hn _ ih t' new' bs' pc'' tx'' h
    have := Block.func known tx pc name params text l com nl (t ++ t') _ _ pc'' tx'' hd hw hc hn (ih _ _ _ _ _ h)
    simpa using this
  · intro known tx pc word name l b com nl t new bs pc' tx1 hn hp hq hw hwr hb hc hnl _ ih t' new' bs' pc'' tx'' h
    have := Block.undef known tx pc word name l b com nl (t ++ t') _ _ pc'' tx'' hn hp hq hw hwr hb hc hnl (ih _ _ _ _ _ h)
    simpa using this
  · intro known tx pc file l com nl bytes text new bs pc' tx' t new1 bs1 pc1 tx1 hi hc hn hf hbm ht hp _ _ ih t' new' bs' pc'' tx'' h
    have := Block.incl known tx pc file l com nl bytes text new bs pc' tx' (t ++ t') (new' ++ new1) (bs1 ++ bs') pc'' tx'' hi hc hn hf hbm ht hp
      (ih _ _ _ _ _ (by simpa using h))
    simpa using this
  · intro known tx pc file l com nl bytes t new bs pc' tx1 hst hi hc hn hf hb hpc _ ih t' new' bs' pc'' tx'' h
    have := Block.import known tx pc file l com nl bytes (t ++ t') _ _ pc'' tx'' hst hi hc hn hf hb hpc (ih _ _ _ _ _ h)
    simpa using this
  · intro known tx pc name params l body e com nl t new bs pc' tx1 hm hl hb he hc hn _ ih t' new' bs' pc'' tx'' h
    have := Block.macro known tx pc name params l body e com nl (t ++ t') _ _ pc'' tx'' hm hl hb he hc hn (ih _ _ _ _ _ h)
    simpa using this
  · intro known tx pc word c chosen new bs pc' tx' t new1 bs1 pc1 tx1 hg hw hb _ _ ih t' new' bs' pc'' tx'' h
    have := Block.group known tx pc word c chosen new bs pc' tx' (t ++ t') (new' ++ new1) (bs1 ++ bs') pc'' tx'' hg hw hb
      (ih _ _ _ _ _ (by simpa using h))
    simpa using this
  · intros; trivial
  · intros; trivial

theorem program_prepend {g : Setting} {known new new' : Defs} {tx tx' tx'' : Texts} {pc pc' pc'' : Nat} {t t' : Str} {bs bs' : List Nat}
    (h : Block g known tx pc t new bs pc' tx') (h' : Program g (new ++ known) tx' pc' t' new' bs' pc'' tx'') :
    Program g known tx pc (t ++ t') (new' ++ new) (bs ++ bs') pc'' tx'' := by
  cases h' with
  | whole _ _ _ _ _ _ _ _ hb => exact .whole _ _ _ _ _ _ _ _ (block_append h hb)
  | ends _ _ _ t2 new2 bs2 pc2 _ l com new3 bs3 _ _ hb hl hc =>
    have := Program.ends known tx pc (t ++ t2) (new2 ++ new) (bs ++ bs2) pc2 _ l com new3 bs3 _ _ (block_append h hb) (by simpa using hl) hc
    simpa using this

/-- C61, for whole programs: a source file in which a line includes another file, and a source file in which the lines of the
other file stand instead, are assembled to the same bytes. The programs are those of C54, the file that is included consists
of whole lines, and the two command lines ask for the same settings. -/
theorem C61_pasted_partial (md5 : List Nat → List Nat) (fs : Str → Option (List Nat)) (mem rand : Nat → Nat) (cwd : Str)
    (dirs : List Str) (label : Str → Option Int) (defined params : List Str) (depth : Nat) (hd : depth ≤ 20) (g : Setting)
    -- the program with the inclusion
    (args : List Str) (is : List Item) (ha : Asks args is none) (hp : Plain is) (input : Str) (hin : inputFor is = some input)
    (hdirs : Searched cwd is input dirs) (hg : g = settingFor is fs dirs label defined params depth) (hn : HasExt (outputFor is input) (b! "BIN"))
    -- the program without
    (args' : List Str) (is' : List Item) (ha' : Asks args' is' none) (hp' : Plain is') (input' : Str) (hin' : inputFor is' = some input')
    (hdirs' : Searched cwd is' input' dirs) (hg' : g = settingFor is' fs dirs label defined params depth) (hn' : HasExt (outputFor is' input') (b! "BIN"))
    -- what they have in common
    (before after file l com nl text : Str) (bytes : List Nat) (hi : Includes file l) (hc : Comment com) (hnl : NewLine nl)
    (hfile : Found fs dirs (slashes file) bytes) (hbm : bytes.take 2 ≠ b! "BM") (ht : TextOf bytes text)
    (hs : Source fs is input (before ++ (l ++ com ++ nl ++ after))) (hs' : Source fs is' input' (before ++ (text ++ after)))
    (new0 new1 new2 : Defs) (tx0 tx1 tx2 : Texts) (pc0 pc1 pc2 : Nat) (bs0 bs1 bs2 : List Nat)
    (h0 : Block g [] g.start 0 before new0 bs0 pc0 tx0) (h1 : Block g new0 tx0 pc0 text new1 bs1 pc1 tx1)
    (h2 : Program g (new1 ++ new0) tx1 pc1 after new2 bs2 pc2 tx2)
    (hlab : label = g.find (new2 ++ new1 ++ new0)) (hnd : ((new2 ++ new1 ++ new0).map (fun p => g.key p.1)).Nodup)
    (hgood : ∀ p ∈ new2 ++ new1 ++ new0, g.key p.1 ∉ predefinedNames ∧ g.key p.1 ∉ g.defined ∧ 0 ≤ p.2 ∧ p.2 ≤ 999999999)
    (hpar : ∀ w ∈ g.params, w ∈ g.defined ∧ w ∉ predefinedNames)
    (hstart : ∀ p ∈ g.start, Name p.1 ∧ g.key p.1 ∉ predefinedNames ∧ g.key p.1 ∈ g.defined ∧ g.key p.1 ∉ g.params)
    (hlen : (bs0 ++ bs1 ++ bs2).length ≤ 8000000) :
    ∃ K, ∀ fuel, K ≤ fuel → ∃ s s', spasm fuel md5 fs mem rand cwd args = .ok 0 s ∧ spasm fuel md5 fs mem rand cwd args' = .ok 0 s' ∧
      s.log = [.wrote (outputFor is input) (bs0 ++ bs1 ++ bs2)] ∧ s'.log = [.wrote (outputFor is' input') (bs0 ++ bs1 ++ bs2)] := by
  have hdep : g.label = label := by rw [hg]; rfl
  have hgf : g.fs = fs ∧ g.dirs = dirs := by rw [hg]; exact ⟨rfl, rfl⟩
  have step : Block g new0 tx0 pc0 (l ++ com ++ nl) new1 bs1 pc1 tx1 := by
    have := Block.incl new0 tx0 pc0 file l com nl bytes text new1 bs1 pc1 tx1 [] [] [] pc1 tx1 hi hc hnl (by rw [hgf.1, hgf.2]; exact hfile) hbm ht
      (.whole _ _ _ _ _ _ _ _ h1) (.nil _ _ _)
    simpa using this
  have build : ∀ t, Block g new0 tx0 pc0 t new1 bs1 pc1 tx1 → Program g [] g.start 0 (before ++ (t ++ after)) (new2 ++ new1 ++ new0) (bs0 ++ bs1 ++ bs2) pc2 tx2 := by
    intro t h
    have a := program_prepend h h2
    have b := program_prepend h0 (by simpa using a)
    simpa using b
  obtain ⟨K, r⟩ := C54_assembles_partial md5 fs mem rand cwd args is ha hp input hin _ hs dirs hdirs label defined params depth hd _
    ⟨_, pc2, tx2, by rw [← hg]; exact build _ step, by rw [← hg, hdep, hlab], by rw [← hg]; exact hnd, by rw [← hg]; exact hgood, by rw [← hg]; exact hpar, by rw [← hg]; exact hstart⟩ hlen hn
  obtain ⟨K', r'⟩ := C54_assembles_partial md5 fs mem rand cwd args' is' ha' hp' input' hin' _ hs' dirs hdirs' label defined params depth hd _
    ⟨_, pc2, tx2, by rw [← hg']; exact build _ h1, by rw [← hg', hdep, hlab], by rw [← hg']; exact hnd, by rw [← hg']; exact hgood, by rw [← hg']; exact hpar, by rw [← hg']; exact hstart⟩ hlen hn'
  refine ⟨max K K', fun fuel hf => ?_⟩
  obtain ⟨s, a, b⟩ := r fuel (by omega)
  obtain ⟨s', a', b'⟩ := r' fuel (by omega)
  exact ⟨s, s', a, a', b, b'⟩

/-- A program and a file that meet the hypotheses: the file uses a define of the program, and the program a label of the file. -/
example (md5 : List Nat → List Nat) (fs : Str → Option (List Nat)) (mem rand : Nat → Nat) (cwd : Str)
    (ha : fs (b! "a.asm") = some (b! "#define size 2+1\n#include \"b.inc\"\n .dw y\n"))
    (hb : fs (slashes (cwd ++ [47] ++ b! "b.inc")) = some (b! "y: .db size\n"))
    (hc : fs (b! "c.asm") = some (b! "#define size 2+1\ny: .db size\n .dw y\n")) :
    ∃ K, ∀ fuel, K ≤ fuel → ∃ s s', spasm fuel md5 fs mem rand cwd [b! "a.asm"] = .ok 0 s ∧ spasm fuel md5 fs mem rand cwd [b! "c.asm"] = .ok 0 s' ∧
      s.log = [.wrote (b! "a.bin") [3, 0, 0]] ∧ s'.log = [.wrote (b! "c.bin") [3, 0, 0]] := by
  generalize hlab : (fun w : Str => (([(b! "y", 0)] : Defs).find? (fun p => decide (p.1.map upperCase = w.map upperCase))).map (·.2)) = label
  generalize hg : settingFor [.file (b! "a.asm")] fs [cwd] label [b! "SIZE"] [] 2 = g
  have hkey : ∀ w, g.key w = w.map upperCase := by intro w; rw [← hg]; rfl
  have hy : Name (b! "y") := ⟨⟨_, _, rfl, by decide, by simp [NameChar, Alnum]⟩, by decide⟩
  have hsize : Name (b! "size") := ⟨⟨115, b! "ize", rfl, by decide, by
    intro x hx; simp at hx; unfold NameChar; rcases hx with rfl | rfl | rfl <;> decide⟩, by decide⟩
  have nb : Blanks [32] := by intro c hc; simp at hc; subst hc; simp
  have nn : Blanks [] := by intro c hc; simp at hc
  have hez : g.ez80 = false := by rw [← hg]; rfl
  have hdep : g.depth = 2 := by rw [← hg]; rfl
  have hst : g.start = [] := by rw [← hg]; rfl
  have hdef : g.defined = [b! "SIZE"] := by rw [← hg]; rfl
  have hpar : g.params = [] := by rw [← hg]; rfl
  have hfind : ∀ w, g.find [(b! "y", 0)] w = label w := by intro w; rw [← hg, ← hlab]; rfl
  have text : LineText (b! " 2+1") :=
    .char _ _ (by decide) (.char _ _ (by decide) (.char _ _ (by decide) (.char _ _ (by decide) .nil)))
  have l0 : Defines g [] [] (b! "size") (b! " 2+1") := by
    refine ⟨hsize, by rw [hkey]; decide, (by rw [hpar]; intro h; cases h), by rw [hkey, hdef]; decide, ?_, text, by decide, ?_, fun h => absurd rfl h⟩
    · intro c hc; cases hc; unfold NameChar Alnum; omega
    · rintro ⟨b, w, b', r, e, hb, -, hw, -⟩
      have hlen : 4 ≤ w.length := by
        rcases hw with hw | hw
        · have := congrArg List.length hw
          simpa using this.ge
        · have := congrArg List.length hw
          simp at this
          omega
      have h4 := congrArg List.length e
      simp at h4
      have hb0 : b = [] := List.length_eq_zero_iff.mp (by omega)
      subst hb0
      have hh : (w.map upperCase).head? = some 32 := by
        cases w with
        | nil => simp at hlen
        | cons c w =>
          simp at e
          rw [← e.1]
          rfl
      rcases hw with hw | hw <;> rw [hw] at hh <;> cases hh
  have w0 : Written (b! "DEFINE") (b! "size") (b! " 2+1") [] (b! "#define size 2+1") := ⟨[], b! "define", 32, [], rfl, nn, by decide, .inl rfl, nn⟩
  have digit : ∀ (c : Nat), 48 ≤ c → c ≤ 57 → ∀ pc labels texts, Prefixed pc labels texts 0 [c] ((c : Int) - 48) := by
    intro c h1 h2 pc labels texts
    exact .plain 0 _ _ (.atom _ _ (atom_digit pc labels c h1 h2))
  generalize htx : ([(b! "size", some ([], given (b! " 2+1")))] : Texts) = tx
  have dsize : ∀ pc labels, Denotes pc labels (g.text tx) 1 (b! "size") 3 := by
    intro pc labels
    refine .one 1 _ _ (.plain 1 _ _ (.named 0 _ [32] (b! "2+1") [] _ hsize ?_ nb nn
      (.join 0 [50] 2 [] .add [43] [] 0 [49] 1 3 (.one 0 _ _ (digit 50 (by decide) (by decide) _ _ _)) nn nn (by decide) (by intro h; cases h)
        (digit 49 (by decide) (by decide) _ _ _) (by decide))))
    rw [← htx, ← hg]
    rfl
  have bal : ∀ t : Str, (∀ c ∈ t, Ordinary c ∧ c ≠ 44) → Balanced [44] false t := by
    intro t
    induction t with
    | nil => intro _; exact .nil _
    | cons c t ih => intro h; exact .char _ _ _ (h c (by simp)).1 (by simpa using (h c (by simp)).2) (ih fun x hx => h x (by simp [hx]))
  have l1 : Stmt g [] tx 0 (b! "y: .db size") [(b! "y", 0)] [3] 1 :=
    .label (b! "y") [58] (b! " .db size") _ _ hy (.inl rfl)
      (.data [32] (b! ".db") 1 32 [b! "size"] (b! "size") [3] nb (by decide) (.inl rfl)
        (.one [] (b! "size") [] nn nn ⟨bal _ (by decide), by decide, by decide, by decide⟩ (by decide))
        (.now 0 _ 3 _ _ (.plain 1 (dsize _ _) (by omega)) (by rw [hez]; decide) (.nil _)))
  have l2 : Stmt g [(b! "y", 0)] tx 1 (b! " .dw y") [] [0, 0] 3 :=
    .plain _ _ _ (.data [32] (b! ".dw") 2 32 [b! "y"] (b! "y") [0, 0] nb (by decide) (.inl rfl)
        (.one [] (b! "y") [] nn nn ⟨bal _ (by decide), by decide, by decide, by decide⟩ (by decide))
        (.now 1 _ 0 _ _ (.plain 0 (.one 0 _ _ (.plain 0 _ _ (.atom _ _ (.label _ _ hy (by rw [hfind, ← hlab]; rfl))))) (by omega)) (by rw [hez]; decide) (.nil _)))
  have b0 : Block g [] g.start 0 (b! "#define size 2+1\n") [] [] 0 tx := by
    rw [hst]
    exact .define _ _ _ _ _ _ [] [10] [] _ _ _ _ l0 w0 (.inl rfl) (.inl rfl) (by rw [← htx]; exact .nil _ _ _)
  have b1 : Block g [] tx 0 (b! "y: .db size\n") [(b! "y", 0)] [3] 1 tx :=
    .stmts _ _ _ (b! "y: .db size") [] [10] _ _ _ [] _ _ _ _ (.one _ _ _ _ _ _ l1 (by decide)) (.inl rfl) (.inl rfl) (.nil _ _ _)
  have b2 : Block g [(b! "y", 0)] tx 1 (b! " .dw y\n") [] [0, 0] 3 tx :=
    .stmts _ _ _ (b! " .dw y") [] [10] _ _ _ [] _ _ _ _ (.one _ _ _ _ _ _ l2 (by decide)) (.inl rfl) (.inl rfl) (.nil _ _ _)
  refine C61_pasted_partial md5 fs mem rand cwd [cwd] label [b! "SIZE"] [] 2 (by decide) g
    [b! "a.asm"] [.file (b! "a.asm")] (.file _ _ _ _ (by decide) .nil) (by intro c hc; simp at hc) (b! "a.asm") rfl (current_a cwd) hg.symm
    ⟨b! "a", b! "bin", by decide, by decide, by decide, by decide⟩
    [b! "c.asm"] [.file (b! "c.asm")] (.file _ _ _ _ (by decide) .nil) (by intro c hc; simp at hc) (b! "c.asm") rfl
    (.current [] (by rw [← isAbsPath_iff _ (by decide)]; decide) (by decide) (.other _ _ _ (by intro t h; cases h) .nil)) (by rw [← hg]; rfl)
    ⟨b! "c", b! "bin", by decide, by decide, by decide, by decide⟩
    (b! "#define size 2+1\n") (b! " .dw y\n") (b! "b.inc") (b! "#include \"b.inc\"") [] [10] (b! "y: .db size\n") _ ?_ (.inl rfl) (.inl rfl)
    (.relative [] cwd [] ?_ rfl (by intro d hd; cases hd) hb) (by decide) ⟨by decide, .inl ⟨rfl, by decide, by decide⟩⟩
    (.inr ⟨rfl, _, ha, by decide, .inl ⟨rfl, by decide, by decide⟩⟩) (.inr ⟨rfl, _, hc, by decide, .inl ⟨rfl, by decide, by decide⟩⟩)
    [] [(b! "y", 0)] [] tx tx tx 0 1 3 [] [3] [0, 0] b0 b1 (.whole _ _ _ _ _ _ _ _ b2) ?_ ?_ ?_ (by rw [hpar]; intro w hw; cases hw) ?_ (by decide)
  · exact ⟨[], b! "include", 32, [], [], rfl, nn, by decide, .inl rfl, nn, nn, by
      repeat first | exact .nil | refine .char _ _ (by decide) (by decide) ?_, by decide, by decide⟩
  · intro h
    exact absurd h (by rw [← isAbsPath_iff _ (by decide)]; decide)
  · funext w
    exact (hfind w).symm
  · simp
  · intro p hp
    simp at hp
    subst hp
    rw [hkey, hdef]
    decide
  · rw [hst]
    intro p hp
    cases hp

private theorem pass_ends (line : Str → M (Option Str)) (f : Nat) (x : S) (hx : x.errOccurred = false) : firstPassLoop line (f + 1) [] x = .ok () x := by
  rw [firstPassLoop, M.get_bind, hx]
  rfl

private theorem pass_stops (line : Str → M (Option Str)) (f : Nat) (p : Str) (x x' : S) (e : Stop) (hp : p.isEmpty = false) (hx : x.errOccurred = false)
    (h : line p x = .stop e x') : firstPassLoop line (f + 1) p x = .stop e x' := by
  rw [firstPassLoop, M.get_bind, hx, hp]
  exact M.bind_stop h

private theorem pass_goes_on (line : Str → M (Option Str)) (f : Nat) (p r : Str) (x x' : S) (hp : p.isEmpty = false) (hx : x.errOccurred = false)
    (h : line p x = .ok (some r) x') : firstPassLoop line (f + 1) p x = firstPassLoop line f (skipToNextLine r) { x' with lineNum := x'.lineNum + 1 } := by
  rw [firstPassLoop, M.get_bind, hx, hp]
  show (line p >>= _) x = _
  rw [M.bind_ok h]
  rfl

/-! ### Where including is not like writing the text in place -/

/-- C61, negation: on an eZ80 an included file, even of an empty line, switches to ADL mode, although its text has no such
statement; the mode that `.assume` selected before is forgotten. -/
theorem C61_mode_forgotten (k : Nat) (file l rest : Str) (hl : Includes file l) (hr : AtEnd rest) (s : S) (hez : s.mode.ez80 = true) (hadl : s.adl = false)
    (hgo : s.errOccurred = false) (hfile : Located s (slashes file) [10]) :
    ∃ s', (knot (k + 3)).lineSec (l ++ rest) s = .ok (some rest) s' ∧ s'.adl = true := by
  obtain ⟨path, -, -, e, e'⟩ := C61_include (k + 1) file l rest hl hr s [10] [10] hfile (by decide) ⟨by decide, .inl ⟨rfl, by decide, by decide⟩⟩
  have e1 : runFirstPass (knot (k + 1)) [10] { s with currFile := path } = .ok () { s with currFile := path, lineNum := 2, adl := true } := by
    rw [e', show ({ s with currFile := path } : S).mode.ez80 = true from hez, if_pos rfl]
    show firstPassLoop (runLine (knot (k + 1))) 2 [10] { s with currFile := path, lineNum := 1, adl := true } = _
    have hline : runLine (knot (k + 1)) [10] { s with currFile := path, lineNum := 1, adl := true } =
        .ok (some [10]) { s with currFile := path, lineNum := 1, adl := true } := by
      have hsec : (knot (k + 1)).lineSec (dropChar 92 [10]) { s with currFile := path, lineNum := 1, adl := true } =
        .ok (some [10]) { s with currFile := path, lineNum := 1, adl := true } := rfl
      unfold runLine
      rw [lineLoop, M.bind_ok hsec]
      show (if !s.errOccurred && hd (skipWs [10]) == 92 then _ else _ : M _) _ = _
      rw [hgo]
      rfl
    rw [pass_goes_on _ _ _ _ { s with currFile := path, lineNum := 1, adl := true } _ rfl hgo hline]
    exact pass_ends _ _ { s with currFile := path, lineNum := 2, adl := true } hgo
  refine ⟨{ s with adl := true }, ?_, rfl⟩
  rw [e, M.bind_ok e1]
  rfl

/-- C61, negation: a text that begins with `BM` is taken for a picture. -/
theorem C61_text_taken_for_picture :
    (match asmBitmap (b! "#include \"i.bmp\"\n") (b! "BMX: .db 1\n") with
     | .stop (.ub .uninitialised) _ => true
     | _ => false) = true ∧
    (asmBitmap (b! "#include \"i.bmp\"\n") (b! "AMX: .db 1\n")).state.log = [.wrote (b! "a.bin") [1]] := by
  decide +kernel

/-- C61, negation: a file that includes itself is never read to the end, however deep the nesting may be. -/
theorem C61_endless (file l nl rest : Str) (hl : Includes file l) (hnl : NewLine nl) (hrest : AtEnd rest) (k : Nat) : ∀ s : S,
    s.errOccurred = false → Located s (slashes file) (l ++ nl) → l.head? ≠ some 66 → l.head? ≠ some 0xEF → 0 ∉ l →
    ∃ s', (knot k).lineSec (l ++ rest) s = .stop .fuel s' := by
  induction k using Nat.strong_induction_on generalizing rest with
  | _ k ih =>
    intro s hgo hfile h66 hEF h0
    match k with
    | 0 => exact ⟨s, rfl⟩
    | 1 =>
      obtain ⟨b, w, c, b1, b2, e1, hb, -⟩ := hl
      rw [e1, List.append_assoc, List.cons_append]
      show ∃ s', lineSecBody (knot 0) _ s = _
      unfold lineSecBody
      refine ⟨s, ?_⟩
      rw [show ∀ t : Str, (b ++ 35 :: t).length + 1 = (b ++ t).length + 2 by intro t; simp; omega, lineSec_hash _ _ _ hb]
      rfl
    | k + 2 =>
      have hne : l ≠ [] := by
        obtain ⟨b, w, c, b1, b2, e1, -⟩ := hl
        rw [e1]
        simp
      have hnl0 : nl ≠ [] := by rcases hnl with rfl | rfl <;> simp
      have hnlz : 0 ∉ nl := by rcases hnl with rfl | rfl <;> decide
      have hhead : (l ++ nl).head? = l.head? := by
        cases l with
        | nil => exact absurd rfl hne
        | cons => rfl
      obtain ⟨path, -, -, e, e'⟩ := C61_include k file l rest hl hrest s (l ++ nl) (l ++ nl) hfile (by
          intro h
          have : (l ++ nl).head? = some 66 := by
            cases hx : l ++ nl with
            | nil => rw [hx] at h; cases h
            | cons c t =>
              rw [hx] at h
              simp only [List.take_succ_cons, List.cons.injEq] at h
              rw [h.1]; rfl
          rw [hhead] at this
          exact h66 this)
        ⟨by simp [h0, hnlz], .inl ⟨rfl, by simp [hne], by rw [hhead]; exact hEF⟩⟩
      obtain ⟨s', hs'⟩ := ih k (by omega) nl (by rcases hnl with rfl | rfl <;> exact .inr ⟨_, _, rfl, by decide⟩)
        { s with currFile := path, lineNum := 1, adl := if s.mode.ez80 then true else s.adl } hgo hfile h66 hEF h0
      refine ⟨s', ?_⟩
      have hline : runLine (knot k) (l ++ nl) { s with currFile := path, lineNum := 1, adl := if s.mode.ez80 then true else s.adl } = .stop .fuel s' := by
        unfold runLine
        rw [lineLoop]
        have hd92 : dropChar 92 (l ++ nl) = l ++ nl := by
          obtain ⟨b, w, c, b1, b2, e1, hb, -⟩ := hl
          rw [e1]
          cases b with
          | nil => rfl
          | cons c b =>
            have := hb c (by simp)
            have hc : c ≠ 92 := by omega
            simp [dropChar, hd, hc]
        rw [hd92, M.bind_stop hs']
      have hpass : runFirstPass (knot k) (l ++ nl) { s with currFile := path } = .stop .fuel s' := by
        rw [e']
        show firstPassLoop (runLine (knot k)) _ (l ++ nl) { s with currFile := path, lineNum := 1, adl := if s.mode.ez80 then true else s.adl } = _
        have hempty : (l ++ nl).isEmpty = false := by
          cases l with
          | nil => exact absurd rfl hne
          | cons => rfl
        exact pass_stops _ _ _ _ _ _ hempty hgo hline
      rw [e, M.bind_stop hpass]

/-- Such a file in a whole program, and the statement in it. -/
example : (match asmBitmap (b! "#include \"i.bmp\"\n") (b! "#include \"i.bmp\"\n") with | .stop .fuel _ => true | _ => false) = true := by decide +kernel

example : Includes (b! "i.bmp") (b! "#include \"i.bmp\"") :=
  ⟨[], b! "include", 32, [], [], rfl, by simp [Blanks], by decide, .inl rfl, by simp [Blanks], by simp [Blanks],
    by repeat first | exact .nil | refine .char _ _ (by decide) (by decide) ?_, by decide, by decide⟩

end Spasm.Props
