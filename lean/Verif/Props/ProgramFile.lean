import Verif.Lemmas.ProgramFile
import Verif.Props.Program

/-
C67: program files of the calculators, from the source to the last byte.
-/

namespace Spasm.Props
open Spasm Spec

theorem format_calc {f : Format} (hf : f ∈ formats) : ∃ ct, (f, ct) ∈ formats.zip formatTypes ∧ (f.ext, ct) ∈ extensions ∧ ct.isPrgm = true := by
  simp only [formats, List.mem_cons, List.not_mem_nil, or_false] at hf
  rcases hf with rfl | rfl | rfl | rfl | rfl
  · exact ⟨.t73P, by simp [formats, formatTypes], by decide, rfl⟩
  · exact ⟨.t83P, by simp [formats, formatTypes], by decide, rfl⟩
  · exact ⟨.t8XP, by simp [formats, formatTypes], by decide, rfl⟩
  · exact ⟨.t8XV, by simp [formats, formatTypes], by decide, rfl⟩
  · exact ⟨.t86P, by simp [formats, formatTypes], by decide, rfl⟩

theorem spelt_bytes {f : Format} (hf : f ∈ formats) {base : Str} (h : ∀ c ∈ base, c < 256) (hl : base.length < 256) :
    (∀ c ∈ f.spelt base, c < 256) ∧ (f.spelt base).length < 256 := by
  have hu : ∀ c, c < 256 → upperCase c < 256 := by
    intro c hc
    unfold upperCase
    split <;> omega
  simp only [formats, List.mem_cons, List.not_mem_nil, or_false] at hf
  rcases hf with rfl | rfl | rfl | rfl | rfl
  iterate 3
    refine ⟨fun c hc => ?_, by simpa using hl⟩
    obtain ⟨d, hd, rfl⟩ := List.mem_map.1 hc
    exact hu d (h d hd)
  · refine ⟨fun c hc => ?_, ?_⟩
    · rcases List.mem_append.1 hc with hc | hc
      · obtain ⟨d, hd, rfl⟩ := List.mem_map.1 hc
        exact hu d (h d (List.mem_of_mem_take hd))
      · exact h c (List.mem_of_mem_drop hc)
    · show ((base.take 1).map upperCase ++ base.drop 1).length < 256
      simp
      omega
  · exact ⟨h, hl⟩

/-- C67: whatever the program, and with or without remarks, the file is exactly the described one: it holds the bytes of the
program under the name of the file.
Missing from the full statement: files in the root directory, where it is false (see `C67_root`). -/
theorem C67_file_partial (md5 : List Nat → List Nat) (f : Format) (hf : f ∈ formats) (stem e base : Str) (he : 46 ∉ e) (hx : SameText e f.ext)
    (hb : LastPart stem base) (hbytes : ∀ c ∈ base, c < 256) (hl : base.length < 256) (s : S) (hg : GoodOutput s) :
    Writes (writeFile md5 (stem ++ 46 :: e) s) (stem ++ 46 :: e) (programFile f (f.spelt base) (image s)) := by
  obtain ⟨ct, hz, hext, hc⟩ := format_calc hf
  have hs : stem ≠ [] := by
    rintro rfl
    obtain ⟨h0, -, -, h | ⟨dir, c, -, -, h⟩⟩ := hb
    · exact h0 h.symm
    · simp at h
  have h := writes_prgm md5 (stem ++ 46 :: e) stem (f.ext, ct) s hext hc hs e he ?_ rfl hg
  · have hn := (prgmName_format (f, ct) hz hb).1
    obtain ⟨h1, h2⟩ := spelt_bytes hf hbytes hl
    have hp := prgmBytes_format (f, ct) hz (f.spelt base) (image s) h1 h2 (bytes_image s hg)
    dsimp only at h hn hp
    rw [hn, hp] at h
    exact h
  · exact map_toLower_of_upper hx

/-- A file in the root directory: the slash becomes part of the name of the program. -/
theorem C67_root (md5 : List Nat → List Nat) (f : Format) (hf : f ∈ formats) (e base : Str) (he : 46 ∉ e) (hx : SameText e f.ext)
    (hb : 47 ∉ base ∧ 92 ∉ base) (hbytes : ∀ c ∈ base, c < 256) (hl : base.length < 255) (s : S) (hg : GoodOutput s) :
    Writes (writeFile md5 (47 :: base ++ 46 :: e) s) (47 :: base ++ 46 :: e) (programFile f (f.spelt (47 :: base)) (image s)) := by
  obtain ⟨ct, hz, hext, hc⟩ := format_calc hf
  have h := writes_prgm md5 (47 :: base ++ 46 :: e) (47 :: base) (f.ext, ct) s hext hc (by simp) e he (map_toLower_of_upper hx) rfl hg
  have hbase : progBase (47 :: base) = 47 :: base := by
    unfold progBase
    dsimp only
    rw [if_neg]
    rw [List.any_eq_true]
    rintro ⟨d, hd, hx⟩
    simp only [Bool.or_eq_true, beq_iff_eq] at hx
    rcases hx with rfl | rfl
    · exact hb.1 hd
    · exact hb.2 hd
  have hn : (prgmName ct (47 :: base)).1 = f.spelt (47 :: base) := by
    clear h hext hc hx
    simp only [formats, formatTypes, List.zip_cons_cons, List.zip_nil_right, List.mem_cons, List.not_mem_nil, or_false, Prod.mk.injEq] at hz
    rcases hz with ⟨rfl, rfl⟩ | ⟨rfl, rfl⟩ | ⟨rfl, rfl⟩ | ⟨rfl, rfl⟩ | ⟨rfl, rfl⟩ <;> unfold prgmName <;>
      simp only [reduceCtorEq, if_false, Calc.ix, Nat.reduceLT, if_true, hbase]
    · exact (alphanumeric_force _).1
    · exact (alphanumeric_force _).1
    · exact (alphanumeric_force _).1
    · exact (alphanumeric_first _).1
    · rfl
  obtain ⟨h1, h2⟩ := spelt_bytes hf (base := 47 :: base) (by
    intro c hc
    rcases List.mem_cons.1 hc with rfl | hc
    · decide
    · exact hbytes c hc) (by simp; omega)
  have hp := prgmBytes_format (f, ct) hz (f.spelt (47 :: base)) (image s) h1 h2 (bytes_image s hg)
  dsimp only at h hp
  rw [hn, hp] at h
  exact h

example : programFile (formats.getD 2 (formats.headD default)) (b! "GAME") [0xBB, 0x6D, 0xC9] =
    b! "**TI83F*" ++ [0x1A, 0x0A, 0] ++ b! "File generated by spasm" ++ List.replicate 19 0 ++ [22, 0, 13, 0, 5, 0, 6] ++ b! "GAME" ++ [0, 0, 0, 0, 0, 0] ++
      [5, 0, 3, 0, 0xBB, 0x6D, 0xC9, 0x2B, 3] := by decide

/-- C67, from the command line and the text of the program: the run shows nothing, ends with status 0 and writes exactly one
file, the one described, with the bytes that the program stands for.
Missing: what is missing in `C54_assembles_partial` and in `C67_file_partial`. -/
theorem C67_whole_partial (md5 : List Nat → List Nat) (fs : Str → Option (List Nat)) (mem rand : Nat → Nat) (cwd : Str)
    (args : List Str) (is : List Item) (h : Asks args is none) (hp : Plain is) (input : Str) (hin : inputFor is = some input) (text : Str)
    (hs : Source fs is input text) (dirs : List Str) (hdirs : Searched cwd is input dirs) (label : Str → Option Int) (defined params : List Str) (depth : Nat)
    (hd : depth ≤ 20) (bs : List Nat) (ha : Assembles (settingFor is fs dirs label defined params depth) text bs) (hbs : ∀ b ∈ bs, b < 256)
    (f : Format) (hf : f ∈ formats) (stem e base : Str) (hn : outputFor is input = stem ++ 46 :: e) (he : 46 ∉ e) (hx : SameText e f.ext)
    (hb : LastPart stem base) (hbytes : ∀ c ∈ base, c < 256) (hl : base.length < 256)
    (hq : Unremarkable f (decide (.flag 69 ∈ is)) (f.spelt base) bs) :
    ∃ K, ∀ fuel, K ≤ fuel → ∃ s, spasm fuel md5 fs mem rand cwd args = .ok 0 s ∧
      s.log = [.wrote (outputFor is input) (programFile f (f.spelt base) bs)] := by
  obtain ⟨ct, hz, hext, hc⟩ := format_calc hf
  have hst : stem ≠ [] := by
    rintro rfl
    obtain ⟨h0, -, -, h | ⟨dir, c, -, -, h⟩⟩ := hb
    · exact h0 h.symm
    · simp at h
  have hsmall : bs.length ≤ 8000000 := by
    have h1 := hq.2.1
    have h2 : bs.length ≤ (f.content bs).length := by
      clear hq h1 hx hz hext
      simp only [formats, List.mem_cons, List.not_mem_nil, or_false] at hf
      rcases hf with rfl | rfl | rfl | rfl | rfl
      · exact Nat.le_refl _
      · have := length_flatMap_hexByte bs
        rw [hexPairs_eq bs hbs] at this
        show _ ≤ (bs.flatMap hexPair ++ _).length
        rw [List.length_append, this]
        omega
      · exact Nat.le_refl _
      · exact Nat.le_refl _
      · show _ ≤ ([0x8E, 0x28] ++ bs).length
        simp
        omega
    split at h1 <;> omega
  obtain ⟨K, hK⟩ := run_assembled md5 fs mem rand cwd args is h hp input hin text hs dirs hdirs label defined params depth hd bs ha hsmall
  refine ⟨K, fun fuel hfl => ?_⟩
  obtain ⟨s, n, a, eq⟩ := hK fuel hfl
  rw [eq, hn]
  obtain ⟨h1, h2⟩ := spelt_bytes hf hbytes hl
  have hp := prgmBytes_format (f, ct) hz (f.spelt base) bs h1 h2 hbs
  refine writes_quiet a md5 _ ct (calcOf_ext _ (f.ext, ct) hext ⟨stem, e, hst, rfl, he, map_toLower_of_upper hx⟩) hsmall _ ?_
  have hfile : fileOf md5 ct (stem ++ 46 :: e) s.mem bs = makePrgm ct (prgmOf (stem ++ 46 :: e)) s.mem bs := by
    revert hc; cases ct <;> first | (intro _; rfl) | (intro h; exact absurd h (by decide))
  rw [hfile, prgmOf_stem stem e hst he, ← hp]
  refine makePrgm_quiet (f, ct) hz hb bs s.mem ?_ hbs (exporting { s with session := 1 }) ?_
  · intro i b hi
    have := a.image
    rw [← this] at hi
    unfold image at hi
    rw [List.getElem?_map] at hi
    obtain ⟨j, hj, rfl⟩ := Option.map_eq_some_iff.1 hi
    obtain ⟨hj1, hj2⟩ := List.getElem?_eq_some_iff.1 hj
    rw [List.getElem_range] at hj2
    rw [hj2]
  · show Unremarkable f s.mode.ez80 _ _
    rw [a.cpu]
    exact hq

/-- A program of one line, which starts with the token of assembly programs. -/
theorem sample_tokens (fs : Str → Option (List Nat)) (dirs : List Str) (is : List Item) (his : is = [.file (b! "a.asm"), .file (b! "out/game.8xp")]) :
    Assembles (settingFor is fs dirs (fun _ => none) [] [] 1) (b! " .dw $6DBB,0\n") [0xBB, 0x6D, 0, 0] := by
  subst his
  refine ⟨[], 4, [], .whole _ _ _ _ _ _ _ _ ?_, rfl, .nil, (by intro p hp; cases hp), (by intro p hp; cases hp), by intro p hp; cases hp⟩
  show Block _ [] [] _ _ _ _ _ _
  have nb : Blanks [32] := by intro c hc; simp at hc; subst hc; simp
  have nn : Blanks [] := by intro c hc; simp at hc
  have token : ∀ pc labels texts, Denotes pc labels texts 0 (b! "$6DBB") 28091 := by
    intro pc labels texts
    have hd : ∀ c ∈ b! "6DBB", IsDigit 16 c := by
      intro c hc
      simp only [List.mem_cons, List.not_mem_nil, or_false] at hc
      rcases hc with rfl | rfl | rfl | rfl
      · exact ⟨6, rfl, by decide⟩
      · exact ⟨13, rfl, by decide⟩
      · exact ⟨11, rfl, by decide⟩
      · exact ⟨11, rfl, by decide⟩
    have ha : ∀ c ∈ b! "6DBB", Alnum c := by
      intro c hc
      simp only [List.mem_cons, List.not_mem_nil, or_false] at hc
      unfold Alnum
      omega
    exact .one 0 _ _ (.plain 0 _ _ (.atom _ _ (.literal 16 (b! "6DBB") _ ⟨by decide, ha, .inl ⟨rfl, rfl, hd 54 (by decide)⟩⟩ hd (by decide))))
  have zero : ∀ pc labels texts, Denotes pc labels texts 0 (b! "0") 0 := by
    intro pc labels texts
    exact .one 0 _ _ (.plain 0 _ _ (.atom _ _ (atom_digit pc labels 48 (by decide) (by decide))))
  have bal : ∀ t : Str, (∀ c ∈ t, Ordinary c ∧ c ≠ 44) → Balanced [44] false t := by
    intro t
    induction t with
    | nil => intro _; exact .nil _
    | cons c t ih =>
      intro h
      exact .char _ _ _ (h c (by simp)).1 (by simpa using (h c (by simp)).2) (ih fun x hx => h x (by simp [hx]))
  have a1 : Argument (b! "$6DBB") := ⟨bal _ (by decide), by decide, by decide, by decide⟩
  have a2 : Argument (b! "0") := ⟨bal _ (by decide), by decide, by decide, by decide⟩
  exact .stmts [] [] 0 (b! " .dw $6DBB,0") [] [10] [] [0xBB, 0x6D, 0, 0] 4 [] [] [] 4 [] (.one _ _ _ _ _ _ (.plain _ _ _
    (.data [32] (b! ".dw") 2 32 [b! "$6DBB", b! "0"] (b! "$6DBB,0") [0xBB, 0x6D, 0, 0] nb (by decide) (.inl rfl)
      (.more [] (b! "$6DBB") [] _ _ nn nn a1 (by decide) (.one [] (b! "0") [] nn nn a2 (by decide)))
      (.now 0 _ 28091 _ _ (.plain 0 (token _ _ _) (Nat.zero_lt_one)) (by rfl) (.now 2 _ 0 _ _ (.plain 0 (zero _ _ _) (Nat.zero_lt_one)) (by rfl) (.nil _))))) (by decide))
    (.inl rfl) (.inl rfl) (.nil _ _ _)

/-- `spasm a.asm out/game.8xp`, whatever else is on the disk. -/
example (md5 : List Nat → List Nat) (fs : Str → Option (List Nat)) (mem rand : Nat → Nat) (cwd : Str)
    (h : fs (b! "a.asm") = some (b! " .dw $6DBB,0\n")) :
    ∃ K, ∀ fuel, K ≤ fuel → ∃ s, spasm fuel md5 fs mem rand cwd [b! "a.asm", b! "out/game.8xp"] = .ok 0 s ∧
      s.log = [.wrote (b! "out/game.8xp") (programFile (formats.getD 2 (formats.headD default)) (b! "GAME") [0xBB, 0x6D, 0, 0])] :=
  C67_whole_partial md5 fs mem rand cwd [b! "a.asm", b! "out/game.8xp"] [.file (b! "a.asm"), .file (b! "out/game.8xp")]
    (.file _ _ _ _ (by decide) (.file _ _ _ _ (by decide) .nil))
    (by intro c hc; simp at hc) (b! "a.asm") rfl _ (.inr ⟨rfl, _, h, by decide, .inl ⟨rfl, by decide, by decide⟩⟩) [cwd]
    (.current [] (by rw [← isAbsPath_iff _ (by decide)]; decide) (by decide) (.other _ _ _ (by intro t h; cases h) (.other _ _ _ (by intro t h; cases h) .nil)))
    (fun _ => none) [] [] 1 (by decide) _ (sample_tokens fs _ _ rfl) (by decide) (formats.getD 2 (formats.headD default)) (by simp [formats])
    (b! "out/game") (b! "8xp") (b! "game") rfl (by decide) (by rfl)
    ⟨by decide, by decide, by decide, .inr ⟨b! "out", 47, by decide, .inl rfl, rfl⟩⟩ (by decide) (by decide)
    ⟨fun _ => ⟨by intro c hc; change c ∈ b! "GAME" at hc; simp only [List.mem_cons, List.not_mem_nil, or_false] at hc; unfold Alnum; omega, 71, rfl, by decide⟩,
      by decide, fun _ => ⟨[0xBB, 0x6D], by decide, [0, 0], rfl⟩⟩

end Spasm.Props
