import Verif.Props.Program

/-
C44 for whole runs: a byte order mark in front of a program makes no difference.
-/

namespace Spasm.Props
open Spasm Spec

/-- C44, for whole programs: if one source file is the other with a byte order mark in front, and the two command lines ask for
the same settings, both are assembled to the same bytes. The programs are those of C54. -/
theorem C44_whole_partial (md5 : List Nat → List Nat) (fs : Str → Option (List Nat)) (mem rand : Nat → Nat) (cwd : Str)
    (dirs : List Str) (label : Str → Option Int) (defined params : List Str) (depth : Nat) (hd : depth ≤ 20) (g : Setting)
    (args args' : List Str) (is is' : List Item) (ha : Asks args is none) (ha' : Asks args' is' none) (hp : Plain is) (hp' : Plain is')
    (input input' : Str) (hin : inputFor is = some input) (hin' : inputFor is' = some input')
    (hdirs : Searched cwd is input dirs) (hdirs' : Searched cwd is' input' dirs)
    (hg : g = settingFor is fs dirs label defined params depth) (hg' : g = settingFor is' fs dirs label defined params depth)
    (hn : HasExt (outputFor is input) (b! "BIN")) (hn' : HasExt (outputFor is' input') (b! "BIN"))
    (hline : lastLine is = none) (hline' : lastLine is' = none)
    (text : Str) (h0 : 0 ∉ text) (hne : text ≠ []) (hef : text.head? ≠ some 0xEF)
    (hfile : fs input = some text) (hfile' : fs input' = some (0xEF :: 0xBB :: 0xBF :: text))
    (bs : List Nat) (hbs : Assembles g text bs) (hlen : bs.length ≤ 8000000) :
    ∃ K, ∀ fuel, K ≤ fuel → ∃ s s', spasm fuel md5 fs mem rand cwd args = .ok 0 s ∧ spasm fuel md5 fs mem rand cwd args' = .ok 0 s' ∧
      s.log = [.wrote (outputFor is input) bs] ∧ s'.log = [.wrote (outputFor is' input') bs] := by
  obtain ⟨K, r⟩ := C54_assembles_partial md5 fs mem rand cwd args is ha hp input hin text
    (.inr ⟨hline, _, hfile, h0, .inl ⟨rfl, hne, hef⟩⟩) dirs hdirs label defined params depth hd bs (hg ▸ hbs) hlen hn
  obtain ⟨K', r'⟩ := C54_assembles_partial md5 fs mem rand cwd args' is' ha' hp' input' hin' text
    (.inr ⟨hline', _, hfile', h0, .inr rfl⟩) dirs hdirs' label defined params depth hd bs (hg' ▸ hbs) hlen hn'
  refine ⟨max K K', fun fuel hf => ?_⟩
  obtain ⟨s, a, b⟩ := r fuel (by omega)
  obtain ⟨s', a', b'⟩ := r' fuel (by omega)
  exact ⟨s, s', a, a', b, b'⟩

/-- The sample program with a group, with and without the mark. -/
example (md5 : List Nat → List Nat) (fs : Str → Option (List Nat)) (mem rand : Nat → Nat) (cwd : Str)
    (h : fs (b! "a.asm") = some (b! "#if 0\n nonsense (\n#elif 2\nx: .dw y\n#ifdef debug\n.org\n#endif\n#endif\ny:\n"))
    (h' : fs (b! "b.asm") = some (0xEF :: 0xBB :: 0xBF :: b! "#if 0\n nonsense (\n#elif 2\nx: .dw y\n#ifdef debug\n.org\n#endif\n#endif\ny:\n")) :
    ∃ K, ∀ fuel, K ≤ fuel → ∃ s s', spasm fuel md5 fs mem rand cwd [b! "a.asm"] = .ok 0 s ∧ spasm fuel md5 fs mem rand cwd [b! "b.asm"] = .ok 0 s' ∧
      s.log = [.wrote (b! "a.bin") [2, 0]] ∧ s'.log = [.wrote (b! "b.bin") [2, 0]] :=
  C44_whole_partial md5 fs mem rand cwd [cwd] _ [] [] 1 (by decide) _ [b! "a.asm"] [b! "b.asm"] [.file (b! "a.asm")] [.file (b! "b.asm")]
    (.file _ _ _ _ (by decide) .nil) (.file _ _ _ _ (by decide) .nil) (by intro c hc; simp at hc) (by intro c hc; simp at hc) (b! "a.asm") (b! "b.asm") rfl rfl
    (current_a cwd) (.current [] (by rw [← isAbsPath_iff _ (by decide)]; decide) (by decide) (.other _ _ _ (by intro t h; cases h) .nil)) rfl rfl
    ⟨b! "a", b! "bin", by decide, by decide, by decide, by decide⟩ ⟨b! "b", b! "bin", by decide, by decide, by decide, by decide⟩ rfl rfl
    _ (by decide) (by decide) (by decide) h h' [2, 0] (sample_grouped fs cwd) (by decide)

end Spasm.Props
