import Verif.Props.Include

/-
C47 for whole runs: the bytes of an imported file stand in the output file.
-/

namespace Spasm.Props
open Spasm Spec

/-- C47, from the command line to the written file: if a line of a program imports a file, the bytes of that file stand in the
output exactly between those of the lines in front of it and those of the lines behind it, and the lines behind it are at
addresses that are larger by the length of the file. The other lines are those of C54. -/
theorem C47_whole_run (md5 : List Nat → List Nat) (fs : Str → Option (List Nat)) (mem rand : Nat → Nat) (cwd : Str)
    (dirs : List Str) (label : Str → Option Int) (defined params : List Str) (depth : Nat) (hd : depth ≤ 20) (g : Setting)
    (args : List Str) (is : List Item) (ha : Asks args is none) (hp : Plain is) (input : Str) (hin : inputFor is = some input)
    (hdirs : Searched cwd is input dirs) (hg : g = settingFor is fs dirs label defined params depth) (hn : HasExt (outputFor is input) (b! "BIN"))
    (before after file l com nl : Str) (bytes : List Nat) (hi : Imports file l) (hc : Comment com) (hnl : NewLine nl)
    (hfile : Found fs dirs (slashes file) bytes) (hbytes : ∀ x ∈ bytes, x < 256) (hs : Source fs is input (before ++ (l ++ com ++ nl ++ after)))
    (new0 new1 : Defs) (tx0 tx1 : Texts) (pc0 pc1 : Nat) (bs0 bs1 : List Nat)
    (h0 : Block g [] g.start 0 before new0 bs0 pc0 tx0) (hpc : pc0 + bytes.length < 16777216)
    (h1 : Program g new0 tx0 (pc0 + bytes.length) after new1 bs1 pc1 tx1)
    (hlab : label = g.find (new1 ++ new0)) (hnd : ((new1 ++ new0).map (fun p => g.key p.1)).Nodup)
    (hgood : ∀ p ∈ new1 ++ new0, g.key p.1 ∉ predefinedNames ∧ g.key p.1 ∉ g.defined ∧ 0 ≤ p.2 ∧ p.2 ≤ 999999999)
    (hpar : ∀ w ∈ g.params, w ∈ g.defined ∧ w ∉ predefinedNames)
    (hstart : ∀ p ∈ g.start, Name p.1 ∧ g.key p.1 ∉ predefinedNames ∧ g.key p.1 ∈ g.defined ∧ g.key p.1 ∉ g.params)
    (hlen : (bs0 ++ bytes ++ bs1).length ≤ 8000000) :
    ∃ K, ∀ fuel, K ≤ fuel → ∃ s, spasm fuel md5 fs mem rand cwd args = .ok 0 s ∧
      s.log = [.wrote (outputFor is input) (bs0 ++ bytes ++ bs1)] := by
  have hdep : g.label = label := by rw [hg]; rfl
  have hgf : g.fs = fs ∧ g.dirs = dirs := by rw [hg]; exact ⟨rfl, rfl⟩
  have hst : g.stats = false := by
    rw [hg]
    show decide (Item.flag 83 ∈ is) = false
    rw [decide_eq_false_iff_not]
    intro h
    exact absurd (hp 83 h) (by decide)
  have step : Block g new0 tx0 pc0 (l ++ com ++ nl) [] bytes (pc0 + bytes.length) tx0 := by
    have := Block.import new0 tx0 pc0 file l com nl bytes [] [] [] (pc0 + bytes.length) tx0 hst hi hc hnl (by rw [hgf.1, hgf.2]; exact hfile) hbytes hpc
      (.nil _ _ _)
    simpa using this
  have build : Program g [] g.start 0 (before ++ (l ++ com ++ nl ++ after)) (new1 ++ new0) (bs0 ++ bytes ++ bs1) pc1 tx1 := by
    have a := program_prepend step h1
    have b := program_prepend h0 (by simpa using a)
    simpa using b
  exact C54_assembles_partial md5 fs mem rand cwd args is ha hp input hin _ hs dirs hdirs label defined params depth hd _
    ⟨_, pc1, tx1, by rw [← hg]; exact build, by rw [← hg, hdep, hlab], by rw [← hg]; exact hnd, by rw [← hg]; exact hgood, by rw [← hg]; exact hpar, by rw [← hg]; exact hstart⟩ hlen hn

/-- A program with a file of three bytes in the middle; the label behind it is used in front of it. -/
example (md5 : List Nat → List Nat) (fs : Str → Option (List Nat)) (mem rand : Nat → Nat) (cwd : Str)
    (ha : fs (b! "a.asm") = some (b! " .dw y\n#IMPORT \"b.bin\" ;data\ny:\n"))
    (hb : fs (slashes (cwd ++ [47] ++ b! "b.bin")) = some [255, 0, 10]) :
    ∃ K, ∀ fuel, K ≤ fuel → ∃ s, spasm fuel md5 fs mem rand cwd [b! "a.asm"] = .ok 0 s ∧ s.log = [.wrote (b! "a.bin") [5, 0, 255, 0, 10]] := by
  generalize hlab : (fun w : Str => (([(b! "y", 5)] : Defs).find? (fun p => decide (p.1.map upperCase = w.map upperCase))).map (·.2)) = label
  generalize hg : settingFor [.file (b! "a.asm")] fs [cwd] label [] [] 1 = g
  have hkey : ∀ w, g.key w = w.map upperCase := by intro w; rw [← hg]; rfl
  have hy : Name (b! "y") := ⟨⟨_, _, rfl, by decide, by simp [NameChar, Alnum]⟩, by decide⟩
  have nb : Blanks [32] := by intro c hc; simp at hc; subst hc; simp
  have nn : Blanks [] := by intro c hc; simp at hc
  have hez : g.ez80 = false := by rw [← hg]; rfl
  have hdep : g.depth = 1 := by rw [← hg]; rfl
  have hst : g.start = [] := by rw [← hg]; rfl
  have hdef : g.defined = [] := by rw [← hg]; rfl
  have hpar : g.params = [] := by rw [← hg]; rfl
  have hgl : g.label (b! "y") = some 5 := by rw [← hg, ← hlab]; rfl
  have bal : ∀ t : Str, (∀ c ∈ t, Ordinary c ∧ c ≠ 44) → Balanced [44] false t := by
    intro t
    induction t with
    | nil => intro _; exact .nil _
    | cons c t ih => intro h; exact .char _ _ _ (h c (by simp)).1 (by simpa using (h c (by simp)).2) (ih fun x hx => h x (by simp [hx]))
  have l1 : Stmt g [] [] 0 (b! " .dw y") [] [5, 0] 2 :=
    .plain _ _ _ (.data [32] (b! ".dw") 2 32 [b! "y"] (b! "y") [5, 0] nb (by decide) (.inl rfl)
        (.one [] (b! "y") [] nn nn ⟨bal _ (by decide), by decide, by decide, by decide⟩ (by decide))
        (.later 0 0 _ 5 _ _ (.one 0 _ _ (.plain 0 _ _ (.atom _ _ (.label _ _ hy hgl)))) (plain_unambiguous _ _ (by decide)) (by omega) (by rw [hez]; decide) (.nil _)))
  have l2 : Stmt g [] [] 5 (b! "y:") [(b! "y", 5)] [] 5 := .label (b! "y") [58] [] _ _ hy (.inl rfl) (.empty [] nn)
  have b0 : Block g [] g.start 0 (b! " .dw y\n") [] [5, 0] 2 [] := by
    rw [hst]
    exact .stmts _ _ _ (b! " .dw y") [] [10] _ _ _ [] _ _ _ _ (.one _ _ _ _ _ _ l1 (by decide)) (.inl rfl) (.inl rfl) (.nil _ _ _)
  have b1 : Block g [] [] 5 (b! "y:\n") [(b! "y", 5)] [] 5 [] :=
    .stmts _ _ _ (b! "y:") [] [10] _ _ _ [] _ _ _ _ (.one _ _ _ _ _ _ l2 (by decide)) (.inl rfl) (.inl rfl) (.nil _ _ _)
  refine C47_whole_run md5 fs mem rand cwd [cwd] label [] [] 1 (by decide) g
    [b! "a.asm"] [.file (b! "a.asm")] (.file _ _ _ _ (by decide) .nil) (by intro c hc; simp at hc) (b! "a.asm") rfl (current_a cwd) hg.symm
    ⟨b! "a", b! "bin", by decide, by decide, by decide, by decide⟩
    (b! " .dw y\n") (b! "y:\n") (b! "b.bin") (b! "#IMPORT \"b.bin\" ") (b! ";data") [10] [255, 0, 10] ?_ (.inr ⟨b! "data", rfl, by decide⟩) (.inl rfl)
    (.relative [] cwd [] ?_ rfl (by intro d hd; cases hd) hb) (by decide)
    (.inr ⟨rfl, _, ha, by decide, .inl ⟨rfl, by decide, by decide⟩⟩)
    [] [(b! "y", 5)] [] [] 2 5 [5, 0] [] b0 (by decide) (.whole _ _ _ _ _ _ _ _ b1) ?_ ?_ ?_ (by rw [hpar]; intro w hw; cases hw) ?_ (by decide)
  · exact ⟨[], b! "IMPORT", 32, [], [32], rfl, nn, by decide, .inl rfl, nn, nb, by
      repeat first | exact .nil | refine .char _ _ (by decide) (by decide) ?_, by decide, by decide⟩
  · intro h
    exact absurd h (by rw [← isAbsPath_iff _ (by decide)]; decide)
  · rw [← hg, ← hlab]
    rfl
  · simp
  · intro p hp
    simp at hp
    subst hp
    rw [hkey, hdef]
    decide
  · rw [hst]
    intro p hp
    cases hp

end Spasm.Props
