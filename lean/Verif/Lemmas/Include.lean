import Verif.Props.Import

/-
The reading of `#include` statements.
-/

namespace Spasm
open Spec Props

/-- Where the file of a preprocessor statement is. -/
theorem fullPath_where (s : S) (name bytes : Str) (h92 : 92 ∉ name) (h : Located s name bytes) :
    ∃ path, fullPath s name = some path ∧ s.fs path = some bytes ∧ (path = name ∨ ∃ d ∈ s.includeDirs, path = slashes (d ++ [47] ++ name)) := by
  obtain ⟨path, h1, h2⟩ := fullPath_located s name bytes h92 h
  refine ⟨path, h1, h2, ?_⟩
  unfold fullPath at h1
  split at h1
  · exact .inl (Option.some.inj h1).symm
  · obtain ⟨d, hd, e⟩ := List.mem_map.1 (List.mem_of_find?_eq_some h1)
    exact .inr ⟨d, hd, by rw [← e, fixFilename_eq]⟩

theorem include_reads (k : Nat) (w : Str) (hw : w.map upperCase = b! "INCLUDE") (b b1 file b2 rest : Str) (ch : Nat) (s : S)
    (path : Str) (bytes : List Nat) (hpath : fullPath s (slashes file) = some path) (hfile : s.fs path = some bytes)
    (hb : Blanks b) (hb1 : Blanks b1) (hb2 : Blanks b2) (hc : ch = 32 ∨ ch = 9) (hf : StringBody file) (hq : 34 ∉ file)
    (hm : ∀ c ∈ file, c ≠ 10 ∧ c ≠ 13 ∧ c ≠ 59) (hlen : (34 :: file ++ [34] ++ b2).length ≤ 254) (hrest : AtEnd rest) :
    (knot (k + 2)).lineSec (b ++ 35 :: (w ++ ch :: (b1 ++ (34 :: file ++ [34]) ++ b2 ++ rest))) s =
      (if isBitmap bytes then (do handleBitmap (knot k) bytes; pure (some rest)) else
        match fileText bytes with
        | none => do
          showError .cantOpen
          pure (some rest)
        | some text => do
          M.modify fun st => { st with currFile := path }
          runFirstPass (knot k) text
          M.modify fun st' => { st' with currFile := s.currFile, lineNum := s.lineNum, inMacro := s.inMacro }
          pure (some rest) : M (Option Str)) s := by
  rw [lineSec_preop _ _ _ hb]
  have hsp : isSpace ch = true := by rcases hc with rfl | rfl <;> rfl
  obtain ⟨h1, h2⟩ := findPre_word hw (by decide) ch hsp (b1 ++ (34 :: file ++ [34]) ++ b2 ++ rest)
  have h3 : (preNames.find? (fun d => eqCase d.1 (b! "INCLUDE"))).map (·.2) = some .include_ := by decide
  unfold handlePreopBody
  rw [h1, h2, h3]
  have hsk : skipWs (ch :: (b1 ++ (34 :: file ++ [34]) ++ b2 ++ rest)) = 34 :: file ++ [34] ++ b2 ++ rest := by
    have e : ch :: (b1 ++ (34 :: file ++ [34]) ++ b2 ++ rest) = (ch :: b1) ++ (34 :: (file ++ [34] ++ b2 ++ rest)) := by simp
    rw [e, skipWs_blanks, skipWs_cons _ _ (by decide)]
    · simp
    · intro x hx
      rcases List.mem_cons.1 hx with rfl | hx
      · omega
      · exact hb1 x hx
  dsimp only
  rw [hsk]
  unfold preInclude
  rw [if_neg (by simp [isEnd])]
  have nb : Blanks [] := by intro c hc; simp at hc
  have e := readExpr_balanced true [] (by simp) (by simp) [] (34 :: file ++ [34]) b2 rest s nb hb2
    (by simpa using Balanced.string (delims := []) false file [] hf (.nil _)) ⟨by simp, by simp; decide, by simp [List.getLast?_cons]; decide⟩ (fun _ => hlen)
    (AtEnd.stops hrest _)
  rw [List.nil_append] at e
  rw [M.bind_ok e]
  dsimp only
  have hmal : malformedName (34 :: file ++ [34]) = false := by
    unfold malformedName
    rw [List.any_eq_false]
    intro x hx
    simp only [List.cons_append, List.mem_cons, List.mem_append, List.not_mem_nil, or_false] at hx
    rcases hx with rfl | hx | rfl
    · decide
    · have := hm x hx
      simp [this]
    · decide
  rw [hmal, if_neg (by decide), M.get_bind, unquote_quoted file hq, hpath]
  dsimp only
  rw [hfile]
  rfl

theorem include_bitmap (k : Nat) (w : Str) (hw : w.map upperCase = b! "INCLUDE") (b b1 file b2 rest : Str) (ch : Nat) (s : S)
    (bytes : List Nat) (hfile : Located s (slashes file) bytes) (hbm : isBitmap bytes = true)
    (hb : Blanks b) (hb1 : Blanks b1) (hb2 : Blanks b2) (hc : ch = 32 ∨ ch = 9) (hf : StringBody file) (hq : 34 ∉ file)
    (hm : ∀ c ∈ file, c ≠ 10 ∧ c ≠ 13 ∧ c ≠ 59) (hlen : (34 :: file ++ [34] ++ b2).length ≤ 254) (hrest : AtEnd rest) :
    (knot (k + 2)).lineSec (b ++ 35 :: (w ++ ch :: (b1 ++ (34 :: file ++ [34]) ++ b2 ++ rest))) s =
      (handleBitmap (knot k) bytes >>= fun _ => pure (some rest)) s := by
  obtain ⟨path, p1, p2⟩ := fullPath_located s (slashes file) bytes (slashes_no92 _) hfile
  rw [include_reads k w hw b b1 file b2 rest ch s path bytes p1 p2 hb hb1 hb2 hc hf hq hm hlen hrest, if_pos hbm]

theorem fileText_of {bytes text : Str} (h0 : 0 ∉ text) (h : (bytes = text ∧ text ≠ [] ∧ text.head? ≠ some 0xEF) ∨ bytes = 0xEF :: 0xBB :: 0xBF :: text) :
    fileText bytes = some text := by
  have ht : text.takeWhile (fun c => c != 0) = text := by
    have : ∀ l : Str, 0 ∉ l → l.takeWhile (fun c => c != 0) = l := by
      intro l
      induction l with
      | nil => intro _; rfl
      | cons c l ih =>
        intro hl
        rw [List.takeWhile_cons_of_pos (by simp only [bne_iff_ne, ne_eq]; rintro rfl; simp at hl), ih (fun h => hl (List.mem_cons_of_mem _ h))]
    exact this text h0
  rcases h with ⟨rfl, hne, hh⟩ | rfl
  · cases bytes with
    | nil => exact absurd rfl hne
    | cons c t =>
      have hc : c ≠ 0xEF := by rintro rfl; exact hh rfl
      unfold fileText
      split
      · rename_i heq; cases heq
      · rename_i heq; cases heq; exact absurd rfl hc
      · rename_i heq; cases heq; exact absurd rfl hc
      · rename_i heq; cases heq; exact absurd rfl hc
      · rw [ht]
  · show some (text.takeWhile (fun c => c != 0)) = some text
    rw [ht]

/-- Including a text: the pass goes over it, as over a file of its own, and comes back. -/
theorem include_text (k : Nat) (w : Str) (hw : w.map upperCase = b! "INCLUDE") (b b1 file b2 rest : Str) (ch : Nat) (s : S)
    (path text : Str) (bytes : List Nat) (hpath : fullPath s (slashes file) = some path) (hfile : s.fs path = some bytes)
    (hbm : isBitmap bytes = false) (ht : fileText bytes = some text)
    (hb : Blanks b) (hb1 : Blanks b1) (hb2 : Blanks b2) (hc : ch = 32 ∨ ch = 9) (hf : StringBody file) (hq : 34 ∉ file)
    (hm : ∀ c ∈ file, c ≠ 10 ∧ c ≠ 13 ∧ c ≠ 59) (hlen : (34 :: file ++ [34] ++ b2).length ≤ 254) (hrest : AtEnd rest) :
    (knot (k + 2)).lineSec (b ++ 35 :: (w ++ ch :: (b1 ++ (34 :: file ++ [34]) ++ b2 ++ rest))) s =
      (do
        firstPassLoop (runLine (knot k)) (text.length + 1) text
        M.modify fun st' => { st' with currFile := s.currFile, lineNum := s.lineNum, inMacro := s.inMacro }
        pure (some rest) : M (Option Str))
        { s with currFile := path, lineNum := 1, adl := if s.mode.ez80 then true else s.adl } := by
  rw [include_reads k w hw b b1 file b2 rest ch s path bytes hpath hfile hb hb1 hb2 hc hf hq hm hlen hrest, hbm, if_neg (by decide), ht]
  rfl

end Spasm
