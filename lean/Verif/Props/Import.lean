import Verif.Props.Directives
import Verif.Lemmas.Preop
import Verif.Spec.Files

/-
C47: imported files.
-/

namespace Spasm.Props
open Spasm Spec

theorem isAbsPath_iff (name : Str) (h : 92 ∉ name) : isAbsPath name = true ↔ Absolute name := by
  have hsplit : ∃ b, name = b ++ skipWs name ∧ Blanks b := by
    refine ⟨name.takeWhile isBlank, ?_, ?_⟩
    · unfold skipWs; exact (List.takeWhile_append_dropWhile).symm
    · intro c hc
      have := List.all_eq_true.1 List.all_takeWhile c hc
      unfold isBlank isSpace at this
      simp at this
      omega
  obtain ⟨b, hname, hb⟩ := hsplit
  have h92 : ∀ c ∈ skipWs name, c ≠ 92 := by
    intro c hc e
    subst e
    exact h (by rw [hname]; simp [hc])
  constructor
  · intro h1
    refine ⟨b, skipWs name, hname, hb, ?_⟩
    unfold isAbsPath at h1
    generalize skipWs name = t at h1 h92
    match t, h1, h92 with
    | [], h1, _ => simp at h1
    | [c], h1, h92 =>
      have := h92 c (by simp)
      simp at h1
      exact .inl ⟨[], by rw [show c = 47 by omega]⟩
    | c :: d :: r, h1, h92 =>
      have := h92 c (by simp)
      simp only [Bool.or_eq_true, Bool.and_eq_true, beq_iff_eq] at h1
      by_cases hc : c = 47
      · exact .inl ⟨d :: r, by rw [hc]⟩
      · right
        have h2 : d = 58 ∧ isAlpha c = true := by
          rcases h1 with (h1 | h1) | h1
          · contradiction
          · contradiction
          · exact h1
        refine ⟨c, r, by rw [h2.1], ?_⟩
        have := h2.2
        unfold isAlpha isUpper isLower at this
        simp at this
        omega
  · rintro ⟨b', t, hn, hb', ht⟩
    have hsk : skipWs name = t := by
      rw [hn, skipWs_blanks _ _ hb']
      rcases ht with ⟨r, rfl⟩ | ⟨c, r, rfl, hc⟩
      · exact skipWs_cons _ _ (by decide)
      · refine skipWs_cons _ _ ?_
        unfold isBlank isSpace
        simp; omega
    unfold isAbsPath
    rw [hsk]
    rcases ht with ⟨r, rfl⟩ | ⟨c, r, rfl, hc⟩
    · cases r <;> rfl
    · simp only [beq_self_eq_true, Bool.true_and, Bool.or_eq_true]
      right
      unfold isAlpha isUpper isLower
      simp; omega

theorem fixFilename_eq (t : Str) : fixFilename t = slashes t := by
  unfold fixFilename slashes
  congr 1
  funext c
  simp

theorem slashes_no92 (t : Str) : 92 ∉ slashes t := by
  unfold slashes
  intro h
  obtain ⟨c, -, h⟩ := List.mem_map.1 h
  split at h <;> omega

theorem fullPath_located (s : S) (name bytes : Str) (h92 : 92 ∉ name) (h : Located s name bytes) :
    ∃ path, fullPath s name = some path ∧ s.fs path = some bytes := by
  cases h with
  | absolute h1 h2 =>
    refine ⟨name, ?_, h2⟩
    unfold fullPath
    rw [if_pos (by rw [(isAbsPath_iff name h92).2 h1, h2]; rfl)]
  | relative before dir after h1 h2 h3 h4 =>
    refine ⟨slashes (dir ++ [47] ++ name), ?_, h4⟩
    unfold fullPath
    rw [if_neg]
    · rw [h2, List.map_append, List.find?_append, List.find?_eq_none.2, List.map_cons, List.find?_cons]
      · simp only [fixFilename_eq, h4, Option.isSome_some, Option.none_or]
      · intro p hp
        obtain ⟨d, hd, rfl⟩ := List.mem_map.1 hp
        rw [fixFilename_eq, h3 d hd]
        decide
    · intro hc
      simp only [Bool.and_eq_true] at hc
      rw [h1 ((isAbsPath_iff name h92).1 hc.1)] at hc
      simp at hc

theorem fullPath_missing (s : S) (name : Str) (h92 : 92 ∉ name) (h1 : Absolute name → s.fs name = none)
    (h2 : ∀ d ∈ s.includeDirs, s.fs (slashes (d ++ [47] ++ name)) = none) : fullPath s name = none := by
  unfold fullPath
  rw [if_neg, List.find?_eq_none.2]
  · intro p hp
    obtain ⟨d, hd, rfl⟩ := List.mem_map.1 hp
    rw [fixFilename_eq, h2 d hd]
    decide
  · intro hc
    simp only [Bool.and_eq_true] at hc
    rw [h1 ((isAbsPath_iff name h92).1 hc.1)] at hc
    simp at hc

theorem importBytes_ok : ∀ (bytes : List Nat) (s : S), (∀ b ∈ bytes, b < 256) → HasRoom bytes.length s → 0 ≤ s.pc ∧ s.pc < 4294967296 →
    importBytes bytes s = .ok () { emitted bytes s with pc := (s.pc + bytes.length) % 4294967296 }
  | [], s, _, _, hpc => by
    rw [emitted_nil]
    have : (s.pc + (([] : List Nat).length : Int)) % 4294967296 = s.pc := by simp; omega
    rw [this]; rfl
  | b :: bytes, s, hb, h, hpc => by
    have h0 := h.1
    have h1 := h.2
    simp only [List.length_cons] at h1
    push_cast at h1
    have hb0 := hb b (by simp)
    have hmod : ((b : Int) % 256).toNat = b := by omega
    rw [importBytes, M.bind_ok (writeOut_ok b s ⟨h0, by omega⟩), hmod]
    have ha : advance 1 (emitted [b] s) = .ok () { emitted [b] s with pc := (s.pc + 1) % 4294967296 } := rfl
    rw [M.bind_ok ha, importBytes_ok bytes _ (fun x hx => hb x (by simp [hx]))
      ⟨by show 0 ≤ s.outPtr + _; simp; omega, by show s.outPtr + _ + _ ≤ _; simp; omega⟩
      (by show 0 ≤ (s.pc + 1) % 4294967296 ∧ (s.pc + 1) % 4294967296 < 4294967296; omega)]
    have he := emitted_append [b] bytes s h0
    simp only [Res.ok.injEq, true_and]
    unfold emitted at he ⊢
    simp only [S.mk.injEq] at he ⊢
    obtain ⟨-, -, -, -, -, -, -, -, -, h1, h2, -⟩ := he
    refine ⟨trivial, trivial, trivial, trivial, ?_, trivial, trivial, trivial, trivial, h1, h2, ?_⟩
    · simp only [List.length_cons]
      push_cast
      omega
    · simp

theorem unquote_quoted (file : Str) (h : 34 ∉ file) : unquote (fixFilename (34 :: file ++ [34])) = slashes file := by
  rw [fixFilename_eq]
  have e : slashes (34 :: file ++ [34]) = 34 :: (slashes file ++ [34]) := by simp [slashes]
  rw [e]
  unfold unquote
  have hsk : skipWs (34 :: (slashes file ++ [34])) = 34 :: (slashes file ++ [34]) := skipWs_cons _ _ (by decide)
  simp only [hsk, hd_cons, beq_self_eq_true, if_true, List.tail_cons]
  rw [List.takeWhile_append_of_pos]
  · simp
  · intro c hc
    unfold slashes at hc
    obtain ⟨d, hd, rfl⟩ := List.mem_map.1 hc
    have : d ≠ 34 := fun e => h (e ▸ hd)
    simp only [bne_iff_ne, ne_eq]
    split <;> omega

/-- Reading the file name of an import. -/
theorem import_reads (k : Nat) (w : Str) (hw : w.map upperCase = b! "IMPORT") (b b1 file b2 rest : Str) (c : Nat) (s : S)
    (hb : Blanks b) (hb1 : Blanks b1) (hb2 : Blanks b2) (hc : c = 32 ∨ c = 9) (hf : StringBody file)
    (hlen : (34 :: file ++ [34] ++ b2).length ≤ 254) (hrest : AtEnd rest) :
    (knot (k + 2)).lineSec (b ++ 35 :: (w ++ c :: (b1 ++ (34 :: file ++ [34]) ++ b2 ++ rest))) s =
      (match fullPath s (unquote (fixFilename (34 :: file ++ [34]))) with
       | none => M.ub .nullDeref
       | some path =>
         match s.fs path with
         | none => do
           setError E.FILE_NOT_FOUND
           pure (some rest)
         | some bytes => do
           importBytes bytes
           pure (some rest) : M (Option Str)) s := by
  rw [lineSec_preop _ _ _ hb]
  have hsp : isSpace c = true := by rcases hc with rfl | rfl <;> rfl
  obtain ⟨h1, h2⟩ := findPre_word hw (by decide) c hsp (b1 ++ (34 :: file ++ [34]) ++ b2 ++ rest)
  have h3 : (preNames.find? (fun d => eqCase d.1 (b! "IMPORT"))).map (·.2) = some .import_ := by decide
  unfold handlePreopBody
  rw [h1, h2, h3]
  have hsk : skipWs (c :: (b1 ++ (34 :: file ++ [34]) ++ b2 ++ rest)) = 34 :: file ++ [34] ++ b2 ++ rest := by
    have e : c :: (b1 ++ (34 :: file ++ [34]) ++ b2 ++ rest) = (c :: b1) ++ (34 :: (file ++ [34] ++ b2 ++ rest)) := by simp
    rw [e, skipWs_blanks, skipWs_cons _ _ (by decide)]
    · simp
    · intro x hx
      rcases List.mem_cons.1 hx with rfl | hx
      · omega
      · exact hb1 x hx
  dsimp only
  rw [hsk]
  unfold preImport
  rw [if_neg (by simp [isEnd])]
  have nb : Blanks [] := by intro c hc; simp at hc
  have e := readExpr_balanced true [] (by simp) (by simp) [] (34 :: file ++ [34]) b2 rest s nb hb2
    (by simpa using Balanced.string (delims := []) false file [] hf (.nil _)) ⟨by simp, by simp; decide, by simp [List.getLast?_cons]; decide⟩ (fun _ => hlen)
    (AtEnd.stops hrest _)
  rw [List.nil_append] at e
  rw [M.bind_ok e]
  dsimp only
  rw [M.get_bind]
  cases fullPath s (unquote (fixFilename (34 :: file ++ [34]))) with
  | none => rfl
  | some path => dsimp only; cases s.fs path <;> rfl

/-- C47: `#import "file"` places exactly the bytes of the file at the current position of the output and advances the
address by their number; nothing else changes. The keyword may be written in any case; backslashes in the name stand
for slashes; the file is the one of this name, or the first one in the include directories. -/
theorem C47_import (k : Nat) (w : Str) (hw : w.map upperCase = b! "IMPORT") (b b1 file b2 rest : Str) (c : Nat) (s : S)
    (bytes : List Nat) (hfile : Located s (slashes file) bytes) (hbytes : ∀ x ∈ bytes, x < 256)
    (hb : Blanks b) (hb1 : Blanks b1) (hb2 : Blanks b2) (hc : c = 32 ∨ c = 9) (hf : StringBody file) (hq : 34 ∉ file)
    (hlen : (34 :: file ++ [34] ++ b2).length ≤ 254) (hrest : AtEnd rest) (hroom : HasRoom bytes.length s)
    (hpc : 0 ≤ s.pc ∧ s.pc < 4294967296) :
    (knot (k + 2)).lineSec (b ++ 35 :: (w ++ c :: (b1 ++ (34 :: file ++ [34]) ++ b2 ++ rest))) s =
      .ok (some rest) { emitted bytes s with pc := (s.pc + bytes.length) % 4294967296 } := by
  rw [import_reads k w hw b b1 file b2 rest c s hb hb1 hb2 hc hf hlen hrest, unquote_quoted file hq]
  obtain ⟨path, h1, h2⟩ := fullPath_located s (slashes file) bytes (slashes_no92 _) hfile
  rw [h1]
  dsimp only
  rw [h2]
  dsimp only
  rw [M.bind_ok (importBytes_ok bytes s hbytes hroom hpc)]
  rfl

/-- C47 says nothing about files that cannot be found. For them the program passes a null pointer to `fopen`, in every
state: undefined behaviour. -/
theorem C47_missing_file (k : Nat) (w : Str) (hw : w.map upperCase = b! "IMPORT") (b b1 file b2 rest : Str) (c : Nat) (s : S)
    (h1 : Absolute (slashes file) → s.fs (slashes file) = none)
    (h2 : ∀ d ∈ s.includeDirs, s.fs (slashes (d ++ [47] ++ slashes file)) = none)
    (hb : Blanks b) (hb1 : Blanks b1) (hb2 : Blanks b2) (hc : c = 32 ∨ c = 9) (hf : StringBody file) (hq : 34 ∉ file)
    (hlen : (34 :: file ++ [34] ++ b2).length ≤ 254) (hrest : AtEnd rest) :
    (knot (k + 2)).lineSec (b ++ 35 :: (w ++ c :: (b1 ++ (34 :: file ++ [34]) ++ b2 ++ rest))) s = .stop (.ub .nullDeref) s := by
  rw [import_reads k w hw b b1 file b2 rest c s hb hb1 hb2 hc hf hlen hrest, unquote_quoted file hq,
    fullPath_missing s _ (slashes_no92 _) h1 h2]
  rfl

/-- A state with a file of two bytes in the second include directory. -/
def importState : S :=
  { pc := 40000
    includeDirs := [b! "x", b! "."]
    fs := fun p => if p = b! "./a/b.bin" then some [1, 255] else none }

private theorem noBlanks : Blanks [] := by intro c hc; simp at hc

private theorem oneBlank : Blanks [32] := by intro c hc; simp at hc; omega

private theorem noString (t : Str) (h : 34 ∉ t ∧ 92 ∉ t) : StringBody t := by
  induction t with
  | nil => exact .nil
  | cons c t ih =>
    simp only [List.mem_cons, not_or] at h
    exact .char c t (Ne.symm h.1.1) (Ne.symm h.2.1) (ih ⟨h.1.2, h.2.2⟩)

example : (knot 9).lineSec (b! " #Import \"a\\b.bin\" ;two\n") importState =
    .ok (some (b! ";two\n")) { emitted [1, 255] importState with pc := 40002 } :=
  C47_import 7 (b! "Import") (by decide) [32] [] (b! "a\\b.bin") [32] (b! ";two\n") 32 importState [1, 255]
    (.relative [b! "x"] (b! ".") [] (fun _ => by decide +kernel) rfl (by decide +kernel) (by decide +kernel)) (by decide)
    oneBlank noBlanks oneBlank (.inl rfl) (.char _ _ (by decide) (by decide) (.escape _ _ (noString _ (by decide)))) (by decide)
    (by decide) (.inr ⟨59, _, rfl, by decide⟩) ⟨by decide, by decide⟩ (by decide)

example : (knot 9).lineSec (b! "#import \"c\"\n") importState = .stop (.ub .nullDeref) importState :=
  C47_missing_file 7 (b! "import") (by decide) [] [] (b! "c") [] (b! "\n") 32 importState (fun _ => by decide +kernel) (by decide +kernel)
    noBlanks noBlanks noBlanks (.inl rfl) (noString _ (by decide)) (by decide) (by decide) (.inr ⟨10, _, rfl, by decide⟩)

end Spasm.Props
