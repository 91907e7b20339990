import Verif.Lemmas.Named

/-
Data directives with names that stand for strings or for several operands (C73).
-/

namespace Spasm.Props
open Spasm Spec

/-- C73: a name as operand of a data directive stands for the operands in its text: its string, or all the numbers and
strings of the list, at the place of the name. The text may again contain such names. The address advances by the number
of bytes. Warnings are put on record exactly for numbers outside of texts that lose bits.

Missing for the full property: texts with parameters, labels that are not yet known, and the warnings for numbers in the
text of a list, which the program loses (`C73_fails_warning`). -/
theorem C73_named_partial (name : Str) (n : Nat) (hn : (name, n) ∈ dataDirectives) (k depth nest : Nat) (hd : nest + depth < 20) (hk : nest + depth + 1 < k)
    (pc : Nat) (args : List Str) (bs ws : List Nat) (b : Str) (c : Nat) (t rest : Str) (s : S)
    (h : Listed s.mode.ez80 (visibleLabel s) (visibleText s) depth n nest pc args bs ws) (hj : Joined args t)
    (hb : Blanks b) (hc : c = 32 ∨ c = 9) (hrest : AtEnd rest)
    (hpc : s.pc = pc ∧ pc < 4294967296) (hs : InSession s) (hroom : HasRoom bs.length s)
    (hmode : s.mode.normal = true ∨ s.mode.list = true) :
    ∃ depth' fwd spread, (knot (k + 2)).lineSec (b ++ name ++ c :: t ++ rest) s =
      .ok (some rest) (afterListed bs ws depth' fwd spread s) := by
  have hr : EndsList rest := by
    rcases hrest with rfl | ⟨c, r, rfl, h⟩
    · exact .inl rfl
    · exact .inr ⟨c, r, rfl, by omega⟩
  have hw : (esOf n).width = n ∧ 0 < n ∧ ∃ m, name = 46 :: m := by
    simp only [dataDirectives, List.mem_cons, List.not_mem_nil, or_false, Prod.mk.injEq] at hn
    rcases hn with h | h | h | h | h | h | h | h | h | h | h | h <;> obtain ⟨rfl, rfl⟩ := h <;> exact ⟨rfl, by decide, _, rfl⟩
  obtain ⟨hw, hn0, m, hm⟩ := hw
  obtain ⟨t', hj', hsk⟩ := joined_skip hj
  obtain ⟨d, f, sp, e⟩ := emitLoop_listed (esOf n) (by omega) depth (by rw [hw]; exact h) t' rest { s with emitLevel := s.emitLevel + 1 } k
    ((t' ++ rest).length + 2) true none hj' hr (by have := joined_length hj'; simp; omega)
    ⟨hs, hroom, hmode, by show 0 ≤ s.pc ∧ s.pc < _; omega⟩ rfl rfl (fun _ _ h => h) (by rw [← toI32_eq_asInt32]; show toI32 s.pc = _; rw [hpc.1]) hk hd
  refine ⟨d, f, sp, ?_⟩
  show lineSecBody (knot (k + 1)) _ s = _
  unfold lineSecBody
  have e1 : b ++ name ++ c :: t ++ rest = b ++ 46 :: (m ++ c :: (t ++ rest)) := by rw [hm]; simp
  have hlen : (b ++ 46 :: (m ++ c :: (t ++ rest))).length + 1 = (b ++ (m ++ c :: (t ++ rest))).length + 2 := by simp; omega
  have e2 := findDir_data (knot (k + 1)) (name, n) hn c (t ++ rest) hc
  rw [hm, List.cons_append] at e2
  have hbl : skipWs (c :: (t ++ rest)) = skipWs (t ++ rest) :=
    skipWs_blanks [c] _ (by intro x hx; simp at hx; subst hx; omega)
  rw [e1, hlen, lineSec_dot _ _ _ hb, e2, hbl, hsk]
  have e3 : (knot (k + 1)).emitString (t' ++ rest) (esOf n) s = .ok (rest, []) (afterListed bs ws d f sp s) :=
    emitStringBody_of_loop (esOf n) (by omega) (knot k) (t' ++ rest) rest bs ws d f sp s e
  rw [M.bind_ok e3]
  rfl

/-- A string, a list, and a list with another name in it. -/
example (label : Str → Option Int) : Listed false label
    (fun t => if t = b! "both" then some (b! "word, 7") else if t = b! "word" then some (b! "\"ab\",1") else if t = b! "text" then some (b! " \"c\"") else none)
    1 1 2 0 [b! "both", b! "2", b! "text"] [97, 98, 1, 7, 2, 99] [] := by
  have nb : Blanks [] := by intro c hc; simp at hc
  have sp : Blanks [32] := by intro c hc; simp at hc; omega
  have lit : ∀ pc text (c : Nat), 48 ≤ c → c ≤ 57 → Denotes pc label text 0 [c] (c - 48) := fun pc text c h1 h2 =>
    .one 0 _ _ (.plain 0 _ _ (.atom _ _ (atom_digit pc label c h1 h2)))
  have q : ∀ body : Str, StringBody body → Argument (34 :: body ++ [34]) := by
    intro body hb
    have := Balanced.string (delims := [44]) false body [] hb (.nil _)
    exact ⟨by simpa using this, by simp, by simp [White], by rw [List.getLast?_concat]; simp [White]⟩
  have digit : ∀ c : Nat, 48 ≤ c → c ≤ 57 → Argument [c] := by
    intro c h1 h2
    exact ⟨.char _ _ _ (by unfold Ordinary; omega) (by intro _; simp; omega) (.nil _), by simp, by simp [White]; omega, by simp [White]; omega⟩
  have none_is : ∀ (a : Str) (pc : Int) (text : Str → Option Str) (d : Nat) (v : Int), ¬ Denotes pc label text d (34 :: a) v := by
    intro a pc text d v hd
    obtain ⟨c, r, hc, hs⟩ := Denotes_start hd
    cases hc
    unfold Starter' Starter Alnum at hs
    omega
  have c1 : Chars (b! "ab") [97, 98] :=
    .char 97 _ _ (by decide) (by decide) (by decide) (by decide) (.char 98 _ _ (by decide) (by decide) (by decide) (by decide) .nil)
  have c2 : Chars (b! "c") [99] := .char 99 _ _ (by decide) (by decide) (by decide) (by decide) .nil
  have nm : ∀ t : Str, t = b! "word" ∨ t = b! "both" ∨ t = b! "text" → Name t := by
    intro t ht
    rcases ht with rfl | rfl | rfl <;> exact ⟨⟨_, _, rfl, by omega, by simp [NameChar, Alnum]⟩, by decide⟩
  refine .named 1 0 (b! "both") (b! "word, 7") [b! "word", b! "7"] [97, 98, 1, 7] [] _ [2, 99] [] (nm _ (by simp)) (by decide) ?_ (by intro a d v h; simp at h) ?_ ?_
  · exact .more [] (b! "word") [] [b! "7"] (b! " 7") nb nb ⟨(argument_name (nm _ (by simp)) [44] (by simp [NameChar, Alnum])).1, (argument_name (nm _ (by simp)) [44] (by simp [NameChar, Alnum])).2⟩ (by decide)
      (.one [32] (b! "7") [] sp nb (digit 55 (by omega) (by omega)) (by decide))
  · refine .named 0 0 (b! "word") (b! "\"ab\",1") [b! "\"ab\"", b! "1"] [97, 98, 1] [] _ [7] [] (nm _ (by simp)) (by decide) ?_ (by intro a d v h; simp at h) ?_ ?_
    · exact .more [] (b! "\"ab\"") [] [b! "1"] (b! "1") nb nb (q _ (chars_stringBody c1)) (by decide) (.one [] (b! "1") [] nb nb (digit 49 (by omega) (by omega)) (by decide))
    · exact .string _ _ _ _ _ _ _ c1 (.number _ _ 0 _ _ _ _ _ (lit _ _ 49 (by omega) (by omega)) (by omega) (.nil _ _))
    · exact .number _ _ 0 _ _ _ _ _ (lit _ _ 55 (by omega) (by omega)) (by omega) (.nil _ _)
  · refine .number _ _ 0 (b! "2") 2 [b! "text"] [99] [] (lit _ _ 50 (by omega) (by omega)) (by omega) ?_
    refine .named 1 _ (b! "text") (b! " \"c\"") [b! "\"c\""] [99] [] _ [] [] (nm _ (by simp)) (by decide) ?_ ?_ ?_ (.nil _ _)
    · exact .one [32] (b! "\"c\"") [] sp nb (q _ (chars_stringBody c2)) (by decide)
    · intro a d v h
      cases h
      exact none_is _ _ _ _ _
    · exact .string _ _ _ _ _ _ _ c2 (.nil _ _)

/-- The same operands in a run. -/
example : (asm (b! "#define text  \"c\"\n#define word \"ab\",1\n#define both word, 7\n .db both,2,text\n") [b! "a.asm"]).state.log =
    [.wrote (b! "a.bin") [97, 98, 1, 7, 2, 99]] := by decide +kernel

/-- C73 fails for the warnings: a number that loses bits is reported where it stands alone (and ends the run), but not in
a list behind a name. -/
theorem C73_fails_warning :
    (asm (b! " .db 1,300\n") [b! "a.asm"]).state.log = [.printed 0x800 true] ∧
    (asm (b! "#define list 1,300\n .db list\n") [b! "a.asm"]).state.log = [.wrote (b! "a.bin") [1, 44]] := by
  decide +kernel

/-- C73 fails for errors too: an operand that is no expression is an error where it stands alone; in a list behind a name
it is left out without a word, and the run succeeds. -/
theorem C73_fails_error :
    exitStatus (asm (b! " .db \"ab\",1+,5\n") [b! "a.asm"]) = some 3 ∧
    exitStatus (asm (b! "#define list \"ab\",1+,5\n .db list\n") [b! "a.asm"]) = some 0 ∧
    (asm (b! "#define list \"ab\",1+,5\n .db list\n") [b! "a.asm"]).state.log = [.wrote (b! "a.bin") [97, 98, 5]] := by
  decide +kernel

end Spasm.Props
