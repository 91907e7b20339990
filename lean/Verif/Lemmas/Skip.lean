import Verif.Lemmas.Program
import Verif.Lemmas.Define
import Verif.Spec.Cond

/-
Passing over statements: next_code_line, line_has_word and skip_until.
-/

namespace Spasm
open Spec Props

/-! ### next_code_line -/

theorem next_lone (delims : Str) (f : Nat) (con r : Str) (lvl : Int) (c d : Nat) (hc : c ≠ 34 ∧ c ≠ 39 ∧ c ≠ 92)
    (hd' : d ≠ 34 ∧ d ≠ 39 ∧ d ≠ 92) (h39 : 39 ∉ delims) :
    nextExprLoop delims (f + 3) ⟨con, 39 :: c :: d :: r, false, false, 0, lvl⟩ =
      nextExprLoop delims f ⟨39 :: con, c :: d :: r, false, false, 0, lvl⟩ := by
  rw [nextExprLoop]
  dsimp only
  rw [if_neg (by simp [isEnd, h39])]
  simp only [Bool.false_eq_true, if_false, beq_self_eq_true, if_true, Bool.not_false, Bool.and_self,
    show ((39 : Nat) == 34) = false from rfl]
  rw [nextExprLoop]
  dsimp only
  simp only [hc, beq_iff_eq, if_false, Nat.reduceSub, Nat.reduceEqDiff, Bool.and_false, Bool.false_eq_true]
  rw [nextExprLoop]
  dsimp only
  simp [hd']

theorem next_lone_end (delims : Str) (f : Nat) (con : Str) (lvl : Int) (c : Nat) (hc : c ≠ 34 ∧ c ≠ 39 ∧ c ≠ 92) (h39 : 39 ∉ delims) :
    (nextExprLoop delims (f + 3) ⟨con, [39, c], false, false, 0, lvl⟩).rest = [] := by
  rw [nextExprLoop]
  dsimp only
  rw [if_neg (by simp [isEnd, h39])]
  simp only [Bool.false_eq_true, if_false, beq_self_eq_true, if_true, Bool.not_false, Bool.and_self,
    show ((39 : Nat) == 34) = false from rfl]
  rw [nextExprLoop]
  dsimp only
  simp only [hc, beq_iff_eq, if_false, Nat.reduceSub, Nat.reduceEqDiff, Bool.and_false, Bool.false_eq_true]
  simp [nextExprLoop]

/-- The separators of statements. -/
abbrev seps : Str := [92, 59, 13, 10]

theorem next_code {t : Str} (h : CodeText t) : ∀ (f : Nat) (con r : Str) (lvl : Int), 3 * t.length ≤ f →
    ∃ f' con', f ≤ f' + 3 * t.length ∧
      nextExprLoop seps f ⟨con, t ++ r, false, false, 0, lvl⟩ = nextExprLoop seps f' ⟨con', r, false, false, 0, lvl⟩ := by
  induction h with
  | nil => intro f con r lvl hf; exact ⟨f, con, by simp, rfl⟩
  | char c t hc _ ih =>
    intro f con r lvl hf
    simp only [List.length_cons] at hf ⊢
    obtain ⟨f, rfl⟩ : ∃ m, f = m + 1 := ⟨f - 1, by omega⟩
    obtain ⟨f', con', h1, h2⟩ := ih f (c :: con) r lvl (by omega)
    refine ⟨f', con', by omega, ?_⟩
    rw [List.cons_append, next_char seps f con (t ++ r) lvl c (by omega) (by simp; omega), h2]
  | quoted c t hc _ ih =>
    intro f con r lvl hf
    simp only [List.length_cons] at hf ⊢
    obtain ⟨f, rfl⟩ : ∃ m, f = m + 3 := ⟨f - 3, by omega⟩
    obtain ⟨f', con', h1, h2⟩ := ih f (39 :: c :: 39 :: con) r lvl (by omega)
    refine ⟨f', con', by omega, ?_⟩
    simp only [List.cons_append]
    rw [next_quoted seps f con _ lvl c hc.1 (by decide), h2]
  | escaped c t hc _ ih =>
    intro f con r lvl hf
    simp only [List.length_cons] at hf ⊢
    obtain ⟨f, rfl⟩ : ∃ m, f = m + 4 := ⟨f - 4, by omega⟩
    obtain ⟨f', con', h1, h2⟩ := ih f (39 :: c :: 92 :: 39 :: con) r lvl (by omega)
    refine ⟨f', con', by omega, ?_⟩
    simp only [List.cons_append]
    rw [next_escaped seps f con _ lvl c (by decide), h2]
  | string b t hb _ _ ih =>
    intro f con r lvl hf
    simp only [List.length_cons, List.length_append] at hf ⊢
    obtain ⟨f', con', h1, h2⟩ := ih (f - (b.length + 2)) ((34 :: b ++ [34]).reverse ++ con) r lvl (by omega)
    refine ⟨f', con', by omega, ?_⟩
    rw [show 34 :: b ++ 34 :: t ++ r = 34 :: b ++ 34 :: (t ++ r) by simp, next_string seps f b con _ lvl hb (by decide) (by omega), h2]
  | lone c d t hc hd' _ ih =>
    intro f con r lvl hf
    simp only [List.length_cons] at hf ⊢ ih
    obtain ⟨f, rfl⟩ : ∃ m, f = m + 3 := ⟨f - 3, by omega⟩
    obtain ⟨f', con', h1, h2⟩ := ih f (39 :: con) r lvl (by omega)
    refine ⟨f', con', by omega, ?_⟩
    simp only [List.cons_append] at h2 ⊢
    rw [next_lone seps f con _ lvl c d (by omega) hd' (by decide), h2]

theorem Spec.CodeText.start {c : Nat} {t : Str} (h : CodeText (c :: t)) : c ≠ 10 ∧ c ≠ 13 ∧ c ≠ 59 ∧ c ≠ 92 := by
  cases h <;> omega

theorem Spec.CodeText.skipWs {t : Str} (h : CodeText t) : CodeText (skipWs t) := by
  induction h with
  | nil => exact .nil
  | char c t hc h ih =>
    by_cases hb : isBlank c = true
    · have : Spasm.skipWs (c :: t) = Spasm.skipWs t := by unfold Spasm.skipWs; rw [List.dropWhile_cons, if_pos hb]
      rw [this]; exact ih
    · rw [skipWs_cons c t (by simpa using hb)]; exact .char c t hc h
  | quoted c t hc h ih => rw [skipWs_cons _ _ rfl]; exact .quoted c t hc h
  | escaped c t hc h ih => rw [skipWs_cons _ _ rfl]; exact .escaped c t hc h
  | string b t hb hn h ih => rw [List.cons_append, skipWs_cons _ _ rfl]; exact .string b t hb hn h
  | lone c d t hc hd' h ih => rw [skipWs_cons _ _ rfl]; exact .lone c d t hc hd' h

theorem blanks_code {b : Str} (h : Blanks b) {t : Str} (ht : CodeText t) : CodeText (b ++ t) := by
  induction b with
  | nil => exact ht
  | cons c b ih =>
    have := h c (by simp)
    exact .char c _ (by omega) (ih (fun x hx => h x (by simp [hx])))

/-- From the start of a statement to what follows it. -/
theorem nextExpr_code {t : Str} (h : CodeText t) (h41 : ¬ Begins [41] t) (r : Str) (hr : AtEnd r) : nextExpr seps (t ++ r) = r := by
  unfold nextExpr
  rw [skipWs_append t r hr]
  obtain ⟨bl, e1, e2, -⟩ := skipWs_split t
  have hc := h.skipWs
  generalize hu : skipWs t = u at *
  cases u with
  | nil => simp [hr.isEnd]
  | cons c u =>
    have h1 := hc.start
    have h2 : c ≠ 41 := by
      rintro rfl
      exact h41 ⟨bl, [41], u, by rw [e1]; simp, e2, rfl⟩
    dsimp only
    rw [if_neg (by simp [isEnd, h1, h2])]
    obtain ⟨f', con', h3, h4⟩ := next_code hc (3 * (c :: u ++ r).length + 3) [] r 0 (by simp; omega)
    rw [h4]
    obtain ⟨f', rfl⟩ : ∃ m, f' = m + 1 := ⟨f' - 1, by simp at h3; omega⟩
    exact next_stop seps f' con' r 0 (.inl hr.isEnd)

/-- The text behind a separator. -/
def afterSep (r : Str) : Str := if hd r == 59 then skipToNextLine r else dropChar 10 (dropChar 13 (dropChar 92 r))

theorem nextCodeLine_code {t : Str} (h : CodeText t) (h41 : ¬ Begins [41] t) (r : Str) (hr : AtEnd r) : nextCodeLine (t ++ r) = afterSep r := by
  unfold nextCodeLine
  rw [nextExpr_code h h41 r hr]
  rfl

theorem newLine_end {nl : Str} (h : NewLine nl) (r : Str) : AtEnd (nl ++ r) := by
  rcases h with rfl | rfl
  · exact .inr ⟨10, r, rfl, by omega⟩
  · exact .inr ⟨13, 10 :: r, rfl, by omega⟩

theorem comment_end {com nl : Str} (hc : Comment com) (h : NewLine nl) (r : Str) : AtEnd (com ++ nl ++ r) := by
  rcases hc with rfl | ⟨x, rfl, -⟩
  · exact newLine_end h r
  · exact .inr ⟨59, _, rfl, by omega⟩

theorem afterSep_newline {com nl : Str} (hc : Comment com) (h : NewLine nl) (r : Str) : afterSep (com ++ nl ++ r) = r := by
  rcases hc with rfl | ⟨x, rfl, hx⟩
  · rcases h with rfl | rfl <;> rfl
  · unfold afterSep
    rw [if_pos (by rfl), skip_comment _ r (.inr ⟨x, rfl, hx⟩) nl h]

theorem afterSep_backslash (r : Str) (h : ∀ c ∈ r.head?, c ≠ 10 ∧ c ≠ 13) : afterSep (92 :: r) = r := by
  unfold afterSep
  rw [if_neg (by simp)]
  cases r with
  | nil => rfl
  | cons c r =>
    have := h c rfl
    simp [dropChar, this]

theorem lone_begins {t b : Str} {w : Str} (hw : ∀ c ∈ w, c ≠ 39) (h : Begins w (t ++ 39 :: b)) : Begins w t := by
  obtain ⟨b', w', r, e1, e2, e3⟩ := h
  have h39 : 39 ∉ b' ++ w' := by
    intro hm
    rcases List.mem_append.1 hm with hm | hm
    · have := e2 39 hm; omega
    · have : upperCase 39 ∈ w.map upperCase := by rw [← e3]; exact List.mem_map_of_mem hm
      obtain ⟨y, hy, e⟩ := List.mem_map.1 this
      have := hw y hy
      unfold upperCase at e
      split at e <;> split at e <;> omega
  rcases List.append_eq_append_iff.1 e1 with ⟨as, h1, h2⟩ | ⟨bs, h1, h2⟩
  · cases as with
    | nil => exact ⟨b', w', [], by simpa using h1.symm, e2, e3⟩
    | cons x as =>
      simp only [List.cons_append, List.cons.injEq] at h2
      exfalso; apply h39; rw [h1, ← h2.1]; simp
  · exact ⟨b', w', bs, h1, e2, e3⟩

/-- A statement that ends with a lone apostrophe. -/
theorem nextCodeLine_lone {t b com nl : Str} (h : CodeText t) (h41 : ¬ Begins [41] t) (hb : Blanks b) (hc : Comment com)
    (hbc : b = [] → com = []) (hnl : NewLine nl) (r : Str) (hr : ∀ c ∈ r.head?, c ≠ 34 ∧ c ≠ 39 ∧ c ≠ 92) :
    nextCodeLine (t ++ 39 :: b ++ com ++ nl ++ r) = r := by
  by_cases hbe : b = []
  · subst hbe
    obtain rfl := hbc rfl
    unfold nextCodeLine nextExpr
    have e0 : t ++ [39] ++ [] ++ nl ++ r = t ++ 39 :: (nl ++ r) := by simp
    rw [e0]
    have e1 : skipWs (t ++ 39 :: (nl ++ r)) = skipWs t ++ 39 :: (nl ++ r) := by
      obtain ⟨bl, e1, e2, e3⟩ := skipWs_split t
      conv_lhs => rw [e1, List.append_assoc, skipWs_blanks bl _ e2]
      cases hu : skipWs t with
      | nil => exact skipWs_cons _ _ rfl
      | cons c u => exact skipWs_cons _ _ (e3 c (by rw [hu]; rfl))
    rw [e1]
    obtain ⟨bl, e1, e2, -⟩ := skipWs_split t
    have hcs := h.skipWs
    generalize hu : skipWs t = u at *
    dsimp only
    have hne : (isEnd (u ++ 39 :: (nl ++ r)) || hd (u ++ 39 :: (nl ++ r)) == 41) = false := by
      cases u with
      | nil => rfl
      | cons c u =>
        have h1 := hcs.start
        have h2 : c ≠ 41 := by
          rintro rfl
          exact h41 ⟨bl, [41], u, by rw [e1]; simp, e2, rfl⟩
        simp [isEnd, h1, h2]
    rw [hne]
    simp only [Bool.false_eq_true, if_false]
    obtain ⟨f', con', h3, h4⟩ := next_code hcs (3 * (u ++ 39 :: (nl ++ r)).length + 3) [] (39 :: (nl ++ r)) 0 (by simp; omega)
    simp only [List.length_append, List.length_cons] at h3
    obtain ⟨f', rfl⟩ : ∃ m, f' = m + 4 := ⟨f' - 4, by omega⟩
    rw [show ([92, 59, 13, 10] : Str) = seps from rfl, h4]
    rcases hnl with rfl | rfl
    · cases r with
      | nil =>
        rw [show 39 :: ([10] ++ ([] : Str)) = [39, 10] from rfl, show f' + 4 = (f' + 1) + 3 by omega,
          next_lone_end seps (f' + 1) con' 0 10 (by decide) (by decide)]
        rfl
      | cons c r =>
        have := hr c rfl
        rw [show 39 :: ([10] ++ c :: r) = 39 :: 10 :: c :: r from rfl, show f' + 4 = (f' + 1) + 3 by omega,
          next_lone seps (f' + 1) con' r 0 10 c (by decide) this (by decide), next_stop seps f' _ _ 0 (.inl rfl)]
        rfl
    · rw [show 39 :: ([13, 10] ++ r) = 39 :: 13 :: 10 :: r from rfl, show f' + 4 = (f' + 1) + 3 by omega,
        next_lone seps (f' + 1) con' r 0 13 10 (by decide) (by decide) (by decide), next_stop seps f' _ _ 0 (.inl rfl)]
      rfl
  · obtain ⟨x, b, rfl⟩ := List.exists_cons_of_ne_nil hbe
    have hx := hb x (by simp)
    have e0 : t ++ 39 :: (x :: b) ++ com ++ nl ++ r = t ++ 39 :: x :: (b ++ (com ++ nl ++ r)) := by simp
    rw [e0]
    unfold nextCodeLine nextExpr
    generalize hR : com ++ nl ++ r = R
    have hRE : AtEnd R := hR ▸ comment_end hc hnl r
    have e1 : skipWs (t ++ 39 :: x :: (b ++ R)) = skipWs t ++ 39 :: x :: (b ++ R) := by
      obtain ⟨bl, e1, e2, e3⟩ := skipWs_split t
      conv_lhs => rw [e1, List.append_assoc, skipWs_blanks bl _ e2]
      cases hu : skipWs t with
      | nil => exact skipWs_cons _ _ rfl
      | cons c u => exact skipWs_cons _ _ (e3 c (by rw [hu]; rfl))
    rw [e1]
    obtain ⟨bl, e1, e2, -⟩ := skipWs_split t
    have hcs := h.skipWs
    generalize hu : skipWs t = u at *
    dsimp only
    have hne : (isEnd (u ++ 39 :: x :: (b ++ R)) || hd (u ++ 39 :: x :: (b ++ R)) == 41) = false := by
      cases u with
      | nil => rfl
      | cons c u =>
        have h1 := hcs.start
        have h2 : c ≠ 41 := by
          rintro rfl
          exact h41 ⟨bl, [41], u, by rw [e1]; simp, e2, rfl⟩
        simp [isEnd, h1, h2]
    rw [hne]
    simp only [Bool.false_eq_true, if_false]
    obtain ⟨f', con', h3, h4⟩ := next_code hcs (3 * (u ++ 39 :: x :: (b ++ R)).length + 3) [] (39 :: x :: (b ++ R)) 0 (by simp; omega)
    simp only [List.length_append, List.length_cons] at h3
    obtain ⟨f', rfl⟩ : ∃ m, f' = m + 3 := ⟨f' - 3, by omega⟩
    rw [show ([92, 59, 13, 10] : Str) = seps from rfl, h4]
    have hlone : nextExprLoop seps (f' + 3) ⟨con', 39 :: x :: (b ++ R), false, false, 0, 0⟩ =
        nextExprLoop seps f' ⟨39 :: con', x :: (b ++ R), false, false, 0, 0⟩ := by
      cases b with
      | nil =>
        have hR0 : ∃ y R', R = y :: R' ∧ y ≠ 34 ∧ y ≠ 39 ∧ y ≠ 92 := by
          rw [← hR]
          rcases hc with rfl | ⟨z, rfl, -⟩
          · rcases hnl with rfl | rfl
            · exact ⟨10, _, rfl, by decide⟩
            · exact ⟨13, _, rfl, by decide⟩
          · exact ⟨59, _, rfl, by decide⟩
        obtain ⟨y, R', e, hy⟩ := hR0
        rw [e]
        exact next_lone seps f' con' R' 0 x y (by omega) hy (by decide)
      | cons y b =>
        have := hb y (by simp)
        exact next_lone seps f' con' (b ++ R) 0 x y (by omega) (by omega) (by decide)
    rw [hlone]
    obtain ⟨f2, con2, h5, h6⟩ := next_code (blanks_code hb (CodeText.nil)) f' (39 :: con') R 0 (by simp; omega)
    simp only [List.append_nil, List.length_cons, List.cons_append] at h5 h6
    rw [h6]
    obtain ⟨f2, rfl⟩ : ∃ m, f2 = m + 1 := ⟨f2 - 1, by omega⟩
    rw [next_stop seps f2 con2 R 0 (.inl hRE.isEnd)]
    show afterSep R = r
    rw [← hR]
    exact afterSep_newline hc hnl r

/-! ### line_has_word -/

theorem eqCaseN_take (w : Str) : ∀ s : Str, w.length ≤ s.length → (eqCaseN s w w.length = true ↔ SameText (s.take w.length) w) := by
  induction w with
  | nil => intro s _; simp [eqCaseN, SameText]
  | cons c w ih =>
    intro s hs
    cases s with
    | nil => simp at hs
    | cons x s =>
      have h1 := ih s (by simpa using hs)
      have h2 := toLower_upper x c
      simp only [bne_eq_false_iff_eq] at h2
      unfold SameText at *
      simp only [List.length_cons, eqCaseN, Bool.and_eq_true, beq_iff_eq, List.take_succ_cons, List.map_cons, List.cons.injEq]
      rw [h1, h2]

/-- A word that can be looked for: it starts with a visible character and contains no separators. -/
def Sought (w : Str) : Prop := (∃ c r, w = c :: r ∧ isBlank (upperCase c) = false) ∧ ∀ c ∈ w, upperCase c ≠ 10 ∧ upperCase c ≠ 13 ∧ upperCase c ≠ 59 ∧ upperCase c ≠ 92

instance (w : Str) : Decidable (∃ c r, w = c :: r ∧ isBlank (upperCase c) = false) :=
  match w with
  | [] => isFalse (by simp)
  | c :: r => decidable_of_iff (isBlank (upperCase c) = false) (by simp)

instance (w : Str) : Decidable (Sought w) := by unfold Sought; infer_instance

theorem isBlank_upper {c d : Nat} (h : upperCase c = upperCase d) (hd' : isBlank (upperCase d) = false) : isBlank c = false := by
  rw [← h] at hd'
  rw [← Bool.not_eq_true, isBlank_iff] at *
  unfold upperCase at hd'
  split at hd' <;> omega

theorem lineHasWord_true {w t : Str} (hw : Sought w) (h : Begins w t) (r : Str) : lineHasWord (t ++ r) w = true := by
  obtain ⟨b, w', x, rfl, hb, e⟩ := h
  obtain ⟨⟨c, w0, rfl, hc⟩, -⟩ := hw
  have hl : w'.length = (c :: w0).length := by
    have := congrArg List.length e
    simpa using this
  cases w' with
  | nil => simp at hl
  | cons d w1 =>
    unfold lineHasWord
    simp only [List.append_assoc]
    rw [skipWs_blanks b _ hb, List.cons_append, skipWs_cons]
    · rw [Bool.and_eq_true, eqCaseN_take]
      · refine ⟨by simp at hl ⊢; omega, ?_⟩
        rw [← hl, ← List.cons_append, List.take_left']
        · exact e
        · rfl
      · simp at hl ⊢; omega
    · unfold SameText at e
      simp only [List.map_cons, List.cons.injEq] at e
      exact isBlank_upper e.1 hc

theorem lineHasWord_false {w t : Str} (hw : Sought w) (h : ¬ Begins w t) (r : Str) (hr : AtEnd r) : lineHasWord (t ++ r) w = false := by
  rw [← Bool.not_eq_true]
  intro hl
  unfold lineHasWord at hl
  rw [skipWs_append t r hr] at hl
  dsimp only at hl
  rw [Bool.and_eq_true] at hl
  obtain ⟨h1, h2⟩ := hl
  rw [decide_eq_true_eq] at h1
  rw [eqCaseN_take w _ h1] at h2
  obtain ⟨bl, e1, e2, -⟩ := skipWs_split t
  generalize skipWs t = u at *
  apply h
  by_cases hlen : w.length ≤ u.length
  · refine ⟨bl, u.take w.length, u.drop w.length, by rw [List.append_assoc, List.take_append_drop]; exact e1, e2, ?_⟩
    rwa [List.take_append_of_le_length hlen] at h2
  · exfalso
    rcases hr with rfl | ⟨c, r, rfl, hc⟩
    · simp at h1; omega
    · have hm : c ∈ (u ++ c :: r).take w.length := by
        rw [List.take_append, show w.length - u.length = (w.length - u.length - 1) + 1 by omega, List.take_succ_cons]
        simp
      have : upperCase c ∈ w.map upperCase := by rw [← h2]; exact List.mem_map_of_mem hm
      obtain ⟨y, hy, e⟩ := List.mem_map.1 this
      have := hw.2 y hy
      rw [e] at this
      unfold upperCase at this
      split at this <;> omega

theorem begins_congr {w w' t : Str} (h : SameText w w') : Begins w t ↔ Begins w' t := by
  unfold SameText at h
  constructor <;> rintro ⟨b, x, r, e1, e2, e3⟩ <;> refine ⟨b, x, r, e1, e2, ?_⟩ <;> unfold SameText at * <;> rw [e3]
  · exact h
  · exact h.symm

theorem begins_skip {w t : Str} (hw : Sought w) (h : Begins w t) : ∃ x r, skipWs t = x ++ r ∧ SameText x w := by
  obtain ⟨b, x, r, rfl, e2, e3⟩ := h
  refine ⟨x, r, ?_, e3⟩
  rw [List.append_assoc, skipWs_blanks b _ e2]
  obtain ⟨⟨c, w0, rfl, hc⟩, -⟩ := hw
  unfold SameText at e3
  cases x with
  | nil => simp at e3
  | cons d x =>
    simp only [List.map_cons, List.cons.injEq] at e3
    exact skipWs_cons _ _ (isBlank_upper e3.1 hc)

/-- A text cannot start with two words of which neither is the beginning of the other. -/
theorem begins_apart {w w' t : Str} (hw : Sought w) (hw' : Sought w') (h : Begins w t) (h' : Begins w' t)
    (hne : (w.map upperCase).take (min w.length w'.length) ≠ (w'.map upperCase).take (min w.length w'.length)) : False := by
  obtain ⟨x, r, e1, e2⟩ := begins_skip hw h
  obtain ⟨x', r', e3, e4⟩ := begins_skip hw' h'
  rw [e1] at e3
  unfold SameText at *
  have l1 : x.length = w.length := by simpa using congrArg List.length e2
  have l2 : x'.length = w'.length := by simpa using congrArg List.length e4
  apply hne
  rw [← e2, ← e4, ← l1, ← l2, ← List.map_take, ← List.map_take]
  have h1 : x.take (min x.length x'.length) = (x ++ r).take (min x.length x'.length) := (List.take_append_of_le_length (by omega)).symm
  have h2 : x'.take (min x.length x'.length) = (x' ++ r').take (min x.length x'.length) := (List.take_append_of_le_length (by omega)).symm
  rw [h1, h2, e3]

/-! ### skip_until -/

/-- The rest of a physical line and the lines behind it, in skip_until. -/
def scanFrom (words : List Str) (F f u level : Nat) (n : Int) (cur : Str) : M (Str × Int) := do
  match ← skipLine words (skipToNextLine cur).length u level cur with
  | .found line => pure (line, n)
  | .next level => skipLoop F words f level (n + 1) (skipToNextLine cur)

theorem skipLoop_scan (words : List Str) (F f level : Nat) (n : Int) (cur : Str) (st : S) (hne : cur ≠ []) (hg : st.errOccurred = false) :
    skipLoop F words (f + 1) level n cur st = scanFrom words F f F level n cur st := by
  rw [skipLoop, M.get_bind, hg]
  cases cur with
  | nil => exact absurd rfl hne
  | cons c cur => rfl

/-- The level behind a statement. -/
inductive StepLevel (words : List Str) (t : Str) : Nat → Nat → Prop
  | opens (n) : Begins (b! "#if") t → StepLevel words t n (n + 1)
  | closes (n) : Begins (b! "#endif") t → StepLevel words t (n + 1) n
  | other (n) : ¬ Begins (b! "#if") t → ¬ Begins (b! "#endif") t → (n = 0 → ∀ w ∈ words, ¬ Begins w t) → StepLevel words t n n

theorem skipLine_step (words : List Str) (hW : ∀ w ∈ words, Sought w) (L u n n' : Nat) (t r : Str) (hr : AtEnd r) (h : StepLevel words t n n') (st : S) :
    skipLine words L (u + 1) n (t ++ r) st =
      if (nextCodeLine (t ++ r)).length > L then skipLine words L u n' (nextCodeLine (t ++ r)) st else .ok (.next n') st := by
  have sIf : Sought (b! "#IF") := by decide
  have sEnd : Sought (b! "#ENDIF") := by decide
  have cIf : ∀ x, Begins (b! "#if") x ↔ Begins (b! "#IF") x := fun x => begins_congr (by decide)
  have cEnd : ∀ x, Begins (b! "#endif") x ↔ Begins (b! "#ENDIF") x := fun x => begins_congr (by decide)
  rw [skipLine]
  generalize nextCodeLine (t ++ r) = next
  have fin : ∀ m : Nat, (if next.length > L then skipLine words L u m next else pure (.next m)) st =
      if next.length > L then skipLine words L u m next st else .ok (.next m) st := by
    intro m; split <;> rfl
  cases h with
  | opens _ h =>
    rw [lineHasWord_true sIf ((cIf _).1 h) r]
    exact fin (n + 1)
  | closes _ h =>
    have hnot : ¬ Begins (b! "#IF") t := fun h' => begins_apart sEnd sIf ((cEnd _).1 h) h' (by decide)
    rw [lineHasWord_false sIf hnot r hr, lineHasWord_true sEnd ((cEnd _).1 h) r]
    simp only [gt_iff_lt, Nat.zero_lt_succ, decide_true, Bool.and_self, Bool.not_false, Bool.not_true, Bool.and_false, Bool.false_and,
      Bool.false_eq_true, if_false, if_true, Nat.add_sub_cancel]
    exact fin n'
  | other _ h1 h2 h3 =>
    rw [lineHasWord_false sIf (fun h => h1 ((cIf _).2 h)) r hr, lineHasWord_false sEnd (fun h => h2 ((cEnd _).2 h)) r hr]
    have hany : (n == 0 && words.any (fun w => lineHasWord (t ++ r) w)) = false := by
      by_cases h0 : n = 0
      · subst h0
        simp only [beq_self_eq_true, Bool.true_and]
        rw [List.any_eq_false]
        intro w hw
        rw [lineHasWord_false (hW w hw) (h3 rfl w hw) r hr]
        decide
      · simp [h0]
    simp only [Bool.and_false, Bool.not_false, Bool.true_and, hany, Bool.false_eq_true, if_false]
    exact fin n

theorem nesting_cons {words : List Str} {n m : Nat} {t : Str} {sts : List Str} (h : Nesting words n (t :: sts) m) :
    ∃ n', StepLevel words t n n' ∧ Nesting words n' sts m := by
  cases h with
  | opens _ _ _ _ h h' => exact ⟨_, .opens n h, h'⟩
  | closes n _ _ _ h h' => exact ⟨_, .closes n h, h'⟩
  | other _ _ _ _ h1 h2 h3 h' => exact ⟨_, .other n h1 h2 h3, h'⟩

/-! ### Line ends in a text -/

theorem CodeText_plain {t : Str} (h : CodeText t) : ∀ c ∈ t, c ≠ 10 ∧ c ≠ 13 := by
  induction h with
  | nil => simp
  | char c t hc _ ih => intro x hx; rcases List.mem_cons.1 hx with rfl | hx; · omega
                        · exact ih x hx
  | quoted c t hc _ ih => intro x hx; simp only [List.mem_cons] at hx; rcases hx with rfl | rfl | rfl | hx
                          · decide
                          · exact hc.2
                          · decide
                          · exact ih x hx
  | escaped c t hc _ ih => intro x hx; simp only [List.mem_cons] at hx; rcases hx with rfl | rfl | rfl | rfl | hx
                           · decide
                           · decide
                           · exact hc
                           · decide
                           · exact ih x hx
  | string b t _ hb _ ih =>
    intro x hx; simp only [List.mem_cons, List.mem_append, List.cons_append] at hx; rcases hx with rfl | hx | rfl | hx
    · decide
    · exact hb x hx
    · decide
    · exact ih x hx
  | lone c d t _ _ _ ih => intro x hx; rcases List.mem_cons.1 hx with rfl | hx; · decide
                           · exact ih x hx

theorem skipToNextLine_plain {t r : Str} (h : ∀ c ∈ t, c ≠ 10 ∧ c ≠ 13) : skipToNextLine (t ++ r) = skipToNextLine r := by
  unfold skipToNextLine
  rw [List.dropWhile_append_of_pos (fun c hc => by simp [h c hc])]

theorem skipToNextLine_newline {nl : Str} (h : NewLine nl) (r : Str) : skipToNextLine (nl ++ r) = r := by
  rcases h with rfl | rfl <;> rfl

theorem skipToNextLine_length (c : Nat) (t : Str) : (skipToNextLine (c :: t)).length < (c :: t).length := by
  unfold skipToNextLine
  have h : ∀ x (s : Str), (dropChar x s).length ≤ s.length := by
    intro x s; unfold dropChar; split
    · cases s <;> simp
    · exact Nat.le_refl _
  rw [List.dropWhile_cons]
  split
  · refine Nat.lt_of_le_of_lt (h _ _) (Nat.lt_of_le_of_lt (h _ _) (Nat.lt_of_le_of_lt (List.dropWhile_sublist _).length_le ?_))
    simp
  · rename_i hc
    by_cases h13 : c = 13
    · subst h13
      refine Nat.lt_of_le_of_lt (h _ _) ?_
      simp [dropChar]
    · have h10 : c = 10 := by simp at hc; omega
      subst h10
      simp [dropChar]

theorem comment_ne {com : Str} (hc : Comment com) : ∀ c ∈ com, c ≠ 10 ∧ c ≠ 13 := by
  intro c h
  have := comment_plain hc c h
  simpa using this

theorem count_plain {t : Str} (h : ∀ c ∈ t, c ≠ 10 ∧ c ≠ 13) : t.count 10 = 0 :=
  List.count_eq_zero.2 (fun hm => (h 10 hm).1 rfl)

theorem count_newline {nl : Str} (h : NewLine nl) : nl.count 10 = 1 := by rcases h with rfl | rfl <;> rfl

theorem newLine_pos {nl : Str} (h : NewLine nl) : 0 < nl.length := by rcases h with rfl | rfl <;> decide

/-- The state of the search in front of `cur`: the search is done with a line or not, there is enough fuel. -/
theorem scanFrom_lines (words : List Str) (hW : ∀ w ∈ words, Sought w) (F : Nat) (st : S) (hg : st.errOccurred = false) (R : Str) (hR : R ≠ [])
    (hR' : ∀ c ∈ R.head?, c ≠ 34 ∧ c ≠ 39 ∧ c ≠ 92 ∧ c ≠ 10 ∧ c ≠ 13) {sts : List Str} {text : Str} (hl : Lines sts text) :
    ∀ {n m : Nat}, Nesting words n sts m → ∀ (f u : Nat) (num : Int), (text ++ R).length < u → (text ++ R).length ≤ f → (text ++ R).length < F →
    ∃ f' u', R.length < u' ∧ R.length ≤ f' ∧
      scanFrom words F f u n num (text ++ R) st = scanFrom words F f' u' m (num + (text.count 10 : Nat)) R st := by
  induction hl with
  | nil =>
    intro n m hN f u num hu hf hF
    cases hN
    exact ⟨f, u, by simpa using hu, by simpa using hf, by simp⟩
  | backslash t sts text hc h41 hl hh ih =>
    intro n m hN f u num hu hf hF
    obtain ⟨n', h1, h2⟩ := nesting_cons hN
    obtain ⟨u, rfl⟩ : ∃ v, u = v + 1 := ⟨u - 1, by omega⟩
    simp only [List.length_append, List.length_cons] at hu hf hF
    obtain ⟨f', u', b1, b2, e⟩ := ih h2 f u num (by simp; omega) (by simp; omega) (by simp; omega)
    refine ⟨f', u', b1, b2, ?_⟩
    have e0 : t ++ 92 :: text ++ R = t ++ 92 :: (text ++ R) := by simp
    have e1 : nextCodeLine (t ++ 92 :: (text ++ R)) = text ++ R := by
      rw [nextCodeLine_code hc h41 _ (.inr ⟨92, _, rfl, by omega⟩), afterSep_backslash]
      intro c hx
      cases text with
      | nil => have := hR' c (by simpa using hx); omega
      | cons d text => exact hh c (by simpa using hx)
    have e2 : skipToNextLine (t ++ 92 :: (text ++ R)) = skipToNextLine (text ++ R) := by
      rw [skipToNextLine_plain (CodeText_plain hc)]
      exact skipToNextLine_plain (t := [92]) (by simp)
    have e3 : (skipToNextLine (text ++ R)).length < (text ++ R).length := by
      cases hx : text ++ R with
      | nil => exact absurd (List.append_eq_nil_iff.1 hx).2 hR
      | cons c x => exact skipToNextLine_length c x
    rw [e0]
    unfold scanFrom at e ⊢
    rw [e2]
    rw [show (t ++ 92 :: text).count 10 = text.count 10 by
      rw [List.count_append, count_plain (CodeText_plain hc), List.count_cons]; simp]
    rw [← e]
    have := skipLine_step words hW (skipToNextLine (text ++ R)).length u n n' t (92 :: (text ++ R)) (.inr ⟨92, _, rfl, by omega⟩) h1 st
    rw [e1, if_pos e3] at this
    show (skipLine words _ (u + 1) n _ >>= _) st = (skipLine words _ u n' _ >>= _) st
    simp only [M.bind_apply, this]
  | newline t com nl sts text hc h41 hcom hnl hl ih =>
    intro n m hN f u num hu hf hF
    obtain ⟨n', h1, h2⟩ := nesting_cons hN
    obtain ⟨u, rfl⟩ : ∃ v, u = v + 1 := ⟨u - 1, by omega⟩
    have := newLine_pos hnl
    simp only [List.length_append] at hu hf hF
    obtain ⟨f, rfl⟩ : ∃ v, f = v + 1 := ⟨f - 1, by omega⟩
    obtain ⟨f', u', b1, b2, e⟩ := ih h2 f F (num + 1) (by simp; omega) (by simp; omega) (by simp; omega)
    refine ⟨f', u', b1, b2, ?_⟩
    have e0 : t ++ com ++ nl ++ text ++ R = t ++ (com ++ nl ++ (text ++ R)) := by simp
    have e1 : nextCodeLine (t ++ (com ++ nl ++ (text ++ R))) = text ++ R := by
      rw [nextCodeLine_code hc h41 _ (comment_end hcom hnl _), afterSep_newline hcom hnl]
    have e2 : skipToNextLine (t ++ (com ++ nl ++ (text ++ R))) = text ++ R := by
      rw [skipToNextLine_plain (CodeText_plain hc), skip_comment com _ hcom nl hnl]
    have hne : text ++ R ≠ [] := fun hx => hR (List.append_eq_nil_iff.1 hx).2
    rw [e0]
    rw [show num + ((t ++ com ++ nl ++ text).count 10 : Nat) = num + 1 + (text.count 10 : Nat) by
      rw [List.count_append, List.count_append, List.count_append, count_plain (CodeText_plain hc), count_plain (comment_ne hcom), count_newline hnl]
      omega, ← e]
    have := skipLine_step words hW (text ++ R).length u n n' t _ (comment_end hcom hnl (text ++ R)) h1 st
    rw [e1, if_neg (by omega)] at this
    conv_lhs => unfold scanFrom
    rw [e2, M.bind_ok this]
    exact skipLoop_scan words F f n' (num + 1) (text ++ R) st hne hg
  | apostrophe t b com nl sts text hc h41 hb hcom hbc hnl hl hh ih =>
    intro n m hN f u num hu hf hF
    obtain ⟨n', h1, h2⟩ := nesting_cons hN
    obtain ⟨u, rfl⟩ : ∃ v, u = v + 1 := ⟨u - 1, by omega⟩
    have := newLine_pos hnl
    simp only [List.length_append, List.length_cons] at hu hf hF
    obtain ⟨f, rfl⟩ : ∃ v, f = v + 1 := ⟨f - 1, by omega⟩
    obtain ⟨f', u', b1, b2, e⟩ := ih h2 f F (num + 1) (by simp; omega) (by simp; omega) (by simp; omega)
    refine ⟨f', u', b1, b2, ?_⟩
    have e0 : t ++ 39 :: b ++ com ++ nl ++ text ++ R = (t ++ 39 :: b) ++ (com ++ nl ++ (text ++ R)) := by simp
    have hp : ∀ c ∈ t ++ 39 :: b, c ≠ 10 ∧ c ≠ 13 := by
      intro c hx
      simp only [List.mem_append, List.mem_cons] at hx
      rcases hx with hx | rfl | hx
      · exact CodeText_plain hc c hx
      · decide
      · have := hb c hx; omega
    have e1 : nextCodeLine ((t ++ 39 :: b) ++ (com ++ nl ++ (text ++ R))) = text ++ R := by
      have := nextCodeLine_lone hc h41 hb hcom hbc hnl (text ++ R) (by
        intro c hx
        cases text with
        | nil => have := hR' c (by simpa using hx); omega
        | cons d text => exact hh c (by simpa using hx))
      rw [← e0]
      simpa using this
    have e2 : skipToNextLine ((t ++ 39 :: b) ++ (com ++ nl ++ (text ++ R))) = text ++ R := by
      rw [skipToNextLine_plain hp, skip_comment com _ hcom nl hnl]
    have hne : text ++ R ≠ [] := fun hx => hR (List.append_eq_nil_iff.1 hx).2
    rw [e0]
    rw [show num + ((t ++ 39 :: b ++ com ++ nl ++ text).count 10 : Nat) = num + 1 + (text.count 10 : Nat) by
      rw [List.count_append, List.count_append, List.count_append, count_plain hp, count_plain (comment_ne hcom), count_newline hnl]
      omega, ← e]
    have := skipLine_step words hW (text ++ R).length u n n' (t ++ 39 :: b) _ (comment_end hcom hnl (text ++ R)) h1 st
    rw [e1, if_neg (by omega)] at this
    conv_lhs => unfold scanFrom
    rw [e2, M.bind_ok this]
    exact skipLoop_scan words F f n' (num + 1) (text ++ R) st hne hg

/-- skip_until finds the first statement that starts with one of the words and does not belong to a group inside. -/
theorem skipUntil_finds (k : Rec) (words : List Str) (hW : ∀ w ∈ words, Sought w) (setLine : Bool) (s : S) (hg : s.errOccurred = false)
    (sts : List Str) (text R w : Str) (hl : Lines sts text) (hN : Nesting words 0 sts 0) (hw : w ∈ words) (hR : Begins w R)
    (hif : lineHasWord R (b! "#IF") = false) (hR' : ∀ c ∈ R.head?, c ≠ 34 ∧ c ≠ 39 ∧ c ≠ 92 ∧ c ≠ 10 ∧ c ≠ 13) :
    skipUntil k words setLine (text ++ R) s = .ok R (if setLine then { s with lineNum := s.lineNum + (text.count 10 : Nat) } else s) := by
  have hne : R ≠ [] := by
    rintro rfl
    obtain ⟨x, r, e1, e2⟩ := begins_skip (hW w hw) hR
    obtain ⟨⟨c, w', rfl, -⟩, -⟩ := hW w hw
    have : x = [] := (List.append_eq_nil_iff.1 e1.symm).1
    subst this
    exact absurd e2 (by simp [SameText])
  obtain ⟨f', u', b1, b2, e⟩ := scanFrom_lines words hW ((text ++ R).length + 1) s hg R hne hR' hl hN (text ++ R).length ((text ++ R).length + 1)
    s.lineNum (by omega) (by omega) (by omega)
  have hfound : scanFrom words ((text ++ R).length + 1) f' u' 0 (s.lineNum + (text.count 10 : Nat)) R s = .ok (R, s.lineNum + (text.count 10 : Nat)) s := by
    obtain ⟨u', rfl⟩ : ∃ v, u' = v + 1 := ⟨u' - 1, by omega⟩
    unfold scanFrom
    have : skipLine words (skipToNextLine R).length (u' + 1) 0 R s = .ok (.found R) s := by
      rw [skipLine, hif]
      have h1 : words.any (fun w => lineHasWord R w) = true := by
        rw [List.any_eq_true]
        refine ⟨w, hw, ?_⟩
        have := lineHasWord_true (hW w hw) hR []
        rwa [List.append_nil] at this
      rw [h1]
      rfl
    rw [M.bind_ok this]
    rfl
  unfold skipUntil
  rw [M.get_bind]
  have hloop := skipLoop_scan words ((text ++ R).length + 1) (text ++ R).length 0 s.lineNum (text ++ R) s
    (fun hx => hne (List.append_eq_nil_iff.1 hx).2) hg
  rw [M.bind_ok (hloop.trans (e.trans hfound))]
  dsimp only
  cases setLine with
  | true => rfl
  | false => rfl

end Spasm
