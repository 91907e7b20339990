import Verif.Lemmas.Skip
import Verif.Lemmas.Preop
import Verif.Lemmas.Names

/-
Conditional assembly: the lines of a group in the loop of the first pass.
-/

namespace Spasm
open Spec Props

/-! ### Texts of groups -/

theorem lines_append {sts sts' : List Str} {t t' : Str} (h : Lines sts t) (h' : Lines sts' t')
    (hh : ∀ c ∈ t'.head?, c ≠ 10 ∧ c ≠ 13 ∧ c ≠ 34 ∧ c ≠ 39 ∧ c ≠ 92) : Lines (sts ++ sts') (t ++ t') := by
  induction h with
  | nil => exact h'
  | backslash t sts text h1 h2 _ h3 ih =>
    have := Lines.backslash t _ _ h1 h2 ih (by
      intro c hc
      cases text with
      | nil => have := hh c (by simpa using hc); omega
      | cons d text => exact h3 c (by simpa using hc))
    simpa using this
  | newline t com nl sts text h1 h2 h3 h4 _ ih =>
    have := Lines.newline t com nl _ _ h1 h2 h3 h4 ih
    simpa using this
  | apostrophe t b com nl sts text h1 h2 h3 h4 h5 h6 _ h7 ih =>
    have := Lines.apostrophe t b com nl _ _ h1 h2 h3 h4 h5 h6 ih (by
      intro c hc
      cases text with
      | nil => have := hh c (by simpa using hc); omega
      | cons d text => exact h7 c (by simpa using hc))
    simpa using this

theorem nesting_append {W : List Str} {n m l : Nat} {sts sts' : List Str} (h : Nesting W n sts m) (h' : Nesting W m sts' l) :
    Nesting W n (sts ++ sts') l := by
  induction h with
  | nil => exact h'
  | opens n m t sts h _ ih => exact .opens _ _ _ _ h (ih h')
  | closes n m t sts h _ ih => exact .closes _ _ _ _ h (ih h')
  | other n m t sts h1 h2 h3 _ ih => exact .other _ _ _ _ h1 h2 h3 (ih h')

theorem nesting_fewer {W W' : List Str} (hW : ∀ w ∈ W', w ∈ W) {n m : Nat} {sts : List Str} (h : Nesting W n sts m) : Nesting W' n sts m := by
  induction h with
  | nil => exact .nil _
  | opens n m t sts h _ ih => exact .opens _ _ _ _ h ih
  | closes n m t sts h _ ih => exact .closes _ _ _ _ h ih
  | other n m t sts h1 h2 h3 _ ih => exact .other _ _ _ _ h1 h2 (fun h0 w hw => h3 h0 w (hW w hw)) ih

theorem not_begins_blank {w b : Str} (hw : Sought w) (hb : Blanks b) : ¬ Begins w b := by
  intro h
  obtain ⟨x, r, e1, e2⟩ := begins_skip hw h
  have : skipWs b = [] := by
    have := skipWs_blanks b [] hb
    rw [List.append_nil] at this
    rw [this]; rfl
  rw [this] at e1
  have hx := (List.append_eq_nil_iff.1 e1.symm).1
  subst hx
  obtain ⟨⟨c, w', rfl, -⟩, -⟩ := hw
  simp [SameText] at e2

abbrev wordIf : Str := b! "#if"
abbrev wordElse : Str := b! "#else"
abbrev wordElif : Str := b! "#elif"
abbrev wordEndif : Str := b! "#endif"
abbrev stops : List Str := [wordElse, wordElif, wordEndif]

theorem stops_sought : ∀ w ∈ stops, Sought w := by decide

theorem endif_sought : ∀ w ∈ [wordEndif], Sought w := by decide

/-- The rest of a line behind a clause, and a branch. -/
theorem branch_lines {b com nl t : Str} (hb : Blanks b) (hc : Comment com) (hnl : NewLine nl) (h : Branch t) :
    ∃ sts, Lines sts (b ++ com ++ nl ++ t) ∧ Nesting stops 0 sts 0 := by
  obtain ⟨sts, h1, h2⟩ := h
  refine ⟨b :: sts, .newline b com nl sts t (by simpa using blanks_code hb CodeText.nil) (not_begins_blank (by decide) hb) hc hnl h1, ?_⟩
  exact .other _ _ _ _ (not_begins_blank (by decide) hb) (not_begins_blank (by decide) hb)
    (fun _ w hw => not_begins_blank (stops_sought w hw) hb) h2

theorem sameText_hash {w W : Str} (h : SameText w (35 :: W)) : ∃ w', w = 35 :: w' ∧ SameText w' W := by
  unfold SameText at *
  cases w with
  | nil => simp at h
  | cons c w =>
    simp only [List.map_cons, List.cons.injEq] at h
    refine ⟨w, ?_, h.2⟩
    have := h.1
    unfold upperCase at this
    split at this <;> simp at this <;> first | omega | (subst this; rfl)

/-- The first character of a line with a directive. -/
def Plainly (t : Str) : Prop := ∀ c ∈ t.head?, c ≠ 10 ∧ c ≠ 13 ∧ c ≠ 34 ∧ c ≠ 39 ∧ c ≠ 92

theorem plainly_hash {b w r W : Str} (hb : Blanks b) (hw : SameText w (35 :: W)) : Plainly (b ++ w ++ r) := by
  obtain ⟨w', rfl, -⟩ := sameText_hash hw
  intro c hc
  cases b with
  | nil => simp at hc; subst hc; decide
  | cons x b => simp at hc; subst hc; have := hb x (by simp); omega

theorem wordLine_plainly {W l r : Str} (h : WordLine (35 :: W) l) : Plainly (l ++ r) := by
  obtain ⟨b, w, b1, com, nl, rfl, hb, hw, -⟩ := h
  have := plainly_hash (r := b1 ++ com ++ nl ++ r) hb hw
  simpa using this

theorem clauseLine_plainly {W c l r : Str} (h : ClauseLine (35 :: W) c l) : Plainly (l ++ r) := by
  obtain ⟨b, w, c', b1, com, nl, rfl, hb, hw, -⟩ := h
  have := plainly_hash (r := c' :: (b1 ++ c ++ com) ++ nl ++ r) hb hw
  simpa using this

theorem wordLine_begins {W l r : Str} (h : WordLine W l) : Begins W (l ++ r) := by
  obtain ⟨b, w, b1, com, nl, rfl, hb, hw, -⟩ := h
  exact ⟨b, w, b1 ++ com ++ nl ++ r, by simp, hb, hw⟩

theorem clauseLine_begins {W c l r : Str} (h : ClauseLine W c l) : Begins W (l ++ r) := by
  obtain ⟨b, w, c', b1, com, nl, rfl, hb, hw, -⟩ := h
  exact ⟨b, w, c' :: (b1 ++ c ++ com) ++ nl ++ r, by simp, hb, hw⟩

theorem hasWord_of {w t : Str} (hw : Sought w) (h : Begins w t) : lineHasWord t w = true := by
  have := lineHasWord_true hw h []
  rwa [List.append_nil] at this

theorem noWord_of {w w' t : Str} (hw : Sought w) (hw' : Sought w') (h : Begins w t)
    (hne : (w.map upperCase).take (min w.length w'.length) ≠ (w'.map upperCase).take (min w.length w'.length)) : lineHasWord t w' = false := by
  have := lineHasWord_false hw' (fun h' => begins_apart hw hw' h h' hne) [] (.inl rfl)
  rwa [List.append_nil] at this

theorem code_append {t t' : Str} (h : CodeText t) (h' : CodeText t') : CodeText (t ++ t') := by
  induction h with
  | nil => exact h'
  | char c t hc _ ih => exact .char _ _ hc ih
  | quoted c t hc _ ih => exact .quoted _ _ hc ih
  | escaped c t hc _ ih => exact .escaped _ _ hc ih
  | string b t h1 h2 _ ih => simpa using CodeText.string _ _ h1 h2 ih
  | lone c d t hc hd' _ ih => exact .lone _ _ _ hc hd' ih

theorem code_word {w W : Str} (h : SameText w W) (hW : ∀ c ∈ W, upperCase c = 35 ∨ (65 ≤ upperCase c ∧ upperCase c ≤ 90)) : CodeText w := by
  have hw : ∀ c ∈ w, upperCase c = 35 ∨ (65 ≤ upperCase c ∧ upperCase c ≤ 90) := by
    intro c hc
    have : upperCase c ∈ W.map upperCase := by rw [← h]; exact List.mem_map_of_mem hc
    obtain ⟨y, hy, e⟩ := List.mem_map.1 this
    rw [← e]; exact hW y hy
  clear h
  induction w with
  | nil => exact .nil
  | cons c w ih =>
    refine .char c w ?_ (ih (fun x hx => hw x (by simp [hx])))
    have := hw c (by simp)
    unfold upperCase at this
    split at this <;> omega

/-- The statement of a line with a directive. -/
theorem wordLine_stmt {W l : Str} (hl : ∀ c ∈ 35 :: W, upperCase c = 35 ∨ (65 ≤ upperCase c ∧ upperCase c ≤ 90)) (h : WordLine (35 :: W) l) :
    ∃ t com nl, l = t ++ com ++ nl ∧ CodeText t ∧ ¬ Begins [41] t ∧ Comment com ∧ NewLine nl ∧ Begins (35 :: W) t := by
  obtain ⟨b, w, b1, com, nl, rfl, hb, hw, hb1, -, hc, hnl⟩ := h
  refine ⟨b ++ w ++ b1, com, nl, rfl, ?_, ?_, hc, hnl, ⟨b, w, b1, rfl, hb, hw⟩⟩
  · have h1 := blanks_code hb1 CodeText.nil
    rw [List.append_nil] at h1
    rw [List.append_assoc]
    exact blanks_code hb (code_append (code_word hw hl) h1)
  · intro h
    obtain ⟨w', rfl, hw'⟩ := sameText_hash hw
    obtain ⟨x, r, e1, e2⟩ := begins_skip (by decide) h
    rw [List.append_assoc, skipWs_blanks b _ hb, List.cons_append, skipWs_cons _ _ (by decide)] at e1
    cases x with
    | nil => simp [SameText] at e2
    | cons y x =>
      simp only [List.cons_append, List.cons.injEq] at e1
      rw [← e1.1] at e2
      simp [SameText, upperCase] at e2

theorem clauseLine_stmt {W c l : Str} (hl : ∀ c ∈ 35 :: W, upperCase c = 35 ∨ (65 ≤ upperCase c ∧ upperCase c ≤ 90)) (h : ClauseLine (35 :: W) c l) :
    ∃ t com nl, l = t ++ com ++ nl ∧ CodeText t ∧ ¬ Begins [41] t ∧ Comment com ∧ NewLine nl ∧ Begins (35 :: W) t := by
  obtain ⟨b, w, c', b1, com, nl, rfl, hb, hw, hb1, -, hcode, -, hc, -, hnl⟩ := h
  refine ⟨b ++ w ++ (c' :: b1 ++ c), com, nl, by simp, ?_, ?_, hc, hnl, ⟨b, w, _, rfl, hb, hw⟩⟩
  · rw [List.append_assoc]
    exact blanks_code hb (code_append (code_word hw hl) (blanks_code hb1 hcode))
  · intro h
    obtain ⟨w', rfl, hw'⟩ := sameText_hash hw
    obtain ⟨x, r, e1, e2⟩ := begins_skip (by decide) h
    rw [List.append_assoc, skipWs_blanks b _ hb, List.cons_append, skipWs_cons _ _ (by decide)] at e1
    cases x with
    | nil => simp [SameText] at e2
    | cons y x =>
      simp only [List.cons_append, List.cons.injEq] at e1
      rw [← e1.1] at e2
      simp [SameText, upperCase] at e2

/-- A text up to an `#endif` line. -/
def Closed (u : Str) : Prop :=
  ∃ sts mid e, u = mid ++ e ∧ Lines sts mid ∧ Nesting [wordEndif] 0 sts 0 ∧ WordLine wordEndif e ∧ Plainly u

theorem closed_endif {e : Str} (h : WordLine wordEndif e) : Closed e :=
  ⟨[], [], e, rfl, .nil, .nil 0, h, by have := wordLine_plainly (r := []) h; rwa [List.append_nil] at this⟩

/-- A line of the group, a branch, and the rest of the group. -/
theorem closed_cons {W l t u : Str} (hW : W = b! "else" ∨ W = b! "elif")
    (hl : ∃ t com nl, l = t ++ com ++ nl ∧ CodeText t ∧ ¬ Begins [41] t ∧ Comment com ∧ NewLine nl ∧ Begins (35 :: W) t)
    (hp : Plainly (l ++ t ++ u)) (ht : Branch t) (hu : Closed u) : Closed (l ++ t ++ u) := by
  obtain ⟨x, com, nl, rfl, h1, h2, h3, h4, h5⟩ := hl
  obtain ⟨sts, l1, n1⟩ := ht
  obtain ⟨sts', mid, e, rfl, l2, n2, h6, h7⟩ := hu
  have hmid : ∀ c ∈ mid.head?, c ≠ 10 ∧ c ≠ 13 ∧ c ≠ 34 ∧ c ≠ 39 ∧ c ≠ 92 := by
    intro c hc
    cases mid with
    | nil => simp at hc
    | cons d mid => exact h7 c (by simpa using hc)
  refine ⟨x :: (sts ++ sts'), x ++ com ++ nl ++ (t ++ mid), e, by simp, .newline _ _ _ _ _ h1 h2 h3 h4 (lines_append l1 l2 hmid), ?_, h6, hp⟩
  have s1 : Sought (35 :: W) := by rcases hW with rfl | rfl <;> decide
  refine .other _ _ _ _ ?_ ?_ ?_ (nesting_append (nesting_fewer (by decide) n1) n2)
  · intro h
    exact begins_apart s1 (by decide) h5 h (by rcases hW with rfl | rfl <;> decide)
  · intro h
    exact begins_apart s1 (by decide) h5 h (by rcases hW with rfl | rfl <;> decide)
  · intro _ w hw h
    simp only [List.mem_singleton] at hw
    subst hw
    exact begins_apart s1 (by decide) h5 h (by rcases hW with rfl | rfl <;> decide)

theorem closed_unchosen {u : Str} (h : Unchosen u) : Closed u := by
  induction h with
  | endif e h => exact closed_endif h
  | else_ l t e h1 h2 h3 =>
    refine closed_cons (W := b! "else") (.inl rfl) (wordLine_stmt (by decide) h1) ?_ h2 (closed_endif h3)
    rw [List.append_assoc]; exact wordLine_plainly h1
  | elif l c t u h1 h2 _ ih =>
    refine closed_cons (W := b! "elif") (.inr rfl) (clauseLine_stmt (by decide) h1) ?_ h2 ih
    rw [List.append_assoc]; exact clauseLine_plainly h1

theorem closed_group {holds : Str → Str → Bool → Prop} {W u chosen : Str} (hW : W = wordElif) (h : Group holds W u chosen) : Closed u := by
  induction h with
  | yes W c l t u h1 _ h2 h3 =>
    subst hW
    refine closed_cons (W := b! "elif") (.inr rfl) (clauseLine_stmt (by decide) h1) ?_ h2 (closed_unchosen h3)
    rw [List.append_assoc]; exact clauseLine_plainly h1
  | no W c l t e h1 _ h2 h3 =>
    subst hW
    refine closed_cons (W := b! "elif") (.inr rfl) (clauseLine_stmt (by decide) h1) ?_ h2 (closed_endif h3)
    rw [List.append_assoc]; exact clauseLine_plainly h1
  | else_ W c l t e t' e' h1 _ h2 h3 h4 h5 =>
    subst hW
    have : Closed (e ++ t' ++ e') := by
      refine closed_cons (W := b! "else") (.inl rfl) (wordLine_stmt (by decide) h3) ?_ h4 (closed_endif h5)
      rw [List.append_assoc]; exact wordLine_plainly h3
    rw [show l ++ t ++ e ++ t' ++ e' = l ++ t ++ (e ++ t' ++ e') by simp]
    refine closed_cons (W := b! "elif") (.inr rfl) (clauseLine_stmt (by decide) h1) ?_ h2 this
    rw [List.append_assoc]; exact clauseLine_plainly h1
  | elif W c l t u chosen h1 _ h2 _ ih =>
    subst hW
    refine closed_cons (W := b! "elif") (.inr rfl) (clauseLine_stmt (by decide) h1) ?_ h2 (ih rfl)
    rw [List.append_assoc]; exact clauseLine_plainly h1

/-! ### do_if -/

/-- The check that the group is complete. -/
theorem check_ok (k : Rec) (s : S) (hg : s.errOccurred = false) {b com nl t u : Str} (hb : Blanks b) (hc : Comment com) (hnl : NewLine nl)
    (ht : Branch t) (hu : Closed u) (R : Str) :
    ∃ r, skipUntil k [wordEndif] false (b ++ com ++ nl ++ t ++ u ++ R) s = .ok r s := by
  obtain ⟨sts, l1, n1⟩ := branch_lines hb hc hnl ht
  obtain ⟨sts', mid, e, rfl, l2, n2, h6, h7⟩ := hu
  have hmid : ∀ c ∈ mid.head?, c ≠ 10 ∧ c ≠ 13 ∧ c ≠ 34 ∧ c ≠ 39 ∧ c ≠ 92 := by
    intro c hc
    cases mid with
    | nil => simp at hc
    | cons d mid => exact h7 c (by simpa using hc)
  have hbe := wordLine_begins (r := R) h6
  have := skipUntil_finds k [wordEndif] endif_sought false s hg (sts ++ sts') (b ++ com ++ nl ++ t ++ mid) (e ++ R) wordEndif
    (lines_append l1 l2 hmid) (nesting_append (nesting_fewer (by decide) n1) n2) (by simp) hbe (noWord_of (by decide) (by decide) hbe (by decide))
    (by intro c hc; have := wordLine_plainly (r := R) h6 c hc; omega)
  refine ⟨e ++ R, ?_⟩
  rw [if_neg (by decide)] at this
  rw [← this]
  congr 1
  simp

theorem skip_branch (k : Rec) (s : S) (hg : s.errOccurred = false) {b com nl t : Str} (hb : Blanks b) (hc : Comment com) (hnl : NewLine nl)
    (ht : Branch t) (R w : Str) (hw : w ∈ stops) (hR : Begins w R) (hp : Plainly R) :
    skipUntil k stops true (b ++ com ++ nl ++ t ++ R) s = .ok R { s with lineNum := s.lineNum + 1 + (t.count 10 : Nat) } := by
  obtain ⟨sts, l1, n1⟩ := branch_lines hb hc hnl ht
  have hif : lineHasWord R (b! "#IF") = false := by
    refine noWord_of (stops_sought w hw) (by decide) hR ?_
    simp only [List.mem_cons, List.not_mem_nil, or_false] at hw
    rcases hw with rfl | rfl | rfl <;> decide
  rw [skipUntil_finds k stops stops_sought true s hg sts _ R w l1 n1 hw hR hif (by intro c hc; have := hp c hc; omega)]
  rw [if_pos rfl, List.count_append, List.count_append, List.count_append, count_newline hnl, count_plain (comment_ne hc),
    count_plain (t := b) (fun c hc => by have := hb c hc; omega)]
  congr 2
  omega

/-- The text of a line behind which the next line starts. -/
theorem back_next {l R : Str} (h : nextCodeLine (l ++ R) = R) (hl : ∃ x, l = x ++ [10]) : back (l ++ R) (nextCodeLine (l ++ R)) = 10 :: R := by
  obtain ⟨x, rfl⟩ := hl
  rw [h]
  unfold back
  rw [if_pos (by simp; omega)]
  have : (x ++ [10] ++ R).length - R.length - 1 = x.length := by simp; omega
  rw [this]
  simp

theorem newLine_last {nl : Str} (h : NewLine nl) (x : Str) : ∃ y, x ++ nl = y ++ [10] := by
  rcases h with rfl | rfl
  · exact ⟨x, rfl⟩
  · exact ⟨x ++ [13], by simp⟩

theorem wordLine_next {W l : Str} (hl : ∀ c ∈ 35 :: W, upperCase c = 35 ∨ (65 ≤ upperCase c ∧ upperCase c ≤ 90)) (h : WordLine (35 :: W) l) (R : Str) :
    nextCodeLine (l ++ R) = R ∧ ∃ x, l = x ++ [10] := by
  obtain ⟨t, com, nl, rfl, h1, h2, h3, h4, -⟩ := wordLine_stmt hl h
  refine ⟨?_, newLine_last h4 _⟩
  rw [show t ++ com ++ nl ++ R = t ++ (com ++ nl ++ R) by simp, nextCodeLine_code h1 h2 _ (comment_end h3 h4 R), afterSep_newline h3 h4]

/-- From the position `r` the loop of the first pass goes on with `X`. -/
def GoesOn (r X : Str) : Prop := hd (skipWs r) ≠ 92 ∧ skipToNextLine (skipWs r) = X

theorem goesOn_newline {b com nl X : Str} (hb : Blanks b) (hc : Comment com) (hnl : NewLine nl) : GoesOn (b ++ com ++ nl ++ X) X := by
  have e : skipWs (b ++ com ++ nl ++ X) = com ++ nl ++ X := by
    rw [show b ++ com ++ nl ++ X = b ++ (com ++ nl ++ X) by simp, skipWs_blanks b _ hb, atEnd_skip (comment_end hc hnl X)]
  unfold GoesOn
  rw [e]
  refine ⟨?_, skip_comment com X hc nl hnl⟩
  rcases hc with rfl | ⟨x, rfl, -⟩
  · rcases hnl with rfl | rfl <;> simp
  · simp

theorem goesOn_wordLine {W l X : Str} (hl : ∀ c ∈ 35 :: W, upperCase c = 35 ∨ (65 ≤ upperCase c ∧ upperCase c ≤ 90)) (h : WordLine (35 :: W) l) :
    GoesOn (l ++ X) X := by
  obtain ⟨b, w, b1, com, nl, rfl, hb, hw, hb1, -, hc, hnl⟩ := h
  have hcw := CodeText_plain (code_word hw hl)
  obtain ⟨w', rfl, -⟩ := sameText_hash hw
  have e : skipWs (b ++ 35 :: w' ++ b1 ++ com ++ nl ++ X) = 35 :: w' ++ b1 ++ (com ++ nl ++ X) := by
    rw [show b ++ 35 :: w' ++ b1 ++ com ++ nl ++ X = b ++ (35 :: (w' ++ b1 ++ com ++ nl ++ X)) by simp, skipWs_blanks b _ hb,
      skipWs_cons _ _ (by decide)]
    simp
  unfold GoesOn
  rw [e]
  refine ⟨by simp, ?_⟩
  rw [skipToNextLine_plain, skip_comment com X hc nl hnl]
  intro c hx
  rcases List.mem_append.1 hx with hx | hx
  · exact hcw c hx
  · have := hb1 c hx; omega

theorem goesOn_break (X : Str) : GoesOn (10 :: X) X := ⟨by rw [skipWs_cons _ _ rfl]; exact (by decide : (10 : Nat) ≠ 92), rfl⟩

theorem doIf_true (k : Rec) (s : S) (hg : s.errOccurred = false) {b com nl t u : Str} (hb : Blanks b) (hc : Comment com) (hnl : NewLine nl)
    (ht : Branch t) (hu : Closed u) (R : Str) :
    doIf k (b ++ com ++ nl ++ t ++ u ++ R) true s = .ok (some (b ++ com ++ nl ++ t ++ u ++ R)) s := by
  obtain ⟨r, e⟩ := check_ok k s hg hb hc hnl ht hu R
  unfold doIf
  rw [M.bind_ok e]
  rfl

theorem doIf_false (k : Rec) (s : S) (hg : s.errOccurred = false) {b com nl t u : Str} (hb : Blanks b) (hc : Comment com) (hnl : NewLine nl)
    (ht : Branch t) (hu : Closed u) (R w : Str) (hw : w ∈ stops) (hR : Begins w (u ++ R)) (hp : Plainly (u ++ R)) :
    doIf k (b ++ com ++ nl ++ t ++ u ++ R) false s =
      (if lineHasWord (u ++ R) wordElse then pure (some (back (u ++ R) (nextCodeLine (u ++ R))))
       else if lineHasWord (u ++ R) wordElif then k.preopIf ((skipWs (u ++ R)).drop 5)
       else pure (some (u ++ R))) { s with lineNum := s.lineNum + 1 + (t.count 10 : Nat) } := by
  obtain ⟨r, e⟩ := check_ok k s hg hb hc hnl ht hu R
  unfold doIf
  rw [M.bind_ok e]
  have e2 := skip_branch k s hg hb hc hnl ht (u ++ R) w hw hR hp
  rw [show b ++ com ++ nl ++ t ++ (u ++ R) = b ++ com ++ nl ++ t ++ u ++ R by simp] at e2
  rw [if_neg (by decide), M.bind_ok e2]

/-- What a line of a group changes. -/
def Passed (s s' : S) : Prop :=
  s' = { s with ifLevel := s'.ifLevel, lineNum := s'.lineNum, parseDepth := s'.parseDepth, fwdRef := s'.fwdRef }

theorem Passed.refl (s : S) : Passed s s := rfl

theorem Passed.trans {s s1 s2 : S} (h : Passed s s1) (h' : Passed s1 s2) : Passed s s2 :=
  Eq.trans (show s2 = _ from h') (congrArg (fun x : S => { x with ifLevel := s2.ifLevel, lineNum := s2.lineNum, parseDepth := s2.parseDepth, fwdRef := s2.fwdRef }) h)

/-- Conditions have the truth values `holds` in all states that differ from `s` by lines of groups. -/
structure Decides (holds : Str → Str → Bool → Prop) (D : Nat) (s : S) : Prop where
  going : s.errOccurred = false
  value : ∀ word c b, (word = wordIf ∨ word = wordElif) → holds word c b → ∀ k, D ≤ k → ∀ b0 com, Blanks b0 → (com = [] ∨ ∃ r, com = 59 :: r) →
    ∀ s', Passed s s' → ∃ v p, parseNum (knot k) (b0 ++ c ++ com) s' = .ok (some v) { s' with parseDepth := p, fwdRef := false } ∧ b = (v != 0)

theorem codeText_last {t : Str} (h : CodeText t) : ∀ c ∈ t.getLast?, c ≠ 10 ∧ c ≠ 13 ∧ c ≠ 59 ∧ c ≠ 92 := by
  induction h with
  | nil => simp
  | char c t hc h ih =>
    intro x hx
    cases t with
    | nil => simp at hx; omega
    | cons y t => exact ih x (by simpa using hx)
  | quoted c t hc h ih =>
    intro x hx
    cases t with
    | nil => simp at hx; omega
    | cons y t => exact ih x (by simpa using hx)
  | escaped c t hc h ih =>
    intro x hx
    cases t with
    | nil => simp at hx; omega
    | cons y t => exact ih x (by simpa using hx)
  | string b t hb h1 h ih =>
    intro x hx
    cases t with
    | nil => rw [show 34 :: b ++ [34] = (34 :: b) ++ [34] by simp, List.getLast?_append] at hx; simp at hx; omega
    | cons y t =>
      refine ih x ?_
      rw [show 34 :: b ++ 34 :: y :: t = (34 :: b ++ [34]) ++ (y :: t) by simp, List.getLast?_append] at hx
      rw [List.getLast?_eq_some_getLast (by simp)] at hx ⊢
      simpa using hx
  | lone c d t _ _ h ih => intro x hx; exact ih x (by simpa using hx)

theorem comment_split {com : Str} (hc : Comment com) : ∃ x y, com = x ++ y ∧ Comment y ∧ (∀ c ∈ y, c = 59) ∧ (x = [] ∨ ∃ r, x = 59 :: r) ∧
    ∀ c ∈ x.getLast?, c ≠ 59 := by
  have key : ∀ r : Str, ∃ x y, r = x ++ y ∧ (∀ c ∈ y, c = 59) ∧ ∀ c ∈ x.getLast?, c ≠ 59 := by
    intro r
    refine ⟨(r.reverse.dropWhile (· == 59)).reverse, (r.reverse.takeWhile (· == 59)).reverse, ?_, ?_, ?_⟩
    · rw [← List.reverse_append, List.takeWhile_append_dropWhile, List.reverse_reverse]
    · intro c hc
      rw [List.mem_reverse] at hc
      have := List.all_eq_true.1 (List.all_takeWhile (l := r.reverse) (p := (· == 59))) c hc
      simpa using this
    · intro c hc
      rw [List.getLast?_reverse] at hc
      have := List.head?_dropWhile_not (· == 59) r.reverse
      cases h : (r.reverse.dropWhile (· == 59)).head? with
      | none => rw [h] at hc; simp at hc
      | some x => rw [h] at hc this; simp at hc; subst hc; simpa using this
  rcases hc with rfl | ⟨r, rfl, hr⟩
  · exact ⟨[], [], rfl, .inl rfl, by simp, .inl rfl, by simp⟩
  · obtain ⟨x, y, e, h1, h2⟩ := key (59 :: r)
    refine ⟨x, y, e, ?_, h1, ?_, h2⟩
    · cases y with
      | nil => exact .inl rfl
      | cons c y =>
        have := h1 c (by simp)
        subst this
        refine .inr ⟨y, rfl, ?_⟩
        intro c hc
        have := h1 c (by simp [hc])
        omega
    · cases x with
      | nil => exact .inl rfl
      | cons c x =>
        simp only [List.cons_append, List.cons.injEq] at e
        exact .inr ⟨x, by rw [e.1]⟩

theorem codeLine_clause {b0 c com nl X : Str} (hb : Blanks b0) (hne : c ≠ []) (hc : CodeText c) (hh : ∀ x ∈ c.head?, ¬ White x ∧ x ≠ 41 ∧ x ≠ 35)
    (hcom : Comment com) (h92 : 92 ∉ com) (hnl : NewLine nl) (hX : X ≠ []) :
    ∃ x y, codeLine (b0 ++ c ++ com ++ nl ++ X) = (b0 ++ c ++ x, y ++ nl ++ X) ∧ Comment y ∧ (x = [] ∨ ∃ r, x = 59 :: r) := by
  obtain ⟨x, y, rfl, hy, hy59, hx, hxl⟩ := comment_split hcom
  refine ⟨x, y, ?_, hy, hx⟩
  have h41 : ¬ Begins [41] (b0 ++ c) := by
    intro h
    obtain ⟨z, r, e1, e2⟩ := begins_skip (by decide) h
    cases c with
    | nil => exact hne rfl
    | cons d c =>
      have hd' := hh d rfl
      rw [skipWs_blanks _ _ hb, skipWs_cons] at e1
      · cases z with
        | nil => simp [SameText] at e2
        | cons u z =>
          simp only [List.cons_append, List.cons.injEq] at e1
          obtain ⟨rfl, -⟩ := e1
          unfold SameText at e2
          simp only [List.map_cons, List.cons.injEq] at e2
          have h0 := e2.1
          have h1 := hd'.2.1
          unfold upperCase at h0
          split at h0 <;> split at h0 <;> omega
      · rw [← Bool.not_eq_true, isBlank_iff]
        have := hd'.1
        unfold White at this
        omega
  have e1 : nextCodeLine (b0 ++ c ++ (x ++ y) ++ nl ++ X) = X := by
    rw [show b0 ++ c ++ (x ++ y) ++ nl ++ X = (b0 ++ c) ++ ((x ++ y) ++ nl ++ X) by simp,
      nextCodeLine_code (blanks_code hb hc) h41 _ (comment_end hcom hnl X), afterSep_newline hcom hnl]
  unfold codeLine
  dsimp only
  rw [e1]
  rw [if_neg (by cases X with | nil => exact absurd rfl hX | cons _ _ => simp)]
  have e2 : (b0 ++ c ++ (x ++ y) ++ nl ++ X).take ((b0 ++ c ++ (x ++ y) ++ nl ++ X).length - X.length) = b0 ++ c ++ x ++ (y ++ nl) := by
    rw [show b0 ++ c ++ (x ++ y) ++ nl ++ X = (b0 ++ c ++ x ++ (y ++ nl)) ++ X by simp]
    rw [List.take_left']
    simp; omega
  rw [e2]
  have e3 : ((b0 ++ c ++ x ++ (y ++ nl)).reverse.dropWhile (fun c => c == 10 || c == 13 || c == 59 || c == 92)).reverse = b0 ++ c ++ x := by
    rw [List.reverse_append, List.dropWhile_append_of_pos]
    · have hlast : ∀ z ∈ (b0 ++ c ++ x).getLast?, (z == 10 || z == 13 || z == 59 || z == 92) = false := by
        intro z hz
        rw [List.getLast?_append] at hz
        cases hxx : x.getLast? with
        | some z' =>
          rw [hxx] at hz
          simp at hz
          subst hz
          have h1 := hxl z' hxx
          have hm : z' ∈ x := List.mem_of_getLast? hxx
          have h2 := comment_ne hcom z' (by simp [hm])
          have h3 : z' ≠ 92 := by rintro rfl; exact h92 (by simp [hm])
          simp [h1, h2, h3]
        | none =>
          rw [hxx] at hz
          simp only [Option.none_or, List.getLast?_append] at hz
          cases hcc : c.getLast? with
          | none => rw [List.getLast?_eq_none_iff] at hcc; exact absurd hcc hne
          | some z' =>
            rw [hcc] at hz
            simp at hz
            subst hz
            have := codeText_last hc z' hcc
            simp [this]
      rw [← List.head?_reverse] at hlast
      have hdrop : ∀ q : Str, (∀ z ∈ q.head?, (z == 10 || z == 13 || z == 59 || z == 92) = false) →
          q.dropWhile (fun c => c == 10 || c == 13 || c == 59 || c == 92) = q := by
        intro q hq
        cases q with
        | nil => rfl
        | cons z q => rw [List.dropWhile_cons, if_neg (by rw [hq z rfl]; decide)]
      rw [hdrop _ hlast, List.reverse_reverse]
    · intro z hz
      rw [List.mem_reverse, List.mem_append] at hz
      rcases hz with hz | hz
      · simp [hy59 z hz]
      · rcases hnl with rfl | rfl <;> simp at hz
        · simp [hz]
        · rcases hz with rfl | rfl <;> rfl
  rw [e3]
  have e4 : (b0 ++ c ++ (x ++ y) ++ nl ++ X).drop (b0 ++ c ++ x).length = y ++ nl ++ X := by
    rw [show b0 ++ c ++ (x ++ y) ++ nl ++ X = (b0 ++ c ++ x) ++ (y ++ nl ++ X) by simp]
    exact List.drop_left
  rw [e4]

/-- The parts of a group: what is in front of the chosen branch and what is behind it. -/
structure Parts (g before chosen after : Str) : Prop where
  eq : g = before ++ chosen ++ after
  rest : (after = [] ∧ chosen = []) ∨ Unchosen after
  pos : before ≠ []

theorem preopIf_clause {holds : Str → Str → Bool → Prop} {D : Nat} {s : S} (hd' : Decides holds D s) {word c : Str} {b : Bool}
    (hw : word = wordIf ∨ word = wordElif) (hh : holds word c b) {b0 com nl X : Str} (hb : Blanks b0) (hne : c ≠ []) (hc : CodeText c)
    (hx : ∀ x ∈ c.head?, ¬ White x ∧ x ≠ 41 ∧ x ≠ 35) (hcom : Comment com) (h92 : 92 ∉ com) (hnl : NewLine nl) (hX : X ≠ []) (k : Nat) (hk : D ≤ k)
    (s' : S) (hs : Passed s s') :
    ∃ y p, Comment y ∧ preopIfBody (knot k) (b0 ++ c ++ com ++ nl ++ X) s' =
      doIf (knot k) ([] ++ y ++ nl ++ X) b { s' with parseDepth := p, fwdRef := false } := by
  obtain ⟨x, y, e1, hy, hx'⟩ := codeLine_clause hb hne hc hx hcom h92 hnl hX
  obtain ⟨v, p, e2, rfl⟩ := hd'.value word c b hw hh k hk b0 x hb hx' s' hs
  refine ⟨y, p, hy, ?_⟩
  unfold preopIfBody
  have hend : isEnd (b0 ++ c ++ com ++ nl ++ X) = false := by
    cases b0 with
    | nil =>
      cases c with
      | nil => exact absurd rfl hne
      | cons d c => have := hc.start; simp [isEnd, this]
    | cons d b0 => have := hb d (by simp); simp [isEnd]; omega
  rw [hend, if_neg (by decide), e1]
  dsimp only
  rw [M.bind_ok e2]
  rfl

theorem passed_going {s s' : S} (h : Passed s s') (hg : s.errOccurred = false) : s'.errOccurred = false := by
  rw [h]; exact hg

/-- The letters of a directive. -/
def Lettered (W : Str) : Prop := ∀ c ∈ 35 :: W, upperCase c = 35 ∨ (65 ≤ upperCase c ∧ upperCase c ≤ 90)

instance (W : Str) : Decidable (Lettered W) := by unfold Lettered; infer_instance

theorem stmt_count {l : Str} {W : Str} (h : ∃ t com nl, l = t ++ com ++ nl ∧ CodeText t ∧ ¬ Begins [41] t ∧ Comment com ∧ NewLine nl ∧ Begins W t) :
    l.count 10 = 1 := by
  obtain ⟨t, com, nl, rfl, h1, -, h3, h4, -⟩ := h
  rw [List.count_append, List.count_append, count_plain (CodeText_plain h1), count_plain (comment_ne h3), count_newline h4]

/-- do_if and what it calls, at the first line of a group. -/
theorem doIf_group {holds : Str → Str → Bool → Prop} {D : Nat} {s : S} (hd' : Decides holds D s) {word g chosen : Str} (h : Group holds word g chosen) :
    ∀ W, word = 35 :: W → Lettered W →
    ∃ c l body truth before after, ClauseLine word c l ∧ g = l ++ body ∧ body ≠ [] ∧ holds word c truth ∧ Parts g before chosen after ∧
      ∀ (k : Nat), D + g.length ≤ k → ∀ (b com nl R : Str), Blanks b → Comment com → NewLine nl → ∀ s', Passed s s' →
        ∃ r s'', doIf (knot k) (b ++ com ++ nl ++ body ++ R) truth s' = .ok (some r) s'' ∧ GoesOn r (chosen ++ after ++ R) ∧ Passed s' s'' ∧
          s''.lineNum + 1 = s'.lineNum + (before.count 10 : Nat) ∧ s''.ifLevel = s'.ifLevel := by
  have ne_of : ∀ {e : Str}, WordLine wordEndif e → e ≠ [] := by
    intro e h he
    have := stmt_count (wordLine_stmt (by decide) h)
    rw [he] at this
    simp at this
  have ne_line : ∀ {W c l : Str}, Lettered W → ClauseLine (35 :: W) c l → l ≠ [] := by
    intro W c l hW h he
    have := stmt_count (clauseLine_stmt hW h)
    rw [he] at this
    simp at this
  have ne_closed : ∀ {u : Str}, Closed u → u ≠ [] := by
    rintro u ⟨_, mid, e, rfl, -, -, h, -⟩ hu
    exact ne_of h (List.append_eq_nil_iff.1 hu).2
  induction h with
  | yes word c l t u h1 h2 h3 h4 =>
    rintro W rfl hW
    refine ⟨c, l, t ++ u, true, l, u, h1, by simp, by simp [ne_closed (closed_unchosen h4)], h2, ⟨rfl, .inr h4, ne_line hW h1⟩, ?_⟩
    intro k hk b com nl R hb hc hnl s' hs
    refine ⟨_, s', ?_, goesOn_newline (X := t ++ u ++ R) hb hc hnl, Passed.refl _, ?_, rfl⟩
    · have := doIf_true (knot k) s' (passed_going hs hd'.going) hb hc hnl h3 (closed_unchosen h4) R
      rw [show b ++ com ++ nl ++ (t ++ u) ++ R = b ++ com ++ nl ++ t ++ u ++ R by simp, this]
      simp
    · rw [stmt_count (clauseLine_stmt hW h1)]; rfl
  | no word c l t e h1 h2 h3 h4 =>
    rintro W rfl hW
    refine ⟨c, l, t ++ e, false, l ++ t ++ e, [], h1, by simp, by simp [ne_of h4], h2, ⟨by simp, .inl ⟨rfl, rfl⟩, by simp [ne_line hW h1]⟩, ?_⟩
    intro k hk b com nl R hb hc hnl s' hs
    have hbe := wordLine_begins (r := R) h4
    refine ⟨e ++ R, { s' with lineNum := s'.lineNum + 1 + (t.count 10 : Nat) }, ?_, by simpa using goesOn_wordLine (by decide) h4, rfl, ?_, rfl⟩
    · have := doIf_false (knot k) s' (passed_going hs hd'.going) hb hc hnl h3 (closed_endif h4) R wordEndif (by decide) hbe (wordLine_plainly h4)
      rw [show b ++ com ++ nl ++ (t ++ e) ++ R = b ++ com ++ nl ++ t ++ e ++ R by simp, this,
        noWord_of (by decide) (by decide) hbe (by decide), noWord_of (by decide) (by decide) hbe (by decide)]
      rfl
    · rw [List.count_append, List.count_append, stmt_count (clauseLine_stmt hW h1), stmt_count (wordLine_stmt (by decide) h4)]
      dsimp only
      omega
  | else_ word c l t e t' e' h1 h2 h3 h4 h5 h6 =>
    rintro W rfl hW
    have hcl : Closed (e ++ t' ++ e') := by
      refine closed_cons (W := b! "else") (.inl rfl) (wordLine_stmt (by decide) h4) ?_ h5 (closed_endif h6)
      rw [List.append_assoc]; exact wordLine_plainly h4
    refine ⟨c, l, t ++ (e ++ t' ++ e'), false, l ++ t ++ e, e', h1, by simp, by simp [ne_of h6], h2, ⟨by simp, .inr (.endif _ h6), by simp [ne_line hW h1]⟩, ?_⟩
    intro k hk b com nl R hb hc hnl s' hs
    have hbe := wordLine_begins (r := t' ++ e' ++ R) h4
    have hpl := wordLine_plainly (r := t' ++ e' ++ R) h4
    obtain ⟨hn1, hn2⟩ := wordLine_next (by decide) h4 (t' ++ e' ++ R)
    refine ⟨10 :: (t' ++ e' ++ R), { s' with lineNum := s'.lineNum + 1 + (t.count 10 : Nat) }, ?_, goesOn_break _, rfl, ?_, rfl⟩
    · have := doIf_false (knot k) s' (passed_going hs hd'.going) hb hc hnl h3 hcl R wordElse (by decide)
        (by rw [show e ++ t' ++ e' ++ R = e ++ (t' ++ e' ++ R) by simp]; exact hbe) (by rw [show e ++ t' ++ e' ++ R = e ++ (t' ++ e' ++ R) by simp]; exact hpl)
      rw [show b ++ com ++ nl ++ (t ++ (e ++ t' ++ e')) ++ R = b ++ com ++ nl ++ t ++ (e ++ t' ++ e') ++ R by simp, this,
        show e ++ t' ++ e' ++ R = e ++ (t' ++ e' ++ R) by simp, hasWord_of (by decide) hbe, if_pos rfl, back_next hn1 hn2]
      rfl
    · rw [List.count_append, List.count_append, stmt_count (clauseLine_stmt hW h1), stmt_count (wordLine_stmt (by decide) h4)]
      dsimp only
      omega
  | elif word c l t u chosen h1 h2 h3 h4 ih =>
    rintro W rfl hW
    obtain ⟨c2, l2, body2, truth, before, after, i1, i2, i3, i4, ⟨i5, i6, -⟩, i7⟩ := ih (b! "elif") rfl (by decide)
    refine ⟨c, l, t ++ u, false, l ++ t ++ before, after, h1, by simp, by simp [i2, i3], h2, ⟨by rw [i5]; simp, i6, by simp [ne_line hW h1]⟩, ?_⟩
    intro k hk b com nl R hb hc hnl s' hs
    have hbe : Begins wordElif (u ++ R) := by rw [i2, List.append_assoc]; exact clauseLine_begins i1
    have hpl : Plainly (u ++ R) := by rw [i2, List.append_assoc]; exact clauseLine_plainly i1
    have := doIf_false (knot k) s' (passed_going hs hd'.going) hb hc hnl h3 (closed_group rfl h4) R wordElif (by decide) hbe hpl
    rw [show b ++ com ++ nl ++ (t ++ u) ++ R = b ++ com ++ nl ++ t ++ u ++ R by simp, this,
      noWord_of (by decide) (by decide) hbe (by decide), hasWord_of (by decide) hbe]
    have hlc := stmt_count (clauseLine_stmt hW h1)
    obtain ⟨b3, w3, c3, b4, com3, nl3, e3, hb3, hw3, hb4, hne3, hc3, hh3, hcom3, h923, hnl3⟩ := i1
    have hdrop : (skipWs (u ++ R)).drop 5 = c3 :: b4 ++ c2 ++ com3 ++ nl3 ++ (body2 ++ R) := by
      have hlen : w3.length = 5 := by simpa using congrArg List.length hw3
      obtain ⟨w4, rfl, -⟩ := sameText_hash hw3
      rw [i2, e3, show b3 ++ 35 :: w4 ++ c3 :: (b4 ++ c2 ++ com3) ++ nl3 ++ body2 ++ R =
        b3 ++ ((35 :: w4) ++ (c3 :: b4 ++ c2 ++ com3 ++ nl3 ++ (body2 ++ R))) by simp, skipWs_blanks b3 _ hb3, List.cons_append, skipWs_cons _ _ (by decide),
        ← List.cons_append]
      exact List.drop_left' hlen
    rw [hdrop]
    have hglen : (l ++ t ++ u).length = l.length + t.length + u.length := by simp; omega
    have hl0 : 0 < l.length := by
      cases l with
      | nil => simp at hlc
      | cons => simp
    obtain ⟨k, rfl⟩ : ∃ m, k = m + 1 := ⟨k - 1, by omega⟩
    have hs1 : Passed s { s' with lineNum := s'.lineNum + 1 + (t.count 10 : Nat) } := hs.trans rfl
    obtain ⟨y, p, hy, e4⟩ := preopIf_clause hd' (.inr rfl) i4 hb4 hne3 hc3 hh3 hcom3 h923 hnl3 (X := body2 ++ R) (by simp [i3]) k (by omega) _ hs1
    obtain ⟨r, s'', j1, j2, j3, j4, j5⟩ := i7 k (by omega) [] y nl3 R (by simp [Blanks]) hy hnl3
      { s' with lineNum := s'.lineNum + 1 + (t.count 10 : Nat), parseDepth := p, fwdRef := false } (hs1.trans rfl)
    refine ⟨r, s'', ?_, j2, Passed.trans (s1 := { s' with lineNum := s'.lineNum + 1 + (t.count 10 : Nat), parseDepth := p, fwdRef := false }) rfl j3, ?_, j5⟩
    · rw [if_neg (by decide), if_pos rfl]
      show preopIfBody (knot k) _ _ = _
      rw [e4, ← j1]
      simp
    · rw [j4, List.count_append, List.count_append, hlc]
      dsimp only
      omega

/-! ### Lines of a group in the loop of the first pass -/

/-- A line with a directive is executed as a whole when the directive leaves off at the end of a line. -/
theorem runLine_directive (k : Nat) {b t : Str} (hb : Blanks b) {s s' : S} {r X : Str}
    (h : handlePreopBody (knot k) (handleBitmap (knot k)) t s = .ok (some r) s') (hg : s'.errOccurred = false) (hr : GoesOn r X) :
    runLine (knot (k + 2)) (b ++ 35 :: t) s = .ok (some (skipWs r)) s' := by
  unfold runLine
  rw [lineLoop]
  have h92 : dropChar 92 (b ++ 35 :: t) = b ++ 35 :: t := by
    cases b with
    | nil => rfl
    | cons c b => have := hb c (by simp); simp [dropChar]; omega
  rw [h92, M.bind_ok ((lineSec_preop k b t hb s).trans h)]
  dsimp only
  rw [M.get_bind, hg, if_neg (by simp [hr.1])]
  rfl

/-- The line goes on wherever run_first_pass_line does, in the same way. -/
structure Answers (line : Str → M (Option Str)) (k : Nat) : Prop where
  same : ∀ t s r s', runLine (knot k) t s = .ok (some r) s' → line t s = .ok (some r) s'

theorem Answers.refl (k : Nat) : Answers (runLine (knot k)) k := ⟨fun _ _ _ _ h => h⟩

theorem loop_directive {line : Str → M (Option Str)} (k f : Nat) (hline : Answers line (k + 2)) {b t : Str} (hb : Blanks b) {s s' : S} {r X : Str} (hs : s.errOccurred = false)
    (h : handlePreopBody (knot k) (handleBitmap (knot k)) t s = .ok (some r) s') (hg : s'.errOccurred = false) (hr : GoesOn r X) :
    firstPassLoop line (f + 1) (b ++ 35 :: t) s = firstPassLoop line f X { s' with lineNum := s'.lineNum + 1 } := by
  rw [firstPassLoop, M.get_bind, hs, if_neg (by simp), M.bind_ok (hline.same _ _ _ _ (runLine_directive k hb h hg hr))]
  dsimp only
  rw [M.modify_bind, hr.2]

theorem sameText_upper {w W W' : Str} (h : SameText w W) (hW : W.map upperCase = W') : w.map upperCase = W' := by
  rw [← hW]; exact h

theorem blank_isSpace {c : Nat} (h : c = 32 ∨ c = 9 ∨ c = 11 ∨ c = 12) : isSpace c = true := by
  rcases h with rfl | rfl | rfl | rfl <;> rfl

/-- The directive of a line with a condition and the text it is given. -/
theorem pre_clause {W W' : Str} (hW : W.map upperCase = W') (hsp : ∀ x ∈ W', isSpace x = false) {w c : Str} {c' : Nat} {b1 : Str} (hw : SameText w W)
    (hb1 : Blanks (c' :: b1)) (hne : c ≠ []) (hh : ∀ x ∈ c.head?, ¬ White x) (X : Str) :
    findPre (w ++ c' :: (b1 ++ c ++ X)) = (preNames.find? (fun d => eqCase d.1 W')).map (·.2) ∧
      skipWs ((w ++ c' :: (b1 ++ c ++ X)).dropWhile (fun c => !isSpace c)) = c ++ X := by
  obtain ⟨h1, h2⟩ := findPre_word (sameText_upper hw hW) hsp c' (blank_isSpace (hb1 c' (by simp))) (b1 ++ c ++ X)
  refine ⟨h1, ?_⟩
  rw [h2, show c' :: (b1 ++ c ++ X) = (c' :: b1) ++ (c ++ X) by simp, skipWs_blanks _ _ hb1]
  cases c with
  | nil => exact absurd rfl hne
  | cons d c =>
    refine skipWs_cons _ _ ?_
    rw [← Bool.not_eq_true, isBlank_iff]
    have := hh d rfl
    unfold White at this
    omega

theorem pre_word {W W' : Str} (hW : W.map upperCase = W') (hsp : ∀ x ∈ W', isSpace x = false) {w b1 com nl : Str} (hw : SameText w W)
    (hb1 : Blanks b1) (hbc : b1 = [] → com = []) (hc : Comment com) (hnl : NewLine nl) (X : Str) :
    findPre (w ++ (b1 ++ com ++ nl ++ X)) = (preNames.find? (fun d => eqCase d.1 W')).map (·.2) ∧
      skipWs ((w ++ (b1 ++ com ++ nl ++ X)).dropWhile (fun c => !isSpace c)) = com ++ nl ++ X := by
  obtain ⟨c', r, e, hsc⟩ : ∃ c' r, b1 ++ com ++ nl ++ X = c' :: r ∧ isSpace c' = true := by
    cases b1 with
    | nil =>
      rw [hbc rfl]
      rcases hnl with rfl | rfl
      · exact ⟨10, X, rfl, rfl⟩
      · exact ⟨13, 10 :: X, rfl, rfl⟩
    | cons c' b1 => exact ⟨c', _, rfl, blank_isSpace (hb1 c' (by simp))⟩
  obtain ⟨h1, h2⟩ := findPre_word (sameText_upper hw hW) hsp c' hsc r
  rw [e]
  refine ⟨h1, ?_⟩
  rw [h2, ← e, show b1 ++ com ++ nl ++ X = b1 ++ (com ++ nl ++ X) by simp, skipWs_blanks _ _ hb1, atEnd_skip (comment_end hc hnl X)]

/-- The first line of a group. -/
structure Opens (holds : Str → Str → Bool → Prop) (D : Nat) (s : S) : Prop extends Decides holds D s where
  words : ∀ word c b, (word = b! "#ifdef" ∨ word = b! "#ifndef") → holds word c b → ∀ X, AtEnd X →
    ∃ b1, Blanks b1 ∧ ∀ k, ∀ s', Passed s s' → preIfdef k (decide (word = b! "#ifdef")) (c ++ X) s' =
      doIf k (b1 ++ X) b { s' with ifLevel := s'.ifLevel + 1 }

theorem group_enters {holds : Str → Str → Bool → Prop} {D : Nat} {s : S} (ho : Opens holds D s) {word g chosen : Str} (h : Group holds word g chosen)
    (hw : word ∈ [b! "#if", b! "#ifdef", b! "#ifndef"]) :
    ∃ before after, Parts g before chosen after ∧ ∀ (k : Nat), D + g.length + 1 ≤ k → ∀ line, Answers line (k + 2) → ∀ (f : Nat) (R : Str),
      ∃ s', firstPassLoop line (f + 1) (g ++ R) s = firstPassLoop line f (chosen ++ after ++ R) s' ∧
        Passed s s' ∧ s'.lineNum = s.lineNum + (before.count 10 : Nat) ∧ s'.ifLevel = s.ifLevel + 1 := by
  obtain ⟨W, rfl, hW⟩ : ∃ W, word = 35 :: W ∧ Lettered W := by
    simp only [List.mem_cons, List.not_mem_nil, or_false] at hw
    rcases hw with rfl | rfl | rfl <;> exact ⟨_, rfl, by decide⟩
  obtain ⟨c, l, body, truth, before, after, i1, i2, i3, i4, i5, i6⟩ := doIf_group ho.toDecides h W rfl hW
  refine ⟨before, after, i5, ?_⟩
  intro k hk line hline f R
  obtain ⟨b, w, c', b1, com, nl, rfl, hb, hw', hb1, hne, hc, hh, hcom, h92, hnl⟩ := i1
  obtain ⟨w1, rfl, hw1⟩ := sameText_hash hw'
  have etext : g ++ R = b ++ 35 :: (w1 ++ c' :: (b1 ++ c ++ (com ++ nl ++ (body ++ R)))) := by rw [i2]; simp
  rw [etext]
  have main : ∃ r s', handlePreopBody (knot k) (handleBitmap (knot k)) (w1 ++ c' :: (b1 ++ c ++ (com ++ nl ++ (body ++ R)))) s = .ok (some r) s' ∧
      GoesOn r (chosen ++ after ++ R) ∧ Passed s s' ∧ s'.lineNum + 1 = s.lineNum + (before.count 10 : Nat) ∧ s'.ifLevel = s.ifLevel + 1 := by
    obtain ⟨k, rfl⟩ : ∃ m, k = m + 1 := ⟨k - 1, by omega⟩
    simp only [List.mem_cons, List.cons.injEq, true_and, List.not_mem_nil, or_false] at hw
    unfold handlePreopBody
    rcases hw with rfl | hw
    · obtain ⟨e1, e2⟩ := pre_clause (W' := b! "IF") (by decide) (by decide) hw1 hb1 hne (fun x hx => (hh x hx).1) (com ++ nl ++ (body ++ R))
      dsimp only
      rw [e1, e2]
      have hs1 : Passed s { s with ifLevel := s.ifLevel + 1 } := rfl
      obtain ⟨y, p, hy, e3⟩ := preopIf_clause ho.toDecides (.inl rfl) i4 (b0 := []) (by simp [Blanks]) hne hc hh hcom h92 hnl (X := body ++ R)
        (by simp [i3]) k (by omega) _ hs1
      obtain ⟨r, s'', j1, j2, j3, j4, j5⟩ := i6 k (by omega) [] y nl R (by simp [Blanks]) hy hnl
        { s with ifLevel := s.ifLevel + 1, parseDepth := p, fwdRef := false } rfl
      refine ⟨r, s'', ?_, j2, Passed.trans (s1 := { s with ifLevel := s.ifLevel + 1, parseDepth := p, fwdRef := false }) rfl j3, j4, j5⟩
      show (M.modify (fun st => { st with ifLevel := st.ifLevel + 1 }) >>= fun _ => (knot (k + 1)).preopIf (c ++ (com ++ nl ++ (body ++ R)))) s = _
      rw [M.modify_bind]
      show preopIfBody (knot k) (c ++ (com ++ nl ++ (body ++ R))) { s with ifLevel := s.ifLevel + 1 } = _
      rw [← j1, show c ++ (com ++ nl ++ (body ++ R)) = [] ++ c ++ com ++ nl ++ (body ++ R) by simp, e3]
      simp
    · obtain ⟨b2, hb2, hdef⟩ := ho.words (35 :: W) c truth (by rcases hw with rfl | rfl <;> decide) i4 (com ++ nl ++ (body ++ R)) (comment_end hcom hnl _)
      obtain ⟨r, s'', j1, j2, j3, j4, j5⟩ := i6 (k + 1) (by omega) b2 com nl R hb2 hcom hnl { s with ifLevel := s.ifLevel + 1 } rfl
      refine ⟨r, s'', ?_, j2, Passed.trans (s1 := { s with ifLevel := s.ifLevel + 1 }) rfl j3, j4, j5⟩
      have e4 := hdef (knot (k + 1)) s (Passed.refl s)
      rw [show b2 ++ (com ++ nl ++ (body ++ R)) = b2 ++ com ++ nl ++ body ++ R by simp, j1] at e4
      rcases hw with rfl | rfl
      · obtain ⟨e1, e2⟩ := pre_clause (W' := b! "IFDEF") (by decide) (by decide) hw1 hb1 hne (fun x hx => (hh x hx).1) (com ++ nl ++ (body ++ R))
        dsimp only
        rw [e1, e2]
        exact e4
      · obtain ⟨e1, e2⟩ := pre_clause (W' := b! "IFNDEF") (by decide) (by decide) hw1 hb1 hne (fun x hx => (hh x hx).1) (com ++ nl ++ (body ++ R))
        dsimp only
        rw [e1, e2]
        exact e4
  obtain ⟨r, s', m1, m2, m3, m4, m5⟩ := main
  refine ⟨{ s' with lineNum := s'.lineNum + 1 }, loop_directive k f hline hb ho.going m1 (passed_going m3 ho.going) m2, m3.trans rfl, m4, m5⟩

/-! ### The rest of a group -/

theorem skipQuietly_ok (k : Rec) (words : List Str) (s : S) (hs : InSession s) (t r : Str) (n : Int)
    (h : ∀ x : S, x.errOccurred = s.errOccurred → x.lineNum = s.lineNum → skipUntil k words true t x = .ok r { x with lineNum := n }) :
    skipQuietly k words t s = .ok r { s with lineNum := n } := by
  unfold skipQuietly startSession
  have e1 := h { s with session := s.session + 1 } rfl rfl
  show (skipUntil k words true t >>= _) { s with session := s.session + 1 } = _
  rw [M.bind_ok e1]
  have hpre : ∀ l : List Err, (∀ e ∈ l, e.sess ≤ s.session) → l.dropWhile (fun e => e.sess == s.session + 1) = l ∧
      l.takeWhile (fun e => e.sess == s.session + 1) = [] := by
    intro l hl
    cases l with
    | nil => exact ⟨rfl, rfl⟩
    | cons e l =>
      have := hl e (by simp)
      have hne : (e.sess == s.session + 1) = false := by simp; omega
      exact ⟨by rw [List.dropWhile_cons, if_neg (by rw [hne]; decide)], by rw [List.takeWhile_cons, if_neg (by rw [hne]; decide)]⟩
  have e2 : endSession (s.session + 1) { s with session := s.session + 1, lineNum := n } = .ok () { s with lineNum := n } := by
    unfold endSession sessPrefix
    dsimp only
    rw [(hpre s.errors hs.2).1, (hpre s.errors hs.2).2]
    rw [if_neg (by simp), Int.add_sub_cancel]
  show (endSession (s.session + 1) >>= _) { s with session := s.session + 1, lineNum := n } = _
  rw [M.bind_ok e2]
  rfl

theorem unchosen_leaves {u : Str} (h : Unchosen u) (s : S) (hg : s.errOccurred = false) (hs : InSession s) (hl : 0 < s.ifLevel) (k f : Nat)
    {line : Str → M (Option Str)} (hline : Answers line (k + 2)) (R : Str) :
    ∃ s', firstPassLoop line (f + 1) (u ++ R) s = firstPassLoop line f R s' ∧
      Passed s s' ∧ s'.lineNum = s.lineNum + (u.count 10 : Nat) ∧ s.ifLevel ≤ s'.ifLevel + 1 ∧ s'.ifLevel ≤ s.ifLevel := by
  have hl0 : (s.ifLevel == 0) = false := by simp; omega
  cases h with
  | endif e h =>
    have hcount := stmt_count (wordLine_stmt (by decide) h)
    obtain ⟨b, w, b1, com, nl, rfl, hb, hw, hb1, hbc, hc, hnl⟩ := h
    obtain ⟨w1, rfl, hw1⟩ := sameText_hash hw
    obtain ⟨e1, e2⟩ := pre_word (W' := b! "ENDIF") (by decide) (by decide) hw1 hb1 hbc hc hnl R
    refine ⟨{ s with ifLevel := s.ifLevel - 1, lineNum := s.lineNum + 1 }, ?_, rfl, by rw [hcount]; rfl, by show s.ifLevel ≤ s.ifLevel - 1 + 1; omega,
      by show s.ifLevel - 1 ≤ s.ifLevel; omega⟩
    have hbody : handlePreopBody (knot k) (handleBitmap (knot k)) (w1 ++ (b1 ++ com ++ nl ++ R)) s =
        .ok (some (com ++ nl ++ R)) { s with ifLevel := s.ifLevel - 1 } := by
      unfold handlePreopBody
      dsimp only
      rw [e1, e2]
      show (M.get >>= fun st => if st.ifLevel > 0 then (M.modify (fun st => { st with ifLevel := st.ifLevel - 1 }) >>= fun _ => pure (some (com ++ nl ++ R)))
        else (setError E.STRAY_PREOP >>= fun _ => pure (some (com ++ nl ++ R)))) s = _
      rw [M.get_bind, if_pos hl, M.modify_bind]
      rfl
    rw [show b ++ 35 :: w1 ++ b1 ++ com ++ nl ++ R = b ++ 35 :: (w1 ++ (b1 ++ com ++ nl ++ R)) by simp]
    exact loop_directive k f hline hb hg hbody hg (by simpa using goesOn_newline (b := []) (X := R) (by simp [Blanks]) hc hnl)
  | else_ l t e h1 h2 h3 =>
    have hcl := stmt_count (wordLine_stmt (by decide) h1)
    have hce := stmt_count (wordLine_stmt (by decide) h3)
    obtain ⟨b, w, b1, com, nl, rfl, hb, hw, hb1, hbc, hc, hnl⟩ := h1
    obtain ⟨w1, rfl, hw1⟩ := sameText_hash hw
    obtain ⟨e1, e2⟩ := pre_word (W' := b! "ELSE") (by decide) (by decide) hw1 hb1 hbc hc hnl (t ++ e ++ R)
    have hq := skipQuietly_ok (knot k) stops s hs (com ++ nl ++ (t ++ e ++ R)) (e ++ R) (s.lineNum + 1 + (t.count 10 : Nat)) (by
      intro x hx hx'
      have := skip_branch (knot k) x (hx.trans hg) (b := []) (by simp [Blanks]) hc hnl h2 (e ++ R) wordEndif (by decide) (wordLine_begins h3) (wordLine_plainly h3)
      rw [hx'] at this
      rw [← this]
      congr 1
      simp)
    refine ⟨{ s with lineNum := s.lineNum + 1 + (t.count 10 : Nat) + 1 }, ?_, rfl, ?_, by show s.ifLevel ≤ s.ifLevel + 1; omega, Int.le_refl _⟩
    · have hbody : handlePreopBody (knot k) (handleBitmap (knot k)) (w1 ++ (b1 ++ com ++ nl ++ (t ++ e ++ R))) s =
          .ok (some (e ++ R)) { s with lineNum := s.lineNum + 1 + (t.count 10 : Nat) } := by
        unfold handlePreopBody
        dsimp only
        rw [e1, e2]
        show (M.get >>= fun st => if st.ifLevel == 0 then (setError E.STRAY_PREOP >>= fun _ => pure (some (com ++ nl ++ (t ++ e ++ R))))
          else (skipQuietly (knot k) stops (com ++ nl ++ (t ++ e ++ R)) >>= fun r => pure (some r))) s = _
        rw [M.get_bind, hl0, if_neg (by decide), M.bind_ok hq]
        rfl
      rw [show b ++ 35 :: w1 ++ b1 ++ com ++ nl ++ t ++ e ++ R = b ++ 35 :: (w1 ++ (b1 ++ com ++ nl ++ (t ++ e ++ R))) by simp]
      exact loop_directive k f hline hb hg hbody hg (goesOn_wordLine (by decide) h3)
    · rw [List.count_append, List.count_append, hcl, hce]
      dsimp only
      omega
  | elif l c t u h1 h2 h3 =>
    have hcl := stmt_count (clauseLine_stmt (by decide) h1)
    obtain ⟨b, w, c', b1, com, nl, rfl, hb, hw, hb1, hne, hc, hh, hcom, h92, hnl⟩ := h1
    obtain ⟨w1, rfl, hw1⟩ := sameText_hash hw
    obtain ⟨sts, l1, n1⟩ := h2
    obtain ⟨sts', mid, e, rfl, l2, n2, h6, h7⟩ := closed_unchosen h3
    have hce := stmt_count (wordLine_stmt (by decide) h6)
    have hmid : ∀ c ∈ mid.head?, c ≠ 10 ∧ c ≠ 13 ∧ c ≠ 34 ∧ c ≠ 39 ∧ c ≠ 92 := by
      intro c hc
      cases mid with
      | nil => simp at hc
      | cons d mid => exact h7 c (by simpa using hc)
    have notB : ∀ W, Sought W → (∃ x r, W = x :: r ∧ (x = 35 ∨ x = 41)) → ¬ Begins W c := by
      rintro W hW ⟨x, r, rfl, hx⟩ h
      obtain ⟨z, q, q1, q2⟩ := begins_skip hW h
      cases c with
      | nil => exact hne rfl
      | cons d c =>
        have hd' := hh d rfl
        have hbl : isBlank d = false := by
          rw [← Bool.not_eq_true, isBlank_iff]
          have := hd'.1
          unfold White at this
          omega
        rw [skipWs_cons _ _ hbl] at q1
        cases z with
        | nil => simp [SameText] at q2
        | cons y z =>
          simp only [List.cons_append, List.cons.injEq] at q1
          obtain ⟨rfl, -⟩ := q1
          unfold SameText at q2
          simp only [List.map_cons, List.cons.injEq] at q2
          have h0 := q2.1
          have := hd'.2
          unfold upperCase at h0
          split at h0 <;> split at h0 <;> omega
    obtain ⟨e1, e2⟩ := pre_clause (W' := b! "ELIF") (by decide) (by decide) hw1 hb1 hne (fun x hx => (hh x hx).1) (com ++ nl ++ (t ++ mid ++ (e ++ R)))
    have hbe := wordLine_begins (r := R) h6
    have hq := skipQuietly_ok (knot k) [wordEndif] s hs (c ++ (com ++ nl ++ (t ++ mid ++ (e ++ R)))) (e ++ R)
      (s.lineNum + ((c ++ com ++ nl ++ (t ++ mid)).count 10 : Nat)) (by
      intro x hx hx'
      have := skipUntil_finds (knot k) [wordEndif] endif_sought true x (hx.trans hg) (c :: (sts ++ sts')) (c ++ com ++ nl ++ (t ++ mid)) (e ++ R) wordEndif
        (.newline _ _ _ _ _ hc (notB [41] (by decide) ⟨41, [], rfl, by decide⟩) hcom hnl (lines_append l1 l2 hmid))
        (.other _ _ _ _ (notB _ (by decide) ⟨35, _, rfl, by decide⟩) (notB _ (by decide) ⟨35, _, rfl, by decide⟩)
          (fun _ w hw => by simp only [List.mem_singleton] at hw; subst hw; exact notB _ (by decide) ⟨35, _, rfl, by decide⟩)
          (nesting_append (nesting_fewer (by decide) n1) n2)) (by simp) hbe (noWord_of (by decide) (by decide) hbe (by decide))
        (by intro c hc; have := wordLine_plainly (r := R) h6 c hc; omega)
      rw [hx', if_pos rfl] at this
      rw [← this]
      congr 1
      simp)
    have hcnt : (c ++ com ++ nl ++ (t ++ mid)).count 10 = 1 + t.count 10 + mid.count 10 := by
      rw [List.count_append, List.count_append, List.count_append, count_plain (CodeText_plain hc), count_plain (comment_ne hcom), count_newline hnl,
        List.count_append]
      omega
    rw [hcnt] at hq
    refine ⟨{ s with lineNum := s.lineNum + (1 + t.count 10 + mid.count 10 : Nat) + 1 }, ?_, rfl, ?_, by show s.ifLevel ≤ s.ifLevel + 1; omega, Int.le_refl _⟩
    · have hbody : handlePreopBody (knot k) (handleBitmap (knot k)) (w1 ++ c' :: (b1 ++ c ++ (com ++ nl ++ (t ++ mid ++ (e ++ R))))) s =
          .ok (some (e ++ R)) { s with lineNum := s.lineNum + (1 + t.count 10 + mid.count 10 : Nat) } := by
        unfold handlePreopBody
        dsimp only
        rw [e1, e2]
        show (M.get >>= fun st => M.when (st.ifLevel == 0) (setError E.ELIF_WITHOUT_IF) >>= fun _ =>
          (skipQuietly (knot k) [wordEndif] (c ++ (com ++ nl ++ (t ++ mid ++ (e ++ R)))) >>= fun r => pure (some r))) s = _
        rw [M.get_bind, hl0, M.when_false, M.pure_bind, M.bind_ok hq]
        rfl
      rw [show b ++ 35 :: w1 ++ c' :: (b1 ++ c ++ com) ++ nl ++ t ++ (mid ++ e) ++ R =
        b ++ 35 :: (w1 ++ c' :: (b1 ++ c ++ (com ++ nl ++ (t ++ mid ++ (e ++ R))))) by simp]
      exact loop_directive k f hline hb hg hbody hg (goesOn_wordLine (by decide) h6)
    · rw [List.count_append, List.count_append, hcl, List.count_append, hce]
      dsimp only
      omega

end Spasm
