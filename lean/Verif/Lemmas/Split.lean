import Verif.Spec.Split
import Verif.Lemmas.ExprBase

/-
Scanning balanced texts: read_expr_impl, next_expr, extract_arg_string.
-/

namespace Spasm
open Spec

theorem Spec.Ordinary.isEnd {c : Nat} (h : Ordinary c) (r : Str) : isEnd (c :: r) = false := by
  unfold Ordinary at h
  unfold Spasm.isEnd
  simp; omega

/-! ### read_expr_impl -/

section
variable (bd : Bool) (delims : Str)

theorem read_char (f : Nat) (con r : Str) (lvl : Int) (c : Nat) (hc : Ordinary c) (hd : lvl = 0 → c ∉ delims)
    (hl : bd = true → con.length < 254) :
    readLoop bd delims (f + 1) ⟨con, c :: r, false, false, 0, lvl⟩ =
      readLoop bd delims f ⟨c :: con, r, false, false, 0, lvl⟩ := by
  rw [readLoop]
  dsimp only
  have h1 := hc.isEnd r
  unfold Ordinary at hc
  have hl' : (bd && decide (con.length ≥ 254)) = false := by
    cases bd
    · rfl
    · have := hl rfl; simp; omega
  have h2 : ((delims.contains c || isEnd (c :: r)) && !false && !false && (0 == 0) && lvl == 0) = false := by
    by_cases h0 : lvl = 0
    · simp [h1, hd h0]
    · simp [h0]
  simp only [h2, Bool.false_eq_true, if_false, hl']
  simp [show c ≠ 34 by omega, show c ≠ 39 by omega, show c ≠ 92 by omega, show c ≠ 40 by omega, show c ≠ 41 by omega]

theorem read_body (b : Str) (hb : StringBody b) : ∀ (f : Nat) (con r : Str) (lvl : Int), 0 ≤ lvl → b.length ≤ f →
    (bd = true → con.length + b.length ≤ 254) →
    readLoop bd delims f ⟨con, b ++ r, true, false, 0, lvl⟩ =
      readLoop bd delims (f - b.length) ⟨b.reverse ++ con, r, true, false, 0, lvl⟩ := by
  induction hb with
  | nil => intros; rfl
  | char c t h1 h2 _ ih =>
    intro f con r lvl hlv hf hl
    obtain ⟨f, rfl⟩ : ∃ m, f = m + 1 := ⟨f - 1, by simp at hf; omega⟩
    have hl' : (bd && decide (con.length ≥ 254)) = false := by
      cases bd
      · rfl
      · have := hl rfl; simp at this; simp; omega
    have step : readLoop bd delims (f + 1) ⟨con, c :: t ++ r, true, false, 0, lvl⟩ =
        readLoop bd delims f ⟨c :: con, t ++ r, true, false, 0, lvl⟩ := by
      rw [readLoop]
      dsimp only [List.cons_append]
      simp only [Bool.not_true, Bool.and_false, Bool.false_and, Bool.false_eq_true, if_false, hl']
      by_cases h39 : c = 39
      · simp [h39]
      by_cases h40 : c = 40
      · simp [h40]
      by_cases h41 : c = 41
      · simp [h41]; omega
      simp [h1, h2, h39, h40, h41]
    rw [step, ih f _ r lvl hlv (by simp at hf; omega) (by intro h; have := hl h; simp at this ⊢; omega)]
    simp
  | escape c t _ ih =>
    intro f con r lvl hlv hf hl
    obtain ⟨f, rfl⟩ : ∃ m, f = m + 2 := ⟨f - 2, by simp at hf; omega⟩
    have hl' : (bd && decide (con.length ≥ 254)) = false := by
      cases bd
      · rfl
      · have := hl rfl; simp at this; simp; omega
    have hl2 : (bd && decide ((92 :: con).length ≥ 254)) = false := by
      cases bd
      · rfl
      · have := hl rfl; simp at this; simp; omega
    have step : readLoop bd delims (f + 2) ⟨con, 92 :: c :: t ++ r, true, false, 0, lvl⟩ =
        readLoop bd delims f ⟨c :: 92 :: con, t ++ r, true, false, 0, lvl⟩ := by
      rw [readLoop]
      dsimp only [List.cons_append]
      simp only [Bool.not_true, Bool.and_false, Bool.false_and, Bool.false_eq_true, if_false, hl']
      simp only [show ((92 : Nat) == 34) = false from rfl, show ((92 : Nat) == 39) = false from rfl, Bool.false_eq_true,
        if_false, beq_self_eq_true, if_true]
      rw [readLoop]
      dsimp only
      simp only [Bool.not_true, Bool.and_false, Bool.false_and, Bool.false_eq_true, if_false, hl2, if_true]
    rw [step, ih f _ r lvl hlv (by simp at hf; omega) (by intro h; have := hl h; simp at this ⊢; omega)]
    simp

/-- The word is not yet too long. -/
def Short (con : Str) : Prop := bd = true → con.length < 254

theorem Short.eq {con : Str} (h : Short bd con) : (bd && decide (con.length ≥ 254)) = false := by
  cases bd
  · rfl
  · have := h rfl; simp; omega

theorem read_quote (f : Nat) (con r : Str) (lvl : Int) (h : Short bd con) :
    readLoop bd delims (f + 1) ⟨con, 39 :: r, false, false, 1, lvl⟩ =
      readLoop bd delims f ⟨39 :: con, r, false, false, 0, lvl⟩ := by
  rw [readLoop]
  dsimp only
  simp [h.eq]

theorem read_open (f : Nat) (con r : Str) (lvl : Int) (hd : lvl = 0 → 39 ∉ delims) (h : Short bd con) :
    readLoop bd delims (f + 1) ⟨con, 39 :: r, false, false, 0, lvl⟩ =
      readLoop bd delims f ⟨39 :: con, r, false, false, 2, lvl⟩ := by
  rw [readLoop]
  dsimp only
  have h2 : ((delims.contains 39 || isEnd (39 :: r)) && !false && !false && (0 == 0) && lvl == 0) = false := by
    by_cases h0 : lvl = 0
    · simp [isEnd, hd h0]
    · simp [h0]
  simp only [h2, h.eq]
  simp

theorem read_mid (f : Nat) (con r : Str) (lvl : Int) (c : Nat) (hlv : 0 ≤ lvl) (hc : c ≠ 92) (h : Short bd con) :
    readLoop bd delims (f + 1) ⟨con, c :: r, false, false, 2, lvl⟩ =
      readLoop bd delims f ⟨c :: con, r, false, false, 1, lvl⟩ := by
  rw [readLoop]
  dsimp only
  simp only [show ((2 : Nat) == 0) = false from rfl, Bool.and_false, Bool.false_and, Bool.false_eq_true, if_false, h.eq]
  by_cases h34 : c = 34
  · simp [h34]
  by_cases h39 : c = 39
  · simp [h39]
  by_cases h40 : c = 40
  · simp [h40]
  by_cases h41 : c = 41
  · simp [h41]; omega
  simp [hc, h34, h39, h40, h41]

theorem read_escape (f : Nat) (con r : Str) (lvl : Int) (c : Nat) (h : Short bd (92 :: con)) :
    readLoop bd delims (f + 2) ⟨con, 92 :: c :: r, false, false, 2, lvl⟩ =
      readLoop bd delims f ⟨c :: 92 :: con, r, false, false, 1, lvl⟩ := by
  have h' : Short bd con := fun hb => by have := h hb; simp at this; omega
  rw [readLoop]
  dsimp only
  simp only [show ((2 : Nat) == 0) = false from rfl, Bool.and_false, Bool.false_and, Bool.false_eq_true, if_false, h'.eq,
    show ((92 : Nat) == 34) = false from rfl, show ((92 : Nat) == 39) = false from rfl, beq_self_eq_true, if_true]
  rw [readLoop]
  dsimp only
  simp only [Bool.not_true, Bool.and_false, Bool.false_and, Bool.false_eq_true, if_false, h.eq, if_true]

theorem read_string (f : Nat) (con r : Str) (lvl : Int) (hd : lvl = 0 → 34 ∉ delims) (h : Short bd con) :
    readLoop bd delims (f + 1) ⟨con, 34 :: r, false, false, 0, lvl⟩ =
      readLoop bd delims f ⟨34 :: con, r, true, false, 0, lvl⟩ := by
  rw [readLoop]
  dsimp only
  have h2 : ((delims.contains 34 || isEnd (34 :: r)) && !false && !false && (0 == 0) && lvl == 0) = false := by
    by_cases h0 : lvl = 0
    · simp [isEnd, hd h0]
    · simp [h0]
  simp only [h2, h.eq]
  simp

theorem read_stringEnd (f : Nat) (con r : Str) (lvl : Int) (h : Short bd con) :
    readLoop bd delims (f + 1) ⟨con, 34 :: r, true, false, 0, lvl⟩ =
      readLoop bd delims f ⟨34 :: con, r, false, false, 0, lvl⟩ := by
  rw [readLoop]
  dsimp only
  simp [h.eq]

theorem read_paren (f : Nat) (con r : Str) (lvl : Int) (hd : lvl = 0 → 40 ∉ delims) (h : Short bd con) :
    readLoop bd delims (f + 1) ⟨con, 40 :: r, false, false, 0, lvl⟩ =
      readLoop bd delims f ⟨40 :: con, r, false, false, 0, lvl + 1⟩ := by
  rw [readLoop]
  dsimp only
  have h2 : ((delims.contains 40 || isEnd (40 :: r)) && !false && !false && (0 == 0) && lvl == 0) = false := by
    by_cases h0 : lvl = 0
    · simp [isEnd, hd h0]
    · simp [h0]
  simp only [h2, h.eq]
  simp

theorem read_parenEnd (f : Nat) (con r : Str) (lvl : Int) (hlv : 0 ≤ lvl) (h : Short bd con) :
    readLoop bd delims (f + 1) ⟨con, 41 :: r, false, false, 0, lvl + 1⟩ =
      readLoop bd delims f ⟨41 :: con, r, false, false, 0, lvl⟩ := by
  rw [readLoop]
  dsimp only
  have h2 : ((delims.contains 41 || isEnd (41 :: r)) && !false && !false && (0 == 0) && lvl + 1 == 0) = false := by
    simp [show ¬ lvl + 1 = 0 by omega]
  simp only [h2, h.eq]
  simp
  omega

/-- The scanner passes a balanced text. -/
theorem read_balanced (hq : 34 ∉ delims ∧ 39 ∉ delims ∧ 40 ∉ delims) {i : Bool} {t : Str} (h : Balanced delims i t) :
    ∀ (f : Nat) (con r : Str) (lvl : Int), 0 ≤ lvl →
    (i = true → 0 < lvl) → t.length ≤ f → (bd = true → con.length + t.length ≤ 254) →
    readLoop bd delims f ⟨con, t ++ r, false, false, 0, lvl⟩ =
      readLoop bd delims (f - t.length) ⟨t.reverse ++ con, r, false, false, 0, lvl⟩ := by
  induction h with
  | nil => intros; rfl
  | char i c t hc hd _ ih =>
    intro f con r lvl hlv hi hf hl
    obtain ⟨f, rfl⟩ : ∃ m, f = m + 1 := ⟨f - 1, by simp at hf; omega⟩
    rw [List.cons_append, read_char bd delims f con (t ++ r) lvl c hc
      (fun h0 => hd (by cases i with | false => rfl | true => have := hi rfl; omega))
      (fun h => by have := hl h; simp at this; omega)]
    rw [ih f _ r lvl hlv hi (by simp at hf; omega) (by intro h; have := hl h; simp at this ⊢; omega)]
    simp
  | quoted i c t hc _ ih =>
    intro f con r lvl hlv hi hf hl
    obtain ⟨f, rfl⟩ : ∃ m, f = m + 3 := ⟨f - 3, by simp at hf; omega⟩
    simp only [List.cons_append]
    rw [read_open bd delims (f + 2) con _ lvl (fun _ => hq.2.1) (fun h => by have := hl h; simp at this; omega),
      read_mid bd delims (f + 1) _ _ lvl c hlv hc (fun h => by have := hl h; simp at this ⊢; omega),
      read_quote bd delims f _ _ lvl (fun h => by have := hl h; simp at this ⊢; omega),
      ih f _ r lvl hlv hi (by simp at hf; omega) (by intro h; have := hl h; simp at this ⊢; omega)]
    simp
  | escaped i c t _ ih =>
    intro f con r lvl hlv hi hf hl
    obtain ⟨f, rfl⟩ : ∃ m, f = m + 4 := ⟨f - 4, by simp at hf; omega⟩
    simp only [List.cons_append]
    rw [read_open bd delims (f + 3) con _ lvl (fun _ => hq.2.1) (fun h => by have := hl h; simp at this; omega),
      read_escape bd delims (f + 1) _ _ lvl c (fun h => by have := hl h; simp at this ⊢; omega),
      read_quote bd delims f _ _ lvl (fun h => by have := hl h; simp at this ⊢; omega),
      ih f _ r lvl hlv hi (by simp at hf; omega) (by intro h; have := hl h; simp at this ⊢; omega)]
    simp
  | string i b t hb _ ih =>
    intro f con r lvl hlv hi hf hl
    simp only [List.length_cons, List.length_append] at hf hl
    obtain ⟨f, rfl⟩ : ∃ m, f = (m + 1 + b.length) + 1 := ⟨f - 2 - b.length, by omega⟩
    simp only [List.cons_append, List.append_assoc]
    rw [read_string bd delims _ con _ lvl (fun _ => hq.1) (fun h => by have := hl h; omega),
      read_body bd delims b hb _ _ _ lvl hlv (by omega) (fun h => by have := hl h; simp; omega),
      Nat.add_sub_cancel,
      read_stringEnd bd delims f _ _ lvl (fun h => by have := hl h; simp; omega),
      ih f _ r lvl hlv hi (by omega) (by intro h; have := hl h; simp; omega)]
    congr 1
    · simp; omega
    · simp
  | paren i u t _ _ ihu ih =>
    intro f con r lvl hlv hi hf hl
    simp only [List.length_cons, List.length_append] at hf hl
    obtain ⟨f, rfl⟩ : ∃ m, f = (m + 1 + u.length) + 1 := ⟨f - 2 - u.length, by omega⟩
    simp only [List.cons_append, List.append_assoc]
    rw [read_paren bd delims _ con _ lvl (fun _ => hq.2.2) (fun h => by have := hl h; omega),
      ihu _ _ _ (lvl + 1) (by omega) (fun _ => by omega) (by omega) (fun h => by have := hl h; simp; omega),
      Nat.add_sub_cancel,
      read_parenEnd bd delims f _ _ lvl hlv (fun h => by have := hl h; simp; omega),
      ih f _ r lvl hlv hi (by omega) (by intro h; have := hl h; simp; omega)]
    congr 1
    · simp; omega
    · simp

/-- The characters at which a word ends. -/
def Stops (r : Str) : Prop := isEnd r = true ∨ hd r ∈ delims ∨ hd r = 41

theorem read_stop (f : Nat) (con r : Str) (h : Stops delims r) :
    readLoop bd delims (f + 1) ⟨con, r, false, false, 0, 0⟩ = .word con r := by
  rw [readLoop]
  cases r with
  | nil => rfl
  | cons c t =>
    dsimp only
    by_cases h1 : (delims.contains c || isEnd (c :: t)) = true
    · rw [if_pos (by simpa using h1)]
    · have h2 : c = 41 := by
        rcases h with h | h | h
        · simp [h] at h1
        · simp at h; simp [h] at h1
        · simpa using h
      rw [if_neg (by simpa using h1)]
      subst h2
      simp
end

theorem isSpace_iff (c : Nat) : isSpace c = true ↔ White c := by
  unfold isSpace White
  simp

theorem dropWhile_trim (a b : Str) (ha : Trimmed a) (hb : Blanks b) :
    ((a ++ b).reverse.dropWhile isSpace).reverse = a := by
  have h1 : ∀ c ∈ b.reverse, isSpace c = true := by
    intro c hc
    rw [isSpace_iff]
    have := hb c (by simpa using hc)
    unfold White; omega
  rw [List.reverse_append, List.dropWhile_append_of_pos h1]
  obtain ⟨h2, -, h3⟩ := ha
  have : a.reverse.dropWhile isSpace = a.reverse := by
    rw [← List.head?_reverse] at h3
    cases h : a.reverse with
    | nil => rfl
    | cons c t =>
      rw [h] at h3
      have := h3 c (by simp)
      rw [← isSpace_iff] at this
      rw [List.dropWhile_cons_of_neg this]
  rw [this, List.reverse_reverse]

theorem balanced_blanks (delims : Str) (h : ∀ c ∈ delims, ¬ White c) {i : Bool} {a b : Str} (ha : Balanced delims i a)
    (hb : Blanks b) : Balanced delims i (a ++ b) := by
  have hb' : Balanced delims i b := by
    clear ha
    induction b with
    | nil => exact .nil i
    | cons c b ih =>
      have := hb c (by simp)
      refine .char i c b (by unfold Ordinary; omega) (fun _ hc => h c hc ?_) (ih fun x hx => hb x (by simp [hx]))
      unfold White; omega
  induction ha with
  | nil => exact hb'
  | char i c t h1 h2 _ ih => exact .char i c _ h1 h2 (ih hb')
  | quoted i c t h1 _ ih => exact .quoted i c _ h1 (ih hb')
  | escaped i c t _ ih => exact .escaped i c _ (ih hb')
  | string i b' t h1 _ ih =>
    simpa using Balanced.string i b' _ h1 (ih hb')
  | paren i u t hu _ _ ih =>
    simpa using Balanced.paren i u _ hu (ih hb')

theorem balanced_start {delims : Str} {i : Bool} {a : Str} (ha : Balanced delims i a) (h : a ≠ []) :
    ∃ c r, a = c :: r ∧ c ≠ 41 ∧ c ≠ 92 ∧ c ≠ 10 ∧ c ≠ 13 ∧ c ≠ 59 := by
  cases ha with
  | nil => exact absurd rfl h
  | char i c t h1 _ _ => unfold Ordinary at h1; exact ⟨c, _, rfl, by omega, by omega, by omega, by omega, by omega⟩
  | quoted => exact ⟨39, _, rfl, by omega, by omega, by omega, by omega, by omega⟩
  | escaped => exact ⟨39, _, rfl, by omega, by omega, by omega, by omega, by omega⟩
  | string => exact ⟨34, _, rfl, by omega, by omega, by omega, by omega, by omega⟩
  | paren => exact ⟨40, _, rfl, by omega, by omega, by omega, by omega, by omega⟩

/-- A word: what read_expr gives for a balanced text with blanks around it. -/
theorem readExpr_balanced (bd : Bool) (delims : Str) (hq : 34 ∉ delims ∧ 39 ∉ delims ∧ 40 ∉ delims)
    (hw : ∀ c ∈ delims, ¬ White c) (b a b' r : Str) (s : S) (hb : Blanks b) (hb' : Blanks b')
    (ha : Balanced delims false a) (ht : Trimmed a) (hl : bd = true → (a ++ b').length ≤ 254) (hr : Stops delims r) :
    readExpr delims (b ++ a ++ b' ++ r) bd s = .ok (true, a, r) s := by
  obtain ⟨c, t, hat, h41, h92, h10, h13, h59⟩ := balanced_start ha ht.1
  have hblank : isBlank c = false := by
    have := ht.2.1 c (by rw [hat]; simp)
    rw [← isSpace_iff] at this
    unfold isBlank; simp [this]
  have hsk : skipWs (b ++ a ++ b' ++ r) = (a ++ b') ++ r := by
    rw [show b ++ a ++ b' ++ r = b ++ (a ++ (b' ++ r)) by simp, skipWs_blanks b _ hb, hat, List.cons_append,
      skipWs_cons c _ hblank]
    simp
  unfold readExpr
  simp only [hsk]
  have h1 : (isEnd ((a ++ b') ++ r) || hd ((a ++ b') ++ r) == 41) = false := by
    rw [hat]; unfold isEnd hd; simp; omega
  simp only [h1, Bool.false_eq_true, if_false]
  have hbal := balanced_blanks delims hw ha hb'
  rw [read_balanced bd delims hq hbal _ [] r 0 (by omega) (fun h => by simp at h) (by simp; omega)
    (fun h => by have := hl h; simp at this ⊢; omega)]
  obtain ⟨f, hf⟩ : ∃ f, 3 * ((a ++ b') ++ r).length + 3 - (a ++ b').length = f + 1 := ⟨_, by
    simp only [List.length_append]
    rw [show 3 * (a.length + b'.length + r.length) + 3 - (a.length + b'.length) =
      (2 * (a.length + b'.length) + 3 * r.length + 2) + 1 by omega]⟩
  rw [hf, read_stop bd delims f _ r hr]
  simp only [List.append_nil]
  rw [dropWhile_trim a b' ht hb']

/-! ### next_expr -/

section
variable (delims : Str)

theorem next_char (f : Nat) (con r : Str) (lvl : Int) (c : Nat) (hc : c ≠ 34 ∧ c ≠ 39 ∧ c ≠ 92 ∧ c ≠ 10 ∧ c ≠ 13 ∧ c ≠ 59)
    (hd : c ∉ delims) :
    nextExprLoop delims (f + 1) ⟨con, c :: r, false, false, 0, lvl⟩ =
      nextExprLoop delims f ⟨c :: con, r, false, false, 0, lvl⟩ := by
  rw [nextExprLoop]
  dsimp only
  have h2 : ((delims.contains c || isEnd (c :: r)) && !false && !false && (0 == 0)) = false := by
    simp [hd, isEnd]; omega
  simp only [h2, Bool.false_eq_true, if_false]
  simp [show c ≠ 34 by omega, show c ≠ 39 by omega, show c ≠ 92 by omega]

theorem next_body (b : Str) (hb : StringBody b) : ∀ (f : Nat) (con r : Str) (lvl : Int), b.length ≤ f →
    nextExprLoop delims f ⟨con, b ++ r, true, false, 0, lvl⟩ =
      nextExprLoop delims (f - b.length) ⟨b.reverse ++ con, r, true, false, 0, lvl⟩ := by
  induction hb with
  | nil => intros; rfl
  | char c t h1 h2 _ ih =>
    intro f con r lvl hf
    obtain ⟨f, rfl⟩ : ∃ m, f = m + 1 := ⟨f - 1, by simp at hf; omega⟩
    have step : nextExprLoop delims (f + 1) ⟨con, c :: t ++ r, true, false, 0, lvl⟩ =
        nextExprLoop delims f ⟨c :: con, t ++ r, true, false, 0, lvl⟩ := by
      rw [nextExprLoop]
      dsimp only [List.cons_append]
      by_cases h39 : c = 39
      · simp [h39]
      simp [h1, h2, h39]
    rw [step, ih f _ r lvl (by simp at hf; omega)]
    simp
  | escape c t _ ih =>
    intro f con r lvl hf
    obtain ⟨f, rfl⟩ : ∃ m, f = m + 2 := ⟨f - 2, by simp at hf; omega⟩
    have step : nextExprLoop delims (f + 2) ⟨con, 92 :: c :: t ++ r, true, false, 0, lvl⟩ =
        nextExprLoop delims f ⟨c :: 92 :: con, t ++ r, true, false, 0, lvl⟩ := by
      rw [nextExprLoop]
      dsimp only [List.cons_append]
      simp only [Bool.not_true, Bool.and_false, Bool.false_and, Bool.false_eq_true, if_false,
        show ((92 : Nat) == 34) = false from rfl, show ((92 : Nat) == 39) = false from rfl, beq_self_eq_true, if_true]
      rw [nextExprLoop]
      dsimp only
      simp
    rw [step, ih f _ r lvl (by simp at hf; omega)]
    simp

theorem next_string (f : Nat) (b con r : Str) (lvl : Int) (hb : StringBody b) (hd : 34 ∉ delims) (hf : b.length + 2 ≤ f) :
    nextExprLoop delims f ⟨con, 34 :: b ++ 34 :: r, false, false, 0, lvl⟩ =
      nextExprLoop delims (f - (b.length + 2)) ⟨(34 :: b ++ [34]).reverse ++ con, r, false, false, 0, lvl⟩ := by
  obtain ⟨f, rfl⟩ : ∃ m, f = (m + 1 + b.length) + 1 := ⟨f - 2 - b.length, by omega⟩
  simp only [List.cons_append]
  rw [nextExprLoop]
  dsimp only
  rw [if_neg (by simp [isEnd, hd])]
  simp only [Bool.false_eq_true, if_false, beq_self_eq_true, if_true, Bool.not_false, Nat.zero_sub]
  rw [next_body delims b hb _ _ _ lvl (by omega), Nat.add_sub_cancel, nextExprLoop]
  rw [show f + 1 + b.length + 1 - (b.length + 2) = f by omega]
  simp

theorem next_quoted (f : Nat) (con r : Str) (lvl : Int) (c : Nat) (hc : c ≠ 92) (hd : 39 ∉ delims) :
    nextExprLoop delims (f + 3) ⟨con, 39 :: c :: 39 :: r, false, false, 0, lvl⟩ =
      nextExprLoop delims f ⟨39 :: c :: 39 :: con, r, false, false, 0, lvl⟩ := by
  rw [nextExprLoop]
  dsimp only
  rw [if_neg (by simp [isEnd, hd])]
  simp only [Bool.false_eq_true, if_false, beq_self_eq_true, if_true, Bool.not_false, Bool.and_self,
    show ((39 : Nat) == 34) = false from rfl]
  rw [nextExprLoop]
  dsimp only
  have mid : ∀ z : Scan, z = ⟨39 :: c :: 39 :: con, r, false, false, 0, lvl⟩ →
      nextExprLoop delims (f + 1) ⟨c :: 39 :: con, 39 :: r, false, false, 1, lvl⟩ = nextExprLoop delims f z := by
    rintro _ rfl
    rw [nextExprLoop]
    simp
  by_cases h34 : c = 34
  · subst h34; simp; exact mid _ rfl
  by_cases h39 : c = 39
  · subst h39; simp; exact mid _ rfl
  simp [hc, h34, h39]
  exact mid _ rfl

theorem next_escaped (f : Nat) (con r : Str) (lvl : Int) (c : Nat) (hd : 39 ∉ delims) :
    nextExprLoop delims (f + 4) ⟨con, 39 :: 92 :: c :: 39 :: r, false, false, 0, lvl⟩ =
      nextExprLoop delims f ⟨39 :: c :: 92 :: 39 :: con, r, false, false, 0, lvl⟩ := by
  rw [nextExprLoop]
  dsimp only
  rw [if_neg (by simp [isEnd, hd])]
  simp only [Bool.false_eq_true, if_false, beq_self_eq_true, if_true, Bool.not_false, Bool.and_self,
    show ((39 : Nat) == 34) = false from rfl]
  rw [nextExprLoop]
  simp
  rw [nextExprLoop]
  simp
  rw [nextExprLoop]
  simp

/-- The scanner passes a balanced text, if the delimiters cannot occur in it at all. -/
theorem next_balanced (hq : ∀ c ∈ delims, c = 92 ∨ c = 59 ∨ c = 13 ∨ c = 10) {d' : Str} {i : Bool} {t : Str} (h : Balanced d' i t) :
    ∀ (f : Nat) (con r : Str) (lvl : Int), t.length ≤ f →
    nextExprLoop delims f ⟨con, t ++ r, false, false, 0, lvl⟩ =
      nextExprLoop delims (f - t.length) ⟨t.reverse ++ con, r, false, false, 0, lvl⟩ := by
  have hq1 : ∀ c, c ≠ 92 → c ≠ 59 → c ≠ 13 → c ≠ 10 → c ∉ delims := by
    intro c h1 h2 h3 h4 hc
    rcases hq c hc with h | h | h | h <;> contradiction
  induction h with
  | nil => intros; rfl
  | char i c t hc hd _ ih =>
    intro f con r lvl hf
    obtain ⟨f, rfl⟩ : ∃ m, f = m + 1 := ⟨f - 1, by simp at hf; omega⟩
    unfold Ordinary at hc
    rw [List.cons_append, next_char delims f con (t ++ r) lvl c (by omega) (hq1 c (by omega) (by omega) (by omega) (by omega)),
      ih f _ r lvl (by simp at hf; omega)]
    simp
  | quoted i c t hc _ ih =>
    intro f con r lvl hf
    obtain ⟨f, rfl⟩ : ∃ m, f = m + 3 := ⟨f - 3, by simp at hf; omega⟩
    simp only [List.cons_append]
    rw [next_quoted delims f con _ lvl c hc (hq1 39 (by decide) (by decide) (by decide) (by decide)),
      ih f _ r lvl (by simp at hf; omega)]
    simp
  | escaped i c t _ ih =>
    intro f con r lvl hf
    obtain ⟨f, rfl⟩ : ∃ m, f = m + 4 := ⟨f - 4, by simp at hf; omega⟩
    simp only [List.cons_append]
    rw [next_escaped delims f con _ lvl c (hq1 39 (by decide) (by decide) (by decide) (by decide)),
      ih f _ r lvl (by simp at hf; omega)]
    simp
  | string i b t hb _ ih =>
    intro f con r lvl hf
    simp only [List.length_cons, List.length_append] at hf
    rw [show 34 :: b ++ 34 :: t ++ r = 34 :: b ++ 34 :: (t ++ r) by simp,
      next_string delims f b con _ lvl hb (hq1 34 (by decide) (by decide) (by decide) (by decide)) (by omega),
      ih _ _ r lvl (by omega)]
    congr 1
    · simp; omega
    · simp
  | paren i u t _ _ ihu ih =>
    intro f con r lvl hf
    simp only [List.length_cons, List.length_append] at hf
    obtain ⟨f, rfl⟩ : ∃ m, f = (m + 1 + u.length) + 1 := ⟨f - 2 - u.length, by omega⟩
    simp only [List.cons_append, List.append_assoc]
    rw [next_char delims _ con _ lvl 40 (by decide) (hq1 40 (by decide) (by decide) (by decide) (by decide)),
      ihu _ _ _ lvl (by omega), Nat.add_sub_cancel,
      next_char delims f _ _ lvl 41 (by decide) (hq1 41 (by decide) (by decide) (by decide) (by decide)),
      ih f _ r lvl (by omega)]
    congr 1
    · simp; omega
    · simp

theorem next_stop (f : Nat) (con r : Str) (lvl : Int) (h : isEnd r = true ∨ hd r ∈ delims) :
    (nextExprLoop delims (f + 1) ⟨con, r, false, false, 0, lvl⟩).rest = r := by
  rw [nextExprLoop]
  cases r with
  | nil => rfl
  | cons c t =>
    have h1 : (delims.contains c || isEnd (c :: t)) = true := by
      rcases h with h | h
      · simp [h]
      · simp at h; simp [h]
    dsimp only
    rw [if_pos (by simpa using h1)]
end

/-- A string operand is not followed by an operator. -/
theorem nextExpr_string (delims b : Str) (hb : StringBody b) (hd : 34 ∉ delims) : nextExpr delims (34 :: b ++ [34]) = [] := by
  unfold nextExpr
  have hsk : skipWs (34 :: b ++ [34]) = 34 :: b ++ [34] := skipWs_cons 34 _ (by decide)
  simp only [hsk]
  have h1 : (isEnd (34 :: b ++ [34]) || Spasm.hd (34 :: b ++ [34]) == 41) = false := rfl
  simp only [h1, Bool.false_eq_true, if_false]
  rw [show (⟨[], 34 :: b ++ [34], false, false, 0, 0⟩ : Scan) = ⟨[], 34 :: b ++ 34 :: [], false, false, 0, 0⟩ from rfl,
    next_string delims _ b [] [] 0 hb hd (by simp; omega)]
  obtain ⟨f, hf⟩ : ∃ f, 3 * (34 :: b ++ [34]).length + 3 - (b.length + 2) = f + 1 := ⟨2 * b.length + 6, by simp; omega⟩
  rw [hf, next_stop delims f _ [] 0 (.inl rfl)]

end Spasm
