import Verif.Spec.Define
import Verif.Lemmas.Preop
import Verif.Lemmas.Tidy
import Verif.Lemmas.ExprBase

/-
Lemmas for definitions: the end of the line, the test for `eval` and `concat`, and the expansion of a text without
names to replace.
-/

namespace Spasm
open Spec

/-! ### The end of the line -/

theorem skipToLineEnd_end (e : Bool) (rest : Str) (h : LineEnd rest) : skipToLineEnd e false rest = rest := by
  rcases h with rfl | ⟨c, r, rfl, h⟩
  · rfl
  · unfold skipToLineEnd
    rw [if_pos]
    rcases h with rfl | rfl | rfl <;> rfl

theorem skipToLineEnd_string {b : Str} (h : LineString b) (r : Str) :
    skipToLineEnd false true (b ++ r) = skipToLineEnd false true r := by
  induction h with
  | nil => rfl
  | char c t hc _ ih =>
    rw [List.cons_append, skipToLineEnd, if_neg (by simp; omega), if_neg (by simp; omega), if_neg (by simp; omega)]
    exact ih
  | escape c t hc _ ih =>
    rw [List.cons_append, skipToLineEnd, if_neg (by simp), if_pos (by simp), List.cons_append, skipToLineEnd,
      if_neg (by simp; omega), if_neg (by simp; omega), if_neg (by simp)]
    exact ih

theorem skipToLineEnd_text {t : Str} (h : LineText t) (rest : Str) (hr : LineEnd rest) :
    skipToLineEnd false false (t ++ rest) = rest := by
  induction h with
  | nil => exact skipToLineEnd_end false rest hr
  | char c t hc _ ih =>
    rw [List.cons_append, skipToLineEnd, if_neg (by simp; omega), if_neg (by simp; omega), if_neg (by simp; omega)]
    exact ih
  | quoted c t hc _ ih =>
    rw [List.cons_append, skipToLineEnd, if_neg (by simp), if_neg (by simp), if_neg (by simp), List.cons_append, skipToLineEnd,
      if_neg (by simp; omega), if_neg (by simp; omega), if_neg (by simp; omega), List.cons_append, skipToLineEnd,
      if_neg (by simp), if_neg (by simp), if_neg (by simp)]
    exact ih
  | escaped c t hc _ ih =>
    rw [List.cons_append, skipToLineEnd, if_neg (by simp), if_neg (by simp), if_neg (by simp), List.cons_append, skipToLineEnd,
      if_neg (by simp), if_pos (by simp), List.cons_append, skipToLineEnd, if_neg (by simp; omega)]
    by_cases h92 : c = 92
    · subst h92
      rw [if_pos (by simp), List.cons_append, skipToLineEnd, if_neg (by simp), if_neg (by simp), if_neg (by simp)]
      exact ih
    · rw [if_neg (by simpa using h92), if_neg (by simp), List.cons_append, skipToLineEnd, if_neg (by simp), if_neg (by simp),
        if_neg (by simp)]
      exact ih
  | string b t hb _ ih =>
    rw [List.append_assoc, List.cons_append, skipToLineEnd, if_neg (by simp), if_neg (by simp), if_pos (by simp)]
    show skipToLineEnd false true (b ++ (34 :: t ++ rest)) = rest
    rw [skipToLineEnd_string hb, List.cons_append, skipToLineEnd, if_neg (by simp), if_neg (by simp), if_pos (by simp)]
    exact ih

theorem Spec.LineString.body {b : Str} (h : LineString b) : StringBody b := by
  induction h with
  | nil => exact .nil
  | char c t hc _ ih => exact .char c t hc.1 hc.2.1 ih
  | escape c t _ _ ih => exact .escape c t ih

/-! ### The test for `eval` and `concat` -/

/-- A text without parentheses outside quotes. -/
inductive Flat : Str → Prop
  | nil : Flat []
  | char (c t) : Ordinary c → Flat t → Flat (c :: t)
  | quoted (c t) : c ≠ 92 → Flat t → Flat (39 :: c :: 39 :: t)
  | escaped (c t) : Flat t → Flat (39 :: 92 :: c :: 39 :: t)
  | string (b t) : StringBody b → Flat t → Flat (34 :: b ++ 34 :: t)

/-- The part of a text before its first parenthesis. -/
theorem Spec.LineText.flat {t : Str} (h : LineText t) :
    ∃ w r, t = w ++ r ∧ Flat w ∧ (r = [] ∨ ∃ u, r = 40 :: u ∨ r = 41 :: u) := by
  induction h with
  | nil => exact ⟨[], [], rfl, .nil, .inl rfl⟩
  | char c t hc _ ih =>
    by_cases h40 : c = 40
    · exact ⟨[], c :: t, rfl, .nil, .inr ⟨t, .inl (by rw [h40])⟩⟩
    by_cases h41 : c = 41
    · exact ⟨[], c :: t, rfl, .nil, .inr ⟨t, .inr (by rw [h41])⟩⟩
    obtain ⟨w, r, rfl, hw, hr⟩ := ih
    exact ⟨c :: w, r, rfl, .char c w (by unfold Ordinary; omega) hw, hr⟩
  | quoted c t hc _ ih =>
    obtain ⟨w, r, rfl, hw, hr⟩ := ih
    exact ⟨39 :: c :: 39 :: w, r, rfl, .quoted c w hc.2.1 hw, hr⟩
  | escaped c t hc _ ih =>
    obtain ⟨w, r, rfl, hw, hr⟩ := ih
    exact ⟨39 :: 92 :: c :: 39 :: w, r, rfl, .escaped c w hw, hr⟩
  | string b t hb _ ih =>
    obtain ⟨w, r, rfl, hw, hr⟩ := ih
    exact ⟨34 :: b ++ 34 :: w, r, by simp, .string b w hb.body hw, hr⟩

theorem read_flat {t : Str} (h : Flat t) :
    ∀ (f : Nat) (con r : Str), t.length ≤ f → con.length + t.length ≤ 254 →
    readLoop true [40] f ⟨con, t ++ r, false, false, 0, 0⟩ =
      readLoop true [40] (f - t.length) ⟨t.reverse ++ con, r, false, false, 0, 0⟩ := by
  induction h with
  | nil => intros; rfl
  | char c t hc _ ih =>
    intro f con r hf hl
    obtain ⟨f, rfl⟩ : ∃ m, f = m + 1 := ⟨f - 1, by simp at hf; omega⟩
    rw [List.cons_append, read_char true [40] f con (t ++ r) 0 c hc
      (fun _ => by unfold Ordinary at hc; simp; omega) (fun _ => by simp at hl; omega)]
    rw [ih f _ r (by simp at hf; omega) (by simp at hl ⊢; omega)]
    simp
  | quoted c t hc _ ih =>
    intro f con r hf hl
    obtain ⟨f, rfl⟩ : ∃ m, f = m + 3 := ⟨f - 3, by simp at hf; omega⟩
    simp only [List.cons_append]
    rw [read_open true [40] (f + 2) con _ 0 (fun _ => by simp) (fun h => by simp at hl; omega),
      read_mid true [40] (f + 1) _ _ 0 c (by omega) hc (fun h => by simp at hl ⊢; omega),
      read_quote true [40] f _ _ 0 (fun h => by simp at hl ⊢; omega),
      ih f _ r (by simp at hf; omega) (by simp at hl ⊢; omega)]
    simp
  | escaped c t _ ih =>
    intro f con r hf hl
    obtain ⟨f, rfl⟩ : ∃ m, f = m + 4 := ⟨f - 4, by simp at hf; omega⟩
    simp only [List.cons_append]
    rw [read_open true [40] (f + 3) con _ 0 (fun _ => by simp) (fun h => by simp at hl; omega),
      read_escape true [40] (f + 1) _ _ 0 c (fun h => by simp at hl ⊢; omega),
      read_quote true [40] f _ _ 0 (fun h => by simp at hl ⊢; omega),
      ih f _ r (by simp at hf; omega) (by simp at hl ⊢; omega)]
    simp
  | string b t hb _ ih =>
    intro f con r hf hl
    simp only [List.length_cons, List.length_append] at hf hl
    obtain ⟨f, rfl⟩ : ∃ m, f = (m + 1 + b.length) + 1 := ⟨f - 2 - b.length, by omega⟩
    simp only [List.cons_append, List.append_assoc]
    rw [read_string true [40] _ con _ 0 (fun _ => by simp) (fun h => by omega),
      read_body true [40] b hb _ _ _ 0 (by omega) (by omega) (fun h => by simp; omega),
      Nat.add_sub_cancel,
      read_stringEnd true [40] f _ _ 0 (fun h => by simp; omega),
      ih f _ r (by omega) (by simp; omega)]
    congr 1
    · simp; omega
    · simp

theorem Spec.LineText.split {t : Str} (h : LineText t) :
    ∃ b u, t = b ++ u ∧ Blanks b ∧ LineText u ∧ (∀ c ∈ u.head?, isBlank c = false) := by
  induction h with
  | nil => exact ⟨[], [], rfl, (by intro c hc; cases hc), .nil, by simp⟩
  | char c t hc h ih =>
    by_cases hb : isBlank c = true
    · obtain ⟨b, u, rfl, h1, h2, h3⟩ := ih
      refine ⟨c :: b, u, rfl, ?_, h2, h3⟩
      intro x hx
      rcases List.mem_cons.1 hx with rfl | hx
      · unfold isBlank isSpace at hb; simp at hb; omega
      · exact h1 x hx
    · exact ⟨[], c :: t, rfl, (by intro c hc; cases hc), .char c t hc h, by simpa using hb⟩
  | quoted c t hc h ih => exact ⟨[], _, rfl, (by intro c hc; cases hc), .quoted c t hc h, by simp; decide⟩
  | escaped c t hc h ih => exact ⟨[], _, rfl, (by intro c hc; cases hc), .escaped c t hc h, by simp; decide⟩
  | string b t hb h ih => exact ⟨[], _, rfl, (by intro c hc; cases hc), .string b t hb h, by simp; decide⟩

theorem upper_of_toLower {a b : Nat} (h : toLower a = toLower b) : upperCase a = upperCase b := by
  unfold toLower isUpper at h
  unfold upperCase
  simp only [Bool.and_eq_true, decide_eq_true_eq] at h
  split at h <;> split at h <;> split <;> split <;> omega

theorem upper_of_eqCase {w v : Str} (h : eqCase w v = true) : w.map upperCase = v.map upperCase := by
  unfold eqCase at h
  replace h : w.map toLower = v.map toLower := by simpa using h
  induction w generalizing v with
  | nil => cases v with | nil => rfl | cons _ _ => simp at h
  | cons a w ih =>
    cases v with
    | nil => simp at h
    | cons b v =>
      simp only [List.map_cons, List.cons.injEq] at h ⊢
      exact ⟨upper_of_toLower h.1, ih h.2⟩

theorem trim_split (w : Str) : ∃ b', w = (w.reverse.dropWhile isSpace).reverse ++ b' ∧ ∀ c ∈ b', White c := by
  refine ⟨(w.reverse.takeWhile isSpace).reverse, ?_, ?_⟩
  · rw [← List.reverse_append, List.takeWhile_append_dropWhile, List.reverse_reverse]
  · intro c hc
    exact (isSpace_iff c).1 (List.all_eq_true.1 List.all_takeWhile c (by simpa using hc))

/-- What the test for `eval` and `concat` reads. -/
theorem readExpr_define (t rest : Str) (s : S) (h : LineText t) (hl : t.length ≤ 254) (hr : LineEnd rest)
    (hc : ¬ Computed t) :
    ∃ f w e, readExpr [40] (t ++ rest) true s = .ok (f, w, e) s ∧ eqCase w (b! "eval") = false ∧ eqCase w (b! "concat") = false := by
  obtain ⟨b, u, rfl, hb, hu, hh⟩ := h.split
  obtain ⟨w, r, rfl, hw, hr'⟩ := hu.flat
  have hsk : skipWs (b ++ (w ++ r) ++ rest) = w ++ (r ++ rest) := by
    rw [List.append_assoc, skipWs_blanks _ _ hb, List.append_assoc]
    cases hx : w ++ r with
    | nil =>
      have : w = [] ∧ r = [] := by simpa using hx
      rw [this.1, this.2]
      rcases hr with rfl | ⟨c, x, rfl, hc⟩
      · rfl
      · exact skipWs_cons _ _ (by rcases hc with rfl | rfl | rfl <;> rfl)
    | cons c x =>
      rw [← List.append_assoc, hx]
      exact skipWs_cons _ _ (hh c (by rw [hx]; rfl))
  unfold readExpr
  simp only [hsk]
  split
  · exact ⟨_, _, _, rfl, rfl, rfl⟩
  · have hstop : Stops [40] (r ++ rest) := by
      rcases hr' with rfl | ⟨x, rfl | rfl⟩
      · rcases hr with rfl | ⟨c, x, rfl, hc⟩
        · exact .inl rfl
        · refine .inl ?_
          rcases hc with rfl | rfl | rfl <;> rfl
      · exact .inr (.inl (by simp))
      · exact .inr (.inr rfl)
    rw [read_flat hw _ [] _ (by simp; omega) (by simp at hl ⊢; omega)]
    obtain ⟨f, hf⟩ : ∃ f, 3 * (w ++ (r ++ rest)).length + 3 - w.length = f + 1 := ⟨_, by
      simp only [List.length_append]
      rw [show 3 * (w.length + (r.length + rest.length)) + 3 - w.length =
        (2 * w.length + 3 * (r.length + rest.length) + 2) + 1 by omega]⟩
    rw [hf, read_stop true [40] f _ _ hstop]
    obtain ⟨b', hb', hb2⟩ := trim_split w
    refine ⟨_, _, _, rfl, ?_, ?_⟩
    · rw [← Bool.not_eq_true]
      intro he
      refine hc ⟨b, _, b', r, ?_, hb, hb2, .inl (upper_of_eqCase he), hr'⟩
      simp only [List.append_nil]
      rw [List.append_assoc, List.append_assoc, ← List.append_assoc _ b' r, ← hb']
    · rw [← Bool.not_eq_true]
      intro he
      refine hc ⟨b, _, b', r, ?_, hb, hb2, .inr (upper_of_eqCase he), hr'⟩
      simp only [List.append_nil]
      rw [List.append_assoc, List.append_assoc, ← List.append_assoc _ b' r, ← hb']

/-! ### Expanding a text without names to replace -/

theorem skipQuoted_suffix (t : Str) : ∃ q, t = q ++ skipQuoted t ∧ (skipQuoted t = [] ∨ q.getLast? = some 34) := by
  fun_induction skipQuoted t with
  | case1 => exact ⟨[], rfl, .inl rfl⟩
  | case2 c h => exact ⟨[c], rfl, .inl rfl⟩
  | case3 c h => exact ⟨[c], rfl, .inl rfl⟩
  | case4 c d t h => exact ⟨[c], rfl, .inr (by simpa using h)⟩
  | case5 c d t h h' ih =>
    obtain ⟨q, hq, h⟩ := ih
    refine ⟨c :: d :: q, by rw [List.cons_append, List.cons_append, ← hq], h.imp id fun h => ?_⟩
    rw [List.getLast?_cons_of_ne_nil (by simp), List.getLast?_cons_of_ne_nil (by rintro rfl; simp at h)]
    exact h
  | case6 c d t h h' ih =>
    obtain ⟨q, hq, h⟩ := ih
    refine ⟨c :: q, by rw [List.cons_append, ← hq], h.imp id fun h => ?_⟩
    rw [List.getLast?_cons_of_ne_nil (by rintro rfl; simp at h)]
    exact h

theorem between_append (a b : Str) : between (a ++ b) b = a := by
  unfold between; simp

/-- A position that is not in the middle of a word. -/
def Fresh (p : Str) (t : Str) : Prop :=
  t = [] ∨ (∀ c ∈ p.getLast?, isNameChar c = false) ∨ (∀ c ∈ t.head?, isNameChar c = false)

theorem separators_not_name : ∀ c ∈ separators, isNameChar c = false := by decide

theorem expandLoop_plain (k : Rec) (depth : Nat) (l : Bool) (st : S) (text : Str)
    (hn : ∀ w, Word text w → searchDefines w l st = .ok none st ∧ searchLabels w st = none) :
    ∀ (f : Nat) (p t out : Str), t.length < f → text = p ++ t → Fresh p t →
      expandLoop k depth l f t out st = .ok (out ++ t) st := by
  intro f
  induction f with
  | zero => intro p t out h; omega
  | succ f ih =>
    have hfin : ∀ p r out : Str, r.length < f → text = p ++ r → Fresh p r →
        expandLoop k depth l f (r.dropWhile (fun c => separators.contains c))
          (out ++ between r (r.dropWhile (fun c => separators.contains c))) st = .ok (out ++ r) st := by
      intro p r out hlen htext hfresh
      have hr : r = r.takeWhile (fun c => separators.contains c) ++ r.dropWhile (fun c => separators.contains c) :=
        List.takeWhile_append_dropWhile.symm
      have hsep : ∀ c ∈ r.takeWhile (fun c => separators.contains c), isNameChar c = false := by
        intro c hc
        exact separators_not_name c (by simpa using List.all_eq_true.1 List.all_takeWhile c hc)
      revert hr hsep
      generalize r.takeWhile (fun c => separators.contains c) = a
      generalize r.dropWhile (fun c => separators.contains c) = b
      rintro rfl hsep
      rw [between_append, ih (p ++ a) b (out ++ a) (by simp at hlen; omega) (by rw [htext]; simp), List.append_assoc]
      cases a with
      | nil => simpa using hfresh
      | cons x a =>
        right; left
        intro c hc
        rw [List.getLast?_append_of_ne_nil _ (by simp)] at hc
        exact hsep c (List.mem_of_mem_getLast? hc)
    intro p t out hlen htext hfresh
    unfold expandLoop
    by_cases ht : t.isEmpty = true
    · rw [if_pos ht]
      have : t = [] := by simpa using ht
      rw [this, List.append_nil]; rfl
    rw [if_neg ht]
    dsimp only
    obtain ⟨pre, q, hq, htq, hfr⟩ : ∃ pre q, (if (hd t == 34) = true then skipQuoted t.tail else t) = q ∧ t = pre ++ q ∧
        Fresh (p ++ pre) q := by
      cases t with
      | nil => simp at ht
      | cons c u =>
        by_cases hc : c = 34
        · subst hc
          obtain ⟨q, h1, h2⟩ := skipQuoted_suffix u
          refine ⟨34 :: q, skipQuoted u, rfl, by rw [List.cons_append, ← h1], ?_⟩
          rcases h2 with h2 | h2
          · exact .inl h2
          · right; left
            intro c hc
            rw [List.getLast?_append_of_ne_nil _ (by simp), List.getLast?_cons_of_ne_nil (by rintro rfl; simp at h2), h2] at hc
            cases hc; rfl
        · exact ⟨[], c :: u, if_neg (by simpa using hc), rfl, by simpa using hfresh⟩
    rw [hq]
    subst htq
    rw [between_append]
    have hqn : q = takeName q ++ skipNameEnd q := List.takeWhile_append_dropWhile.symm
    have hname : ∀ c ∈ takeName q, isNameChar c = true := fun c hc => List.all_eq_true.1 List.all_takeWhile c hc
    have hrest : ∀ c ∈ (skipNameEnd q).head?, isNameChar c = false := by
      intro c hc
      have := List.head?_dropWhile_not isNameChar q
      unfold skipNameEnd at hc
      rw [Option.mem_def] at hc
      rw [hc] at this
      simpa using this
    revert hqn hname hrest
    generalize takeName q = name
    generalize skipNameEnd q = r
    rintro hqn hname hrest
    by_cases hlen0 : name.length > 0
    · rw [if_pos hlen0, M.get_bind]
      have hw : Word text name := by
        refine ⟨by rintro rfl; simp at hlen0, fun c hc => (isNameChar_iff c).1 (hname c hc), p ++ pre, r, ?_, ?_, ?_⟩
        · rw [htext, hqn]; simp
        · intro c hc hcn
          have hcn := (isNameChar_iff c).2 hcn
          rcases hfr with h | h | h
          · rw [h] at hqn; cases name with | nil => simp at hlen0 | cons _ _ => simp at hqn
          · rw [h c hc] at hcn; cases hcn
          · cases name with
            | nil => simp at hlen0
            | cons x name =>
              have := h x (by rw [hqn]; rfl)
              rw [hname x (by simp)] at this; cases this
        · intro c hc hcn
          have hcn := (isNameChar_iff c).2 hcn
          rw [hrest c hc] at hcn
          cases hcn
      obtain ⟨h1, h2⟩ := hn name hw
      rw [M.bind_ok h1]
      dsimp only
      rw [h2]
      dsimp only
      have := hfin (p ++ pre ++ name) r (out ++ pre ++ name) (by rw [hqn] at hlen; simp at hlen; omega)
        (by rw [htext, hqn]; simp) (.inr (.inr hrest))
      rw [this, hqn]
      simp
    · rw [if_neg hlen0]
      have : name = [] := by simpa using hlen0
      subst this
      cases q with
      | nil =>
        have hf : 0 < f := by
          cases pre with | nil => simp at ht | cons _ _ => simp at hlen; omega
        have := hfin (p ++ pre) [] (out ++ pre) hf (by rw [htext]; simp) (.inl rfl)
        dsimp only
        rw [this]
        simp
      | cons c u =>
        have hcn : isNameChar c = false := by
          rw [List.nil_append] at hqn
          exact hrest c (by rw [← hqn]; rfl)
        have := hfin (p ++ pre ++ [c]) u (out ++ pre ++ [c]) (by simp at hlen; omega) (by rw [htext]; simp)
          (.inr (.inl (by intro x hx; rw [List.getLast?_append_of_ne_nil _ (by simp)] at hx; cases hx; exact hcn)))
        dsimp only
        rw [this]
        simp

end Spasm
