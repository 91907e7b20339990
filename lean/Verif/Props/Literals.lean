import Verif.Lemmas.Literal
import Verif.Model.Knot

/-
C01, C02: numeric literals.
-/

namespace Spasm.Props
open Spasm Spec

/-- How the evaluator treats something written like a literal: the digits go to strtoll with the base,
and everything up to the end of the word is used up. -/
theorem literal_parse (k : Rec) (base : Nat) (ds text rest : Str) (s : S)
    (hlit : Literal base ds text) (hrest : EndsWord rest) :
    ∃ tail err, (tail = rest ∨ (∃ c, tail = c :: rest ∧ c ∈ [104, 72, 98, 66, 100, 68] ∧ ¬ IsDigit base c)) ∧
      err = (if base = 16 then 0x201 else if base = 2 then 0x202 else 0x200) ∧
      parseSingle k (text ++ rest) s =
        (do let v ← convGeneric base err (ds ++ tail) ds.length
            pure (v.map (fun v => (rest, v)))) s := by
  obtain ⟨hne, hal, hform⟩ := hlit
  obtain ⟨d, ds', rfl⟩ := List.exists_cons_of_ne_nil hne
  have htw := takeWhile_alnum (d :: ds') rest hal hrest
  rcases hform with ⟨rfl, rfl, hx⟩ | ⟨rfl, rfl⟩ | ⟨h10, hform⟩
  · refine ⟨rest, 0x201, Or.inl rfl, by simp, ?_⟩
    unfold parseSingle
    simp only [List.headD_cons] at hx
    have hxd : isXDigit d = true := by
      obtain ⟨v, hv, _⟩ := hx
      unfold digit at hv
      unfold isXDigit isDigit
      simp only [Bool.or_eq_true, Bool.and_eq_true, decide_eq_true_eq]
      split at hv
      · omega
      · split at hv
        · omega
        · split at hv
          · omega
          · simp at hv
    have e : (36 :: (d :: ds')) ++ rest = 36 :: ((d :: ds') ++ rest) := rfl
    rw [e]
    have hh : hd (d :: ds' ++ rest) = d := rfl
    simp only [hd_cons, List.tail_cons, Nat.reduceBEq, Bool.false_eq_true, if_false, if_true, hh, hxd, htw.1, htw.2]
    rfl
  · refine ⟨rest, 0x202, Or.inl rfl, by simp, ?_⟩
    unfold parseSingle
    have e : (37 :: (d :: ds')) ++ rest = 37 :: ((d :: ds') ++ rest) := rfl
    rw [e]
    simp only [hd_cons, List.tail_cons, Nat.reduceBEq, Bool.false_eq_true, if_false, if_true]
    rw [htw.1, htw.2]
    rfl
  · simp only [List.headD_cons] at h10
    -- first character is a decimal digit
    have hdig : 48 ≤ d ∧ d ≤ 57 := by
      obtain ⟨v, hv, hlt⟩ := h10
      unfold digit at hv
      split at hv
      · assumption
      · split at hv
        · simp at hv; omega
        · split at hv
          · simp at hv; omega
          · simp at hv
    -- parse_single_num reaches the digit branch
    have reach : ∀ t : Str, parseSingle k (d :: t) s = parseDigits (d :: t) s := by
      intro t
      unfold parseSingle
      simp only [hd_cons]
      rw [if_neg, if_neg, if_neg, if_neg, if_neg, if_neg, if_pos]
      · unfold isDigit; simp; omega
      · unfold isAlpha isUpper isLower; simp; omega
      all_goals simp; omega
    -- with a suffix letter
    have suf : ∀ c : Nat, Alnum c → (c ∈ [104, 72, 98, 66, 100, 68]) → (d :: ds' ++ [c]) ++ rest = d :: (ds' ++ [c] ++ rest) →
        parseSingle k ((d :: ds' ++ [c]) ++ rest) s =
          (do let v ← (if toUpper c == 72 then convHex (d :: ds' ++ c :: rest) (d :: ds').length
                       else if toUpper c == 66 then convBin (d :: ds' ++ c :: rest) (d :: ds').length
                       else convDec (d :: ds' ++ c :: rest) (d :: ds').length)
              pure (v.map (fun v => (rest, v)))) s := by
      intro c hc hcm e
      have hal' : ∀ x ∈ d :: ds' ++ [c], Alnum x := by
        intro x hx
        rcases List.mem_append.1 hx with hx | hx
        · exact hal x hx
        · simp at hx; subst hx; exact hc
      have htw' := takeWhile_alnum (d :: ds' ++ [c]) rest hal' hrest
      rw [e, reach, ← e]
      unfold parseDigits
      have hlast : hd (d :: ds' ++ [c]).reverse = c := by simp
      have hlen : (d :: ds' ++ [c]).length - 1 = (d :: ds').length := by simp
      have happ : (d :: ds' ++ [c]) ++ rest = d :: ds' ++ c :: rest := by simp
      rw [htw'.1, htw'.2, hlast, hlen, happ]
      have hcases : toUpper c = 72 ∨ toUpper c = 66 ∨ toUpper c = 68 := by
        simp only [List.mem_cons, List.not_mem_nil, or_false] at hcm
        rcases hcm with h | h | h | h | h | h <;> subst h <;> decide
      rcases hcases with h | h | h <;> rw [h] <;> rfl
    rcases hform with ⟨rfl, htext⟩ | ⟨rfl, htext⟩ | ⟨rfl, htext⟩ | ⟨rfl, htext, hlast⟩
    · rcases htext with rfl | rfl
      · exact ⟨104 :: rest, 0x201, Or.inr ⟨104, rfl, by decide, by rintro ⟨v, hv, _⟩; simp [digit] at hv⟩, by simp,
          suf 104 (by unfold Alnum; omega) (by decide) (by simp)⟩
      · exact ⟨72 :: rest, 0x201, Or.inr ⟨72, rfl, by decide, by rintro ⟨v, hv, _⟩; simp [digit] at hv⟩, by simp,
          suf 72 (by unfold Alnum; omega) (by decide) (by simp)⟩
    · rcases htext with rfl | rfl
      · exact ⟨98 :: rest, 0x202, Or.inr ⟨98, rfl, by decide, by rintro ⟨v, hv, h⟩; simp [digit] at hv; omega⟩, by simp,
          suf 98 (by unfold Alnum; omega) (by decide) (by simp)⟩
      · exact ⟨66 :: rest, 0x202, Or.inr ⟨66, rfl, by decide, by rintro ⟨v, hv, h⟩; simp [digit] at hv; omega⟩, by simp,
          suf 66 (by unfold Alnum; omega) (by decide) (by simp)⟩
    · rcases htext with rfl | rfl
      · exact ⟨100 :: rest, 0x200, Or.inr ⟨100, rfl, by decide, by rintro ⟨v, hv, h⟩; simp [digit] at hv; omega⟩, by simp,
          suf 100 (by unfold Alnum; omega) (by decide) (by simp)⟩
      · exact ⟨68 :: rest, 0x200, Or.inr ⟨68, rfl, by decide, by rintro ⟨v, hv, h⟩; simp [digit] at hv; omega⟩, by simp,
          suf 68 (by unfold Alnum; omega) (by decide) (by simp)⟩
    · subst htext
      refine ⟨rest, 0x200, Or.inl rfl, by simp, ?_⟩
      have e : (d :: ds') ++ rest = d :: (ds' ++ rest) := rfl
      rw [e, reach, ← e]
      unfold parseDigits
      have hl : hd (d :: ds').reverse = (d :: ds').getLastD 0 := by
        rw [List.getLastD_eq_getLast?, List.getLast?_eq_head?_reverse]
        cases (d :: ds').reverse <;> rfl
      rw [htw.1, htw.2, hl]
      generalize (d :: ds').getLastD 0 = l at hlast
      simp only [List.mem_cons, List.not_mem_nil, or_false, not_or] at hlast
      have hup : toUpper l ≠ 72 ∧ toUpper l ≠ 66 ∧ toUpper l ≠ 68 := by
        unfold toUpper isLower
        split
        · rename_i h; simp at h; omega
        · omega
      simp only [beq_eq_false_iff_ne.2 hup.1, beq_eq_false_iff_ne.2 hup.2.1, beq_eq_false_iff_ne.2 hup.2.2,
        Bool.false_eq_true, if_false]
      rfl

theorem Literal.base_le {base : Nat} {ds text : Str} (hl : Literal base ds text) : base ≤ 16 := by
  rcases hl.2.2 with h | h | ⟨_, h | h | h | h⟩ <;> omega

/-- the character after the digits is not a digit of the base -/
theorem tail_not_digit (base : Nat) (tail rest : Str) (hb : base ≤ 16) (hrest : EndsWord rest)
    (ht : tail = rest ∨ (∃ c, tail = c :: rest ∧ c ∈ [104, 72, 98, 66, 100, 68] ∧ ¬ IsDigit base c)) :
    (isDigitOf base (hd tail) = false ∨ tail = []) ∧ hd tail ≠ 120 ∧ hd tail ≠ 88 := by
  rcases ht with rfl | ⟨c, rfl, hc, hn⟩
  · cases tail with
    | nil => simp
    | cons c t =>
      have hna := hrest c (by simp)
      refine ⟨Or.inl (isDigitOf_false base c hb (fun h => hna h.alnum)), ?_⟩
      unfold Alnum at hna
      simp only [hd_cons]
      omega
  · refine ⟨Or.inl (isDigitOf_false base c hb hn), ?_⟩
    simp only [List.mem_cons, List.not_mem_nil, or_false] at hc
    simp only [hd_cons]
    omega

theorem toI32_eq_asInt32 (n : Nat) : toI32 n = asInt32 n := by
  unfold toI32 asInt32
  split <;> omega

/-- C01: a literal all of whose digits belong to its base evaluates to the positional value of the
digits, as a 32-bit number; the text after it is left over and the state is unchanged. -/
theorem C01_literal_value (k : Rec) (base : Nat) (ds text rest : Str) (s : S)
    (hlit : Literal base ds text) (hrest : EndsWord rest) (hds : ∀ c ∈ ds, IsDigit base c)
    (hmax : value base ds ≤ 4294967295) :
    parseSingle k (text ++ rest) s = .ok (some (rest, asInt32 (value base ds))) s := by
  obtain ⟨tail, err, htail, _, hp⟩ := literal_parse k base ds text rest s hlit hrest
  have hb := Literal.base_le hlit
  have ht := tail_not_digit base tail rest hb hrest htail
  rw [hp]
  unfold convGeneric
  rw [strtoll_digits base hb ds tail hlit.1 hds ht.1 ht.2]
  simp only [Nat.lt_irrefl, if_false]
  rw [if_neg (by unfold intMin; omega), toI32_eq_asInt32]
  rfl

/-- C02, overflow: a literal whose value exceeds 4294967295 gives no value and one overflow error. -/
theorem C02_overflow (k : Rec) (base : Nat) (ds text rest : Str) (s : S)
    (hlit : Literal base ds text) (hrest : EndsWord rest) (hds : ∀ c ∈ ds, IsDigit base c)
    (hmax : value base ds > 4294967295) :
    parseSingle k (text ++ rest) s = .ok none (errorAt 0x204 s) := by
  obtain ⟨tail, err, htail, _, hp⟩ := literal_parse k base ds text rest s hlit hrest
  have hb := Literal.base_le hlit
  have ht := tail_not_digit base tail rest hb hrest htail
  rw [hp]
  unfold convGeneric
  rw [strtoll_digits base hb ds tail hlit.1 hds ht.1 ht.2]
  simp only [Nat.lt_irrefl, if_false]
  rw [if_pos (by omega), M.bind_ok (a := none) (s' := errorAt 0x204 s)]
  · rfl
  · rw [M.bind_ok (setError_apply _ s (by decide))]; rfl

/-- The error recorded for a wrong digit. -/
def badDigit (base : Nat) : Nat := if base = 16 then 0x201 else if base = 2 then 0x202 else 0x200

/-- C02, wrong digit: a literal with a character that is not a digit of its base gives no value and one
invalid-digit error. Missing from the full property: a hexadecimal literal with a C-style `0x` in front of
its digits, which is accepted (`C02_0x_accepted`). -/
theorem C02_bad_digit_partial (k : Rec) (base : Nat) (ds text rest : Str) (s : S)
    (hlit : Literal base ds text) (hrest : EndsWord rest) (hbad : ∃ c ∈ ds, ¬ IsDigit base c)
    (hx : ¬ (base = 16 ∧ (ds.take 2 = b! "0x" ∨ ds.take 2 = b! "0X"))) :
    parseSingle k (text ++ rest) s = .ok none (errorAt (badDigit base) s) := by
  obtain ⟨tail, err, htail, herr, hp⟩ := literal_parse k base ds text rest s hlit hrest
  have hb := Literal.base_le hlit
  have hx' : ¬ (base = 16 ∧ hd ds = 48 ∧ (hd ds.tail = 120 ∨ hd ds.tail = 88)) := by
    rintro ⟨h1, h2, h3⟩
    apply hx
    refine ⟨h1, ?_⟩
    match ds with
    | [] => simp at h2
    | [_] => simp at h3
    | c :: d :: t =>
      simp only [hd_cons, List.tail_cons] at h2 h3
      subst h2
      rcases h3 with rfl | rfl
      · left; rfl
      · right; rfl
  have hlt := strtoll_bad base hb ds tail hlit.2.1 hbad hx'
  rw [hp, herr]
  unfold convGeneric
  simp only [hlt, if_true]
  rw [M.bind_ok (a := none) (s' := errorAt (badDigit base) s)]
  · rfl
  · rw [M.bind_ok (setError_apply _ s (by split <;> (try split) <;> decide))]; rfl

/-- C02 fails for `$0x1F`: the letter x is no hexadecimal digit, but the literal evaluates to 31. -/
theorem C02_0x_accepted (s : S) :
    Literal 16 (b! "0x1F") (b! "$0x1F") ∧ (∃ c ∈ b! "0x1F", ¬ IsDigit 16 c) ∧
      parseSingle (knot 0) (b! "$0x1F") s = .ok (some ([], 31)) s := by
  refine ⟨⟨by decide, ?_, Or.inl ⟨rfl, rfl, ⟨0, by decide, by decide⟩⟩⟩, ⟨120, by decide, ?_⟩, rfl⟩
  · intro c hc
    simp only [List.mem_cons, List.not_mem_nil, or_false] at hc
    unfold Alnum
    omega
  · rintro ⟨v, hv, _⟩; simp [digit] at hv

/-! The hypotheses are met by the usual literals. -/

example : Literal 16 (b! "FFe0") (b! "$FFe0") ∧ (∀ c ∈ b! "FFe0", IsDigit 16 c) ∧ value 16 (b! "FFe0") = 65504 := by
  refine ⟨⟨by decide, ?_, Or.inl ⟨rfl, rfl, 15, by decide, by decide⟩⟩, ?_, by decide⟩
  · intro c hc; simp only [List.mem_cons, List.not_mem_nil, or_false] at hc; unfold Alnum; omega
  · intro c hc
    simp only [List.mem_cons, List.not_mem_nil, or_false] at hc
    rcases hc with h | h | h | h <;> subst h
    · exact ⟨15, by decide, by decide⟩
    · exact ⟨15, by decide, by decide⟩
    · exact ⟨14, by decide, by decide⟩
    · exact ⟨0, by decide, by decide⟩

example : Literal 2 (b! "101") (b! "101b") ∧ value 2 (b! "101") = 5 := by
  refine ⟨⟨by decide, ?_, Or.inr (Or.inr ⟨⟨1, by decide, by decide⟩, Or.inr (Or.inl ⟨rfl, Or.inl rfl⟩)⟩)⟩, by decide⟩
  intro c hc; simp only [List.mem_cons, List.not_mem_nil, or_false] at hc; unfold Alnum; omega

example : Literal 10 (b! "99999999999") (b! "99999999999") ∧ value 10 (b! "99999999999") > 4294967295 := by
  refine ⟨⟨by decide, ?_, Or.inr (Or.inr ⟨⟨9, by decide, by decide⟩,
    Or.inr (Or.inr (Or.inr ⟨rfl, rfl, by decide⟩))⟩)⟩, by decide⟩
  intro c hc; simp only [List.mem_cons, List.not_mem_nil, or_false] at hc; unfold Alnum; omega

example : ∀ s : S, parseSingle (knot 0) (b! "-1") s = .ok none (errorAt 0x101 s) := fun _ => rfl

end Spasm.Props
