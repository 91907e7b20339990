import Verif.Lemmas.M
import Verif.Spec.Literal
import Verif.Spec.Output
import Verif.Lemmas.Output

namespace Spasm
open Spec

theorem isAlnum_iff (c : Nat) : isAlnum c = true ↔ Alnum c := by
  unfold isAlnum isAlpha isUpper isLower isDigit Alnum
  simp only [Bool.or_eq_true, Bool.and_eq_true, decide_eq_true_eq]
  omega

theorem isAlnum_false_iff (c : Nat) : isAlnum c = false ↔ ¬ Alnum c := by
  rw [← isAlnum_iff]; simp

theorem isDigitOf_iff (base c : Nat) (hb : base ≤ 16) : isDigitOf base c = true ↔ IsDigit base c := by
  unfold isDigitOf digitVal IsDigit digit isDigit isUpper isLower
  simp only [Bool.and_eq_true, decide_eq_true_eq]
  by_cases h1 : 48 ≤ c ∧ c ≤ 57
  · simp [h1]
  · by_cases h2 : 65 ≤ c ∧ c ≤ 90
    · rw [if_neg h1, if_pos h2, if_neg h1]
      by_cases h3 : 65 ≤ c ∧ c ≤ 70
      · rw [if_pos h3]; simp; omega
      · rw [if_neg h3, if_neg (by omega)]; simp; omega
    · rw [if_neg h1, if_neg h2, if_neg h1]
      have h5 : ¬ (65 ≤ c ∧ c ≤ 70) := by omega
      rw [if_neg h5]
      by_cases h4 : 97 ≤ c ∧ c ≤ 122
      · rw [if_pos h4]
        by_cases h3 : 97 ≤ c ∧ c ≤ 102
        · rw [if_pos h3]; simp; omega
        · rw [if_neg h3]; simp; omega
      · have h6 : ¬ (97 ≤ c ∧ c ≤ 102) := by omega
        rw [if_neg h4, if_neg h6]; simp

theorem isDigitOf_false (base c : Nat) (hb : base ≤ 16) (h : ¬ IsDigit base c) : isDigitOf base c = false := by
  rw [← isDigitOf_iff base c hb] at h; simpa using h

theorem digitVal_eq (base c : Nat) (h : IsDigit base c) : (digitVal c).getD 0 = (digit c).getD 0 := by
  obtain ⟨d, h1, _⟩ := h
  unfold digit at h1
  unfold digitVal digit isDigit isUpper isLower
  simp only [Bool.and_eq_true, decide_eq_true_eq]
  split at h1
  · rename_i h; simp [h]
  · rename_i h
    split at h1
    · rename_i h'; rw [if_neg h, if_pos (by omega), if_neg h, if_pos h']; simp; omega
    · rename_i h'
      split at h1
      · rename_i h''; rw [if_neg h, if_neg (by omega), if_pos (by omega), if_neg h, if_neg h', if_pos h'']
        simp; omega
      · simp at h1

theorem Spec.IsDigit.alnum {base c : Nat} (h : IsDigit base c) : Alnum c := by
  obtain ⟨d, h1, _⟩ := h
  unfold digit at h1
  unfold Alnum
  split at h1
  · omega
  · split at h1
    · omega
    · split at h1
      · omega
      · simp at h1

/-- The digit loop stops exactly after the digits. -/
theorem digits_append (base : Nat) (hb : base ≤ 16) (r : Str) (hr : isDigitOf base (hd r) = false ∨ r = []) :
    ∀ (ds : Str) (acc : Nat), (∀ c ∈ ds, IsDigit base c) →
      digits base acc (ds ++ r) = (acc * base ^ ds.length + value base ds, r)
  | [], acc, _ => by
    cases r with
    | nil => simp [digits, value]
    | cons c t =>
      simp only [reduceCtorEq, or_false] at hr
      simp only [hd_cons] at hr
      simp [digits, value, hr]
  | c :: t, acc, h => by
    have hc := h c (by simp)
    have h1 : isDigitOf base c = true := (isDigitOf_iff base c hb).2 hc
    rw [List.cons_append, digits, if_pos h1, digits_append base hb r hr t _ (fun x hx => h x (by simp [hx]))]
    rw [digitVal_eq base c hc]
    simp only [value, List.length_cons, Prod.mk.injEq, and_true]
    rw [Nat.pow_succ, Nat.add_mul, Nat.mul_assoc, Nat.mul_comm base, Nat.add_assoc]

theorem hd_append_of_ne (ds r : Str) (h : ds ≠ []) : hd (ds ++ r) = hd ds := by
  cases ds with
  | nil => exact absurd rfl h
  | cons c t => rfl

theorem Spec.Alnum.not_space {c : Nat} (h : Alnum c) : isSpace c = false := by
  unfold isSpace; unfold Alnum at h
  simp only [Bool.or_eq_false_iff, Bool.and_eq_false_iff, beq_eq_false_iff_ne, decide_eq_false_iff_not]
  omega

/-- strtoll on a text that starts with a letter or digit: no blanks or sign to skip. -/
theorem strtoll_alnum (base : Nat) (c : Nat) (t : Str) (h : Alnum c)
    (hx : ¬ (base = 16 ∧ c = 48 ∧ (hd t = 120 ∨ hd t = 88))) :
    strtoll base (c :: t) =
      if isDigitOf base c then
        (((digits base 0 (c :: t)).1 : Int), (c :: t).length - (digits base 0 (c :: t)).2.length)
      else (0, 0) := by
  unfold strtoll
  have hs := h.not_space
  have h45 : (c == 45) = false := by unfold Alnum at h; simp; omega
  have h43 : (c == 43) = false := by unfold Alnum at h; simp; omega
  simp only [List.dropWhile_cons, hs, hd_cons, h45, h43, Bool.or_self, Bool.false_eq_true, if_false, List.tail_cons]
  have hx' : (base == 16 && c == 48 && (hd t == 120 || hd t == 88) && isDigitOf 16 (hd t.tail)) = false := by
    rw [Bool.eq_false_iff]
    intro hc
    simp only [Bool.and_eq_true, Bool.or_eq_true, beq_iff_eq] at hc
    exact hx ⟨hc.1.1.1, hc.1.1.2, hc.1.2⟩
  rw [hx']
  simp

/-- strtoll on digits of the base followed by something else. -/
theorem strtoll_digits (base : Nat) (hb : base ≤ 16) (ds r : Str) (hne : ds ≠ [])
    (hds : ∀ c ∈ ds, IsDigit base c) (hr : isDigitOf base (hd r) = false ∨ r = [])
    (hrx : hd r ≠ 120 ∧ hd r ≠ 88) :
    strtoll base (ds ++ r) = ((value base ds : Int), ds.length) := by
  cases ds with
  | nil => exact absurd rfl hne
  | cons c t =>
    have hc := hds c (by simp)
    have hx : ¬ (base = 16 ∧ c = 48 ∧ (hd (t ++ r) = 120 ∨ hd (t ++ r) = 88)) := by
      rintro ⟨_, _, h⟩
      cases t with
      | nil => simp only [List.nil_append] at h; omega
      | cons d t' =>
        have hd' := hds d (by simp)
        simp only [List.cons_append, hd_cons] at h
        obtain ⟨v, hv, _⟩ := hd'
        rcases h with h | h <;> subst h <;> simp [digit] at hv
    rw [List.cons_append, strtoll_alnum base c (t ++ r) hc.alnum hx, if_pos ((isDigitOf_iff base c hb).2 hc)]
    rw [← List.cons_append, digits_append base hb r hr (c :: t) 0 hds]
    simp
    omega

/-- strtoll stops at the first character that is not a digit. -/
theorem strtoll_bad (base : Nat) (hb : base ≤ 16) (ds r : Str) (hal : ∀ c ∈ ds, Alnum c)
    (hbad : ∃ c ∈ ds, ¬ IsDigit base c)
    (hx : ¬ (base = 16 ∧ hd ds = 48 ∧ (hd ds.tail = 120 ∨ hd ds.tail = 88))) :
    (strtoll base (ds ++ r)).2 < ds.length := by
  -- split at the first bad character
  have split : ∃ a c b, ds = a ++ c :: b ∧ (∀ x ∈ a, IsDigit base x) ∧ ¬ IsDigit base c := by
    clear hal hx
    induction ds with
    | nil => simp at hbad
    | cons c t ih =>
      by_cases hc : IsDigit base c
      · have : ∃ x ∈ t, ¬ IsDigit base x := by
          obtain ⟨x, hx, hx'⟩ := hbad
          rcases List.mem_cons.1 hx with rfl | hx
          · exact absurd hc hx'
          · exact ⟨x, hx, hx'⟩
        obtain ⟨a, d, b, rfl, h1, h2⟩ := ih this
        exact ⟨c :: a, d, b, rfl, by
          intro x hx
          rcases List.mem_cons.1 hx with rfl | hx
          · exact hc
          · exact h1 x hx, h2⟩
      · exact ⟨[], c, t, rfl, by simp, hc⟩
  obtain ⟨a, c, b, rfl, ha, hc⟩ := split
  have hcd := isDigitOf_false base c hb hc
  cases a with
  | nil =>
    rw [List.nil_append, List.cons_append, strtoll_alnum base c (b ++ r) (hal c (by simp))]
    · simp [hcd]
    · rintro ⟨_, h48, _⟩
      subst h48
      exact hc ⟨0, by simp [digit], by omega⟩
  | cons d a =>
    have hx' : hd (a ++ c :: b ++ r) = hd (a ++ c :: b) := by
      apply hd_append_of_ne; simp
    rw [List.cons_append, List.cons_append, strtoll_alnum base d _ (hal d (by simp))]
    · rw [if_pos ((isDigitOf_iff base d hb).2 (ha d (by simp)))]
      have e : d :: (a ++ c :: b ++ r) = (d :: a) ++ (c :: (b ++ r)) := by simp
      rw [e, digits_append base hb _ (Or.inl (by simpa using hcd)) (d :: a) 0 ha]
      simp only [List.length_append, List.length_cons]
      omega
    · rw [hx']
      simpa using hx

theorem takeWhile_alnum (ds rest : Str) (h : ∀ c ∈ ds, Alnum c) (hr : EndsWord rest) :
    (ds ++ rest).takeWhile isAlnum = ds ∧ (ds ++ rest).dropWhile isAlnum = rest := by
  have hds : ∀ c ∈ ds, isAlnum c = true := fun c hc => (isAlnum_iff c).2 (h c hc)
  have hrest : rest.takeWhile isAlnum = [] ∧ rest.dropWhile isAlnum = rest := by
    cases rest with
    | nil => simp
    | cons c t =>
      have : isAlnum c = false := (isAlnum_false_iff c).2 (hr c (by simp))
      simp [this]
  constructor
  · rw [List.takeWhile_append_of_pos hds, hrest.1]; simp
  · rw [List.dropWhile_append_of_pos hds, hrest.2]

end Spasm
