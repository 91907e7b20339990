import Verif.Lemmas.WriteInstr

/-
Looking up mnemonics and suffixes.
-/

namespace Spasm
open Spec Props

theorem toLower_alnum (a b : Nat) (h : toLower a = toLower b) (hb : Alnum b) : Alnum a := by
  unfold toLower isUpper at h
  unfold Alnum at *
  split at h <;> split at h <;> rename_i h1 h2 <;> simp at h1 h2 <;> omega

theorem eqCaseN_name (m r n : Str) (hm : ∀ c ∈ m, Alnum c) (hr : ∀ c ∈ r.head?, ¬ Alnum c) (hn : ∀ c ∈ n, Alnum c) :
    eqCaseN (m ++ r) n (max n.length m.length) = decide (SameText n m) := by
  induction n generalizing m with
  | nil =>
    cases m with
    | nil => simp [eqCaseN, SameText]
    | cons c m =>
      simp only [List.length_nil, List.length_cons, List.cons_append, Nat.zero_max]
      simp [eqCaseN, SameText]
  | cons b n ih =>
    cases m with
    | nil =>
      simp only [List.nil_append, List.length_cons, List.length_nil, Nat.max_zero]
      have : ¬ SameText (b :: n) [] := by simp [SameText]
      rw [decide_eq_false this]
      cases r with
      | nil => rfl
      | cons c r =>
        simp only [eqCaseN, Bool.and_eq_false_iff]
        left
        rw [beq_eq_false_iff_ne]
        intro h
        exact hr c rfl (toLower_alnum c b h (hn b (by simp)))
    | cons c m =>
      have hmax : max (b :: n).length (c :: m).length = max n.length m.length + 1 := by simp only [List.length_cons]; omega
      rw [hmax]
      simp only [List.cons_append, eqCaseN]
      rw [ih m (fun x hx => hm x (by simp [hx])) (fun x hx => hn x (by simp [hx]))]
      unfold SameText
      rw [Bool.eq_iff_iff]
      simp only [Bool.and_eq_true, beq_iff_eq, decide_eq_true_eq, List.map_cons, List.cons.injEq]
      constructor
      · rintro ⟨h1, h2⟩
        exact ⟨(upper_of_toLower h1).symm, of_decide_eq_true h2⟩
      · rintro ⟨h1, h2⟩
        exact ⟨toLower_of_upper h1.symm, decide_eq_true h2⟩

theorem findOpcode_eq (m r : Str) (os : List Opcode) (hm : ∀ c ∈ m, Alnum c) (hr : ∀ c ∈ r.head?, ¬ Alnum c) (hos : ∀ o ∈ os, ∀ c ∈ o.name, Alnum c) :
    findOpcode (m ++ r) m.length os = os.dropWhile (fun o => !decide (SameText o.name m)) := by
  induction os with
  | nil => rfl
  | cons o os ih =>
    unfold findOpcode
    rw [eqCaseN_name m r o.name hm hr (hos o (by simp)), List.dropWhile_cons, ih (fun x hx => hos x (by simp [hx]))]
    by_cases h : SameText o.name m <;> simp [h]

/-- Names with a dot in the part that is compared are no mnemonics. -/
theorem eqCaseN_dot (m r n : Str) (len : Nat) (hlen : m.length < len) (hn : ∀ c ∈ n, Alnum c) : eqCaseN (m ++ 46 :: r) n len = false := by
  induction m generalizing n len with
  | nil =>
    obtain ⟨len, rfl⟩ : ∃ l, len = l + 1 := ⟨len - 1, by simp at hlen; omega⟩
    cases n with
    | nil => rfl
    | cons b n =>
      simp only [List.nil_append, eqCaseN, Bool.and_eq_false_iff]
      left
      rw [beq_eq_false_iff_ne]
      intro h
      have := toLower_alnum 46 b h (hn b (by simp))
      unfold Alnum at this
      omega
  | cons c m ih =>
    obtain ⟨len, rfl⟩ : ∃ l, len = l + 1 := ⟨len - 1, by simp at hlen; omega⟩
    cases n with
    | nil => rfl
    | cons b n =>
      simp only [List.cons_append, eqCaseN, Bool.and_eq_false_iff]
      right
      exact ih n len (by simpa using hlen) (fun x hx => hn x (by simp [hx]))

theorem findOpcode_dot (m r : Str) (os : List Opcode) (len : Nat) (hlen : m.length < len) (hos : ∀ o ∈ os, ∀ c ∈ o.name, Alnum c) :
    findOpcode (m ++ 46 :: r) len os = [] := by
  induction os with
  | nil => rfl
  | cons o os ih =>
    unfold findOpcode
    rw [eqCaseN_dot m r o.name _ (by omega) (hos o (by simp)), ih (fun x hx => hos x (by simp [hx]))]
    simp

theorem upperCase_dot (c : Nat) (h : upperCase c = 46) : c = 46 := by
  unfold upperCase at h
  split at h <;> omega

theorem upperCase_letter (c l : Nat) (h : upperCase c = l) (hl : 65 ≤ l ∧ l ≤ 90) : toLower c = l + 32 := by
  unfold upperCase at h
  unfold toLower isUpper
  split at h
  · rename_i h1
    rw [if_neg (by simp; omega)]
    omega
  · subst h
    rw [if_pos (by simp; omega)]

theorem toLower_letter (c l : Nat) (h : toLower c = l + 32) (hl : 65 ≤ l ∧ l ≤ 90) : upperCase c = l := by
  unfold toLower isUpper at h
  unfold upperCase
  split at h
  · rename_i h1
    rw [if_neg (by simp at h1; omega)]
    omega
  · rw [if_pos (by omega)]
    omega

theorem toLower_dot (c : Nat) (h : toLower c = 46) : c = 46 := by
  unfold toLower isUpper at h
  split at h
  · rename_i h1; simp at h1; omega
  · exact h

theorem toLower_ne_dot (c : Nat) (l : Nat) (h : toLower c = l) (hl : l ≠ 46) : c ≠ 46 := by
  rintro rfl
  exact hl h.symm

/-- A suffix at the end of a name is recognised. -/
theorem parseSuffix_suffix (adl : Bool) (m u : Str) (x : List Nat × Nat × Bool) (hx : x ∈ suffixes adl) (h : SameText u x.1) :
    ∃ c, parseSuffix adl (m ++ u) = some (c, u.length) ∧ c < 4 ∧ 0x40 + c * 9 = x.2.1 ∧ decide (c ≥ 2) = x.2.2 := by
  have two : ∀ {a b}, SameText u [a, b] → ∃ p q, u = [p, q] ∧ upperCase p = upperCase a ∧ upperCase q = upperCase b := by
    intro a b h
    unfold SameText at h
    rcases u with _ | ⟨p, _ | ⟨q, _ | ⟨r, u⟩⟩⟩ <;> simp at h
    exact ⟨p, q, rfl, h⟩
  have three : ∀ {a b c}, SameText u [a, b, c] → ∃ p q r, u = [p, q, r] ∧ upperCase p = upperCase a ∧ upperCase q = upperCase b ∧ upperCase r = upperCase c := by
    intro a b c h
    unfold SameText at h
    rcases u with _ | ⟨p, _ | ⟨q, _ | ⟨r, _ | ⟨t, u⟩⟩⟩⟩ <;> simp at h
    exact ⟨p, q, r, rfl, h⟩
  have four : ∀ {a b c d}, SameText u [a, b, c, d] → ∃ p q r t, u = [p, q, r, t] ∧ upperCase p = upperCase a ∧ upperCase q = upperCase b ∧ upperCase r = upperCase c ∧ upperCase t = upperCase d := by
    intro a b c d h
    unfold SameText at h
    rcases u with _ | ⟨p, _ | ⟨q, _ | ⟨r, _ | ⟨t, _ | ⟨v, u⟩⟩⟩⟩⟩ <;> simp at h
    exact ⟨p, q, r, t, rfl, h⟩
  have US : upperCase 83 = 83 := rfl
  have UL : upperCase 76 = 76 := rfl
  have UI : upperCase 73 = 73 := rfl
  have UD : upperCase 46 = 46 := rfl
  simp only [suffixes, List.mem_cons, List.not_mem_nil, or_false] at hx
  rcases hx with rfl | rfl | rfl | rfl | rfl | rfl | rfl | rfl
  · obtain ⟨p, q, r, t, rfl, h1, h2, h3, h4⟩ := four (show SameText u [46, 83, 73, 83] from h)
    rw [UD] at h1; rw [US] at h2 h4; rw [UI] at h3
    have := upperCase_dot p h1
    have := upperCase_letter q _ h2 (by omega)
    have := upperCase_letter r _ h3 (by omega)
    have := upperCase_letter t _ h4 (by omega)
    exact ⟨0, by simp [parseSuffix, *], by simp⟩
  · obtain ⟨p, q, r, t, rfl, h1, h2, h3, h4⟩ := four (show SameText u [46, 76, 73, 83] from h)
    rw [UD] at h1; rw [US] at h4; rw [UL] at h2; rw [UI] at h3
    have := upperCase_dot p h1
    have := upperCase_letter q _ h2 (by omega)
    have := upperCase_letter r _ h3 (by omega)
    have := upperCase_letter t _ h4 (by omega)
    exact ⟨1, by simp [parseSuffix, *], by simp⟩
  · obtain ⟨p, q, r, t, rfl, h1, h2, h3, h4⟩ := four (show SameText u [46, 83, 73, 76] from h)
    rw [UD] at h1; rw [US] at h2; rw [UL] at h4; rw [UI] at h3
    have := upperCase_dot p h1
    have := upperCase_letter q _ h2 (by omega)
    have := upperCase_letter r _ h3 (by omega)
    have := upperCase_letter t _ h4 (by omega)
    exact ⟨2, by simp [parseSuffix, *], by simp⟩
  · obtain ⟨p, q, r, t, rfl, h1, h2, h3, h4⟩ := four (show SameText u [46, 76, 73, 76] from h)
    rw [UD] at h1; rw [UL] at h2 h4; rw [UI] at h3
    have := upperCase_dot p h1
    have := upperCase_letter q _ h2 (by omega)
    have := upperCase_letter r _ h3 (by omega)
    have := upperCase_letter t _ h4 (by omega)
    exact ⟨3, by simp [parseSuffix, *], by simp⟩
  · obtain ⟨p, q, rfl, h1, h2⟩ := two (show SameText u [46, 83] from h)
    rw [UD] at h1; rw [US] at h2
    have := upperCase_dot p h1
    subst this
    have := upperCase_letter q _ h2 (by omega)
    have h46 : toLower 46 = 46 := rfl
    refine ⟨if adl then 2 else 0, ?_, ?_⟩
    · cases adl <;> simp [parseSuffix, *]
    · cases adl <;> simp
  · obtain ⟨p, q, rfl, h1, h2⟩ := two (show SameText u [46, 76] from h)
    rw [UD] at h1; rw [UL] at h2
    have := upperCase_dot p h1
    subst this
    have := upperCase_letter q _ h2 (by omega)
    have h46 : toLower 46 = 46 := rfl
    refine ⟨if adl then 3 else 1, ?_, ?_⟩
    · cases adl <;> simp [parseSuffix, *]
    · cases adl <;> simp
  · obtain ⟨p, q, r, rfl, h1, h2, h3⟩ := three (show SameText u [46, 73, 83] from h)
    rw [UD] at h1; rw [UI] at h2; rw [US] at h3
    have := upperCase_dot p h1
    subst this
    have := upperCase_letter q _ h2 (by omega)
    have := upperCase_letter r _ h3 (by omega)
    have h46 : toLower 46 = 46 := rfl
    refine ⟨if adl then 1 else 0, ?_, ?_⟩
    · cases adl <;> simp [parseSuffix, *]
    · cases adl <;> simp
  · obtain ⟨p, q, r, rfl, h1, h2, h3⟩ := three (show SameText u [46, 73, 76] from h)
    rw [UD] at h1; rw [UI] at h2; rw [UL] at h3
    have := upperCase_dot p h1
    subst this
    have := upperCase_letter q _ h2 (by omega)
    have := upperCase_letter r _ h3 (by omega)
    have h46 : toLower 46 = 46 := rfl
    refine ⟨if adl then 3 else 2, ?_, ?_⟩
    · cases adl <;> simp [parseSuffix, *]
    · cases adl <;> simp

/-- Only suffixes are recognised. -/
theorem parseSuffix_only (adl : Bool) (name : Str) (c n : Nat) (h : parseSuffix adl name = some (c, n)) :
    ∃ m u, name = m ++ u ∧ u.length = n ∧ ∃ x ∈ suffixes adl, SameText u x.1 := by
  have last : ∀ {l1 : Nat} {q : Nat}, toLower q = l1 → (l1 == 115 || l1 == 108) = true → upperCase q = 83 ∨ upperCase q = 76 := by
    intro l1 q h1 h2
    simp only [Bool.or_eq_true, beq_iff_eq] at h2
    rcases h2 with h2 | h2
    · exact .inl (toLower_letter q 83 (by omega) (by omega))
    · exact .inr (toLower_letter q 76 (by omega) (by omega))
  have mem : ∀ u, u.map upperCase ∈ (suffixes adl).map (·.1) → ∃ x ∈ suffixes adl, SameText u x.1 := by
    intro u hu
    obtain ⟨x, hx, he⟩ := List.mem_map.1 hu
    refine ⟨x, hx, ?_⟩
    unfold SameText
    rw [← he]
    simp only [suffixes, List.mem_cons, List.not_mem_nil, or_false] at hx
    rcases hx with rfl | rfl | rfl | rfl | rfl | rfl | rfl | rfl <;> rfl
  rw [show (suffixes adl).map (·.1) = [[46, 83, 73, 83], [46, 76, 73, 83], [46, 83, 73, 76], [46, 76, 73, 76], [46, 83], [46, 76], [46, 73, 83],
    [46, 73, 76]] by cases adl <;> rfl] at mem
  unfold parseSuffix at h
  generalize hr : name.reverse = w at h
  have hname : name = w.reverse := by rw [← hr, List.reverse_reverse]
  match w, hr, hname, h with
  | c1 :: c2 :: rest, _, hname, h =>
    dsimp only at h
    by_cases h1 : (toLower c1 == 115 || toLower c1 == 108) = true
    · rw [if_pos h1] at h
      have hlast := last rfl h1
      by_cases h2 : (toLower c2 == 46) = true
      · rw [if_pos h2] at h
        have := toLower_dot c2 (by simpa using h2)
        subst this
        cases h
        refine ⟨rest.reverse, [46, c1], by rw [hname]; simp, rfl, mem _ ?_⟩
        rcases hlast with h | h <;> simp [h, show upperCase 46 = 46 from rfl]
      · rw [if_neg h2] at h
        by_cases h3 : (toLower c2 == 105) = true
        · rw [if_pos h3] at h
          have hI := toLower_letter c2 73 (by simpa using h3) (by omega)
          match rest, hname, h with
          | c3 :: rest', hname, h =>
            dsimp only at h
            by_cases h4 : (toLower c3 == 46) = true
            · rw [if_pos h4] at h
              have := toLower_dot c3 (by simpa using h4)
              subst this
              cases h
              refine ⟨rest'.reverse, [46, c2, c1], by rw [hname]; simp, rfl, mem _ ?_⟩
              rcases hlast with h | h <;> simp [h, hI, show upperCase 46 = 46 from rfl]
            · rw [if_neg h4] at h
              match rest', hname, h with
              | c4 :: rest'', hname, h =>
                dsimp only at h
                by_cases h5 : (c4 == 46 && (toLower c3 == 115 || toLower c3 == 108)) = true
                · rw [if_pos h5] at h
                  rw [Bool.and_eq_true] at h5
                  have hfirst := last rfl h5.2
                  have := h5.1
                  rw [beq_iff_eq] at this
                  subst this
                  cases h
                  refine ⟨rest''.reverse, [46, c3, c2, c1], by rw [hname]; simp, rfl, mem _ ?_⟩
                  rcases hlast with h | h <;> rcases hfirst with h' | h' <;> simp [h, h', hI, show upperCase 46 = 46 from rfl]
                · rw [if_neg h5] at h; cases h
        · rw [if_neg h3] at h; cases h
    · rw [if_neg h1] at h; cases h

theorem parseSuffix_none (adl : Bool) (name : Str) (h : ∀ c ∈ name, Alnum c) : parseSuffix adl name = none := by
  cases hp : parseSuffix adl name with
  | none => rfl
  | some p =>
    obtain ⟨c, n⟩ := p
    obtain ⟨m, u, rfl, -, x, hx, hs⟩ := parseSuffix_only adl name c n hp
    exfalso
    have : ∃ r, x.1 = 46 :: r := by
      simp only [suffixes, List.mem_cons, List.not_mem_nil, or_false] at hx
      rcases hx with rfl | rfl | rfl | rfl | rfl | rfl | rfl | rfl <;> exact ⟨_, rfl⟩
    obtain ⟨r, hr⟩ := this
    rw [hr] at hs
    unfold SameText at hs
    cases u with
    | nil => cases hs
    | cons a u =>
      simp only [List.map_cons, List.cons.injEq] at hs
      have := upperCase_dot a hs.1
      subst this
      have := h 46 (by simp)
      unfold Alnum at this
      omega

end Spasm
