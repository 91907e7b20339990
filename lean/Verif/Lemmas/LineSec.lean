import Verif.Lemmas.ExprBase
import Verif.Lemmas.M

/-
The length of the text is enough budget for a line: more makes no difference.
-/

namespace Spasm

theorem skipNameEnd_length (s : Str) : (skipNameEnd s).length ≤ s.length := by
  unfold skipNameEnd
  exact (List.dropWhile_sublist _).length_le

theorem skipNameEnd_lt (c : Nat) (s : Str) (hc : isNameChar c = true) : (skipNameEnd (c :: s)).length < (c :: s).length := by
  unfold skipNameEnd
  rw [List.dropWhile_cons, if_pos hc]
  have := (List.dropWhile_sublist (p := isNameChar) (l := s)).length_le
  simp; omega

theorem dropChar_length (c : Nat) (s : Str) : (dropChar c s).length ≤ s.length := by
  unfold dropChar
  split <;> simp

theorem lineSecLoop_fuel (k : Rec) : ∀ (f g : Nat) (s : Str), s.length < f → s.length < g →
    lineSecLoop k f s = lineSecLoop k g s := by
  intro f
  induction f with
  | zero => intro g s h; omega
  | succ f ih =>
    intro g s hf hg
    obtain ⟨g, rfl⟩ : ∃ m, g = m + 1 := ⟨g - 1, by omega⟩
    cases s with
    | nil => rfl
    | cons c s =>
      rw [lineSecLoop, lineSecLoop]
      dsimp only
      split
      · rfl
      · rename_i hend
        split
        · rename_i hal
          split
          · rfl
          · have hn : isNameChar c = true := by
              rw [isNameChar_iff]
              simp only [hd_cons, Bool.or_eq_true, beq_iff_eq] at hal
              unfold isAlpha isUpper isLower at hal
              simp at hal
              unfold Spec.NameChar Spec.Alnum
              omega
            have hl : (dropChar 58 (skipNameEnd (c :: s))).length < (c :: s).length :=
              Nat.lt_of_le_of_lt (dropChar_length _ _) (skipNameEnd_lt c s hn)
            rw [ih g _ (by omega) (by omega)]
        · split
          · rename_i hsp
            split
            · rfl
            · have hb : isBlank c = true := by
                simp [isEnd] at hend
                simp [isSpace] at hsp
                unfold isBlank isSpace
                simp
                omega
              have hl : (skipWs (c :: s)).length < (c :: s).length := by
                unfold skipWs
                rw [List.dropWhile_cons, if_pos hb]
                have := (List.dropWhile_sublist (p := isBlank) (l := s)).length_le
                simp; omega
              rw [ih g _ (by omega) (by omega)]
          · rfl

end Spasm
