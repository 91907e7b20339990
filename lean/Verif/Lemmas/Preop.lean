import Verif.Lemmas.Names
import Verif.Lemmas.LineSec
import Verif.Lemmas.Split
import Verif.Model.Knot

/-
Preprocessor statements: reaching them, and their keywords.
-/

namespace Spasm
open Spec

theorem toLower_of_upper {a b : Nat} (h : upperCase a = upperCase b) : toLower a = toLower b := by
  unfold upperCase at h
  unfold toLower isUpper
  simp only [Bool.and_eq_true, decide_eq_true_eq]
  split at h <;> split at h <;> split <;> split <;> omega

theorem map_toLower_of_upper {t t' : Str} (h : t.map upperCase = t'.map upperCase) : t.map toLower = t'.map toLower := by
  induction t generalizing t' with
  | nil => cases t' with | nil => rfl | cons _ _ => simp at h
  | cons a t ih =>
    cases t' with
    | nil => simp at h
    | cons b t' =>
      simp only [List.map_cons, List.cons.injEq] at h ⊢
      exact ⟨toLower_of_upper h.1, ih h.2⟩

theorem eqCase_of_upper {t t' : Str} (h : t.map upperCase = t'.map upperCase) (w : Str) : eqCase t w = eqCase t' w := by
  unfold eqCase
  rw [map_toLower_of_upper h]

theorem eqCase_of_upper' {t t' : Str} (h : t.map upperCase = t'.map upperCase) (w : Str) : eqCase w t = eqCase w t' := by
  unfold eqCase
  rw [map_toLower_of_upper h]

theorem isSpace_upper (c : Nat) : isSpace (upperCase c) = isSpace c := by
  unfold upperCase
  split
  · unfold isSpace
    rw [Bool.eq_iff_iff]
    simp
    omega
  · rfl

theorem takeWhile_word {w : Str} (hw : ∀ x ∈ w, isSpace x = false) (c : Nat) (hc : isSpace c = true) (r : Str) :
    (w ++ c :: r).takeWhile (fun c => !isSpace c) = w ∧ (w ++ c :: r).dropWhile (fun c => !isSpace c) = c :: r := by
  have h1 : ∀ x ∈ w, (!isSpace x) = true := fun x hx => by simp [hw x hx]
  rw [List.takeWhile_append_of_pos h1, List.dropWhile_append_of_pos h1]
  simp [hc]

/-- The keyword of a preprocessor statement, in any case. -/
theorem findPre_word {w W : Str} (h : w.map upperCase = W) (hW : ∀ x ∈ W, isSpace x = false) (c : Nat) (hc : isSpace c = true) (r : Str) :
    findPre (w ++ c :: r) = (preNames.find? (fun d => eqCase d.1 W)).map (·.2) ∧
      (w ++ c :: r).dropWhile (fun c => !isSpace c) = c :: r := by
  have hw : ∀ x ∈ w, isSpace x = false := by
    intro x hx
    rw [← isSpace_upper]
    exact hW _ (by rw [← h]; exact List.mem_map_of_mem hx)
  obtain ⟨h1, h2⟩ := takeWhile_word hw c hc r
  refine ⟨?_, h2⟩
  unfold findPre
  rw [h1]
  have hWW : W.map upperCase = W := by
    rw [← h, List.map_map]
    exact List.map_congr_left fun x _ => upperCase_idem x
  congr 2
  funext d
  exact eqCase_of_upper' (by rw [h, hWW]) d.1

/-- A statement that starts with `#`. -/
theorem lineSec_hash (k : Rec) (b t : Str) (hb : Blanks b) (f : Nat) (s : S) :
    lineSecLoop k (f + 2) (b ++ 35 :: t) s = k.handlePreop t s := by
  have h0 : ∀ g, lineSecLoop k (g + 1) (35 :: t) s = k.handlePreop t s := fun g => rfl
  cases b with
  | nil => exact h0 _
  | cons c b =>
    have hs : skipWs (c :: b ++ 35 :: t) = 35 :: t := by
      rw [skipWs_blanks _ _ hb, skipWs_cons _ _ (by decide)]
    have hc := hb c (by simp)
    rw [lineSecLoop]
    have h1 : isEnd (c :: b ++ 35 :: t) = false := by rcases hc with rfl | rfl | rfl | rfl <;> rfl
    have h2 : (isAlpha (hd (c :: b ++ 35 :: t)) || hd (c :: b ++ 35 :: t) == 95) = false := by rcases hc with rfl | rfl | rfl | rfl <;> rfl
    have h3 : isSpace (hd (c :: b ++ 35 :: t)) = true := by rcases hc with rfl | rfl | rfl | rfl <;> rfl
    dsimp only
    rw [h1, h2, h3, hs]
    simp only [Bool.false_eq_true, if_false, if_true]
    rw [if_neg (show ¬ (isAlpha (hd (35 :: t)) || hd (35 :: t) == 95) = true by show ¬ (isAlpha 35 || 35 == 95) = true; decide), h0]

/-- A preprocessor statement at the level of statements. -/
theorem lineSec_preop (k : Nat) (b t : Str) (hb : Blanks b) (s : S) :
    (knot (k + 2)).lineSec (b ++ 35 :: t) s = handlePreopBody (knot k) (handleBitmap (knot k)) t s := by
  show lineSecBody (knot (k + 1)) (b ++ 35 :: t) s = _
  unfold lineSecBody
  rw [show (b ++ 35 :: t).length + 1 = (b ++ t).length + 2 by simp; omega, lineSec_hash _ _ _ hb]
  rfl

end Spasm
