import Verif.Lemmas.Cond
import Verif.Props.Data
import Verif.Spec.Ignored

/-
Lines that stand for nothing, in the loop of the first pass.
-/

namespace Spasm
open Spec Props

theorem goesOn_rest {t u nl X : Str} (ht : ∀ c ∈ t ++ u, c ≠ 10 ∧ c ≠ 13) (h92 : ∀ c ∈ (skipWs (t ++ u ++ nl ++ X)).head?, c ≠ 92) (hnl : NewLine nl) :
    GoesOn (t ++ u ++ nl ++ X) X := by
  refine ⟨?_, ?_⟩
  · cases h : skipWs (t ++ u ++ nl ++ X) with
    | nil => decide
    | cons c r => rw [h] at h92; exact h92 c rfl
  · have h1 : ∀ r : Str, skipToNextLine (skipWs r) = skipToNextLine r := by
      intro r
      induction r with
      | nil => rfl
      | cons c r ih =>
        unfold skipWs
        rw [List.dropWhile_cons]
        split
        · rename_i hb
          have hc : (c != 10 && c != 13) = true := by
            rw [isBlank_iff] at hb
            simp; omega
          have : skipToNextLine (c :: r) = skipToNextLine r := by
            unfold skipToNextLine
            rw [List.dropWhile_cons, if_pos hc]
          rw [this, ← ih]
          rfl
        · rfl
    rw [h1, show t ++ u ++ nl ++ X = (t ++ u) ++ (nl ++ X) by simp, skipToNextLine_plain ht]
    simpa using skip_comment [] X (.inl rfl) nl hnl

theorem blanks_head {b t : Str} (hb : Blanks b) (ht : t.head? ≠ some 92) : dropChar 92 (b ++ t) = b ++ t := by
  cases b with
  | nil =>
    cases t with
    | nil => rfl
    | cons c t => simp [dropChar]; intro h; simp [h] at ht
  | cons c b => have := hb c (by simp); simp [dropChar]; omega

/-- A statement that leaves off at the end of a line is a step of the pass. -/
theorem loop_section {line : Str → M (Option Str)} (k f : Nat) (hline : Answers line k) {t : Str} {s s' : S} {r X : Str} (hs : s.errOccurred = false)
    (ht : t ≠ []) (h92 : dropChar 92 t = t) (h : (knot k).lineSec t s = .ok (some r) s') (hg : s'.errOccurred = false) (hr : GoesOn r X) :
    firstPassLoop line (f + 1) t s = firstPassLoop line f X { s' with lineNum := s'.lineNum + 1 } := by
  have e : runLine (knot k) t s = .ok (some (skipWs r)) s' := by
    unfold runLine
    rw [lineLoop, h92, M.bind_ok h]
    dsimp only
    rw [M.get_bind, hg, if_neg (by simp [hr.1])]
    rfl
  have hne : t.isEmpty = false := by cases t with
    | nil => exact absurd rfl ht
    | cons => rfl
  rw [firstPassLoop, M.get_bind, hs, hne, if_neg (by simp), M.bind_ok (hline.same _ _ _ _ e)]
  dsimp only
  rw [M.modify_bind, hr.2]

/-- A directive without operands, in any case. -/
theorem lineSec_bare (k : Rec) {w W : Str} (d : Dir) (h : w.map upperCase = W) (hW : ∀ x ∈ W, isSpace x = false) (hl : W.length < 32)
    (hd : (dirNames.find? (fun d => eqCase d.1 W)).map (·.2) = some d) (b t : Str) (c : Nat) (hb : Blanks b) (hc : isSpace c = true) (s : S) :
    lineSecBody k (b ++ 46 :: w ++ c :: t) s = runDir k d (skipWs (c :: t)) s := by
  have hWW : W.map upperCase = W := by
    rw [← h, List.map_map]
    exact List.map_congr_left fun x _ => upperCase_idem x
  have h1 : ∀ x ∈ w, isSpace x = false := by
    intro x hx
    rw [← isSpace_upper]
    exact hW _ (by rw [← h]; exact List.mem_map_of_mem hx)
  have h2 : w.length < 32 := by rw [← h] at hl; simpa using hl
  have h3 : (dirNames.find? (fun d => eqCase d.1 w)).map (·.2) = some d := by
    rw [← hd]
    congr 2
    funext d
    exact eqCase_of_upper' (by rw [h, hWW]) d.1
  have ht : (w ++ c :: t).takeWhile (fun c => !isSpace c) = w := by
    rw [List.takeWhile_append_of_pos (by simpa using h1), List.takeWhile_cons, if_neg (by simp [hc]), List.append_nil]
  have hdr : (w ++ c :: t).dropWhile (fun c => !isSpace c) = c :: t := by
    rw [List.dropWhile_append_of_pos (by simpa using h1), List.dropWhile_cons, if_neg (by simp [hc])]
  have e : handleDirective k (46 :: (w ++ c :: t)) s = runDir k d (skipWs (c :: t)) s := by
    unfold handleDirective findDir
    simp only [List.tail_cons, ht, hdr, if_pos h2, h3]
  rw [← e]
  unfold lineSecBody
  rw [show b ++ 46 :: w ++ c :: t = b ++ 46 :: (w ++ c :: t) by simp,
    show (b ++ 46 :: (w ++ c :: t)).length + 1 = (b ++ (w ++ c :: t)).length + 2 by simp; omega]
  exact lineSec_dot k b _ hb _ s

theorem sameText_dot {w W : Str} (h : SameText w (46 :: W)) : ∃ w', w = 46 :: w' ∧ SameText w' W := by
  unfold SameText at h
  cases w with
  | nil => cases h
  | cons c w =>
    have h1 : upperCase c = 46 := (List.cons.inj h).1
    have : c = 46 := by unfold upperCase at h1; split at h1 <;> omega
    exact ⟨w, by rw [this], (List.cons.inj h).2⟩

/-- A marker line does nothing but count. -/
theorem marker_passes {l : Str} (h : MarkerLine l) (s : S) (hg : s.errOccurred = false) (k f : Nat) {line : Str → M (Option Str)}
    (hline : Answers line (k + 2)) (R : Str) :
    firstPassLoop line (f + 1) (l ++ R) s = firstPassLoop line f R { s with lineNum := s.lineNum + 1 } ∧ l.count 10 = 1 := by
  obtain ⟨b, w, word, u, nl, rfl, hb, hword, hw, hu1, hu2, hnl⟩ := h
  obtain ⟨c, r, e, hc⟩ : ∃ c r, u ++ nl ++ R = c :: r ∧ isSpace c = true := by
    cases u with
    | nil =>
      rcases hnl with rfl | rfl
      · exact ⟨10, R, rfl, rfl⟩
      · exact ⟨13, 10 :: R, rfl, rfl⟩
    | cons c u => exact ⟨c, _, rfl, by rcases hu1 c rfl with rfl | rfl <;> rfl⟩
  have hgo : GoesOn (skipWs (c :: r)) R := by
    have h1 : GoesOn (c :: r) R := by
      rw [← e]
      refine goesOn_rest (t := []) (fun c hc => ⟨(hu2 c (by simpa using hc)).1, (hu2 c (by simpa using hc)).2.1⟩) ?_ hnl
      intro x hx
      have hx' := List.dropWhile_suffix (l := u ++ nl ++ R) isBlank
      by_cases hall : ∀ c ∈ u, isBlank c = true
      · rw [show [] ++ u ++ nl ++ R = u ++ (nl ++ R) by simp] at hx
        unfold skipWs at hx
        rw [List.dropWhile_append_of_pos (by simpa using hall)] at hx
        rcases hnl with rfl | rfl
        · rw [show ([10] : Str) ++ R = 10 :: R from rfl, List.dropWhile_cons, if_neg (by decide)] at hx
          cases hx; decide
        · rw [show ([13, 10] : Str) ++ R = 13 :: 10 :: R from rfl, List.dropWhile_cons, if_neg (by decide)] at hx
          cases hx; decide
      · have : x ∈ u := by
          clear hx' hu1 e
          rw [show [] ++ u ++ nl ++ R = u ++ (nl ++ R) by simp] at hx
          unfold skipWs at hx
          clear hu2
          induction u with
          | nil => simp at hall
          | cons y u ih =>
            rw [List.cons_append, List.dropWhile_cons] at hx
            split at hx
            · rename_i hy
              refine List.mem_cons_of_mem _ (ih hx ?_)
              intro hall'
              apply hall
              intro c hc
              rcases List.mem_cons.1 hc with rfl | hc
              · exact hy
              · exact hall' c hc
            · cases hx; simp
        exact (hu2 x this).2.2
    unfold GoesOn at h1 ⊢
    rw [skipWs_idem]
    exact h1
  have hcount : (b ++ w ++ u ++ nl).count 10 = 1 := by
    have z : ∀ t : Str, (∀ c ∈ t, c ≠ 10) → t.count 10 = 0 := by
      intro t ht
      exact List.count_eq_zero.2 (fun h => ht 10 h rfl)
    have hw10 : ∀ c ∈ w, c ≠ 10 := by
      rintro c hc rfl
      have h1 : upperCase 10 ∈ word.map upperCase := by rw [← show w.map upperCase = _ from hw]; exact List.mem_map_of_mem hc
      have : ∀ W ∈ markers, upperCase 10 ∉ W.map upperCase := by decide
      exact this _ hword h1
    rw [List.count_append, List.count_append, List.count_append, z b (fun c hc => by have := hb c hc; omega), z w hw10, z u (fun c hc => (hu2 c hc).1)]
    rcases hnl with rfl | rfl <;> rfl
  refine ⟨?_, hcount⟩
  rw [show b ++ w ++ u ++ nl ++ R = b ++ w ++ (u ++ nl ++ R) by simp, e]
  have pre : ∀ W W' p, word = 35 :: W → W.map upperCase = W' → (∀ x ∈ W', isSpace x = false) → (preNames.find? (fun d => eqCase d.1 W')).map (·.2) = some p →
      (p = .region ∨ p = .endregion) →
      firstPassLoop line (f + 1) (b ++ w ++ c :: r) s = firstPassLoop line f R { s with lineNum := s.lineNum + 1 } := by
    intro W W' p e1 e2 e3 e4 e5
    subst e1
    obtain ⟨w', rfl, hw'⟩ := sameText_hash hw
    obtain ⟨h1, h2⟩ := findPre_word (sameText_upper hw' e2) e3 c hc r
    rw [show b ++ 35 :: w' ++ c :: r = b ++ 35 :: (w' ++ c :: r) by simp]
    refine loop_directive k f hline hb hg (s' := s) (r := skipWs (c :: r)) ?_ hg hgo
    unfold handlePreopBody
    dsimp only
    rw [h1, h2, e4]
    rcases e5 with rfl | rfl <;> rfl
  have dot : ∀ W W' d, word = 46 :: W → W.map upperCase = W' → (∀ x ∈ W', isSpace x = false) → W'.length < 32 →
      (dirNames.find? (fun d => eqCase d.1 W')).map (·.2) = some d →
      (d = .end_ ∨ d = .list ∨ d = .nolist) →
      firstPassLoop line (f + 1) (b ++ w ++ c :: r) s = firstPassLoop line f R { s with lineNum := s.lineNum + 1 } := by
    intro W W' d e1 e2 e3 e4 e5 e6
    subst e1
    obtain ⟨w', rfl, hw'⟩ := sameText_dot hw
    refine loop_section (k + 2) f hline hg (s' := s) (r := skipWs (c :: r)) (by simp) ?_ ?_ hg hgo
    · rw [List.append_assoc]
      exact blanks_head hb (by simp)
    · show lineSecBody (knot (k + 1)) _ s = _
      rw [lineSec_bare _ d (sameText_upper hw' e2) e3 e4 e5 b r c hb hc]
      rcases e6 with rfl | rfl | rfl <;> rfl
  simp only [markers, List.mem_cons, List.not_mem_nil, or_false] at hword
  rcases hword with h | h | h | h | h
  · exact pre (b! "region") (b! "REGION") .region h (by decide) (by decide) (by decide) (.inl rfl)
  · exact pre (b! "endregion") (b! "ENDREGION") .endregion h (by decide) (by decide) (by decide) (.inr rfl)
  · exact dot (b! "list") (b! "LIST") .list h (by decide) (by decide) (by decide) (by decide) (.inr (.inl rfl))
  · exact dot (b! "nolist") (b! "NOLIST") .nolist h (by decide) (by decide) (by decide) (by decide) (.inr (.inr rfl))
  · exact dot (b! "end") (b! "END") .end_ h (by decide) (by decide) (by decide) (by decide) (.inl rfl)

/-- A block comment does nothing but count. -/
theorem comment_passes {t : Str} (h : BlockComment t) (s : S) (hg : s.errOccurred = false) (hs : InSession s) (k f : Nat) {line : Str → M (Option Str)}
    (hline : Answers line (k + 2)) (R : Str) :
    firstPassLoop line (f + 1) (t ++ R) s = firstPassLoop line f R { s with lineNum := s.lineNum + (t.count 10 : Nat) } := by
  obtain ⟨b, w, b1, sts, text, b2, w2, u, nl, rfl, hb, hw, hb1, ⟨x, xs, rfl, hsep, hhd⟩, hl, hN, hb2, hw2, hu, hnl⟩ := h
  have hwl : ∀ {w W : Str}, SameText w W → (∀ c ∈ W, upperCase c ≠ 10 ∧ upperCase c ≠ 13) → ∀ c ∈ w, c ≠ 10 ∧ c ≠ 13 := by
    intro w W hw hW c hc
    have h1 : upperCase c ∈ W.map upperCase := by rw [← show w.map upperCase = _ from hw]; exact List.mem_map_of_mem hc
    obtain ⟨x, hx, hx'⟩ := List.mem_map.1 h1
    have := hW x hx
    rw [hx'] at this
    unfold upperCase at this
    split at this <;> omega
  have hw10 := hwl hw (by decide)
  have hw210 := hwl hw2 (by decide)
  obtain ⟨w', rfl, hw'⟩ := sameText_hash hw
  have hcount : (b ++ 35 :: w' ++ b1 ++ (x :: xs) ++ (b2 ++ w2 ++ u ++ nl)).count 10 = (x :: xs).count 10 + 1 := by
    have z : ∀ t : Str, (∀ c ∈ t, c ≠ 10) → t.count 10 = 0 := by
      intro t ht
      exact List.count_eq_zero.2 (fun h => ht 10 h rfl)
    simp only [List.count_append]
    rw [z b (fun c hc => by have := hb c hc; omega), z _ (fun c hc => (hw10 c hc).1), z b1 (fun c hc => by have := hb1 c hc; omega),
      z b2 (fun c hc => by have := hb2 c hc; omega), z _ (fun c hc => (hw210 c hc).1), z u (fun c hc => (hu c hc).1)]
    rcases hnl with rfl | rfl <;> simp
  have hR : Begins (b! "#endcomment") (b2 ++ w2 ++ (u ++ nl ++ R)) := ⟨b2, w2, _, rfl, hb2, hw2⟩
  have hp : Plainly (b2 ++ w2 ++ (u ++ nl ++ R)) := plainly_hash hb2 hw2
  have hif : lineHasWord (b2 ++ w2 ++ (u ++ nl ++ R)) (b! "#IF") = false := noWord_of (by decide) (by decide) hR (by decide)
  have hq := skipQuietly_ok (knot k) [b! "#endcomment"] s hs ((x :: xs) ++ (b2 ++ w2 ++ (u ++ nl ++ R))) (b2 ++ w2 ++ (u ++ nl ++ R))
    (s.lineNum + ((x :: xs).count 10 : Nat)) (by
      intro q hx hx'
      have := skipUntil_finds (knot k) [b! "#endcomment"] (by decide) true q (hx.trans hg) sts (x :: xs)
        (b2 ++ w2 ++ (u ++ nl ++ R)) (b! "#endcomment") hl hN (by simp) hR hif (by intro c hc; have := hp c hc; omega)
      rw [if_pos rfl, hx'] at this
      exact this)
  obtain ⟨w2', rfl, -⟩ := sameText_hash hw2
  obtain ⟨c, r, e, hc⟩ : ∃ c r, b1 ++ (x :: xs) ++ (b2 ++ 35 :: w2' ++ (u ++ nl ++ R)) = c :: r ∧ isSpace c = true := by
    cases b1 with
    | nil =>
      exact ⟨x, _, rfl, by rcases hsep rfl with rfl | rfl <;> rfl⟩
    | cons c b1 => exact ⟨c, _, rfl, blank_isSpace (hb1 c (by simp))⟩
  obtain ⟨h1, h2⟩ := findPre_word (sameText_upper hw' (W' := b! "COMMENT") (by decide)) (by decide) c hc r
  rw [show b ++ 35 :: w' ++ b1 ++ (x :: xs) ++ (b2 ++ 35 :: w2' ++ u ++ nl) ++ R = b ++ 35 :: (w' ++ c :: r) by rw [← e]; simp]
  have hgo : GoesOn (b2 ++ 35 :: w2' ++ (u ++ nl ++ R)) R := by
    have := goesOn_rest (t := b2 ++ 35 :: w2') (u := u) (nl := nl) (X := R) ?_ ?_ hnl
    · simpa using this
    · intro c hc
      rcases List.mem_append.1 hc with hc | hc
      · rcases List.mem_append.1 hc with hc | hc
        · have := hb2 c hc; omega
        · exact hw210 c hc
      · exact hu c hc
    · intro c hc
      rw [show b2 ++ 35 :: w2' ++ u ++ nl ++ R = b2 ++ 35 :: (w2' ++ u ++ nl ++ R) by simp, skipWs_blanks _ _ hb2, skipWs_cons _ _ (by decide)] at hc
      cases hc
      decide
  have hskip : skipWs (c :: r) = x :: xs ++ (b2 ++ 35 :: w2' ++ (u ++ nl ++ R)) := by
    rw [← e, List.append_assoc, skipWs_blanks _ _ hb1]
    refine skipWs_cons _ _ ?_
    rw [← Bool.not_eq_true, isBlank_iff]
    omega
  rw [loop_directive k f hline hb hg (s' := { s with lineNum := s.lineNum + ((x :: xs).count 10 : Nat) }) (r := b2 ++ 35 :: w2' ++ (u ++ nl ++ R)) (X := R) ?_ hg hgo, hcount]
  · congr 2
    push_cast
    omega
  unfold handlePreopBody
  dsimp only
  rw [h1, h2, hskip]
  show (skipQuietly (knot k) [b! "#endcomment"] _ >>= fun r => pure (some r)) s = _
  rw [M.bind_ok hq]
  rfl

end Spasm
