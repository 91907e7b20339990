import Verif.Lemmas.Cond
import Verif.Lemmas.BalanceRun

/-
Helper lemmas: groups without an `#endif`.
-/

namespace Spasm
open Spec Props

/-- The problem that skip_until records when it finds the end of the text. -/
def unmatched (s : S) : Err := ⟨E.UNMATCHED_IF, s.session, false, s.lineNum, s.currFile⟩

theorem skipLoop_end (F : Nat) (words : List Str) (f level : Nat) (num : Int) (st : S) :
    skipLoop F words (f + 1) level num [] st = .ok ([], num) { st with errors := unmatched st :: st.errors } := by
  rw [skipLoop, M.get_bind]
  rfl

theorem scanFrom_end (words : List Str) (hW : ∀ w ∈ words, Sought w) (F : Nat) (st : S) (hg : st.errOccurred = false)
    {sts : List Str} {text : Str} (hl : Lines sts text) :
    ∀ {n m : Nat}, Nesting words n sts m → text ≠ [] → ∀ (f u : Nat) (num : Int), text.length < u → text.length ≤ f → text.length < F →
    ∃ num', scanFrom words F f u n num text st = .ok ([], num') { st with errors := unmatched st :: st.errors } := by
  have next : ∀ (f u n n' : Nat) (num : Int) (t r : Str), skipLine words r.length (u + 1) n t st = .ok (.next n') st → skipToNextLine t = r →
      (∀ num, r ≠ [] → ∃ num', scanFrom words F f F n' num r st = .ok ([], num') { st with errors := unmatched st :: st.errors }) →
      ∃ num', scanFrom words F (f + 1) (u + 1) n num t st = .ok ([], num') { st with errors := unmatched st :: st.errors } := by
    intro f u n n' num t r h1 h2 h3
    unfold scanFrom
    rw [h2]
    by_cases hr : r = []
    · subst hr
      refine ⟨num + 1, ?_⟩
      rw [M.bind_ok h1]
      exact skipLoop_end F words f n' (num + 1) st
    · obtain ⟨num', e⟩ := h3 (num + 1) hr
      refine ⟨num', ?_⟩
      rw [M.bind_ok h1, ← e]
      exact skipLoop_scan words F f n' (num + 1) r st hr hg
  induction hl with
  | nil => intro n m hN h; exact absurd rfl h
  | backslash t sts text hc h41 hl hh ih =>
    intro n m hN _ f u num hu hf hF
    obtain ⟨n', h1, h2⟩ := nesting_cons hN
    obtain ⟨u, rfl⟩ : ∃ v, u = v + 1 := ⟨u - 1, by omega⟩
    simp only [List.length_append, List.length_cons] at hu hf hF
    obtain ⟨f, rfl⟩ : ∃ v, f = v + 1 := ⟨f - 1, by omega⟩
    have e1 : nextCodeLine (t ++ 92 :: text) = text := by
      rw [nextCodeLine_code hc h41 _ (.inr ⟨92, _, rfl, by omega⟩), afterSep_backslash _ hh]
    have e2 : skipToNextLine (t ++ 92 :: text) = skipToNextLine text := by
      rw [skipToNextLine_plain (CodeText_plain hc)]
      exact skipToNextLine_plain (t := [92]) (by simp)
    have step := skipLine_step words hW (skipToNextLine text).length u n n' t (92 :: text) (.inr ⟨92, _, rfl, by omega⟩) h1 st
    by_cases ht : text = []
    · subst ht
      rw [e1, if_neg (by simp)] at step
      exact next f u n n' num _ _ step e2 (fun _ h => absurd rfl h)
    · have e3 : (skipToNextLine text).length < text.length := by
        cases hx : text with
        | nil => exact absurd hx ht
        | cons c x => exact skipToNextLine_length c x
      obtain ⟨num', e⟩ := ih h2 ht (f + 1) u num (by omega) (by omega) (by omega)
      refine ⟨num', ?_⟩
      rw [← e]
      unfold scanFrom
      rw [e2]
      rw [e1, if_pos e3] at step
      show (skipLine words _ (u + 1) n _ >>= _) st = (skipLine words _ u n' _ >>= _) st
      simp only [M.bind_apply, step]
  | newline t com nl sts text hc h41 hcom hnl hl ih =>
    intro n m hN _ f u num hu hf hF
    obtain ⟨n', h1, h2⟩ := nesting_cons hN
    obtain ⟨u, rfl⟩ : ∃ v, u = v + 1 := ⟨u - 1, by omega⟩
    have := newLine_pos hnl
    simp only [List.length_append] at hu hf hF
    obtain ⟨f, rfl⟩ : ∃ v, f = v + 1 := ⟨f - 1, by omega⟩
    have e0 : t ++ com ++ nl ++ text = t ++ (com ++ nl ++ text) := by simp
    have e1 : nextCodeLine (t ++ (com ++ nl ++ text)) = text := by
      rw [nextCodeLine_code hc h41 _ (comment_end hcom hnl _), afterSep_newline hcom hnl]
    have e2 : skipToNextLine (t ++ (com ++ nl ++ text)) = text := by
      rw [skipToNextLine_plain (CodeText_plain hc), skip_comment com _ hcom nl hnl]
    have step := skipLine_step words hW text.length u n n' t _ (comment_end hcom hnl text) h1 st
    rw [e1, if_neg (by omega)] at step
    rw [e0]
    exact next f u n n' num _ text step e2 (fun num h => ih h2 h f F num (by omega) (by omega) (by omega))
  | apostrophe t b com nl sts text hc h41 hb hcom hbc hnl hl hh ih =>
    intro n m hN _ f u num hu hf hF
    obtain ⟨n', h1, h2⟩ := nesting_cons hN
    obtain ⟨u, rfl⟩ : ∃ v, u = v + 1 := ⟨u - 1, by omega⟩
    have := newLine_pos hnl
    simp only [List.length_append, List.length_cons] at hu hf hF
    obtain ⟨f, rfl⟩ : ∃ v, f = v + 1 := ⟨f - 1, by omega⟩
    have e0 : t ++ 39 :: b ++ com ++ nl ++ text = (t ++ 39 :: b) ++ (com ++ nl ++ text) := by simp
    have hp : ∀ c ∈ t ++ 39 :: b, c ≠ 10 ∧ c ≠ 13 := by
      intro c hx
      simp only [List.mem_append, List.mem_cons] at hx
      rcases hx with hx | rfl | hx
      · exact CodeText_plain hc c hx
      · decide
      · have := hb c hx; omega
    have e1 : nextCodeLine ((t ++ 39 :: b) ++ (com ++ nl ++ text)) = text := by
      have := nextCodeLine_lone hc h41 hb hcom hbc hnl text hh
      rw [← e0]
      simpa using this
    have e2 : skipToNextLine ((t ++ 39 :: b) ++ (com ++ nl ++ text)) = text := by
      rw [skipToNextLine_plain hp, skip_comment com _ hcom nl hnl]
    have step := skipLine_step words hW text.length u n n' (t ++ 39 :: b) _ (comment_end hcom hnl text) h1 st
    rw [e1, if_neg (by omega)] at step
    rw [e0]
    exact next f u n n' num _ text step e2 (fun num h => ih h2 h f F num (by omega) (by omega) (by omega))

/-- skip_until records a problem when no statement is found. -/
theorem skipUntil_end (k : Rec) (words : List Str) (hW : ∀ w ∈ words, Sought w) (s : S) (sts : List Str) (text : Str) (hl : Lines sts text) {m : Nat}
    (hN : Nesting words 0 sts m) : ∃ r, skipUntil k words false text s = .ok r { s with errors := unmatched s :: s.errors } := by
  unfold skipUntil
  rw [M.get_bind]
  by_cases hg : s.errOccurred = true
  · have : skipLoop (text.length + 1) words (text.length + 1) 0 s.lineNum text s = .ok (text, s.lineNum) { s with errors := unmatched s :: s.errors } := by
      rw [skipLoop, M.get_bind, if_pos (by rw [hg, Bool.or_true])]
      rfl
    rw [M.bind_ok this]
    exact ⟨text, rfl⟩
  · rw [Bool.not_eq_true] at hg
    have : ∃ num, skipLoop (text.length + 1) words (text.length + 1) 0 s.lineNum text s = .ok ([], num) { s with errors := unmatched s :: s.errors } := by
      by_cases ht : text = []
      · subst ht
        exact ⟨_, skipLoop_end _ _ _ _ _ _⟩
      · obtain ⟨num', e⟩ := scanFrom_end words hW (text.length + 1) s hg hl hN ht text.length (text.length + 1) s.lineNum (by omega) (by omega) (by omega)
        exact ⟨num', (skipLoop_scan words _ _ 0 s.lineNum text s ht hg).trans e⟩
    obtain ⟨num, e⟩ := this
    rw [M.bind_ok e]
    exact ⟨[], rfl⟩

/-- There is a record of a missing `#endif` in this session. -/
def Unmatched (q : Int) (s : S) : Prop := ∃ e ∈ s.errors, e.code = E.UNMATCHED_IF ∧ e.warn = false ∧ e.sess = q

theorem doIf_unmatched (k : Nat) (sts : List Str) (text : Str) (hl : Lines sts text) {m : Nat} (hN : Nesting [wordEndif] 0 sts m) (c : Bool) (s s' : S)
    {r : Option Str} (h : doIf (knot k) text c s = .ok r s') (hst : s'.stale = false) (hw : Wf s) : Unmatched s.session s' := by
  obtain ⟨r0, e⟩ := skipUntil_end (knot k) [wordEndif] endif_sought s sts text hl hN
  have hb : Bal (if c then pure (some text) else do
    let r ← skipUntil (knot k) [b! "#else", b! "#elif", b! "#endif"] true text
    if lineHasWord r (b! "#else") then pure (some (back r (nextCodeLine r)))
    else if lineHasWord r (b! "#elif") then (knot k).preopIf ((skipWs r).drop 5)
    else pure (some r)) := by
    split
    · exact .pure _
    · refine .bind (bal_skipUntil _ _ _) ?_
      intro r
      split
      · exact .pure _
      · split
        · exact (bal_knot k).preopIf _
        · exact .pure _
  unfold doIf at h
  rw [M.bind_ok e] at h
  have hB := (hb.bal _ _ _ h hst).2 ⟨hw.1, by
    intro x hx
    rcases List.mem_cons.1 hx with rfl | hx
    · exact Int.le_refl _
    · exact hw.2 x hx⟩
  obtain ⟨-, -, new, e2, -⟩ := hB
  exact ⟨unmatched s, by rw [e2]; simp, rfl, rfl, rfl⟩

end Spasm
