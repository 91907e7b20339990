import Verif.Lemmas.BalanceFail

/-
The balance of the two passes and of the output steps of main.cpp and export.cpp.
-/

namespace Spasm

/-- What running a piece of the program on the outermost session means: the session is closed again. -/
structure Top (s : S) : Prop where
  errors : s.errors = []
  session : s.session = 0

theorem Top.wf {s : S} (h : Top s) : Wf { s with session := s.session + 1 } :=
  ⟨by show 1 ≤ s.session + 1; rw [h.session]; decide, by intro e he; rw [show ({ s with session := s.session + 1 } : S).errors = s.errors from rfl, h.errors] at he; cases he⟩

/-- After a balanced run in the outermost session every problem on record belongs to session 1. -/
theorem Top.after {s s' : S} (h : Top s) (hb : BalR { s with session := s.session + 1 } s')
    (hs : s'.stale = false) : s'.session = 1 ∧ OfSess 1 s'.errors := by
  obtain ⟨_, h2⟩ := hb hs
  obtain ⟨g1, _, new, g2, g3⟩ := h2 h.wf
  have h0 : s.session + 1 = 1 := by rw [h.session]; rfl
  refine ⟨g1.trans h0, ?_⟩
  rw [g2]
  dsimp only
  rw [h.errors, List.append_nil]
  dsimp only at g3
  rw [h0] at g3
  exact g3

/-- Closing session 1 when all problems belong to it. -/
theorem endSession_one {s : S} (h : OfSess 1 s.errors) (hs : s.session = 1) :
    endSession 1 s = if s.errors.any (fun e => isFatal e.code) then
        .stop (.exit 3) { s with errors := [], session := 0 }
      else .ok () { s with errors := [], session := 0 } := by
  have hall : s.errors.takeWhile (fun e => e.sess == 1) = s.errors := by
    have := takeWhile_inside (R := []) h (by simp)
    simpa using this
  have hdrop : s.errors.dropWhile (fun e => e.sess == 1) = [] := by
    have := dropWhile_inside (R := []) h (by simp)
    simpa using this
  unfold endSession sessPrefix
  simp only [hall, hdrop, hs, decide_true, Bool.true_and]
  rfl

/-- A pass: run, print what is on record, close the session. -/
theorem pass_result {m : M Unit} (hm : Bal m) {s s' : S} (h : Top s)
    (e : m { s with session := s.session + 1 } = .ok () s') (hs : s'.stale = false) (fo : Bool) :
    (do let n ← startSession; m; replaySession n fo; endSession n : M Unit) s =
      if s'.errors.any (fun e => isFatal e.code) then
        .stop (.exit 3) { s' with errors := [], session := 0, log := s'.log ++ printedErrors fo s' }
      else .ok () { s' with errors := [], session := 0, log := s'.log ++ printedErrors fo s' } := by
  obtain ⟨h1, h2⟩ := h.after (hm.bal _ _ _ e) hs
  have h0 : s.session + 1 = 1 := by rw [h.session]; rfl
  rw [M.bind_ok (show startSession s = .ok (s.session + 1) { s with session := s.session + 1 } from rfl)]
  rw [M.bind_ok e, h0]
  rw [M.bind_ok (show replaySession 1 fo s' = .ok () { s' with log := s'.log ++ printedErrors fo s' } from rfl)]
  exact endSession_one (s := { s' with log := s'.log ++ printedErrors fo s' }) h2 h1

end Spasm
