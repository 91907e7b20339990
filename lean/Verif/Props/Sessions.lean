import Verif.Lemmas.BalanceMain
import Verif.Spec.Sessions
import Verif.Props.Run

/-
C05, C24, C26, C29 and the second half of C51.
-/

namespace Spasm.Props
open Spasm Spec

/-! ### C24 -/

mutual
/-- The operations as calls of the functions of errors.cpp; `n` is the current session. -/
def runOp (n : Int) : ErrOp → M Unit
  | .record c w => setProblem c w
  | .replay => replaySession n
  | .session body => do
    let m ← startSession
    runOps m body
    endSession m
def runOps (n : Int) : List ErrOp → M Unit
  | [] => pure ()
  | o :: os => do
    runOp n o
    runOps n os
end

/-- Problems as entries of the error list, newest first. -/
def asErrs (s : S) (n : Int) (l : List Problem) : List Err :=
  l.reverse.map fun p => ⟨p.1, n, p.2, s.lineNum, s.currFile⟩

theorem asErrs_append (s : S) (n : Int) (l l' : List Problem) :
    asErrs s n (l ++ l') = asErrs s n l' ++ asErrs s n l := by simp [asErrs]

theorem asErrs_of {s : S} {n : Int} {l : List Problem} (h : ∀ p ∈ l, p.1 ≠ 0) : OfSess n (asErrs s n l) := by
  intro e he
  simp only [asErrs, List.mem_map, List.mem_reverse] at he
  obtain ⟨p, hp, rfl⟩ := he
  exact ⟨rfl, h p hp⟩

/-- No "problem" with code 0. -/
def Real (x : List Problem × List Problem) : Prop := (∀ p ∈ x.1, p.1 ≠ 0) ∧ ∀ p ∈ x.2, p.1 ≠ 0

mutual
theorem real_op (o : ErrOp) (x : List Problem × List Problem) (h : Real x) : Real (o.effect x) := by
  obtain ⟨own, up⟩ := x
  cases o with
  | record c w =>
    refine ⟨?_, h.2⟩
    intro p hp
    simp only [ErrOp.effect] at hp
    split at hp
    · exact h.1 p hp
    · rcases List.mem_append.mp hp with hp | hp
      · exact h.1 p hp
      · simp at hp; subst hp; assumption
  | replay =>
    refine ⟨by intro p hp; simp [ErrOp.effect] at hp, ?_⟩
    intro p hp
    simp only [ErrOp.effect] at hp
    rcases List.mem_append.mp hp with hp | hp
    · exact h.2 p hp
    · exact h.1 p hp
  | session body =>
    have := real_ops body ([], []) ⟨by simp, by simp⟩
    refine ⟨?_, h.2⟩
    intro p hp
    simp only [ErrOp.effect] at hp
    rcases List.mem_append.mp hp with hp | hp
    · exact h.1 p hp
    · exact this.2 p hp
theorem real_ops (os : List ErrOp) (x : List Problem × List Problem) (h : Real x) : Real (effects os x) := by
  cases os with
  | nil => unfold effects; exact h
  | cons o os => unfold effects; exact real_ops os _ (real_op o x h)
end

/-- The error list inside session `n` of a list `R` of older problems. -/
def withErrs (s : S) (n : Int) (x : List Problem × List Problem) (R : List Err) : S :=
  { s with session := n, errors := asErrs s n x.1 ++ (asErrs s (n - 1) x.2 ++ R) }

theorem lower_asErrs (s : S) (n : Int) (l : List Problem) :
    (asErrs s n l).map (fun e => { e with sess := e.sess - 1 }) = asErrs s (n - 1) l := by
  simp [asErrs]

/-- Nothing below the problems of session `n` belongs to it. -/
theorem below {s : S} {n : Int} {x : List Problem × List Problem} {R : List Err} (hx : Real x)
    (hR : ∀ e ∈ R, e.sess < n) : ∀ e ∈ asErrs s (n - 1) x.2 ++ R, e.sess < n := by
  intro e he
  rcases List.mem_append.mp he with he | he
  · have := (asErrs_of hx.2 e he).1; omega
  · exact hR e he

mutual
theorem op_effect (o : ErrOp) (s : S) (n : Int) (x : List Problem × List Problem) (R : List Err)
    (hn : 2 ≤ n ∨ 1 ≤ n ∧ o ≠ .replay)
    (hx : Real x) (hR : ∀ e ∈ R, e.sess < n) :
    runOp n o (withErrs s n x R) = .ok () (withErrs s n (o.effect x) R) := by
  obtain ⟨own, up⟩ := x
  cases o with
  | record c w =>
    unfold runOp setProblem withErrs ErrOp.effect
    split
    · rfl
    · dsimp only
      rw [asErrs_append]
      rfl
  | replay =>
    unfold runOp replaySession withErrs ErrOp.effect
    rw [if_neg (by rcases hn with h | ⟨_, h⟩; omega; exact absurd rfl h)]
    dsimp only
    rw [lowerPrefix_inside (asErrs_of hx.1) (below (s := s) hx hR), lower_asErrs]
    simp [asErrs]
  | session body =>
    unfold runOp
    have hi := ops_effect body s (n + 1) ([], []) (asErrs s n own ++ (asErrs s (n - 1) up ++ R))
      (.inl (by rcases hn with h | ⟨h, _⟩ <;> omega))
      ⟨by simp, by simp⟩ (by
        intro e he
        rcases List.mem_append.mp he with he | he
        · have := (asErrs_of hx.1 e he).1; omega
        · have := below (s := s) hx hR e he; omega)
    have hreal := real_ops body ([], []) ⟨by simp, by simp⟩
    rw [M.bind_ok (show startSession (withErrs s n (own, up) R) = .ok (n + 1)
      (withErrs s (n + 1) ([], []) (asErrs s n own ++ (asErrs s (n - 1) up ++ R))) from rfl)]
    rw [M.bind_ok hi]
    unfold endSession
    simp only [show decide (n + 1 = 1) = false from by simp; rcases hn with h | ⟨h, _⟩ <;> omega, Bool.false_and, Bool.false_eq_true, if_false]
    unfold withErrs ErrOp.effect
    dsimp only
    rw [dropWhile_inside (asErrs_of hreal.1) (by
      intro e he
      rcases List.mem_append.mp he with he | he
      · have := (asErrs_of hreal.2 e he).1; omega
      · rcases List.mem_append.mp he with he | he
        · have := (asErrs_of hx.1 e he).1; omega
        · have := below (s := s) hx hR e he; omega)]
    rw [asErrs_append, List.append_assoc]
    simp
theorem ops_effect (os : List ErrOp) (s : S) (n : Int) (x : List Problem × List Problem) (R : List Err)
    (hn : 2 ≤ n ∨ 1 ≤ n ∧ ∀ o ∈ os, o ≠ .replay)
    (hx : Real x) (hR : ∀ e ∈ R, e.sess < n) :
    runOps n os (withErrs s n x R) = .ok () (withErrs s n (effects os x) R) := by
  cases os with
  | nil => unfold runOps effects; rfl
  | cons o os =>
    unfold runOps effects
    rw [M.bind_ok (op_effect o s n x R (hn.imp id fun h => ⟨h.1, h.2 o (by simp)⟩) hx hR)]
    exact ops_effect os s n _ R (hn.imp id fun h => ⟨h.1, fun o ho => h.2 o (by simp [ho])⟩) (real_op o x hx) hR
end

/-- C24: a session opened inside another, with any properly nested operations inside it, changes nothing but
the error list when it is closed; the errors of the outer sessions are still there, unchanged and in order,
and on top of them are exactly the problems that were handed to the enclosing session. -/
theorem C24_nested (ops : List ErrOp) (s : S) (hpos : 1 ≤ s.session) (hle : ∀ e ∈ s.errors, e.sess ≤ s.session) :
    runOp s.session (.session ops) s = .ok () { s with
      errors := (effects ops ([], [])).2.reverse.map
        (fun p => ⟨p.1, s.session, p.2, s.lineNum, s.currFile⟩) ++ s.errors } := by
  have hi := ops_effect ops s (s.session + 1) ([], []) s.errors (.inl (by omega)) ⟨by simp, by simp⟩
    (fun e he => by have := hle e he; omega)
  have hreal := real_ops ops ([], []) ⟨by simp, by simp⟩
  unfold runOp
  rw [M.bind_ok (show startSession s = .ok (s.session + 1) (withErrs s (s.session + 1) ([], []) s.errors) from rfl)]
  rw [M.bind_ok hi]
  unfold endSession
  simp only [show decide (s.session + 1 = 1) = false from by simp; omega, Bool.false_and, Bool.false_eq_true, if_false]
  unfold withErrs
  dsimp only
  rw [dropWhile_inside (asErrs_of hreal.1) (by
    intro e he
    rcases List.mem_append.mp he with he | he
    · have := (asErrs_of hreal.2 e he).1; omega
    · have := hle e he; omega)]
  simp [asErrs]

/-- C24: what a session sees at any moment: the number of problems, and whether one of them is fatal, are those
of the problems recorded in it or handed to it by inner sessions since it was opened (or last replayed). -/
theorem C24_seen (ops : List ErrOp) (s : S) (hpos : 1 ≤ s.session) (hle : ∀ e ∈ s.errors, e.sess ≤ s.session) :
    ∃ s', (startSession >>= fun m => runOps m ops) s = .ok () s' ∧
      sessionCount (s.session + 1) s' = (effects ops ([], [])).1.length ∧
      onRecord (s.session + 1) s' = (effects ops ([], [])).1.reverse ∧
      (sessionFatal (s.session + 1) s' = true ↔
        ∃ p ∈ (effects ops ([], [])).1, p.1 ≠ 0x100 ∧ p.1 ≠ 0x106 ∧ p.1 ≠ 0x129) := by
  have hi := ops_effect ops s (s.session + 1) ([], []) s.errors (.inl (by omega)) ⟨by simp, by simp⟩
    (fun e he => by have := hle e he; omega)
  have hreal := real_ops ops ([], []) ⟨by simp, by simp⟩
  have hlow : ∀ e ∈ asErrs s (s.session + 1 - 1) (effects ops ([], [])).2 ++ s.errors, e.sess < s.session + 1 := by
    intro e he
    rcases List.mem_append.mp he with he | he
    · have := (asErrs_of hreal.2 e he).1; omega
    · have := hle e he; omega
  have hpre := takeWhile_inside (asErrs_of (s := s) (n := s.session + 1) hreal.1) hlow
  refine ⟨_, by
    rw [M.bind_ok (show startSession s = .ok (s.session + 1)
      (withErrs s (s.session + 1) ([], []) s.errors) from rfl)]
    exact hi, ?_, ?_, ?_⟩
  · unfold sessionCount sessPrefix withErrs
    dsimp only
    rw [hpre]
    rw [List.filter_eq_self.mpr]
    · simp [asErrs]
    · intro e he
      simp [(asErrs_of hreal.1 e he).2]
  · unfold onRecord withErrs
    dsimp only
    rw [List.filter_append, List.filter_eq_self.mpr, List.filter_eq_nil_iff.mpr]
    · simp [asErrs, Function.comp_def]
    · intro e he
      have := hlow e he
      simp; omega
    · intro e he
      simp [(asErrs_of hreal.1 e he).1]
  · unfold sessionFatal sessPrefix withErrs
    dsimp only
    rw [hpre]
    simp only [asErrs, List.any_map, List.any_eq_true, List.mem_reverse, Function.comp]
    constructor
    · rintro ⟨p, hp, hf⟩
      refine ⟨p, hp, ?_⟩
      simp [isFatal, E.LOCAL_LABEL_FORWARD_REF, E.LABEL_NOT_FOUND, E.RECURSION_DEPTH] at hf
      exact ⟨hf.1.1.1, hf.1.1.2, hf.2⟩
    · rintro ⟨p, hp, h1, h2, h3⟩
      refine ⟨p, hp, ?_⟩
      have := hreal.1 p hp
      simp [isFatal, E.LOCAL_LABEL_FORWARD_REF, E.LABEL_NOT_FOUND, E.RECURSION_DEPTH, h1, h2, h3, this]

theorem no_replay_up (ops : List ErrOp) (h : ∀ o ∈ ops, o ≠ .replay) (x : List Problem × List Problem) :
    (effects ops x).2 = x.2 := by
  induction ops generalizing x with
  | nil => unfold effects; rfl
  | cons o os ih =>
    unfold effects
    rw [ih (fun o ho => h o (by simp [ho]))]
    obtain ⟨own, up⟩ := x
    cases o with
    | record c w => rfl
    | replay => exact absurd rfl (h _ (by simp))
    | session b => rfl

/-- C24, outermost session: everything recorded in it or handed to it is printed, oldest first, when it is
replayed at its end, and the process ends with status 3 exactly if one of the problems is fatal. -/
theorem C24_outermost (ops : List ErrOp) (hops : ∀ o ∈ ops, o ≠ .replay) (s : S) (h0 : s.errors = [])
    (h1 : s.session = 0) (hmode : s.mode.codeCounter = false) :
    let own := (effects ops ([], [])).1
    let s' := { s with log := s.log ++ own.map (fun p => .printed p.1 p.2) }
    let run := (do let m ← startSession; runOps m ops; replaySession m; endSession m : M Unit) s
    ((∃ p ∈ own, p.1 ≠ 0x100 ∧ p.1 ≠ 0x106 ∧ p.1 ≠ 0x129) → run = .stop (.exit 3) s') ∧
    (¬ (∃ p ∈ own, p.1 ≠ 0x100 ∧ p.1 ≠ 0x106 ∧ p.1 ≠ 0x129) → run = .ok () s') := by
  intro own s' run
  have hi := ops_effect ops s 1 ([], []) [] (.inr ⟨by omega, hops⟩) ⟨by simp, by simp⟩ (by simp)
  have hreal := real_ops ops ([], []) ⟨by simp, by simp⟩
  have hup := no_replay_up ops hops ([], [])
  have hof : OfSess 1 (asErrs s 1 own) := asErrs_of hreal.1
  have herrs : (withErrs s 1 (effects ops ([], [])) []).errors = asErrs s 1 own := by
    unfold withErrs; dsimp only; rw [hup]; simp [asErrs, own]
  have hrun : run = endSession 1 { withErrs s 1 (effects ops ([], [])) [] with
      log := s.log ++ own.map (fun p => Ev.printed p.1 p.2) } := by
    show (do let m ← startSession; runOps m ops; replaySession m; endSession m : M Unit) s = _
    rw [M.bind_ok (show startSession s = .ok 1 (withErrs s 1 ([], []) []) from by
      unfold startSession withErrs
      rw [h0, h1]; rfl)]
    rw [M.bind_ok hi]
    rw [M.bind_ok (show replaySession 1 false (withErrs s 1 (effects ops ([], [])) []) = .ok () _ from rfl)]
    congr 2
    show s.log ++ printedErrors false _ = _
    congr 1
    unfold printedErrors
    rw [herrs, if_neg (by show ¬ s.mode.codeCounter = true; rw [hmode]; decide)]
    have hf : (asErrs s 1 own).reverse.filter (fun e => e.sess == 1) = (asErrs s 1 own).reverse :=
      List.filter_eq_self.mpr (by
        intro e he
        have := hof e (by simpa using he)
        simp [this.1])
    rw [hf]
    simp [asErrs, Function.comp_def]
  have hend := endSession_one (s := { withErrs s 1 (effects ops ([], [])) [] with
      log := s.log ++ own.map (fun p => Ev.printed p.1 p.2) }) (by show OfSess 1 (withErrs _ _ _ _).errors; rw [herrs]; exact hof) rfl
  have hs' : s' = { withErrs s 1 (effects ops ([], [])) [] with
      log := s.log ++ own.map (fun p => Ev.printed p.1 p.2), errors := [], session := 0 } := by
    unfold withErrs
    rw [← h0, ← h1]
  have hany : (asErrs s 1 own).any (fun e => isFatal e.code) = true ↔
      ∃ p ∈ own, p.1 ≠ 0x100 ∧ p.1 ≠ 0x106 ∧ p.1 ≠ 0x129 := by
    simp only [asErrs, List.any_map, List.any_eq_true, List.mem_reverse, Function.comp]
    constructor
    · rintro ⟨p, hp, hf⟩
      refine ⟨p, hp, ?_⟩
      simp [isFatal, E.LOCAL_LABEL_FORWARD_REF, E.LABEL_NOT_FOUND, E.RECURSION_DEPTH] at hf
      exact ⟨hf.1.1.1, hf.1.1.2, hf.2⟩
    · rintro ⟨p, hp, h1, h2, h3⟩
      refine ⟨p, hp, ?_⟩
      have := hreal.1 p hp
      simp [isFatal, E.LOCAL_LABEL_FORWARD_REF, E.LABEL_NOT_FOUND, E.RECURSION_DEPTH, h1, h2, h3, this]
  rw [hrun, hend]
  show (_ → (if (withErrs s 1 (effects ops ([], [])) []).errors.any (fun e => isFatal e.code) = true then _ else _) = _) ∧
    (_ → (if (withErrs s 1 (effects ops ([], [])) []).errors.any (fun e => isFatal e.code) = true then _ else _) = _)
  rw [herrs]
  refine ⟨fun h => ?_, fun h => ?_⟩
  · rw [if_pos (hany.mpr h), hs']
  · rw [if_neg (fun hc => h (hany.mp hc)), hs']

/-- Two inner sessions, one of which hands its problem on. -/
example : effects [.record 0x113 false, .session [.record 0x104 false, .replay], .session [.record 0x106 false]]
    ([], []) = ([(0x113, false), (0x104, false)], []) := by
  simp [effects, ErrOp.effect]

/-! ### C05 -/

/-- C05: whenever the evaluator fails, inside some error session, at least one problem was recorded in that
session, and nothing that was on record is lost. Missing: runs in which, during the evaluation, a malformed
string operand made the emit directives reuse a finished error session (`stale`, possible only when a define
runs a preprocessor line that includes a file). -/
theorem C05_failure_recorded_partial (n : Nat) (text : Str) (s s' : S) (hpos : 1 ≤ s.session)
    (hle : ∀ e ∈ s.errors, e.sess ≤ s.session) (h : parseNum (knot n) text s = .ok none s')
    (hst : s'.stale = false) :
    ∃ new, new ≠ [] ∧ s'.errors = new ++ s.errors ∧ ∀ e ∈ new, e.sess = s.session ∧ e.code ≠ 0 := by
  have hk := bal_knot n
  have hb := (bal_parseNum hk text).bal _ _ _ h
  obtain ⟨_, _, new, h1, h2⟩ := (hb hst).2 ⟨hpos, hle⟩
  refine ⟨new, ?_, h1, h2⟩
  rintro rfl
  have hg : s.errors.length < s'.errors.length := by
    unfold parseNum at h
    rw [M.modify_bind] at h
    obtain ⟨r, s1, e1, h⟩ := M.bind_eq_ok.mp h
    cases r with
    | some v => cases h
    | none =>
      cases h
      exact hk.numFail _ _ { s with parseDepth := 0 } _ e1 hst ⟨hpos, hle⟩
  rw [h1] at hg
  simp at hg

/-- An evaluation that fails inside a macro, two sessions deep. -/
example : returns (parseNum (knot 5) (b! "f(1)")
      { session := 1, defines := [(b! "F", ⟨b! "F", some (b! "x/0"), [b! "x"], 0, []⟩)] })
    (fun r s' => r == none && s'.errors.map (·.code) == [E.DIVIDE_BY_ZERO] && s'.stale == false) = true := by
  decide +kernel

/-! ### C26 -/

/-- The fatal codes. -/
theorem fatal_iff (s : S) : fatalOnRecord s ↔ s.errors.any (fun e => isFatal e.code) = true := by
  unfold fatalOnRecord
  rw [List.any_eq_true]
  constructor
  · rintro ⟨e, he, h1, h2, h3, h4⟩
    exact ⟨e, he, by simp [isFatal, E.LOCAL_LABEL_FORWARD_REF, E.LABEL_NOT_FOUND, E.RECURSION_DEPTH, h1, h2, h3, h4]⟩
  · rintro ⟨e, he, h⟩
    simp [isFatal, E.LOCAL_LABEL_FORWARD_REF, E.LABEL_NOT_FOUND, E.RECURSION_DEPTH] at h
    exact ⟨e, he, h.1.1.1, h.1.1.2, h.2, h.1.2⟩

/-- The state in which the first pass starts, main.cpp:81-116: globals reset, output pointer at the start, the
directory of the source searched first, one error session open. -/
def firstPassStart (cwd : Str) (s : S) : S :=
  let s := { resetGlobals s with outPtr := 0 }
  let t := if isAbsPath s.currFile then dirOf s.currFile else cwd
  { s with tempPath := t, includeDirs := t :: s.includeDirs, session := s.session + 1 }

/-- The source text. -/
def sourceText (text : Option Str) (s : S) : Option Str :=
  if s.mode.commandline then text else (s.fs s.currFile).bind fileText

theorem runAssembly_passOne (k : Rec) (md5 : List Nat → List Nat) (cwd : Str) (text : Option Str) (output : Str)
    (s : S) (src : Str) (hsrc : sourceText text s = some src) :
    runAssembly k md5 cwd text output s = (do
      passOne k cwd src
      let s ← M.get
      if s.mode.symtable || s.mode.normal || s.mode.list then do
        passTwo k
        M.when s.mode.symtable (labelFile k output)
        M.when s.mode.normal (outputFile md5 output)
        printStats
        let s ← M.get
        pure s.exitCode
      else do
        printStats
        let s ← M.get
        pure s.exitCode : M Nat) (resetGlobals s) := by
  unfold runAssembly
  rw [M.modify_bind, M.get_bind]
  have : (if (resetGlobals s).mode.commandline = true then text
      else ((resetGlobals s).fs (resetGlobals s).currFile).bind fileText) = some src := hsrc
  dsimp only
  rw [this]

/-- The first pass of a run, from the clean state main starts it in. -/
theorem passOne_result (n : Nat) (cwd : Str) (s s1 : S) (src : Str) (h0 : s.errors = [] ∧ s.session = 0)
    (h1 : runFirstPass (knot n) src (firstPassStart cwd s) = .ok () s1) (hst : s1.stale = false) :
    passOne (knot n) cwd src (resetGlobals s) =
      if s1.errors.any (fun e => isFatal e.code) then
        .stop (.exit 3) { s1 with errors := [], session := 0, log := s1.log ++ printedErrors true s1 }
      else .ok () { s1 with errors := [], session := 0, log := s1.log ++ printedErrors true s1, includeDirs := [] } := by
  unfold passOne
  rw [M.modify_bind, M.modify_bind]
  have h2 := pass_result (s := { firstPassStart cwd s with session := s.session }) (s' := s1)
    (bal_runFirstPass (bal_knot n) src) ⟨h0.1, h0.2⟩ h1 hst true
  have h3 : (do
      let sess ← startSession
      runFirstPass (knot n) src
      replayFatal sess
      endSession sess
      M.modify fun s => { s with includeDirs := [] } : M Unit) =
    ((do let n' ← startSession; runFirstPass (knot n) src; replaySession n' true; endSession n' : M Unit) >>=
      fun _ => M.modify fun s => { s with includeDirs := [] }) := by
    simp only [M.bind_assoc]; rfl
  rw [h3]
  have key : ∀ s0 : S, s0 = { firstPassStart cwd s with session := s.session } →
      ((do let n' ← startSession; runFirstPass (knot n) src; replaySession n' true; endSession n' : M Unit) >>=
        fun _ => M.modify fun s => { s with includeDirs := [] }) s0 =
      if s1.errors.any (fun e => isFatal e.code) then
        .stop (.exit 3) { s1 with errors := [], session := 0, log := s1.log ++ printedErrors true s1 }
      else .ok () { s1 with errors := [], session := 0, log := s1.log ++ printedErrors true s1, includeDirs := [] } := by
    intro s0 hs0
    rw [hs0, M.bind_apply, h2]
    by_cases hc : s1.errors.any (fun e => isFatal e.code) = true
    · rw [if_pos hc, if_pos hc]
    · rw [if_neg hc, if_neg hc]; rfl
  exact key _ rfl

/-- Only problems are printed when a session is replayed. -/
theorem printed_only (b : Bool) (s : S) : ∀ e ∈ printedErrors b s, ∃ c w, e = .printed c w := by
  intro e he
  unfold printedErrors at he
  split at he
  · cases he
  · obtain ⟨x, _, rfl⟩ := List.mem_map.mp he
    exact ⟨_, _, rfl⟩

/-- C26: if a fatal error is on record when the first pass is over, the run ends with status 3, and all that
happened after the pass is that problems were printed: nothing was written. Missing: runs in which a malformed
string operand made a finished error session be used again; there the claim is false
(`C26_stale_session_writes`). Errors that are not recorded but shown at once are not covered either
(`C26_shown_fatal_writes`). -/
theorem C26_first_pass_partial (n : Nat) (md5 : List Nat → List Nat) (cwd : Str) (text : Option Str) (output : Str)
    (s s1 : S) (src : Str) (h0 : s.errors = [] ∧ s.session = 0) (hsrc : sourceText text s = some src)
    (h1 : runFirstPass (knot n) src (firstPassStart cwd s) = .ok () s1) (hst : s1.stale = false)
    (hf : fatalOnRecord s1) :
    exitStatus (runAssembly (knot n) md5 cwd text output s) = some 3 ∧
    ∃ evs, (runAssembly (knot n) md5 cwd text output s).state.log = s1.log ++ evs ∧
      ∀ e ∈ evs, ∃ c w, e = .printed c w := by
  rw [runAssembly_passOne _ _ _ _ _ _ src hsrc]
  have h2 := passOne_result n cwd s s1 src h0 h1 hst
  rw [if_pos ((fatal_iff s1).mp hf)] at h2
  rw [M.bind_stop h2]
  exact ⟨rfl, _, rfl, printed_only _ _⟩

/-- The state in which the second pass starts. -/
def secondPassStart (s1 : S) : S :=
  { s1 with errors := [], session := 1, log := s1.log ++ printedErrors true s1, includeDirs := [] }

/-- C26, second pass: the first pass ended without a fatal error on record, the second one with one. -/
theorem C26_second_pass_partial (n : Nat) (md5 : List Nat → List Nat) (cwd : Str) (text : Option Str) (output : Str)
    (s s1 s2 : S) (src : Str) (h0 : s.errors = [] ∧ s.session = 0) (hsrc : sourceText text s = some src)
    (h1 : runFirstPass (knot n) src (firstPassStart cwd s) = .ok () s1) (hn : ¬ fatalOnRecord s1)
    (hmode : s.mode.symtable = true ∨ s.mode.normal = true ∨ s.mode.list = true)
    (h2 : runSecondPass (knot n) (secondPassStart s1) = .ok () s2) (hst : s2.stale = false)
    (hf : fatalOnRecord s2) :
    exitStatus (runAssembly (knot n) md5 cwd text output s) = some 3 ∧
    ∃ evs, (runAssembly (knot n) md5 cwd text output s).state.log = s2.log ++ evs ∧
      ∀ e ∈ evs, ∃ c w, e = .printed c w := by
  have hb2 := (bal_runSecondPass (bal_knot n)).bal _ _ _ h2
  have hst1 : s1.stale = false := (hb2 hst).1
  rw [runAssembly_passOne _ _ _ _ _ _ src hsrc]
  have g1 := passOne_result n cwd s s1 src h0 h1 hst1
  rw [if_neg (fun h => hn ((fatal_iff s1).mpr h))] at g1
  rw [M.bind_ok g1, M.get_bind]
  have hm : s1.mode = s.mode := by
    have := (Keeps.ofRuns untouched_invar (runs_runFirstPass (runs_knot n) src)).keep (firstPassStart cwd s)
    rw [h1] at this
    exact this.1
  dsimp only
  rw [if_pos (by rw [hm]; rcases hmode with h | h | h <;> simp [h])]
  have g2 := pass_result (s := { secondPassStart s1 with session := 0 }) (s' := s2)
    (bal_runSecondPass (bal_knot n)) ⟨rfl, rfl⟩ h2 hst false
  rw [if_pos ((fatal_iff s2).mp hf)] at g2
  have g3 : passTwo (knot n) { s1 with
      errors := [], session := 0, log := s1.log ++ printedErrors true s1, includeDirs := [] } = _ := g2
  rw [M.bind_stop g3]
  exact ⟨rfl, _, rfl, printed_only _ _⟩

/-- A division by zero in the first pass: status 3, nothing written. -/
example : exitStatus (asm (b! "x .equ 1/0\n nop\n") [b! "a.asm"]) = some 3 ∧
    (asm (b! "x .equ 1/0\n nop\n") [b! "a.asm"]).state.log = [.printed E.DIVIDE_BY_ZERO false] := by
  decide +kernel

/-- A division by zero in the second pass. -/
example : exitStatus (asm (b! " ld a,1/x\nx .equ 0\n") [b! "a.asm"]) = some 3 ∧
    (asm (b! " ld a,1/x\nx .equ 0\n") [b! "a.asm"]).state.log = [.printed E.DIVIDE_BY_ZERO false] := by
  decide +kernel

/-- C26 fails when a `.db` line has a malformed string after another operand: the unknown instruction that
follows is neither reported nor stops the run; the output is written and the status is 0. -/
theorem C26_stale_session_writes :
    exitStatus (asm (b! " .db 1,\"a\"+1\n foo\n nop\n") [b! "a.asm"]) = some 0 ∧
    (asm (b! " .db 1,\"a\"+1\n foo\n nop\n") [b! "a.asm"]).state.log = [.wrote (b! "a.bin") [1, 0]] := by
  decide +kernel

/-- C26 fails for fatal errors that are shown at once: the output is written all the same. -/
theorem C26_shown_fatal_writes :
    exitStatus (asm (b! " .seek -5\n") [b! "a.asm"]) = some 3 ∧
    (asm (b! " .seek -5\n") [b! "a.asm"]).state.log = [.fatal .seekRange, .wrote (b! "a.bin") []] := by
  decide +kernel

/-! ### C29 and C51 -/

/-- C29, C51: a statement, an expression or a whole pass that returns has closed every error session and
removed every argument set it opened: the session count is what it was, the stack of argument sets has the
same depth and binds the same names at every level; problems were only added, all in the current session.
Missing for C29: the values bound at the outer levels, which can change (`C29_values_change`); and the runs in
which a malformed string operand made a finished error session be used again, where the claim is false
(`C51_session_lost`). -/
theorem C29_C51_balanced_partial (n : Nat) (text : Str) (s s' : S) (hpos : 1 ≤ s.session)
    (hle : ∀ e ∈ s.errors, e.sess ≤ s.session) (hst : s'.stale = false)
    (h : (∃ r, (knot n).lineSec text s = .ok r s') ∨ (∃ r, parseNum (knot n) text s = .ok r s') ∨
      runFirstPass (knot n) text s = .ok () s' ∨ runSecondPass (knot n) s = .ok () s') :
    s'.session = s.session ∧
    s'.argSets.map (fun set => set.map (·.1)) = s.argSets.map (fun set => set.map (·.1)) ∧
    ∃ new, s'.errors = new ++ s.errors ∧ ∀ e ∈ new, e.sess = s.session := by
  have hk := bal_knot n
  have hb : BalR s s' := by
    rcases h with ⟨r, h⟩ | ⟨r, h⟩ | h | h
    · exact (hk.lineSec text).bal _ _ _ h
    · exact (bal_parseNum hk text).bal _ _ _ h
    · exact (bal_runFirstPass hk text).bal _ _ _ h
    · exact (bal_runSecondPass hk).bal _ _ _ h
  obtain ⟨_, g⟩ := hb hst
  obtain ⟨g1, g2, new, g3, g4⟩ := g ⟨hpos, hle⟩
  exact ⟨g1, g2, new, g3, fun e he => (g4 e he).1⟩

/-- C29: in particular, outside any macro there are no argument bindings before a statement and none after
it. -/
theorem C29_none_left_partial (n : Nat) (text : Str) (s s' : S) (r : Option Str) (hpos : 1 ≤ s.session)
    (hle : ∀ e ∈ s.errors, e.sess ≤ s.session) (hst : s'.stale = false)
    (h : (knot n).lineSec text s = .ok r s') (h0 : s.argSets = []) : s'.argSets = [] := by
  have := (C29_C51_balanced_partial n text s s' hpos hle hst (.inl ⟨r, h⟩)).2.1
  rw [h0] at this
  simpa using this

/-- A statement that calls a macro with an argument, whose body fails. -/
example : returns ((do
      let _ ← (knot 6).lineSec (b! "#macro m(x)\n .db x/0\n#endmacro\n")
      (knot 6).lineSec (b! " m(3)\n") : M (Option Str)) { session := 1 })
    (fun _ s => s.session == 1 && s.argSets.length == 0 && s.errors.map (·.code) == [E.DIVIDE_BY_ZERO] &&
      s.stale == false) = true := by
  decide +kernel

/-- C29 fails for the values: a `#define` in the body of an inner macro changes the argument `x` of the macro
that called it from 3 to 7. -/
theorem C29_values_change :
    (asm (b! "#macro i(y)\n#define x 7\n#endmacro\n#macro o(x)\n .db x\n i(2)\n .db x\n#endmacro\n o(3)\n")
      [b! "a.asm"]).state.log = [.wrote (b! "a.bin") [3, 7]] := by
  decide +kernel

/-- C51 fails for a malformed string operand: one error session less is open after the statement. -/
theorem C51_session_lost :
    ∃ r s', (knot 5).lineSec (b! " .db 1,\"a\"+1\n") { session := 1 } = .ok r s' ∧ s'.session = 0 := by
  have h : returns ((knot 5).lineSec (b! " .db 1,\"a\"+1\n") { session := 1 }) (fun _ s' => s'.session == 0)
      = true := by decide +kernel
  obtain ⟨r, s', h1, h2⟩ := returns_elim h
  exact ⟨r, s', h1, by simpa using h2⟩

end Spasm.Props
