import Verif.Lemmas.M
import Verif.Lemmas.Auto
import Verif.Model.Main

/-
What the program can do to the global state, step by step. Every function of the model changes the state
by a sequence of these steps, whatever its outcome; so a relation that holds for every step and is reflexive
and transitive holds between the start and the end of every run.
-/

namespace Spasm

/-- Only bookkeeping variables differ. -/
structure Same (s s' : S) : Prop where
  mode : s'.mode = s.mode
  fs : s'.fs = s.fs
  includeDirs : s'.includeDirs = s.includeDirs
  caseSens : s'.caseSens = s.caseSens
  tempPath : s'.tempPath = s.tempPath
  mem : s'.mem = s.mem
  errors : s'.errors = s.errors
  session : s'.session = s.session
  exitCode : s'.exitCode = s.exitCode
  errOccurred : s'.errOccurred = s.errOccurred
  log : s'.log = s.log
  labels : s'.labels = s.labels
  defines : s'.defines = s.defines
  argSets : s'.argSets = s.argSets
  reusables : s'.reusables = s.reusables
  totalReusables : s'.totalReusables = s.totalReusables
  exprs : s'.exprs = s.exprs
  outputs : s'.outputs = s.outputs
  opcodes : s'.opcodes = s.opcodes
  rand : s'.rand = s.rand
  stale : s'.stale = s.stale
  ranPreop : s'.ranPreop = s.ranPreop
  spread : s'.spread = s.spread

/-- One step of the program. -/
inductive Step : S → S → Prop
  | free {s s' : S} : Same s s' → Step s s'
  | write (s : S) (v : Int) : 0 ≤ s.outPtr → s.outPtr < outputBufSize → Step s
      { s with mem := fun i => if i = s.outPtr.toNat then (v % 256).toNat else s.mem i, outPtr := s.outPtr + 1 }
  | problem (s : S) (code : Nat) (warn : Bool) : Step s
      { s with errors := ⟨code, s.session, warn, s.lineNum, s.currFile⟩ :: s.errors }
  | open_ (s : S) : Step s { s with session := s.session + 1 }
  | print (s : S) (fatalOnly : Bool) : Step s { s with log := s.log ++ printedErrors fatalOnly s }
  | lower (s : S) (n : Int) : Step s { s with errors := lowerPrefix n s.errors }
  | close (s : S) (n : Int) : Step s
      { s with errors := s.errors.dropWhile (fun e => e.sess == n), session := s.session - 1 }
  | warning (s : S) (m : Msg) : Step s
      { s with exitCode := if s.exitCode < 1 then 1 else s.exitCode, log := s.log ++ [.warning m] }
  | error (s : S) (m : Msg) : Step s
      { s with exitCode := if s.exitCode < 2 then 2 else s.exitCode, log := s.log ++ [.error m] }
  | fatal (s : S) (m : Msg) : Step s
      { s with exitCode := if s.exitCode < 3 then 3 else s.exitCode, errOccurred := true,
               log := s.log ++ [.fatal m] }
  | text (s : S) (t : Str) : Step s { s with log := s.log ++ [.text t] }
  | wrote (s : S) (f t : Str) : Step s { s with log := s.log ++ [.wrote f t] }
  | appended (s : S) (f t : Str) : Step s { s with log := s.log ++ [.appended f t] }
  | newLabel (s : S) (key : Str) (v : Int) : s.labels.lookup key = none → Step s
      { s with labels := s.labels.insert key ⟨key, v, s.lineNum, s.currFile⟩ }
  | setLabel (s : S) (key : Str) (v : Int) : Step s
      { s with labels := s.labels.update key (fun l => { l with value := v }) }
  | defines (s : S) (d : Table Define) : Step s { s with defines := d }
  | pushArgs (s : S) : Step s { s with argSets := [] :: s.argSets }
  | popArgs (s : S) : Step s { s with argSets := s.argSets.tail }
  | updArgs (s : S) (i : Nat) (f : Table Define → Table Define) : Step s
      { s with argSets := updAt f i s.argSets }
  | reusable (s : S) : Step s { s with
      reusables := fun i => if i = s.currReusable then s.pc else s.reusables i,
      currReusable := s.currReusable + 1, totalReusables := s.currReusable + 1 }
  | defer (s : S) (e : PExpr) : Step s { s with exprs := s.exprs ++ [e] }
  | deferOut (s : S) (o : POut) : Step s { s with outputs := s.outputs ++ [o] }
  | endExprs (s : S) (p : Int) : Step s { s with outPtr := p, exprs := [] }
  | endOutputs (s : S) (f : Str) : Step s { s with currFile := f, outputs := [] }
  | opcode (s : S) (o : List Opcode) : Step s { s with opcodes := o }
  | stale (s : S) : Step s { s with stale := true }
  | ranPreop (s : S) : Step s { s with ranPreop := true }
  | spread (s : S) : Step s { s with spread := true }

/-- Any number of steps. -/
inductive Steps : S → S → Prop
  | refl (s : S) : Steps s s
  | tail {a b c : S} : Steps a b → Step b c → Steps a c

theorem Steps.trans {a b c : S} (h : Steps a b) (h' : Steps b c) : Steps a c := by
  induction h' with
  | refl => exact h
  | tail _ st ih => exact .tail ih st

theorem Step.steps {a b : S} (h : Step a b) : Steps a b := .tail (.refl a) h

/-- A reflexive and transitive relation that contains every step contains every run. -/
theorem Steps.lift {T : S → S → Prop} (hr : ∀ s, T s s) (ht : ∀ a b c, T a b → T b c → T a c)
    (hs : ∀ a b, Step a b → T a b) {a b : S} (h : Steps a b) : T a b := by
  induction h with
  | refl => exact hr _
  | tail _ st ih => exact ht _ _ _ ih (hs _ _ st)

/-- A result reached by steps; the process can only have ended with status 3. -/
def Reached {α : Type} (s : S) : Res α → Prop
  | .ok _ s' => Steps s s'
  | .stop e s' => Steps s s' ∧ ∀ c, e = .exit c → c = 3

/-- The state changes of a piece of the program are steps, whatever its outcome. -/
structure Runs {α : Type} (m : M α) : Prop where
  run : ∀ s, Reached s (m s)

/-- A way to stop that is not the end of the process with a status other than 3. -/
def Stop.fine : Stop → Bool
  | .exit c => c == 3
  | _ => true

namespace Runs
variable {α β : Type}

theorem steps {m : M α} (h : Runs m) (s : S) : Steps s (m s).state := by
  have := h.run s
  cases hm : m s with
  | ok a s' => rw [hm] at this; exact this
  | stop e s' => rw [hm] at this; exact this.1

theorem exit {m : M α} (h : Runs m) {s s' : S} {c : Nat} (e : m s = .stop (.exit c) s') : c = 3 := by
  have := h.run s
  rw [e] at this
  exact this.2 c rfl

theorem pure (a : α) : Runs (Pure.pure a : M α) := ⟨fun s => Steps.refl s⟩
theorem pure' (a : α) : Runs (M.pure' a : M α) := ⟨fun s => Steps.refl s⟩
theorem halt (e : Stop) (h : e.fine = true) : Runs (M.halt e : M α) :=
  ⟨fun s => ⟨Steps.refl s, fun c hc => by subst hc; simpa [Stop.fine] using h⟩⟩
theorem ub (u : UB) : Runs (M.ub u : M α) := halt _ rfl
theorem get : Runs M.get := ⟨fun s => Steps.refl s⟩

theorem bind {m : M α} {f : α → M β} (h : Runs m) (h' : ∀ a, Runs (f a)) : Runs (m >>= f) := by
  constructor
  intro s
  rw [M.bind_apply]
  have := h.run s
  cases hm : m s with
  | ok a s' =>
    rw [hm] at this
    dsimp only
    have h2 := (h' a).run s'
    cases hf : f a s' with
    | ok b s2 => rw [hf] at h2; exact this.trans h2
    | stop e s2 => rw [hf] at h2; exact ⟨Steps.trans this h2.1, h2.2⟩
  | stop e s' => rw [hm] at this; exact this

theorem when {c : Bool} {m : M Unit} (h : Runs m) : Runs (M.when c m) := by
  cases c
  · exact Runs.pure ()
  · exact h

theorem modify {f : S → S} (h : ∀ s, Step s (f s)) : Runs (M.modify f) := ⟨fun s => (h s).steps⟩

theorem free {f : S → S} (h : ∀ s, Same s (f s)) : Runs (M.modify f) := modify fun s => .free (h s)

end Runs

theorem runs_pure {α : Type} (a : α) : Runs (pure a : M α) := Runs.pure a
theorem runs_pure' {α : Type} (a : α) : Runs (M.pure' a : M α) := Runs.pure' a
theorem runs_halt {α : Type} (e : Stop) (h : e.fine = true) : Runs (M.halt e : M α) := Runs.halt e h
theorem runs_ub {α : Type} (u : UB) : Runs (M.ub u : M α) := Runs.ub u
theorem runs_get : Runs M.get := Runs.get

theorem step_writeDef (r : DRef) (f : Define → Define) (s : S) : Step s (writeDef r f s) := by
  cases r
  · exact Step.updArgs s _ _
  · exact Step.defines s _

theorem runs_writeDef (r : DRef) (f : Define → Define) : Runs (M.modify (writeDef r f)) :=
  Runs.modify fun s => step_writeDef r f s

/-- Compositional proof of `Runs`. -/
macro "runs" : tactic => `(tactic|
  repeat' (first
    | with_reducible apply Runs.bind
    | with_reducible apply Runs.when
    | intro _
    | (with_reducible apply runs_halt); rfl
    | with_reducible assumption
    | with_reducible dispatch "runs_"
    | (with_reducible apply Runs.free); (intro _; constructor <;> with_reducible rfl)
    | with_reducible exact Runs.modify (fun s => Step.defines s _)
    | with_reducible exact Runs.modify (fun s => Step.text s _)
    | with_reducible exact runs_writeDef _ _
    | split
    | dsimp only))

/-! ### errors.cpp -/

theorem runs_startSession : Runs startSession := ⟨fun s => (Step.open_ s).steps⟩

theorem runs_replaySession (n : Int) (b : Bool) : Runs (replaySession n b) := by
  constructor
  intro s
  unfold replaySession
  split
  · exact (Step.print s b).steps
  · exact (Step.lower s n).steps

theorem runs_replayFatal (n : Int) : Runs (replayFatal n) := runs_replaySession n true

theorem runs_endSession (n : Int) : Runs (endSession n) := by
  constructor
  intro s
  unfold endSession
  dsimp only
  split
  · exact ⟨(Step.close s n).steps, fun c hc => by cases hc; rfl⟩
  · exact (Step.close s n).steps

theorem runs_setProblem (c : Nat) (w : Bool) : Runs (setProblem c w) := by
  constructor
  intro s
  unfold setProblem
  split
  · exact Steps.refl s
  · exact (Step.problem s c w).steps

theorem runs_setError (c : Nat) : Runs (setError c) := runs_setProblem c false
theorem runs_setWarning (c : Nat) : Runs (setWarning c) := runs_setProblem c true
theorem runs_annotate (n : Int) : Runs (annotate n) := Runs.pure ()
theorem runs_showError (m : Msg) : Runs (showError m) := Runs.modify fun s => .error s m
theorem runs_showFatal (m : Msg) : Runs (showFatal m) := Runs.modify fun s => .fatal s m
theorem runs_showWarning (m : Msg) : Runs (showWarning m) := Runs.modify fun s => .warning s m

/-! ### Scanners and storage -/

theorem runs_readExpr (d s : Str) (b : Bool) : Runs (readExpr d s b) := by
  constructor
  intro st
  unfold readExpr
  dsimp only
  split
  · exact Steps.refl st
  · split
    · exact Steps.refl st
    · exact (Step.fatal st _).steps

theorem runs_extractArg (e : Bool) (s : Str) : Runs (extractArg e s) := by
  unfold extractArg; runs

theorem runs_searchDefines (n : Str) (l : Bool) : Runs (searchDefines n l) := by
  constructor
  intro s
  unfold searchDefines
  dsimp only
  split
  · exact Steps.refl s
  · split
    · exact Steps.refl s
    · exact (step_writeDef _ _ s).steps

theorem runs_addDefine (n : Str) (l : Bool) : Runs (addDefine n l) := by
  unfold addDefine; runs

theorem runs_removeDefine (n : Str) : Runs (removeDefine n) := Runs.modify fun s => Step.defines s _

theorem runs_addReusable : Runs addReusable := by
  constructor
  intro s
  unfold addReusable
  split
  · exact (Runs.ub (α := Unit) .outOfBounds).run s
  · exact (Step.reusable s).steps

theorem runs_setCurrReusable (i : Int) : Runs (setCurrReusable i) := by
  unfold setCurrReusable; runs

theorem runs_searchReusables (i : Int) : Runs (searchReusables i) := by
  constructor
  intro s
  unfold searchReusables
  split
  · exact (Step.error s _).steps
  · split
    · exact (Runs.ub (α := Unit) .outOfBounds).run s
    · exact Steps.refl s

theorem runs_addArgSet : Runs addArgSet := Runs.modify fun s => Step.pushArgs s
theorem runs_addArg (n : Str) (v : Option Str) : Runs (addArg n v) := Runs.modify fun s => Step.updArgs s _ _
theorem runs_removeArgSet (b : Bool) : Runs (removeArgSet b) := Runs.when (Runs.modify fun s => Step.popArgs s)

theorem runs_addLabel (n : Str) (v : Int) : Runs (addLabel n v) := by
  constructor
  intro s
  unfold addLabel
  simp only [M.get_bind]
  split
  · exact Steps.refl s
  · rw [M.bind_apply]
    have h := (runs_searchDefines (keyOf s n) true).run s
    cases hs : searchDefines (keyOf s n) true s with
    | stop e s' => rw [hs] at h; exact h
    | ok a s' =>
      rw [hs] at h
      replace h : Steps s s' := h
      have hl : s'.labels = s.labels := by
        unfold searchDefines at hs
        dsimp only at hs
        split at hs
        · cases hs; rfl
        · split at hs
          · cases hs; rfl
          · cases hs
            unfold writeDef; split <;> rfl
      cases a with
      | some p => exact h.trans (Step.error s' _).steps
      | none =>
        dsimp only
        cases hlook : s.labels.lookup (keyOf s n) with
        | some l =>
          dsimp only
          split
          · exact h.trans (Steps.tail (Step.setLabel s' _ _).steps (Step.warning _ _))
          · exact h
        | none =>
          have hnone := hlook
          rw [← hl] at hnone
          exact h.trans (Step.newLabel s' _ _ hnone).steps

/-! ### The functions that call back -/

/-- The callbacks only take steps. -/
structure RecRuns (k : Rec) : Prop where
  numFull : ∀ s d, Runs (k.numFull s d)
  expandFull : ∀ s d l, Runs (k.expandFull s d l)
  handlePreop : ∀ s, Runs (k.handlePreop s)
  preopIf : ∀ s, Runs (k.preopIf s)
  lineSec : ∀ s, Runs (k.lineSec s)
  emitString : ∀ s e, Runs (k.emitString s e)

theorem runs_numFull {k : Rec} (hk : RecRuns k) (s : Str) (d : Int) : Runs (k.numFull s d) := hk.numFull s d
theorem runs_expandFull {k : Rec} (hk : RecRuns k) (s : Str) (d : Nat) (l : Bool) : Runs (k.expandFull s d l) :=
  hk.expandFull s d l
theorem runs_handlePreop {k : Rec} (hk : RecRuns k) (s : Str) : Runs (k.handlePreop s) := hk.handlePreop s
theorem runs_preopIf {k : Rec} (hk : RecRuns k) (s : Str) : Runs (k.preopIf s) := hk.preopIf s
theorem runs_lineSec {k : Rec} (hk : RecRuns k) (s : Str) : Runs (k.lineSec s) := hk.lineSec s
theorem runs_emitString {k : Rec} (hk : RecRuns k) (s : Str) (e : Es) : Runs (k.emitString s e) := hk.emitString s e

variable {k : Rec} (hk : RecRuns k)
include hk

theorem runs_parseNum (s : Str) : Runs (parseNum k s) := by
  unfold parseNum; runs

theorem runs_parseF (s : Str) : Runs (parseF k s) := by
  unfold parseF; runs

theorem runs_expandExpr (s : Str) (l : Bool) : Runs (expandExpr k s l) := hk.expandFull s 0 l

theorem runs_evalStr (s : Str) : Runs (evalStr k s) := by
  unfold evalStr; runs

theorem runs_reduceLoop (s out : Str) (q : Nat) : Runs (reduceLoop k s out q) := by
  fun_induction reduceLoop k s out q <;> runs
  all_goals solve_by_elim

theorem runs_reduceString (s : Str) : Runs (reduceString k s) := by
  unfold reduceString; runs

theorem runs_argLoop (f : Nat) (e : Bool) (ps : List Str) (s : Str) : Runs (argLoop k f e ps s) := by
  induction f generalizing e ps s with
  | zero => unfold argLoop; runs
  | succ f ih => unfold argLoop; runs; all_goals exact ih _ _ _

omit hk in
theorem runs_fillArgs (ps : List Str) : Runs (fillArgs ps) := by
  induction ps with
  | nil => unfold fillArgs; runs
  | cons p ps ih => unfold fillArgs; runs

theorem runs_parseArgs (s : Str) (d : Define) : Runs (parseArgs k s d) := by
  unfold parseArgs; runs

theorem runs_parseDefineLoop (f : Nat) (s : Str) : Runs (parseDefineLoop k f s) := by
  induction f generalizing s with
  | zero => unfold parseDefineLoop; runs
  | succ f ih =>
    unfold parseDefineLoop; runs
    all_goals first | exact ih _ | exact Runs.modify (fun s => Step.ranPreop s)

theorem runs_parseDefine (d : Define) : Runs (parseDefine k d) := by
  unfold parseDefine; runs

omit hk in
theorem runs_parsePlus (s : Str) : Runs (parsePlus s) := by
  unfold parsePlus; runs

omit hk in
theorem runs_parseMinus (s : Str) : Runs (parseMinus s) := by
  unfold parseMinus; runs

omit hk in
theorem runs_randByte : Runs randByte := ⟨fun s => (Step.free (by constructor <;> rfl)).steps⟩

omit hk in
theorem runs_escapeVal (c : Nat) : Runs (escapeVal c) := by
  unfold escapeVal; runs

omit hk in
theorem runs_closeQuote (s : Str) (v : Int) : Runs (closeQuote s v) := by
  unfold closeQuote; runs

omit hk in
theorem runs_parseChar (s : Str) : Runs (parseChar s) := by
  unfold parseChar; runs

theorem runs_parseGetc (s : Str) : Runs (parseGetc k s) := by
  unfold parseGetc; runs

theorem runs_parseMacro (d : Define) (s : Str) : Runs (parseMacro k d s) := by
  unfold parseMacro; runs

theorem runs_parseName (s : Str) : Runs (parseName k s) := by
  unfold parseName; runs

omit hk in
theorem runs_convGeneric (b e : Nat) (s : Str) (n : Nat) : Runs (convGeneric b e s n) := by
  unfold convGeneric; runs

omit hk in
theorem runs_convHex (s : Str) (n : Nat) : Runs (convHex s n) := by
  unfold convHex; runs

omit hk in
theorem runs_convDec (s : Str) (n : Nat) : Runs (convDec s n) := by
  unfold convDec; runs

omit hk in
theorem runs_convBin (s : Str) (n : Nat) : Runs (convBin s n) := by
  unfold convBin; runs

omit hk in
theorem runs_parseDigits (s : Str) : Runs (parseDigits s) := by
  unfold parseDigits; runs

theorem runs_parseSingle (s : Str) : Runs (parseSingle k s) := by
  unfold parseSingle; runs

omit hk in
theorem runs_getOp (d : Int) (f : Nat) (s : Str) : Runs (getOp d f s) := by
  induction f generalizing s with
  | zero => unfold getOp; runs
  | succ f ih => unfold getOp; runs; all_goals exact ih _

theorem runs_numLoop (d : Int) (f : Nat) (t : Int) (o : Option Op) (s : Str) : Runs (numLoop k d f t o s) := by
  induction f generalizing t o s with
  | zero => unfold numLoop; runs
  | succ f ih => unfold numLoop; runs; all_goals exact ih _ _ _

theorem runs_numFullBody (s : Str) (d : Int) : Runs (numFullBody k s d) := by
  unfold numFullBody; runs

theorem runs_expandLoop (d : Nat) (l : Bool) (f : Nat) (s o : Str) : Runs (expandLoop k d l f s o) := by
  induction f generalizing s o with
  | zero => unfold expandLoop; runs
  | succ f ih => unfold expandLoop; runs; all_goals exact ih _ _

theorem runs_expandFullBody (s : Str) (d : Nat) (l : Bool) : Runs (expandFullBody k s d l) := by
  unfold expandFullBody; runs

theorem runs_setDefine (r : DRef) (s : Str) (b : Bool) : Runs (setDefine k r s b) := by
  unfold setDefine; runs

omit hk in
theorem runs_writeOut (v : Int) : Runs (writeOut v) := by
  constructor
  intro s
  unfold writeOut
  split
  · exact (Runs.ub (α := Unit) .outOfBounds).run s
  · exact (Step.write s v (by omega) (by omega)).steps

omit hk in
theorem runs_advance (n : Int) : Runs (advance n) := by
  unfold advance; runs

omit hk in
theorem runs_writeArg (v : Int) (t : ArgTy) (i o : Int) : Runs (writeArg v t i o) := by
  unfold writeArg; runs

theorem runs_addPassTwoExpr (e : Str) (t : ArgTy) (i o : Int) : Runs (addPassTwoExpr k e t i o) := by
  unfold addPassTwoExpr; runs
  all_goals exact Runs.modify (fun s => Step.defer s _)

theorem runs_addPassTwoOutput (e : Str) (b : Bool) : Runs (addPassTwoOutput k e b) := by
  unfold addPassTwoOutput; runs
  all_goals exact Runs.modify (fun s => Step.deferOut s _)

omit hk in
theorem runs_showDefine (d : Define) : Runs (showDefine d) := by
  exact Runs.modify (fun s => Step.text s _)

theorem runs_runExpr (e : PExpr) : Runs (runExpr k e) := by
  unfold runExpr; runs

theorem runs_runExprs (l : List PExpr) : Runs (runExprs k l) := by
  induction l with
  | nil => unfold runExprs; runs
  | cons e l ih => unfold runExprs; runs

theorem runs_runOutput (e : POut) : Runs (runOutput k e) := by
  unfold runOutput; runs

theorem runs_runOutputs (l : List POut) : Runs (runOutputs k l) := by
  induction l with
  | nil => unfold runOutputs; runs
  | cons e l ih => unfold runOutputs; runs

theorem runs_runSecondPass  : Runs (runSecondPass k) := by
  unfold runSecondPass; runs
  · exact Runs.modify (fun s => Step.endExprs s _)
  · exact Runs.modify (fun s => Step.endOutputs s _)

omit hk in
theorem runs_countData (n : Int) : Runs (countData n) := by
  unfold countData; runs

omit hk in
theorem runs_emitChars (s : Str) : Runs (emitChars s) := by
  induction s with
  | nil => unfold emitChars; runs
  | cons c t ih => unfold emitChars; runs

omit hk in
theorem runs_echoError (t : Es) (n : Int) : Runs (echoError t n) := by
  unfold echoError; runs

theorem runs_emitDefine (t : Es) (n : Int) (d : Define) (r : Str) : Runs (emitDefine k t n d r) := by
  unfold emitDefine; runs
  all_goals exact Runs.modify (fun s => Step.spread s)

theorem runs_emitNum (t : Es) (w : Str) (n : Int) : Runs (emitNum k t w n) := by
  unfold emitNum; runs

theorem runs_emitLoop (t : Es) (f : Nat) (e : Bool) (n : Option Int) (o s : Str) : Runs (emitLoop k t f e n o s) := by
  induction f generalizing e n o s with
  | zero => unfold emitLoop; runs
  | succ f ih =>
    unfold emitLoop; runs
    all_goals first | exact ih _ _ _ _ | exact Runs.modify (fun s => Step.stale s)

theorem runs_emitStringBody (s : Str) (t : Es) : Runs (emitStringBody k s t) := by
  unfold emitStringBody; runs

omit hk in
theorem runs_matchLoop (p : Str) (m : Match) : Runs (matchLoop p m) := by
  induction p generalizing m with
  | nil => unfold matchLoop; runs
  | cons c t ih => unfold matchLoop; runs; all_goals exact ih _

omit hk in
theorem runs_matchInstr (i : Instr) (c s : Str) : Runs (matchInstr i c s) := by
  unfold matchInstr; runs

omit hk in
theorem runs_matchInstrs (c s : Str) (l : List Instr) (x : Str) : Runs (matchInstrs c s l x) := by
  induction l generalizing x with
  | nil => unfold matchInstrs; runs
  | cons i l ih => unfold matchInstrs; runs; all_goals exact ih _

omit hk in
theorem runs_matchArgs (c s : Str) (l : List Opcode) : Runs (matchArgs c s l) := by
  induction l with
  | nil => unfold matchArgs; runs
  | cons i l ih => unfold matchArgs; runs

theorem runs_writeOperands (il : Bool) (p : Str) (c : List (Str × Str)) (n : Int) (b : Option Str) : Runs (writeOperands k il p c n b) := by
  induction p generalizing c n b with
  | nil => unfold writeOperands; runs
  | cons x p ih => unfold writeOperands; runs; all_goals exact ih _ _ _

omit hk in
theorem runs_writeBytes (l : List Nat) : Runs (writeBytes l) := by
  induction l with
  | nil => unfold writeBytes; runs
  | cons i l ih => unfold writeBytes; runs

theorem runs_writeInstr (i : Instr) (c : List (Str × Str)) (x : Option Nat) : Runs (writeInstr k i c x) := by
  unfold writeInstr; runs

theorem runs_doInstr (o : List Opcode) (n r : Str) (x : Option Nat) : Runs (doInstr k o n r x) := by
  unfold doInstr; runs

theorem runs_dirOrg (s : Str) : Runs (dirOrg k s) := by
  unfold dirOrg; runs

omit hk in
theorem runs_writeFill (v : Int) (n : Nat) : Runs (writeFill v n) := by
  induction n with
  | zero => unfold writeFill; runs
  | succ n ih => unfold writeFill; runs

theorem runs_dirFill (s : Str) : Runs (dirFill k s) := by
  unfold dirFill; runs

omit hk in
theorem runs_addinstrFail (s : Str) : Runs (addinstrFail s) := by
  unfold addinstrFail; runs

theorem runs_dirAddinstr (s : Str) : Runs (dirAddinstr k s) := by
  unfold dirAddinstr; runs
  all_goals exact Runs.modify (fun s => Step.opcode s _)

theorem runs_dirEchoFile (s : Str) : Runs (dirEchoFile k s) := by
  unfold dirEchoFile; runs
  all_goals first | exact Runs.modify (fun s => Step.wrote s _ _) | exact Runs.modify (fun s => Step.appended s _ _)

theorem runs_dirEcho (s : Str) : Runs (dirEcho k s) := by
  unfold dirEcho; runs

theorem runs_dirError (s : Str) : Runs (dirError k s) := by
  unfold dirError; runs

omit hk in
theorem runs_setLastLabel (v : Int) : Runs (setLastLabel v) := by
  unfold setLastLabel; runs
  all_goals exact Runs.modify (fun s => Step.setLabel s _ _)

theorem runs_dirEqu (s : Str) : Runs (dirEqu k s) := by
  unfold dirEqu; runs

theorem runs_dirShow (s : Str) : Runs (dirShow k s) := by
  unfold dirShow; runs

theorem runs_dirOption (f : Nat) (e : Bool) (s : Str) : Runs (dirOption k f e s) := by
  induction f generalizing e s with
  | zero => unfold dirOption; runs
  | succ f ih => unfold dirOption; runs; all_goals exact ih _ _

theorem runs_dirSeek (s : Str) : Runs (dirSeek k s) := by
  unfold dirSeek; runs

theorem runs_dirAssume (s : Str) : Runs (dirAssume k s) := by
  unfold dirAssume; runs

theorem runs_runDir (d : Dir) (s : Str) : Runs (runDir k d s) := by
  unfold runDir; runs

omit hk in
theorem runs_skipLine (w : List Str) (e f l : Nat) (s : Str) : Runs (skipLine w e f l s) := by
  induction f generalizing l s with
  | zero => unfold skipLine; runs
  | succ f ih => unfold skipLine; runs; all_goals exact ih _ _

omit hk in
theorem runs_skipLoop (u : Nat) (w : List Str) (f l : Nat) (n : Int) (s : Str) : Runs (skipLoop u w f l n s) := by
  induction f generalizing l n s with
  | zero => unfold skipLoop; runs
  | succ f ih => unfold skipLoop; runs; all_goals exact ih _ _ _

omit hk in
theorem runs_skipUntil (w : List Str) (b : Bool) (s : Str) : Runs (skipUntil k w b s) := by
  unfold skipUntil; runs

theorem runs_doIf (s : Str) (c : Bool) : Runs (doIf k s c) := by
  unfold doIf; runs

theorem runs_preopIfBody (s : Str) : Runs (preopIfBody k s) := by
  unfold preopIfBody; runs

theorem runs_preIfdef (w : Bool) (s : Str) : Runs (preIfdef k w s) := by
  unfold preIfdef; runs

omit hk in
theorem runs_skipQuietly (w : List Str) (s : Str) : Runs (skipQuietly k w s) := by
  unfold skipQuietly; runs

omit hk in
theorem runs_argDefLoop (f : Nat) (e : Bool) (a : List Str) (s : Str) : Runs (argDefLoop f e a s) := by
  induction f generalizing e a s with
  | zero => unfold argDefLoop; runs
  | succ f ih => unfold argDefLoop; runs; all_goals exact ih _ _ _

omit hk in
theorem runs_parseArgDefs (r : DRef) (s : Str) : Runs (parseArgDefs r s) := by
  unfold parseArgDefs; runs

theorem runs_defineMacro (r : DRef) (b : Bool) (s : Str) : Runs (defineMacro k r b s) := by
  unfold defineMacro; runs

theorem runs_concatLoop (f : Nat) (e : Bool) (o s : Str) : Runs (concatLoop k f e o s) := by
  induction f generalizing e o s with
  | zero => unfold concatLoop; runs
  | succ f ih => unfold concatLoop; runs; all_goals exact ih _ _ _

theorem runs_definePlain (r : DRef) (b : Bool) (s : Str) : Runs (definePlain k r b s) := by
  unfold definePlain; runs

theorem runs_preDefine (s : Str) : Runs (preDefine k s) := by
  unfold preDefine; runs

theorem runs_preMacro (s : Str) : Runs (preMacro k s) := by
  unfold preMacro; runs

theorem runs_preDefcont (s : Str) : Runs (preDefcont k s) := by
  unfold preDefcont; runs

omit hk in
theorem runs_firstPassLoop {line : Str → M (Option Str)} (hl : ∀ s, Runs (line s)) (f : Nat) (s : Str) : Runs (firstPassLoop line f s) := by
  induction f generalizing s with
  | zero => unfold firstPassLoop; runs
  | succ f ih => unfold firstPassLoop; runs; all_goals first | exact hl _ | exact ih _

theorem runs_lineLoop (f : Nat) (s : Str) : Runs (lineLoop k f s) := by
  induction f generalizing s with
  | zero => unfold lineLoop; runs
  | succ f ih => unfold lineLoop; runs; all_goals exact ih _

theorem runs_runLine (s : Str) : Runs (runLine k s) := by
  unfold runLine; runs

theorem runs_runFirstPass (s : Str) : Runs (runFirstPass k s) := by
  unfold runFirstPass; runs

theorem runs_preInclude {b : List Nat → M Unit} (hb : ∀ l, Runs (b l)) (s : Str) : Runs (preInclude k b s) := by
  unfold preInclude; runs; all_goals exact hb _

omit hk in
theorem runs_importBytes (l : List Nat) : Runs (importBytes l) := by
  induction l with
  | nil => unfold importBytes; runs
  | cons i l ih => unfold importBytes; runs

omit hk in
theorem runs_preImport (s : Str) : Runs (preImport s) := by
  unfold preImport; runs

theorem runs_handlePreopBody {b : List Nat → M Unit} (hb : ∀ l, Runs (b l)) (s : Str) : Runs (handlePreopBody k b s) := by
  unfold handlePreopBody; runs

omit hk in
theorem runs_setBuf (i : Nat) (v : Option Str) : Runs (setBuf i v) := by
  unfold setBuf; runs

theorem runs_fcBuf (s : Str) : Runs (fcBuf k s) := by
  unfold fcBuf; runs

omit hk in
theorem runs_fcClr (s : Str) : Runs (fcClr s) := by
  unfold fcClr; runs

theorem runs_fcWr (s : Str) : Runs (fcWr k s) := by
  unfold fcWr; runs

theorem runs_fcRun (s : Str) : Runs (fcRun k s) := by
  unfold fcRun; runs

theorem runs_macroLoop (f : Nat) (s : Str) : Runs (macroLoop k f s) := by
  induction f generalizing s with
  | zero => unfold macroLoop; runs
  | succ f ih => unfold macroLoop; runs; all_goals exact ih _

theorem runs_runMacro (d : Define) (s : Str) : Runs (runMacro k d s) := by
  unfold runMacro; runs

theorem runs_callMacro (d : Define) (s : Str) : Runs (callMacro k d s) := by
  unfold callMacro; runs

theorem runs_opcodeOrMacro (s : Str) : Runs (opcodeOrMacro k s) := by
  unfold opcodeOrMacro; runs

theorem runs_handleDirective (s : Str) : Runs (handleDirective k s) := by
  unfold handleDirective; runs

theorem runs_assign (s : Str) : Runs (assign k s) := by
  unfold assign; runs

theorem runs_lineSecLoop (f : Nat) (s : Str) : Runs (lineSecLoop k f s) := by
  induction f generalizing s with
  | zero => unfold lineSecLoop; runs
  | succ f ih => unfold lineSecLoop; runs; all_goals exact ih _

theorem runs_lineSecBody (s : Str) : Runs (lineSecBody k s) := by
  unfold lineSecBody; runs

theorem runs_defineIs (n : Str) (v : Int) : Runs (defineIs k n v) := by
  unfold defineIs; runs

theorem runs_writeMask (l : List Nat) : Runs (writeMask k l) := by
  induction l with
  | nil => unfold writeMask; runs
  | cons b l ih => unfold writeMask; runs

theorem runs_maskPart (g : List (List (Nat × Nat))) : Runs (maskPart k g) := by
  unfold maskPart; runs

theorem runs_bitmapPart (b : Bmp) (r : Rect) : Runs (bitmapPart k b r) := by
  unfold bitmapPart; runs

theorem runs_bitmapStrips (b : Bmp) (r : Rect) (m : Int) (f : Nat) (l w : Int) : Runs (bitmapStrips k b r m f l w) := by
  induction f generalizing l w with
  | zero => unfold bitmapStrips; runs
  | succ f ih => unfold bitmapStrips; runs; all_goals exact ih _ _

theorem runs_bitmapAll (b : Bmp) (r : Rect) (m w : Int) : Runs (bitmapAll k b r m w) := by
  unfold bitmapAll; runs

omit hk in
theorem runs_writePair (v : Int) : Runs (writePair v) := by
  unfold writePair; runs

omit hk in
theorem runs_writeSmall (v : Int) (m : Msg) : Runs (writeSmall v m) := by
  unfold writeSmall; runs

theorem runs_bitmapSize (w h : Int) : Runs (bitmapSize k w h) := by
  unfold bitmapSize; runs

theorem runs_headerToken (w h : Int) (p : Str) : Runs (headerToken k w h p) := by
  unfold headerToken; runs

theorem runs_headerTokens (w h : Int) (l : List Str) : Runs (headerTokens k w h l) := by
  induction l with
  | nil => unfold headerTokens; runs
  | cons p l ih => unfold headerTokens; runs

theorem runs_bitmapHeader (r : Rect) : Runs (bitmapHeader k r) := by
  unfold bitmapHeader; runs

omit hk in
theorem runs_imageLabel (b : Option Str) (x : Str) (v : Int) : Runs (imageLabel b x v) := by
  unfold imageLabel; runs

theorem runs_mapNumbers (l : List Str) (i : Nat) (v : Int × Int × Int) : Runs (mapNumbers k l i v) := by
  induction l generalizing i v with
  | nil => unfold mapNumbers; runs
  | cons p l ih => unfold mapNumbers; runs; all_goals exact ih _ _

theorem runs_mapLoop (b : Bmp) (base : Option Str) (w h p : Int) (f : Nat) (l t c n : Int) : Runs (mapLoop k b base w h p f l t c n) := by
  induction f generalizing l t c n with
  | zero => unfold mapLoop; runs
  | succ f ih => unfold mapLoop; runs; all_goals exact ih _ _ _ _

theorem runs_bitmapMap (b : Bmp) (base : Option Str) (p : Int) (r : DRef) (c : Str) : Runs (bitmapMap k b base p r c) := by
  unfold bitmapMap; runs

theorem runs_bitmapSingle (b : Bmp) (base : Option Str) (m : Int) : Runs (bitmapSingle k b base m) := by
  unfold bitmapSingle; runs

theorem runs_handleBitmap (l : List Nat) : Runs (handleBitmap k l) := by
  unfold handleBitmap; runs


omit hk in
/-- Every function of the program only takes steps. -/
theorem runs_knot (n : Nat) : RecRuns (knot n) := by
  induction n with
  | zero => constructor <;> intros <;> exact Runs.halt _ rfl
  | succ n ih =>
    exact {
      numFull := runs_numFullBody ih
      expandFull := runs_expandFullBody ih
      handlePreop := runs_handlePreopBody ih (runs_handleBitmap ih)
      preopIf := runs_preopIfBody ih
      lineSec := runs_lineSecBody ih
      emitString := runs_emitStringBody ih }

end Spasm
