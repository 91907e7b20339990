import Verif.Lemmas.StepsMain
import Verif.Lemmas.Keeps

/-
Evaluating an expression, expanding a text and reading macro arguments leave the program being assembled alone:
they change neither the output, the labels, the address nor the queues of deferred work. The one exception, a
preprocessor line run by the evaluation of a define, is recorded in the ghost variable `ranPreop`.
-/

namespace Spasm

/-- Everything but messages, sessions, argument sets and bookkeeping of the evaluator is the same; of the defines,
only the contents of `__LINE` and `__FILE` may differ. -/
structure Kept (s s' : S) : Prop where
  mode : s'.mode = s.mode
  fs : s'.fs = s.fs
  includeDirs : s'.includeDirs = s.includeDirs
  caseSens : s'.caseSens = s.caseSens
  pc : s'.pc = s.pc
  adl : s'.adl = s.adl
  currFile : s'.currFile = s.currFile
  tempPath : s'.tempPath = s.tempPath
  mem : s'.mem = s.mem
  outPtr : s'.outPtr = s.outPtr
  labels : s'.labels = s.labels
  reusables : s'.reusables = s.reusables
  totalReusables : s'.totalReusables = s.totalReusables
  currReusable : s'.currReusable = s.currReusable
  exprs : s'.exprs = s.exprs
  outputs : s'.outputs = s.outputs
  lastLabel : s'.lastLabel = s.lastLabel
  lastDefine : s'.lastDefine = s.lastDefine
  ifLevel : s'.ifLevel = s.ifLevel
  inMacro : s'.inMacro = s.inMacro
  opcodes : s'.opcodes = s.opcodes
  bufs : s'.bufs = s.bufs
  curBuf : s'.curBuf = s.curBuf
  rand : s'.rand = s.rand
  statsCode : s'.statsCode = s.statsCode
  statsData : s'.statsData = s.statsData
  statsMin : s'.statsMin = s.statsMin
  statsMax : s'.statsMax = s.statsMax
  count : s'.defines.length = s.defines.length
  defines : ∀ key, key ≠ b! "__LINE" → key ≠ b! "__FILE" → s'.defines.lookup key = s.defines.lookup key

/-- Unless a preprocessor line was run, everything is kept. -/
def StillR (s s' : S) : Prop := s'.ranPreop = false → s.ranPreop = false ∧ Kept s s'

theorem Kept.refl (s : S) : Kept s s := by
  constructor <;> first | rfl | (intros; rfl)

theorem Kept.trans {a b c : S} (h : Kept a b) (h' : Kept b c) : Kept a c := by
  constructor
  case defines => exact fun k h1 h2 => (h'.defines k h1 h2).trans (h.defines k h1 h2)
  all_goals first
    | exact h'.mode.trans h.mode
    | exact h'.fs.trans h.fs
    | exact h'.includeDirs.trans h.includeDirs
    | exact h'.caseSens.trans h.caseSens
    | exact h'.pc.trans h.pc
    | exact h'.adl.trans h.adl
    | exact h'.currFile.trans h.currFile
    | exact h'.tempPath.trans h.tempPath
    | exact h'.mem.trans h.mem
    | exact h'.outPtr.trans h.outPtr
    | exact h'.labels.trans h.labels
    | exact h'.reusables.trans h.reusables
    | exact h'.totalReusables.trans h.totalReusables
    | exact h'.currReusable.trans h.currReusable
    | exact h'.exprs.trans h.exprs
    | exact h'.outputs.trans h.outputs
    | exact h'.lastLabel.trans h.lastLabel
    | exact h'.lastDefine.trans h.lastDefine
    | exact h'.ifLevel.trans h.ifLevel
    | exact h'.inMacro.trans h.inMacro
    | exact h'.opcodes.trans h.opcodes
    | exact h'.bufs.trans h.bufs
    | exact h'.curBuf.trans h.curBuf
    | exact h'.rand.trans h.rand
    | exact h'.statsCode.trans h.statsCode
    | exact h'.statsData.trans h.statsData
    | exact h'.statsMin.trans h.statsMin
    | exact h'.statsMax.trans h.statsMax
    | exact h'.count.trans h.count

theorem StillR.refl (s : S) : StillR s s := fun h => ⟨h, Kept.refl s⟩

theorem StillR.trans {a b c : S} (h : StillR a b) (h' : StillR b c) : StillR a c := fun hc =>
  let ⟨hb, k'⟩ := h' hc
  let ⟨ha, k⟩ := h hb
  ⟨ha, k.trans k'⟩

/-- A piece of the program that keeps everything unless it runs a preprocessor line. -/
structure Still {α : Type} (m : M α) : Prop where
  still : ∀ s, StillR s (m s).state

namespace Still
variable {α β : Type}

theorem ok {m : M α} (h : Still m) {s s' : S} {a : α} (e : m s = .ok a s') : StillR s s' := by
  have := h.still s
  rw [e] at this
  exact this

theorem pure (a : α) : Still (Pure.pure a : M α) := ⟨fun s => .refl s⟩
theorem pure' (a : α) : Still (M.pure' a : M α) := ⟨fun s => .refl s⟩
theorem halt (e : Stop) : Still (M.halt e : M α) := ⟨fun s => .refl s⟩
theorem ub (u : UB) : Still (M.ub u : M α) := ⟨fun s => .refl s⟩
theorem get : Still M.get := ⟨fun s => .refl s⟩

theorem bind {m : M α} {f : α → M β} (h : Still m) (h' : ∀ a, Still (f a)) : Still (m >>= f) := by
  constructor
  intro s
  have := h.still s
  rw [M.bind_apply]
  cases hms : m s with
  | ok a s' => rw [hms] at this; exact StillR.trans this ((h' a).still s')
  | stop e s' => rw [hms] at this; exact this

theorem when {c : Bool} {m : M Unit} (h : Still m) : Still (M.when c m) := by
  cases c
  · exact Still.pure ()
  · exact h

theorem modify {f : S → S} (h : ∀ s, Kept s (f s)) (hr : ∀ s, (f s).ranPreop = s.ranPreop) : Still (M.modify f) :=
  ⟨fun s hf => ⟨(hr s).symm.trans hf, h s⟩⟩

end Still

theorem still_pure {α : Type} (a : α) : Still (pure a : M α) := Still.pure a
theorem still_pure' {α : Type} (a : α) : Still (M.pure' a : M α) := Still.pure' a
theorem still_halt {α : Type} (e : Stop) : Still (M.halt e : M α) := Still.halt e
theorem still_ub {α : Type} (u : UB) : Still (M.ub u : M α) := Still.ub u
theorem still_get : Still M.get := Still.get

/-- Compositional proof of `Still`. -/
macro "stills" : tactic => `(tactic|
  repeat' (first
    | with_reducible apply Still.bind
    | with_reducible apply Still.when
    | intro _
    | with_reducible assumption
    | with_reducible dispatch "still_"
    | (with_reducible apply Still.modify) <;> (intro _; first | with_reducible rfl | (constructor <;> first | with_reducible rfl | (intros; with_reducible rfl)))
    | split
    | dsimp only))

/-! ### errors.cpp -/

theorem still_startSession : Still startSession := by
  constructor; intro s hs
  exact ⟨hs, by constructor <;> first | rfl | (intros; rfl)⟩

theorem still_replaySession (n : Int) (b : Bool) : Still (replaySession n b) := by
  constructor; intro s
  unfold replaySession
  split <;> exact fun hs => ⟨hs, by constructor <;> first | rfl | (intros; rfl)⟩

theorem still_replayFatal (n : Int) : Still (replayFatal n) := still_replaySession n true

theorem still_endSession (n : Int) : Still (endSession n) := by
  constructor; intro s
  unfold endSession
  dsimp only
  split <;> exact fun hs => ⟨hs, by constructor <;> first | rfl | (intros; rfl)⟩

theorem still_setProblem (c : Nat) (w : Bool) : Still (setProblem c w) := by
  constructor; intro s
  unfold setProblem
  split <;> exact fun hs => ⟨hs, by constructor <;> first | rfl | (intros; rfl)⟩

theorem still_setError (c : Nat) : Still (setError c) := still_setProblem c false
theorem still_setWarning (c : Nat) : Still (setWarning c) := still_setProblem c true
theorem still_annotate (n : Int) : Still (annotate n) := Still.pure ()

theorem still_showError (m : Msg) : Still (showError m) := by unfold showError; stills
theorem still_showFatal (m : Msg) : Still (showFatal m) := by unfold showFatal; stills
theorem still_showWarning (m : Msg) : Still (showWarning m) := by unfold showWarning; stills

/-! ### Scanners and storage -/

theorem still_readExpr (d s : Str) (b : Bool) : Still (readExpr d s b) := by
  constructor; intro st
  unfold readExpr
  dsimp only
  split
  · exact .refl st
  · split
    · exact .refl st
    · exact fun hs => ⟨hs, by constructor <;> first | rfl | (intros; rfl)⟩

theorem still_extractArg (e : Bool) (s : Str) : Still (extractArg e s) := by
  unfold extractArg; stills

theorem refreshed_key {key c : Str} {s : S} (h : refreshed key s = some c) : key = b! "__LINE" ∨ key = b! "__FILE" := by
  unfold refreshed at h
  split at h
  · rename_i h1; exact .inl (beq_iff_eq.mp h1)
  · split at h
    · rename_i h1; exact .inr (beq_iff_eq.mp h1)
    · cases h

theorem findArg_key {key : Str} {l : List (Table Define)} {i : Nat} {r : DRef} {d : Define}
    (h : findArg key l i = some (r, d)) : ∃ j, r = .arg j key := by
  induction l generalizing i with
  | nil => cases h
  | cons t ts ih =>
    unfold findArg at h
    cases ht : t.lookup key with
    | some d' => rw [ht] at h; cases h; exact ⟨i, rfl⟩
    | none => rw [ht] at h; exact ih h

theorem still_searchDefines (n : Str) (l : Bool) : Still (searchDefines n l) := by
  constructor; intro s
  unfold searchDefines
  dsimp only
  split
  · exact .refl s
  · rename_i r d hf
    split
    · exact .refl s
    · rename_i c hc
      have hr : (∃ j, r = .arg j (keyOf s n)) ∨ r = .glob (keyOf s n) := by
        generalize hin : (if l = true then findArg (keyOf s n) s.argSets 0 else none) = inArgs at hf
        cases inArgs with
        | some p =>
          cases hf
          split at hin
          · exact .inl (findArg_key hin)
          · cases hin
        | none =>
          dsimp only at hf
          cases hl : s.defines.lookup (keyOf s n) with
          | none => rw [hl] at hf; cases hf
          | some d' => rw [hl] at hf; cases hf; exact .inr rfl
      rcases hr with ⟨j, rfl⟩ | rfl
      · exact fun hs => ⟨hs, by constructor <;> first | rfl | (intros; rfl)⟩
      · refine fun hs => ⟨hs, ?_⟩
        constructor
        case defines =>
          intro k h1 h2
          have : k ≠ keyOf s n := by
            rcases refreshed_key hc with h | h <;> rw [h] <;> assumption
          show Table.lookup (Table.update (keyOf s n) (fun d => { d with contents := some c }) s.defines) k = _
          rw [Table.lookup_update, if_neg this]
        case count =>
          show List.length (Table.update (keyOf s n) (fun d => { d with contents := some c }) s.defines) = _
          exact Table.update_length _ _ _
        all_goals rfl

theorem still_searchReusables (i : Int) : Still (searchReusables i) := by
  constructor; intro s
  unfold searchReusables
  split
  · exact fun hs => ⟨hs, by constructor <;> first | rfl | (intros; rfl)⟩
  · split <;> exact .refl s

theorem still_addArgSet : Still addArgSet := by unfold addArgSet; stills
theorem still_addArg (n : Str) (v : Option Str) : Still (addArg n v) := by unfold addArg; stills
theorem still_removeArgSet (b : Bool) : Still (removeArgSet b) := by unfold removeArgSet; stills

/-! ### The functions that call back -/

/-- The evaluating callbacks keep everything unless a preprocessor line is run; the preprocessor does not forget
that it was run. -/
structure RecStill (k : Rec) : Prop where
  numFull : ∀ s d, Still (k.numFull s d)
  expandFull : ∀ s d l, Still (k.expandFull s d l)
  emitString : ∀ s t, t.data = none → Still (k.emitString s t)
  handlePreop : ∀ p s, s.ranPreop = true → (k.handlePreop p s).state.ranPreop = true

theorem still_numFull {k : Rec} (hk : RecStill k) (s : Str) (d : Int) : Still (k.numFull s d) := hk.numFull s d
theorem still_expandFull {k : Rec} (hk : RecStill k) (s : Str) (d : Nat) (l : Bool) : Still (k.expandFull s d l) :=
  hk.expandFull s d l

variable {k : Rec} (hk : RecStill k)
include hk

theorem still_parseNum (s : Str) : Still (parseNum k s) := by
  unfold parseNum; stills

theorem still_parseF (s : Str) : Still (parseF k s) := by
  unfold parseF; stills

theorem still_expandExpr (s : Str) (l : Bool) : Still (expandExpr k s l) := hk.expandFull s 0 l

theorem still_evalStr (s : Str) : Still (evalStr k s) := by
  unfold evalStr; stills

theorem still_reduceLoop (s out : Str) (q : Nat) : Still (reduceLoop k s out q) := by
  fun_induction reduceLoop k s out q <;> stills
  all_goals solve_by_elim

theorem still_reduceString (s : Str) : Still (reduceString k s) := by
  unfold reduceString; stills

theorem still_argLoop (f : Nat) (e : Bool) (ps : List Str) (s : Str) : Still (argLoop k f e ps s) := by
  induction f generalizing e ps s with
  | zero => unfold argLoop; stills
  | succ f ih => unfold argLoop; stills; all_goals exact ih _ _ _

omit hk in
theorem still_fillArgs (ps : List Str) : Still (fillArgs ps) := by
  induction ps with
  | nil => unfold fillArgs; stills
  | cons p ps ih => unfold fillArgs; stills

theorem still_parseArgs (s : Str) (d : Define) : Still (parseArgs k s d) := by
  unfold parseArgs; stills

/-- After a preprocessor line was run the ghost variable stays set, so nothing is claimed. -/
theorem still_parseDefineLoop (f : Nat) (s : Str) : Still (parseDefineLoop k f s) := by
  induction f generalizing s with
  | zero => unfold parseDefineLoop; stills
  | succ f ih =>
    unfold parseDefineLoop
    refine Still.bind still_get fun st => ?_
    split
    · exact still_pure _
    · dsimp only
      split
      · constructor
        intro s0
        rw [M.modify_bind, M.bind_apply]
        have h1 := hk.handlePreop (skipWs s).tail { s0 with ranPreop := true } rfl
        cases hp : k.handlePreop (skipWs s).tail { s0 with ranPreop := true } with
        | stop e s1 =>
          rw [hp] at h1
          intro h2
          exact absurd (h1.symm.trans h2) (by decide)
        | ok a s1 =>
          rw [hp] at h1
          dsimp only
          cases a with
          | none => intro h2; exact absurd (h1.symm.trans h2) (by decide)
          | some n =>
            have h3 := (ih (nextCodeLine n)).still { s1 with lineNum := s1.lineNum + 1 }
            intro h2
            exact absurd (h1.symm.trans (h3 h2).1) (by decide)
      · split
        · stills
        · refine Still.bind ?_ fun _ => ih _
          stills

theorem still_parseDefine (d : Define) : Still (parseDefine k d) := by
  unfold parseDefine; stills

omit hk in
theorem still_parsePlus (s : Str) : Still (parsePlus s) := by
  unfold parsePlus; stills

omit hk in
theorem still_parseMinus (s : Str) : Still (parseMinus s) := by
  unfold parseMinus; stills

omit hk in
theorem still_randByte : Still randByte :=
  ⟨fun s hs => ⟨hs, by constructor <;> first | rfl | (intros; rfl)⟩⟩

omit hk in
theorem still_escapeVal (c : Nat) : Still (escapeVal c) := by
  unfold escapeVal; stills

omit hk in
theorem still_closeQuote (s : Str) (v : Int) : Still (closeQuote s v) := by
  unfold closeQuote; stills

omit hk in
theorem still_parseChar (s : Str) : Still (parseChar s) := by
  unfold parseChar; stills

theorem still_parseGetc (s : Str) : Still (parseGetc k s) := by
  unfold parseGetc; stills

theorem still_parseMacro (d : Define) (s : Str) : Still (parseMacro k d s) := by
  unfold parseMacro; stills

theorem still_parseName (s : Str) : Still (parseName k s) := by
  unfold parseName; stills

omit hk in
theorem still_convGeneric (b e : Nat) (s : Str) (n : Nat) : Still (convGeneric b e s n) := by
  unfold convGeneric; stills

omit hk in
theorem still_convHex (s : Str) (n : Nat) : Still (convHex s n) := by
  unfold convHex; stills

omit hk in
theorem still_convDec (s : Str) (n : Nat) : Still (convDec s n) := by
  unfold convDec; stills

omit hk in
theorem still_convBin (s : Str) (n : Nat) : Still (convBin s n) := by
  unfold convBin; stills

omit hk in
theorem still_parseDigits (s : Str) : Still (parseDigits s) := by
  unfold parseDigits; stills

theorem still_parseSingle (s : Str) : Still (parseSingle k s) := by
  unfold parseSingle; stills

omit hk in
theorem still_getOp (d : Int) (f : Nat) (s : Str) : Still (getOp d f s) := by
  induction f generalizing s with
  | zero => unfold getOp; stills
  | succ f ih => unfold getOp; stills; all_goals exact ih _

theorem still_numLoop (d : Int) (f : Nat) (t : Int) (o : Option Op) (s : Str) : Still (numLoop k d f t o s) := by
  induction f generalizing t o s with
  | zero => unfold numLoop; stills
  | succ f ih => unfold numLoop; stills; all_goals exact ih _ _ _

theorem still_numFullBody (s : Str) (d : Int) : Still (numFullBody k s d) := by
  unfold numFullBody; stills

theorem still_expandLoop (d : Nat) (l : Bool) (f : Nat) (s o : Str) : Still (expandLoop k d l f s o) := by
  induction f generalizing s o with
  | zero => unfold expandLoop; stills
  | succ f ih => unfold expandLoop; stills; all_goals exact ih _ _

theorem still_expandFullBody (s : Str) (d : Nat) (l : Bool) : Still (expandFullBody k s d l) := by
  unfold expandFullBody; stills

theorem still_emitString (s : Str) (t : Es) (ht : t.data = none) : Still (k.emitString s t) := hk.emitString s t ht

omit hk in
theorem still_echoError (t : Es) (n : Int) : Still (echoError t n) := by
  unfold echoError; stills

theorem still_emitDefine (t : Es) (n : Int) (d : Define) (r : Str) (ht : t.data = none) :
    Still (emitDefine k t n d r) := by
  unfold emitDefine; stills

theorem still_emitNum (t : Es) (w : Str) (n : Int) (ht : t.data = none) : Still (emitNum k t w n) := by
  unfold emitNum; rw [ht]; stills

theorem still_emitLoop (t : Es) (ht : t.data = none) (f : Nat) (e : Bool) (n : Option Int) (o s : Str) :
    Still (emitLoop k t f e n o s) := by
  induction f generalizing e n o s with
  | zero => unfold emitLoop; stills
  | succ f ih =>
    unfold emitLoop; simp only [ht, Option.isSome_none, Bool.false_eq_true, if_false]
    stills
    all_goals exact ih _ _ _ _

theorem still_emitStringBody (s : Str) (t : Es) (ht : t.data = none) : Still (emitStringBody k s t) := by
  unfold emitStringBody
  refine Still.bind (by stills) fun _ => Still.bind (still_emitLoop hk t ht _ _ _ _ _) fun _ => ?_
  stills

omit hk in
/-- The ghost variable is never reset. -/
theorem ranPreop_stays {α : Type} {m : M α} (h : Runs m) (s : S) (hs : s.ranPreop = true) :
    (m s).state.ranPreop = true := by
  have : Invar (fun s s' => s.ranPreop = true → s'.ranPreop = true) := by
    refine ⟨fun _ h => h, fun _ _ _ h1 h2 h => h2 (h1 h), ?_⟩
    intro a b st
    cases st with
    | free h => intro ha; rw [h.ranPreop]; exact ha
    | ranPreop => intro _; rfl
    | _ => exact fun h => h
  exact (Keeps.ofRuns this h).keep s hs

omit hk in
/-- Every evaluation, at every recursion budget. -/
theorem still_knot (n : Nat) : RecStill (knot n) := by
  induction n with
  | zero => exact ⟨fun _ _ => .halt _, fun _ _ _ => .halt _, fun _ _ _ => .halt _, fun p s h => ranPreop_stays ((runs_knot 0).handlePreop p) s h⟩
  | succ n ih =>
    exact ⟨still_numFullBody ih, still_expandFullBody ih, still_emitStringBody ih, fun p s h => ranPreop_stays ((runs_knot (n+1)).handlePreop p) s h⟩

end Spasm
