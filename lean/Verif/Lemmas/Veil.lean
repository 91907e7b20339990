import Verif.Lemmas.Repro

/-
Runs with and without the option -S, and with and without the option -L.
-/

namespace Spasm

/-- The mode with -S (if `z` is false) or -L (if `z` is true) given. -/
def veilMode (z : Bool) (m : Mode) : Mode := { m with stats := bif z then m.stats else true, symtable := bif z then true else m.symtable }

/-- The state with -S (if `z` is false) or -L (if `z` is true) given. -/
def veil (z : Bool) (s : S) : S := { s with mode := veilMode z s.mode }

/-- A piece of the program that does not look whether the option is given. -/
structure Blind (z : Bool) {α : Type} (m : M α) : Prop where
  run : ∀ s, m (veil z s) = (m s).onState (veil z)

variable {z : Bool}

namespace Blind
variable {α β : Type}

theorem pure (a : α) : Blind z (Pure.pure a : M α) := ⟨fun _ => rfl⟩
theorem pure' (a : α) : Blind z (M.pure' a : M α) := ⟨fun _ => rfl⟩
theorem halt (e : Stop) : Blind z (M.halt e : M α) := ⟨fun _ => rfl⟩
theorem ub (u : UB) : Blind z (M.ub u : M α) := ⟨fun _ => rfl⟩

theorem bind {m : M α} {f : α → M β} (h : Blind z m) (h' : ∀ a, Blind z (f a)) : Blind z (m >>= f) where
  run s := by
    rw [M.bind_apply, M.bind_apply, h.run]
    cases hm : m s with
    | stop e t => rfl
    | ok a t => exact (h' a).run t

theorem get_bind {f : S → M β} (h : ∀ s, Blind z (f s)) (hf : ∀ s, f (veil z s) = f s) : Blind z (M.get >>= f) where
  run s := by
    rw [M.get_bind, M.get_bind, hf]
    exact (h s).run s

theorem when {c : Bool} {m : M Unit} (h : Blind z m) : Blind z (M.when c m) := by
  cases c
  · exact Blind.pure ()
  · exact h

theorem modify {f : S → S} (hf : ∀ s, f (veil z s) = veil z (f s)) : Blind z (M.modify f) :=
  ⟨fun s => by show Res.ok _ _ = Res.ok _ _; rw [hf]⟩

end Blind

theorem blind_pure {α : Type} (a : α) : Blind z (pure a : M α) := Blind.pure a
theorem blind_pure' {α : Type} (a : α) : Blind z (M.pure' a : M α) := Blind.pure' a
theorem blind_halt {α : Type} (e : Stop) : Blind z (M.halt e : M α) := Blind.halt e
theorem blind_ub {α : Type} (u : UB) : Blind z (M.ub u : M α) := Blind.ub u

theorem blind_writeDef (r : DRef) (f : Define → Define) : Blind z (M.modify (writeDef r f)) := by
  cases r <;> exact .modify (fun _ => rfl)

/-- Compositional proof of `Blind`. -/
macro "blind" : tactic => `(tactic|
  repeat' (first
    | ((with_reducible refine Blind.get_bind ?_ ?_); on_goal 2 => (intros; rfl))
    | with_reducible apply Blind.bind
    | with_reducible apply Blind.when
    | intro _
    | with_reducible apply blind_writeDef
    | with_reducible assumption
    | with_reducible dispatch "blind_"
    | ((with_reducible apply Blind.modify) <;> (intros; rfl))
    | split
    | dsimp only))

/-! ### errors.cpp -/

theorem blind_startSession : Blind z startSession := ⟨fun _ => rfl⟩
theorem blind_replaySession (n : Int) (b : Bool) : Blind z (replaySession n b) := ⟨fun s => by
  have e : (veil z s).errors = s.errors := rfl
  unfold replaySession; rw [e]; split <;> rfl⟩
theorem blind_replayFatal (n : Int) : Blind z (replayFatal n) := blind_replaySession n true
theorem blind_endSession (n : Int) : Blind z (endSession n) := ⟨fun s => by
  have e : (veil z s).errors = s.errors := rfl
  unfold endSession
  dsimp only
  rw [e]
  split <;> rfl⟩
theorem blind_clearSessions : Blind z clearSessions := ⟨fun _ => rfl⟩
theorem blind_setProblem (c : Nat) (w : Bool) : Blind z (setProblem c w) := ⟨fun s => by
  have e : (veil z s).errors = s.errors := rfl
  have e' : (veil z s).session = s.session := rfl
  unfold setProblem; split <;> rfl⟩
theorem blind_setError (c : Nat) : Blind z (setError c) := blind_setProblem c false
theorem blind_setWarning (c : Nat) : Blind z (setWarning c) := blind_setProblem c true
theorem blind_annotate (n : Int) : Blind z (annotate n) := Blind.pure ()
theorem blind_showError (m : Msg) : Blind z (showError m) := ⟨fun _ => rfl⟩
theorem blind_showFatal (m : Msg) : Blind z (showFatal m) := ⟨fun _ => rfl⟩
theorem blind_showWarning (m : Msg) : Blind z (showWarning m) := ⟨fun _ => rfl⟩

/-! ### Scanners and storage -/

theorem blind_readExpr (d s : Str) (b : Bool) : Blind z (readExpr d s b) := ⟨fun st => by
  unfold readExpr
  dsimp only
  split
  · rfl
  · cases readLoop b d (3 * (skipWs s).length + 3) { con := [], rest := skipWs s } <;> rfl⟩

theorem blind_extractArg (e : Bool) (s : Str) : Blind z (extractArg e s) := by
  unfold extractArg; blind

theorem blind_searchDefines (n : Str) (l : Bool) : Blind z (searchDefines n l) := by
  have key : ∀ s, searchDefines n l s = match (if l then findArg (keyOf s n) s.argSets 0 else none).or
      ((s.defines.lookup (keyOf s n)).map fun d => (DRef.glob (keyOf s n), d)) with
    | none => .ok none s
    | some (r, d) => match refreshed (keyOf s n) s with
      | none => .ok (some (r, d)) s
      | some c => .ok (some (r, { d with contents := some c })) (writeDef r (fun d => { d with contents := some c }) s) := by
    intro s
    unfold searchDefines
    dsimp only
    cases (if l then findArg (keyOf s n) s.argSets 0 else none) with
    | some p => rfl
    | none => cases (s.defines.lookup (keyOf s n)) <;> rfl
  refine ⟨fun s => ?_⟩
  rw [key, key]
  have e1 : (veil z s).argSets = s.argSets := rfl
  have e2 : (veil z s).defines = s.defines := rfl
  have e3 : keyOf (veil z s) n = keyOf s n := rfl
  have e4 : ∀ k, refreshed k (veil z s) = refreshed k s := fun _ => rfl
  rw [e1, e2, e3, e4]
  split
  · rfl
  · rename_i r d _
    split
    · rfl
    · cases r <;> rfl

theorem blind_addDefine (n : Str) (l : Bool) : Blind z (addDefine n l) := by
  unfold addDefine; blind

theorem blind_removeDefine (n : Str) : Blind z (removeDefine n) := by
  unfold removeDefine; blind

theorem blind_addReusable : Blind z addReusable := by
  have key : ∀ s, addReusable s = if s.currReusable < 0 ∨ s.currReusable ≥ 4096 then .stop (.ub .outOfBounds) s
      else .ok () { s with reusables := fun i => if i = s.currReusable then s.pc else s.reusables i, currReusable := s.currReusable + 1, totalReusables := s.currReusable + 1 } :=
    fun _ => rfl
  refine ⟨fun s => ?_⟩
  by_cases h : s.currReusable < 0 ∨ s.currReusable ≥ 4096
  · rw [key, key, if_pos h, if_pos (show (veil z s).currReusable < 0 ∨ (veil z s).currReusable ≥ 4096 from h)]; rfl
  · rw [key, key, if_neg h, if_neg (show ¬ ((veil z s).currReusable < 0 ∨ (veil z s).currReusable ≥ 4096) from h)]; rfl

theorem blind_setCurrReusable (i : Int) : Blind z (setCurrReusable i) := by
  unfold setCurrReusable; blind

theorem blind_searchReusables (i : Int) : Blind z (searchReusables i) := by
  refine ⟨fun s => ?_⟩
  unfold searchReusables
  by_cases h : i = -1 ∨ i ≥ s.totalReusables
  · rw [if_pos h, if_pos (show i = -1 ∨ i ≥ (veil z s).totalReusables from h)]; rfl
  · rw [if_neg h, if_neg (show ¬ (i = -1 ∨ i ≥ (veil z s).totalReusables) from h)]
    split <;> rfl

theorem blind_addArgSet : Blind z addArgSet := by unfold addArgSet; blind
theorem blind_addArg (n : Str) (v : Option Str) : Blind z (addArg n v) := by unfold addArg; blind
theorem blind_removeArgSet (b : Bool) : Blind z (removeArgSet b) := by unfold removeArgSet; blind

theorem blind_addLabel (n : Str) (v : Int) : Blind z (addLabel n v) := by
  unfold addLabel; blind

/-! ### The functions that call back -/

/-- The callbacks do not look at them. -/
structure RecBlind (z : Bool) (k : Rec) : Prop where
  numFull : ∀ s d, Blind z (k.numFull s d)
  expandFull : ∀ s d l, Blind z (k.expandFull s d l)
  handlePreop : ∀ s, Blind z (k.handlePreop s)
  preopIf : ∀ s, Blind z (k.preopIf s)
  lineSec : ∀ s, Blind z (k.lineSec s)
  emitString : ∀ s e, Blind z (k.emitString s e)

theorem blind_numFull {k : Rec} (hk : RecBlind z k) (s : Str) (d : Int) : Blind z (k.numFull s d) := hk.numFull s d
theorem blind_expandFull {k : Rec} (hk : RecBlind z k) (s : Str) (d : Nat) (l : Bool) : Blind z (k.expandFull s d l) :=
  hk.expandFull s d l
theorem blind_handlePreop {k : Rec} (hk : RecBlind z k) (s : Str) : Blind z (k.handlePreop s) := hk.handlePreop s
theorem blind_preopIf {k : Rec} (hk : RecBlind z k) (s : Str) : Blind z (k.preopIf s) := hk.preopIf s
theorem blind_lineSec {k : Rec} (hk : RecBlind z k) (s : Str) : Blind z (k.lineSec s) := hk.lineSec s
theorem blind_emitString {k : Rec} (hk : RecBlind z k) (s : Str) (e : Es) : Blind z (k.emitString s e) := hk.emitString s e

variable {k : Rec} (hk : RecBlind z k)
include hk

theorem blind_parseNum (s : Str) : Blind z (parseNum k s) := by
  unfold parseNum; blind

theorem blind_parseF (s : Str) : Blind z (parseF k s) := by
  unfold parseF; blind

theorem blind_expandExpr (s : Str) (l : Bool) : Blind z (expandExpr k s l) := hk.expandFull s 0 l

theorem blind_evalStr (s : Str) : Blind z (evalStr k s) := by
  unfold evalStr; blind

theorem blind_reduceLoop (s out : Str) (q : Nat) : Blind z (reduceLoop k s out q) := by
  fun_induction reduceLoop k s out q <;> blind
  all_goals solve_by_elim

theorem blind_reduceString (s : Str) : Blind z (reduceString k s) := by
  unfold reduceString; blind

theorem blind_argLoop (f : Nat) (e : Bool) (ps : List Str) (s : Str) : Blind z (argLoop k f e ps s) := by
  induction f generalizing e ps s with
  | zero => unfold argLoop; blind
  | succ f ih => unfold argLoop; blind; all_goals exact ih _ _ _

omit hk in
theorem blind_fillArgs (ps : List Str) : Blind z (fillArgs ps) := by
  induction ps with
  | nil => unfold fillArgs; blind
  | cons p ps ih => unfold fillArgs; blind

theorem blind_parseArgs (s : Str) (d : Define) : Blind z (parseArgs k s d) := by
  unfold parseArgs; blind

theorem blind_parseDefineLoop (f : Nat) (s : Str) : Blind z (parseDefineLoop k f s) := by
  induction f generalizing s with
  | zero => unfold parseDefineLoop; blind
  | succ f ih =>
    unfold parseDefineLoop; blind
    all_goals exact ih _

theorem blind_parseDefine (d : Define) : Blind z (parseDefine k d) := by
  unfold parseDefine; blind

omit hk in
theorem blind_parsePlus (s : Str) : Blind z (parsePlus s) := by
  unfold parsePlus; blind

omit hk in
theorem blind_parseMinus (s : Str) : Blind z (parseMinus s) := by
  unfold parseMinus; blind

omit hk in
theorem blind_randByte : Blind z randByte := ⟨fun _ => rfl⟩

omit hk in
theorem blind_escapeVal (c : Nat) : Blind z (escapeVal c) := by
  unfold escapeVal; blind

omit hk in
theorem blind_closeQuote (s : Str) (v : Int) : Blind z (closeQuote s v) := by
  unfold closeQuote; blind

omit hk in
theorem blind_parseChar (s : Str) : Blind z (parseChar s) := by
  unfold parseChar; blind

theorem blind_parseGetc (s : Str) : Blind z (parseGetc k s) := by
  unfold parseGetc; blind

theorem blind_parseMacro (d : Define) (s : Str) : Blind z (parseMacro k d s) := by
  unfold parseMacro; blind

theorem blind_parseName (s : Str) : Blind z (parseName k s) := by
  unfold parseName; blind

omit hk in
theorem blind_convGeneric (b e : Nat) (s : Str) (n : Nat) : Blind z (convGeneric b e s n) := by
  unfold convGeneric; blind

omit hk in
theorem blind_convHex (s : Str) (n : Nat) : Blind z (convHex s n) := by
  unfold convHex; blind

omit hk in
theorem blind_convDec (s : Str) (n : Nat) : Blind z (convDec s n) := by
  unfold convDec; blind

omit hk in
theorem blind_convBin (s : Str) (n : Nat) : Blind z (convBin s n) := by
  unfold convBin; blind

omit hk in
theorem blind_parseDigits (s : Str) : Blind z (parseDigits s) := by
  unfold parseDigits; blind

theorem blind_parseSingle (s : Str) : Blind z (parseSingle k s) := by
  unfold parseSingle; blind

omit hk in
theorem blind_getOp (d : Int) (f : Nat) (s : Str) : Blind z (getOp d f s) := by
  induction f generalizing s with
  | zero => unfold getOp; blind
  | succ f ih => unfold getOp; blind; all_goals exact ih _

theorem blind_numLoop (d : Int) (f : Nat) (t : Int) (o : Option Op) (s : Str) : Blind z (numLoop k d f t o s) := by
  induction f generalizing t o s with
  | zero => unfold numLoop; blind
  | succ f ih => unfold numLoop; blind; all_goals exact ih _ _ _

theorem blind_numFullBody (s : Str) (d : Int) : Blind z (numFullBody k s d) := by
  unfold numFullBody; blind

theorem blind_expandLoop (d : Nat) (l : Bool) (f : Nat) (s o : Str) : Blind z (expandLoop k d l f s o) := by
  induction f generalizing s o with
  | zero => unfold expandLoop; blind
  | succ f ih => unfold expandLoop; blind; all_goals exact ih _ _

theorem blind_expandFullBody (s : Str) (d : Nat) (l : Bool) : Blind z (expandFullBody k s d l) := by
  unfold expandFullBody; blind

theorem blind_setDefine (r : DRef) (s : Str) (b : Bool) : Blind z (setDefine k r s b) := by
  unfold setDefine; blind

omit hk in
theorem blind_writeOut (v : Int) : Blind z (writeOut v) := by
  have key : ∀ s, writeOut v s = if s.outPtr < 0 ∨ s.outPtr ≥ outputBufSize then .stop (.ub .outOfBounds) s
      else .ok () { s with mem := fun i => if i = s.outPtr.toNat then (v % 256).toNat else s.mem i, outPtr := s.outPtr + 1 } :=
    fun _ => rfl
  refine ⟨fun s => ?_⟩
  by_cases h : s.outPtr < 0 ∨ s.outPtr ≥ outputBufSize
  · rw [key, key, if_pos h, if_pos (show (veil z s).outPtr < 0 ∨ (veil z s).outPtr ≥ outputBufSize from h)]; rfl
  · rw [key, key, if_neg h, if_neg (show ¬ ((veil z s).outPtr < 0 ∨ (veil z s).outPtr ≥ outputBufSize) from h)]; rfl

omit hk in
theorem blind_advance (n : Int) : Blind z (advance n) := by
  unfold advance; blind

omit hk in
theorem blind_writeArg (v : Int) (t : ArgTy) (i o : Int) : Blind z (writeArg v t i o) := by
  unfold writeArg; blind

theorem blind_addPassTwoExpr (e : Str) (t : ArgTy) (i o : Int) : Blind z (addPassTwoExpr k e t i o) := by
  unfold addPassTwoExpr; blind

theorem blind_addPassTwoOutput (e : Str) (b : Bool) : Blind z (addPassTwoOutput k e b) := by
  unfold addPassTwoOutput; blind

omit hk in
theorem blind_showDefine (d : Define) : Blind z (showDefine d) := by
  unfold showDefine; blind

theorem blind_runOutput (e : POut) : Blind z (runOutput k e) := by
  unfold runOutput; blind

theorem blind_runOutputs (l : List POut) : Blind z (runOutputs k l) := by
  induction l with
  | nil => unfold runOutputs; blind
  | cons e l ih => unfold runOutputs; blind

omit hk in
theorem blind_countData (n : Int) : Blind z (countData n) := by
  unfold countData; blind

omit hk in
theorem blind_emitChars (s : Str) : Blind z (emitChars s) := by
  induction s with
  | nil => unfold emitChars; blind
  | cons c t ih => unfold emitChars; blind

omit hk in
theorem blind_echoError (t : Es) (n : Int) : Blind z (echoError t n) := by
  unfold echoError; blind

theorem blind_emitDefine (t : Es) (n : Int) (d : Define) (r : Str) : Blind z (emitDefine k t n d r) := by
  unfold emitDefine; blind

theorem blind_emitNum (t : Es) (w : Str) (n : Int) : Blind z (emitNum k t w n) := by
  unfold emitNum; blind

theorem blind_emitLoop (t : Es) (f : Nat) (e : Bool) (n : Option Int) (o s : Str) : Blind z (emitLoop k t f e n o s) := by
  induction f generalizing e n o s with
  | zero => unfold emitLoop; blind
  | succ f ih =>
    unfold emitLoop; blind
    all_goals exact ih _ _ _ _

theorem blind_emitStringBody (s : Str) (t : Es) : Blind z (emitStringBody k s t) := by
  unfold emitStringBody; blind

omit hk in
theorem blind_matchLoop (p : Str) (m : Match) : Blind z (matchLoop p m) := by
  induction p generalizing m with
  | nil => unfold matchLoop; blind
  | cons c t ih => unfold matchLoop; blind; all_goals exact ih _

omit hk in
theorem blind_matchInstr (i : Instr) (c s : Str) : Blind z (matchInstr i c s) := by
  unfold matchInstr; blind

omit hk in
theorem blind_matchInstrs (c s : Str) (l : List Instr) (x : Str) : Blind z (matchInstrs c s l x) := by
  induction l generalizing x with
  | nil => unfold matchInstrs; blind
  | cons i l ih => unfold matchInstrs; blind; all_goals exact ih _

omit hk in
theorem blind_matchArgs (c s : Str) (l : List Opcode) : Blind z (matchArgs c s l) := by
  induction l with
  | nil => unfold matchArgs; blind
  | cons i l ih => unfold matchArgs; blind

theorem blind_writeOperands (il : Bool) (p : Str) (c : List (Str × Str)) (n : Int) (b : Option Str) : Blind z (writeOperands k il p c n b) := by
  induction p generalizing c n b with
  | nil => unfold writeOperands; blind
  | cons x p ih => unfold writeOperands; blind; all_goals exact ih _ _ _

omit hk in
theorem blind_writeBytes (l : List Nat) : Blind z (writeBytes l) := by
  induction l with
  | nil => unfold writeBytes; blind
  | cons i l ih => unfold writeBytes; blind

theorem blind_writeInstr (i : Instr) (c : List (Str × Str)) (x : Option Nat) : Blind z (writeInstr k i c x) := by
  unfold writeInstr; blind

theorem blind_doInstr (o : List Opcode) (n r : Str) (x : Option Nat) : Blind z (doInstr k o n r x) := by
  unfold doInstr; blind

theorem blind_dirOrg (s : Str) : Blind z (dirOrg k s) := by
  unfold dirOrg; blind

omit hk in
theorem blind_writeFill (v : Int) (n : Nat) : Blind z (writeFill v n) := by
  induction n with
  | zero => unfold writeFill; blind
  | succ n ih => unfold writeFill; blind

theorem blind_dirFill (s : Str) : Blind z (dirFill k s) := by
  unfold dirFill; blind

omit hk in
theorem blind_addinstrFail (s : Str) : Blind z (addinstrFail s) := by
  unfold addinstrFail; blind

theorem blind_dirAddinstr (s : Str) : Blind z (dirAddinstr k s) := by
  unfold dirAddinstr; blind

theorem blind_dirEchoFile (s : Str) : Blind z (dirEchoFile k s) := by
  unfold dirEchoFile; blind

theorem blind_dirEcho (s : Str) : Blind z (dirEcho k s) := by
  unfold dirEcho; blind

theorem blind_dirError (s : Str) : Blind z (dirError k s) := by
  unfold dirError; blind

omit hk in
theorem blind_setLastLabel (v : Int) : Blind z (setLastLabel v) := by
  unfold setLastLabel; blind

theorem blind_dirEqu (s : Str) : Blind z (dirEqu k s) := by
  unfold dirEqu; blind

theorem blind_dirShow (s : Str) : Blind z (dirShow k s) := by
  unfold dirShow; blind

theorem blind_dirOption (f : Nat) (e : Bool) (s : Str) : Blind z (dirOption k f e s) := by
  induction f generalizing e s with
  | zero => unfold dirOption; blind
  | succ f ih => unfold dirOption; blind; all_goals exact ih _ _

theorem blind_dirSeek (s : Str) : Blind z (dirSeek k s) := by
  unfold dirSeek; blind

theorem blind_dirAssume (s : Str) : Blind z (dirAssume k s) := by
  unfold dirAssume; blind

theorem blind_runDir (d : Dir) (s : Str) : Blind z (runDir k d s) := by
  unfold runDir; blind

omit hk in
theorem blind_skipLine (w : List Str) (e f l : Nat) (s : Str) : Blind z (skipLine w e f l s) := by
  induction f generalizing l s with
  | zero => unfold skipLine; blind
  | succ f ih => unfold skipLine; blind; all_goals exact ih _ _

omit hk in
theorem blind_skipLoop (u : Nat) (w : List Str) (f l : Nat) (n : Int) (s : Str) : Blind z (skipLoop u w f l n s) := by
  induction f generalizing l n s with
  | zero => unfold skipLoop; blind
  | succ f ih => unfold skipLoop; blind; all_goals exact ih _ _ _

omit hk in
theorem blind_skipUntil (w : List Str) (b : Bool) (s : Str) : Blind z (skipUntil k w b s) := by
  unfold skipUntil; blind

theorem blind_doIf (s : Str) (c : Bool) : Blind z (doIf k s c) := by
  unfold doIf; blind

theorem blind_preopIfBody (s : Str) : Blind z (preopIfBody k s) := by
  unfold preopIfBody; blind

theorem blind_preIfdef (w : Bool) (s : Str) : Blind z (preIfdef k w s) := by
  unfold preIfdef; blind

omit hk in
theorem blind_skipQuietly (w : List Str) (s : Str) : Blind z (skipQuietly k w s) := by
  unfold skipQuietly; blind

omit hk in
theorem blind_argDefLoop (f : Nat) (e : Bool) (a : List Str) (s : Str) : Blind z (argDefLoop f e a s) := by
  induction f generalizing e a s with
  | zero => unfold argDefLoop; blind
  | succ f ih => unfold argDefLoop; blind; all_goals exact ih _ _ _

omit hk in
theorem blind_parseArgDefs (r : DRef) (s : Str) : Blind z (parseArgDefs r s) := by
  unfold parseArgDefs; blind

theorem blind_defineMacro (r : DRef) (b : Bool) (s : Str) : Blind z (defineMacro k r b s) := by
  unfold defineMacro; blind

theorem blind_concatLoop (f : Nat) (e : Bool) (o s : Str) : Blind z (concatLoop k f e o s) := by
  induction f generalizing e o s with
  | zero => unfold concatLoop; blind
  | succ f ih => unfold concatLoop; blind; all_goals exact ih _ _ _

theorem blind_definePlain (r : DRef) (b : Bool) (s : Str) : Blind z (definePlain k r b s) := by
  unfold definePlain; blind

theorem blind_preDefine (s : Str) : Blind z (preDefine k s) := by
  unfold preDefine; blind

theorem blind_preMacro (s : Str) : Blind z (preMacro k s) := by
  unfold preMacro; blind

theorem blind_preDefcont (s : Str) : Blind z (preDefcont k s) := by
  unfold preDefcont; blind

omit hk in
theorem blind_firstPassLoop {line : Str → M (Option Str)} (hl : ∀ s, Blind z (line s)) (f : Nat) (s : Str) : Blind z (firstPassLoop line f s) := by
  induction f generalizing s with
  | zero => unfold firstPassLoop; blind
  | succ f ih => unfold firstPassLoop; blind; all_goals first | exact hl _ | exact ih _

theorem blind_lineLoop (f : Nat) (s : Str) : Blind z (lineLoop k f s) := by
  induction f generalizing s with
  | zero => unfold lineLoop; blind
  | succ f ih => unfold lineLoop; blind; all_goals exact ih _

theorem blind_runLine (s : Str) : Blind z (runLine k s) := by
  unfold runLine; blind

theorem blind_runFirstPass (s : Str) : Blind z (runFirstPass k s) := by
  unfold runFirstPass; blind

theorem blind_preInclude {b : List Nat → M Unit} (hb : ∀ l, Blind z (b l)) (s : Str) : Blind z (preInclude k b s) := by
  unfold preInclude; blind; all_goals exact hb _

omit hk in
theorem blind_importBytes (l : List Nat) : Blind z (importBytes l) := by
  induction l with
  | nil => unfold importBytes; blind
  | cons i l ih => unfold importBytes; blind

omit hk in
theorem blind_preImport (s : Str) : Blind z (preImport s) := by
  unfold preImport; blind

theorem blind_handlePreopBody {b : List Nat → M Unit} (hb : ∀ l, Blind z (b l)) (s : Str) : Blind z (handlePreopBody k b s) := by
  unfold handlePreopBody; blind

omit hk in
theorem blind_setBuf (i : Nat) (v : Option Str) : Blind z (setBuf i v) := by
  unfold setBuf; blind

theorem blind_fcBuf (s : Str) : Blind z (fcBuf k s) := by
  unfold fcBuf; blind

omit hk in
theorem blind_fcClr (s : Str) : Blind z (fcClr s) := by
  unfold fcClr; blind

theorem blind_fcWr (s : Str) : Blind z (fcWr k s) := by
  unfold fcWr; blind

theorem blind_fcRun (s : Str) : Blind z (fcRun k s) := by
  unfold fcRun; blind

theorem blind_macroLoop (f : Nat) (s : Str) : Blind z (macroLoop k f s) := by
  induction f generalizing s with
  | zero => unfold macroLoop; blind
  | succ f ih => unfold macroLoop; blind; all_goals exact ih _

theorem blind_runMacro (d : Define) (s : Str) : Blind z (runMacro k d s) := by
  unfold runMacro; blind

theorem blind_callMacro (d : Define) (s : Str) : Blind z (callMacro k d s) := by
  unfold callMacro; blind

theorem blind_opcodeOrMacro (s : Str) : Blind z (opcodeOrMacro k s) := by
  unfold opcodeOrMacro; blind

theorem blind_handleDirective (s : Str) : Blind z (handleDirective k s) := by
  unfold handleDirective; blind

theorem blind_assign (s : Str) : Blind z (assign k s) := by
  unfold assign; blind

theorem blind_lineSecLoop (f : Nat) (s : Str) : Blind z (lineSecLoop k f s) := by
  induction f generalizing s with
  | zero => unfold lineSecLoop; blind
  | succ f ih => unfold lineSecLoop; blind; all_goals exact ih _

theorem blind_lineSecBody (s : Str) : Blind z (lineSecBody k s) := by
  unfold lineSecBody; blind

theorem blind_defineIs (n : Str) (v : Int) : Blind z (defineIs k n v) := by
  unfold defineIs; blind

theorem blind_writeMask (l : List Nat) : Blind z (writeMask k l) := by
  induction l with
  | nil => unfold writeMask; blind
  | cons b l ih => unfold writeMask; blind

theorem blind_maskPart (g : List (List (Nat × Nat))) : Blind z (maskPart k g) := by
  unfold maskPart; blind

theorem blind_bitmapPart (b : Bmp) (r : Rect) : Blind z (bitmapPart k b r) := by
  unfold bitmapPart; blind

theorem blind_bitmapStrips (b : Bmp) (r : Rect) (m : Int) (f : Nat) (l w : Int) : Blind z (bitmapStrips k b r m f l w) := by
  induction f generalizing l w with
  | zero => unfold bitmapStrips; blind
  | succ f ih => unfold bitmapStrips; blind; all_goals exact ih _ _

theorem blind_bitmapAll (b : Bmp) (r : Rect) (m w : Int) : Blind z (bitmapAll k b r m w) := by
  unfold bitmapAll; blind

omit hk in
theorem blind_writePair (v : Int) : Blind z (writePair v) := by
  unfold writePair; blind

omit hk in
theorem blind_writeSmall (v : Int) (m : Msg) : Blind z (writeSmall v m) := by
  unfold writeSmall; blind

theorem blind_bitmapSize (w h : Int) : Blind z (bitmapSize k w h) := by
  unfold bitmapSize; blind

theorem blind_headerToken (w h : Int) (p : Str) : Blind z (headerToken k w h p) := by
  unfold headerToken; blind

theorem blind_headerTokens (w h : Int) (l : List Str) : Blind z (headerTokens k w h l) := by
  induction l with
  | nil => unfold headerTokens; blind
  | cons p l ih => unfold headerTokens; blind

theorem blind_bitmapHeader (r : Rect) : Blind z (bitmapHeader k r) := by
  unfold bitmapHeader; blind

omit hk in
theorem blind_imageLabel (b : Option Str) (x : Str) (v : Int) : Blind z (imageLabel b x v) := by
  unfold imageLabel; blind

theorem blind_mapNumbers (l : List Str) (i : Nat) (v : Int × Int × Int) : Blind z (mapNumbers k l i v) := by
  induction l generalizing i v with
  | nil => unfold mapNumbers; blind
  | cons p l ih => unfold mapNumbers; blind; all_goals exact ih _ _

theorem blind_mapLoop (b : Bmp) (base : Option Str) (w h p : Int) (f : Nat) (l t c n : Int) : Blind z (mapLoop k b base w h p f l t c n) := by
  induction f generalizing l t c n with
  | zero => unfold mapLoop; blind
  | succ f ih => unfold mapLoop; blind; all_goals exact ih _ _ _ _

theorem blind_bitmapMap (b : Bmp) (base : Option Str) (p : Int) (r : DRef) (c : Str) : Blind z (bitmapMap k b base p r c) := by
  unfold bitmapMap; blind

theorem blind_bitmapSingle (b : Bmp) (base : Option Str) (m : Int) : Blind z (bitmapSingle k b base m) := by
  unfold bitmapSingle; blind

theorem blind_handleBitmap (l : List Nat) : Blind z (handleBitmap k l) := by
  unfold handleBitmap; blind


/-! ### main.cpp and export.cpp -/

omit hk in
theorem blind_bufAt (b : List Nat) (i : Nat) : Blind z (bufAt b i) := by
  unfold bufAt; blind

omit hk in
theorem blind_findFieldLoop (h : Nat → Bool) (b : List Nat) (f p : Nat) : Blind z (findFieldLoop h b f p) := by
  induction f generalizing p with
  | zero => unfold findFieldLoop; blind
  | succ f ih => unfold findFieldLoop; blind; all_goals exact ih _

omit hk in
theorem blind_findField (n : Nat) (b : List Nat) : Blind z (findField n b) := by
  unfold findField; blind

omit hk in
theorem blind_findFieldFlex (n : Nat) (b : List Nat) : Blind z (findFieldFlex n b) := by
  unfold findFieldFlex; blind

omit hk in
theorem blind_patchApp (b : List Nat) : Blind z (patchApp b) := by
  unfold patchApp; blind

omit hk in
theorem blind_makeApp (md5 : List Nat → List Nat) (b : List Nat) : Blind z (makeApp md5 b) := by
  unfold makeApp; blind

omit hk in
theorem blind_warnN (n : Nat) : Blind z (warnN n) := by
  induction n with
  | zero => unfold warnN; blind
  | succ n ih => unfold warnN; blind

omit hk in
theorem blind_makePrgm (c : Calc) (p : Str) (o : Nat → Nat) (b : List Nat) : Blind z (makePrgm c p o b) := by
  unfold makePrgm; blind

theorem blind_symDefines (d : List Str) (a : List (Str × Int)) : Blind z (symDefines k d a) := by
  fun_induction symDefines k d a <;> blind
  all_goals solve_by_elim

theorem blind_writeLabels (f : Str) : Blind z (writeLabels k f) := by
  unfold writeLabels; blind

theorem blind_runExpr (e : PExpr) : Blind z (runExpr k e) := by
  unfold runExpr; blind

theorem blind_runExprs (l : List PExpr) : Blind z (runExprs k l) := by
  induction l with
  | nil => unfold runExprs; blind
  | cons e l ih => unfold runExprs; blind

theorem blind_runSecondPass : Blind z (runSecondPass k) := by
  unfold runSecondPass; blind

theorem blind_passTwo : Blind z (passTwo k) := by
  unfold passTwo; blind

theorem blind_passOne (cwd text : Str) : Blind z (passOne k cwd text) := by
  unfold passOne; blind

omit hk in
theorem blind_writeFile (md5 : List Nat → List Nat) (name : Str) : Blind z (writeFile md5 name) := by
  unfold writeFile; blind

omit hk in
theorem blind_outputFile (md5 : List Nat → List Nat) (name : Str) : Blind z (outputFile md5 name) := by
  unfold outputFile; blind

theorem blind_labelFile (f : Str) : Blind z (labelFile k f) := by
  unfold labelFile; blind

omit hk in
/-- No function looks at them. -/
theorem blind_knot (n : Nat) : RecBlind z (knot n) := by
  induction n with
  | zero => constructor <;> (intros; exact Blind.halt _)
  | succ n ih =>
    exact {
      numFull := blind_numFullBody ih
      expandFull := blind_expandFullBody ih
      handlePreop := blind_handlePreopBody ih (blind_handleBitmap ih)
      preopIf := blind_preopIfBody ih
      lineSec := blind_lineSecBody ih
      emitString := blind_emitStringBody ih }

end Spasm

/-! ### Command line -/

namespace Spasm

theorem blind_builtin (n c : Str) (a : List Str) : Blind z (builtin n c a) := by
  unfold builtin; blind

theorem blind_initStorage : Blind z initStorage := by
  unfold initStorage; blind

theorem blind_ensureStorage (o : Opts) : Blind z (ensureStorage o) := by
  unfold ensureStorage; blind

theorem blind_optDefine (n : Nat) (o : Opts) (s : Str) : Blind z (optDefine (knot n) o s) := by
  have hk := blind_knot (z := z) n
  unfold optDefine; blind

theorem blind_optLine (o : Opts) (s : Str) : Blind z (optLine o s) := by
  unfold optLine; blind

theorem blind_optFile (o : Opts) (s : Str) : Blind z (optFile o s) := by
  unfold optFile; blind

theorem modeOption_veil (c : Nat) (m : Mode) :
    modeOption c (veilMode z m) = (modeOption c m).map (veilMode z) := by
  unfold modeOption
  cases z <;>
  repeat' (first | rfl | split)

theorem blind_optLoop (n : Nat) (l : List Str) (o : Opts) : Blind z (optLoop (knot n) l o) := by
  have hk := blind_knot (z := z) n
  suffices h : ∀ m, ∀ l : List Str, l.length ≤ m → ∀ o, Blind z (optLoop (knot n) l o) from h _ l (Nat.le_refl _) o
  intro m
  induction m with
  | zero =>
    intro l hl o
    cases l with
    | nil => unfold optLoop; exact .pure _
    | cons a as => simp at hl
  | succ m ih =>
    intro l hl o
    cases l with
    | nil => unfold optLoop; exact .pure _
    | cons a as =>
      have h1 : ∀ o, Blind z (optLoop (knot n) as o) := ih as (by simpa using hl)
      have h2 : ∀ d as', as = d :: as' → ∀ o, Blind z (optLoop (knot n) as' o) := by
        rintro d as' rfl
        exact ih as' (by simp at hl; omega)
      unfold optLoop
      split
      · blind; all_goals exact h1 _
      · dsimp only
        refine ⟨fun s => ?_⟩
        rw [M.get_bind, M.get_bind, show (veil z s).mode = veilMode z s.mode from rfl, modeOption_veil]
        cases modeOption (hd a.tail) s.mode with
        | some md =>
          dsimp only [Option.map_some]
          rw [M.modify_bind, M.modify_bind]
          exact (h1 o).run { s with mode := md, opcodes := if hd a.tail == 69 then ez80Table else s.opcodes }
        | none =>
          dsimp only [Option.map_none]
          refine Blind.run ?_ s
          cases as with
          | nil => dsimp only; blind; all_goals exact h1 _
          | cons d as' =>
            have h3 := h2 d as' rfl
            dsimp only; blind
            all_goals first | exact h1 _ | exact h3 _ | exact .halt _

/-- The state that a run with -S ends in. -/
def counted (s : S) : S := { veil false s with log := if s.mode.stats then s.log else s.log ++ [.text (statsText s)] }

/-- With -S the assembly only shows the statistics in addition. -/
theorem runAssembly_veil (n : Nat) (md5 : List Nat → List Nat) (cwd : Str) (text : Option Str) (output : Str) (s : S)
    (hs : (if s.mode.commandline then text else (s.fs s.currFile).bind fileText) ≠ none) :
    runAssembly (knot n) md5 cwd text output (veil false s) = match runAssembly (knot n) md5 cwd text output s with
      | .ok c t => .ok c (counted t)
      | .stop e t => .stop e (veil false t) := by
  have hk := blind_knot (z := false) n
  have h6 : ∀ s : S, (if (resetGlobals s).mode.commandline then text else ((resetGlobals s).fs (resetGlobals s).currFile).bind fileText) =
      (if s.mode.commandline then text else (s.fs s.currFile).bind fileText) := fun _ => rfl
  have h7 : (if (veil false s).mode.commandline then text else ((veil false s).fs (veil false s).currFile).bind fileText) =
      (if s.mode.commandline then text else (s.fs s.currFile).bind fileText) := rfl
  unfold runAssembly
  rw [M.modify_bind, M.modify_bind, M.get_bind, M.get_bind]
  dsimp only
  rw [h6, h6, h7]
  cases hx : (if s.mode.commandline then text else (s.fs s.currFile).bind fileText) with
  | none => exact absurd hx hs
  | some x =>
    dsimp only
    have hr : resetGlobals (veil false s) = veil false (resetGlobals s) := rfl
    rw [hr, M.bind_apply, M.bind_apply, (blind_passOne hk cwd x).run]
    cases passOne (knot n) cwd x (resetGlobals s) with
    | stop e t => rfl
    | ok a t =>
      dsimp only [Res.onState]
      rw [M.get_bind, M.get_bind]
      have last : ∀ m : M Unit, Blind false m → (do m; printStats; let s ← M.get; pure s.exitCode : M Nat) (veil false t) =
          match (do m; printStats; let s ← M.get; pure s.exitCode : M Nat) t with
          | .ok c t => .ok c (counted t)
          | .stop e t => .stop e (veil false t) := by
        intro m hm
        rw [M.bind_apply, M.bind_apply, hm.run]
        cases m t with
        | stop e u => rfl
        | ok _ u =>
          dsimp only [Res.onState]
          show Res.ok u.exitCode _ = Res.ok u.exitCode _
          congr 1
          unfold counted veil veilMode
          cases hm : u.mode.stats <;> simp [hm, statsText, fmtUnsigned, counterText]
      have hm : ((veil false t).mode.symtable || (veil false t).mode.normal || (veil false t).mode.list) = (t.mode.symtable || t.mode.normal || t.mode.list) := rfl
      rw [hm, show (veil false t).mode.symtable = t.mode.symtable from rfl, show (veil false t).mode.normal = t.mode.normal from rfl]
      split
      · have := last (do passTwo (knot n); M.when t.mode.symtable (labelFile (knot n) output); M.when t.mode.normal (outputFile md5 output))
          (by blind)
        simpa only [M.bind_assoc] using this
      · exact last (pure ()) (.pure _)

/-- No source: -S makes no difference. -/
theorem runAssembly_unopened (k : Rec) (md5 : List Nat → List Nat) (cwd : Str) (text : Option Str) (output : Str) (s : S)
    (hs : (if s.mode.commandline then text else (s.fs s.currFile).bind fileText) = none) :
    runAssembly k md5 cwd text output (veil false s) = (runAssembly k md5 cwd text output s).onState (veil false) := by
  have h6 : ∀ s : S, (if (resetGlobals s).mode.commandline then text else ((resetGlobals s).fs (resetGlobals s).currFile).bind fileText) =
      (if s.mode.commandline then text else (s.fs s.currFile).bind fileText) := fun _ => rfl
  have h7 : (if (veil false s).mode.commandline then text else ((veil false s).fs (veil false s).currFile).bind fileText) =
      (if s.mode.commandline then text else (s.fs s.currFile).bind fileText) := rfl
  unfold runAssembly
  rw [M.modify_bind, M.modify_bind, M.get_bind, M.get_bind]
  dsimp only
  rw [h6, h6, h7, hs]
  rfl

/-- Two results that differ at most in the statistics at the end of the second one. -/
def Beside (r r' : Res Nat) : Prop :=
  (∃ e t, r = .stop e t ∧ r' = .stop e (veil false t)) ∨ ∃ c t, r = .ok c t ∧ (r' = .ok c (veil false t) ∨ r' = .ok c (counted t))

theorem beside_runAssembly (n : Nat) (md5 : List Nat → List Nat) (cwd : Str) (text : Option Str) (output : Str) (s : S) :
    Beside (runAssembly (knot n) md5 cwd text output s) (runAssembly (knot n) md5 cwd text output (veil false s)) := by
  by_cases hs : (if s.mode.commandline then text else (s.fs s.currFile).bind fileText) = none
  · rw [runAssembly_unopened _ _ _ _ _ _ hs]
    cases h : runAssembly (knot n) md5 cwd text output s with
    | stop e t => exact .inl ⟨e, t, rfl, rfl⟩
    | ok c t => exact .inr ⟨c, t, rfl, .inl rfl⟩
  · rw [runAssembly_veil _ _ _ _ _ _ hs]
    cases h : runAssembly (knot n) md5 cwd text output s with
    | stop e t => exact .inl ⟨e, t, rfl, rfl⟩
    | ok c t => exact .inr ⟨c, t, rfl, .inr rfl⟩

theorem beside_bind {α : Type} {m : M α} {f : α → M Nat} {s : S} (h : Blind false m) (h' : ∀ a t, Beside (f a t) (f a (veil false t))) :
    Beside ((m >>= f) s) ((m >>= f) (veil false s)) := by
  rw [M.bind_apply, M.bind_apply, h.run]
  cases m s with
  | stop e t => exact .inl ⟨e, t, rfl, rfl⟩
  | ok a t => exact h' a t

theorem beside_mainBody (n : Nat) (md5 : List Nat → List Nat) (cwd : Str) (args : List Str) (h : args ≠ []) (s : S) :
    Beside (mainBody (knot n) md5 cwd args s) (mainBody (knot n) md5 cwd (b! "-S" :: args) s) := by
  have hk := blind_knot (z := false) n
  unfold mainBody
  have e1 : args.isEmpty = false := by cases args with
    | nil => exact absurd rfl h
    | cons _ _ => rfl
  rw [e1, show (b! "-S" :: args).isEmpty = false from rfl]
  simp only [Bool.false_eq_true, if_false]
  rw [M.modify_bind, M.modify_bind]
  rw [show optLoop (knot n) (b! "-S" :: args) {} = (do M.modify (veil false); optLoop (knot n) args {} : M Opts) from by
    conv_lhs => unfold optLoop
    rfl]
  rw [M.bind_assoc, M.modify_bind]
  refine beside_bind (blind_optLoop n args {}) fun o t => ?_
  rw [M.modify_bind, M.modify_bind]
  cases o.input with
  | none => exact .inr ⟨3, _, rfl, .inl rfl⟩
  | some input =>
    dsimp only
    refine beside_bind (s := { t with caseSens := o.caseSens }) (blind_ensureStorage o) fun _ u => ?_
    refine beside_bind blind_clearSessions fun _ u => ?_
    exact beside_runAssembly n md5 cwd o.contents _ u

end Spasm
