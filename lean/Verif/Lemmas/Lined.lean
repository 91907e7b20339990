import Verif.Lemmas.M
import Verif.Lemmas.Auto
import Verif.Model.Main

/-
Evaluating an expression that returns leaves the current line number as it was.
-/

namespace Spasm

/-- A piece of the program that keeps the line number when it returns. -/
structure Lined {α : Type} (m : M α) : Prop where
  line : ∀ s a s', m s = .ok a s' → s'.lineNum = s.lineNum

namespace Lined
variable {α β : Type}

theorem pure (a : α) : Lined (Pure.pure a : M α) := ⟨fun s a s' h => by cases h; rfl⟩
theorem pure' (a : α) : Lined (M.pure' a : M α) := pure a
theorem halt (e : Stop) : Lined (M.halt e : M α) := ⟨fun s a s' h => by cases h⟩
theorem ub (u : UB) : Lined (M.ub u : M α) := halt _
theorem get : Lined M.get := ⟨fun s a s' h => by cases h; rfl⟩

theorem bind {m : M α} {f : α → M β} (h : Lined m) (h' : ∀ a, Lined (f a)) : Lined (m >>= f) := by
  constructor
  intro s b s'' e
  obtain ⟨a, s', e1, e2⟩ := M.bind_eq_ok.mp e
  exact ((h' a).line _ _ _ e2).trans (h.line _ _ _ e1)

theorem when {c : Bool} {m : M Unit} (h : Lined m) : Lined (M.when c m) := by
  cases c
  · exact Lined.pure ()
  · exact h

theorem modify {f : S → S} (h : ∀ s, (f s).lineNum = s.lineNum) : Lined (M.modify f) :=
  ⟨fun s a s' e => by cases e; exact h s⟩

end Lined

theorem lined_pure {α : Type} (a : α) : Lined (pure a : M α) := Lined.pure a
theorem lined_pure' {α : Type} (a : α) : Lined (M.pure' a : M α) := Lined.pure' a
theorem lined_halt {α : Type} (e : Stop) : Lined (M.halt e : M α) := Lined.halt e
theorem lined_ub {α : Type} (u : UB) : Lined (M.ub u : M α) := Lined.ub u
theorem lined_get : Lined M.get := Lined.get

/-- Compositional proof of `Lined`. -/
macro "lined" : tactic => `(tactic|
  repeat' (first
    | with_reducible apply Lined.bind
    | with_reducible apply Lined.when
    | intro _
    | with_reducible assumption
    | with_reducible dispatch "lined_"
    | (with_reducible apply Lined.modify) <;> (intro _; with_reducible rfl)
    | split
    | dsimp only))

/-! ### errors.cpp, scanners and storage -/

theorem lined_startSession : Lined startSession := ⟨fun s a s' e => by cases e; rfl⟩

theorem lined_replaySession (n : Int) (b : Bool) : Lined (replaySession n b) := by
  constructor
  intro s a s' e
  unfold replaySession at e
  split at e <;> cases e <;> rfl

theorem lined_endSession (n : Int) : Lined (endSession n) := by
  constructor
  intro s a s' e
  unfold endSession at e
  dsimp only at e
  split at e <;> cases e
  rfl

theorem lined_setProblem (c : Nat) (w : Bool) : Lined (setProblem c w) := by
  constructor
  intro s a s' e
  unfold setProblem at e
  split at e <;> cases e <;> rfl

theorem lined_setError (c : Nat) : Lined (setError c) := lined_setProblem c false
theorem lined_setWarning (c : Nat) : Lined (setWarning c) := lined_setProblem c true
theorem lined_annotate (n : Int) : Lined (annotate n) := Lined.pure ()
theorem lined_showError (m : Msg) : Lined (showError m) := by unfold showError; lined
theorem lined_showFatal (m : Msg) : Lined (showFatal m) := by unfold showFatal; lined
theorem lined_showWarning (m : Msg) : Lined (showWarning m) := by unfold showWarning; lined

theorem lined_readExpr (d s : Str) (b : Bool) : Lined (readExpr d s b) := by
  constructor
  intro st a st' e
  unfold readExpr at e
  dsimp only at e
  split at e
  · cases e; rfl
  · split at e <;> cases e <;> rfl

theorem lined_extractArg (e : Bool) (s : Str) : Lined (extractArg e s) := by
  unfold extractArg; lined

theorem lined_searchDefines (n : Str) (l : Bool) : Lined (searchDefines n l) := by
  constructor
  intro s a s' e
  unfold searchDefines at e
  dsimp only at e
  split at e
  · cases e; rfl
  · split at e
    · cases e; rfl
    · cases e
      unfold writeDef; split <;> rfl

theorem lined_searchReusables (i : Int) : Lined (searchReusables i) := by
  constructor
  intro s a s' e
  unfold searchReusables at e
  split at e
  · cases e; rfl
  · split at e <;> cases e
    rfl

theorem lined_addArgSet : Lined addArgSet := by unfold addArgSet; lined
theorem lined_addArg (n : Str) (v : Option Str) : Lined (addArg n v) := by unfold addArg; lined
theorem lined_removeArgSet (b : Bool) : Lined (removeArgSet b) := by unfold removeArgSet; lined

/-! ### The functions that call back -/

structure RecLined (k : Rec) : Prop where
  numFull : ∀ s d, Lined (k.numFull s d)
  expandFull : ∀ s d l, Lined (k.expandFull s d l)

theorem lined_numFull {k : Rec} (hk : RecLined k) (s : Str) (d : Int) : Lined (k.numFull s d) := hk.numFull s d
theorem lined_expandFull {k : Rec} (hk : RecLined k) (s : Str) (d : Nat) (l : Bool) : Lined (k.expandFull s d l) :=
  hk.expandFull s d l

variable {k : Rec} (hk : RecLined k)
include hk

theorem lined_parseNum (s : Str) : Lined (parseNum k s) := by
  unfold parseNum; lined

theorem lined_parseF (s : Str) : Lined (parseF k s) := by
  unfold parseF; lined

theorem lined_expandExpr (s : Str) (l : Bool) : Lined (expandExpr k s l) := hk.expandFull s 0 l

theorem lined_evalStr (s : Str) : Lined (evalStr k s) := by
  unfold evalStr; lined

theorem lined_reduceLoop (s out : Str) (q : Nat) : Lined (reduceLoop k s out q) := by
  fun_induction reduceLoop k s out q <;> lined
  all_goals solve_by_elim

theorem lined_reduceString (s : Str) : Lined (reduceString k s) := by
  unfold reduceString; lined

theorem lined_argLoop (f : Nat) (e : Bool) (ps : List Str) (s : Str) : Lined (argLoop k f e ps s) := by
  induction f generalizing e ps s with
  | zero => unfold argLoop; lined
  | succ f ih => unfold argLoop; lined; all_goals exact ih _ _ _

omit hk in
theorem lined_fillArgs (ps : List Str) : Lined (fillArgs ps) := by
  induction ps with
  | nil => unfold fillArgs; lined
  | cons p ps ih => unfold fillArgs; lined

theorem lined_parseArgs (s : Str) (d : Define) : Lined (parseArgs k s d) := by
  unfold parseArgs; lined

omit hk in
theorem lined_parsePlus (s : Str) : Lined (parsePlus s) := by
  unfold parsePlus; lined

omit hk in
theorem lined_parseMinus (s : Str) : Lined (parseMinus s) := by
  unfold parseMinus; lined

omit hk in
theorem lined_randByte : Lined randByte := ⟨fun s a s' e => by cases e; rfl⟩

omit hk in
theorem lined_escapeVal (c : Nat) : Lined (escapeVal c) := by
  unfold escapeVal; lined

omit hk in
theorem lined_closeQuote (s : Str) (v : Int) : Lined (closeQuote s v) := by
  unfold closeQuote; lined

omit hk in
theorem lined_parseChar (s : Str) : Lined (parseChar s) := by
  unfold parseChar; lined

theorem lined_parseGetc (s : Str) : Lined (parseGetc k s) := by
  unfold parseGetc; lined

/-- The line number is saved before the contents of the define are evaluated and restored after. -/
theorem lined_parseMacro (d : Define) (s : Str) : Lined (parseMacro k d s) := by
  unfold parseMacro
  refine Lined.bind (lined_parseArgs hk s d) fun p => ?_
  constructor
  intro s0 a s' e
  dsimp only at e
  rw [M.get_bind] at e
  obtain ⟨_, s1, e1, e⟩ := M.bind_eq_ok.mp e
  obtain ⟨sess, s2, e2, e⟩ := M.bind_eq_ok.mp e
  obtain ⟨r, s3, e3, e⟩ := M.bind_eq_ok.mp e
  have tail : ∀ (v : Option (Str × Int)) s4, (do
      M.modify fun st => { st with lineNum := s0.lineNum }
      let st ← M.get
      let bad := sessionCount sess st > 0
      M.when bad (do annotate sess; replaySession sess)
      endSession sess
      removeArgSet p.2
      if bad then pure none
      else
        match v with
        | some (_, v) => pure (some (p.1, v))
        | none => M.ub .uninitialised : M (Option (Str × Int))) s4 = .ok a s' → s'.lineNum = s0.lineNum := by
    intro v s4 e4
    rw [M.modify_bind, M.get_bind] at e4
    have h5 := Lined.line (m := _) (by lined) _ _ _ e4
    exact h5
  cases r with
  | none =>
    obtain ⟨_, s4, _, e⟩ := M.bind_eq_ok.mp e
    exact tail none s4 e
  | some c =>
    obtain ⟨v, s4, _, e⟩ := M.bind_eq_ok.mp e
    exact tail v s4 e

theorem lined_parseName (s : Str) : Lined (parseName k s) := by
  unfold parseName; lined

omit hk in
theorem lined_convGeneric (b e : Nat) (s : Str) (n : Nat) : Lined (convGeneric b e s n) := by
  unfold convGeneric; lined

omit hk in
theorem lined_convHex (s : Str) (n : Nat) : Lined (convHex s n) := by
  unfold convHex; lined

omit hk in
theorem lined_convDec (s : Str) (n : Nat) : Lined (convDec s n) := by
  unfold convDec; lined

omit hk in
theorem lined_convBin (s : Str) (n : Nat) : Lined (convBin s n) := by
  unfold convBin; lined

omit hk in
theorem lined_parseDigits (s : Str) : Lined (parseDigits s) := by
  unfold parseDigits; lined

theorem lined_parseSingle (s : Str) : Lined (parseSingle k s) := by
  unfold parseSingle; lined

omit hk in
theorem lined_getOp (d : Int) (f : Nat) (s : Str) : Lined (getOp d f s) := by
  induction f generalizing s with
  | zero => unfold getOp; lined
  | succ f ih => unfold getOp; lined; all_goals exact ih _

theorem lined_numLoop (d : Int) (f : Nat) (t : Int) (o : Option Op) (s : Str) : Lined (numLoop k d f t o s) := by
  induction f generalizing t o s with
  | zero => unfold numLoop; lined
  | succ f ih => unfold numLoop; lined; all_goals exact ih _ _ _

theorem lined_numFullBody (s : Str) (d : Int) : Lined (numFullBody k s d) := by
  unfold numFullBody; lined

theorem lined_expandLoop (d : Nat) (l : Bool) (f : Nat) (s o : Str) : Lined (expandLoop k d l f s o) := by
  induction f generalizing s o with
  | zero => unfold expandLoop; lined
  | succ f ih => unfold expandLoop; lined; all_goals exact ih _ _

theorem lined_expandFullBody (s : Str) (d : Nat) (l : Bool) : Lined (expandFullBody k s d l) := by
  unfold expandFullBody; lined

omit hk in
/-- Every evaluation, at every recursion budget. -/
theorem lined_knot (n : Nat) : RecLined (knot n) := by
  induction n with
  | zero => exact ⟨fun _ _ => .halt _, fun _ _ _ => .halt _⟩
  | succ n ih => exact ⟨lined_numFullBody ih, lined_expandFullBody ih⟩

end Spasm
