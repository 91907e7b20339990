import Verif.Model.Main
import Verif.Model.Knot
import Verif.Lemmas.M
import Verif.Lemmas.Auto

/-
Runs that start with different contents of the output buffer and different random numbers.
-/

namespace Spasm

/-- The state with another output buffer and other random numbers. -/
def swap (μ ρ : Nat → Nat) (s : S) : S := { s with mem := μ, rand := ρ }

/-- The result with another final state. -/
def Res.onState {α : Type} (f : S → S) : Res α → Res α
  | .ok a s => .ok a (f s)
  | .stop e s => .stop e (f s)

/-- Between the states `s` and `t` of one run, in which another run has the buffers `μ` and `ν`: each byte was either
written by neither run or is now the same in both. -/
def SameOut (s t : S) (μ ν : Nat → Nat) : Prop := ∀ i, (t.mem i = s.mem i ∧ ν i = μ i) ∨ t.mem i = ν i

theorem SameOut.refl (s : S) (μ : Nat → Nat) : SameOut s s μ μ := fun _ => .inl ⟨rfl, rfl⟩

theorem SameOut.trans {s t u : S} {μ ν ξ : Nat → Nat} (h : SameOut s t μ ν) (h' : SameOut t u ν ξ) : SameOut s u μ ξ := by
  intro i
  rcases h' i with ⟨a, b⟩ | a
  · rcases h i with ⟨c, d⟩ | c
    · exact .inl ⟨a.trans c, b.trans d⟩
    · exact .inr (by rw [a, c, b])
  · exact .inr a

theorem SameOut.agree {s t : S} {μ ν : Nat → Nat} (h : SameOut s t μ ν) {i : Nat} (hi : s.mem i = μ i) : t.mem i = ν i := by
  rcases h i with ⟨a, b⟩ | a
  · rw [a, hi, b]
  · exact a

/-- The output produced so far does not depend on the buffer. -/
def Agree (s : S) (μ : Nat → Nat) : Prop := ∀ i, i < s.outPtr.toNat → s.mem i = μ i

/-- A piece of the program that does not look at the output buffer, and at random numbers only by drawing them. -/
structure Ind {α : Type} (m : M α) : Prop where
  pos : ∀ s, s.randPos ≤ (m s).state.randPos
  sought : ∀ s, (m s).state.sought = false → s.sought = false
  run : ∀ s μ ρ, (m s).state.randPos = s.randPos → ∃ ν, m (swap μ ρ s) = (m s).onState (swap ν ρ) ∧ SameOut s (m s).state μ ν ∧
    ∀ a t, m s = .ok a t → t.sought = false → Agree s μ → Agree t ν

/-- A piece of the program that has nothing to do with them. -/
structure Steady {α : Type} (m : M α) : Prop where
  run : ∀ s μ ρ, m (swap μ ρ s) = (m s).onState (swap μ ρ)
  mem : ∀ s, (m s).state.mem = s.mem
  out : ∀ s, (m s).state.outPtr = s.outPtr
  pos : ∀ s, (m s).state.randPos = s.randPos
  sought : ∀ s, (m s).state.sought = s.sought

theorem Steady.ind {α : Type} {m : M α} (h : Steady m) : Ind m where
  pos s := by rw [h.pos]
  sought s := by rw [h.sought]; exact id
  run s μ ρ _ := ⟨μ, h.run s μ ρ, fun i => .inl ⟨by rw [h.mem], rfl⟩, fun a t e _ ha i hi => by
    have h1 := h.mem s
    have h2 := h.out s
    rw [e] at h1 h2
    show t.mem i = _
    rw [show t.mem = _ from h1]
    rw [show t.outPtr = _ from h2] at hi
    exact ha i hi⟩

namespace Ind
variable {α β : Type}

theorem pure (a : α) : Ind (Pure.pure a : M α) := Steady.ind ⟨fun _ _ _ => rfl, fun _ => rfl, fun _ => rfl, fun _ => rfl, fun _ => rfl⟩
theorem pure' (a : α) : Ind (M.pure' a : M α) := pure a
theorem halt (e : Stop) : Ind (M.halt e : M α) := Steady.ind ⟨fun _ _ _ => rfl, fun _ => rfl, fun _ => rfl, fun _ => rfl, fun _ => rfl⟩
theorem ub (u : UB) : Ind (M.ub u : M α) := halt _

theorem bind {m : M α} {f : α → M β} (h : Ind m) (h' : ∀ a, Ind (f a)) : Ind (m >>= f) where
  pos s := by
    have h1 := h.pos s
    rw [M.bind_apply]
    cases hm : m s with
    | ok a t => rw [hm] at h1; exact Nat.le_trans h1 ((h' a).pos t)
    | stop e t => rw [hm] at h1; exact h1
  sought s := by
    have h1 := h.sought s
    rw [M.bind_apply]
    cases hm : m s with
    | ok a t => rw [hm] at h1; exact fun hx => h1 ((h' a).sought t hx)
    | stop e t => rw [hm] at h1; exact h1
  run s μ ρ := by
    have h1 := h.pos s
    have hr := h.run s μ ρ
    rw [M.bind_apply, M.bind_apply]
    cases hm : m s with
    | stop e t =>
      rw [hm] at hr
      intro hp
      obtain ⟨ν, e1, e2, e3⟩ := hr hp
      rw [e1]
      exact ⟨ν, rfl, e2, fun _ _ h => by cases h⟩
    | ok a t =>
      rw [hm] at hr h1
      intro hp
      have h2 := (h' a).pos t
      have h1 : s.randPos ≤ t.randPos := h1
      have hp : (f a t).state.randPos = s.randPos := hp
      obtain ⟨ν, e1, e2, e3⟩ := hr (show t.randPos = _ by omega)
      obtain ⟨ξ, f1, f2, f3⟩ := (h' a).run t ν ρ (by omega)
      rw [e1]
      refine ⟨ξ, f1, e2.trans f2, fun b u hu hx ha => f3 b u hu hx (e3 a t rfl ((h' a).sought t ?_) ha)⟩
      rw [show f a t = _ from hu]
      exact hx

theorem get_bind {f : S → M β} (h : ∀ s, Ind (f s)) (hf : ∀ s μ ρ, f (swap μ ρ s) = f s) : Ind (M.get >>= f) where
  pos s := (h s).pos s
  sought s := (h s).sought s
  run s μ ρ hp := by
    have := (h s).run s μ ρ hp
    rw [M.get_bind, M.get_bind, hf]
    exact this

theorem when {c : Bool} {m : M Unit} (h : Ind m) : Ind (M.when c m) := by
  cases c
  · exact Ind.pure ()
  · exact h

theorem modify {f : S → S} (hf : ∀ s μ ρ, f (swap μ ρ s) = swap μ ρ (f s)) (hm : ∀ s, (f s).mem = s.mem)
    (ho : ∀ s, (f s).outPtr = s.outPtr) (hp : ∀ s, (f s).randPos = s.randPos) (hs : ∀ s, (f s).sought = s.sought) :
    Ind (M.modify f) :=
  Steady.ind ⟨fun s μ ρ => by show Res.ok _ _ = Res.ok _ _; rw [hf], hm, ho, hp, hs⟩

theorem congr {m m' : M α} (h : Ind m) (e : m = m') : Ind m' := e ▸ h

end Ind

theorem ind_pure {α : Type} (a : α) : Ind (pure a : M α) := Ind.pure a
theorem ind_pure' {α : Type} (a : α) : Ind (M.pure' a : M α) := Ind.pure' a
theorem ind_halt {α : Type} (e : Stop) : Ind (M.halt e : M α) := Ind.halt e
theorem ind_ub {α : Type} (u : UB) : Ind (M.ub u : M α) := Ind.ub u

theorem ind_writeDef (r : DRef) (f : Define → Define) : Ind (M.modify (writeDef r f)) := by
  cases r <;> exact .modify (fun _ _ _ => rfl) (fun _ => rfl) (fun _ => rfl) (fun _ => rfl) (fun _ => rfl)

/-- Compositional proof of `Ind`. -/
macro "ind" : tactic => `(tactic|
  repeat' (first
    | ((with_reducible refine Ind.get_bind ?_ ?_); on_goal 2 => (intros; rfl))
    | with_reducible apply Ind.bind
    | with_reducible apply Ind.when
    | intro _
    | with_reducible apply ind_writeDef
    | with_reducible assumption
    | with_reducible dispatch "ind_"
    | ((with_reducible apply Ind.modify) <;> (intros; rfl))
    | split
    | dsimp only))

/-! ### errors.cpp -/

macro "steady" : tactic => `(tactic|
  (refine Steady.ind ⟨?_, ?_, ?_, ?_, ?_⟩))

theorem ind_startSession : Ind startSession := by steady <;> (intros; rfl)

theorem ind_replaySession (n : Int) (b : Bool) : Ind (replaySession n b) := by
  steady <;> (intros; unfold replaySession; split <;> rfl)

theorem ind_replayFatal (n : Int) : Ind (replayFatal n) := ind_replaySession n true

theorem ind_endSession (n : Int) : Ind (endSession n) := by
  steady
  · intro s μ ρ
    have e : (swap μ ρ s).errors = s.errors := rfl
    unfold endSession
    dsimp only
    rw [e]
    split <;> rfl
  all_goals (intros; unfold endSession; dsimp only; split <;> rfl)

theorem ind_clearSessions : Ind clearSessions := by steady <;> (intros; rfl)

theorem ind_setProblem (c : Nat) (w : Bool) : Ind (setProblem c w) := by
  steady <;> (intros; unfold setProblem; split <;> rfl)

theorem ind_setError (c : Nat) : Ind (setError c) := ind_setProblem c false
theorem ind_setWarning (c : Nat) : Ind (setWarning c) := ind_setProblem c true
theorem ind_annotate (n : Int) : Ind (annotate n) := Ind.pure ()
theorem ind_showError (m : Msg) : Ind (showError m) := by steady <;> (intros; rfl)
theorem ind_showFatal (m : Msg) : Ind (showFatal m) := by steady <;> (intros; rfl)
theorem ind_showWarning (m : Msg) : Ind (showWarning m) := by steady <;> (intros; rfl)

/-! ### Scanners and storage -/

theorem ind_readExpr (d s : Str) (b : Bool) : Ind (readExpr d s b) := by
  steady <;>
    (intros
     unfold readExpr
     dsimp only
     split
     · rfl
     · cases readLoop b d (3 * (skipWs s).length + 3) { con := [], rest := skipWs s } <;> rfl)

theorem ind_extractArg (e : Bool) (s : Str) : Ind (extractArg e s) := by
  unfold extractArg; ind

theorem ind_searchDefines (n : Str) (l : Bool) : Ind (searchDefines n l) := by
  have key : ∀ s, searchDefines n l s = match (if l then findArg (keyOf s n) s.argSets 0 else none).or
      ((s.defines.lookup (keyOf s n)).map fun d => (DRef.glob (keyOf s n), d)) with
    | none => .ok none s
    | some (r, d) => match refreshed (keyOf s n) s with
      | none => .ok (some (r, d)) s
      | some c => .ok (some (r, { d with contents := some c })) (writeDef r (fun d => { d with contents := some c }) s) := by
    intro s
    unfold searchDefines
    dsimp only
    cases (if l then findArg (keyOf s n) s.argSets 0 else none) with
    | some p => rfl
    | none => cases (s.defines.lookup (keyOf s n)) <;> rfl
  steady
  · intro s μ ρ
    rw [key, key]
    have e1 : (swap μ ρ s).argSets = s.argSets := rfl
    have e2 : (swap μ ρ s).defines = s.defines := rfl
    have e3 : keyOf (swap μ ρ s) n = keyOf s n := rfl
    have e4 : ∀ k, refreshed k (swap μ ρ s) = refreshed k s := fun _ => rfl
    rw [e1, e2, e3, e4]
    split
    · rfl
    · rename_i r d _
      split
      · rfl
      · cases r <;> rfl
  all_goals
    intro s
    rw [key]
    split
    · rfl
    · rename_i r d _
      split
      · rfl
      · cases r <;> rfl

theorem ind_addDefine (n : Str) (l : Bool) : Ind (addDefine n l) := by
  unfold addDefine; ind

theorem ind_removeDefine (n : Str) : Ind (removeDefine n) := by
  unfold removeDefine; ind

theorem ind_addReusable : Ind addReusable := by
  have key : ∀ s, addReusable s = if s.currReusable < 0 ∨ s.currReusable ≥ 4096 then .stop (.ub .outOfBounds) s
      else .ok () { s with reusables := fun i => if i = s.currReusable then s.pc else s.reusables i, currReusable := s.currReusable + 1, totalReusables := s.currReusable + 1 } :=
    fun _ => rfl
  refine Steady.ind ⟨fun s μ ρ => ?_, fun s => ?_, fun s => ?_, fun s => ?_, fun s => ?_⟩
  · by_cases h : s.currReusable < 0 ∨ s.currReusable ≥ 4096
    · rw [key, key, if_pos h, if_pos (show (swap μ ρ s).currReusable < 0 ∨ (swap μ ρ s).currReusable ≥ 4096 from h)]; rfl
    · rw [key, key, if_neg h, if_neg (show ¬ ((swap μ ρ s).currReusable < 0 ∨ (swap μ ρ s).currReusable ≥ 4096) from h)]; rfl
  all_goals (rw [key]; split <;> rfl)

theorem ind_setCurrReusable (i : Int) : Ind (setCurrReusable i) := by
  unfold setCurrReusable; ind

theorem ind_searchReusables (i : Int) : Ind (searchReusables i) := by
  refine Steady.ind ⟨fun s μ ρ => ?_, fun s => ?_, fun s => ?_, fun s => ?_, fun s => ?_⟩
  · unfold searchReusables
    by_cases h : i = -1 ∨ i ≥ s.totalReusables
    · rw [if_pos h, if_pos (show i = -1 ∨ i ≥ (swap μ ρ s).totalReusables from h)]; rfl
    · rw [if_neg h, if_neg (show ¬ (i = -1 ∨ i ≥ (swap μ ρ s).totalReusables) from h)]
      split <;> rfl
  all_goals
    unfold searchReusables
    by_cases h : i = -1 ∨ i ≥ s.totalReusables
    · rw [if_pos h]; rfl
    · rw [if_neg h]
      split <;> rfl

theorem ind_addArgSet : Ind addArgSet := by unfold addArgSet; ind
theorem ind_addArg (n : Str) (v : Option Str) : Ind (addArg n v) := by unfold addArg; ind
theorem ind_removeArgSet (b : Bool) : Ind (removeArgSet b) := by unfold removeArgSet; ind

theorem ind_addLabel (n : Str) (v : Int) : Ind (addLabel n v) := by
  unfold addLabel; ind

/-! ### The functions that call back -/

/-- The callbacks do not look at them. -/
structure RecInd (k : Rec) : Prop where
  numFull : ∀ s d, Ind (k.numFull s d)
  expandFull : ∀ s d l, Ind (k.expandFull s d l)
  handlePreop : ∀ s, Ind (k.handlePreop s)
  preopIf : ∀ s, Ind (k.preopIf s)
  lineSec : ∀ s, Ind (k.lineSec s)
  emitString : ∀ s e, Ind (k.emitString s e)

theorem ind_numFull {k : Rec} (hk : RecInd k) (s : Str) (d : Int) : Ind (k.numFull s d) := hk.numFull s d
theorem ind_expandFull {k : Rec} (hk : RecInd k) (s : Str) (d : Nat) (l : Bool) : Ind (k.expandFull s d l) :=
  hk.expandFull s d l
theorem ind_handlePreop {k : Rec} (hk : RecInd k) (s : Str) : Ind (k.handlePreop s) := hk.handlePreop s
theorem ind_preopIf {k : Rec} (hk : RecInd k) (s : Str) : Ind (k.preopIf s) := hk.preopIf s
theorem ind_lineSec {k : Rec} (hk : RecInd k) (s : Str) : Ind (k.lineSec s) := hk.lineSec s
theorem ind_emitString {k : Rec} (hk : RecInd k) (s : Str) (e : Es) : Ind (k.emitString s e) := hk.emitString s e

variable {k : Rec} (hk : RecInd k)
include hk

theorem ind_parseNum (s : Str) : Ind (parseNum k s) := by
  unfold parseNum; ind

theorem ind_parseF (s : Str) : Ind (parseF k s) := by
  unfold parseF; ind

theorem ind_expandExpr (s : Str) (l : Bool) : Ind (expandExpr k s l) := hk.expandFull s 0 l

theorem ind_evalStr (s : Str) : Ind (evalStr k s) := by
  unfold evalStr; ind

theorem ind_reduceLoop (s out : Str) (q : Nat) : Ind (reduceLoop k s out q) := by
  fun_induction reduceLoop k s out q <;> ind
  all_goals solve_by_elim

theorem ind_reduceString (s : Str) : Ind (reduceString k s) := by
  unfold reduceString; ind

theorem ind_argLoop (f : Nat) (e : Bool) (ps : List Str) (s : Str) : Ind (argLoop k f e ps s) := by
  induction f generalizing e ps s with
  | zero => unfold argLoop; ind
  | succ f ih => unfold argLoop; ind; all_goals exact ih _ _ _

omit hk in
theorem ind_fillArgs (ps : List Str) : Ind (fillArgs ps) := by
  induction ps with
  | nil => unfold fillArgs; ind
  | cons p ps ih => unfold fillArgs; ind

theorem ind_parseArgs (s : Str) (d : Define) : Ind (parseArgs k s d) := by
  unfold parseArgs; ind

theorem ind_parseDefineLoop (f : Nat) (s : Str) : Ind (parseDefineLoop k f s) := by
  induction f generalizing s with
  | zero => unfold parseDefineLoop; ind
  | succ f ih =>
    unfold parseDefineLoop; ind
    all_goals exact ih _

theorem ind_parseDefine (d : Define) : Ind (parseDefine k d) := by
  unfold parseDefine; ind

omit hk in
theorem ind_parsePlus (s : Str) : Ind (parsePlus s) := by
  unfold parsePlus; ind

omit hk in
theorem ind_parseMinus (s : Str) : Ind (parseMinus s) := by
  unfold parseMinus; ind

omit hk in
theorem ind_randByte : Ind randByte where
  pos s := Nat.le_succ _
  sought s := id
  run s μ ρ h := absurd h (by show s.randPos + 1 ≠ s.randPos; omega)

omit hk in
theorem ind_escapeVal (c : Nat) : Ind (escapeVal c) := by
  unfold escapeVal; ind

omit hk in
theorem ind_closeQuote (s : Str) (v : Int) : Ind (closeQuote s v) := by
  unfold closeQuote; ind

omit hk in
theorem ind_parseChar (s : Str) : Ind (parseChar s) := by
  unfold parseChar; ind

theorem ind_parseGetc (s : Str) : Ind (parseGetc k s) := by
  unfold parseGetc; ind

theorem ind_parseMacro (d : Define) (s : Str) : Ind (parseMacro k d s) := by
  unfold parseMacro; ind

theorem ind_parseName (s : Str) : Ind (parseName k s) := by
  unfold parseName; ind

omit hk in
theorem ind_convGeneric (b e : Nat) (s : Str) (n : Nat) : Ind (convGeneric b e s n) := by
  unfold convGeneric; ind

omit hk in
theorem ind_convHex (s : Str) (n : Nat) : Ind (convHex s n) := by
  unfold convHex; ind

omit hk in
theorem ind_convDec (s : Str) (n : Nat) : Ind (convDec s n) := by
  unfold convDec; ind

omit hk in
theorem ind_convBin (s : Str) (n : Nat) : Ind (convBin s n) := by
  unfold convBin; ind

omit hk in
theorem ind_parseDigits (s : Str) : Ind (parseDigits s) := by
  unfold parseDigits; ind

theorem ind_parseSingle (s : Str) : Ind (parseSingle k s) := by
  unfold parseSingle; ind

omit hk in
theorem ind_getOp (d : Int) (f : Nat) (s : Str) : Ind (getOp d f s) := by
  induction f generalizing s with
  | zero => unfold getOp; ind
  | succ f ih => unfold getOp; ind; all_goals exact ih _

theorem ind_numLoop (d : Int) (f : Nat) (t : Int) (o : Option Op) (s : Str) : Ind (numLoop k d f t o s) := by
  induction f generalizing t o s with
  | zero => unfold numLoop; ind
  | succ f ih => unfold numLoop; ind; all_goals exact ih _ _ _

theorem ind_numFullBody (s : Str) (d : Int) : Ind (numFullBody k s d) := by
  unfold numFullBody; ind

theorem ind_expandLoop (d : Nat) (l : Bool) (f : Nat) (s o : Str) : Ind (expandLoop k d l f s o) := by
  induction f generalizing s o with
  | zero => unfold expandLoop; ind
  | succ f ih => unfold expandLoop; ind; all_goals exact ih _ _

theorem ind_expandFullBody (s : Str) (d : Nat) (l : Bool) : Ind (expandFullBody k s d l) := by
  unfold expandFullBody; ind

theorem ind_setDefine (r : DRef) (s : Str) (b : Bool) : Ind (setDefine k r s b) := by
  unfold setDefine; ind

omit hk in
theorem ind_writeOut (v : Int) : Ind (writeOut v) := by
  have key : ∀ s, writeOut v s = if s.outPtr < 0 ∨ s.outPtr ≥ outputBufSize then .stop (.ub .outOfBounds) s
      else .ok () { s with mem := fun i => if i = s.outPtr.toNat then (v % 256).toNat else s.mem i, outPtr := s.outPtr + 1 } :=
    fun _ => rfl
  refine ⟨fun s => ?_, fun s => ?_, fun s μ ρ _ => ?_⟩
  · rw [key]; split <;> exact Nat.le_refl _
  · rw [key]; split <;> exact id
  · by_cases h : s.outPtr < 0 ∨ s.outPtr ≥ outputBufSize
    · rw [key, key, if_pos h, if_pos (show (swap μ ρ s).outPtr < 0 ∨ (swap μ ρ s).outPtr ≥ outputBufSize from h)]
      exact ⟨μ, rfl, .refl s μ, fun _ _ h => by cases h⟩
    · rw [key, key, if_neg h, if_neg (show ¬ ((swap μ ρ s).outPtr < 0 ∨ (swap μ ρ s).outPtr ≥ outputBufSize) from h)]
      refine ⟨fun i => if i = s.outPtr.toNat then (v % 256).toNat else μ i, rfl, ?_, ?_⟩
      · intro i
        dsimp only [Res.state]
        by_cases hi : i = s.outPtr.toNat
        · right; rw [if_pos hi, if_pos hi]
        · left; exact ⟨if_neg hi, if_neg hi⟩
      · intro a t ht _ ha i hi
        cases ht
        dsimp only at hi ⊢
        by_cases he : i = s.outPtr.toNat
        · rw [if_pos he, if_pos he]
        · rw [if_neg he, if_neg he]
          exact ha i (by omega)

omit hk in
theorem ind_advance (n : Int) : Ind (advance n) := by
  unfold advance; ind

omit hk in
theorem ind_writeArg (v : Int) (t : ArgTy) (i o : Int) : Ind (writeArg v t i o) := by
  unfold writeArg; ind

theorem ind_addPassTwoExpr (e : Str) (t : ArgTy) (i o : Int) : Ind (addPassTwoExpr k e t i o) := by
  unfold addPassTwoExpr; ind

theorem ind_addPassTwoOutput (e : Str) (b : Bool) : Ind (addPassTwoOutput k e b) := by
  unfold addPassTwoOutput; ind

omit hk in
theorem ind_showDefine (d : Define) : Ind (showDefine d) := by
  unfold showDefine; ind

theorem ind_runOutput (e : POut) : Ind (runOutput k e) := by
  unfold runOutput; ind

theorem ind_runOutputs (l : List POut) : Ind (runOutputs k l) := by
  induction l with
  | nil => unfold runOutputs; ind
  | cons e l ih => unfold runOutputs; ind

omit hk in
theorem ind_countData (n : Int) : Ind (countData n) := by
  unfold countData; ind

omit hk in
theorem ind_emitChars (s : Str) : Ind (emitChars s) := by
  induction s with
  | nil => unfold emitChars; ind
  | cons c t ih => unfold emitChars; ind

omit hk in
theorem ind_echoError (t : Es) (n : Int) : Ind (echoError t n) := by
  unfold echoError; ind

theorem ind_emitDefine (t : Es) (n : Int) (d : Define) (r : Str) : Ind (emitDefine k t n d r) := by
  unfold emitDefine; ind

theorem ind_emitNum (t : Es) (w : Str) (n : Int) : Ind (emitNum k t w n) := by
  unfold emitNum; ind

theorem ind_emitLoop (t : Es) (f : Nat) (e : Bool) (n : Option Int) (o s : Str) : Ind (emitLoop k t f e n o s) := by
  induction f generalizing e n o s with
  | zero => unfold emitLoop; ind
  | succ f ih =>
    unfold emitLoop; ind
    all_goals exact ih _ _ _ _

theorem ind_emitStringBody (s : Str) (t : Es) : Ind (emitStringBody k s t) := by
  unfold emitStringBody; ind

omit hk in
theorem ind_matchLoop (p : Str) (m : Match) : Ind (matchLoop p m) := by
  induction p generalizing m with
  | nil => unfold matchLoop; ind
  | cons c t ih => unfold matchLoop; ind; all_goals exact ih _

omit hk in
theorem ind_matchInstr (i : Instr) (c s : Str) : Ind (matchInstr i c s) := by
  unfold matchInstr; ind

omit hk in
theorem ind_matchInstrs (c s : Str) (l : List Instr) (x : Str) : Ind (matchInstrs c s l x) := by
  induction l generalizing x with
  | nil => unfold matchInstrs; ind
  | cons i l ih => unfold matchInstrs; ind; all_goals exact ih _

omit hk in
theorem ind_matchArgs (c s : Str) (l : List Opcode) : Ind (matchArgs c s l) := by
  induction l with
  | nil => unfold matchArgs; ind
  | cons i l ih => unfold matchArgs; ind

theorem ind_writeOperands (il : Bool) (p : Str) (c : List (Str × Str)) (n : Int) (b : Option Str) : Ind (writeOperands k il p c n b) := by
  induction p generalizing c n b with
  | nil => unfold writeOperands; ind
  | cons x p ih => unfold writeOperands; ind; all_goals exact ih _ _ _

omit hk in
theorem ind_writeBytes (l : List Nat) : Ind (writeBytes l) := by
  induction l with
  | nil => unfold writeBytes; ind
  | cons i l ih => unfold writeBytes; ind

theorem ind_writeInstr (i : Instr) (c : List (Str × Str)) (x : Option Nat) : Ind (writeInstr k i c x) := by
  unfold writeInstr; ind

theorem ind_doInstr (o : List Opcode) (n r : Str) (x : Option Nat) : Ind (doInstr k o n r x) := by
  unfold doInstr; ind

theorem ind_dirOrg (s : Str) : Ind (dirOrg k s) := by
  unfold dirOrg; ind

omit hk in
theorem ind_writeFill (v : Int) (n : Nat) : Ind (writeFill v n) := by
  induction n with
  | zero => unfold writeFill; ind
  | succ n ih => unfold writeFill; ind

theorem ind_dirFill (s : Str) : Ind (dirFill k s) := by
  unfold dirFill; ind

omit hk in
theorem ind_addinstrFail (s : Str) : Ind (addinstrFail s) := by
  unfold addinstrFail; ind

theorem ind_dirAddinstr (s : Str) : Ind (dirAddinstr k s) := by
  unfold dirAddinstr; ind

theorem ind_dirEchoFile (s : Str) : Ind (dirEchoFile k s) := by
  unfold dirEchoFile; ind

theorem ind_dirEcho (s : Str) : Ind (dirEcho k s) := by
  unfold dirEcho; ind

theorem ind_dirError (s : Str) : Ind (dirError k s) := by
  unfold dirError; ind

omit hk in
theorem ind_setLastLabel (v : Int) : Ind (setLastLabel v) := by
  unfold setLastLabel; ind

theorem ind_dirEqu (s : Str) : Ind (dirEqu k s) := by
  unfold dirEqu; ind

theorem ind_dirShow (s : Str) : Ind (dirShow k s) := by
  unfold dirShow; ind

theorem ind_dirOption (f : Nat) (e : Bool) (s : Str) : Ind (dirOption k f e s) := by
  induction f generalizing e s with
  | zero => unfold dirOption; ind
  | succ f ih => unfold dirOption; ind; all_goals exact ih _ _

omit hk in
theorem ind_seek (d u : Int) : Ind (M.modify fun s => { s with outPtr := s.outPtr + d, pc := u, sought := true }) where
  pos s := Nat.le_refl _
  sought s h := by cases h
  run s μ ρ _ := ⟨μ, rfl, fun _ => .inl ⟨rfl, rfl⟩, fun _ _ e h => by cases e; cases h⟩

theorem ind_dirSeek (s : Str) : Ind (dirSeek k s) := by
  unfold dirSeek; ind; all_goals exact ind_seek _ _

theorem ind_dirAssume (s : Str) : Ind (dirAssume k s) := by
  unfold dirAssume; ind

theorem ind_runDir (d : Dir) (s : Str) : Ind (runDir k d s) := by
  unfold runDir; ind

omit hk in
theorem ind_skipLine (w : List Str) (e f l : Nat) (s : Str) : Ind (skipLine w e f l s) := by
  induction f generalizing l s with
  | zero => unfold skipLine; ind
  | succ f ih => unfold skipLine; ind; all_goals exact ih _ _

omit hk in
theorem ind_skipLoop (u : Nat) (w : List Str) (f l : Nat) (n : Int) (s : Str) : Ind (skipLoop u w f l n s) := by
  induction f generalizing l n s with
  | zero => unfold skipLoop; ind
  | succ f ih => unfold skipLoop; ind; all_goals exact ih _ _ _

omit hk in
theorem ind_skipUntil (w : List Str) (b : Bool) (s : Str) : Ind (skipUntil k w b s) := by
  unfold skipUntil; ind

theorem ind_doIf (s : Str) (c : Bool) : Ind (doIf k s c) := by
  unfold doIf; ind

theorem ind_preopIfBody (s : Str) : Ind (preopIfBody k s) := by
  unfold preopIfBody; ind

theorem ind_preIfdef (w : Bool) (s : Str) : Ind (preIfdef k w s) := by
  unfold preIfdef; ind

omit hk in
theorem ind_skipQuietly (w : List Str) (s : Str) : Ind (skipQuietly k w s) := by
  unfold skipQuietly; ind

omit hk in
theorem ind_argDefLoop (f : Nat) (e : Bool) (a : List Str) (s : Str) : Ind (argDefLoop f e a s) := by
  induction f generalizing e a s with
  | zero => unfold argDefLoop; ind
  | succ f ih => unfold argDefLoop; ind; all_goals exact ih _ _ _

omit hk in
theorem ind_parseArgDefs (r : DRef) (s : Str) : Ind (parseArgDefs r s) := by
  unfold parseArgDefs; ind

theorem ind_defineMacro (r : DRef) (b : Bool) (s : Str) : Ind (defineMacro k r b s) := by
  unfold defineMacro; ind

theorem ind_concatLoop (f : Nat) (e : Bool) (o s : Str) : Ind (concatLoop k f e o s) := by
  induction f generalizing e o s with
  | zero => unfold concatLoop; ind
  | succ f ih => unfold concatLoop; ind; all_goals exact ih _ _ _

theorem ind_definePlain (r : DRef) (b : Bool) (s : Str) : Ind (definePlain k r b s) := by
  unfold definePlain; ind

theorem ind_preDefine (s : Str) : Ind (preDefine k s) := by
  unfold preDefine; ind

theorem ind_preMacro (s : Str) : Ind (preMacro k s) := by
  unfold preMacro; ind

theorem ind_preDefcont (s : Str) : Ind (preDefcont k s) := by
  unfold preDefcont; ind

omit hk in
theorem ind_firstPassLoop {line : Str → M (Option Str)} (hl : ∀ s, Ind (line s)) (f : Nat) (s : Str) : Ind (firstPassLoop line f s) := by
  induction f generalizing s with
  | zero => unfold firstPassLoop; ind
  | succ f ih => unfold firstPassLoop; ind; all_goals first | exact hl _ | exact ih _

theorem ind_lineLoop (f : Nat) (s : Str) : Ind (lineLoop k f s) := by
  induction f generalizing s with
  | zero => unfold lineLoop; ind
  | succ f ih => unfold lineLoop; ind; all_goals exact ih _

theorem ind_runLine (s : Str) : Ind (runLine k s) := by
  unfold runLine; ind

theorem ind_runFirstPass (s : Str) : Ind (runFirstPass k s) := by
  unfold runFirstPass; ind

theorem ind_preInclude {b : List Nat → M Unit} (hb : ∀ l, Ind (b l)) (s : Str) : Ind (preInclude k b s) := by
  unfold preInclude; ind; all_goals exact hb _

omit hk in
theorem ind_importBytes (l : List Nat) : Ind (importBytes l) := by
  induction l with
  | nil => unfold importBytes; ind
  | cons i l ih => unfold importBytes; ind

omit hk in
theorem ind_preImport (s : Str) : Ind (preImport s) := by
  unfold preImport; ind

theorem ind_handlePreopBody {b : List Nat → M Unit} (hb : ∀ l, Ind (b l)) (s : Str) : Ind (handlePreopBody k b s) := by
  unfold handlePreopBody; ind

omit hk in
theorem ind_setBuf (i : Nat) (v : Option Str) : Ind (setBuf i v) := by
  unfold setBuf; ind

theorem ind_fcBuf (s : Str) : Ind (fcBuf k s) := by
  unfold fcBuf; ind

omit hk in
theorem ind_fcClr (s : Str) : Ind (fcClr s) := by
  unfold fcClr; ind

theorem ind_fcWr (s : Str) : Ind (fcWr k s) := by
  unfold fcWr; ind

theorem ind_fcRun (s : Str) : Ind (fcRun k s) := by
  unfold fcRun; ind

theorem ind_macroLoop (f : Nat) (s : Str) : Ind (macroLoop k f s) := by
  induction f generalizing s with
  | zero => unfold macroLoop; ind
  | succ f ih => unfold macroLoop; ind; all_goals exact ih _

theorem ind_runMacro (d : Define) (s : Str) : Ind (runMacro k d s) := by
  unfold runMacro; ind

theorem ind_callMacro (d : Define) (s : Str) : Ind (callMacro k d s) := by
  unfold callMacro; ind

theorem ind_opcodeOrMacro (s : Str) : Ind (opcodeOrMacro k s) := by
  unfold opcodeOrMacro; ind

theorem ind_handleDirective (s : Str) : Ind (handleDirective k s) := by
  unfold handleDirective; ind

theorem ind_assign (s : Str) : Ind (assign k s) := by
  unfold assign; ind

theorem ind_lineSecLoop (f : Nat) (s : Str) : Ind (lineSecLoop k f s) := by
  induction f generalizing s with
  | zero => unfold lineSecLoop; ind
  | succ f ih => unfold lineSecLoop; ind; all_goals exact ih _

theorem ind_lineSecBody (s : Str) : Ind (lineSecBody k s) := by
  unfold lineSecBody; ind

theorem ind_defineIs (n : Str) (v : Int) : Ind (defineIs k n v) := by
  unfold defineIs; ind

theorem ind_writeMask (l : List Nat) : Ind (writeMask k l) := by
  induction l with
  | nil => unfold writeMask; ind
  | cons b l ih => unfold writeMask; ind

theorem ind_maskPart (g : List (List (Nat × Nat))) : Ind (maskPart k g) := by
  unfold maskPart; ind

theorem ind_bitmapPart (b : Bmp) (r : Rect) : Ind (bitmapPart k b r) := by
  unfold bitmapPart; ind

theorem ind_bitmapStrips (b : Bmp) (r : Rect) (m : Int) (f : Nat) (l w : Int) : Ind (bitmapStrips k b r m f l w) := by
  induction f generalizing l w with
  | zero => unfold bitmapStrips; ind
  | succ f ih => unfold bitmapStrips; ind; all_goals exact ih _ _

theorem ind_bitmapAll (b : Bmp) (r : Rect) (m w : Int) : Ind (bitmapAll k b r m w) := by
  unfold bitmapAll; ind

omit hk in
theorem ind_writePair (v : Int) : Ind (writePair v) := by
  unfold writePair; ind

omit hk in
theorem ind_writeSmall (v : Int) (m : Msg) : Ind (writeSmall v m) := by
  unfold writeSmall; ind

theorem ind_bitmapSize (w h : Int) : Ind (bitmapSize k w h) := by
  unfold bitmapSize; ind

theorem ind_headerToken (w h : Int) (p : Str) : Ind (headerToken k w h p) := by
  unfold headerToken; ind

theorem ind_headerTokens (w h : Int) (l : List Str) : Ind (headerTokens k w h l) := by
  induction l with
  | nil => unfold headerTokens; ind
  | cons p l ih => unfold headerTokens; ind

theorem ind_bitmapHeader (r : Rect) : Ind (bitmapHeader k r) := by
  unfold bitmapHeader; ind

omit hk in
theorem ind_imageLabel (b : Option Str) (x : Str) (v : Int) : Ind (imageLabel b x v) := by
  unfold imageLabel; ind

theorem ind_mapNumbers (l : List Str) (i : Nat) (v : Int × Int × Int) : Ind (mapNumbers k l i v) := by
  induction l generalizing i v with
  | nil => unfold mapNumbers; ind
  | cons p l ih => unfold mapNumbers; ind; all_goals exact ih _ _

theorem ind_mapLoop (b : Bmp) (base : Option Str) (w h p : Int) (f : Nat) (l t c n : Int) : Ind (mapLoop k b base w h p f l t c n) := by
  induction f generalizing l t c n with
  | zero => unfold mapLoop; ind
  | succ f ih => unfold mapLoop; ind; all_goals exact ih _ _ _ _

theorem ind_bitmapMap (b : Bmp) (base : Option Str) (p : Int) (r : DRef) (c : Str) : Ind (bitmapMap k b base p r c) := by
  unfold bitmapMap; ind

theorem ind_bitmapSingle (b : Bmp) (base : Option Str) (m : Int) : Ind (bitmapSingle k b base m) := by
  unfold bitmapSingle; ind

theorem ind_handleBitmap (l : List Nat) : Ind (handleBitmap k l) := by
  unfold handleBitmap; ind


/-! ### main.cpp and export.cpp -/

omit hk in
theorem ind_bufAt (b : List Nat) (i : Nat) : Ind (bufAt b i) := by
  unfold bufAt; ind

omit hk in
theorem ind_findFieldLoop (h : Nat → Bool) (b : List Nat) (f p : Nat) : Ind (findFieldLoop h b f p) := by
  induction f generalizing p with
  | zero => unfold findFieldLoop; ind
  | succ f ih => unfold findFieldLoop; ind; all_goals exact ih _

omit hk in
theorem ind_findField (n : Nat) (b : List Nat) : Ind (findField n b) := by
  unfold findField; ind

omit hk in
theorem ind_findFieldFlex (n : Nat) (b : List Nat) : Ind (findFieldFlex n b) := by
  unfold findFieldFlex; ind

omit hk in
theorem ind_patchApp (b : List Nat) : Ind (patchApp b) := by
  unfold patchApp; ind

omit hk in
theorem ind_makeApp (md5 : List Nat → List Nat) (b : List Nat) : Ind (makeApp md5 b) := by
  unfold makeApp; ind

omit hk in
theorem ind_warnN (n : Nat) : Ind (warnN n) := by
  induction n with
  | zero => unfold warnN; ind
  | succ n ih => unfold warnN; ind

omit hk in
theorem ind_makePrgm (c : Calc) (p : Str) (o : Nat → Nat) (b : List Nat) : Ind (makePrgm c p o b) := by
  unfold makePrgm; ind

theorem ind_symDefines (d : List Str) (a : List (Str × Int)) : Ind (symDefines k d a) := by
  fun_induction symDefines k d a <;> ind
  all_goals solve_by_elim

theorem ind_writeLabels (f : Str) : Ind (writeLabels k f) := by
  unfold writeLabels; ind

theorem ind_labelFile (f : Str) : Ind (labelFile k f) := by
  unfold labelFile; ind

omit hk in
/-- No function looks at them. -/
theorem ind_knot (n : Nat) : RecInd (knot n) := by
  induction n with
  | zero => constructor <;> (intros; exact Ind.halt _)
  | succ n ih =>
    exact {
      numFull := ind_numFullBody ih
      expandFull := ind_expandFullBody ih
      handlePreop := ind_handlePreopBody ih (ind_handleBitmap ih)
      preopIf := ind_preopIfBody ih
      lineSec := ind_lineSecBody ih
      emitString := ind_emitStringBody ih }

end Spasm

/-! ### Command line -/

namespace Spasm

theorem ind_builtin (n c : Str) (a : List Str) : Ind (builtin n c a) := by
  unfold builtin; ind

theorem ind_initStorage : Ind initStorage := by
  unfold initStorage; ind

theorem ind_ensureStorage (o : Opts) : Ind (ensureStorage o) := by
  unfold ensureStorage; ind

theorem ind_optDefine (n : Nat) (o : Opts) (s : Str) : Ind (optDefine (knot n) o s) := by
  have hk := ind_knot n
  unfold optDefine; ind

theorem ind_optLine (o : Opts) (s : Str) : Ind (optLine o s) := by
  unfold optLine; ind

theorem ind_optFile (o : Opts) (s : Str) : Ind (optFile o s) := by
  unfold optFile; ind

theorem ind_optLoop (n : Nat) (l : List Str) (o : Opts) : Ind (optLoop (knot n) l o) := by
  have hk := ind_knot n
  suffices h : ∀ m, ∀ l : List Str, l.length ≤ m → ∀ o, Ind (optLoop (knot n) l o) from h _ l (Nat.le_refl _) o
  intro m
  induction m with
  | zero =>
    intro l hl o
    cases l with
    | nil => unfold optLoop; exact .pure _
    | cons a as => simp at hl
  | succ m ih =>
    intro l hl o
    cases l with
    | nil => unfold optLoop; exact .pure _
    | cons a as =>
      have h1 : ∀ o, Ind (optLoop (knot n) as o) := ih as (by simpa using hl)
      have h2 : ∀ d as', as = d :: as' → ∀ o, Ind (optLoop (knot n) as' o) := by
        rintro d as' rfl
        exact ih as' (by simp at hl; omega)
      unfold optLoop
      cases as with
      | nil => dsimp only; ind; all_goals exact h1 _
      | cons d as' =>
        have h3 := h2 d as' rfl
        dsimp only; ind
        all_goals first | exact h1 _ | exact h3 _

end Spasm
