import Verif.Model.Main
import Verif.Model.Knot
import Verif.Lemmas.M
import Verif.Lemmas.Auto
import Verif.Spec.Run

/-
A larger recursion budget changes nothing but runs that the smaller one cut short.
-/

namespace Spasm

/-- The second computation does what the first does, unless the first runs out of budget. -/
structure Le {α : Type} (m m' : M α) : Prop where
  run : ∀ s, m s = m' s ∨ ∃ s', m s = .stop .fuel s'

theorem Le.refl {α : Type} (m : M α) : Le m m := ⟨fun _ => .inl rfl⟩

theorem Le.halt {α : Type} (m : M α) : Le (M.halt .fuel) m := ⟨fun s => .inr ⟨s, rfl⟩⟩

theorem Le.trans {α : Type} {a b c : M α} (h : Le a b) (h' : Le b c) : Le a c := by
  constructor; intro s
  rcases h.run s with e | e
  · rw [e]; exact h'.run s
  · exact .inr e

theorem Le.bind {α β : Type} {m m' : M α} {f f' : α → M β} (h : Le m m') (h' : ∀ a, Le (f a) (f' a)) :
    Le (m >>= f) (m' >>= f') := by
  constructor; intro s
  rw [M.bind_apply, M.bind_apply]
  rcases h.run s with e | ⟨s', e⟩
  · rw [← e]
    cases hm : m s with
    | ok a t => exact (h' a).run t
    | stop c t => exact .inl rfl
  · rw [e]; exact .inr ⟨s', rfl⟩

theorem Le.when {b : Bool} {m m' : M Unit} (h : Le m m') : Le (M.when b m) (M.when b m') := by
  cases b
  · exact Le.refl _
  · exact h

theorem Le.ite {α : Type} {c : Prop} [Decidable c] {a b a' b' : M α} (h : Le a a') (h' : Le b b') :
    Le (if c then a else b) (if c then a' else b') := by
  split
  · exact h
  · exact h'

/-- The same for all callbacks. -/
structure RLe (k k' : Rec) : Prop where
  numFull : ∀ s d, Le (k.numFull s d) (k'.numFull s d)
  expandFull : ∀ s d l, Le (k.expandFull s d l) (k'.expandFull s d l)
  handlePreop : ∀ s, Le (k.handlePreop s) (k'.handlePreop s)
  preopIf : ∀ s, Le (k.preopIf s) (k'.preopIf s)
  lineSec : ∀ s, Le (k.lineSec s) (k'.lineSec s)
  emitString : ∀ s t, Le (k.emitString s t) (k'.emitString s t)

variable {k k' : Rec}

theorem le_numFull (h : RLe k k') (s : Str) (d : Int) : Le (k.numFull s d) (k'.numFull s d) := h.numFull s d
theorem le_expandFull (h : RLe k k') (s : Str) (d : Nat) (l : Bool) :
    Le (k.expandFull s d l) (k'.expandFull s d l) := h.expandFull s d l
theorem le_handlePreop (h : RLe k k') (s : Str) : Le (k.handlePreop s) (k'.handlePreop s) := h.handlePreop s
theorem le_preopIf (h : RLe k k') (s : Str) : Le (k.preopIf s) (k'.preopIf s) := h.preopIf s
theorem le_lineSec (h : RLe k k') (s : Str) : Le (k.lineSec s) (k'.lineSec s) := h.lineSec s
theorem le_emitString (h : RLe k k') (s : Str) (t : Es) : Le (k.emitString s t) (k'.emitString s t) :=
  h.emitString s t

/-- Compositional proof of `Le`; the fact given is an induction hypothesis. -/
macro "le" "(" ih:term ")" : tactic => `(tactic|
  repeat' (first
    | with_reducible exact Le.refl _
    | with_reducible apply Le.bind
    | with_reducible apply Le.when
    | with_reducible apply Le.ite
    | intro _
    | with_reducible dispatch "le_"
    | with_reducible apply $ih
    | split
    | dsimp only))

macro "le" : tactic => `(tactic| le (Le.refl))


/-! ### Parser -/

theorem le_parseNum (h : RLe k k') (s : Str) : Le (parseNum k s) (parseNum k' s) := by
  unfold parseNum; le

theorem le_parseF (h : RLe k k') (s : Str) : Le (parseF k s) (parseF k' s) := by
  unfold parseF; le

theorem le_expandExpr (h : RLe k k') (s : Str) (local_ : Bool) :
    Le (expandExpr k s local_) (expandExpr k' s local_) := by
  unfold expandExpr; le

theorem le_evalStr (h : RLe k k') (s : Str) : Le (evalStr k s) (evalStr k' s) := by
  unfold evalStr; le

theorem le_reduceLoop (h : RLe k k') (a0 a1 : Str) (a2 : Nat) :
    Le (reduceLoop k a0 a1 a2) (reduceLoop k' a0 a1 a2) := by
  induction a0, a1, a2 using reduceLoop.induct with
  | case1 => exact Le.refl _
  | case2 => exact Le.refl _
  | case3 => exact Le.refl _
  | case4 c d t out q hc ih =>
    unfold reduceLoop
    rw [if_pos hc, if_pos hc]
    le (ih)
  | case5 c d t out q hc ih =>
    unfold reduceLoop
    rw [if_neg hc, if_neg hc]
    exact ih

theorem le_reduceString (h : RLe k k') (s : Str) : Le (reduceString k s) (reduceString k' s) := by
  unfold reduceString; le

theorem le_argLoop (h : RLe k k') : ∀ (a0 : Nat) (a1 : Bool) (a2 : List Str) (a3 : Str),
    Le (argLoop k a0 a1 a2 a3) (argLoop k' a0 a1 a2 a3) := by
  intro a0
  induction a0 with
  | zero => intros; exact Le.refl _
  | succ f ih => intros; unfold argLoop; le (ih)

theorem le_parseArgs (h : RLe k k') (s : Str) (d : Define) : Le (parseArgs k s d) (parseArgs k' s d) := by
  unfold parseArgs; le

theorem le_parseDefineLoop (h : RLe k k') : ∀ (a0 : Nat) (a1 : Str),
    Le (parseDefineLoop k a0 a1) (parseDefineLoop k' a0 a1) := by
  intro a0
  induction a0 with
  | zero => intros; exact Le.refl _
  | succ f ih => intros; unfold parseDefineLoop; le (ih)

theorem le_parseDefine (h : RLe k k') (d : Define) : Le (parseDefine k d) (parseDefine k' d) := by
  unfold parseDefine; le

theorem le_parseGetc (h : RLe k k') (s : Str) : Le (parseGetc k s) (parseGetc k' s) := by
  unfold parseGetc; le

theorem le_parseMacro (h : RLe k k') (d : Define) (s : Str) : Le (parseMacro k d s) (parseMacro k' d s) := by
  unfold parseMacro; le

theorem le_parseName (h : RLe k k') (s : Str) : Le (parseName k s) (parseName k' s) := by
  unfold parseName; le

theorem le_parseSingle (h : RLe k k') (s : Str) : Le (parseSingle k s) (parseSingle k' s) := by
  unfold parseSingle; le

theorem le_numLoop (h : RLe k k') (depth : Int) : ∀ (a0 : Nat) (a1 : Int) (a2 : Option Op) (a3 : Str),
    Le (numLoop k depth a0 a1 a2 a3) (numLoop k' depth a0 a1 a2 a3) := by
  intro a0
  induction a0 with
  | zero => intros; exact Le.refl _
  | succ f ih => intros; unfold numLoop; le (ih)

theorem le_numFullBody (h : RLe k k') (s : Str) (depth : Int) :
    Le (numFullBody k s depth) (numFullBody k' s depth) := by
  unfold numFullBody; le

theorem le_expandLoop (h : RLe k k') (depth : Nat) (local_ : Bool) : ∀ (a0 : Nat) (a1 : Str) (a2 : Str),
    Le (expandLoop k depth local_ a0 a1 a2) (expandLoop k' depth local_ a0 a1 a2) := by
  intro a0
  induction a0 with
  | zero => intros; exact Le.refl _
  | succ f ih => intros; unfold expandLoop; le (ih)

theorem le_expandFullBody (h : RLe k k') (s : Str) (depth : Nat) (local_ : Bool) :
    Le (expandFullBody k s depth local_) (expandFullBody k' s depth local_) := by
  unfold expandFullBody; le

theorem le_setDefine (h : RLe k k') (r : DRef) (str : Str) (redefined : Bool) :
    Le (setDefine k r str redefined) (setDefine k' r str redefined) := by
  unfold setDefine; le


/-! ### PassTwo -/

theorem le_addPassTwoExpr (h : RLe k k') (expr : Str) (ty : ArgTy) (instSize orValue : Int) :
    Le (addPassTwoExpr k expr ty instSize orValue) (addPassTwoExpr k' expr ty instSize orValue) := by
  unfold addPassTwoExpr; le

theorem le_addPassTwoOutput (h : RLe k k') (expr : Str) (isShow : Bool) :
    Le (addPassTwoOutput k expr isShow) (addPassTwoOutput k' expr isShow) := by
  unfold addPassTwoOutput; le

theorem le_runExpr (h : RLe k k') (e : PExpr) : Le (runExpr k e) (runExpr k' e) := by
  unfold runExpr; le

theorem le_runExprs (h : RLe k k') : ∀ (a0 : List PExpr), Le (runExprs k a0) (runExprs k' a0) := by
  intro a0
  induction a0 with
  | nil => exact Le.refl _
  | cons x t ih => unfold runExprs; le (ih)

theorem le_runOutput (h : RLe k k') (o : POut) : Le (runOutput k o) (runOutput k' o) := by
  unfold runOutput; le

theorem le_runOutputs (h : RLe k k') : ∀ (a0 : List POut), Le (runOutputs k a0) (runOutputs k' a0) := by
  intro a0
  induction a0 with
  | nil => exact Le.refl _
  | cons x t ih => unfold runOutputs; le (ih)

theorem le_runSecondPass (h : RLe k k') : Le (runSecondPass k) (runSecondPass k') := by
  unfold runSecondPass; le


/-! ### Emit -/

theorem le_emitDefine (h : RLe k k') (ty : Es) (sess : Int) (d : Define) (r : Str) :
    Le (emitDefine k ty sess d r) (emitDefine k' ty sess d r) := by
  unfold emitDefine; le

theorem le_emitNum (h : RLe k k') (ty : Es) (word : Str) (sess : Int) :
    Le (emitNum k ty word sess) (emitNum k' ty word sess) := by
  unfold emitNum; le

theorem le_emitLoop (h : RLe k k') (ty : Es) : ∀ (a0 : Nat) (a1 : Bool) (a2 : Option Int) (a3 : Str) (a4 : Str),
    Le (emitLoop k ty a0 a1 a2 a3 a4) (emitLoop k' ty a0 a1 a2 a3 a4) := by
  intro a0
  induction a0 with
  | zero => intros; exact Le.refl _
  | succ f ih => intros; unfold emitLoop; le (ih)

theorem le_emitStringBody (h : RLe k k') (s : Str) (ty : Es) :
    Le (emitStringBody k s ty) (emitStringBody k' s ty) := by
  unfold emitStringBody; le


/-! ### Instr -/

theorem le_writeOperands (h : RLe k k') (il : Bool) : ∀ (a0 : Str) (a1 : List (Str × Str)) (a2 : Int) (a3 : Option Str),
    Le (writeOperands k il a0 a1 a2 a3) (writeOperands k' il a0 a1 a2 a3) := by
  intro a0
  induction a0 with
  | nil => intros; exact Le.refl _
  | cons x t ih => intros; unfold writeOperands; le (ih)

theorem le_writeInstr (h : RLe k k') (i : Instr) (caps : List (Str × Str)) (suffix : Option Nat) :
    Le (writeInstr k i caps suffix) (writeInstr k' i caps suffix) := by
  unfold writeInstr; le

theorem le_doInstr (h : RLe k k') (ops : List Opcode) (name r : Str) (suffix : Option Nat) :
    Le (doInstr k ops name r suffix) (doInstr k' ops name r suffix) := by
  unfold doInstr; le


/-! ### Directive -/

theorem le_dirOrg (h : RLe k k') (s : Str) : Le (dirOrg k s) (dirOrg k' s) := by
  unfold dirOrg; le

theorem le_dirFill (h : RLe k k') (s : Str) : Le (dirFill k s) (dirFill k' s) := by
  unfold dirFill; le

theorem le_dirAddinstr (h : RLe k k') (s : Str) : Le (dirAddinstr k s) (dirAddinstr k' s) := by
  unfold dirAddinstr; le

theorem le_dirEchoFile (h : RLe k k') (s : Str) : Le (dirEchoFile k s) (dirEchoFile k' s) := by
  unfold dirEchoFile; le

theorem le_dirEcho (h : RLe k k') (s : Str) : Le (dirEcho k s) (dirEcho k' s) := by
  unfold dirEcho; le

theorem le_dirError (h : RLe k k') (s : Str) : Le (dirError k s) (dirError k' s) := by
  unfold dirError; le

theorem le_dirEqu (h : RLe k k') (s : Str) : Le (dirEqu k s) (dirEqu k' s) := by
  unfold dirEqu; le

theorem le_dirShow (h : RLe k k') (s : Str) : Le (dirShow k s) (dirShow k' s) := by
  unfold dirShow; le

theorem le_dirOption (h : RLe k k') : ∀ (a0 : Nat) (a1 : Bool) (a2 : Str),
    Le (dirOption k a0 a1 a2) (dirOption k' a0 a1 a2) := by
  intro a0
  induction a0 with
  | zero => intros; exact Le.refl _
  | succ f ih => intros; unfold dirOption; le (ih)

theorem le_dirSeek (h : RLe k k') (s : Str) : Le (dirSeek k s) (dirSeek k' s) := by
  unfold dirSeek; le

theorem le_dirAssume (h : RLe k k') (s : Str) : Le (dirAssume k s) (dirAssume k' s) := by
  unfold dirAssume; le

theorem le_runDir (h : RLe k k') (d : Dir) (s : Str) : Le (runDir k d s) (runDir k' d s) := by
  unfold runDir; le


/-! ### Preop -/

theorem le_skipUntil (_ : RLe k k') (words : List Str) (setLine : Bool) (s : Str) :
    Le (skipUntil k words setLine s) (skipUntil k' words setLine s) := by
  unfold skipUntil; le

theorem le_doIf (h : RLe k k') (s : Str) (cond : Bool) : Le (doIf k s cond) (doIf k' s cond) := by
  unfold doIf; le

theorem le_preopIfBody (h : RLe k k') (s : Str) : Le (preopIfBody k s) (preopIfBody k' s) := by
  unfold preopIfBody; le

theorem le_preIfdef (h : RLe k k') (wanted : Bool) (s : Str) :
    Le (preIfdef k wanted s) (preIfdef k' wanted s) := by
  unfold preIfdef; le

theorem le_skipQuietly (h : RLe k k') (words : List Str) (s : Str) :
    Le (skipQuietly k words s) (skipQuietly k' words s) := by
  unfold skipQuietly; le

theorem le_defineMacro (h : RLe k k') (r : DRef) (redef : Bool) (s : Str) :
    Le (defineMacro k r redef s) (defineMacro k' r redef s) := by
  unfold defineMacro; le

theorem le_concatLoop (h : RLe k k') : ∀ (a0 : Nat) (a1 : Bool) (a2 : Str) (a3 : Str),
    Le (concatLoop k a0 a1 a2 a3) (concatLoop k' a0 a1 a2 a3) := by
  intro a0
  induction a0 with
  | zero => intros; exact Le.refl _
  | succ f ih => intros; unfold concatLoop; le (ih)

theorem le_definePlain (h : RLe k k') (r : DRef) (redef : Bool) (s : Str) :
    Le (definePlain k r redef s) (definePlain k' r redef s) := by
  unfold definePlain; le

theorem le_preDefine (h : RLe k k') (s : Str) : Le (preDefine k s) (preDefine k' s) := by
  unfold preDefine; le

theorem le_preMacro (h : RLe k k') (s : Str) : Le (preMacro k s) (preMacro k' s) := by
  unfold preMacro; le

theorem le_preDefcont (h : RLe k k') (s : Str) : Le (preDefcont k s) (preDefcont k' s) := by
  unfold preDefcont; le

theorem le_lineLoop (h : RLe k k') : ∀ (a0 : Nat) (a1 : Str), Le (lineLoop k a0 a1) (lineLoop k' a0 a1) := by
  intro a0
  induction a0 with
  | zero => intros; exact Le.refl _
  | succ f ih => intros; unfold lineLoop; le (ih)

theorem le_runLine (h : RLe k k') (s : Str) : Le (runLine k s) (runLine k' s) := by
  unfold runLine; le

theorem le_firstPassLoop {l l' : Str → M (Option Str)} (hl : ∀ s, Le (l s) (l' s)) :
    ∀ (a0 : Nat) (a1 : Str), Le (firstPassLoop l a0 a1) (firstPassLoop l' a0 a1) := by
  intro a0
  induction a0 with
  | zero => intros; exact Le.refl _
  | succ f ih =>
    intros
    unfold firstPassLoop
    apply Le.bind (Le.refl _)
    intro st
    apply Le.ite (Le.refl _)
    apply Le.bind (hl _)
    intro r
    le (ih)

theorem le_runFirstPass (h : RLe k k') (s : Str) : Le (runFirstPass k s) (runFirstPass k' s) := by
  unfold runFirstPass
  apply Le.bind (Le.refl _)
  intro _
  exact le_firstPassLoop (fun s => le_runLine h s) _ _

theorem le_preInclude (h : RLe k k') {bitmap bitmap' : List Nat → M Unit} (hb : ∀ l, Le (bitmap l) (bitmap' l)) (s : Str) :
    Le (preInclude k bitmap s) (preInclude k' bitmap' s) := by
  unfold preInclude; le (hb)

theorem le_handlePreopBody (h : RLe k k') {bitmap bitmap' : List Nat → M Unit} (hb : ∀ l, Le (bitmap l) (bitmap' l)) (s : Str) :
    Le (handlePreopBody k bitmap s) (handlePreopBody k' bitmap' s) := by
  unfold handlePreopBody; le

/-! ### Bitmap -/

theorem le_defineIs (h : RLe k k') (name : Str) (v : Int) : Le (defineIs k name v) (defineIs k' name v) := by
  unfold defineIs; le

theorem le_writeMask (h : RLe k k') : ∀ (a0 : List Nat), Le (writeMask k a0) (writeMask k' a0) := by
  intro a0
  induction a0 with
  | nil => exact Le.refl _
  | cons x t ih => unfold writeMask; le (ih)

theorem le_maskPart (h : RLe k k') (grid : List (List (Nat × Nat))) : Le (maskPart k grid) (maskPart k' grid) := by
  unfold maskPart; le

theorem le_bitmapPart (h : RLe k k') (b : Bmp) (r : Rect) : Le (bitmapPart k b r) (bitmapPart k' b r) := by
  unfold bitmapPart; le

theorem le_bitmapStrips (h : RLe k k') (b : Bmp) (r : Rect) (minW : Int) : ∀ (a0 : Nat) (a1 : Int) (a2 : Int),
    Le (bitmapStrips k b r minW a0 a1 a2) (bitmapStrips k' b r minW a0 a1 a2) := by
  intro a0
  induction a0 with
  | zero => intros; exact Le.refl _
  | succ f ih => intros; unfold bitmapStrips; le (ih)

theorem le_bitmapAll (h : RLe k k') (b : Bmp) (r : Rect) (minW width : Int) :
    Le (bitmapAll k b r minW width) (bitmapAll k' b r minW width) := by
  unfold bitmapAll; le

theorem le_bitmapSize (h : RLe k k') (w h : Int) : Le (bitmapSize k w h) (bitmapSize k' w h) := by
  unfold bitmapSize; le

theorem le_headerToken (h : RLe k k') (w h : Int) (p : Str) : Le (headerToken k w h p) (headerToken k' w h p) := by
  unfold headerToken; le

theorem le_headerTokens (h : RLe k k') (w h : Int) : ∀ (a0 : List Str),
    Le (headerTokens k w h a0) (headerTokens k' w h a0) := by
  intro a0
  induction a0 with
  | nil => exact Le.refl _
  | cons x t ih => unfold headerTokens; le (ih)

theorem le_bitmapHeader (h : RLe k k') (r : Rect) : Le (bitmapHeader k r) (bitmapHeader k' r) := by
  unfold bitmapHeader; le

theorem le_mapNumbers (h : RLe k k') : ∀ (a0 : List Str) (a1 : Nat) (a2 : Int × Int × Int),
    Le (mapNumbers k a0 a1 a2) (mapNumbers k' a0 a1 a2) := by
  intro a0
  induction a0 with
  | nil => intros; exact Le.refl _
  | cons x t ih => intros; unfold mapNumbers; le (ih)

theorem le_mapLoop (h : RLe k k') (b : Bmp) (base : Option Str) (width height pad : Int) : ∀ (a0 : Nat) (a1 : Int) (a2 : Int) (a3 : Int) (a4 : Int),
    Le (mapLoop k b base width height pad a0 a1 a2 a3 a4) (mapLoop k' b base width height pad a0 a1 a2 a3 a4) := by
  intro a0
  induction a0 with
  | zero => intros; exact Le.refl _
  | succ f ih => intros; unfold mapLoop; le (ih)

theorem le_bitmapMap (h : RLe k k') (b : Bmp) (base : Option Str) (padding : Int) (ref : DRef) (contents : Str) :
    Le (bitmapMap k b base padding ref contents) (bitmapMap k' b base padding ref contents) := by
  unfold bitmapMap; le

theorem le_bitmapSingle (h : RLe k k') (b : Bmp) (base : Option Str) (minW : Int) :
    Le (bitmapSingle k b base minW) (bitmapSingle k' b base minW) := by
  unfold bitmapSingle; le

theorem le_handleBitmap (h : RLe k k') (bytes : List Nat) : Le (handleBitmap k bytes) (handleBitmap k' bytes) := by
  unfold handleBitmap; le


/-! ### PassOne -/

theorem le_fcBuf (h : RLe k k') (r : Str) : Le (fcBuf k r) (fcBuf k' r) := by
  unfold fcBuf; le

theorem le_fcWr (h : RLe k k') (r : Str) : Le (fcWr k r) (fcWr k' r) := by
  unfold fcWr; le

theorem le_fcRun (h : RLe k k') (r : Str) : Le (fcRun k r) (fcRun k' r) := by
  unfold fcRun; le

theorem le_macroLoop (h : RLe k k') : ∀ (a0 : Nat) (a1 : Str), Le (macroLoop k a0 a1) (macroLoop k' a0 a1) := by
  intro a0
  induction a0 with
  | zero => intros; exact Le.refl _
  | succ f ih => intros; unfold macroLoop; le (ih)

theorem le_runMacro (h : RLe k k') (d : Define) (r : Str) : Le (runMacro k d r) (runMacro k' d r) := by
  unfold runMacro; le

theorem le_callMacro (h : RLe k k') (d : Define) (r : Str) : Le (callMacro k d r) (callMacro k' d r) := by
  unfold callMacro; le

theorem le_opcodeOrMacro (h : RLe k k') (s : Str) : Le (opcodeOrMacro k s) (opcodeOrMacro k' s) := by
  unfold opcodeOrMacro; le

theorem le_handleDirective (h : RLe k k') (s : Str) : Le (handleDirective k s) (handleDirective k' s) := by
  unfold handleDirective; le

theorem le_assign (h : RLe k k') (s : Str) : Le (assign k s) (assign k' s) := by
  unfold assign; le

theorem le_lineSecLoop (h : RLe k k') : ∀ (a0 : Nat) (a1 : Str),
    Le (lineSecLoop k a0 a1) (lineSecLoop k' a0 a1) := by
  intro a0
  induction a0 with
  | zero => intros; exact Le.refl _
  | succ f ih => intros; unfold lineSecLoop; le (ih)

theorem le_lineSecBody (h : RLe k k') (s : Str) : Le (lineSecBody k s) (lineSecBody k' s) := by
  unfold lineSecBody; le


/-! ### Main -/

theorem le_symDefines (h : RLe k k') : ∀ (a0 : List Str) (a1 : List (Str × Int)),
    Le (symDefines k a0 a1) (symDefines k' a0 a1) := by
  intro a0
  induction a0 with
  | nil => intros; exact Le.refl _
  | cons x t ih => intros; unfold symDefines; le (ih)

theorem le_writeLabels (h : RLe k k') (file : Str) : Le (writeLabels k file) (writeLabels k' file) := by
  unfold writeLabels; le

theorem le_passOne (h : RLe k k') (cwd text : Str) : Le (passOne k cwd text) (passOne k' cwd text) := by
  unfold passOne; le

theorem le_passTwo (h : RLe k k') : Le (passTwo k) (passTwo k') := by
  unfold passTwo; le

theorem le_labelFile (h : RLe k k') (output : Str) : Le (labelFile k output) (labelFile k' output) := by
  unfold labelFile; le

theorem le_runAssembly (h : RLe k k') (md5 : List Nat → List Nat) (cwd : Str) (text : Option Str) (output : Str) :
    Le (runAssembly k md5 cwd text output) (runAssembly k' md5 cwd text output) := by
  unfold runAssembly; le

theorem le_optDefine (h : RLe k k') (o : Opts) (s : Str) : Le (optDefine k o s) (optDefine k' o s) := by
  unfold optDefine; le

theorem le_options (h : RLe k k') : ∀ (n : Nat) (a0 : List Str), a0.length ≤ n → ∀ a1 : Opts,
    Le (optLoop k a0 a1) (optLoop k' a0 a1) := by
  intro n
  induction n with
  | zero =>
    intro a0 hn a1
    cases a0 with
    | nil => exact Le.refl _
    | cons x t => simp at hn
  | succ n ih =>
    intro a0 hn a1
    cases a0 with
    | nil => exact Le.refl _
    | cons x t =>
      have ht : t.length ≤ n := by simpa using hn
      unfold optLoop
      le (ih) <;> first | assumption | (simp_all; omega)

theorem le_optLoop (h : RLe k k') (a0 : List Str) (a1 : Opts) : Le (optLoop k a0 a1) (optLoop k' a0 a1) :=
  le_options h _ _ (Nat.le_refl _) _

theorem le_mainBody (h : RLe k k') (md5 : List Nat → List Nat) (cwd : Str) (args : List Str) :
    Le (mainBody k md5 cwd args) (mainBody k' md5 cwd args) := by
  unfold mainBody; le

/-! ### The budget -/

theorem knot_le (n : Nat) : RLe (knot n) (knot (n + 1)) := by
  induction n with
  | zero => exact ⟨fun _ _ => .halt _, fun _ _ _ => .halt _, fun _ => .halt _, fun _ => .halt _, fun _ => .halt _,
      fun _ _ => .halt _⟩
  | succ n ih =>
    exact ⟨le_numFullBody ih, le_expandFullBody ih, le_handlePreopBody ih (le_handleBitmap ih), le_preopIfBody ih,
      le_lineSecBody ih, le_emitStringBody ih⟩

theorem spasm_le {n n' : Nat} (h : n ≤ n') (md5 : List Nat → List Nat) (fs : Str → Option (List Nat)) (mem rand : Nat → Nat)
    (cwd : Str) (args : List Str) :
    spasm n md5 fs mem rand cwd args = spasm n' md5 fs mem rand cwd args ∨
      ∃ s, spasm n md5 fs mem rand cwd args = .stop .fuel s := by
  induction h with
  | refl => exact .inl rfl
  | step h ih =>
    rcases ih with e | e
    · rw [e]; exact (le_mainBody (knot_le _) md5 cwd args).run _
    · exact .inr e

end Spasm
