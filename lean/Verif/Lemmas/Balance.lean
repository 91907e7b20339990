import Verif.Lemmas.M
import Verif.Lemmas.Auto
import Verif.Model.Main

/-
Error sessions and argument sets are balanced: a piece of the program that returns has closed every session
and removed every argument set it opened, and only added problems of the session it was called in. The one
exception is recorded in the ghost variable `stale`.
-/

namespace Spasm

/-- The names bound by the argument sets. -/
def shape (s : S) : List (List Str) := s.argSets.map (·.map (·.1))

/-- A state inside at least one error session, with no problem of a later session on record. -/
structure Wf (s : S) : Prop where
  pos : 1 ≤ s.session
  le : ∀ e ∈ s.errors, e.sess ≤ s.session

/-- Problems of one session. -/
def OfSess (n : Int) (l : List Err) : Prop := ∀ e ∈ l, e.sess = n ∧ e.code ≠ 0

/-- `a'` has one more argument set than `a` if `b`, else it is the same. -/
def Sh (b : Bool) (a a' : List (List Str)) : Prop := if b then ∃ t, a' = t :: a else a' = a

/-- Balanced up to one new argument set if `b`. -/
def BalP (b : Bool) (s s' : S) : Prop :=
  s'.stale = false → s.stale = false ∧ (Wf s → s'.session = s.session ∧ Sh b (shape s) (shape s') ∧
    ∃ new, s'.errors = new ++ s.errors ∧ OfSess s.session new)

/-- Balanced. -/
abbrev BalR := BalP false

/-- `s` is inside the error session that was opened in `s0`; `b` as in `BalP`. Problems that were replayed are
already in the session of `s0`. -/
def Inside (b : Bool) (s0 s : S) : Prop :=
  s.stale = false → s0.stale = false ∧ (Wf s0 → s.session = s0.session + 1 ∧ Sh b (shape s0) (shape s) ∧
    ∃ A B, s.errors = A ++ (B ++ s0.errors) ∧ OfSess (s0.session + 1) A ∧ OfSess s0.session B)

/-- A problem was added. -/
def Grew (s s' : S) : Prop := s'.stale = false → Wf s → s.errors.length < s'.errors.length

theorem OfSess.append {n : Int} {l l' : List Err} (h : OfSess n l) (h' : OfSess n l') : OfSess n (l ++ l') := by
  intro e he
  rcases List.mem_append.mp he with he | he
  · exact h e he
  · exact h' e he

theorem OfSess.nil (n : Int) : OfSess n [] := fun e he => by cases he

theorem BalP.wf {b : Bool} {s s' : S} (h : BalP b s s') (hs : s'.stale = false) (w : Wf s) : Wf s' := by
  obtain ⟨_, h⟩ := h hs
  obtain ⟨h1, _, new, h2, h3⟩ := h w
  refine ⟨by rw [h1]; exact w.pos, fun e he => ?_⟩
  rw [h2] at he
  rw [h1]
  rcases List.mem_append.mp he with he | he
  · exact Int.le_of_eq (h3 e he).1
  · exact w.le e he

theorem BalP.refl (s : S) : BalP false s s :=
  fun h => ⟨h, fun _ => ⟨rfl, rfl, [], rfl, OfSess.nil _⟩⟩

/-- Same errors, sessions and argument names. -/
theorem BalP.of_eq {s s' : S} (h1 : s'.errors = s.errors) (h2 : s'.session = s.session)
    (h3 : shape s' = shape s) (h4 : s'.stale = s.stale) : BalR s s' :=
  fun h => ⟨by rw [← h4]; exact h, fun _ => ⟨h2, h3, [], by simp [h1], OfSess.nil _⟩⟩

theorem BalP.trans {b : Bool} {a c d : S} (h : BalP false a c) (h' : BalP b c d) : BalP b a d := by
  intro hd
  have hd' := h' hd
  have hc := h hd'.1
  refine ⟨hc.1, fun w => ?_⟩
  obtain ⟨h1, h2, n, h3, h4⟩ := hc.2 w
  obtain ⟨g1, g2, m, g3, g4⟩ := hd'.2 (h.wf hd'.1 w)
  refine ⟨g1.trans h1, ?_, m ++ n, by rw [g3, h3, List.append_assoc], ?_⟩
  · have h2' : shape c = shape a := h2
    rw [← h2']; exact g2
  · rw [h1] at g4; exact g4.append h4

theorem BalP.trans' {b : Bool} {a c d : S} (h : BalP b a c) (h' : BalP false c d) : BalP b a d := by
  intro hd
  have hd' := h' hd
  have hc := h hd'.1
  refine ⟨hc.1, fun w => ?_⟩
  obtain ⟨h1, h2, n, h3, h4⟩ := hc.2 w
  obtain ⟨g1, g2, m, g3, g4⟩ := hd'.2 (h.wf hd'.1 w)
  refine ⟨g1.trans h1, ?_, m ++ n, by rw [g3, h3, List.append_assoc], ?_⟩
  · have g2' : shape d = shape c := g2
    rw [g2']; exact h2
  · rw [h1] at g4; exact g4.append h4

/-- Removing the argument set that was added. -/
theorem BalP.pop {b : Bool} {s s' s'' : S} (h : BalP b s s') (e : removeArgSet b s' = .ok () s'') : BalR s s'' := by
  cases b with
  | false => cases e; exact h
  | true =>
    cases e
    intro hs
    obtain ⟨g1, g2⟩ := h hs
    refine ⟨g1, fun w => ?_⟩
    obtain ⟨h1, ⟨t, h2⟩, n, h3, h4⟩ := g2 w
    refine ⟨h1, ?_, n, h3, h4⟩
    show (s'.argSets.tail).map _ = _
    rw [List.map_tail]
    show (shape s').tail = _
    rw [h2]; rfl

theorem Inside.start (s : S) : Inside false s { s with session := s.session + 1 } :=
  fun h => ⟨h, fun _ => ⟨rfl, rfl, [], [], rfl, OfSess.nil _, OfSess.nil _⟩⟩

theorem Inside.wf {b : Bool} {s0 s : S} (h : Inside b s0 s) (hs : s.stale = false) (w : Wf s0) : Wf s := by
  obtain ⟨_, h⟩ := h hs
  obtain ⟨h1, _, A, B, h2, h3, h4⟩ := h w
  refine ⟨by rw [h1]; have := w.pos; omega, fun e he => ?_⟩
  rw [h2] at he
  rw [h1]
  rcases List.mem_append.mp he with he | he
  · exact Int.le_of_eq (h3 e he).1
  · rcases List.mem_append.mp he with he | he
    · have := (h4 e he).1; omega
    · have := w.le e he; omega

theorem Inside.bal {b : Bool} {s0 s s' : S} (h : Inside b s0 s) (h' : BalP false s s') : Inside b s0 s' := by
  intro hs
  obtain ⟨g1, g2⟩ := h' hs
  have hw := h.wf g1
  obtain ⟨h1, h2⟩ := h g1
  refine ⟨h1, fun w => ?_⟩
  obtain ⟨i1, i2, A, B, i3, i4, i5⟩ := h2 w
  obtain ⟨j1, j2, n, j3, j4⟩ := g2 (hw w)
  refine ⟨j1.trans i1, ?_, n ++ A, B, by rw [j3, i3, List.append_assoc], ?_, i5⟩
  · have j2' : shape s' = shape s := j2
    rw [j2']; exact i2
  · rw [i1] at j4; exact j4.append i4

theorem Inside.push {b : Bool} {s0 s s' : S} (h : Inside false s0 s) (h' : BalP b s s') : Inside b s0 s' := by
  intro hs
  obtain ⟨g1, g2⟩ := h' hs
  have hw := h.wf g1
  obtain ⟨h1, h2⟩ := h g1
  refine ⟨h1, fun w => ?_⟩
  obtain ⟨i1, i2, A, B, i3, i4, i5⟩ := h2 w
  obtain ⟨j1, j2, n, j3, j4⟩ := g2 (hw w)
  refine ⟨j1.trans i1, ?_, n ++ A, B, by rw [j3, i3, List.append_assoc], ?_, i5⟩
  · have i2' : shape s = shape s0 := i2
    rw [← i2']; exact j2
  · rw [i1] at j4; exact j4.append i4

theorem Inside.pop {b : Bool} {s0 s s' : S} (h : Inside b s0 s) (e : removeArgSet b s = .ok () s') :
    Inside false s0 s' := by
  cases b with
  | false => cases e; exact h
  | true =>
    cases e
    intro hs
    obtain ⟨g1, g2⟩ := h hs
    refine ⟨g1, fun w => ?_⟩
    obtain ⟨h1, ⟨t, h2⟩, n, h3, h4⟩ := g2 w
    refine ⟨h1, ?_, n, h3, h4⟩
    show (s.argSets.tail).map _ = _
    rw [List.map_tail]
    show (shape s).tail = _
    rw [h2]; rfl

theorem takeWhile_inside {n : Int} {A R : List Err} (hA : OfSess n A) (hR : ∀ e ∈ R, e.sess < n) :
    (A ++ R).takeWhile (fun e => e.sess == n) = A := by
  induction A with
  | nil =>
    cases R with
    | nil => rfl
    | cons r R =>
      have := hR r (by simp)
      rw [List.nil_append, List.takeWhile_cons_of_neg]
      simp; omega
  | cons a A ih =>
    rw [List.cons_append, List.takeWhile_cons_of_pos (by simp [(hA a (by simp)).1])]
    rw [ih (fun e he => hA e (by simp [he]))]

theorem dropWhile_inside {n : Int} {A R : List Err} (hA : OfSess n A) (hR : ∀ e ∈ R, e.sess < n) :
    (A ++ R).dropWhile (fun e => e.sess == n) = R := by
  induction A with
  | nil =>
    cases R with
    | nil => rfl
    | cons r R =>
      have := hR r (by simp)
      rw [List.nil_append, List.dropWhile_cons_of_neg]
      simp; omega
  | cons a A ih =>
    rw [List.cons_append, List.dropWhile_cons_of_pos (by simp [(hA a (by simp)).1])]
    exact ih (fun e he => hA e (by simp [he]))

theorem lowerPrefix_inside {n : Int} {A R : List Err} (hA : OfSess n A) (hR : ∀ e ∈ R, e.sess < n) :
    lowerPrefix n (A ++ R) = A.map (fun e => { e with sess := e.sess - 1 }) ++ R := by
  induction A with
  | nil =>
    cases R with
    | nil => rfl
    | cons r R =>
      have := hR r (by simp)
      simp only [List.nil_append, List.map_nil]
      unfold lowerPrefix
      rw [if_neg]
      simp; omega
  | cons a A ih =>
    rw [List.cons_append, lowerPrefix, if_pos (by simp [(hA a (by simp)).1])]
    rw [ih (fun e he => hA e (by simp [he]))]; rfl

theorem lt_inside {s0 : S} {B : List Err} (w : Wf s0) (hB : OfSess s0.session B) :
    ∀ e ∈ B ++ s0.errors, e.sess < s0.session + 1 := by
  intro e he
  rcases List.mem_append.mp he with he | he
  · have := (hB e he).1; omega
  · have := w.le e he; omega

theorem Inside.replay {b : Bool} {s0 s s' : S} {n : Int} {fo : Bool} (h : Inside b s0 s)
    (hn : n = s0.session + 1) (e : replaySession n fo s = .ok () s') : Inside b s0 s' := by
  intro hs
  have hst : s'.stale = s.stale := by
    unfold replaySession at e; split at e <;> cases e <;> rfl
  obtain ⟨g1, g2⟩ := h (by rw [← hst]; exact hs)
  refine ⟨g1, fun w => ?_⟩
  obtain ⟨i1, i2, A, B, i3, i4, i5⟩ := g2 w
  unfold replaySession at e
  have hp := w.pos
  rw [if_neg (by omega)] at e
  cases e
  refine ⟨i1, i2, [], A.map (fun e => { e with sess := e.sess - 1 }) ++ B, ?_, OfSess.nil _, ?_⟩
  · show lowerPrefix n s.errors = _
    rw [i3, hn, lowerPrefix_inside i4 (lt_inside w i5)]
    simp
  · refine OfSess.append ?_ i5
    intro x hx
    obtain ⟨y, hy, rfl⟩ := List.mem_map.mp hx
    have := i4 y hy
    exact ⟨by dsimp only; omega, this.2⟩

theorem Inside.close {b : Bool} {s0 s s' : S} {n : Int} (h : Inside b s0 s) (hn : n = s0.session + 1)
    (e : endSession n s = .ok () s') : BalP b s0 s' := by
  unfold endSession at e
  dsimp only at e
  split at e
  · cases e
  · cases e
    intro hs
    obtain ⟨g1, g2⟩ := h hs
    refine ⟨g1, fun w => ?_⟩
    obtain ⟨i1, i2, A, B, i3, i4, i5⟩ := g2 w
    refine ⟨by show s.session - 1 = _; omega, i2, B, ?_, i5⟩
    show s.errors.dropWhile _ = _
    rw [i3, hn, dropWhile_inside i4 (lt_inside w i5)]

/-! ### Programs -/

/-- A piece of the program that is balanced when it returns. -/
structure Bal {α : Type} (m : M α) : Prop where
  bal : ∀ s a s', m s = .ok a s' → BalR s s'

namespace Bal
variable {α β : Type}

theorem pure (a : α) : Bal (Pure.pure a : M α) := ⟨fun s a s' h => by cases h; exact .refl s⟩
theorem pure' (a : α) : Bal (M.pure' a : M α) := pure a
theorem halt (e : Stop) : Bal (M.halt e : M α) := ⟨fun s a s' h => by cases h⟩
theorem ub (u : UB) : Bal (M.ub u : M α) := halt _
theorem get : Bal M.get := ⟨fun s a s' h => by cases h; exact .refl s⟩

theorem bind {m : M α} {f : α → M β} (h : Bal m) (h' : ∀ a, Bal (f a)) : Bal (m >>= f) := by
  constructor
  intro s b s'' e
  obtain ⟨a, s', e1, e2⟩ := M.bind_eq_ok.mp e
  exact (h.bal _ _ _ e1).trans ((h' a).bal _ _ _ e2)

theorem when {c : Bool} {m : M Unit} (h : Bal m) : Bal (M.when c m) := by
  cases c
  · exact Bal.pure ()
  · exact h

theorem modify {f : S → S} (h : ∀ s, BalR s (f s)) : Bal (M.modify f) :=
  ⟨fun s a s' e => by cases e; exact h s⟩

theorem free {f : S → S} (h1 : ∀ s, (f s).errors = s.errors) (h2 : ∀ s, (f s).session = s.session)
    (h3 : ∀ s, (f s).argSets = s.argSets) (h4 : ∀ s, (f s).stale = s.stale) : Bal (M.modify f) :=
  modify fun s => .of_eq (h1 s) (h2 s) (by unfold shape; rw [h3 s]) (h4 s)

end Bal

theorem bal_pure {α : Type} (a : α) : Bal (pure a : M α) := Bal.pure a
theorem bal_pure' {α : Type} (a : α) : Bal (M.pure' a : M α) := Bal.pure' a
theorem bal_halt {α : Type} (e : Stop) : Bal (M.halt e : M α) := Bal.halt e
theorem bal_ub {α : Type} (u : UB) : Bal (M.ub u : M α) := Bal.ub u
theorem bal_get : Bal M.get := Bal.get

theorem shape_updAt (f : Table Define → Table Define) (hf : ∀ t, (f t).map (·.1) = t.map (·.1)) (i : Nat)
    (l : List (Table Define)) : (updAt f i l).map (·.map (·.1)) = l.map (·.map (·.1)) := by
  induction l generalizing i with
  | nil => cases i <;> rfl
  | cons t l ih =>
    cases i with
    | zero => simp [updAt, hf]
    | succ i => simp [updAt, ih i]

theorem keys_update (k : Str) (f : Define → Define) (t : Table Define) :
    (Table.update k f t).map (·.1) = t.map (·.1) := by
  unfold Table.update
  rw [List.map_map]
  apply List.map_congr_left
  intro p _
  dsimp only [Function.comp]
  split <;> rfl

theorem balR_writeDef (r : DRef) (f : Define → Define) (s : S) : BalR s (writeDef r f s) := by
  cases r with
  | glob k => exact .of_eq rfl rfl rfl rfl
  | arg i k => exact .of_eq rfl rfl (shape_updAt _ (keys_update k f) _ _) rfl

theorem bal_writeDef (r : DRef) (f : Define → Define) : Bal (M.modify (writeDef r f)) :=
  Bal.modify fun s => balR_writeDef r f s

/-- Compositional proof of `Bal`. -/
macro "bal" : tactic => `(tactic|
  repeat' (first
    | with_reducible apply Bal.bind
    | with_reducible apply Bal.when
    | intro _
    | with_reducible assumption
    | with_reducible dispatch "bal_"
    | with_reducible exact bal_writeDef _ _
    | (with_reducible apply Bal.free) <;> (intro _; with_reducible rfl)
    | split
    | dsimp only))

/-! ### errors.cpp -/

theorem inside_start {s s1 : S} {n : Int} (e : startSession s = .ok n s1) :
    n = s.session + 1 ∧ Inside false s s1 := by
  unfold startSession at e
  cases e
  exact ⟨rfl, Inside.start s⟩







theorem bal_setProblem (c : Nat) (w : Bool) : Bal (setProblem c w) := by
  constructor
  intro s a s' e
  unfold setProblem at e
  split at e
  · cases e; exact .refl s
  · cases e
    refine fun h => ⟨h, fun _ => ⟨rfl, rfl, [_], rfl, ?_⟩⟩
    intro x hx
    simp at hx; subst hx
    exact ⟨rfl, by assumption⟩

theorem grew_setError {c : Nat} {s s' : S} (hc : c ≠ 0) (e : setError c s = .ok () s') : Grew s s' := by
  unfold setError setProblem at e
  rw [if_neg hc] at e
  cases e
  intro _ _
  simp

theorem bal_setError (c : Nat) : Bal (setError c) := bal_setProblem c false
theorem bal_setWarning (c : Nat) : Bal (setWarning c) := bal_setProblem c true
theorem bal_annotate (n : Int) : Bal (annotate n) := Bal.pure ()
theorem bal_showError (m : Msg) : Bal (showError m) := by
  unfold showError; bal
theorem bal_showFatal (m : Msg) : Bal (showFatal m) := by
  unfold showFatal; bal
theorem bal_showWarning (m : Msg) : Bal (showWarning m) := by
  unfold showWarning; bal

/-! ### Scanners and storage -/

theorem bal_readExpr (d s : Str) (b : Bool) : Bal (readExpr d s b) := by
  constructor
  intro st a st' e
  unfold readExpr at e
  dsimp only at e
  split at e
  · cases e; exact .refl st
  · split at e
    · cases e; exact .refl st
    · cases e; exact .of_eq rfl rfl rfl rfl

theorem bal_extractArg (e : Bool) (s : Str) : Bal (extractArg e s) := by
  unfold extractArg; bal

theorem bal_searchDefines (n : Str) (l : Bool) : Bal (searchDefines n l) := by
  constructor
  intro s a s' e
  unfold searchDefines at e
  dsimp only at e
  split at e
  · cases e; exact .refl s
  · split at e
    · cases e; exact .refl s
    · cases e; exact balR_writeDef _ _ s

theorem bal_addDefine (n : Str) (l : Bool) : Bal (addDefine n l) := by
  unfold addDefine; bal

theorem bal_removeDefine (n : Str) : Bal (removeDefine n) := by
  unfold removeDefine; bal

theorem bal_addReusable : Bal addReusable := by
  constructor
  intro s a s' e
  unfold addReusable at e
  split at e
  · cases e
  · cases e; exact .of_eq rfl rfl rfl rfl

theorem bal_setCurrReusable (i : Int) : Bal (setCurrReusable i) := by
  unfold setCurrReusable; bal

theorem bal_searchReusables (i : Int) : Bal (searchReusables i) := by
  constructor
  intro s a s' e
  unfold searchReusables at e
  split at e
  · cases e; exact .of_eq rfl rfl rfl rfl
  · split at e
    · cases e
    · cases e; exact .refl s

theorem push_addArgSet {s s' : S} (e : addArgSet s = .ok () s') : BalP true s s' := by
  unfold addArgSet at e
  cases e
  exact fun h => ⟨h, fun _ => ⟨rfl, ⟨[], rfl⟩, [], rfl, OfSess.nil _⟩⟩

/-- Adding a binding to the new argument set. -/
theorem BalP.addArg {s s' s'' : S} (h : BalP true s s') {n : Str} {v : Option Str}
    (e : addArg n v s' = .ok () s'') : BalP true s s'' := by
  unfold Spasm.addArg at e
  cases e
  intro hs
  obtain ⟨g1, g2⟩ := h hs
  refine ⟨g1, fun w => ?_⟩
  obtain ⟨h1, ⟨t, h2⟩, n, h3, h4⟩ := g2 w
  refine ⟨h1, ?_, n, h3, h4⟩
  show ∃ t, (updAt _ 0 s'.argSets).map _ = t :: shape s
  unfold shape at h2
  cases ha : s'.argSets with
  | nil => rw [ha] at h2; simp at h2
  | cons x xs => rw [ha] at h2; simp at h2; exact ⟨_, by simp only [updAt, List.map_cons]; unfold shape; rw [h2.2]⟩

theorem bal_addLabel (n : Str) (v : Int) : Bal (addLabel n v) := by
  unfold addLabel; bal

/-! ### The functions that call back -/

/-- The callbacks are balanced, and a failing evaluation puts a problem on record. -/
structure RecBal (k : Rec) : Prop where
  numFull : ∀ s d, Bal (k.numFull s d)
  numFail : ∀ s d st st', k.numFull s d st = .ok none st' → Grew st st'
  expandFull : ∀ s d l, Bal (k.expandFull s d l)
  handlePreop : ∀ s, Bal (k.handlePreop s)
  preopIf : ∀ s, Bal (k.preopIf s)
  lineSec : ∀ s, Bal (k.lineSec s)
  emitString : ∀ s e, Bal (k.emitString s e)

theorem bal_numFull {k : Rec} (hk : RecBal k) (s : Str) (d : Int) : Bal (k.numFull s d) := hk.numFull s d
theorem bal_expandFull {k : Rec} (hk : RecBal k) (s : Str) (d : Nat) (l : Bool) : Bal (k.expandFull s d l) :=
  hk.expandFull s d l
theorem bal_handlePreop {k : Rec} (hk : RecBal k) (s : Str) : Bal (k.handlePreop s) := hk.handlePreop s
theorem bal_preopIf {k : Rec} (hk : RecBal k) (s : Str) : Bal (k.preopIf s) := hk.preopIf s
theorem bal_lineSec {k : Rec} (hk : RecBal k) (s : Str) : Bal (k.lineSec s) := hk.lineSec s
theorem bal_emitString {k : Rec} (hk : RecBal k) (s : Str) (e : Es) : Bal (k.emitString s e) := hk.emitString s e

variable {k : Rec} (hk : RecBal k)
include hk

theorem bal_parseNum (s : Str) : Bal (parseNum k s) := by
  unfold parseNum; bal

theorem bal_parseF (s : Str) : Bal (parseF k s) := by
  constructor
  intro st a st' e
  unfold parseF at e
  obtain ⟨n, s1, e1, e⟩ := M.bind_eq_ok.mp e
  obtain ⟨hn, h1⟩ := inside_start e1
  obtain ⟨r, s2, e2, e⟩ := M.bind_eq_ok.mp e
  have h2 := h1.bal ((bal_parseNum hk s).bal _ _ _ e2)
  rw [M.get_bind] at e
  obtain ⟨_, s3, e3, e⟩ := M.bind_eq_ok.mp e
  cases e
  exact h2.close hn e3

theorem bal_expandExpr (s : Str) (l : Bool) : Bal (expandExpr k s l) := hk.expandFull s 0 l

theorem bal_evalStr (s : Str) : Bal (evalStr k s) := by
  constructor
  intro st a st' e
  unfold evalStr at e
  obtain ⟨n, s1, e1, e⟩ := M.bind_eq_ok.mp e
  obtain ⟨hn, h1⟩ := inside_start e1
  obtain ⟨r, s2, e2, e⟩ := M.bind_eq_ok.mp e
  have h2 := h1.bal ((bal_parseNum hk s).bal _ _ _ e2)
  obtain ⟨_, s3, e3, e⟩ := M.bind_eq_ok.mp e
  refine (h2.close hn e3).trans ?_
  refine Bal.bal (m := _) ?_ _ _ _ e
  bal

theorem bal_reduceLoop (s out : Str) (q : Nat) : Bal (reduceLoop k s out q) := by
  fun_induction reduceLoop k s out q <;> bal
  all_goals solve_by_elim

theorem bal_reduceString (s : Str) : Bal (reduceString k s) := by
  unfold reduceString; bal

theorem push_argLoop (f : Nat) (x : Bool) (ps : List Str) (t : Str) {s s' s'' : S} {a : List Str × Str}
    (h : BalP true s s') (e : argLoop k f x ps t s' = .ok a s'') : BalP true s s'' := by
  induction f generalizing x ps t s' with
  | zero => unfold argLoop at e; cases e
  | succ f ih =>
    unfold argLoop at e
    obtain ⟨⟨w, x', t'⟩, s1, e1, e⟩ := M.bind_eq_ok.mp e
    replace h := h.trans' ((bal_extractArg _ _).bal _ _ _ e1)
    dsimp only at e
    cases w with
    | none => cases e; exact h
    | some w =>
      dsimp only at e
      cases ps with
      | nil =>
        dsimp only at e
        obtain ⟨_, s2, e2, e⟩ := M.bind_eq_ok.mp e
        cases e
        exact h.trans' ((bal_setWarning _).bal _ _ _ e2)
      | cons p ps =>
        dsimp only at e
        split at e
        · obtain ⟨_, s2, e2, e⟩ := M.bind_eq_ok.mp e
          exact ih _ _ _ (h.addArg e2) e
        · obtain ⟨v, s2, e2, e⟩ := M.bind_eq_ok.mp e
          obtain ⟨_, s3, e3, e⟩ := M.bind_eq_ok.mp e
          exact ih _ _ _ ((h.trans' ((bal_evalStr hk _).bal _ _ _ e2)).addArg e3) e

omit hk in
theorem push_fillArgs (ps : List Str) {s s' s'' : S} (h : BalP true s s') (e : fillArgs ps s' = .ok () s'') :
    BalP true s s'' := by
  induction ps generalizing s' with
  | nil => unfold fillArgs at e; cases e; exact h
  | cons p ps ih =>
    unfold fillArgs at e
    obtain ⟨_, s1, e1, e⟩ := M.bind_eq_ok.mp e
    exact ih (h.addArg e1) e

theorem push_parseArgs (t : Str) (d : Define) {s s' : S} {a : Str × Bool}
    (e : parseArgs k t d s = .ok a s') : BalP a.2 s s' := by
  unfold parseArgs at e
  split at e
  · cases e; exact .refl s
  · obtain ⟨_, s1, e1, e⟩ := M.bind_eq_ok.mp e
    have h := push_addArgSet e1
    have fin : ∀ (x : List Str × Str) (s2 : S), BalP true s s2 →
        ((match x with
          | (ps, r) => do
            fillArgs ps
            pure (dropChar 41 r, true)) : M (Str × Bool)) s2 = .ok a s' → BalP a.2 s s' := by
      intro x s2 h2 e
      obtain ⟨ps, r⟩ := x
      dsimp only at e
      obtain ⟨_, s3, e3, e⟩ := M.bind_eq_ok.mp e
      cases e
      exact push_fillArgs _ h2 e3
    split at e
    · dsimp only at e
      split at e
      · obtain ⟨x, s2, e2, e⟩ := M.bind_eq_ok.mp e
        exact fin x _ (push_argLoop hk _ _ _ _ h e2) e
      · rw [M.pure_bind] at e
        exact fin (_, _) _ h e
    · rw [M.pure_bind] at e
      exact fin (_, _) _ h e

theorem bal_parseDefineLoop (f : Nat) (s : Str) : Bal (parseDefineLoop k f s) := by
  induction f generalizing s with
  | zero => unfold parseDefineLoop; bal
  | succ f ih => unfold parseDefineLoop; bal; all_goals exact ih _

theorem bal_parseDefine (d : Define) : Bal (parseDefine k d) := by
  unfold parseDefine; bal

omit hk in
theorem bal_parsePlus (s : Str) : Bal (parsePlus s) := by
  unfold parsePlus; bal

omit hk in
theorem bal_parseMinus (s : Str) : Bal (parseMinus s) := by
  unfold parseMinus; bal

omit hk in
theorem bal_randByte : Bal randByte := ⟨fun s a s' e => by cases e; exact .of_eq rfl rfl rfl rfl⟩

omit hk in
theorem bal_escapeVal (c : Nat) : Bal (escapeVal c) := by
  unfold escapeVal; bal

omit hk in
theorem bal_closeQuote (s : Str) (v : Int) : Bal (closeQuote s v) := by
  unfold closeQuote; bal

omit hk in
theorem bal_parseChar (s : Str) : Bal (parseChar s) := by
  unfold parseChar; bal

theorem bal_parseGetc (s : Str) : Bal (parseGetc k s) := by
  unfold parseGetc; bal

omit hk in
/-- What a failing evaluation inside a session leaves behind. -/
theorem Inside.count {b : Bool} {s0 s1 s2 : S} {n : Int} (h : Inside b s0 s1) (hn : n = s0.session + 1)
    (hb : BalR s1 s2) (hg : Grew s1 s2) (hs : s2.stale = false) (w : Wf s0) : 0 < sessionCount n s2 := by
  have h2 := h.bal hb
  obtain ⟨i1, i2, A, B, i3, i4, i5⟩ := (h2 hs).2 w
  obtain ⟨g1, g2⟩ := hb hs
  have hl := hg hs (h.wf g1 w)
  obtain ⟨j1, j2, new, j3, j4⟩ := g2 (h.wf g1 w)
  unfold sessionCount sessPrefix
  rw [i3, hn, takeWhile_inside i4 (lt_inside w i5)]
  have hA : A ≠ [] := by
    rintro rfl
    rw [i3] at j3
    have hnew : new ≠ [] := by rintro rfl; rw [i3] at hl; simp at j3; rw [← j3] at hl; simp at hl
    cases new with
    | nil => exact hnew rfl
    | cons x new =>
      have hx := (j4 x (by simp)).1
      have hx2 : x ∈ B ++ s0.errors := by
        have : x ∈ x :: new ++ s1.errors := by simp
        rw [← j3] at this; simpa using this
      have := lt_inside w i5 x hx2
      have hi := (h g1).2 w
      omega
  cases A with
  | nil => exact absurd rfl hA
  | cons a A =>
    have := (i4 a (by simp)).2
    simp [this]

omit hk in
/-- Replaying the problems of a session and closing it leaves one more problem than before. -/
theorem Inside.replay_grew {s0 s1 s2 s3 : S} {n : Int} {b fo : Bool} (h : Inside b s0 s1)
    (hn : n = s0.session + 1) (hc : 0 < sessionCount n s1) (e1 : replaySession n fo s1 = .ok () s2)
    (e2 : endSession n s2 = .ok () s3) : Grew s0 s3 := by
  intro hs w
  unfold endSession at e2
  dsimp only at e2
  have hst : s2.stale = s1.stale := by
    unfold replaySession at e1; split at e1 <;> cases e1 <;> rfl
  split at e2
  · cases e2
  · cases e2
    obtain ⟨i1, i2, A, B, i3, i4, i5⟩ := (h (by rw [← hst]; exact hs)).2 w
    have hA : 0 < A.length := by
      unfold sessionCount sessPrefix at hc
      rw [i3, hn, takeWhile_inside i4 (lt_inside w i5)] at hc
      exact Nat.lt_of_lt_of_le hc (List.length_filter_le _ _)
    unfold replaySession at e1
    have hp := w.pos
    rw [if_neg (by omega)] at e1
    cases e1
    show _ < (List.dropWhile _ (lowerPrefix n s1.errors)).length
    rw [i3, hn, lowerPrefix_inside i4 (lt_inside w i5)]
    have : (List.dropWhile (fun e => e.sess == s0.session + 1)
        (A.map (fun e => { e with sess := e.sess - 1 }) ++ (B ++ s0.errors))) =
        A.map (fun e => { e with sess := e.sess - 1 }) ++ (B ++ s0.errors) := by
      have := dropWhile_inside (n := s0.session + 1) (A := [])
        (R := A.map (fun e => { e with sess := e.sess - 1 }) ++ (B ++ s0.errors)) (OfSess.nil _) (by
          intro e he
          rcases List.mem_append.mp he with he | he
          · obtain ⟨y, hy, rfl⟩ := List.mem_map.mp he
            have := (i4 y hy).1
            dsimp only; omega
          · exact lt_inside w i5 e he)
      simpa using this
    rw [this]
    simp; omega

omit hk in
theorem Grew.trans_bal {s s' s'' : S} (h : BalR s s') (g : Grew s' s'') (hs : BalR s' s'') : Grew s s'' := by
  intro hst w
  have h1 := (hs hst).1
  have h2 := h.wf h1 w
  have h3 := g hst h2
  obtain ⟨_, _, n, e, _⟩ := (h h1).2 w
  rw [e] at h3
  simp at h3; omega

omit hk in
theorem Grew.bal_trans {b : Bool} {s s' s'' : S} (g : Grew s s') (h : BalP b s' s'') (hb : BalR s s') : Grew s s'' := by
  intro hst w
  have h1 := (h hst).1
  have h3 := g h1 w
  obtain ⟨_, _, n, e, _⟩ := (h hst).2 (hb.wf h1 w)
  rw [e]
  simp; omega

theorem parseMacro_both (d : Define) (t : Str) {s s' : S} {a : Option (Str × Int)}
    (e : parseMacro k d t s = .ok a s') : BalR s s' ∧ (a = none → Grew s s') := by
  unfold parseMacro at e
  obtain ⟨⟨t', p⟩, s1, e1, e⟩ := M.bind_eq_ok.mp e
  have h1 := push_parseArgs hk _ _ e1
  dsimp only at e h1
  rw [M.get_bind, M.modify_bind] at e
  have hm : BalR s1 { s1 with lineNum := d.line } := .of_eq rfl rfl rfl rfl
  replace h1 := h1.trans' hm
  obtain ⟨n, s2, e2, e⟩ := M.bind_eq_ok.mp e
  obtain ⟨hn, h2⟩ := inside_start e2
  obtain ⟨c, s3, e3, e⟩ := M.bind_eq_ok.mp e
  have h3 := h2.bal ((bal_parseDefine hk d).bal _ _ _ e3)
  -- the evaluation of the contents
  have key : ∀ v s4, ((match c with
      | none => do
        setError E.ARG_USED_WITHOUT_VALUE
        pure none
      | some c => k.numFull c 0 : M (Option (Str × Int))) s3 = .ok v s4) →
      BalR s3 s4 ∧ (v = none → Grew s3 s4) := by
    intro v s4 e4
    cases c with
    | none =>
      dsimp only at e4
      obtain ⟨_, s5, e5, e4⟩ := M.bind_eq_ok.mp e4
      cases e4
      exact ⟨(bal_setError _).bal _ _ _ e5, fun _ => grew_setError (by decide) e5⟩
    | some c =>
      dsimp only at e4
      refine ⟨(hk.numFull c 0).bal _ _ _ e4, ?_⟩
      rintro rfl
      exact hk.numFail c 0 _ _ e4
  have hsplit : ∃ v s4, ((match c with
      | none => do
        setError E.ARG_USED_WITHOUT_VALUE
        pure none
      | some c => k.numFull c 0 : M (Option (Str × Int))) s3 = .ok v s4) ∧
      (do
        M.modify fun st => { st with lineNum := s1.lineNum }
        let st ← M.get
        let bad := sessionCount n st > 0
        M.when bad (do annotate n; replaySession n)
        endSession n
        removeArgSet p
        if bad then pure none
        else
          match v with
          | some (_, v) => pure (some (t', v))
          | none => M.ub .uninitialised : M (Option (Str × Int))) s4 = .ok a s' := by
    cases c with
    | none =>
      dsimp only at e
      obtain ⟨_, s5, e5, e⟩ := M.bind_eq_ok.mp e
      exact ⟨none, s5, by dsimp only; rw [M.bind_ok e5]; rfl, e⟩
    | some c =>
      dsimp only at e
      obtain ⟨v, s5, e5, e⟩ := M.bind_eq_ok.mp e
      exact ⟨v, s5, e5, e⟩
  obtain ⟨v, s4, e4, e⟩ := hsplit
  obtain ⟨k1, k2⟩ := key v s4 e4
  have h4 := h3.bal k1
  rw [M.modify_bind, M.get_bind] at e
  have h5 := h4.bal (.of_eq rfl rfl rfl rfl : BalR s4 { s4 with lineNum := s1.lineNum })
  have hcount : ∀ m : Int, sessionCount m { s4 with lineNum := s1.lineNum } = sessionCount m s4 := fun _ => rfl
  by_cases hbad : sessionCount n s4 > 0
  · rw [hcount, decide_eq_true hbad, M.when_true, M.bind_assoc] at e
    unfold annotate at e
    rw [M.pure_bind] at e
    obtain ⟨_, s6, e6, e⟩ := M.bind_eq_ok.mp e
    obtain ⟨_, s7, e7, e⟩ := M.bind_eq_ok.mp e
    obtain ⟨_, s8, e8, e⟩ := M.bind_eq_ok.mp e
    have h6 := h5.replay hn e6
    have h7 := h6.close hn e7
    have hb := (h1.trans' h7).pop e8
    have hg : Grew { s1 with lineNum := d.line } s7 := h5.replay_grew hn hbad e6 e7
    simp only [hbad, if_true] at e
    cases e
    refine ⟨hb, fun _ => ?_⟩
    intro hst w
    have e8' : s'.errors = s7.errors ∧ s'.stale = s7.stale := by
      unfold removeArgSet M.when at e8
      split at e8 <;> cases e8 <;> exact ⟨rfl, rfl⟩
    rw [e8'.1]
    have hst7 : s7.stale = false := by rw [← e8'.2]; exact hst
    have hst1 := (h7 hst7).1
    have hw1 := h1.wf hst1 w
    have := hg hst7 hw1
    obtain ⟨_, _, new, hnew, _⟩ := (h1 hst1).2 w
    rw [hnew] at this
    simp at this; omega
  · rw [hcount, decide_eq_false hbad, M.when_false, M.pure_bind] at e
    obtain ⟨_, s7, e7, e⟩ := M.bind_eq_ok.mp e
    obtain ⟨_, s8, e8, e⟩ := M.bind_eq_ok.mp e
    have h7 := h5.close hn e7
    have hb := (h1.trans' h7).pop e8
    simp only [hbad, if_false] at e
    cases v with
    | none => cases e
    | some v => cases e; exact ⟨hb, fun h => by cases h⟩

theorem bal_parseMacro (d : Define) (s : Str) : Bal (parseMacro k d s) :=
  ⟨fun _ _ _ e => (parseMacro_both hk d s e).1⟩

theorem bal_parseName (s : Str) : Bal (parseName k s) := by
  unfold parseName; bal

omit hk in
theorem bal_convGeneric (b e : Nat) (s : Str) (n : Nat) : Bal (convGeneric b e s n) := by
  unfold convGeneric; bal

omit hk in
theorem bal_convHex (s : Str) (n : Nat) : Bal (convHex s n) := by
  unfold convHex; bal

omit hk in
theorem bal_convDec (s : Str) (n : Nat) : Bal (convDec s n) := by
  unfold convDec; bal

omit hk in
theorem bal_convBin (s : Str) (n : Nat) : Bal (convBin s n) := by
  unfold convBin; bal

omit hk in
theorem bal_parseDigits (s : Str) : Bal (parseDigits s) := by
  unfold parseDigits; bal

theorem bal_parseSingle (s : Str) : Bal (parseSingle k s) := by
  unfold parseSingle; bal

omit hk in
theorem bal_getOp (d : Int) (f : Nat) (s : Str) : Bal (getOp d f s) := by
  induction f generalizing s with
  | zero => unfold getOp; bal
  | succ f ih => unfold getOp; bal; all_goals exact ih _

theorem bal_numLoop (d : Int) (f : Nat) (t : Int) (o : Option Op) (s : Str) : Bal (numLoop k d f t o s) := by
  induction f generalizing t o s with
  | zero => unfold numLoop; bal
  | succ f ih => unfold numLoop; bal; all_goals exact ih _ _ _

theorem bal_numFullBody (s : Str) (d : Int) : Bal (numFullBody k s d) := by
  unfold numFullBody; bal

end Spasm
