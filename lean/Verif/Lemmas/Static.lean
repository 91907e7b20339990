import Verif.Lemmas.Still
import Verif.Model.Main

/-
Writing the output file leaves labels and defines alone.
-/

namespace Spasm

/-- The same labels, the same defines. -/
structure SameNames (s s' : S) : Prop where
  labels : s'.labels = s.labels
  defines : s'.defines = s.defines
  preop : s'.ranPreop = s.ranPreop
  stale : s'.stale = s.stale

theorem SameNames.refl (s : S) : SameNames s s := ⟨rfl, rfl, rfl, rfl⟩

theorem SameNames.trans {a b c : S} (h : SameNames a b) (h' : SameNames b c) : SameNames a c :=
  ⟨h'.labels.trans h.labels, h'.defines.trans h.defines, h'.preop.trans h.preop, h'.stale.trans h.stale⟩

/-- A piece of the program that leaves labels and defines alone. -/
structure Static {α : Type} (m : M α) : Prop where
  static : ∀ s, SameNames s (m s).state

namespace Static
variable {α β : Type}

theorem ok {m : M α} (h : Static m) {s s' : S} {a : α} (e : m s = .ok a s') : SameNames s s' := by
  have := h.static s
  rw [e] at this
  exact this

theorem bind {m : M α} {f : α → M β} (h : Static m) (h' : ∀ a, Static (f a)) : Static (m >>= f) := by
  constructor
  intro s
  have := h.static s
  rw [M.bind_apply]
  cases hms : m s with
  | ok a s' => rw [hms] at this; exact SameNames.trans this ((h' a).static s')
  | stop e s' => rw [hms] at this; exact this

theorem modify {f : S → S} (h : ∀ s, SameNames s (f s)) : Static (M.modify f) := ⟨h⟩

theorem when {c : Bool} {m : M Unit} (h : Static m) : Static (M.when c m) := by
  cases c
  · exact ⟨fun s => .refl s⟩
  · exact h

end Static

theorem static_pure {α : Type} (a : α) : Static (pure a : M α) := ⟨fun s => .refl s⟩
theorem static_pure' {α : Type} (a : α) : Static (M.pure' a : M α) := ⟨fun s => .refl s⟩
theorem static_halt {α : Type} (e : Stop) : Static (M.halt e : M α) := ⟨fun s => .refl s⟩
theorem static_ub {α : Type} (u : UB) : Static (M.ub u : M α) := ⟨fun s => .refl s⟩
theorem static_get : Static M.get := ⟨fun s => .refl s⟩

/-- Compositional proof of `Static`. -/
macro "statics" : tactic => `(tactic|
  repeat' (first
    | with_reducible apply Static.bind
    | with_reducible apply Static.when
    | intro _
    | with_reducible assumption
    | with_reducible dispatch "static_"
    | (with_reducible apply Static.modify) <;> (intro _; exact ⟨rfl, rfl, rfl, rfl⟩)
    | split
    | dsimp only))

theorem static_startSession : Static startSession := ⟨fun _ => ⟨rfl, rfl, rfl, rfl⟩⟩

theorem static_replaySession (n : Int) (b : Bool) : Static (replaySession n b) := by
  constructor; intro s
  unfold replaySession
  split <;> exact ⟨rfl, rfl, rfl, rfl⟩

theorem static_replayFatal (n : Int) : Static (replayFatal n) := static_replaySession n true

theorem static_endSession (n : Int) : Static (endSession n) := by
  constructor; intro s
  unfold endSession
  dsimp only
  split <;> exact ⟨rfl, rfl, rfl, rfl⟩

theorem static_setProblem (c : Nat) (w : Bool) : Static (setProblem c w) := by
  constructor; intro s
  unfold setProblem
  split <;> exact ⟨rfl, rfl, rfl, rfl⟩

theorem static_setError (c : Nat) : Static (setError c) := static_setProblem c false
theorem static_setWarning (c : Nat) : Static (setWarning c) := static_setProblem c true
theorem static_showError (m : Msg) : Static (showError m) := by unfold showError; statics
theorem static_showFatal (m : Msg) : Static (showFatal m) := by unfold showFatal; statics
theorem static_showWarning (m : Msg) : Static (showWarning m) := by unfold showWarning; statics

theorem static_bufAt (b : List Nat) (i : Nat) : Static (bufAt b i) := by
  unfold bufAt; statics

theorem static_findFieldLoop (h : Nat → Bool) (b : List Nat) (f p : Nat) : Static (findFieldLoop h b f p) := by
  induction f generalizing p with
  | zero => unfold findFieldLoop; statics
  | succ f ih => unfold findFieldLoop; statics; all_goals exact ih _

theorem static_findField (n : Nat) (b : List Nat) : Static (findField n b) := by
  unfold findField; statics

theorem static_findFieldFlex (n : Nat) (b : List Nat) : Static (findFieldFlex n b) := by
  unfold findFieldFlex; statics

theorem static_patchApp (b : List Nat) : Static (patchApp b) := by
  unfold patchApp; statics

theorem static_makeApp (md5 : List Nat → List Nat) (b : List Nat) : Static (makeApp md5 b) := by
  unfold makeApp; statics

theorem static_warnN (n : Nat) : Static (warnN n) := by
  induction n with
  | zero => unfold warnN; statics
  | succ n ih => unfold warnN; statics

theorem static_makePrgm (c : Calc) (p : Str) (o : Nat → Nat) (b : List Nat) : Static (makePrgm c p o b) := by
  unfold makePrgm; statics

theorem static_writeFile (md5 : List Nat → List Nat) (n : Str) : Static (writeFile md5 n) := by
  unfold writeFile; statics
  all_goals statics

theorem static_outputFile (md5 : List Nat → List Nat) (n : Str) : Static (outputFile md5 n) := by
  unfold outputFile; statics

theorem static_printStats : Static printStats := ⟨fun _ => ⟨rfl, rfl, rfl, rfl⟩⟩

variable {k : Rec} (hk : RecStill k)
include hk

theorem still_symDefines (d : List Str) (a : List (Str × Int)) : Still (symDefines k d a) := by
  fun_induction symDefines k d a <;> stills
  all_goals solve_by_elim

theorem still_writeLabels (f : Str) : Still (writeLabels k f) := by
  unfold writeLabels; stills

end Spasm
