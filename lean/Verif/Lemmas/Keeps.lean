import Verif.Lemmas.StepsMain
import Verif.Lemmas.Table

/-
From steps to relations between the state before and after, and the parts of run_assembly that are not steps.
-/

namespace Spasm

/-- A relation between earlier and later states that all steps respect. -/
structure Invar (T : S → S → Prop) : Prop where
  refl : ∀ s, T s s
  trans : ∀ a b c, T a b → T b c → T a c
  step : ∀ a b, Step a b → T a b

/-- `T` relates the state before and after, whatever the outcome. -/
structure Keeps (T : S → S → Prop) {α : Type} (m : M α) : Prop where
  keep : ∀ s, T s (m s).state

namespace Keeps
variable {α β : Type} {T : S → S → Prop}

theorem ofRuns (h : Invar T) {m : M α} (hm : Runs m) : Keeps T m :=
  ⟨fun s => (hm.steps s).lift h.refl h.trans h.step⟩

theorem bind (h : Invar T) {m : M α} {f : α → M β} (hm : Keeps T m) (hf : ∀ a, Keeps T (f a)) :
    Keeps T (m >>= f) := by
  constructor
  intro s
  have := hm.keep s
  rw [M.bind_apply]
  cases hms : m s with
  | ok a s' => rw [hms] at this; exact h.trans _ _ _ this ((hf a).keep s')
  | stop e s' => rw [hms] at this; exact this

theorem pure (h : Invar T) (a : α) : Keeps T (Pure.pure a : M α) := ⟨fun s => h.refl s⟩
theorem modify {f : S → S} (hf : ∀ s, T s (f s)) : Keeps T (M.modify f) := ⟨hf⟩

end Keeps

/-- The process can only end with status 3. -/
structure Exits3 {α : Type} (m : M α) : Prop where
  exit : ∀ s c s', m s = .stop (.exit c) s' → c = 3

namespace Exits3
variable {α β : Type}

theorem ofRuns {m : M α} (h : Runs m) : Exits3 m := ⟨fun _ _ _ e => h.exit e⟩
theorem modify (f : S → S) : Exits3 (M.modify f) := ⟨fun s c s' e => by cases e⟩

theorem bind {m : M α} {f : α → M β} (h : Exits3 m) (h' : ∀ a, Exits3 (f a)) : Exits3 (m >>= f) := by
  constructor
  intro s c s' e
  rw [M.bind_apply] at e
  cases hm : m s with
  | ok a s1 => rw [hm] at e; exact (h' a).exit s1 c s' e
  | stop e' s1 => rw [hm] at e; cases e; exact h.exit s c _ hm

end Exits3

variable {T : S → S → Prop}

theorem exits3_passOne (n : Nat) (cwd text : Str) : Exits3 (passOne (knot n) cwd text) := by
  unfold passOne
  refine .bind (.modify _) fun _ => .bind (.modify _) fun _ => ?_
  refine .bind (.ofRuns runs_startSession) fun sess => ?_
  refine .bind (.ofRuns (runs_runFirstPass (runs_knot n) text)) fun _ => ?_
  refine .bind (.ofRuns (runs_replayFatal sess)) fun _ => ?_
  refine .bind (.ofRuns (runs_endSession sess)) fun _ => ?_
  exact .modify _

theorem keeps_passOne (h : Invar T)
    (hinc : ∀ s d t o, T s { s with includeDirs := d, tempPath := t, outPtr := o }) (n : Nat) (cwd text : Str) :
    Keeps T (passOne (knot n) cwd text) := by
  unfold passOne
  refine .bind h (.modify fun s => hinc s s.includeDirs s.tempPath 0) fun _ => ?_
  refine .bind h (.modify fun s => hinc s _ _ s.outPtr) fun _ => ?_
  refine .bind h (.ofRuns h runs_startSession) fun sess => ?_
  refine .bind h (.ofRuns h (runs_runFirstPass (runs_knot n) text)) fun _ => ?_
  refine .bind h (.ofRuns h (runs_replayFatal sess)) fun _ => ?_
  refine .bind h (.ofRuns h (runs_endSession sess)) fun _ => ?_
  exact .modify fun s => hinc s [] s.tempPath s.outPtr

theorem runs_printStats : Runs printStats := by
  have : printStats = (M.get >>= fun s => M.when s.mode.codeCounter (M.modify fun t => { t with log := t.log ++ [.text (counterText s)] }) >>= fun _ =>
      M.when s.mode.stats (M.modify fun t => { t with log := t.log ++ [.text (statsText s)] })) := by
    funext s
    unfold printStats
    rw [M.get_bind]
    cases h1 : s.mode.codeCounter <;> cases h2 : s.mode.stats <;> simp [M.when, M.modify, h1, h2] <;> rfl
  rw [this]
  exact .bind .get fun s => .bind (.when (.modify fun t => Step.text t _)) fun _ => .when (.modify fun t => Step.text t _)

/-- run_assembly after its initial resets. -/
theorem keeps_runAssembly (h : Invar T)
    (hinc : ∀ s d t o, T s { s with includeDirs := d, tempPath := t, outPtr := o }) (n : Nat)
    (md5 : List Nat → List Nat) (cwd : Str) (text : Option Str) (output : Str) (s : S) :
    T (resetGlobals s) (runAssembly (knot n) md5 cwd text output s).state := by
  have hk := runs_knot n
  unfold runAssembly
  rw [M.modify_bind, M.get_bind]
  dsimp only
  generalize (if (resetGlobals s).mode.commandline = true then text else _) = tx
  cases tx with
  | none => exact (Keeps.ofRuns h (Runs.modify fun s => Step.text s _)).keep _
  | some t =>
    refine (Keeps.bind h (keeps_passOne h hinc n cwd t) fun _ => ?_).keep _
    refine .ofRuns h ?_
    have h2 := runs_passTwo hk
    have h3 := runs_labelFile hk output
    have h4 := runs_outputFile md5 output
    have h5 := runs_printStats
    runs

end Spasm
