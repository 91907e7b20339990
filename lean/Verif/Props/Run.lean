import Verif.Lemmas.Keeps
import Verif.Spec.Run

/-
C25, and the parts of C23 and C51 that hold for every run whatever its outcome.
-/

namespace Spasm.Props
open Spasm Spec

/-! ### C25 -/

/-- The exit status did not improve, the log only grew, and the status covers everything new in it. -/
def Worse (s s' : S) : Prop :=
  s.exitCode ≤ s'.exitCode ∧ ∃ evs, s'.log = s.log ++ evs ∧ ∀ e ∈ evs, severity e ≤ s'.exitCode

theorem Worse.same {s s' : S} (h : s'.exitCode = s.exitCode) (h' : s'.log = s.log) : Worse s s' :=
  ⟨by omega, [], by simp [h'], by simp⟩

theorem printed_severity (b : Bool) (s : S) : ∀ e ∈ printedErrors b s, severity e = 0 := by
  intro e he
  unfold printedErrors at he
  split at he
  · simp at he
  · obtain ⟨_, _, rfl⟩ := List.mem_map.mp he; rfl

theorem worse_invar : Invar Worse where
  refl s := .same rfl rfl
  trans a b c := by
    rintro ⟨h1, e1, l1, p1⟩ ⟨h2, e2, l2, p2⟩
    refine ⟨by omega, e1 ++ e2, by simp [l2, l1], ?_⟩
    intro e he
    rcases List.mem_append.mp he with he | he
    · have := p1 e he; omega
    · exact p2 e he
  step a b h := by
    cases h with
    | free h => exact .same h.exitCode h.log
    | print fo => exact ⟨Nat.le_refl _, _, rfl, fun e he => by rw [printed_severity _ _ e he]; omega⟩
    | warning m =>
      refine ⟨by dsimp only; split <;> omega, _, rfl, ?_⟩
      intro e he
      simp at he; subst he
      show 1 ≤ (if a.exitCode < 1 then 1 else a.exitCode)
      split <;> omega
    | error m =>
      refine ⟨by dsimp only; split <;> omega, _, rfl, ?_⟩
      intro e he
      simp at he; subst he
      show 2 ≤ (if a.exitCode < 2 then 2 else a.exitCode)
      split <;> omega
    | fatal m =>
      refine ⟨by dsimp only; split <;> omega, _, rfl, ?_⟩
      intro e he
      simp at he; subst he
      show 3 ≤ (if a.exitCode < 3 then 3 else a.exitCode)
      split <;> omega
    | text t => exact ⟨Nat.le_refl _, _, rfl, fun e he => by simp at he; subst he; exact Nat.zero_le _⟩
    | appended f t => exact ⟨Nat.le_refl _, _, rfl, fun e he => by simp at he; subst he; exact Nat.zero_le _⟩
    | wrote f t => exact ⟨Nat.le_refl _, _, rfl, fun e he => by simp at he; subst he; exact Nat.zero_le _⟩
    | _ => exact .same rfl rfl

/-- C25: no statement, no pass and no output step ever improves the exit status, and none takes back anything
that was shown; this holds whatever the statement does and however it ends. -/
theorem C25_never_improves (n : Nat) (s : S) (text file : Str) (md5 : List Nat → List Nat) :
    s.exitCode ≤ ((knot n).lineSec text s).state.exitCode ∧
    s.exitCode ≤ (runFirstPass (knot n) text s).state.exitCode ∧
    s.exitCode ≤ (runSecondPass (knot n) s).state.exitCode ∧
    s.exitCode ≤ (writeLabels (knot n) file s).state.exitCode ∧
    s.exitCode ≤ (writeFile md5 file s).state.exitCode :=
  ⟨((Keeps.ofRuns worse_invar ((runs_knot n).lineSec text)).keep s).1,
   ((Keeps.ofRuns worse_invar (runs_runFirstPass (runs_knot n) text)).keep s).1,
   ((Keeps.ofRuns worse_invar (runs_runSecondPass (runs_knot n))).keep s).1,
   ((Keeps.ofRuns worse_invar (runs_writeLabels (runs_knot n) file)).keep s).1,
   ((Keeps.ofRuns worse_invar (runs_writeFile md5 file)).keep s).1⟩

theorem severity_le (e : Ev) : severity e ≤ 3 := by cases e <;> simp [severity]

/-- The status of run_assembly is the variable, or 3. -/
theorem runAssembly_status (n : Nat) (md5 : List Nat → List Nat) (cwd : Str) (text : Option Str) (output : Str)
    (s : S) (c : Nat) (h : exitStatus (runAssembly (knot n) md5 cwd text output s) = some c) :
    c = 3 ∨ c = (runAssembly (knot n) md5 cwd text output s).state.exitCode := by
  have hk := runs_knot n
  have h1 : Runs (outputFile md5 output) := runs_outputFile md5 output
  have h2 := runs_labelFile hk output
  have h3 := runs_passTwo hk
  have h4 : ∀ t s c s', passOne (knot n) cwd t s = .stop (.exit c) s' → c = 3 :=
    fun t => (exits3_passOne n cwd t).exit
  revert h
  unfold runAssembly
  rw [M.modify_bind, M.get_bind]
  dsimp only
  generalize (if (resetGlobals s).mode.commandline = true then text else _) = tx
  cases tx with
  | none => intro h; left; simp [exitStatus] at h; exact h.symm
  | some t =>
    dsimp only
    rw [M.bind_apply]
    cases hp : passOne (knot n) cwd t (resetGlobals s) with
    | stop e s1 =>
      cases e with
      | exit c' => intro h; left; have := h4 t _ c' s1 hp; simp [exitStatus] at h; omega
      | _ => intro h; simp [exitStatus] at h
    | ok _ s1 =>
      dsimp only
      rw [M.get_bind]
      have hmid : Runs (if s1.mode.symtable || s1.mode.normal || s1.mode.list then do
          passTwo (knot n)
          M.when s1.mode.symtable (labelFile (knot n) output)
          M.when s1.mode.normal (outputFile md5 output)
        else pure () : M Unit) := by runs
      have hsplit : (if s1.mode.symtable || s1.mode.normal || s1.mode.list then do
            passTwo (knot n)
            M.when s1.mode.symtable (labelFile (knot n) output)
            M.when s1.mode.normal (outputFile md5 output)
            printStats
            let s ← M.get
            pure s.exitCode
          else do
            printStats
            let s ← M.get
            pure s.exitCode : M Nat) =
          ((if s1.mode.symtable || s1.mode.normal || s1.mode.list then do
            passTwo (knot n)
            M.when s1.mode.symtable (labelFile (knot n) output)
            M.when s1.mode.normal (outputFile md5 output)
          else pure () : M Unit) >>= fun _ => printStats >>= fun _ => M.get >>= fun s => pure s.exitCode) := by
        split
        · simp only [M.bind_assoc]
        · rfl
      rw [hsplit]
      rw [M.bind_apply]
      intro h
      revert h
      cases hm : (if s1.mode.symtable || s1.mode.normal || s1.mode.list then do
          passTwo (knot n)
          M.when s1.mode.symtable (labelFile (knot n) output)
          M.when s1.mode.normal (outputFile md5 output)
        else pure () : M Unit) s1 with
      | stop e s2 =>
        cases e with
        | exit c' => intro h; left; have := hmid.exit hm; simp [exitStatus] at h; omega
        | _ => intro h; simp [exitStatus] at h
      | ok _ s2 => intro h; right; exact (Option.some.inj h).symm

/-- C25: whatever is assembled, the exit status of the process is at least the severity of every warning,
error and fatal error that was shown while assembling. Missing: problems that are only printed when an error
session is replayed (see `C25_printed_status_zero`), and diagnostics shown while the command line was read
(see `C25_commandline_forgotten`). -/
theorem C25_status_covers_partial (n : Nat) (md5 : List Nat → List Nat) (cwd : Str) (text : Option Str)
    (output : Str) (s : S) (c : Nat)
    (h : exitStatus (runAssembly (knot n) md5 cwd text output s) = some c) :
    ∃ evs, (runAssembly (knot n) md5 cwd text output s).state.log = s.log ++ evs ∧
      ∀ e ∈ evs, severity e ≤ c := by
  obtain ⟨_, evs, hl, hs⟩ := keeps_runAssembly worse_invar (fun _ _ _ _ => .same rfl rfl) n md5 cwd text output s
  refine ⟨evs, hl, fun e he => ?_⟩
  rcases runAssembly_status n md5 cwd text output s c h with rfl | rfl
  · exact severity_le e
  · exact hs e he

/-- A run of the program with one source file `a.asm`, for examples. -/
def asm (src : Str) (args : List Str) : Res Nat :=
  spasm 9 (fun _ => []) (fun p => if p = b! "a.asm" then some src else none) (fun _ => 0) (fun _ => 0) [] args

/-- C25 fails for problems recorded on the second pass: an unknown label is printed as an error, and the
process ends with status 0. -/
theorem C25_printed_status_zero :
    exitStatus (asm (b! " ld hl,nosuch\n") [b! "a.asm"]) = some 0 ∧
    Ev.printed E.LABEL_NOT_FOUND false ∈ (asm (b! " ld hl,nosuch\n") [b! "a.asm"]).state.log := by
  decide +kernel

/-- C25 fails for the command line: a fatal error shown for an overlong -D is forgotten when assembling
starts, and the process ends with status 0. -/
theorem C25_commandline_forgotten :
    exitStatus (asm (b! " nop\n") [b! "-D", List.replicate 300 65 ++ b! "=1", b! "a.asm"]) = some 0 ∧
    Ev.fatal .exprTooLong ∈
      (asm (b! " nop\n") [b! "-D", List.replicate 300 65 ++ b! "=1", b! "a.asm"]).state.log := by
  decide +kernel

/-- A run that shows an error and a warning; its status is 2. -/
example : exitStatus (asm (b! "#define b 1\na: nop\na: nop\nb: nop\n") [b! "a.asm"]) = some 2 ∧
    ((asm (b! "#define b 1\na: nop\na: nop\nb: nop\n") [b! "a.asm"]).state.log.map severity).filter (0 < ·) = [1, 2] := by
  decide +kernel

/-! ### C51, first half: options and sources -/

/-- Nothing the user selected differs. -/
def Untouched (s s' : S) : Prop :=
  s'.mode = s.mode ∧ s'.caseSens = s.caseSens ∧ s'.fs = s.fs ∧ s'.rand = s.rand

theorem untouched_invar : Invar Untouched where
  refl s := ⟨rfl, rfl, rfl, rfl⟩
  trans a b c := by
    rintro ⟨h1, h2, h3, h4⟩ ⟨g1, g2, g3, g4⟩
    exact ⟨g1.trans h1, g2.trans h2, g3.trans h3, g4.trans h4⟩
  step a b h := by
    cases h with
    | free h => exact ⟨h.mode, h.caseSens, h.fs, h.rand⟩
    | _ => exact ⟨rfl, rfl, rfl, rfl⟩

/-- The include directories and the directory of the source. -/
def SamePaths (s s' : S) : Prop := s'.includeDirs = s.includeDirs ∧ s'.tempPath = s.tempPath

theorem samePaths_invar : Invar SamePaths where
  refl s := ⟨rfl, rfl⟩
  trans a b c := by
    rintro ⟨h1, h2⟩ ⟨g1, g2⟩
    exact ⟨g1.trans h1, g2.trans h2⟩
  step a b h := by
    cases h with
    | free h => exact ⟨h.includeDirs, h.tempPath⟩
    | _ => exact ⟨rfl, rfl⟩

/-- C51: assembling never changes the selected options (output kinds, instruction set, case sensitivity) nor
the input files, whatever the source is and however the run ends. -/
theorem C51_options_fixed (n : Nat) (md5 : List Nat → List Nat) (cwd : Str) (text : Option Str) (output : Str)
    (s : S) :
    let s' := (runAssembly (knot n) md5 cwd text output s).state
    s'.mode = s.mode ∧ s'.caseSens = s.caseSens ∧ s'.fs = s.fs := by
  have := keeps_runAssembly untouched_invar (fun _ _ _ _ => ⟨rfl, rfl, rfl, rfl⟩) n md5 cwd text output s
  exact ⟨this.1, this.2.1, this.2.2.1⟩

/-- C51: the same for one statement, which changes neither the include directories. -/
theorem C51_statement_options (n : Nat) (line : Str) (s : S) :
    let s' := ((knot n).lineSec line s).state
    s'.mode = s.mode ∧ s'.caseSens = s.caseSens ∧ s'.fs = s.fs ∧ s'.includeDirs = s.includeDirs ∧
      s'.tempPath = s.tempPath := by
  have h := (Keeps.ofRuns untouched_invar ((runs_knot n).lineSec line)).keep s
  have h' := (Keeps.ofRuns samePaths_invar ((runs_knot n).lineSec line)).keep s
  exact ⟨h.1, h.2.1, h.2.2.1, h'.1, h'.2⟩

/-! ### C23, last part: labels never disappear -/

/-- Every label is still there. -/
def LabelsStay (s s' : S) : Prop := ∀ k, (s.labels.lookup k).isSome → (s'.labels.lookup k).isSome

theorem labelsStay_invar : Invar LabelsStay where
  refl s := fun k h => h
  trans a b c := fun h g k hk => g k (h k hk)
  step a b h := by
    cases h with
    | free h => intro k hk; rw [h.labels]; exact hk
    | newLabel key v hn =>
      intro k hk
      dsimp only
      by_cases h : k = key
      · subst h; rw [Table.lookup_insert_self]; rfl
      · rw [Table.lookup_insert_ne _ _ _ _ h]; exact hk
    | setLabel key v =>
      intro k hk
      dsimp only
      rw [Table.lookup_update]
      split
      · simpa using hk
      · exact hk
    | _ => exact fun k h => h

/-- C23: a label that exists never disappears: after any further assembling it can still be found. -/
theorem C23_labels_stay (n : Nat) (md5 : List Nat → List Nat) (cwd : Str) (text : Option Str) (output : Str)
    (s : S) (line : Str) (k : Str) (h : (s.labels.lookup k).isSome) :
    (((knot n).lineSec line s).state.labels.lookup k).isSome ∧
    ((runAssembly (knot n) md5 cwd text output s).state.labels.lookup k).isSome :=
  ⟨(Keeps.ofRuns labelsStay_invar ((runs_knot n).lineSec line)).keep s k h,
   keeps_runAssembly labelsStay_invar (fun _ _ _ _ _ h => h) n md5 cwd text output s k h⟩

example : ((asm (b! "start: nop\n ld hl,start\n") [b! "a.asm"]).state.labels.lookup (b! "START")).isSome := by
  decide +kernel

end Spasm.Props
