import Verif.Lemmas.Steps

/-
Steps of the parts of main.cpp and export.cpp that run after the command line was read.
-/

namespace Spasm

theorem runs_bufAt (b : List Nat) (i : Nat) : Runs (bufAt b i) := by
  unfold bufAt; runs

theorem runs_findFieldLoop (h : Nat → Bool) (b : List Nat) (f p : Nat) : Runs (findFieldLoop h b f p) := by
  induction f generalizing p with
  | zero => unfold findFieldLoop; runs
  | succ f ih => unfold findFieldLoop; runs; all_goals exact ih _

theorem runs_findField (n : Nat) (b : List Nat) : Runs (findField n b) := by
  unfold findField; runs

theorem runs_findFieldFlex (n : Nat) (b : List Nat) : Runs (findFieldFlex n b) := by
  unfold findFieldFlex; runs

theorem runs_patchApp (b : List Nat) : Runs (patchApp b) := by
  unfold patchApp; runs

theorem runs_makeApp (md5 : List Nat → List Nat) (b : List Nat) : Runs (makeApp md5 b) := by
  unfold makeApp; runs

theorem runs_warnN (n : Nat) : Runs (warnN n) := by
  induction n with
  | zero => unfold warnN; runs
  | succ n ih => unfold warnN; runs

theorem runs_makePrgm (c : Calc) (p : Str) (o : Nat → Nat) (b : List Nat) : Runs (makePrgm c p o b) := by
  unfold makePrgm; runs

theorem runs_writeFile (md5 : List Nat → List Nat) (n : Str) : Runs (writeFile md5 n) := by
  unfold writeFile; runs
  all_goals exact Runs.modify (fun s => Step.wrote s _ _)

theorem runs_outputFile (md5 : List Nat → List Nat) (n : Str) : Runs (outputFile md5 n) := by
  unfold outputFile; runs

variable {k : Rec} (hk : RecRuns k)
include hk

theorem runs_symDefines (d : List Str) (a : List (Str × Int)) : Runs (symDefines k d a) := by
  fun_induction symDefines k d a <;> runs
  all_goals solve_by_elim

theorem runs_writeLabels (f : Str) : Runs (writeLabels k f) := by
  unfold writeLabels; runs
  all_goals exact Runs.modify (fun s => Step.wrote s _ _)

theorem runs_labelFile (f : Str) : Runs (labelFile k f) := by
  unfold labelFile; runs

theorem runs_passTwo : Runs (passTwo k) := by
  unfold passTwo; runs

end Spasm
