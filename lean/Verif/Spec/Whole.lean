import Verif.Spec.Program
import Verif.Spec.Options

/-
Specification vocabulary: what a command line assembles, and with which settings.
-/

namespace Spasm.Spec

/-- The texts that names have at the beginning: those given with -D, which count as upper case. -/
def startTexts : List Item → Texts
  | [] => []
  | .define name value :: is => startTexts is ++ [(name.map upperCase, some ([], given value))]
  | _ :: is => startTexts is

/-- The directories in which included files are looked for: first that of the source file, if it is given with its whole
path, or else the current one; then those given with -I. -/
inductive Searched (cwd : List Nat) (is : List Item) (input : List Nat) : List (List Nat) → Prop
  | current (ds) : ¬ Absolute input → 92 ∉ input → Directories is ds → Searched cwd is input (cwd :: ds)
  | source (dir name ds) : Absolute input → 92 ∉ input → input = dir ++ 47 :: name → 47 ∉ name → Directories is ds → Searched cwd is input (dir :: ds)

/-- The settings that a command line selects, with the files, the directories to search, the final values of the labels,
the names that are defined at some point, those of them that are parameters of macros, and the depth of expressions. -/
def settingFor (is : List Item) (fs : List Nat → Option (List Nat)) (dirs : List (List Nat)) (label : List Nat → Option Int)
    (defined params : List (List Nat)) (depth : Nat) : Setting where
  ez80 := decide (.flag 69 ∈ is)
  opcodes := if .flag 69 ∈ is then ez80Table else z80Table
  caseSens := decide (.flag 65 ∈ is)
  label := label
  defined := defined
  params := params
  start := startTexts is
  depth := depth
  fs := fs
  dirs := dirs
  stats := decide (.flag 83 ∈ is)

/-- The command line only selects the processor, the case of names, directories and texts of names, and that the result is
printed without colours: it asks for no other product than the output file. -/
def Plain (is : List Item) : Prop := ∀ c, .flag c ∈ is → c ∈ [69, 78, 65]

/-- As `Plain`, but the command line may also ask for the statistics (-S). -/
def Counting (is : List Item) : Prop := ∀ c, .flag c ∈ is → c ∈ [69, 78, 65, 83]

/-- The text that is assembled: the line given with -V, with a line end; or the contents of the file, with or without a
byte order mark. A text file has no zero bytes and is not empty. -/
def Source (fs : List Nat → Option (List Nat)) (is : List Item) (input text : List Nat) : Prop :=
  (∃ l, lastLine is = some l ∧ text = l ++ [10]) ∨
  (lastLine is = none ∧ ∃ bytes, fs input = some bytes ∧ TextOf bytes text)

/-- As `Assembles`; at the end of the program the names have the texts `tx`. -/
def Leaves (g : Setting) (text bs : List Nat) (tx : Texts) : Prop :=
  ∃ defs pc, Program g [] g.start 0 text defs bs pc tx ∧ g.label = g.find defs ∧ (defs.map (fun p => g.key p.1)).Nodup ∧
    (∀ p ∈ defs, g.key p.1 ∉ predefinedNames ∧ g.key p.1 ∉ g.defined ∧ 0 ≤ p.2 ∧ p.2 ≤ 999999999) ∧
    (∀ w ∈ g.params, w ∈ g.defined ∧ w ∉ predefinedNames) ∧
    ∀ p ∈ g.start, Name p.1 ∧ g.key p.1 ∉ predefinedNames ∧ g.key p.1 ∈ g.defined ∧ g.key p.1 ∉ g.params

theorem assembles_iff {g : Setting} {text bs : List Nat} : Assembles g text bs ↔ ∃ tx, Leaves g text bs tx :=
  ⟨fun ⟨defs, pc, tx, h⟩ => ⟨tx, defs, pc, h⟩, fun ⟨tx, defs, pc, h⟩ => ⟨defs, pc, tx, h⟩⟩

end Spasm.Spec
