import Verif.Spec.Define
import Verif.Model.Main

/-
Specification vocabulary: the command line.
-/

namespace Spasm.Spec

/-- What a command line asks for. -/
inductive Item
  /-- an option of one letter -/
  | flag (c : Nat)
  /-- directories to search, `;` or `,` between them -/
  | dirs (text : List Nat)
  /-- a define -/
  | define (name value : List Nat)
  /-- a line to assemble -/
  | line (text : List Nat)
  /-- the name of a file -/
  | file (name : List Nat)
  deriving DecidableEq

/-- The options of one letter: `O T C L S E N A`. -/
def flags : List Nat := [79, 84, 67, 76, 83, 69, 78, 65]

/-- The argument of -D: a name, an equals sign and a value. -/
def DefineText (name value t : List Nat) : Prop :=
  t = name ++ 61 :: value ∧ name ≠ [] ∧ (∀ c ∈ name, NameChar c) ∧ name.length ≤ 254

/-- The arguments of the program ask for these things; with a status, the program stops there and ends with it. The
text for -I, -D and -V may follow the letter at once or be the next argument; -I and -D at the end of the line are
ignored. -/
inductive Asks : List (List Nat) → List Item → Option Nat → Prop
  | nil : Asks [] [] none
  | flag (c more as is r) : c ∈ flags → Asks as is r → Asks ((45 :: c :: more) :: as) (.flag c :: is) r
  | dirs (t as is r) : t ≠ [] → Asks as is r → Asks ((45 :: 73 :: t) :: as) (.dirs t :: is) r
  | dirsNext (t as is r) : Asks as is r → Asks ([45, 73] :: t :: as) (.dirs t :: is) r
  | dirsMissing : Asks [[45, 73]] [] none
  | define (n v t as is r) : DefineText n v t → Asks as is r → Asks ((45 :: 68 :: t) :: as) (.define n v :: is) r
  | defineNext (n v t as is r) : DefineText n v t → Asks as is r → Asks ([45, 68] :: t :: as) (.define n v :: is) r
  | defineMissing : Asks [[45, 68]] [] none
  | line (t as is r) : t ≠ [] → Asks as is r → Asks ((45 :: 86 :: t) :: as) (.line t :: is) r
  | lineNext (t as is r) : Asks as is r → Asks ([45, 86] :: t :: as) (.line t :: is) r
  | lineMissing : Asks [[45, 86]] [] (some 3)
  | file (f as is r) : f.head? ≠ some 45 → Asks as is r → Asks (f :: as) (.file f :: is) r
  | help (c more as) : c = 72 ∨ c = 104 → Asks ((45 :: c :: more) :: as) [] (some 0)
  | unknown (a as) : (∀ c, a.head? = some c → c ∉ flags ++ [73, 68, 86, 72, 104]) → Asks ((45 :: a) :: as) [] (some 1)

/-- The line to assemble: that of the last -V. -/
def lastLine : List Item → Option (List Nat)
  | [] => none
  | .line t :: is => some ((lastLine is).getD t)
  | _ :: is => lastLine is

/-- The names of files, in order. -/
def fileNames (is : List Item) : List (List Nat) := is.filterMap (fun i => match i with | .file f => some f | _ => none)

/-- The pieces of a list of directories: they contain no separator, are not empty, and are in the text one after the
other with at least one separator between them. -/
inductive Pieces : List Nat → List (List Nat) → Prop
  | nil : Pieces [] []
  | sep (c t ds) : c = 59 ∨ c = 44 → Pieces t ds → Pieces (c :: t) ds
  | last (d) : d ≠ [] → (∀ c ∈ d, c ≠ 59 ∧ c ≠ 44) → Pieces d [d]
  | piece (d c t ds) : d ≠ [] → (∀ c ∈ d, c ≠ 59 ∧ c ≠ 44) → c = 59 ∨ c = 44 → Pieces t ds → Pieces (d ++ c :: t) (d :: ds)

/-- The directories asked for. -/
inductive Directories : List Item → List (List Nat) → Prop
  | nil : Directories [] []
  | dirs (t ds is rest) : Pieces t ds → Directories is rest → Directories (.dirs t :: is) (ds ++ rest)
  | other (i is rest) : (∀ t, i ≠ .dirs t) → Directories is rest → Directories (i :: is) rest

/-- The last value for a name given with -D; these names are not case sensitive. -/
def lastValue (name : List Nat) : List Item → Option (List Nat)
  | [] => none
  | .define n v :: is =>
    match lastValue name is with
    | some v' => some v'
    | none => if n.map upperCase = name.map upperCase then some (given v) else none
  | _ :: is => lastValue name is

/-- The names with a meaning before anything is read. -/
def predefined : List (List Nat) :=
  [b! "SPASM", b! "SPASMVER", b! "__LINE", b! "__FILE", b! "TRUE", b! "FALSE", b! "__BM_SHD", b! "__BM_MSK_RGB", b! "RGB",
    b! "GETC"]

/-- The modes a command line selects. -/
def modeFor (is : List Item) : Mode where
  normal := !decide (.flag 79 ∈ is)
  list := decide (.flag 84 ∈ is)
  codeCounter := decide (.flag 67 ∈ is)
  symtable := decide (.flag 76 ∈ is)
  stats := decide (.flag 83 ∈ is)
  ez80 := decide (.flag 69 ∈ is)
  commandline := (lastLine is).isSome

/-- The input: the line, or the first file. -/
def inputFor (is : List Item) : Option (List Nat) := if (lastLine is).isSome then some (b! "-v") else (fileNames is)[0]?

/-- The output: `-v.bin` for a line; the second file; or the first file with another extension. -/
def outputFor (is : List Item) (input : List Nat) : List Nat :=
  if (lastLine is).isSome then b! "-v.bin" else (fileNames is)[1]?.getD (changeExtension input (b! "bin"))

end Spasm.Spec
