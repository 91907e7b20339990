import Verif.Model.Knot
import Verif.Model.Export

/-
main.cpp: the command line and the two passes; init_storage and write_labels of storage.cpp.
-/

namespace Spasm

/-! ### init_storage -/

/-- One predefined symbol. -/
def builtin (name contents : Str) (args : List Str := []) : M Unit := do
  match ← addDefine name with
  | none => M.ub .nullDeref
  | some (r, _) => M.modify (writeDef r (fun d => { d with contents := some contents, args := args }))

/-- init_storage, storage.cpp:189-214 -/
def initStorage : M Unit := do
  builtin (b! "SPASM") (b! "1")
  builtin (b! "SPASMVER") (b! "2")
  builtin (b! "__LINE") (b! "0")
  builtin (b! "__FILE") (b! "Init")
  builtin (b! "TRUE") (b! "1")
  builtin (b! "FALSE") (b! "0")
  builtin (b! "__BM_SHD") (b! "2")
  builtin (b! "__BM_MSK_RGB") (b! "RGB(0, 255, 0)")
  builtin (b! "RGB") (b! "((__R) << 16)|((__G) << 8)|(__B)") [b! "__R", b! "__G", b! "__B"]
  builtin (b! "GETC") (b! "(0)") [b! "__A", b! "__N"]

/-! ### write_labels -/

/-- The insertion of write_labels_callback, storage.cpp:88-103: before the first entry whose name is not
smaller. -/
def insertSym (x : Str × Int) : List (Str × Int) → List (Str × Int)
  | [] => [x]
  | y :: ys => if caseGt x.1 y.1 then y :: insertSym x ys else x :: y :: ys

/-- hash_enum over the labels, storage.cpp:65 -/
def symLabels : List (Str × Label) → List (Str × Int) → List (Str × Int)
  | [], acc => acc
  | (_, l) :: t, acc => symLabels t (insertSym (l.name, l.value) acc)

/-- hash_enum over the defines with write_defines_callback, storage.cpp:66, 108-131: the entries are read as the
enumeration reaches them, since evaluating an earlier define may refresh `__LINE`. The argument lists the keys. -/
def symDefines (k : Rec) : List Str → List (Str × Int) → M (List (Str × Int))
  | [], acc => pure acc
  | key :: t, acc => do
    let s ← M.get
    match s.defines.lookup key with
    | none => symDefines k t acc
    | some d =>
      match d.args, d.contents with
      | [], some c => do
        match ← parseNum k c with
        | none => symDefines k t acc
        | some v => symDefines k t (insertSym (d.name, v) acc)
      | _, _ => symDefines k t acc

/-- `"%s = $%.4X\n"`, storage.cpp:73 -/
def symLine (x : Str × Int) : Str := x.1 ++ b! " = $" ++ fmtHexPad 4 (toU32 x.2).toNat ++ [10]

/-- write_labels, storage.cpp:42-82. Opening the file is assumed to succeed. -/
def writeLabels (k : Rec) (file : Str) : M Unit := do
  let sess ← startSession
  let s ← M.get
  let l ← symDefines k (s.defines.map (·.1)) (symLabels s.labels [])
  endSession sess
  M.modify fun s => { s with log := s.log ++ [.wrote file (l.flatMap symLine)] }

/-! ### run_assembly -/

/-- The directory of an absolute input path, main.cpp:89-99 -/
def dirOf (p : Str) : Str := ((p.reverse.dropWhile (fun c => c != 92 && c != 47)).drop 1).reverse

/-- The resets of run_assembly, main.cpp:46-70 -/
def resetGlobals (s : S) : S :=
  { s with
    exitCode := 0, pc := 0, statsCode := 0, statsData := 0, statsMin := 0, statsMax := 0, lastLabel := none, errOccurred := false,
    inMacro := 0, lineNum := 0, curBuf := 0, currReusable := 0, totalReusables := 0, exprs := [],
    outputs := [] }

/-- The first pass, main.cpp:81-121; `text` is the source. -/
def passOne (k : Rec) (cwd text : Str) : M Unit := do
  M.modify fun s => { s with outPtr := 0 }
  M.modify fun s =>
    let t := if isAbsPath s.currFile then dirOf s.currFile else cwd
    { s with tempPath := t, includeDirs := t :: s.includeDirs }
  let sess ← startSession
  runFirstPass k text
  replayFatal sess
  endSession sess
  M.modify fun s => { s with includeDirs := [] }

/-- The second pass, main.cpp:138-141 -/
def passTwo (k : Rec) : M Unit := do
  let sess ← startSession
  runSecondPass k
  replaySession sess
  endSession sess

/-- The symbol file, main.cpp:143-150 -/
def labelFile (k : Rec) (output : Str) : M Unit := do
  let sess ← startSession
  writeLabels k (changeExtension output (b! "lab"))
  replayFatal sess
  endSession sess

/-- The output file, main.cpp:153-159 -/
def outputFile (md5 : List Nat → List Nat) (output : Str) : M Unit := do
  let sess ← startSession
  writeFile md5 output
  replayFatal sess
  endSession sess

/-- `%u` -/
def fmtUnsigned (n : Int) : Str := fmtNat (toU32 n).toNat

/-- The statistics of -C, main.cpp:194-195 -/
def counterText (s : S) : Str :=
  b! "Size: " ++ fmtUnsigned s.statsCode ++ [10] ++ b! "Min. execution time: " ++ fmtUnsigned s.statsMin ++ [10] ++
    b! "Max. execution time: " ++ fmtUnsigned s.statsMax ++ [10]

/-- The statistics of -S, main.cpp:199-200 -/
def statsText (s : S) : Str :=
  b! "Number of labels: " ++ fmtUnsigned s.labels.length ++ [10] ++ b! "Number of defines: " ++ fmtUnsigned s.defines.length ++ [10] ++
    b! "Code size: " ++ fmtUnsigned s.statsCode ++ [10] ++ b! "Data size: " ++ fmtUnsigned s.statsData ++ [10] ++
    b! "Total size: " ++ fmtUnsigned (s.statsCode + s.statsData) ++ [10]

/-- The statistics printed at the end, main.cpp:193-201 -/
def printStats : M Unit := M.modify fun s =>
  { s with log := s.log ++ (if s.mode.codeCounter then [.text (counterText s)] else []) ++ (if s.mode.stats then [.text (statsText s)] else []) }

/-- run_assembly, main.cpp:37-219, without the listing file.
`text` is the source given with -V. Result: the return value. -/
def runAssembly (k : Rec) (md5 : List Nat → List Nat) (cwd : Str) (text : Option Str) (output : Str) : M Nat := do
  M.modify resetGlobals
  let s ← M.get
  let text := if s.mode.commandline then text else (s.fs s.currFile).bind fileText
  match text with
  | none => do
    M.modify fun s => { s with log := s.log ++ [.text (b! "Couldn't open input file")] }
    pure 3
  | some text => do
    passOne k cwd text
    let s ← M.get
    if s.mode.symtable || s.mode.normal || s.mode.list then do
      passTwo k
      M.when s.mode.symtable (labelFile k output)
      M.when s.mode.normal (outputFile md5 output)
    else pure ()
    printStats
    let s ← M.get
    pure s.exitCode

/-! ### main -/

/-- The local variables of main. -/
structure Opts where
  caseSens : Bool := false
  initialised : Bool := false
  input : Option Str := none
  contents : Option Str := none
  output : Option Str := none
  deriving DecidableEq, Repr

/-- strtok with the delimiters `;` and `,`, main.cpp:323: the non-empty pieces; `acc` is the current piece,
reversed. -/
def splitDirs : Str → Str → List Str
  | [], acc => if acc.isEmpty then [] else [acc.reverse]
  | c :: t, acc =>
    if c == 59 || c == 44 then (if acc.isEmpty then splitDirs t [] else acc.reverse :: splitDirs t [])
    else splitDirs t (c :: acc)

/-- -D, main.cpp:334-369: `s` is the text of the define. -/
def optDefine (k : Rec) (o : Opts) (s : Str) : M Opts := do
  let (_, name, r) ← readExpr [61] s
  match ← addDefine name with
  | none => M.ub .nullDeref
  | some (ref, _) =>
    match r with
    | [] => M.ub .pastEnd
    | _ :: c => do
      if !(skipWs c).isEmpty then M.modify (writeDef ref (fun d => { d with contents := some c }))
      else setDefine k ref [49] false
      pure o

/-- init_storage on the first -D, main.cpp:340-344 -/
def ensureStorage (o : Opts) : M Opts := do
  if o.initialised then pure o
  else do
    initStorage
    pure { o with initialised := true }

/-- -V, main.cpp:370-395 -/
def optLine (o : Opts) (s : Str) : M Opts := do
  M.modify fun st => { st with mode := { st.mode with commandline := true }, currFile := b! "-v" }
  pure { o with input := some (b! "-v"), contents := some (s ++ [10]), output := some (b! "-v.bin") }

/-- A file name, main.cpp:413-419. -/
def optFile (o : Opts) (a : Str) : M Opts := do
  match o.input with
  | none => do
    M.modify fun st => { st with currFile := a }
    pure { o with input := some a }
  | some _ => pure (if o.output.isNone then { o with output := some a } else o)

/-- Options that only change the mode, main.cpp:288-311 -/
def modeOption (c : Nat) (m : Mode) : Option Mode :=
  if c == 79 then some { m with normal := false }
  else if c == 84 then some { m with list := true }
  else if c == 67 then some { m with codeCounter := true }
  else if c == 76 then some { m with symtable := true }
  else if c == 83 then some { m with stats := true }
  else if c == 69 then some { m with ez80 := true }
  else if c == 78 then some m
  else none

/-- The option loop, main.cpp:277-423. `k` evaluates nothing here; it is needed for set_define. -/
def optLoop (k : Rec) : List Str → Opts → M Opts
  | [], o => pure o
  | a :: as, o => do
    if hd a != 45 then do
      let o ← optFile o a
      optLoop k as o
    else
      let c := hd a.tail
      let st ← M.get
      match modeOption c st.mode with
      | some m => do
        M.modify fun s => { s with mode := m, opcodes := if c == 69 then ez80Table else s.opcodes }
        optLoop k as o
      | none =>
        if c == 65 then optLoop k as { o with caseSens := true }
        else if c == 72 || c == 104 then M.halt (.exit 0)
        else if c == 73 then
          if a.length > 2 then do
            M.modify fun s => { s with includeDirs := s.includeDirs ++ splitDirs (a.drop 2) [] }
            optLoop k as o
          else
            match as with
            | [] => optLoop k [] o
            | d :: as => do
              M.modify fun s => { s with includeDirs := s.includeDirs ++ splitDirs d [] }
              optLoop k as o
        else if c == 68 then do
          let o ← ensureStorage o
          if a.length > 2 then do
            let o ← optDefine k o (a.drop 2)
            optLoop k as o
          else
            match as with
            | [] => optLoop k [] o
            | d :: as => do
              let o ← optDefine k o d
              optLoop k as o
        else if c == 86 then
          if a.length > 2 then do
            let o ← optLine o (a.drop 2)
            optLoop k as o
          else
            match as with
            | [] => M.halt (.exit 3)
            | d :: as => do
              let o ← optLine o d
              optLoop k as o
        else M.halt (.exit 1)

/-- main, main.cpp:254-475, after the start-up state. -/
def mainBody (k : Rec) (md5 : List Nat → List Nat) (cwd : Str) (args : List Str) : M Nat := do
  if args.isEmpty then M.halt (.exit 0)
  else do
    M.modify fun s => { s with currFile := b! "Commandline" }
    let o ← optLoop k args {}
    M.modify fun s => { s with caseSens := o.caseSens }
    match o.input with
    | none => pure 3
    | some input => do
      let output := match o.output with
        | some f => f
        | none => changeExtension input (b! "bin")
      let _ ← ensureStorage o
      clearSessions
      runAssembly k md5 cwd o.contents output

/-- The state when main starts: the globals have their initial values, the heap block for the output and
the random numbers are arbitrary. -/
def startState (fs : Str → Option (List Nat)) (mem rand : Nat → Nat) : S :=
  { fs := fs, mem := mem, rand := rand, opcodes := z80Table }

/-- The program: the process result for a recursion budget `fuel`. -/
def spasm (fuel : Nat) (md5 : List Nat → List Nat) (fs : Str → Option (List Nat)) (mem rand : Nat → Nat)
    (cwd : Str) (args : List Str) : Res Nat :=
  mainBody (knot fuel) md5 cwd args (startState fs mem rand)

end Spasm
