import Verif.Model.Instr

/-
handle_directive, directive.cpp:20-483, one definition per directive. Each takes the text after the
directive name and the blanks behind it, and returns the remaining text; none is a NULL result.
-/

namespace Spasm

/-- The directive names, directive.cpp:21-22 -/
inductive Dir
  | db | dw | end_ | org | byte | word | fill | block | addinstr | echo | error | list | nolist
  | equ | show_ | option | seek | assume | dl | long
  deriving DecidableEq, Repr

/-- directive.cpp:21-22 -/
def dirNames : List (Str × Dir) :=
  [(b! "db", .db), (b! "dw", .dw), (b! "end", .end_), (b! "org", .org), (b! "byte", .byte),
   (b! "word", .word), (b! "fill", .fill), (b! "block", .block), (b! "addinstr", .addinstr),
   (b! "echo", .echo), (b! "error", .error), (b! "list", .list), (b! "nolist", .nolist),
   (b! "equ", .equ), (b! "show", .show_), (b! "option", .option), (b! "seek", .seek),
   (b! "assume", .assume), (b! "dl", .dl), (b! "long", .long)]

/-- name search, directive.cpp:27-47 -/
def findDir (s : Str) : Option Dir :=
  let name := s.takeWhile (fun c => !isSpace c)
  if name.length < 32 then (dirNames.find? (fun d => eqCase d.1 name)).map (·.2) else none

/-- .org, directive.cpp:73-97 -/
def dirOrg (k : Rec) (s : Str) : M (Option Str) := do
  let (found, w, r) ← readExpr [] s
  if found then do
    match ← parseNum k w with
    | some v =>
      if v < 0 then setError E.INVALID_ADDRESS else M.modify fun s => { s with pc := v }
    | none => pure ()
  else pure ()
  M.when (!found || (skipWs w).isEmpty) (setError E.VALUE_EXPECTED)
  pure (some r)

/-- `while (size-- > 0) write_out(fill_value & 0xFF);` -/
def writeFill (v : Int) : Nat → M Unit
  | 0 => pure ()
  | n + 1 => do
    writeOut v
    writeFill v n

/-- .fill and .block, directive.cpp:98-139 -/
def dirFill (k : Rec) (s : Str) : M (Option Str) := do
  let (_, w, r) ← readExpr [44] s
  let size := (← parseNum k w).getD 0
  let r := dropChar 44 (skipWs r)
  let (found, w2, r) ← readExpr [] r
  let v ← if found then do pure ((← parseNum k w2).getD 0) else pure 0
  if size < 0 then do
    setError E.SIZE_MUST_BE_POSITIVE
    pure (some r)
  else do
    M.when (decide (v < -128 ∨ v > 255)) (setWarning E.WARN_TRUNCATING_8)
    countData size
    writeFill v size.toNat
    pure (some r)

/-- The wildcard loop of .addinstr, directive.cpp:191-204, over the pattern; `left` is
`size_left - has_end_data`. `size_t` wraps, but only the values 2 matter. -/
def fixWild : Int → Str → Str
  | _, [] => []
  | left, c :: t =>
    if c == 42 then (if left == 2 then 42 else 38) :: fixWild (left - 2) t
    else c :: fixWild left t

/-- The opcode bytes in emission order: `instr_data[n-1-j]` is byte `j` of the number
(directive.cpp:170-171) and write_instruction_data starts with the last element. -/
def instrBytes (v : Int) : Nat → Nat → List Nat
  | _, 0 => []
  | j, n + 1 => ((v / 2 ^ (8 * j)) % 256).toNat :: instrBytes v (j + 1) n

/-- List insertion of .addinstr, directive.cpp:213-229 -/
def insertOpcode (o : Opcode) : List Opcode → List Opcode
  | [] => [o]
  | p :: ps => if eqCase o.name p.name then o :: p :: ps else p :: insertOpcode o ps

/-- addinstr_fail, directive.cpp:234-240 -/
def addinstrFail (r : Str) : M (Option Str) := do
  setError E.INVALID_ADDINSTR
  pure (some (skipToLineEnd false false r))

/-- .addinstr, directive.cpp:140-241. A shift by 32 bits or more (more than four opcode bytes) and the
use of a number that could not be converted are undefined behaviour. -/
def dirAddinstr (k : Rec) (s : Str) : M (Option Str) := do
  let (f1, mnem, r) ← readExpr [32, 9] s
  if !f1 then addinstrFail r else do
  let (f2, w2, r) ← readExpr [32, 9] r
  if !f2 then addinstrFail r else do
  let args ← reduceString k w2
  let (f3, w3, r) ← readExpr [32, 9] r
  if !f3 then addinstrFail r else do
  let v ← convHex w3 w3.length
  let n := w3.length / 2
  if n > 8 then addinstrFail r else do
  if n > 4 then M.ub .badShift else do
  let data ← match v with
    | some v => pure (instrBytes v 0 n)
    | none => if n > 0 then M.ub .uninitialised else pure []
  let (f4, w4, r) ← readExpr [32, 9] r
  if !f4 then addinstrFail r else do
  match ← parseNum k w4 with
  | none => addinstrFail r
  | some size => do
    let (_, _, r) ← readExpr [32, 9] r
    let (_, _, r) ← readExpr [32, 9] r
    let (f7, w7, r) ← readExpr [32, 9] r
    let endData ←
      if f7 then do
        match ← convHex w7 w7.length with
        | some v => pure (v % 256).toNat
        | none => M.ub .uninitialised
      else pure 0
    let left := size - n - (if f7 then 1 else 0)
    let o : Opcode := ⟨mnem, [⟨fixWild left args, data, f7, endData, size, 0, 0, 0⟩]⟩
    M.modify fun s => { s with opcodes := insertOpcode o s.opcodes }
    pure (some (skipToLineEnd false false r))

/-- The path of `.echo > file`, directive.cpp:269-276 -/
def echoPath (tempPath filename : Str) : Str :=
  fixFilename (if isAbsPath filename then skipWs filename else tempPath ++ [47] ++ skipWs filename)

/-- .echo to a file, directive.cpp:244-286. `s` is the text after the first `>`. Opening the file is
assumed to succeed. -/
def dirEchoFile (k : Rec) (s : Str) : M (Option Str) := do
  let append := hd s == 62
  let s := if s.isEmpty then s else skipWs s.tail
  if isEnd s then do
    setError E.FILENAME_EXPECTED
    pure none
  else do
    let (_, w, r) ← readExpr [32, 9] s
    let w ←
      match ← searchDefines w with
      | some (_, d) =>
        match d.contents with
        | none => M.ub .nullDeref
        | some c => pure (skipWs c)
      | none => pure w
    let fn ← reduceString k w
    let (r, t) ← k.emitString r .echoFile
    if append then do
      M.modify fun st => { st with log := st.log ++ [.appended (echoPath st.tempPath fn) t] }
      pure (some r)
    else do
      M.modify fun st => { st with log := st.log ++ [.wrote (echoPath st.tempPath fn) t] }
      pure (some r)

/-- .echo, directive.cpp:287-325 -/
def dirEcho (k : Rec) (s : Str) : M (Option Str) := do
  if hd s == 62 then dirEchoFile k s.tail
  else do
    let (_, expr, r) ← readExpr [] s
    let sess ← startSession
    let _ ← k.emitString expr .echoNull
    let st ← M.get
    if sessionFatal sess st then addPassTwoOutput k expr false
    else if sessionCount sess st > 0 then do
      let inner ← startSession
      let (_, t) ← k.emitString expr .echoOut
      M.modify fun st => { st with log := st.log ++ [.text t] }
      endSession inner
      replaySession sess
    else do
      let (_, t) ← k.emitString expr .fcreate
      addPassTwoOutput k (escapeString t) false
    endSession sess
    pure (some r)

/-- .error, directive.cpp:328-339 -/
def dirError (k : Rec) (s : Str) : M (Option Str) := do
  let (r, _) ← k.emitString s .fcreate
  setError E.CUSTOM
  pure (some r)

/-- `if (last_label == NULL) error else last_label->value = value`, directive.cpp:370-373 -/
def setLastLabel (v : Int) : M Unit := do
  let s ← M.get
  match s.lastLabel with
  | none => setError E.EQUATE_MISSING_LABEL
  | some key => M.modify fun s => { s with labels := s.labels.update key (fun l => { l with value := v }) }

/-- .equ, directive.cpp:361-376 -/
def dirEqu (k : Rec) (s : Str) : M (Option Str) := do
  let (_, w, r) ← readExpr [] s
  let v ← parseNum k w
  let st ← M.get
  if v.isNone && st.fwdRef then pure (some r)
  else do
    setLastLabel (v.getD 0)
    pure (some r)

/-- .show, directive.cpp:377-393 -/
def dirShow (k : Rec) (s : Str) : M (Option Str) := do
  let (_, w, r) ← readExpr [] s
  match ← searchDefines w with
  | none => addPassTwoOutput k w true
  | some (_, d) => showDefine d
  pure (some r)

/-- .option, directive.cpp:394-436 -/
def dirOption (k : Rec) : Nat → Bool → Str → M (Option Str)
  | 0, _, _ => M.halt .fuel
  | f + 1, exp, s => do
    let (w, exp, s) ← extractArg exp s
    match w with
    | none => pure (some s)
    | some w => do
      let (_, name, e) ← readExpr [61] w
      let e := dropChar 61 e
      if !isAlpha (hd name) then do
        setError E.INVALID_OPTION
        pure (some s)
      else
        let v := if isEnd (skipWs e) then [49] else e
        match ← addDefine ([95, 95] ++ name) with
        | none => M.ub .nullDeref
        | some (r, _) => do
          setDefine k r v false
          dirOption k f exp s

/-- .seek, directive.cpp:437-456. The comparisons mix `int` and `unsigned int`. An error does not keep
the output position from being moved. The variable `sought` is a ghost. -/
def dirSeek (k : Rec) (s : Str) : M (Option Str) := do
  let (_, w, r) ← readExpr [] s
  let v := (← parseNum k w).getD 0
  let st ← M.get
  let u := toU32 v
  let diff := v - toI32 st.pc
  if u > st.pc ∧ toU32 (u - st.pc) > outputBufSize - st.outPtr then showFatal .seekRange
  else if u < st.pc ∧ diff + st.outPtr < 0 then showFatal .seekRange
  else pure ()
  if !inI32 diff then M.ub .signedOverflow
  else do
    M.modify fun s => { s with outPtr := s.outPtr + diff, pc := u, sought := true }
    pure (some r)

/-- .assume, directive.cpp:457-479 -/
def dirAssume (k : Rec) (s : Str) : M (Option Str) := do
  let (_, args, r) ← readExpr [] s
  let (_, w, e) ← readExpr [61] args
  let v ← if hd e == 61 then parseNum k e.tail else pure (some 1)
  let st ← M.get
  if !st.mode.ez80 || !eqCase w (b! "adl") || v.isNone then do
    setError E.INVALID_OPTION
    pure (some r)
  else do
    M.modify fun s => { s with adl := v.getD 1 != 0 }
    pure (some r)

/-- the switch, directive.cpp:54-480; .list and .nolist only change the listing. -/
def runDir (k : Rec) (d : Dir) (s : Str) : M (Option Str) :=
  match d with
  | .db | .byte => do pure (some (← k.emitString s .byte).1)
  | .dw | .word => do pure (some (← k.emitString s .word).1)
  | .dl | .long => do pure (some (← k.emitString s .long).1)
  | .org => dirOrg k s
  | .fill | .block => dirFill k s
  | .addinstr => dirAddinstr k s
  | .echo => dirEcho k s
  | .error => dirError k s
  | .equ => dirEqu k s
  | .show_ => dirShow k s
  | .option => dirOption k (s.length + 2) true s
  | .seek => dirSeek k s
  | .assume => dirAssume k s
  | .end_ | .list | .nolist => pure (some s)

end Spasm
