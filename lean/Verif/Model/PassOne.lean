import Verif.Model.Preop

/-
pass_one.cpp: statements, macros, the fcreate functions; and the knot that ties the recursion.
-/

namespace Spasm

/-- The `fcreate_bufs` array has ten elements, pass_one.cpp:18-19. -/
def bufIndex (s : S) : Option Nat := if 0 ≤ s.curBuf ∧ s.curBuf < 10 then some s.curBuf.toNat else none

/-- `fcreate_bufs[cur_buf] = v` -/
def setBuf (i : Nat) (v : Option Str) : M Unit :=
  M.modify fun s => { s with bufs := fun j => if j = i then v else s.bufs j }

/-- buf(n), pass_one.cpp:336-346; `r` starts at the parenthesis. Positions past the end of the text
(`ptr++` at the NUL) stay at the end in the model. -/
def fcBuf (k : Rec) (r : Str) : M Str := do
  let (_, w, r) ← readExpr [41] r.tail
  match ← parseNum k w with
  | some v => M.modify fun s => { s with curBuf := v }
  | none => setError E.INVALID_OPERANDS
  pure r.tail

/-- clr(), pass_one.cpp:347-354 -/
def fcClr (r : Str) : M Str := do
  let s ← M.get
  match bufIndex s with
  | none => M.ub .outOfBounds
  | some i => do
    setBuf i (some [])
    pure (r.drop 2)

/-- wr(...), pass_one.cpp:355-364 -/
def fcWr (k : Rec) (r : Str) : M Str := do
  let s ← M.get
  match bufIndex s with
  | none => M.ub .outOfBounds
  | some i => do
    let (r, t) ← k.emitString r.tail .fcreate
    let s' ← M.get
    setBuf i (some ((s'.bufs i).getD [] ++ t ++ [10]))
    pure r.tail

/-- run(), pass_one.cpp:365-425. Changing the current buffer inside the text makes the final eb_free
free another buffer; the model then releases that one. -/
def fcRun (k : Rec) (r : Str) : M Str := do
  let s ← M.get
  match bufIndex s with
  | none => M.ub .outOfBounds
  | some i => do
    match s.bufs i with
    | none => setError E.FCREATE_NOFILE
    | some text => do
      M.modify fun s => { s with currFile := b! "Built-in fcreate" }
      let sess ← startSession
      runFirstPass k text
      M.modify fun s' => { s' with currFile := s.currFile, lineNum := s.lineNum, inMacro := s.inMacro }
      let s' ← M.get
      match bufIndex s' with
      | none => M.ub .outOfBounds
      | some j => do
        if (s'.bufs j).isNone then M.ub .nullDeref
        else do
          setBuf j none
          let s' ← M.get
          M.when (sessionCount sess s' > 0) (do annotate sess; replaySession sess)
          endSession sess
    pure (r.drop 2)

/-- The lines of a macro, pass_one.cpp:487-492 -/
def macroLoop (k : Rec) : Nat → Str → M Unit
  | 0, _ => M.halt .fuel
  | f + 1, s => do
    let st ← M.get
    if s.isEmpty || st.errOccurred then pure ()
    else do
      match ← runLine k s with
      | none => M.ub .nullDeref
      | some r => do
        M.modify fun st => { st with lineNum := st.lineNum + 1 }
        macroLoop k f (skipToNextLine r)

/-- The body of a macro call, pass_one.cpp:442-512; `r` is the text after the arguments. -/
def runMacro (k : Rec) (d : Define) (r : Str) : M Unit := do
  M.modify fun s => { s with inMacro := s.inMacro + 1 }
  match d.contents with
  | none => setError E.ARG_USED_WITHOUT_VALUE
  | some c =>
    if !isEnd (skipWs r) then do
      let _ ← runLine k (c ++ between r (skipToLineEnd false false r))
      pure ()
    else do
      let s ← M.get
      M.modify fun s => { s with currFile := d.file, lineNum := d.line }
      macroLoop k (c.length + 2) (32 :: c)
      M.modify fun s' => { s' with currFile := s.currFile, lineNum := s.lineNum }
  M.modify fun s => { s with inMacro := s.inMacro - 1 }

/-- A macro call, pass_one.cpp:429-521 -/
def callMacro (k : Rec) (d : Define) (r : Str) : M Str := do
  let sess ← startSession
  let (r, pushed) ← parseArgs k r d
  let s ← M.get
  if !sessionFatal sess s then runMacro k d r else pure ()
  removeArgSet pushed
  annotate sess
  replayFatal sess
  endSession sess
  pure r

/-- handle_opcode_or_macro, pass_one.cpp:279-530 -/
def opcodeOrMacro (k : Rec) (s : Str) : M (Option Str) := do
  let name := takeName s
  let r := skipNameEnd s
  let st ← M.get
  let suffix := if st.mode.ez80 then parseSuffix st.adl name else none
  let opLen := match suffix with
    | some (_, n) => name.length - n
    | none => name.length
  match findOpcode s opLen st.opcodes with
  | o :: os => do
    pure (some (← doInstr k (o :: os) name r (suffix.map (·.1))))
  | [] =>
    let paren := hd r == 40
    if eqCaseN s (b! "buf") name.length && paren then do pure (some (← fcBuf k r))
    else if eqCaseN s (b! "clr") name.length && paren then do pure (some (← fcClr r))
    else if eqCaseN s (b! "wr") name.length && paren then do pure (some (← fcWr k r))
    else if eqCaseN s (b! "run") name.length && paren then do pure (some (← fcRun k r))
    else do
      match ← searchDefines name with
      | some (_, d) => do pure (some (← callMacro k d r))
      | none => do
        setError E.UNKNOWN_OPCODE
        pure (some r)

/-- handle_directive, directive.cpp:20-54; `s` starts at the dot. -/
def handleDirective (k : Rec) (s : Str) : M (Option Str) :=
  match findDir s.tail with
  | none => opcodeOrMacro k s
  | some d => runDir k d (skipWs (s.tail.dropWhile (fun c => !isSpace c)))

/-- `x = value`, pass_one.cpp:240-256; `s` is the text after the equals sign. -/
def assign (k : Rec) (s : Str) : M (Option Str) := do
  let (_, w, r) ← readExpr [] s
  match ← parseNum k w with
  | some v => setLastLabel v
  | none => pure ()
  pure (some r)

/-- run_first_pass_line_sec, pass_one.cpp:192-262. It calls itself on a shorter text; the length of
the text is the budget. -/
def lineSecLoop (k : Rec) : Nat → Str → M (Option Str)
  | 0, _ => M.halt .fuel
  | f + 1, s =>
    let c := hd s
    if isEnd s then pure (some s)
    else if isAlpha c || c == 95 then
      if hd (skipNameEnd s) == 40 then opcodeOrMacro k s
      else do
        let name := takeName s
        let r := dropChar 58 (skipNameEnd s)
        if name == [95] then addReusable
        else do
          let st ← M.get
          let l ← addLabel name (toI32 st.pc)
          M.modify fun st => { st with lastLabel := l }
        lineSecLoop k f r
    else if isSpace c then
      let r := skipWs s
      if isAlpha (hd r) || hd r == 95 then opcodeOrMacro k r else lineSecLoop k f r
    else if c == 46 then handleDirective k s
    else if c == 35 then k.handlePreop s.tail
    else if c == 61 then assign k s.tail
    else do
      setError E.SYNTAX
      pure (some s)

/-- run_first_pass_line_sec, pass_one.cpp:192-262 -/
def lineSecBody (k : Rec) (s : Str) : M (Option Str) := lineSecLoop k (s.length + 1) s

end Spasm
