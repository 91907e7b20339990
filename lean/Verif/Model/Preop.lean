import Verif.Model.Directive

/-
preop.cpp: preprocessor statements. Functions return the remaining text, none for a NULL result.
-/

namespace Spasm

/-- preop.cpp:32-33 -/
inductive Pre
  | define | include_ | if_ | ifdef | ifndef | else_ | elif | endif | undef | undefine | comment
  | endcomment | macro_ | endmacro | import_ | defcont | region | endregion
  deriving DecidableEq, Repr

/-- preop.cpp:32-33 -/
def preNames : List (Str × Pre) :=
  [(b! "define", .define), (b! "include", .include_), (b! "if", .if_), (b! "ifdef", .ifdef),
   (b! "ifndef", .ifndef), (b! "else", .else_), (b! "elif", .elif), (b! "endif", .endif),
   (b! "undef", .undef), (b! "undefine", .undefine), (b! "comment", .comment),
   (b! "endcomment", .endcomment), (b! "macro", .macro_), (b! "endmacro", .endmacro),
   (b! "import", .import_), (b! "defcont", .defcont), (b! "region", .region),
   (b! "endregion", .endregion)]

/-- preop.cpp:38-50 -/
def findPre (s : Str) : Option Pre :=
  (preNames.find? (fun d => eqCase d.1 (s.takeWhile (fun c => !isSpace c)))).map (·.2)

/-- The character before position `next` in the text `s`: `next - 1`. At the start of the text, where C
would step out of it, the model stays (the callers only go on to the next line from there). -/
def back (s next : Str) : Str :=
  if next.length < s.length then s.drop (s.length - next.length - 1) else s

/-! ### skip_until -/

/-- Result of scanning one physical line in skip_until. -/
inductive SkipRes
  | found (line : Str) | next (level : Nat)
  deriving DecidableEq, Repr

/-- The inner loop of skip_until, preop.cpp:726-753: the statements of one physical line that ends
where `lineEnd` characters are left. `error_occurred` cannot change inside. The loop does not
terminate when next_code_line does not advance. -/
def skipLine (words : List Str) (lineEnd : Nat) : Nat → Nat → Str → M SkipRes
  | 0, _, _ => M.halt .fuel
  | f + 1, level, line => do
    let isIf := lineHasWord line (b! "#IF")
    let isEndif := level > 0 && lineHasWord line (b! "#ENDIF")
    if !isIf && !isEndif && level == 0 && words.any (fun w => lineHasWord line w) then pure (.found line)
    else
      let level := if isIf then level + 1 else if isEndif then level - 1 else level
      let line := nextCodeLine line
      if line.length > lineEnd then skipLine words lineEnd f level line else pure (.next level)

/-- The outer loop of skip_until, preop.cpp:722-758. `n` is line_num_copy. -/
def skipLoop (fuel : Nat) (words : List Str) : Nat → Nat → Int → Str → M (Str × Int)
  | 0, _, _, _ => M.halt .fuel
  | f + 1, level, n, s => do
    let st ← M.get
    if s.isEmpty || st.errOccurred then do
      setError E.UNMATCHED_IF
      pure (s, n)
    else
      let lineEnd := skipToNextLine s
      match ← skipLine words lineEnd.length fuel level s with
      | .found line => pure (line, n)
      | .next level => skipLoop fuel words f level (n + 1) lineEnd

/-- skip_until, preop.cpp:713-767; `setLine` tells whether the line number is passed back. -/
def skipUntil (k : Rec) (words : List Str) (setLine : Bool) (s : Str) : M Str := do
  let st ← M.get
  let (r, n) ← skipLoop (s.length + 1) words (s.length + 1) 0 st.lineNum s
  M.when setLine (M.modify fun st => { st with lineNum := n })
  pure r

/-! ### #if -/

/-- do_if, preop.cpp:649-670 -/
def doIf (k : Rec) (s : Str) (cond : Bool) : M (Option Str) := do
  let _ ← skipUntil k [b! "#endif"] false s
  if cond then pure (some s)
  else do
    let r ← skipUntil k [b! "#else", b! "#elif", b! "#endif"] true s
    if lineHasWord r (b! "#else") then pure (some (back r (nextCodeLine r)))
    else if lineHasWord r (b! "#elif") then k.preopIf ((skipWs r).drop 5)
    else pure (some r)

/-- handle_preop_if, preop.cpp:620-638 -/
def preopIfBody (k : Rec) (s : Str) : M (Option Str) := do
  if isEnd s then do
    setError E.EXPRESSION_EXPECTED
    pure (some s)
  else do
    let (line, rest) := codeLine s
    let v ← parseNum k line
    doIf k rest (v.getD 0 != 0)

/-- #ifdef and #ifndef, preop.cpp:93-138 -/
def preIfdef (k : Rec) (wanted : Bool) (s : Str) : M (Option Str) := do
  if isEnd s then do
    setError E.EXPRESSION_EXPECTED
    pure (some s)
  else do
    M.modify fun st => { st with ifLevel := st.ifLevel + 1 }
    let d ← searchDefines (takeName s)
    let isDef := match d with
      | some (_, d) => d.contents.isSome
      | none => false
    doIf k (skipNameEnd s) (isDef == wanted)

/-- skip_until inside its own session, as in #else, #elif and #comment -/
def skipQuietly (k : Rec) (words : List Str) (s : Str) : M Str := do
  let sess ← startSession
  let r ← skipUntil k words true s
  endSession sess
  pure r

/-! ### #define, #macro -/

/-- The loop of parse_arg_defs, preop.cpp:684-706; MAX_ARGS is 16. -/
def argDefLoop : Nat → Bool → List Str → Str → M (Option (List Str × Str))
  | 0, _, _, _ => M.halt .fuel
  | f + 1, exp, acc, s => do
    let (w, exp, s) ← extractArg exp s
    match w with
    | none => pure (some (acc, s))
    | some w => do
      let st ← M.get
      if acc.length = 16 then do
        showFatal .tooManyArgs
        pure none
      else if acc.any (fun a => if st.caseSens then w == a else eqCase w a) then do
        showFatal .dupArg
        pure none
      else argDefLoop f exp (acc ++ [w]) s

/-- parse_arg_defs, preop.cpp:678-710: parameters go to the define. After a failure the parameters read
so far stay in the define, but assembly stops; the model leaves none. -/
def parseArgDefs (r : DRef) (s : Str) : M (Option Str) := do
  M.modify (writeDef r (fun d => { d with args := [] }))
  match ← argDefLoop (s.length + 2) false [] s with
  | none => pure none
  | some (args, s) => do
    M.modify (writeDef r (fun d => { d with args := args }))
    pure (some (dropChar 41 s))

/-- #define name(args) value, preop.cpp:290-304; `s` is the text after the parenthesis. -/
def defineMacro (k : Rec) (r : DRef) (redef : Bool) (s : Str) : M (Option Str) := do
  match ← parseArgDefs r s with
  | none => pure none
  | some s =>
    if isEnd s then do
      showError .emptyMacro
      pure (some s)
    else do
      let e := skipToLineEnd false false s
      setDefine k r (between s e) redef
      pure (some e)

/-- The loop of CONCAT, preop.cpp:344-376 -/
def concatLoop (k : Rec) : Nat → Bool → Str → Str → M (Str × Str)
  | 0, _, _, _ => M.halt .fuel
  | f + 1, exp, out, s => do
    let (w, exp, s) ← extractArg exp s
    match w with
    | none => pure (out, s)
    | some w => do
      let t ←
        if hd w == 34 then reduceString k w
        else do
          match ← searchDefines w with
          | some (_, d) =>
            match d.contents with
            | none => do
              setError E.DEFINE_HAS_NO_VALUE
              pure []
            | some c => reduceString k c
          | none => do
            match ← parseNum k w with
            | some v => pure (fmtInt v)
            | none => pure []
      concatLoop k f exp (out ++ t) s

/-- #define name value, preop.cpp:305-388; `s` is the text after the name. -/
def definePlain (k : Rec) (r : DRef) (redef : Bool) (s : Str) : M (Option Str) := do
  if isEnd (skipWs s) then do
    setDefine k r [49] false
    pure (some s)
  else do
    let (_, w, e) ← readExpr [40] s
    if eqCase w (b! "eval") then do
      let (_, expr, e) ← readExpr [41] (dropChar 40 e)
      let v ← evalStr k expr
      setDefine k r v redef
      pure (some (dropChar 41 e))
    else if eqCase w (b! "concat") then do
      let e := dropChar 40 e
      let (c, e) ← concatLoop k (e.length + 2) true [] e
      setDefine k r c redef
      pure (some e)
    else do
      let e := skipToLineEnd false false s
      setDefine k r (between s e) redef
      pure (some e)

/-- handle_preop_define, preop.cpp:272-391. `last_define` is remembered by key (a define found in an
argument set cannot be continued in the model). -/
def preDefine (k : Rec) (s : Str) : M (Option Str) := do
  if isEnd s then do
    setError E.NAME_EXPECTED
    pure (some s)
  else do
    match ← addDefine (takeName s) with
    | none => pure (some (skipToLineEnd false false s))
    | some (r, redef) => do
      M.modify fun st => { st with lastDefine := some (match r with | .arg _ key => key | .glob key => key) }
      let e := skipNameEnd s
      if hd e == 40 then defineMacro k r redef e.tail else definePlain k r redef e

/-- #macro, preop.cpp:188-232 -/
def preMacro (k : Rec) (s : Str) : M (Option Str) := do
  if isEnd s then do
    setError E.NAME_EXPECTED
    pure (some s)
  else do
    match ← addDefine (takeName s) with
    | none => pure none
    | some (r, _) => do
      let e := skipWs (skipNameEnd s)
      match ← if hd e == 40 then parseArgDefs r e.tail else pure (some e) with
      | none => pure none
      | some e => do
        let body := skipToNextLine e
        M.modify fun st => { st with lineNum := st.lineNum + 1 }
        M.modify (writeDef r (fun d => { d with line := d.line + 1 }))
        let e ← skipUntil k [b! "#endmacro"] true body
        setDefine k r (between body e) false
        pure (some (skipToLineEnd false false e))

/-- #defcont, preop.cpp:242-259. If the define was removed in the meantime, last_define dangles. -/
def preDefcont (k : Rec) (s : Str) : M (Option Str) := do
  let st ← M.get
  match st.lastDefine with
  | none => do
    setError E.NO_PREVIOUS_DEFINE
    pure (some s)
  | some key =>
    match st.defines.lookup key with
    | none => M.ub .nullDeref
    | some d => do
      let e := skipToNextLine s
      setDefine k (.glob key) (d.name ++ [32] ++ between s e) true
      pure (some (back s e))

/-! ### #include, #import -/

/-- full_path, preop.cpp:399-437: a readable file is one the file system function knows. -/
def fullPath (s : S) (name : Str) : Option Str :=
  if isAbsPath name && (s.fs name).isSome then some name
  else (s.includeDirs.map (fun d => fixFilename (d ++ [47] ++ name))).find? (fun p => (s.fs p).isSome)

/-- The quote stripping of preop.cpp:473-478 and 580-586 -/
def unquote (name : Str) : Str :=
  let q := skipWs name
  if hd q == 34 then q.tail.takeWhile (fun c => c != 34) else q

/-- The test for an unterminated file name, preop.cpp:464-469 -/
def malformedName (name : Str) : Bool := name.any (fun c => c == 10 || c == 13 || c == 59)

/-- IsFileBitmap, bitmap.cpp:143-158. A file shorter than its header leaves the structure
uninitialised; the model answers by the first two bytes. -/
def isBitmap (bytes : List Nat) : Bool := bytes.take 2 == [66, 77]

/-- The statement loop of run_first_pass, pass_one.cpp:123-155. `line` is run_first_pass_line. -/
def firstPassLoop (line : Str → M (Option Str)) : Nat → Str → M Unit
  | 0, _ => M.halt .fuel
  | f + 1, s => do
    let st ← M.get
    if st.errOccurred || s.isEmpty then pure ()
    else do
      match ← line s with
      | none => pure ()
      | some r => do
        M.modify fun st => { st with lineNum := st.lineNum + 1 }
        firstPassLoop line f (skipToNextLine r)

/-- The loop of run_first_pass_line, pass_one.cpp:165-183: statements joined by backslashes. -/
def lineLoop (k : Rec) : Nat → Str → M (Option Str)
  | 0, _ => M.halt .fuel
  | f + 1, s => do
    match ← k.lineSec (dropChar 92 s) with
    | none => pure none
    | some r => do
      let r := skipWs r
      let st ← M.get
      if !st.errOccurred && hd r == 92 then lineLoop k f r else pure (some r)

/-- run_first_pass_line, pass_one.cpp:165-183 -/
def runLine (k : Rec) (s : Str) : M (Option Str) := lineLoop k (s.length + 1) s

/-- run_first_pass, pass_one.cpp:116-156 -/
def runFirstPass (k : Rec) (s : Str) : M Unit := do
  M.modify fun st => { st with lineNum := 1, adl := if st.mode.ez80 then true else st.adl }
  firstPassLoop (runLine k) (s.length + 1) s

/-- handle_preop_include, preop.cpp:444-557. `bitmap` is handle_bitmap on the bytes of the file. -/
def preInclude (k : Rec) (bitmap : List Nat → M Unit) (s : Str) : M (Option Str) := do
  if isEnd s then do
    showError .missingName
    pure (some s)
  else do
    let (_, name, r) ← readExpr [] s
    if malformedName name then do
      showError .missingName
      pure (some r)
    else do
      let st ← M.get
      match fullPath st (unquote (fixFilename name)) with
      | none => do
        setError E.FILE_NOT_FOUND
        showError .cantOpen
        pure (some r)
      | some path =>
        match st.fs path with
        | none => do
          setError E.FILE_NOT_FOUND
          showError .cantOpen
          pure (some r)
        | some bytes =>
          if isBitmap bytes then do
            bitmap bytes
            pure (some r)
          else
            match fileText bytes with
            | none => do
              showError .cantOpen
              pure (some r)
            | some text => do
              M.modify fun st => { st with currFile := path }
              runFirstPass k text
              M.modify fun st' => { st' with
                currFile := st.currFile, lineNum := st.lineNum, inMacro := st.inMacro }
              pure (some r)

/-- handle_preop_import, preop.cpp:566-611: opening a NULL path is undefined behaviour. -/
def importBytes : List Nat → M Unit
  | [] => pure ()
  | b :: bs => do
    writeOut b
    advance 1
    importBytes bs

/-- handle_preop_import, preop.cpp:566-611 -/
def preImport (s : Str) : M (Option Str) := do
  if isEnd s then do
    showError .missingName
    pure (some s)
  else do
    let (_, name, r) ← readExpr [] s
    let st ← M.get
    match fullPath st (unquote (fixFilename name)) with
    | none => M.ub .nullDeref
    | some path =>
      match st.fs path with
      | none => do
        setError E.FILE_NOT_FOUND
        pure (some r)
      | some bytes => do
        importBytes bytes
        pure (some r)

/-- handle_preop, preop.cpp:31-263 -/
def handlePreopBody (k : Rec) (bitmap : List Nat → M Unit) (s : Str) : M (Option Str) := do
  let r := skipWs (s.dropWhile (fun c => !isSpace c))
  match findPre s with
  | none => do
    setError E.UNKNOWN_PREOP
    pure (some r)
  | some p =>
    match p with
    | .define => preDefine k r
    | .include_ => preInclude k bitmap r
    | .if_ => do
      M.modify fun st => { st with ifLevel := st.ifLevel + 1 }
      k.preopIf r
    | .elif => do
      let st ← M.get
      M.when (st.ifLevel == 0) (setError E.ELIF_WITHOUT_IF)
      pure (some (← skipQuietly k [b! "#endif"] r))
    | .ifdef => preIfdef k true r
    | .ifndef => preIfdef k false r
    | .else_ => do
      let st ← M.get
      if st.ifLevel == 0 then do
        setError E.STRAY_PREOP
        pure (some r)
      else do
        pure (some (← skipQuietly k [b! "#else", b! "#elif", b! "#endif"] r))
    | .endif => do
      let st ← M.get
      if st.ifLevel > 0 then M.modify fun st => { st with ifLevel := st.ifLevel - 1 }
      else setError E.STRAY_PREOP
      pure (some r)
    | .undef | .undefine =>
      if isEnd r then do
        setError E.NAME_EXPECTED
        pure (some r)
      else do
        removeDefine (takeName r)
        pure (some (skipNameEnd r))
    | .comment => do
      pure (some (← skipQuietly k [b! "#endcomment"] r))
    | .macro_ => preMacro k r
    | .import_ => preImport r
    | .defcont => preDefcont k r
    | .endcomment | .endmacro | .region | .endregion => pure (some r)

end Spasm
