import Verif.Model.PassTwo

/-
parse_emit_string, directive.cpp:529-765: operands of .db/.dw/.dl, .echo, .error and the fcreate
functions. The text that goes to a console, file or buffer is returned next to the remaining source.
-/

namespace Spasm

/-- The operand type and width of a data directive; none for the text producers. -/
def Es.data : Es → Option (ArgTy × Int)
  | .byte => some (.num8, 1)
  | .word => some (.num16, 2)
  | .long => some (.num24, 3)
  | _ => none

/-- Text reaches its target: ES_ECHO with a target, and ES_FCREATE. -/
def Es.shows : Es → Bool
  | .echoOut | .echoFile | .fcreate => true
  | _ => false

/-- ES_ECHO -/
def Es.isEcho : Es → Bool
  | .echoNull | .echoOut | .echoFile => true
  | _ => false

/-- `stats_datasize += n; program_counter += n;` -/
def countData (n : Int) : M Unit := do
  M.modify fun s => { s with statsData := s.statsData + n }
  advance n

/-- The characters of a string operand, directive.cpp:559-565 -/
def emitChars : Str → M Unit
  | [] => pure ()
  | c :: t => do
    let s ← M.get
    M.when (s.mode.normal || s.mode.list) (writeOut c)
    countData 1
    emitChars t

/-- Label echo_error, directive.cpp:726-746: the text "(error)" and the replay. -/
def echoError (ty : Es) (sess : Int) : M Str := do
  M.when (ty == .fcreate) (setError E.LABEL_NOT_FOUND)
  replaySession sess
  pure (if ty.shows then b! "(error)" else [])

/-- A define as operand, directive.cpp:666-723; `r` is the text after the name. The test
`*(name_end - 1) == '('` is never true for a define that was found. The variable `spread` is a ghost. -/
def emitDefine (k : Rec) (ty : Es) (sess : Int) (d : Define) (r : Str) : M Str := do
  M.when d.contents.isNone (setError E.ARG_USED_WITHOUT_VALUE)
  let (_, pushed) ← parseArgs k r d
  let t ←
    match ← parseDefine k d with
    | none => pure []
    | some e => do
      let (_, exp, rest) ← extractArg true e
      let (w2, _, _) ← extractArg exp rest
      if w2.isSome then do
        M.modify fun s => { s with spread := true }
        let (_, t) ← k.emitString e ty
        pure t
      else do
        let s ← M.get
        if errorInSession sess E.EXCEEDED_RECURSION_LIMIT s then do
          replaySession sess
          pure []
        else do
          let inner ← startSession
          let (_, t) ← k.emitString e ty
          let s ← M.get
          endSession inner
          M.when (sessionFatal inner s) (do annotate sess; replaySession sess)
          pure t
  removeArgSet pushed
  pure t

/-- An operand that is not a string, directive.cpp:568-749: the text it produces. `sess` is the session
opened for it. -/
def emitNum (k : Rec) (ty : Es) (word : Str) (sess : Int) : M Str := do
  let r ← parseNum k word
  let s ← M.get
  let t ←
    match r with
    | some v => do
      match ty.data with
      | some (aty, n) => do
        writeArg v aty 0 0
        countData n
      | none => pure ()
      replaySession sess
      pure (if ty.shows then fmtInt v else [])
    | none =>
      if !sessionFatal sess s && ty != .fcreate then do
        match ty.data with
        | some (aty, n) => do
          addPassTwoExpr k word aty 0 0
          countData n
        | none => pure ()
        replayFatal sess
        pure []
      else do
        let (_, name, nameEnd) ← readExpr [40] word
        let (_, _, next) ← readExpr [41] nameEnd false
        if !next.isEmpty then echoError ty sess
        else do
          match ← searchDefines name with
          | some (_, d) => emitDefine k ty sess d nameEnd
          | none => echoError ty sess
  endSession sess
  pure t

/-- The operand loop, directive.cpp:539-751. `sess` is the C variable `session`: none while it has not
been assigned; the session it names is over when it is used again. Text produced so far in `out`. -/
def emitLoop (k : Rec) (ty : Es) : Nat → Bool → Option Int → Str → Str → M (Str × Str)
  | 0, _, _, _, _ => M.halt .fuel
  | f + 1, exp, sess, out, s => do
    let (w, exp, s) ← extractArg exp s
    match w with
    | none => pure (s, out)
    | some w =>
      if hd w == 34 then
        if !(nextExpr (b! "+-/*&|<>%^") w).isEmpty then
          match sess with
          | none => M.ub .uninitialised
          | some n => do
            M.modify fun st => { st with stale := true }
            let t ← echoError ty n
            endSession n
            emitLoop k ty f exp sess (out ++ t) s
        else do
          let w ← reduceString k w
          if ty.data.isSome then emitChars w else pure ()
          emitLoop k ty f exp sess (out ++ if ty.shows then w else []) s
      else do
        let n ← startSession
        let t ← emitNum k ty w n
        emitLoop k ty f exp (some n) (out ++ t) s

/-- parse_emit_string, directive.cpp:529-765 -/
def emitStringBody (k : Rec) (s : Str) (ty : Es) : M (Str × Str) := do
  M.modify fun st => { st with emitLevel := st.emitLevel + 1 }
  let (r, out) ← emitLoop k ty (s.length + 2) true none [] s
  let st ← M.get
  M.modify fun st => { st with emitLevel := st.emitLevel - 1 }
  pure (r, if st.emitLevel = 1 && ty == .echoOut then out ++ [10] else out)

end Spasm
