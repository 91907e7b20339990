import Verif.Model.Basic

/-
The global variables of the program as one record, the outcome type of a function, and errors.cpp.
-/

namespace Spasm

/-- The kinds of undefined behaviour the model can reach. -/
inductive UB
  | signedOverflow | badShift | outOfBounds | nullDeref | uninitialised | pastEnd | badConversion | divByZero
  deriving DecidableEq, Repr

/-- Why a function does not return. `fuel` and `unmodelled` are artefacts of the model: the recursion
budget ran out, or code was reached that is not modelled. -/
inductive Stop
  | exit (code : Nat) | ub (u : UB) | fuel | unmodelled
  deriving DecidableEq, Repr

/-- ASM_MODE bits, spasm.h:17-25 -/
structure Mode where
  normal : Bool := true
  codeCounter : Bool := false
  symtable : Bool := false
  stats : Bool := false
  list : Bool := false
  commandline : Bool := false
  ez80 : Bool := false
  deriving DecidableEq, Repr

/-- ERRORINSTANCE, errors.cpp:10-21. Only the fields that influence behaviour; texts are not modelled. -/
structure Err where
  code : Nat
  sess : Int
  warn : Bool
  line : Int
  file : Str
  deriving DecidableEq, Repr

/-- Texts of show_error / show_warning / show_fatal_error calls, by call site. -/
inductive Msg
  | missingQuote | missingParen | extraParen | exprTooLong | bitRange | labelRedefined
  | labelConflict | redefined | bufInUse | fcreateBad | cantOpen | unknownType | noFile | custom (s : Str)
  | misc (n : Nat) | parenAdvice | missingName | tooManyArgs | dupArg | seekRange | emptyMacro
  deriving DecidableEq, Repr

/-- Observable output events, in order of occurrence. -/
inductive Ev
  | warning (m : Msg)
  | error (m : Msg)
  | fatal (m : Msg)
  | printed (code : Nat) (warn : Bool)
  | text (s : Str)
  | wrote (file : Str) (bytes : List Nat)
  | appended (file : Str) (bytes : List Nat)
  deriving DecidableEq, Repr

/-- define_t, storage.h:16-23; `contents = none` is a NULL pointer. -/
structure Define where
  name : Str
  contents : Option Str
  args : List Str := []
  line : Int := 0
  file : Str := []
  deriving DecidableEq, Repr

/-- label_t, storage.h:25-30 -/
structure Label where
  name : Str
  value : Int
  line : Int := 0
  file : Str := []
  deriving DecidableEq, Repr

/-- arg_type, pass_two.h:4-12 -/
inductive ArgTy
  | num8 | num16 | num24 | addrOffset | ixIyOffset | bitNum | rst
  deriving DecidableEq, Repr

/-- expr_t, pass_two.h:19-32 (listing fields omitted) -/
structure PExpr where
  pc : Int
  line : Int
  reusable : Int
  out : Int
  expr : Str
  ty : ArgTy
  file : Str
  instSize : Int
  orValue : Int
  deriving DecidableEq, Repr

/-- output_t, pass_two.h:34-42; `show` is OUTPUT_SHOW, otherwise OUTPUT_ECHO. -/
structure POut where
  pc : Int
  line : Int
  reusable : Int
  expr : Str
  isShow : Bool
  file : Str
  deriving DecidableEq, Repr

/-- instr, opcodes.h: one operand pattern of a mnemonic.
`data` are the opcode bytes, first emitted byte first; `adlTime` is adl_exectime_penalty. -/
structure Instr where
  args : Str
  data : List Nat
  hasEnd : Bool
  endData : Nat
  size : Int
  minTime : Int
  maxTime : Int
  adlTime : Int
  deriving DecidableEq, Repr

/-- opcode, opcodes.h: a mnemonic and its operand patterns in search order. -/
structure Opcode where
  name : Str
  instrs : List Instr
  deriving DecidableEq, Repr

/-- A symbol table: std::map ordered by strcmp (hash.cpp), as a sorted association list. -/
abbrev Table (α : Type) := List (Str × α)

/-- The global variables. The listing variables are left out. -/
structure S where
  mode : Mode := {}
  fs : Str → Option (List Nat) := fun _ => none
  includeDirs : List Str := []
  caseSens : Bool := false
  pc : Int := 0
  adl : Bool := false
  lineNum : Int := 0
  currFile : Str := []
  tempPath : Str := []
  mem : Nat → Nat := fun _ => 0
  outPtr : Int := 0
  errors : List Err := []
  session : Int := 0
  exitCode : Nat := 0
  errOccurred : Bool := false
  log : List Ev := []
  labels : Table Label := []
  defines : Table Define := []
  argSets : List (Table Define) := []
  reusables : Int → Int := fun _ => 0
  totalReusables : Int := 0
  currReusable : Int := 0
  exprs : List PExpr := []
  outputs : List POut := []
  lastLabel : Option Str := none
  lastDefine : Option Str := none
  ifLevel : Int := 0
  inMacro : Int := 0
  fwdRef : Bool := false
  parseDepth : Int := 0
  opcodes : List Opcode := []
  bufs : Nat → Option Str := fun _ => none
  curBuf : Int := 0
  rand : Nat → Nat := fun _ => 0
  randPos : Nat := 0
  emitLevel : Int := 0
  statsCode : Int := 0
  statsData : Int := 0
  statsMin : Int := 0
  statsMax : Int := 0
  /-- Not a variable of the program: set when parse_emit_string uses the session variable of an earlier
  operand (see `emitLoop`), so that theorems can speak about runs in which that did not happen. -/
  stale : Bool := false
  /-- Not a variable of the program: set when the evaluation of a define runs a preprocessor line of its
  contents (see `parseDefineLoop`), so that theorems can speak about runs in which that did not happen. -/
  ranPreop : Bool := false
  /-- Not a variable of the program: set when the contents of a define are used as several operands of a data
  directive (see `emitDefine`). -/
  spread : Bool := false
  /-- Not a variable of the program: set when .seek moves the output position (see `dirSeek`). -/
  sought : Bool := false

/-- Outcome of running a piece of the program. -/
inductive Res (α : Type)
  | ok (a : α) (s : S)
  | stop (e : Stop) (s : S)

/-- The state in which a run ended. -/
def Res.state {α : Type} : Res α → S
  | .ok _ s => s
  | .stop _ s => s

/-- A piece of the program: a state transformer that may stop. -/
def M (α : Type) := S → Res α

namespace M
variable {α β : Type}

def pure' (a : α) : M α := fun s => .ok a s
def bind' (m : M α) (f : α → M β) : M β := fun s =>
  match m s with
  | .ok a s' => f a s'
  | .stop e s' => .stop e s'

instance : Monad M where
  pure := pure'
  bind := bind'

/-- read the state -/
def get : M S := fun s => .ok s s
/-- update the state -/
def modify (f : S → S) : M Unit := fun s => .ok () (f s)
/-- stop -/
def halt (e : Stop) : M α := fun s => .stop e s
/-- undefined behaviour -/
def ub (u : UB) : M α := halt (.ub u)

/-- run `m` if `c` -/
def when (c : Bool) (m : M Unit) : M Unit := if c then m else pure' ()

end M

/-! ### Error codes, errors.h:9-76 -/
namespace E
def FILE_NOT_FOUND := 0x001
def NO_ACCESS := 0x002
def LOCAL_LABEL_FORWARD_REF := 0x100
def LOCAL_LABEL_SYNTAX := 0x101
def ARG_USED_WITHOUT_VALUE := 0x102
def OPERATOR_EXPECTED := 0x103
def VALUE_EXPECTED := 0x104
def BAD_VALUE_PREFIX := 0x105
def LABEL_NOT_FOUND := 0x106
def INVALID_ADDRESS := 0x107
def SIZE_MUST_BE_POSITIVE := 0x108
def FILENAME_EXPECTED := 0x109
def INVALID_OPERANDS := 0x110
def UNKNOWN_PREOP := 0x111
def UNKNOWN_DIRECTIVE := 0x112
def UNKNOWN_OPCODE := 0x113
def EQUATE_MISSING_LABEL := 0x114
def EXCEEDED_RECURSION_LIMIT := 0x115
def UNMATCHED_IF := 0x116
def STRAY_PREOP := 0x117
def EXPRESSION_EXPECTED := 0x118
def SYNTAX := 0x119
def JUMP_EXCEEDED := 0x120
def INDEX_OFFSET_EXCEEDED := 0x121
def NAME_EXPECTED := 0x122
def NO_PREVIOUS_DEFINE := 0x123
def ELIF_WITHOUT_IF := 0x124
def INVALID_OPTION := 0x125
def INVALID_ADDINSTR := 0x126
def INVALID_RST_OPERANDS := 0x127
def DEFINE_HAS_NO_VALUE := 0x128
def RECURSION_DEPTH := 0x129
def LABEL_CONFLICT := 0x130
def INVALID_INDEX_OFFSET := 0x131
def INVALID_DECIMAL_DIGIT := 0x200
def INVALID_HEX_DIGIT := 0x201
def INVALID_BINARY_DIGIT := 0x202
def DIVIDE_BY_ZERO := 0x203
def INTEGER_OVERFLOW := 0x204
def DIVIDE_IMIN1 := 0x205
def FCREATE_NOFILE := 0x301
def SIGNER_MISSING_LENGTH := 0x501
def SIGNER_PRGM_TYPE := 0x502
def SIGNER_MISSING_PAGES := 0x503
def SIGNER_MISSING_NAME := 0x504
def SIGNER_ROOM_FOR_SIG := 0x505
def CUSTOM := 0x600
def WARN_TRUNCATING_8 := 0x800
def WARN_TRUNCATING_16 := 0x801
def WARN_SMALL_LAST_PAGE := 0x802
def WARN_UNKNOWN_EXTENSION := 0x803
def WARN_MACRO_TOO_MANY_ARGS := 0x804
def WARN_LABEL_OVER_DEFINE := 0x805
def WARN_SIGNER_FILE_SIZE_64KB := 0x550
def WARN_SIGNER_FILE_SIZE_24KB := 0x551
end E

/-! ### errors.cpp -/

/-- StartSPASMErrorSession, errors.cpp:89-93 -/
def startSession : M Int := fun s => .ok (s.session + 1) { s with session := s.session + 1 }

/-- The errors a scan for session `n` visits: the head run of the list with that session number
(the loop condition shared by errors.cpp:99, 122, 167, 184, 241). -/
def sessPrefix (n : Int) (l : List Err) : List Err := l.takeWhile (fun e => e.sess == n)

/-- GetSPASMErrorSessionErrorCount, errors.cpp:95-108 -/
def sessionCount (n : Int) (s : S) : Nat := ((sessPrefix n s.errors).filter (fun e => e.code != 0)).length

/-- IsSPASMErrorFatal, errors.cpp:110-116 -/
def isFatal (code : Nat) : Bool :=
  !(code == E.LOCAL_LABEL_FORWARD_REF || code == E.LABEL_NOT_FOUND || code == 0
    || code == E.RECURSION_DEPTH)

/-- IsSPASMErrorSessionFatal, errors.cpp:118-134 -/
def sessionFatal (n : Int) (s : S) : Bool := (sessPrefix n s.errors).any (fun e => isFatal e.code)

/-- IsErrorInSPASMErrorSession, errors.cpp:181-194 -/
def errorInSession (n : Int) (code : Nat) (s : S) : Bool :=
  (sessPrefix n s.errors).any (fun e => e.code == code)

/-- ReplayErrorRecursive + PrintSPASMError, errors.cpp:31-55, 136-155: the errors of session 1
anywhere in the list, oldest first; nothing in code-counter mode. The error text is not modelled. -/
def printedErrors (fatalOnly : Bool) (s : S) : List Ev :=
  if s.mode.codeCounter then []
  else ((s.errors.reverse.filter (fun e => e.sess == 1)).filter
      (fun e => !fatalOnly || isFatal e.code)).map (fun e => Ev.printed e.code e.warn)

/-- The renumbering loop of ReplaySPASMErrorSession, errors.cpp:166-172 -/
def lowerPrefix (n : Int) : List Err → List Err
  | [] => []
  | e :: l => if e.sess == n then { e with sess := e.sess - 1 } :: lowerPrefix n l else e :: l

/-- ReplaySPASMErrorSession, errors.cpp:157-174 (default fFatalOnly = false) -/
def replaySession (n : Int) (fatalOnly : Bool := false) : M Unit := fun s =>
  if n = 1 then .ok () { s with log := s.log ++ printedErrors fatalOnly s }
  else .ok () { s with errors := lowerPrefix n s.errors }

/-- ReplayFatalSPASMErrorSession, errors.cpp:176-179 -/
def replayFatal (n : Int) : M Unit := replaySession n true

/-- EndSPASMErrorSession and CleanupSPASMErrorSession, errors.cpp:225-268 -/
def endSession (n : Int) : M Unit := fun s =>
  let fatal := (sessPrefix n s.errors).any (fun e => isFatal e.code)
  let s' := { s with
    errors := s.errors.dropWhile (fun e => e.sess == n), session := s.session - 1 }
  if n = 1 && fatal then .stop (.exit 3) s' else .ok () s'

/-- ClearSPASMErrorSessions, errors.cpp:271-279 -/
def clearSessions : M Unit := M.modify fun s => { s with errors := [], session := 0 }

/-- SetLastSPASMProblem, errors.cpp:330-378 -/
def setProblem (code : Nat) (warn : Bool) : M Unit := fun s =>
  if code = 0 then .ok () s
  else .ok () { s with
    errors := ⟨code, s.session, warn, s.lineNum, s.currFile⟩ :: s.errors }

/-- SetLastSPASMError, errors.cpp:390-398 -/
def setError (code : Nat) : M Unit := setProblem code false
/-- SetLastSPASMWarning, errors.cpp:380-388 -/
def setWarning (code : Nat) : M Unit := setProblem code true

/-- AddSPASMErrorSessionAnnotation, errors.cpp:196-224: changes only the text printed with an error,
which the model does not keep. -/
def annotate (_ : Int) : M Unit := pure ()

/-- show_error, utils.cpp:916-929 -/
def showError (m : Msg) : M Unit := M.modify fun s =>
  { s with exitCode := if s.exitCode < 2 then 2 else s.exitCode, log := s.log ++ [.error m] }

/-- show_fatal_error, utils.cpp:931-951 -/
def showFatal (m : Msg) : M Unit := M.modify fun s =>
  { s with exitCode := if s.exitCode < 3 then 3 else s.exitCode, errOccurred := true,
           log := s.log ++ [.fatal m] }

/-- show_warning, utils.cpp:960-978 -/
def showWarning (m : Msg) : M Unit := M.modify fun s =>
  { s with exitCode := if s.exitCode < 1 then 1 else s.exitCode, log := s.log ++ [.warning m] }

end Spasm
