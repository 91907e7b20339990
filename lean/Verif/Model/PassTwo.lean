import Verif.Model.Parser

/-
pass_two.cpp and write_out: emission of bytes and the deferred-expression queue.
-/

namespace Spasm

/-- size of the output buffer, spasm.h:59 -/
def outputBufSize : Int := 8000000

/-- write_out, pass_one.cpp:38-72 (the listing is not modelled). The buffer of main.cpp:446 has
`outputBufSize` bytes and there is no bounds check. -/
def writeOut (v : Int) : M Unit := fun s =>
  if s.outPtr < 0 ∨ s.outPtr ≥ outputBufSize then .stop (.ub .outOfBounds) s
  else .ok () { s with
    mem := fun i => if i = s.outPtr.toNat then (v % 256).toNat else s.mem i, outPtr := s.outPtr + 1 }

/-- `program_counter += n` on `unsigned int` -/
def advance (n : Int) : M Unit := M.modify fun s => { s with pc := toU32 (s.pc + n) }

/-- the legal RST vectors, pass_two.cpp:264-271 -/
def isRst (v : Int) : Bool :=
  v == 0x00 || v == 0x08 || v == 0x10 || v == 0x18 || v == 0x20 || v == 0x28 || v == 0x30 || v == 0x38

/-- The displacement of a relative jump, pass_two.cpp:296-304: `unsigned` arithmetic converted back to
`int`. `& 0xFFFF` and `& 0xFFFFFF` are reductions modulo 2^16 and 2^24. -/
def displacement (ez80 : Bool) (value pc instSize : Int) : Int :=
  if ez80 then toI32 (value % 0x1000000 - (pc % 0x1000000 + instSize))
  else toI32 (value % 0x10000 - (pc % 0x10000 + instSize))

/-- write_arg, pass_two.cpp:252-329 -/
def writeArg (value : Int) (ty : ArgTy) (instSize orValue : Int) : M Unit := do
  match ty with
  | .num8 => do
    M.when (decide (value < -128 ∨ value > 255)) (setWarning E.WARN_TRUNCATING_8)
    writeOut value
  | .rst => if isRst value then writeOut (value + 0xC7) else setError E.INVALID_RST_OPERANDS
  | .num16 => do
    let s ← M.get
    M.when (s.mode.ez80 && decide (value < -32768 ∨ value > 65535)) (setWarning E.WARN_TRUNCATING_16)
    writeOut value
    writeOut (value / 256)
  | .num24 => do
    writeOut value
    writeOut (value / 256)
    writeOut (value / 65536)
  | .addrOffset => do
    let s ← M.get
    let d := displacement s.mode.ez80 value s.pc instSize
    if d < -128 ∨ d > 127 then do
      setError E.JUMP_EXCEEDED
      writeOut 0
    else writeOut d
  | .ixIyOffset =>
    if value > 127 ∨ value < -128 then do
      setError E.INDEX_OFFSET_EXCEEDED
      writeOut 0
    else writeOut value
  | .bitNum =>
    if value < 0 ∨ value > 7 then do
      showError .bitRange
      writeOut (ior 0 orValue)
    else writeOut (ior (value * 8) orValue)

/-- add_pass_two_expr, pass_two.cpp:24-88. `orValue` is an `int` holding a byte. -/
def addPassTwoExpr (k : Rec) (expr : Str) (ty : ArgTy) (instSize orValue : Int) : M Unit := do
  let sess ← startSession
  let r ← parseNum k expr
  let s ← M.get
  match r with
  | none =>
    if sessionFatal sess s then replaySession sess
    else do
      let e ← expandExpr k expr
      M.modify fun s' => { s' with
        exprs := s'.exprs ++ [⟨toI32 s.pc, s.lineNum, getCurrReusable s, s.outPtr, e, ty, s.currFile,
          instSize, orValue⟩] }
      writeArg 0 (if ty = .addrOffset then .num8 else ty) instSize 0
  | some v => do
    writeArg v ty instSize orValue
    replaySession sess
  endSession sess

/-- add_pass_two_output, pass_two.cpp:98-121 -/
def addPassTwoOutput (k : Rec) (expr : Str) (isShow : Bool) : M Unit := do
  let s ← M.get
  let e ← if isShow then pure expr else expandExpr k expr
  M.modify fun s' => { s' with
    outputs := s'.outputs ++ [⟨toI32 s.pc, s.lineNum, getCurrReusable s, e, isShow, s.currFile⟩] }

/-- show_define, directive.cpp:490-519 -/
def showDefine (d : Define) : M Unit := M.modify fun s =>
  let args := if d.args.isEmpty then [] else [40] ++ List.intercalate [44, 32] d.args ++ [41]
  let c := match d.contents with | none => [] | some c => [58, 32] ++ c
  { s with log := s.log ++ [.text (d.name ++ args ++ c ++ [10])] }

/-- One deferred expression, pass_two.cpp:149-186 -/
def runExpr (k : Rec) (e : PExpr) : M Unit := do
  M.modify fun s => { s with pc := toU32 e.pc, lineNum := e.line, currFile := e.file }
  setCurrReusable e.reusable
  match ← parseNum k e.expr with
  | none => pure ()
  | some v =>
    if e.ty = .rst then
      if isRst v then writeArg (v + 0xC7) e.ty e.instSize e.orValue
      else setError E.INVALID_RST_OPERANDS
    else do
      M.modify fun s => { s with outPtr := e.out }
      writeArg v e.ty e.instSize e.orValue

/-- The expression loop, pass_two.cpp:147-191. Evaluation may append to the queue only through the
preprocessor; the model runs the queue as it is at the start of the pass. -/
def runExprs (k : Rec) : List PExpr → M Unit
  | [] => pure ()
  | e :: es => do
    runExpr k e
    runExprs k es

/-- One deferred message, pass_two.cpp:199-240 -/
def runOutput (k : Rec) (o : POut) : M Unit := do
  M.modify fun s => { s with pc := toU32 o.pc, lineNum := o.line, currFile := o.file }
  setCurrReusable o.reusable
  if o.isShow then do
    match ← searchDefines o.expr with
    | none => setError E.LABEL_NOT_FOUND
    | some (_, d) => showDefine d
  else do
    let sess ← startSession
    let (_, t) ← k.emitString o.expr .echoOut
    M.modify fun s => { s with log := s.log ++ [.text t] }
    replaySession sess
    endSession sess

/-- The message loop, pass_two.cpp:199-240 -/
def runOutputs (k : Rec) : List POut → M Unit
  | [] => pure ()
  | o :: os => do
    runOutput k o
    runOutputs k os

/-- run_second_pass, pass_two.cpp:134-242 -/
def runSecondPass (k : Rec) : M Unit := do
  let s ← M.get
  runExprs k s.exprs
  M.modify fun s' => { s' with outPtr := s.outPtr, exprs := [] }
  runOutputs k s.outputs
  M.modify fun s' => { s' with currFile := s.currFile, outputs := [] }

end Spasm
