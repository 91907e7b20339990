import Verif.Model.Storage

/-
parser.cpp: the expression evaluator, and the functions of utils.cpp that are mutually recursive
with it (parse_args, eval, reduce_string, expand_expr).
-/

namespace Spasm

/-- ES_TYPE, directive.h, together with the target parameter of parse_emit_string: no target, standard
output or a file for ES_ECHO; a buffer for ES_FCREATE. -/
inductive Es
  | byte | word | long | echoNull | echoOut | echoFile | fcreate
  deriving DecidableEq, Repr

/-- Callbacks that tie the mutual recursion of the program. `knot n` (Knot.lean) gives every function
a recursion budget of `n`. -/
structure Rec where
  fuel : Nat
  numFull : Str → Int → M (Option (Str × Int))
  expandFull : Str → Nat → Bool → M Str
  handlePreop : Str → M (Option Str)
  preopIf : Str → M (Option Str)
  lineSec : Str → M (Option Str)
  emitString : Str → Es → M (Str × Str)

/-- binary operators, parser.cpp:27-52 -/
inductive Op
  | add | sub | mul | div | mod | xor | land | lor | lshift | rshift
  | and | or | lte | gte | lt | gt | eq | ne
  deriving DecidableEq, Repr

/-- MathDefs, parser.cpp:60-85, in search order -/
def mathDefs : List (Op × Str) :=
  [(.lshift, b! "<<"), (.rshift, b! ">>"), (.and, b! "&&"), (.or, b! "||"), (.lte, b! "<="),
   (.gte, b! ">="), (.lt, b! "<"), (.gt, b! ">"), (.eq, b! "=="), (.eq, b! "="), (.ne, b! "!="),
   (.add, b! "+"), (.sub, b! "-"), (.mul, b! "*"), (.div, b! "/"), (.mod, b! "%"), (.xor, b! "^"),
   (.land, b! "&"), (.lor, b! "|")]

/-- The operator at the head of the text and the text after it, parser.cpp:605-614 -/
def matchOp (s : Str) : Option (Op × Str) :=
  (mathDefs.find? (fun d => d.2.isPrefixOf s)).map (fun d => (d.1, s.drop d.2.length))

/-- Outcome of applying an operator. -/
inductive OpRes
  | val (v : Int) | err (code : Nat) | ub (u : UB)
  deriving DecidableEq, Repr

/-- A result that must fit an `int`. -/
def OpRes.ofInt (v : Int) : OpRes := if inI32 v then .val v else .ub .signedOverflow

/-- truth value as an `int` -/
def boolInt (b : Bool) : Int := if b then 1 else 0

/-- parser.cpp:553-591: the guards and the operation. -/
def applyOp (op : Option Op) (total last : Int) : OpRes :=
  if (op = some .div ∨ op = some .mod) ∧ last = 0 then .err E.DIVIDE_BY_ZERO
  else if (op = some .div ∨ op = some .mod) ∧ total = intMin ∧ last = -1 then .err E.DIVIDE_IMIN1
  else match op with
  | none => .val last
  | some .add => .ofInt (total + last)
  | some .sub => .ofInt (total - last)
  | some .mul => .ofInt (total * last)
  | some .div => .ofInt (total.tdiv last)
  | some .mod => .ofInt (total.tmod last)
  | some .xor => .val (ixor total last)
  | some .land => .val (iand total last)
  | some .lor => .val (ior total last)
  | some .lshift =>
    if last < 0 ∨ last ≥ 32 then .ub .badShift else .val (toI32 (total * 2 ^ last.toNat))
  | some .rshift =>
    if last < 0 ∨ last ≥ 32 then .ub .badShift else .val (total / 2 ^ last.toNat)
  | some .and => .val (boolInt (total != 0 && last != 0))
  | some .or => .val (boolInt (total != 0 || last != 0))
  | some .lt => .val (boolInt (total < last))
  | some .gt => .val (boolInt (total > last))
  | some .lte => .val (boolInt (total ≤ last))
  | some .gte => .val (boolInt (total ≥ last))
  | some .eq => .val (boolInt (total = last))
  | some .ne => .val (boolInt (total ≠ last))

/-! ### Literals -/

/-- value of a character as a digit in bases up to 36 -/
def digitVal (c : Nat) : Option Nat :=
  if isDigit c then some (c - 48)
  else if isUpper c then some (c - 55)
  else if isLower c then some (c - 87)
  else none

/-- the character is a digit of the base -/
def isDigitOf (base c : Nat) : Bool :=
  match digitVal c with
  | some d => d < base
  | none => false

/-- The digit loop of strtoll: value and remaining text. -/
def digits (base : Nat) : Nat → Str → Nat × Str
  | acc, [] => (acc, [])
  | acc, c :: t =>
    if isDigitOf base c then digits base (acc * base + (digitVal c).getD 0) t else (acc, c :: t)

/-- strtoll(s, &ep, base) for base 2, 10, 16: value and the number of characters before `ep`.
Leading white space, a sign and (base 16) a `0x` prefix are accepted; without digits nothing is
consumed. Saturation at LLONG_MIN/MAX is left out: its only user rejects everything outside
INT_MIN..UINT_MAX. glibc's C2X-only `0b` prefix is not modelled. -/
def strtoll (base : Nat) (s : Str) : Int × Nat :=
  let t := s.dropWhile isSpace
  let neg := hd t == 45
  let u := if hd t == 45 || hd t == 43 then t.tail else t
  let v := if base == 16 && hd u == 48 && (hd u.tail == 120 || hd u.tail == 88)
              && isDigitOf 16 (hd u.tail.tail) then u.tail.tail else u
  if isDigitOf base (hd v) then
    let (n, r) := digits base 0 v
    (if neg then -(n : Int) else n, s.length - r.length)
  else (0, 0)

/-- conv_generic, parser.cpp:657-678. `s` is the text at `str`, `len` is `end - str`.
Result: the value, or none after recording the error. -/
def convGeneric (base errCode : Nat) (s : Str) (len : Nat) : M (Option Int) := do
  let (v, n) := strtoll base s
  if n < len then do
    setError errCode
    pure none
  else if v < intMin ∨ v > 4294967295 then do
    setError E.INTEGER_OVERFLOW
    pure none
  else pure (some (toI32 v))

/-- conv_hex, parser.cpp:680-682 -/
def convHex := convGeneric 16 E.INVALID_HEX_DIGIT
/-- conv_dec, parser.cpp:684-686 -/
def convDec := convGeneric 10 E.INVALID_DECIMAL_DIGIT
/-- conv_bin, parser.cpp:688-690 -/
def convBin := convGeneric 2 E.INVALID_BINARY_DIGIT

/-! ### parse_num, parse_f, eval, reduce_string -/

/-- parse_num, parser.cpp:112-126; none is false. The caller's `*value` is 0 on failure. -/
def parseNum (k : Rec) (s : Str) : M (Option Int) := do
  M.modify fun st => { st with parseDepth := 0 }
  let r ← k.numFull s 0
  pure (r.map (·.2))

/-- parse_f, parser.cpp:133-146 -/
def parseF (k : Rec) (s : Str) : M Int := do
  let sess ← startSession
  let r ← parseNum k s
  let st ← M.get
  let v := if sessionFatal sess st then -1 else r.getD (-1)
  endSession sess
  pure v

/-- `[-]$%0X`, utils.cpp:240-246 -/
def fmtEval (v : Int) : Str := (if v < 0 then [45] else []) ++ [36] ++ fmtHex v.natAbs

/-- expand_expr, utils.cpp:873-884 -/
def expandExpr (k : Rec) (s : Str) (local_ : Bool := true) : M Str := k.expandFull s 0 local_

/-- eval, utils.cpp:230-253 -/
def evalStr (k : Rec) (s : Str) : M Str := do
  let sess ← startSession
  let r ← parseNum k s
  endSession sess
  match r with
  | some v => if v = intMin then M.ub .signedOverflow else pure (fmtEval v)
  | none => expandExpr k s

/-- The loop of reduce_string, utils.cpp:546-565: output bytes (newest first) and number of quotes.
A backslash before the terminating NUL makes the loop run past the end of the string. -/
def reduceLoop (k : Rec) : Str → Str → Nat → M (Str × Nat)
  | [], out, q => pure (out, q)
  | [c], out, q =>
    if c == 92 then M.ub .pastEnd
    else pure (c :: out, if c == 34 then q + 1 else q)
  | c :: d :: t, out, q =>
    if c == 92 then do
      let v ← parseNum k [39, 92, d, 39]
      reduceLoop k t (((v.getD 0) % 256).toNat :: out) q
    else reduceLoop k (d :: t) (c :: out) (if c == 34 then q + 1 else q)

/-- reduce_string, utils.cpp:542-580. An escaped NUL ends the resulting C string. -/
def reduceString (k : Rec) (s : Str) : M Str := do
  let (out, q) ← reduceLoop k s [] 0
  let r := out.reverse.takeWhile (fun c => c != 0)
  if q ≥ 2 && hd r == 34 && hd r.reverse == 34 then pure (r.dropLast.drop 1) else pure r

/-! ### Macro arguments -/

/-- The argument loop of parse_args, utils.cpp:280-306: `params` are the parameters still to bind.
Result: remaining parameters and text. -/
def argLoop (k : Rec) : Nat → Bool → List Str → Str → M (List Str × Str)
  | 0, _, _, _ => M.halt .fuel
  | f + 1, exp, params, s => do
    let (w, exp, s) ← extractArg exp s
    match w with
    | none => pure (params, s)
    | some w =>
      match params with
      | [] => do
        setWarning E.WARN_MACRO_TOO_MANY_ARGS
        pure ([], s)
      | p :: ps => do
        if hd p == 64 then addArg p (some w)
        else do
          let v ← evalStr k w
          addArg p (some v)
        argLoop k f exp ps s

/-- Binding of the missing parameters, utils.cpp:310-311 -/
def fillArgs : List Str → M Unit
  | [] => pure ()
  | p :: ps => do
    addArg p none
    fillArgs ps

/-- parse_args, utils.cpp:264-315. Result: the text after the arguments and whether an argument set
was added. -/
def parseArgs (k : Rec) (s : Str) (d : Define) : M (Str × Bool) := do
  if hd s != 40 && d.args.isEmpty then pure (s, false)
  else do
    addArgSet
    let (ps, s) ←
      if hd s == 40 then
        let s := skipWs s.tail
        if hd s != 41 && !isEnd s then argLoop k (s.length + 2) true d.args s
        else pure (d.args, s)
      else pure (d.args, s)
    fillArgs ps
    pure (dropChar 41 s, true)

/-! ### parse_define -/

/-- parse_define, parser.cpp:156-180: the first code line of the contents, after running the
preprocessor lines before it. The variable `ranPreop` is a ghost. -/
def parseDefineLoop (k : Rec) : Nat → Str → M (Option Str)
  | 0, _ => M.halt .fuel
  | f + 1, s => do
    let st ← M.get
    if s.isEmpty || st.errOccurred then pure none
    else
      let c := skipWs s
      if hd c == 35 then do
        M.modify fun st => { st with ranPreop := true }
        match ← k.handlePreop c.tail with
        | none => M.ub .nullDeref
        | some n => do
          M.modify fun st => { st with lineNum := st.lineNum + 1 }
          parseDefineLoop k f (nextCodeLine n)
      else if !isEnd c then pure (some (codeLine c).1)
      else do
        M.modify fun st => { st with lineNum := st.lineNum + 1 }
        parseDefineLoop k f (nextCodeLine s)

/-- parse_define, parser.cpp:156-180 -/
def parseDefine (k : Rec) (d : Define) : M (Option Str) :=
  match d.contents with
  | none => pure none
  | some c => parseDefineLoop k (c.length + 1) c

/-! ### parse_single_num -/

/-- `+..._`, parser.cpp:193-220 -/
def parsePlus (s : Str) : M (Option (Str × Int)) := do
  let st ← M.get
  let n := (s.takeWhile (fun c => c == 43)).length
  let r := s.dropWhile (fun c => c == 43)
  let i := getCurrReusable st + n
  if hd r != 95 then do
    setError E.LOCAL_LABEL_SYNTAX
    pure none
  else if i ≥ st.totalReusables then do
    setError E.LOCAL_LABEL_FORWARD_REF
    pure none
  else do
    let v ← searchReusables i
    pure (some (r.tail, v))

/-- The `-` loop, parser.cpp:227-230 -/
def minusLoop : Str → Int → Str × Int
  | [], i => ([], i)
  | c :: t, i => if c == 45 && i > 0 then minusLoop t (i - 1) else (c :: t, i)

/-- `-..._`, parser.cpp:221-241 -/
def parseMinus (s : Str) : M (Option (Str × Int)) := do
  let st ← M.get
  let (r, i) := minusLoop s.tail (getCurrReusable st)
  if hd r != 95 || i < 0 then do
    setError E.LOCAL_LABEL_SYNTAX
    pure none
  else do
    let v ← searchReusables i
    pure (some (r.tail, v))

/-- rand() & 0xFF -/
def randByte : M Int := fun s => .ok ((s.rand s.randPos % 256 : Nat)) { s with randPos := s.randPos + 1 }

/-- The escape switch, parser.cpp:280-289; `c` is the character after the backslash. -/
def escapeVal (c : Nat) : M Int :=
  let u := toUpper c
  if u == 78 then pure 10
  else if u == 92 then pure 92
  else if u == 48 then pure 0
  else if u == 82 then pure 13
  else if u == 84 then pure 9
  else if u == 39 then pure 39
  else if u == 35 then randByte
  else pure (charVal c)

/-- The closing quote, parser.cpp:292-296: `s` is the text after the character. -/
def closeQuote (s : Str) (v : Int) : M (Option (Str × Int)) := do
  if hd s != 39 then do
    showWarning .missingQuote
    pure (some (s, v))
  else pure (some (s.tail, v))

/-- `'c'`, parser.cpp:276-300; `s` is the text after the opening quote. Running past the NUL is
undefined behaviour. -/
def parseChar : Str → M (Option (Str × Int))
  | [] => M.ub .pastEnd
  | [c] => if c == 92 then M.ub .pastEnd else closeQuote [] (charVal c)
  | c :: d :: t =>
    if c == 92 then do
      let v ← escapeVal d
      closeQuote t v
    else closeQuote (d :: t) (charVal c)

/-- getc(file, n), parser.cpp:345-379; `s` is the text after the parenthesis. The file position
of a failed fseek (negative index) stays 0; reading at or past the end gives EOF = -1. When the file
cannot be opened the value stays uninitialised. -/
def parseGetc (k : Rec) (s : Str) : M (Option (Str × Int)) := do
  let (_, filename, s) ← readExpr [44] s
  let filename ←
    match ← searchDefines filename with
    | some (_, d) =>
      match d.contents with
      | none => M.ub .nullDeref
      | some c => pure (c.take 256)
    | none => pure filename
  let (_, buf, s) ← readExpr [44] s
  let idx ← parseF k buf
  let rfn ← reduceString k filename
  let st ← M.get
  match st.fs (fixFilename rfn) with
  | none => do
    setError E.FILE_NOT_FOUND
    M.ub .uninitialised
  | some bytes =>
    let pos := if idx < 0 then 0 else idx.toNat
    let v : Int := match bytes[pos]? with | some b => b | none => -1
    pure (some (dropChar 41 s, v))

/-- Evaluation of a define, parser.cpp:380-422; `s` is the text after the name. -/
def parseMacro (k : Rec) (d : Define) (s : Str) : M (Option (Str × Int)) := do
  let (s, pushed) ← parseArgs k s d
  let st ← M.get
  let oldLine := st.lineNum
  M.modify fun st => { st with lineNum := d.line }
  let sess ← startSession
  let v ←
    match ← parseDefine k d with
    | none => do
      setError E.ARG_USED_WITHOUT_VALUE
      pure none
    | some c => k.numFull c 0
  M.modify fun st => { st with lineNum := oldLine }
  let st ← M.get
  let bad := sessionCount sess st > 0
  M.when bad (do annotate sess; replaySession sess)
  endSession sess
  removeArgSet pushed
  if bad then pure none
  else
    match v with
    | some (_, v) => pure (some (s, v))
    | none => M.ub .uninitialised

/-- A name, parser.cpp:303-429 -/
def parseName (k : Rec) (s : Str) : M (Option (Str × Int)) := do
  let name := takeName s
  let r := skipNameEnd s
  let st ← M.get
  let loc := searchLocal name st
  let label := if loc.isSome then none else searchLabels name st
  let def_ ←
    match loc with
    | some d => pure (some d)
    | none =>
      if label.isSome then pure none
      else do
        let d ← searchDefines name
        pure (d.map (·.2))
  if name == [95] then
    if getCurrReusable st + 1 < st.totalReusables then do
      let v ← searchReusables (getCurrReusable st + 1)
      pure (some (r, v))
    else do
      setError E.LOCAL_LABEL_FORWARD_REF
      pure none
  else
    match label with
    | some l => pure (some (r, l.value))
    | none =>
      if eqCase name (b! "eval") && hd r == 40 then k.numFull r 0
      else if eqCase name (b! "getc") && hd r == 40 then parseGetc k r.tail
      else
        match def_ with
        | some d => parseMacro k d r
        | none => do
          setError E.LABEL_NOT_FOUND
          M.modify fun st => { st with fwdRef := true }
          pure none

/-- A number that starts with a digit, parser.cpp:431-447 -/
def parseDigits (s : Str) : M (Option (Str × Int)) := do
  let run := s.takeWhile isAlnum
  let r := s.dropWhile isAlnum
  let last := toUpper (hd run.reverse)
  let v ←
    if last == 72 then convHex s (run.length - 1)
    else if last == 66 then convBin s (run.length - 1)
    else if last == 68 then convDec s (run.length - 1)
    else convDec s run.length
  pure (v.map (fun v => (r, v)))

/-- parse_single_num, parser.cpp:189-457 -/
def parseSingle (k : Rec) (s : Str) : M (Option (Str × Int)) := do
  let c := hd s
  if c == 43 then parsePlus s
  else if c == 45 then parseMinus s
  else if c == 36 then
    if isXDigit (hd s.tail) then do
      let run := s.tail.takeWhile isAlnum
      let v ← convHex s.tail run.length
      pure (v.map (fun v => (s.tail.dropWhile isAlnum, v)))
    else do
      let st ← M.get
      pure (some (s.tail, toI32 st.pc))
  else if c == 37 then do
    let run := s.tail.takeWhile isAlnum
    let v ← convBin s.tail run.length
    pure (v.map (fun v => (s.tail.dropWhile isAlnum, v)))
  else if c == 39 then parseChar s.tail
  else if isAlpha c || c == 95 then parseName k s
  else if isDigit c then parseDigits s
  else do
    setError E.BAD_VALUE_PREFIX
    pure none

/-! ### parse_num_full -/

/-- What follows a number. -/
inductive Next
  | done (rest : Str) | op (o : Op) (rest : Str) | fail
  deriving DecidableEq, Repr

/-- From label get_op, parser.cpp:594-644 -/
def getOp (depth : Int) : Nat → Str → M Next
  | 0, _ => M.halt .fuel
  | f + 1, s => do
    let s := skipWs s
    if isEnd s then do
      M.when (decide (depth > 0)) (showWarning .missingParen)
      M.modify fun st => { st with parseDepth := st.parseDepth - 1 }
      pure (.done s)
    else
      match matchOp s with
      | some (o, r) =>
        let r := skipWs r
        if r.isEmpty then do
          setError E.VALUE_EXPECTED
          pure .fail
        else pure (.op o r)
      | none =>
        if hd s == 41 then
          if depth > 0 then do
            M.modify fun st => { st with parseDepth := st.parseDepth - 1 }
            pure (.done (skipWs s.tail))
          else do
            showWarning .extraParen
            getOp depth f s.tail
        else do
          setError E.OPERATOR_EXPECTED
          pure .fail

/-- The prefix of an operand, parser.cpp:522-533: inverted?, negated?, text after it. -/
def unary (s : Str) : Bool × Bool × Str :=
  if hd s == 126 then (true, false, skipWs s.tail)
  else if (hd s == 45 || hd s == 43) && hd s.tail != hd s
      && (hd s.tail != 95 || isNameChar (hd s.tail.tail)) then
    (false, hd s == 45, skipWs s.tail)
  else (false, false, s)

/-- The loop of parse_num_full, parser.cpp:518-645 -/
def numLoop (k : Rec) (depth : Int) : Nat → Int → Option Op → Str → M (Option (Str × Int))
  | 0, _, _, _ => M.halt .fuel
  | f + 1, total, op, s => do
    let (inv, neg, s) := unary s
    let r ← if hd s == 40 then k.numFull s.tail (depth + 1) else parseSingle k s
    match r with
    | none => pure none
    | some (s, v) =>
      let v := if inv then icpl v else v
      if neg && v == intMin then M.ub .signedOverflow
      else
        let v := if neg then -v else v
        match applyOp op total v with
        | .err c => do
          setError c
          pure none
        | .ub u => M.ub u
        | .val total => do
          match ← getOp depth (s.length + 1) s with
          | .fail => pure none
          | .done s => pure (some (s, total))
          | .op o s => numLoop k depth f total (some o) s

/-- parse_num_full, parser.cpp:497-646; RECURSION_LIMIT is 20. -/
def numFullBody (k : Rec) (s : Str) (depth : Int) : M (Option (Str × Int)) := do
  M.modify fun st => { st with fwdRef := false, parseDepth := st.parseDepth + 1 }
  let st ← M.get
  if st.parseDepth > 20 then do
    setError E.EXCEEDED_RECURSION_LIMIT
    pure none
  else
    let t := skipWs s
    if t.isEmpty then do
      setError E.VALUE_EXPECTED
      pure none
    else numLoop k depth (s.length + 1) 0 none t

/-! ### expand_expr -/

/-- The string copy of expand_expr_full, utils.cpp:806-812; text after the opening quote.
Result: the text after the string. -/
def skipQuoted : Str → Str
  | [] => []
  | [c] => if c == 34 then [] else []
  | c :: d :: t => if c == 34 then d :: t else if c == 92 then skipQuoted t else skipQuoted (d :: t)

/-- separators of expand_expr_full, utils.cpp:793 -/
def separators : Str := [61, 43, 45, 42, 60, 62, 124, 38, 47, 37, 94, 40, 41, 92, 44, 32, 9, 13]

/-- The characters between two positions of a text: `from` up to its suffix `to_`. -/
def between (from_ to_ : Str) : Str := from_.take (from_.length - to_.length)

/-- expand_expr_full, utils.cpp:803-869: the loop. Result: the expanded text and whether the
function returned early. -/
def expandLoop (k : Rec) (depth : Nat) (local_ : Bool) : Nat → Str → Str → M Str
  | 0, _, _ => M.halt .fuel
  | f + 1, s, out => do
    if s.isEmpty then pure out
    else do
      let q := if hd s == 34 then skipQuoted s.tail else s
      let out := out ++ between s q
      let s := q
      let name := takeName s
      let r := skipNameEnd s
      let finish (out s : Str) : M Str :=
        let s' := s.dropWhile (fun c => separators.contains c)
        expandLoop k depth local_ f s' (out ++ between s s')
      if name.length > 0 then do
        let st ← M.get
        match ← searchDefines name local_ with
        | some (_, ⟨nm, some c, args, ln, fl⟩) => do
          let (s', pushed) ←
            if args.length > 0 then parseArgs k r ⟨nm, some c, args, ln, fl⟩ else pure (r, false)
          let e ← k.expandFull c (depth + 1) local_
          removeArgSet pushed
          let st ← M.get
          if st.errOccurred then pure (out ++ e) else finish (out ++ e) s'
        | _ =>
          match searchLabels name st with
          | some l => finish (out ++ (fmtInt l.value).take 9) r
          | none => finish (out ++ name) r
      else
        match s with
        | [] => finish out []
        | c :: t => finish (out ++ [c]) t

/-- expand_expr_full, utils.cpp:790-870; RECURSION_LIMIT is 20. -/
def expandFullBody (k : Rec) (s : Str) (depth : Nat) (local_ : Bool) : M Str := do
  if depth > 20 then do
    setError E.RECURSION_DEPTH
    pure []
  else expandLoop k depth local_ (s.length + 1) s []

/-- set_define, storage.cpp:474-507 (`str` already cut to its length). With `redefined`, the text is
expanded in a define table that holds only the old contents under the define's own name. -/
def setDefine (k : Rec) (r : DRef) (str : Str) (redefined : Bool) : M Unit := do
  let s ← M.get
  match derefDef r s with
  | none => M.ub .nullDeref
  | some d =>
    match redefined, d.contents with
    | true, some c => do
      let saved := s.defines
      M.modify fun s => { s with defines := [] }
      match ← addDefine d.name false with
      | none => M.ub .nullDeref
      | some (r', _) => do
        M.modify (writeDef r' (fun d => { d with contents := some c }))
        let e ← expandExpr k str false
        M.modify fun s => { s with defines := saved }
        M.modify (writeDef r (fun d => { d with contents := some e }))
    | _, _ => M.modify (writeDef r (fun d => { d with contents := some str }))

end Spasm
