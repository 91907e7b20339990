import Verif.Model.State

/-
Text scanners of utils.cpp. Every function takes the text from the current position on
(a suffix of the source) and returns the text from the new position on.
-/

namespace Spasm

/-- is_end_of_code_line, utils.cpp:51-56 -/
def isEnd : Str → Bool
  | [] => true
  | c :: _ => c == 10 || c == 13 || c == 59 || c == 92

/-- `if (*ptr == c) ptr++;` -/
def dropChar (c : Nat) (s : Str) : Str := if hd s == c then s.tail else s

/-- skip_to_next_line, utils.cpp:61-74 -/
def skipToNextLine (s : Str) : Str :=
  dropChar 10 (dropChar 13 (s.dropWhile (fun c => c != 10 && c != 13)))

/-- is_name_char, utils.cpp:76-79. `memchr` is called with the sizeof of an array without NUL. -/
def isNameChar (c : Nat) : Bool :=
  isAlnum c || c == 95 || c == 91 || c == 93 || c == 33 || c == 63 || c == 46

/-- skip_to_name_end, utils.cpp:84-92 -/
def skipNameEnd (s : Str) : Str := s.dropWhile isNameChar

/-- The name that `skip_to_name_end` delimits: `strndup(ptr, skip_to_name_end(ptr) - ptr)`. -/
def takeName (s : Str) : Str := s.takeWhile isNameChar

/-- skip_to_line_end, utils.cpp:94-109 (loop state: in_escape, in_quotes) -/
def skipToLineEnd (esc quo : Bool) : Str → Str
  | [] => []
  | c :: t =>
    if c == 10 || c == 13 || (c == 59 && !quo) then c :: t
    else if c == 92 then skipToLineEnd true quo t
    else if c == 34 && !esc then skipToLineEnd esc (!quo) t
    else skipToLineEnd false quo t

/-- isspace but not a line break: the test of skip_whitespace, utils.cpp:124 -/
def isBlank (c : Nat) : Bool := isSpace c && c != 10 && c != 13

/-- skip_whitespace, utils.cpp:120-128 -/
def skipWs (s : Str) : Str := s.dropWhile isBlank

/-- is_arg, utils.cpp:130-133 -/
def isArg (c : Nat) : Bool :=
  c == 42 || c == 38 || c == 37 || c == 64 || c == 94 || c == 35

/-- Scanner state shared by next_expr and read_expr_impl: `con` are the characters consumed so far,
newest first, so that the scanner can step back. -/
structure Scan where
  con : Str
  rest : Str
  str : Bool := false
  esc : Bool := false
  quo : Nat := 0
  lvl : Int := 0
  deriving DecidableEq, Repr

/-- The loop of next_expr, utils.cpp:147-201 (both branches of the `if` are the same loop: a
one-character and a several-character delimiter set). `ptr -= 2` followed by `ptr++` steps back by
one character. Fuel: `3 * length + 3` is enough. -/
def nextExprLoop (delims : Str) : Nat → Scan → Scan
  | 0, z => z
  | f + 1, z =>
    match z.rest with
    | [] => z
    | c :: t =>
      if (delims.contains c || isEnd z.rest) && !z.esc && !z.str && z.quo == 0 then z
      else if z.esc then nextExprLoop delims f { z with con := c :: z.con, rest := t, esc := false }
      else if c == 34 then
        nextExprLoop delims f { z with
          con := c :: z.con, rest := t, str := if z.quo == 0 then !z.str else z.str, quo := z.quo - 1 }
      else if c == 39 then
        nextExprLoop delims f { z with
          con := c :: z.con, rest := t,
          quo := (if !z.str && z.quo == 0 then 3 else z.quo) - 1 }
      else if c == 92 then
        nextExprLoop delims f { z with con := c :: z.con, rest := t, esc := true, quo := z.quo - 1 }
      else if z.quo == 1 then
        match z.con with
        | [] => z
        | d :: con => nextExprLoop delims f { z with con := con, rest := d :: z.rest, quo := 0 }
      else nextExprLoop delims f { z with con := c :: z.con, rest := t, quo := z.quo - 1 }

/-- next_expr, utils.cpp:136-204 -/
def nextExpr (delims s : Str) : Str :=
  let s := skipWs s
  if isEnd s || hd s == 41 then s
  else (nextExprLoop delims (3 * s.length + 3) { con := [], rest := s }).rest

/-- next_code_line, utils.cpp:206-221 -/
def nextCodeLine (s : Str) : Str :=
  let s := nextExpr [92, 59, 13, 10] s
  if hd s == 59 then skipToNextLine s
  else dropChar 10 (dropChar 13 (dropChar 92 s))

/-- skip_to_code_line_end, utils.cpp:111-118, together with the `strndup(ptr, end - ptr)` of its
callers: the code line and the text after it. The backward loop at utils.cpp:116 may in principle
leave the line when it consists of terminators only; its callers (parser.cpp:171, preop.cpp:630)
never pass such a line, and for a line that starts with `)` the model answers with the empty line. -/
def codeLine (s : Str) : Str × Str :=
  let next := nextCodeLine s
  if next.isEmpty then (s, [])
  else
    let consumed := s.take (s.length - next.length)
    let line := (consumed.reverse.dropWhile (fun c => c == 10 || c == 13 || c == 59 || c == 92)).reverse
    (line, s.drop line.length)

/-- line_has_word, utils.cpp:376-388: a prefix test, ignoring leading blanks and case. -/
def lineHasWord (s word : Str) : Bool :=
  let s := skipWs s
  word.length ≤ s.length && eqCaseN s word word.length

/-- How the loop of read_expr_impl ended. -/
inductive ReadEnd
  | word (w rest : Str)
  | tooLong (rest : Str)
  deriving DecidableEq, Repr

/-- The loop of read_expr_impl, utils.cpp:416-460. `con` holds the word so far, newest first.
With `word = NULL` (one call site) the length test is skipped: `bounded = false`. -/
def readLoop (bounded : Bool) (delims : Str) : Nat → Scan → ReadEnd
  | 0, z => .word z.con z.rest
  | f + 1, z =>
    match z.rest with
    | [] => .word z.con z.rest
    | c :: t =>
      if (delims.contains c || isEnd z.rest) && !z.esc && !z.str && z.quo == 0 && z.lvl == 0 then
        .word z.con z.rest
      else
        let tooLong := bounded && decide (z.con.length ≥ 254)
        let step (z' : Scan) : ReadEnd :=
          if tooLong then .tooLong z.rest else readLoop bounded delims f z'
        if z.esc then step { z with con := c :: z.con, rest := t, esc := false }
        else if c == 34 then
          step { z with
            con := c :: z.con, rest := t, str := if z.quo == 0 then !z.str else z.str,
            quo := z.quo - 1 }
        else if c == 39 then
          step { z with
            con := c :: z.con, rest := t, quo := (if !z.str && z.quo == 0 then 3 else z.quo) - 1 }
        else if c == 92 then
          step { z with con := c :: z.con, rest := t, esc := true, quo := z.quo - 1 }
        else if c == 40 then
          step { z with
            con := c :: z.con, rest := t, lvl := if !z.str && z.quo == 0 then z.lvl + 1 else z.lvl,
            quo := z.quo - 1 }
        else if c == 41 then
          let lvl := if !z.str && z.quo == 0 then z.lvl - 1 else z.lvl
          if lvl < 0 then .word z.con z.rest
          else step { z with con := c :: z.con, rest := t, lvl := lvl, quo := z.quo - 1 }
        else if z.quo == 1 then
          match z.con with
          | [] => .word z.con z.rest
          | d :: con => readLoop bounded delims f { z with con := con, rest := d :: z.rest, quo := 0 }
        else step { z with con := c :: z.con, rest := t, quo := z.quo - 1 }

/-- read_expr_impl, utils.cpp:400-472: found a word?, the word, the remaining text.
The word `"0"` replaces an over-long expression after a fatal error. -/
def readExpr (delims s : Str) (bounded : Bool := true) : M (Bool × Str × Str) := fun st =>
  let s := skipWs s
  if isEnd s || hd s == 41 then .ok (false, [], s) st
  else
    match readLoop bounded delims (3 * s.length + 3) { con := [], rest := s } with
    | .word w r => .ok (true, (w.dropWhile isSpace).reverse, r) st
    | .tooLong r =>
      match showFatal .exprTooLong st with
      | .ok _ st => .ok (true, [48], r) st
      | .stop e st => .stop e st

/-- extract_arg_string, utils.cpp:475-500: `expecting` is context->fExpectingMore.
Result: the argument (none at the end), the new fExpectingMore, the remaining text. -/
def extractArg (expecting : Bool) (s : Str) : M (Option Str × Bool × Str) := do
  let (found, w, r) ← readExpr [44] s
  if found then
    if hd r == 44 then pure (some w, true, r.tail)
    else pure (some w, false, r)
  else do
    M.when expecting (setError E.VALUE_EXPECTED)
    pure (none, expecting, r)

/-- fix_filename, utils.cpp:588-596 on Unix -/
def fixFilename (s : Str) : Str := s.map (fun c => if c == 92 then 47 else c)

/-- is_abs_path, utils.cpp:602-619 -/
def isAbsPath (s : Str) : Bool :=
  let s := skipWs s
  match s with
  | [] => false
  | [c] => c == 47 || c == 92
  | c :: d :: _ => c == 47 || c == 92 || (d == 58 && isAlpha c)

/-- strup, utils.cpp:627-637: every letter to upper case (modp_toupper_copy is verified apart). -/
def strup (s : Str) : Str := s.map toUpper

/-- change_extension, utils.cpp:749-759 -/
def changeExtension (name ext : Str) : Str :=
  let base :=
    if name.contains 46 then ((name.reverse.dropWhile (fun c => c != 46)).drop 1).reverse else name
  base ++ [46] ++ ext

/-- get_file_contents, utils.cpp:683-727, on the bytes of an existing file. The result is the text
up to the first NUL, because every user treats the buffer as a C string. -/
def fileText (bytes : List Nat) : Option Str :=
  match bytes with
  | [] => none
  | 0xEF :: [] => none
  | 0xEF :: 0xBB :: [] => none
  | 0xEF :: 0xBB :: 0xBF :: t => some (t.takeWhile (fun c => c != 0))
  | b => some (b.takeWhile (fun c => c != 0))

/-- escape_string, utils.cpp:502-535 -/
def escapeString (s : Str) : Str :=
  [34] ++ s.flatMap (fun c => if c == 34 then [92, 34] else if c == 92 then [92, 92] else [c]) ++ [34]

end Spasm
