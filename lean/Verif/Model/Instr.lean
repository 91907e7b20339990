import Verif.Model.Emit
import Verif.Model.Z80Table
import Verif.Model.Ez80Table

/-
Instructions: suffixes, operand matching and encoding, pass_one.cpp:279-330 and 540-771.
-/

namespace Spasm

/-- parse_suffix, pass_one.cpp:540-562, on the name read backwards: the suffix mask (bit 0 SUFFIX_L,
bit 1 SUFFIX_IL) and the length of the suffix with its dot. The C code may look at the characters
before the name; they cannot be the dot it looks for, because a dot is a name character, so the model
treats the start of the name as a mismatch. -/
def parseSuffix (adl : Bool) (name : Str) : Option (Nat × Nat) :=
  let b2n (b : Bool) (v : Nat) : Nat := if b then v else 0
  match name.reverse with
  | c1 :: c2 :: rest =>
    let l1 := toLower c1
    if l1 == 115 || l1 == 108 then
      if toLower c2 == 46 then some (b2n (l1 == 108) 1 + b2n adl 2, 2)
      else if toLower c2 == 105 then
        match rest with
        | c3 :: rest' =>
          if toLower c3 == 46 then some (b2n adl 1 + b2n (l1 == 108) 2, 3)
          else
            match rest' with
            | c4 :: _ =>
              if c4 == 46 && (toLower c3 == 115 || toLower c3 == 108) then
                some (b2n (toLower c3 == 108) 1 + b2n (l1 == 108) 2, 4)
              else none
            | [] => none
        | [] => none
      else none
    else none
  | _ => none

/-- end of an operand list, pass_one.cpp:590, 596, 632 -/
def argEnd (s : Str) : Bool := isEnd s

/-- Progress of a match: pattern left, text before the position (newest first), text at the position,
captured operands (text at their start, text at their end). -/
structure Match where
  pat : Str
  con : Str
  cur : Str
  caps : List (Str × Str)
  deriving DecidableEq, Repr

/-- Advance the position to the suffix `r` of the current text. -/
def Match.moveTo (m : Match) (r : Str) : Match :=
  { m with con := (between m.cur r).reverse ++ m.con, cur := r }

/-- `if (!isalpha(prev) || !isalpha(*p)) p = skip_whitespace(p); curr_arg++;`, pass_one.cpp:618-620 -/
def Match.settle (m : Match) : Match :=
  let m' := if !isAlpha (hd m.con) || !isAlpha (hd m.cur) then m.moveTo (skipWs m.cur) else m
  { m' with pat := m.pat.tail }

/-- `if (*(curr_arg_file - 1) == ',') curr_arg_file--;`, pass_one.cpp:605-606 -/
def Match.stepBack (m : Match) : Match :=
  match m.con with
  | 44 :: con => { m with con := con, cur := 44 :: m.cur }
  | _ => m

/-- The loop over the characters of a pattern, pass_one.cpp:590-621, by recursion on the pattern.
`arg_ptrs` has three elements and no bounds check. -/
def matchLoop : Str → Match → M Match
  | [], m => pure m
  | p :: ps, m => do
    if argEnd m.cur then pure m
    else if isArg p then
      if p == 64 && isNameChar (hd m.cur) then pure m
      else if m.caps.length ≥ 3 then M.ub .outOfBounds
      else do
        let (_, _, r) ← readExpr [44] m.cur
        let m1 := (m.moveTo r).stepBack
        matchLoop ps { m1 with caps := m.caps ++ [(m.cur, m1.cur)] }.settle
    else if toLower (hd m.cur) != toLower p then pure m
    else matchLoop ps (m.moveTo m.cur.tail).settle

/-- One operand pattern, pass_one.cpp:581-634: the captured operands and the final position if the
pattern matches, otherwise the position where matching stopped. -/
def matchInstr (i : Instr) (con s : Str) : M (Option (List (Str × Str)) × Str) := do
  let m ← matchLoop i.args { pat := i.args, con := con, cur := s, caps := [] }
  if hd m.pat == 64 && m.caps.length ≥ 3 then M.ub .outOfBounds
  else
    let m := if hd m.pat == 64 then
        { m with caps := m.caps ++ [(m.cur, m.cur)], pat := m.pat.tail } else m
    if m.pat.isEmpty && argEnd m.cur then pure (some m.caps, m.cur) else pure (none, m.cur)

/-- The loop over the patterns of one mnemonic, pass_one.cpp:581-634. `last` is curr_arg_file. -/
def matchInstrs (con s : Str) : List Instr → Str → M (Option (Instr × List (Str × Str)) × Str)
  | [], last => pure (none, last)
  | i :: is, _ => do
    let (r, last) ← matchInstr i con s
    match r with
    | some caps => pure (some (i, caps), last)
    | none => matchInstrs con s is last

/-- match_opcode_args, pass_one.cpp:577-649: `ops` is the opcode list from the current mnemonic on.
A group of equal adjacent mnemonics (made by .addinstr) is searched in order. A mnemonic without
patterns does not occur. -/
def matchArgs (con s : Str) : List Opcode → M (Option (Instr × List (Str × Str)) × Str)
  | [] => pure (none, s)
  | o :: os => do
    let (r, last) ← matchInstrs con s o.instrs s
    match r with
    | some p => pure (some p, last)
    | none =>
      match os with
      | o' :: _ =>
        if eqCase o.name o'.name then matchArgs con s os
        else do
          setError E.INVALID_OPERANDS
          pure (none, last)
      | [] => do
        setError E.INVALID_OPERANDS
        pure (none, last)

/-- The text of a captured operand, pass_one.cpp:688-689. An end before the start gives strndup a huge
length, so it copies everything to the end of the text. -/
def capText (c : Str × Str) : Str :=
  if c.2.length > c.1.length then c.1 else c.1.take (c.1.length - c.2.length)

/-- The parenthesis scan of pass_one.cpp:702-707 over the characters from p to last (exclusive):
true when it ends with p == last. -/
def parenScan : Str → Int → Bool
  | [], _ => true
  | c :: t, lvl =>
    if lvl > 0 then
      parenScan t (if c == 40 then lvl + 1 else if c == 41 then lvl - 1 else lvl)
    else false

/-- Does an operand look like it is wrapped in redundant parentheses? pass_one.cpp:693-710 -/
def extraParens (t : Str) : Bool :=
  match t with
  | c :: rest =>
    if c == 40 then
      -- `last` is moved back over blanks, but not before index 1
      match rest with
      | [] => false
      | d :: rest' =>
        let tail := (rest'.reverse.dropWhile isSpace).reverse
        parenScan (d :: tail).dropLast 1
    else false
  | [] => false

/-- The operand type of a pattern character for an effective suffix with or without SUFFIX_IL,
pass_one.cpp:713-755; `^` is handled with the end byte. -/
def argTyOf (il : Bool) (c : Nat) : Option ArgTy :=
  if c == 42 then some (if il then .num24 else .num16)
  else if c == 38 then some .num8
  else if c == 37 then some .addrOffset
  else if c == 64 then some .ixIyOffset
  else if c == 35 then some .rst
  else none

/-- The operand loop, pass_one.cpp:684-757: returns the size and the text of the bit number. -/
def writeOperands (k : Rec) (il : Bool) :
    Str → List (Str × Str) → Int → Option Str → M (Int × Option Str)
  | [], _, size, bit => pure (size, bit)
  | c :: pat, caps, size, bit =>
    if isArg c then
      match caps with
      | [] => M.ub .uninitialised
      | cap :: caps => do
        let t := capText cap
        M.when (extraParens t) (showWarning .parenAdvice)
        if c == 94 then writeOperands k il pat caps size (some t)
        else if c == 64 && !(t.isEmpty || hd t == 43 || hd t == 45) then do
          setError E.INVALID_INDEX_OFFSET
          writeOperands k il pat caps size bit
        else
          let size := if c == 42 && il then size + 1 else size
          match argTyOf il c with
          | none => writeOperands k il pat caps size bit
          | some ty => do
            addPassTwoExpr k (if c == 64 then 48 :: t else t) ty size 0
            writeOperands k il pat caps size bit
    else writeOperands k il pat caps size bit

/-- write out a list of bytes -/
def writeBytes : List Nat → M Unit
  | [] => pure ()
  | b :: bs => do
    writeOut b
    writeBytes bs

/-- write_instruction_data, pass_one.cpp:662-771: returns the size. -/
def writeInstr (k : Rec) (i : Instr) (caps : List (Str × Str)) (suffix : Option Nat) : M Int := do
  let s ← M.get
  let size : Int := i.size
  match suffix with
  | some x => writeOut (0x40 + x * 9 : Nat)
  | none => pure ()
  let size := if suffix.isSome then size + 1 else size
  let il := match suffix with
    | some x => decide (x ≥ 2)
    | none => s.mode.ez80 && s.adl
  let data := s.mode.normal || s.mode.list
  M.when data (writeBytes i.data)
  let (size, bit) ← writeOperands k il i.args caps size none
  if i.hasEnd && data then
    match bit with
    | some t => addPassTwoExpr k t .bitNum size i.endData
    | none => writeOut i.endData
  else pure ()
  pure size

/-- The opcode search, pass_one.cpp:295-300: the list from the matching mnemonic on. -/
def findOpcode (s : Str) (nameLen : Nat) : List Opcode → List Opcode
  | [] => []
  | o :: os => if eqCaseN s o.name (max o.name.length nameLen) then o :: os else findOpcode s nameLen os

/-- The execution time added for a suffix and in ADL mode, pass_one.cpp:324-326. `MODE_EZ80` there is a constant: the
lines run for either processor. -/
def timePenalty (suffix : Option Nat) (adl : Bool) (i : Instr) : Int :=
  match suffix with
  | none => if adl then i.adlTime else 0
  | some x => 1 + if x > 0 then i.adlTime else 0

/-- The instruction branch of handle_opcode_or_macro, pass_one.cpp:303-331; `ops` starts at the
mnemonic, `name` is the name in the source and `r` the text after it. -/
def doInstr (k : Rec) (ops : List Opcode) (name r : Str) (suffix : Option Nat) : M Str := do
  let p := skipWs r
  let (m, r') ← matchArgs ((between r p).reverse ++ name.reverse) p ops
  match m with
  | none => pure r'
  | some (i, caps) => do
    let size ← writeInstr k i caps suffix
    advance size
    M.modify fun s =>
      { s with statsCode := s.statsCode + size, statsMin := s.statsMin + (i.minTime + timePenalty suffix s.adl i), statsMax := s.statsMax + (i.maxTime + timePenalty suffix s.adl i) }
    pure r'

end Spasm
