import Verif.Model.PassTwo
import Verif.Model.Sig

/-
export.cpp: output file formats.
-/

namespace Spasm

/-- calc_type, export.cpp:77-91, in declaration order -/
inductive Calc
  | t73P | t82P | t83P | t8XP | t8XV | t85P | t86P | t85S | t86S | t8XK | rom | hex | bin
  deriving DecidableEq, Repr

/-- Position in the enumeration, for the `<` and `>=` tests. -/
def Calc.ix : Calc → Nat
  | .t73P => 0 | .t82P => 1 | .t83P => 2 | .t8XP => 3 | .t8XV => 4 | .t85P => 5 | .t86P => 6
  | .t85S => 7 | .t86S => 8 | .t8XK => 9 | .rom => 10 | .hex => 11 | .bin => 12

/-- extensions, export.cpp:74-75 -/
def extensions : List (Str × Calc) :=
  [(b! "73P", .t73P), (b! "82P", .t82P), (b! "83P", .t83P), (b! "8XP", .t8XP), (b! "8XV", .t8XV),
   (b! "85P", .t85P), (b! "86P", .t86P), (b! "85S", .t85S), (b! "86S", .t86S), (b! "8XK", .t8XK),
   (b! "ROM", .rom), (b! "HEX", .hex), (b! "BIN", .bin)]

/-! ### Intel HEX -/

/-- `%02X` of a byte through the hexstr table, export.cpp:684-685 -/
def hexByte (b : Nat) : Str := [hexDigit (b / 16 % 16), hexDigit (b % 16)]

/-- One data record, export.cpp:679-689. `chksum` is an unsigned char. -/
def hexRecord (address : Nat) (data : List Nat) : Str :=
  let chksum := address / 256 + address % 256 + data.sum
  [58] ++ fmtHexPad 2 data.length ++ fmtHexPad 4 address ++ [48, 48] ++ data.flatMap hexByte
    ++ fmtHexPad 2 ((256 - (chksum + data.length) % 256) % 256) ++ [13, 10]

/-- The inner loop, export.cpp:678-691: at most `n` records of up to 32 bytes. The loop over the
characters of a record is the `take 32`. -/
def hexRecords : Nat → Nat → List Nat → Str × List Nat
  | 0, _, bs => ([], bs)
  | n + 1, address, bs =>
    if bs.isEmpty then ([], bs)
    else
      let (t, r) := hexRecords n (address + 0x20) (bs.drop 32)
      (hexRecord address (bs.take 32) ++ t, r)

/-- The page record, export.cpp:675 -/
def pageRecord (page : Nat) : Str :=
  b! ":02000002" ++ fmtHexPad 4 page ++ fmtHexPad 2 ((256 - (4 + page) % 256) % 256) ++ [13, 10]

/-- The outer loop, export.cpp:674-692. The number of bytes is enough fuel. -/
def hexPages (base : Nat) : Nat → Nat → List Nat → Str
  | 0, _, _ => []
  | f + 1, page, bs =>
    if bs.isEmpty then []
    else
      let (t, r) := hexRecords 512 base bs
      pageRecord page ++ t ++ hexPages base f (page + 1) r

/-- intelhex, export.cpp:664-693 -/
def intelHex (bytes : List Nat) (base : Nat := 0x4000) : Str :=
  hexPages base (bytes.length + 1) 0 bytes ++ b! ":00000001FF"

/-! ### ROM images -/

/-- makerom, export.cpp:201-208 -/
def makeRom (bytes : List Nat) : List Nat := bytes ++ List.replicate (524288 - bytes.length) 0xFF

/-! ### Applications -/

/-- A read of the application buffer. -/
def bufAt (b : List Nat) (i : Nat) : M Nat :=
  match b[i]? with
  | some v => pure v
  | none => M.ub .outOfBounds

/-- findfield and findfield_flex, export.cpp:353-386: the loop. The offset of the field byte plus one and
the field byte; none when there is no field. `hit` is the test of the field byte. -/
def findFieldLoop (hit : Nat → Bool) (b : List Nat) : Nat → Nat → M (Option (Nat × Nat))
  | 0, _ => M.halt .fuel
  | f + 1, pnt => do
    let v ← bufAt b pnt
    if v != 0x80 then pure none
    else do
      let v ← bufAt b (pnt + 1)
      if hit v then pure (some (pnt + 2, v))
      else findFieldLoop hit b f (pnt + 1 + v % 16 + 1)

/-- findfield, export.cpp:353-364. Fuel: every round moves forward. -/
def findField (byte : Nat) (b : List Nat) : M (Option (Nat × Nat)) :=
  findFieldLoop (fun v => v == byte) b (b.length + 1) 6

/-- findfield_flex, export.cpp:372-387 -/
def findFieldFlex (pre : Nat) (b : List Nat) : M (Option (Nat × Nat)) :=
  findFieldLoop (fun v => v / 16 == pre / 16) b (b.length + 1) 6

/-- Big-endian and little-endian bytes of a DWORD. -/
def be32 (n : Nat) : List Nat := [n / 16777216 % 256, n / 65536 % 256, n / 256 % 256, n % 256]
def le32 (n : Nat) : List Nat := [n % 256, n / 256 % 256, n / 65536 % 256, n / 16777216 % 256]

/-- The signature block, export.cpp:289-301: padded to 96 bytes. -/
def sigBlock (sig : List Nat) (f : Nat) : List Nat :=
  let t := [0x02, 0x2d, sig.length % 256] ++ sig ++ (if f ≠ 0 then [1, f % 256] else [0])
  t ++ List.replicate (96 - t.length) 0xFF

/-- The 8xk file header, export.cpp:14-20, 308-322; `len` is the length field. -/
def header8xk (name : List Nat) (len : Nat) : List Nat :=
  b! "**TIFL**" ++ [1, 1, 1, 0x88, 0x01, 0x01, 0x19, 0x97, name.length]
    ++ (name ++ List.replicate (8 - name.length) 0) ++ List.replicate 23 0 ++ [0x73, 0x24]
    ++ List.replicate 24 0 ++ le32 len

/-- The length field, export.cpp:314-316 -/
def appHexLength (total pages : Nat) : Nat :=
  77 * (total / 32) + pages * 17 + 11 + (if total % 32 ≠ 0 then total % 32 * 2 + 13 else 0)

/-- The page count, export.cpp:261-263 -/
def appPages (size : Nat) : Nat := size / 16384 + if size % 16384 ≠ 0 then 1 else 0

/-- An application before signing, export.cpp:219-273: checks and header patches. Result: the patched
buffer (with the 256 spare bytes), the page count and the name; none after an error. -/
def patchApp (bytes : List Nat) : M (Option (List Nat × Nat × List Nat)) := do
  let size := bytes.length
  let t := (size + 96) % 16384
  if t ≠ 0 ∧ t < 97 ∧ size > 16384 then do
    setError E.SIGNER_ROOM_FOR_SIG
    pure none
  else do
    M.when (decide (t ≠ 0 ∧ t < 1024 ∧ (size + 96) / 16384 ≠ 0)) (setWarning E.WARN_SMALL_LAST_PAGE)
    let b := bytes ++ List.replicate 256 0
    if !(b.take 2 == [0x80, 0x0F]) then do
      setError E.SIGNER_MISSING_LENGTH
      pure none
    else do
      let b := [0x80, 0x0F] ++ be32 ((size + 4294967296 - 6) % 4294967296) ++ b.drop 6
      match ← findField 0x12 b with
      | none => do
        setError E.SIGNER_PRGM_TYPE
        pure none
      | some (pnt, _) => do
        let v ← bufAt b pnt
        let w ← bufAt b (pnt + 1)
        if v ≠ 1 ∨ w ≠ 4 then do
          setError E.SIGNER_PRGM_TYPE
          pure none
        else do
          match ← findField 0x81 b with
          | none => do
            setError E.SIGNER_MISSING_PAGES
            pure none
          | some (pnt, _) => do
            let _ ← bufAt b pnt
            let pages := appPages size
            let b := b.set pnt (pages % 256)
            match ← findFieldFlex 0x40 b with
            | none => do
              setError E.SIGNER_MISSING_NAME
              pure none
            | some (pnt, v) =>
              let n := if v % 16 ≤ 8 then v % 16 else 8
              if pnt + n ≤ b.length then pure (some (b, pages, (b.drop pnt).take n))
              else M.ub .outOfBounds

/-- makeapp, export.cpp:214-348: the bytes of the file. `md5` is OpenSSL's MD5. After an error the file,
already opened, stays empty. -/
def makeApp (md5 : List Nat → List Nat) (bytes : List Nat) : M (List Nat) := do
  match ← patchApp bytes with
  | none => pure []
  | some (b, pages, name) =>
    let prog := b.take bytes.length
    let (sig, f) := siggen (md5 prog)
    let all := prog ++ sigBlock sig f
    if sig.length > 91 then M.ub .outOfBounds
    else pure (header8xk name (appHexLength all.length pages) ++ intelHex all)

/-! ### Programs -/

/-- alphanumeric, export.cpp:645-658: the new name and the number of warnings. -/
def alphanumeric (allowLower : Bool) : Bool → Str → Str × Nat
  | _, [] => ([], 0)
  | force, c :: t =>
    let c' := if force && isLower c then c - 32 else c
    let (r, n) := alphanumeric allowLower (if allowLower then false else force) t
    (c' :: r, if isAlnum c' then n else n + 1)

/-- The base name, export.cpp:477-489: the separator search does not look at the first character. -/
def progBase (p : Str) : Str :=
  match p with
  | [] => []
  | c :: t =>
    if t.any (fun d => d == 47 || d == 92) then (t.reverse.takeWhile (fun d => !(d == 47 || d == 92))).reverse
    else c :: t

/-- A byte written by fputc and whether its value was added to the checksum. -/
abbrev Out := Nat × Bool
/-- fputc whose result is added to chksum -/
def cnt (v : Int) : Out := ((v % 256).toNat, true)
/-- plain fputc -/
def raw (v : Int) : Out := ((v % 256).toNat, false)

/-- typearray, export.cpp:62-72 -/
def typeBytes : Calc → List Nat
  | .t73P => [55, 51, 42, 0x0B]
  | .t82P => [56, 50, 42, 0x0B]
  | .t83P => [56, 51, 42, 0x0B]
  | .t8XP => [56, 51, 70, 0x0D]
  | .t8XV => [56, 51, 70, 0x0D]
  | .t85P => [56, 53, 42, 0x00]
  | .t86P => [56, 54, 42, 0x0C]
  | .t85S => [56, 53, 42, 0x00]
  | .t86S => [56, 54, 42, 0x0C]
  | _ => []

/-- comment, export.cpp:60: 42 bytes -/
def fileComment : List Nat := b! "File generated by spasm" ++ List.replicate 19 0

/-- trailer83, export.cpp:470 -/
def trailer83 : List Nat := [0x3f, 0xd4, 0x3f, 0x30, 0x30, 0x30, 0x30, 0x3f, 0xd4]

/-- `size` at export.cpp:499-508: program bytes plus two length bytes and prefixes. -/
def prgmSize (ct : Calc) (n : Int) : Int :=
  (if ct = .t83P then n * 2 + 9 else n) + 2 + (if ct = .t86P then 2 else 0)

/-- The file header, export.cpp:520-552 (55 bytes). -/
def prgmHeader (ct : Calc) (name : Str) (size : Int) : List Out :=
  let temp : Int := if ct = .t85P then size + 8 + name.length
    else size + 15 + (if ct = .t8XP ∨ ct = .t8XV then 2 else 0) + (if ct = .t86P then 1 else 0)
  ((b! "**TI") ++ (typeBytes ct).take 3 ++ [42, 0x1A] ++ [if ct = Calc.t85P then 0x0C else 0x0A] ++
    [if ct = Calc.t85P then 0x0A else 0] ++ fileComment).map (fun b : Nat => raw b)
    ++ [raw temp, raw (temp / 256)]

/-- The variable header, export.cpp:553-593. -/
def prgmVarHeader (ct : Calc) (name : Str) (size : Int) : List Out :=
  [if ct = .t85P then cnt (6 + name.length) else cnt ((typeBytes ct).getD 3 0), raw 0,
   cnt size, cnt (size / 256)]
  ++ (if ct.ix ≥ 5 then [cnt (if ct.ix ≥ 7 then 0x0C else 0x12), cnt name.length]
      else [cnt (if ct ≠ .t8XV then 6 else 0x15)])
  ++ (name.take 8).map (fun c : Nat => cnt c)
  ++ (if ct ≠ .t85P ∧ ct ≠ .t85S then List.replicate (8 - name.length) (raw 0) else [])
  ++ (if ct = .t8XP ∨ ct = .t8XV then [raw 0, raw 0] else [])
  ++ [cnt size, cnt (size / 256), cnt (size - 2), cnt ((size - 2) / 256)]

/-- The program bytes with prefix and trailer, export.cpp:605-636. -/
def prgmBody (ct : Calc) (bytes : List Nat) : List Out :=
  (if ct = .t86P then [cnt 0x8E, cnt 0x28] else if ct = .t82P then [cnt 0xD5, cnt 0, cnt 0x11] else [])
  ++ (if ct = .t83P then (bytes.flatMap hexByte).map (fun b : Nat => cnt b) else bytes.map (fun b : Nat => cnt b))
  ++ (if ct = .t83P then trailer83.map (fun b : Nat => cnt b) else [])

/-- The checksum accumulated by `chksum += fputc(...)`. -/
def chkSum (l : List Out) : Nat := ((l.filter (·.2)).map (·.1)).sum

/-- The bytes makeprgm writes, export.cpp:520-639, for the name and the program bytes. -/
def prgmBytes (ct : Calc) (name : Str) (bytes : List Nat) : List Nat :=
  let size := prgmSize ct bytes.length + if ct = .t82P then 3 else 0
  let l := prgmHeader ct name size ++ prgmVarHeader ct name size ++ prgmBody ct bytes
  l.map (·.1) ++ [chkSum l % 256, chkSum l / 256 % 256]

/-- The name of the variable, export.cpp:472-496, and the number of warnings about it. -/
def prgmName (ct : Calc) (prgm : Str) : Str × Nat :=
  if ct = .t82P then ((0xdc :: prgm).take 255, 0)
  else if ct.ix < 5 then alphanumeric (ct == .t8XV) true (progBase prgm)
  else (progBase prgm, 0)

/-- n times show_warning -/
def warnN : Nat → M Unit
  | 0 => pure ()
  | n + 1 => do
    showWarning (.misc 2)
    warnN n

/-- makeprgm, export.cpp:466-642. `out` is the output buffer, of which the first `bytes.length` bytes are
the program. -/
def makePrgm (ct : Calc) (prgm : Str) (out : Nat → Nat) (bytes : List Nat) : M (List Nat) := do
  let (name, warns) := prgmName ct prgm
  warnN warns
  let s ← M.get
  let size := prgmSize ct bytes.length
  if size > 65535 then setWarning E.WARN_SIGNER_FILE_SIZE_64KB
  else if size > 24575 ∧ !s.mode.ez80 then setWarning E.WARN_SIGNER_FILE_SIZE_24KB
  else pure ()
  M.when (decide (ct.ix < 5 ∧ ct ≠ .t82P) && !isUpper (hd name)) (showWarning (.misc 3))
  M.when (decide (ct = .t8XP) && !s.mode.ez80 && !((out 0, out 1) == (0xBB, 0x6D))
    && !((out 0, out 1) == (0xEF, 0x69))) (showWarning (.misc 4))
  M.when (decide (ct = .t8XP) && s.mode.ez80 && !((out 0, out 1) == (0xEF, 0x7B))) (showWarning (.misc 5))
  pure (prgmBytes ct name bytes)

/-! ### write_file -/

/-- The part of the name after the last dot, export.cpp:120-122; none without a dot, or when the only dot is
the first character. -/
def extOf (name : Str) : Option Str :=
  match name with
  | [] => none
  | _ :: t => if t.contains 46 then some (t.reverse.takeWhile (fun c => c != 46)).reverse else none

/-- The output type, export.cpp:119-141, and whether the extension is unknown. -/
def calcOf (name : Str) : Calc × Bool :=
  match extOf name with
  | none => (.bin, false)
  | some e =>
    match extensions.find? (fun p => eqCase e p.1) with
    | some p => (p.2, false)
    | none => (.bin, true)

/-- The name without its extension, export.cpp:162-167 -/
def prgmOf (name : Str) : Str :=
  match name with
  | [] => []
  | c :: t => if t.contains 46 then c :: ((t.reverse.dropWhile (fun c => c != 46)).drop 1).reverse else c :: t

/-- write_file, export.cpp:108-199. Opening the file is assumed to succeed. A length outside the output
buffer (after a bad .seek) is out of bounds for every format but the ones that loop up to a signed
length. -/
def writeFile (md5 : List Nat → List Nat) (name : Str) : M Unit := do
  M.modify fun s => { s with currFile := b! "exporter", lineNum := -1 }
  let (ct, unknown) := calcOf name
  M.when unknown (setWarning E.WARN_UNKNOWN_EXTENSION)
  let s ← M.get
  if s.outPtr > outputBufSize then M.ub .outOfBounds
  else if s.outPtr < 0 ∧ (ct = .t8XK ∨ ct = .rom ∨ ct.ix < 9) then M.ub .outOfBounds
  else do
    let bytes := (List.range s.outPtr.toNat).map s.mem
    let file ← match ct with
      | .t8XK => makeApp md5 bytes
      | .rom => pure (makeRom bytes)
      | .hex => pure (intelHex bytes)
      | .bin => pure bytes
      | c => makePrgm c (prgmOf name) s.mem bytes
    M.modify fun s => { s with log := s.log ++ [.wrote name file] }

end Spasm
