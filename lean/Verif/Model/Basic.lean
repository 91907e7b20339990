/-
Basic vocabulary of the model: bytes, C strings, character classes, 32-bit integers.
-/

namespace Spasm

/-- A C string: the bytes before the terminating NUL, each in 1..255 (see `CStr`).
A `char *` into a text is modelled as the suffix of the text that starts there. -/
abbrev Str := List Nat

/-- `b! "abc"` is the byte list of a string literal. -/
syntax "b!" str : term
macro_rules
  | `(b! $s:str) => do
    let cs := s.getString.toUTF8.toList.map (fun c => Lean.Syntax.mkNumLit (toString c.toNat))
    let cs := cs.toArray
    `(([$cs,*] : List Nat))

/-- Well-formed C string contents: no embedded NUL, every unit is a byte. -/
def CStr (s : Str) : Prop := ∀ c ∈ s, 0 < c ∧ c < 256

instance (s : Str) : Decidable (CStr s) := by unfold CStr; infer_instance

/-- `*ptr`: the current character, 0 at the terminating NUL. -/
def hd : Str → Nat
  | [] => 0
  | c :: _ => c

/-! ### ctype.h in the "C" locale.
`char` is signed, so bytes ≥ 128 reach `isalnum` etc. as negative numbers (glibc answers false). -/

/-- isspace: blank, `\t \n \v \f \r` -/
def isSpace (c : Nat) : Bool := c == 32 || (9 ≤ c && c ≤ 13)
/-- isdigit -/
def isDigit (c : Nat) : Bool := 48 ≤ c && c ≤ 57
/-- isupper -/
def isUpper (c : Nat) : Bool := 65 ≤ c && c ≤ 90
/-- islower -/
def isLower (c : Nat) : Bool := 97 ≤ c && c ≤ 122
/-- isalpha -/
def isAlpha (c : Nat) : Bool := isUpper c || isLower c
/-- isalnum -/
def isAlnum (c : Nat) : Bool := isAlpha c || isDigit c
/-- isxdigit -/
def isXDigit (c : Nat) : Bool := isDigit c || (65 ≤ c && c ≤ 70) || (97 ≤ c && c ≤ 102)
/-- toupper -/
def toUpper (c : Nat) : Nat := if isLower c then c - 32 else c
/-- tolower -/
def toLower (c : Nat) : Nat := if isUpper c then c + 32 else c

/-- The value of a `char` (signed) used as an `int`. -/
def charVal (c : Nat) : Int := if c < 128 then (c : Int) else (c : Int) - 256

/-- strcasecmp(a, b) == 0 -/
def eqCase (a b : Str) : Bool := a.map toLower == b.map toLower

/-- strcmp(a, b) < 0 (bytes compared as unsigned char) -/
def strLt : Str → Str → Bool
  | _, [] => false
  | [], _ :: _ => true
  | a :: as, b :: bs => if a < b then true else if b < a then false else strLt as bs

/-- strcasecmp(a, b) > 0 -/
def caseGt (a b : Str) : Bool := strLt (b.map toLower) (a.map toLower)

/-- strncasecmp(p, w, n) == 0, where the text `p` and the word `w` both end at their NUL:
compare at most `n` characters, stopping at a common end. -/
def eqCaseN : Str → Str → Nat → Bool
  | _, _, 0 => true
  | [], [], _ + 1 => true
  | [], _ :: _, _ + 1 => false
  | _ :: _, [], _ + 1 => false
  | a :: as, b :: bs, n + 1 => toLower a == toLower b && eqCaseN as bs n

/-! ### 32-bit `int` -/

/-- INT_MIN -/
def intMin : Int := -2147483648
/-- INT_MAX -/
def intMax : Int := 2147483647

/-- The value fits an `int`. -/
def inI32 (n : Int) : Bool := decide (intMin ≤ n) && decide (n ≤ intMax)

/-- Conversion of an integer to `int` (reduction modulo 2^32 to the signed range). -/
def toI32 (n : Int) : Int := (n + 2147483648) % 4294967296 - 2147483648

/-- Conversion of an integer to `unsigned int`. -/
def toU32 (n : Int) : Int := n % 4294967296

/-- A 32-bit pattern of an `int`. -/
def bits (n : Int) : BitVec 32 := BitVec.ofInt 32 n

/-- `a & b` on `int`. -/
def iand (a b : Int) : Int := (bits a &&& bits b).toInt
/-- `a | b` on `int`. -/
def ior (a b : Int) : Int := (bits a ||| bits b).toInt
/-- `a ^ b` on `int`. -/
def ixor (a b : Int) : Int := (bits a ^^^ bits b).toInt
/-- `~a` on `int`. -/
def icpl (a : Int) : Int := -a - 1

/-- upper-case hexadecimal digits of a number, most significant first, at least one digit (`%X`) -/
def hexDigit (d : Nat) : Nat := if d < 10 then 48 + d else 55 + d

/-- `%X` with fuel for the digit count -/
def hexAux : Nat → Nat → Str → Str
  | 0, _, acc => acc
  | f + 1, n, acc =>
    if n < 16 then hexDigit n :: acc else hexAux f (n / 16) (hexDigit (n % 16) :: acc)

/-- `%X` of an unsigned 32-bit value (at most 8 digits; 9 steps of fuel are always enough). -/
def fmtHex (n : Nat) : Str := hexAux 9 n []

/-- `%0wX`: hexadecimal padded with zeros to `w` digits. -/
def fmtHexPad (w n : Nat) : Str :=
  let d := fmtHex n
  List.replicate (w - d.length) 48 ++ d

/-- decimal digits with fuel -/
def decAux : Nat → Nat → Str → Str
  | 0, _, acc => acc
  | f + 1, n, acc =>
    if n < 10 then (48 + n) :: acc else decAux f (n / 10) ((48 + n % 10) :: acc)

/-- `%u` of an unsigned 32-bit value (at most 10 digits). -/
def fmtNat (n : Nat) : Str := decAux 11 n []

/-- `%d` of an `int`. -/
def fmtInt (n : Int) : Str := if n < 0 then 45 :: fmtNat n.natAbs else fmtNat n.natAbs

end Spasm
