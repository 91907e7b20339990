import Verif.Model.Basic
import Mathlib.NumberTheory.LegendreSymbol.JacobiSymbol

/-
siggen, export.cpp:390-463: the application signature. GMP's numbers are the model's `Nat` and `Int`;
mpz_legendre is the Jacobi symbol, mpz_powm is power and remainder.
-/

namespace Spasm

/-- mpz_import with order -1, size 1: a little-endian number. -/
def leNat : List Nat → Nat
  | [] => 0
  | b :: bs => b + 256 * leNat bs

/-- nbuf, export.cpp:22-30 -/
def nbuf : List Nat := [
  0xAD,0x24,0x31,0xDA,0x22,0x97,0xE4,0x17,
  0x5E,0xAC,0x61,0xA3,0x15,0x4F,0xA3,0xD8,
  0x47,0x11,0x57,0x94,0xDD,0x33,0x0A,0xB7,
  0xFF,0x36,0xBA,0x59,0xFE,0xDA,0x19,0x5F,
  0xEA,0x7C,0x16,0x74,0x3B,0xD7,0xBC,0xED,
  0x8A,0x0D,0xA8,0x85,0xE5,0xE5,0xC3,0x4D,
  0x5B,0xF2,0x0D,0x0A,0xB3,0xEF,0x91,0x81,
  0xED,0x39,0xBA,0x2C,0x4D,0x89,0x8E,0x87]
/-- pbuf, export.cpp:31-35 -/
def pbuf : List Nat := [
  0x5B,0x2E,0x54,0xE9,0xB5,0xC1,0xFE,0x26,
  0xCE,0x93,0x26,0x14,0x78,0xD3,0x87,0x3F,
  0x3F,0xC4,0x1B,0xFF,0xF1,0xF5,0xF9,0x34,
  0xD7,0xA5,0x79,0x3A,0x43,0xC1,0xC2,0x1C]
/-- qbuf, export.cpp:36-40 -/
def qbuf : List Nat := [
  0x97,0xF7,0x70,0x7B,0x94,0x07,0x9B,0x73,
  0x85,0x87,0x20,0xBF,0x6D,0x49,0x09,0xAB,
  0x3B,0xED,0xA1,0xBA,0x9B,0x93,0x11,0x2B,
  0x04,0x13,0x40,0xA1,0x6E,0xD5,0x97,0xB6,0x04]
/-- qpowpbuf, export.cpp:43-47 -/
def qpowpbuf : List Nat := [
  0xA3,0x82,0x96,0xAF,0x3D,0xDD,0x9B,0x94,
  0xAE,0xA0,0x2F,0x2C,0xE3,0x8B,0xCD,0xD9,
  0xC9,0x11,0x75,0x4F,0x00,0xE4,0xDF,0x47,
  0x38,0xCD,0x98,0x16,0x47,0xF5,0x2B,0x0F]
/-- p14buf, export.cpp:49-53 -/
def p14buf : List Nat := [
  0x97,0x0B,0x55,0x7A,0x6D,0xB0,0xBF,0x89,
  0xF3,0xA4,0x09,0x05,0xDE,0xF4,0xE1,0xCF,
  0x0F,0xF1,0xC6,0x7F,0x7C,0x7D,0x3E,0xCD,
  0x75,0x69,0x9E,0xCE,0x50,0xB0,0x30,0x07]
/-- q14buf, export.cpp:55-60 -/
def q14buf : List Nat := [
  0xE6,0x3D,0xDC,0x1E,0xE5,0xC1,0xE6,0x5C,
  0xE1,0x21,0xC8,0x6F,0x5B,0x52,0xC2,0xEA,
  0x4E,0x7B,0xA8,0xEE,0xE6,0x64,0xC4,0x0A,
  0xC1,0x04,0x50,0xA8,0x5B,0xF5,0xA5,0x2D,0x01]

/-- mpz_powm for non-negative numbers. -/
def powMod (b e m : Nat) : Nat := b ^ e % m

/-- The factor selector `f`, export.cpp:417-420, from the two Legendre tests. -/
def sigF (mp : Nat) : Nat × Nat :=
  (if jacobiSym mp (leNat pbuf) = 1 then 0 else 1, if jacobiSym mp (leNat qbuf) = 1 then 1 else 0)

/-- The number whose root is taken, export.cpp:423-428. The subtraction cannot be negative: a hash has
16 bytes. -/
def sigBase (mp lp lq : Nat) : Nat :=
  let m := if lp = lq then mp * 2 else mp
  if lq = 0 then leNat nbuf - m else m

/-- The two roots and their combination, export.cpp:431-453 -/
def sigRoot (m : Nat) : Nat :=
  let p := leNat pbuf
  let q := leNat qbuf
  let r := powMod m (leNat p14buf) p
  let s := powMod m (leNat q14buf) q
  let t := (((r : Int) - s) * leNat qpowpbuf) % (p : Int)
  t.toNat * q + s

/-- siggen: the signature number and `f`. -/
def sigNumber (hash : List Nat) : Nat × Nat :=
  let mp := leNat hash * 256 + 1
  let (lp, lq) := sigF mp
  (sigRoot (sigBase mp lp lq), lp + lq + lq)

/-- mpz_export: little-endian bytes; at least one (mpz_sizeinbase(0) is 1, and the buffer holds zeros). -/
def leBytes : Nat → Nat → List Nat
  | 0, _ => []
  | f + 1, n => if n < 256 then [n] else n % 256 :: leBytes f (n / 256)

/-- siggen, export.cpp:390-463: the signature bytes and `f`. 100 bytes of fuel are enough for any number
below n. -/
def siggen (hash : List Nat) : List Nat × Nat :=
  let (x, f) := sigNumber hash
  (leBytes 100 x, f)

end Spasm
