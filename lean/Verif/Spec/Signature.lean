import Verif.Spec.Hex

/-
What a calculator checks in a signed application (key 0104). These definitions do not use any function of the
model.
-/

namespace Spasm.Spec

/-- The public modulus of key 0104. -/
def tiModulus : Nat :=
  0x878e894d2cba39ed8191efb30a0df25b4dc3e5e585a80d8aedbcd73b74167cea5f19dafe59ba36ffb70a33dd94571147d8a34f15a361ac5e17e49722da3124ad

/-- The number with these bytes, the lowest first. -/
def number : List Nat → Nat
  | [] => 0
  | b :: bs => b + 256 * number bs

/-- Rabin verification. The message number is the hash followed by a low byte 1; `f` tells whether the square of
the signature is that number, its negative, its double or the negative of its double, modulo the public
modulus. -/
def Verifies (hash : List Nat) (signature f : Nat) : Prop :=
  let m := 256 * number hash + 1
  (f = 0 ∧ (signature ^ 2 + 2 * m) % tiModulus = 0) ∨
  (f = 1 ∧ (signature ^ 2 + m) % tiModulus = 0) ∨
  (f = 2 ∧ signature ^ 2 % tiModulus = m) ∨
  (f = 3 ∧ signature ^ 2 % tiModulus = 2 * m)

/-- The signature field as it stands after the program: 02 2D, the length of the signature and the signature,
then 00 when `f` is 0 and 01 f otherwise. -/
def signatureField (signature : List Nat) (f : Nat) : List Nat :=
  [0x02, 0x2D, signature.length] ++ signature ++ (if f = 0 then [0] else [1, f])

end Spasm.Spec
