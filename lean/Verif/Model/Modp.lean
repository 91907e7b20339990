import Verif.Model.Basic

/-
modp_ascii.cpp: upper- and lower-casing four bytes at a time.
-/

namespace Spasm

/-- The word transformation of modp_toupper_copy, modp_ascii.cpp:155-158 -/
def upWord (eax : BitVec 32) : BitVec 32 :=
  let ebx := (0x7f7f7f7f#32 &&& eax) + 0x05050505#32
  let ebx := (0x7f7f7f7f#32 &&& ebx) + 0x1a1a1a1a#32
  let ebx := ((ebx &&& ~~~eax) >>> 2) &&& 0x20202020#32
  eax - ebx

/-- The word transformation of modp_tolower_copy, modp_ascii.cpp:186-189 -/
def lowWord (eax : BitVec 32) : BitVec 32 :=
  let ebx := (0x7f7f7f7f#32 &&& eax) + 0x25252525#32
  let ebx := (0x7f7f7f7f#32 &&& ebx) + 0x1a1a1a1a#32
  let ebx := ((ebx &&& ~~~eax) >>> 2) &&& 0x20202020#32
  eax + ebx

/-- Reading four bytes as a little-endian word. -/
def packWord (a b c d : Nat) : BitVec 32 :=
  BitVec.ofNat 32 (a + b * 256 + c * 65536 + d * 16777216)

/-- Storing a word as four bytes. -/
def unpackWord (w : BitVec 32) : List Nat :=
  [w.toNat % 256, w.toNat / 256 % 256, w.toNat / 65536 % 256, w.toNat / 16777216 % 256]

/-- gsToUpperMap, modp_ascii.cpp:53-80 -/
def toUpperMap : List Nat :=
  [0, 1, 2, 3, 4, 5, 6, 7, 8, 9, 10, 11, 12, 13, 14, 15,
   16, 17, 18, 19, 20, 21, 22, 23, 24, 25, 26, 27, 28, 29, 30, 31,
   32, 33, 34, 35, 36, 37, 38, 39, 40, 41, 42, 43, 44, 45, 46, 47,
   48, 49, 50, 51, 52, 53, 54, 55, 56, 57, 58, 59, 60, 61, 62, 63,
   64, 65, 66, 67, 68, 69, 70, 71, 72, 73, 74, 75, 76, 77, 78, 79,
   80, 81, 82, 83, 84, 85, 86, 87, 88, 89, 90, 91, 92, 93, 94, 95,
   96, 65, 66, 67, 68, 69, 70, 71, 72, 73, 74, 75, 76, 77, 78, 79,
   80, 81, 82, 83, 84, 85, 86, 87, 88, 89, 90, 123, 124, 125, 126, 127,
   128, 129, 130, 131, 132, 133, 134, 135, 136, 137, 138, 139, 140, 141, 142, 143,
   144, 145, 146, 147, 148, 149, 150, 151, 152, 153, 154, 155, 156, 157, 158, 159,
   160, 161, 162, 163, 164, 165, 166, 167, 168, 169, 170, 171, 172, 173, 174, 175,
   176, 177, 178, 179, 180, 181, 182, 183, 184, 185, 186, 187, 188, 189, 190, 191,
   192, 193, 194, 195, 196, 197, 198, 199, 200, 201, 202, 203, 204, 205, 206, 207,
   208, 209, 210, 211, 212, 213, 214, 215, 216, 217, 218, 219, 220, 221, 222, 223,
   224, 225, 226, 227, 228, 229, 230, 231, 232, 233, 234, 235, 236, 237, 238, 239,
   240, 241, 242, 243, 244, 245, 246, 247, 248, 249, 250, 251, 252, 253, 254, 255]

/-- gsToLowerMap, modp_ascii.cpp:82-109 -/
def toLowerMap : List Nat :=
  [0, 1, 2, 3, 4, 5, 6, 7, 8, 9, 10, 11, 12, 13, 14, 15,
   16, 17, 18, 19, 20, 21, 22, 23, 24, 25, 26, 27, 28, 29, 30, 31,
   32, 33, 34, 35, 36, 37, 38, 39, 40, 41, 42, 43, 44, 45, 46, 47,
   48, 49, 50, 51, 52, 53, 54, 55, 56, 57, 58, 59, 60, 61, 62, 63,
   64, 97, 98, 99, 100, 101, 102, 103, 104, 105, 106, 107, 108, 109, 110, 111,
   112, 113, 114, 115, 116, 117, 118, 119, 120, 121, 122, 91, 92, 93, 94, 95,
   96, 97, 98, 99, 100, 101, 102, 103, 104, 105, 106, 107, 108, 109, 110, 111,
   112, 113, 114, 115, 116, 117, 118, 119, 120, 121, 122, 123, 124, 125, 126, 127,
   128, 129, 130, 131, 132, 133, 134, 135, 136, 137, 138, 139, 140, 141, 142, 143,
   144, 145, 146, 147, 148, 149, 150, 151, 152, 153, 154, 155, 156, 157, 158, 159,
   160, 161, 162, 163, 164, 165, 166, 167, 168, 169, 170, 171, 172, 173, 174, 175,
   176, 177, 178, 179, 180, 181, 182, 183, 184, 185, 186, 187, 188, 189, 190, 191,
   192, 193, 194, 195, 196, 197, 198, 199, 200, 201, 202, 203, 204, 205, 206, 207,
   208, 209, 210, 211, 212, 213, 214, 215, 216, 217, 218, 219, 220, 221, 222, 223,
   224, 225, 226, 227, 228, 229, 230, 231, 232, 233, 234, 235, 236, 237, 238, 239,
   240, 241, 242, 243, 244, 245, 246, 247, 248, 249, 250, 251, 252, 253, 254, 255]

/-- gsToPrintMap, modp_ascii.cpp:111-138 -/
def toPrintMap : List Nat :=
  [63, 63, 63, 63, 63, 63, 63, 63, 63, 63, 63, 63, 63, 63, 63, 63,
   63, 63, 63, 63, 63, 63, 63, 63, 63, 63, 63, 63, 63, 63, 63, 63,
   32, 33, 34, 35, 36, 37, 38, 39, 40, 41, 42, 43, 44, 45, 46, 47,
   48, 49, 50, 51, 52, 53, 54, 55, 56, 57, 58, 59, 60, 61, 62, 63,
   64, 65, 66, 67, 68, 69, 70, 71, 72, 73, 74, 75, 76, 77, 78, 79,
   80, 81, 82, 83, 84, 85, 86, 87, 88, 89, 90, 91, 92, 93, 94, 95,
   96, 97, 98, 99, 100, 101, 102, 103, 104, 105, 106, 107, 108, 109, 110, 111,
   112, 113, 114, 115, 116, 117, 118, 119, 120, 121, 122, 123, 124, 125, 126, 63,
   63, 63, 63, 63, 63, 63, 63, 63, 63, 63, 63, 63, 63, 63, 63, 63,
   63, 63, 63, 63, 63, 63, 63, 63, 63, 63, 63, 63, 63, 63, 63, 63,
   63, 63, 63, 63, 63, 63, 63, 63, 63, 63, 63, 63, 63, 63, 63, 63,
   63, 63, 63, 63, 63, 63, 63, 63, 63, 63, 63, 63, 63, 63, 63, 63,
   63, 63, 63, 63, 63, 63, 63, 63, 63, 63, 63, 63, 63, 63, 63, 63,
   63, 63, 63, 63, 63, 63, 63, 63, 63, 63, 63, 63, 63, 63, 63, 63,
   63, 63, 63, 63, 63, 63, 63, 63, 63, 63, 63, 63, 63, 63, 63, 63,
   63, 63, 63, 63, 63, 63, 63, 63, 63, 63, 63, 63, 63, 63, 63, 63]

/-- The loops of modp_toupper_copy and modp_tolower_copy, modp_ascii.cpp:140-200: whole words, then up to
three single bytes through the table. The terminating NUL is not part of the model's strings. -/
def mapWords (word : BitVec 32 → BitVec 32) (table : List Nat) : List Nat → List Nat
  | a :: b :: c :: d :: t => unpackWord (word (packWord a b c d)) ++ mapWords word table t
  | t => t.map (fun c => table.getD c 0)

/-- modp_toupper_copy, modp_ascii.cpp:140-169 -/
def modpUpper : List Nat → List Nat := mapWords upWord toUpperMap
/-- modp_tolower_copy, modp_ascii.cpp:171-200 -/
def modpLower : List Nat → List Nat := mapWords lowWord toLowerMap

/-- The loops of modp_toprint_copy, modp_ascii.cpp:212-239: four table lookups at a time, then the
rest. -/
def modpPrint : List Nat → List Nat
  | a :: b :: c :: d :: t =>
    [toPrintMap.getD a 0, toPrintMap.getD b 0, toPrintMap.getD c 0, toPrintMap.getD d 0] ++ modpPrint t
  | t => t.map (fun c => toPrintMap.getD c 0)

end Spasm
