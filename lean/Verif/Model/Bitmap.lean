import Verif.Model.Preop

/-
bitmap.cpp: including a bitmap.

`double` arithmetic is done on integers in units of 2^-64: all constants are multiples of that, products with integers
and sums of multiples are multiples again, and every operation rounds to 53 significant bits, to nearest with ties to
even (IEEE 754, no contraction of operations).
-/

namespace Spasm

/-- Rounding to `double`. -/
def roundDouble (n : Nat) : Nat :=
  let u := 2 ^ (n.log2 - 52)
  (if 2 * (n % u) > u ∨ (2 * (n % u) = u ∧ n / u % 2 = 1) then n / u + 1 else n / u) * u

/-- Rounding is symmetric. -/
def roundDoubleI (n : Int) : Int := if n < 0 then -(roundDouble n.natAbs : Int) else roundDouble n.natAbs

/-- LUMINANCE, bitmap.cpp:67; the three constants are the values of `0.2126/255.0` and so on in `double`. -/
def luminance (r g b : Nat) : Nat :=
  roundDouble (roundDouble (roundDouble (15379520745375102 * r) + roundDouble (51737691613792432 * g)) + roundDouble (5222960478909136 * b))

/-- `(BYTE) ((0.99 - lum) * biOutputShades)`, bitmap.cpp:254: converting a number that does not fit is undefined. -/
def shadeOf (shades r g b : Nat) : Except UB Nat :=
  let v := roundDoubleI (roundDoubleI (18262276632972455936 - luminance r g b) * shades)
  if v ≤ -18446744073709551616 ∨ v ≥ 256 * 18446744073709551616 then .error .badConversion
  else .ok (v.tdiv 18446744073709551616).toNat

/-- RECT, bitmap.cpp:22-24. The rows of a bitmap are stored from the bottom up, and `top` counts from the bottom. -/
structure Rect where
  left : Int
  top : Int
  right : Int
  bottom : Int

/-- RGBQUAD, bitmap.cpp:26-31 -/
structure Quad where
  blue : Nat
  green : Nat
  red : Nat
  reserved : Nat
  deriving DecidableEq, Repr

/-- The file and the fields of its two headers that are used, bitmap.cpp:33-54; `nColors` of handle_bitmap. -/
structure Bmp where
  bytes : List Nat
  offBits : Nat
  width : Int
  height : Int
  bits : Nat
  clrUsed : Nat
  nColors : Nat

/-- A little-endian number of `n` bytes at an offset of a file. -/
def leAt (bytes : List Nat) (off : Nat) : Nat → Option Nat
  | 0 => some 0
  | n + 1 => do
    let b ← bytes[off]?
    let r ← leAt bytes (off + 1) n
    pure (b + 256 * r)

/-- `bmiColors[i]`, bitmap.cpp:232: the palette is read after the headers, from offset 54, into zeroed memory
(bitmap.cpp:368-369). -/
def Bmp.colour (b : Bmp) (i : Nat) : Except UB Quad :=
  if i < b.nColors then
    .ok ⟨b.bytes.getD (54 + 4 * i) 0, b.bytes.getD (55 + 4 * i) 0, b.bytes.getD (56 + 4 * i) 0, b.bytes.getD (57 + 4 * i) 0⟩
  else .error .outOfBounds

/-- biScanWidth, bitmap.cpp:165 -/
def Bmp.scan (b : Bmp) : Int := (b.width * b.bits + 31).tdiv 32 * 4

/-- `BITS_ACCESS(row, i)`, bitmap.cpp:175-178: the rows are read from the file, starting with row `top`; what the file
does not have stays uninitialised. -/
def Bmp.raw (b : Bmp) (top row i : Int) : Except UB Nat :=
  match b.bytes[(b.offBits + b.scan * (top + row) + i).toNat]? with
  | some v => .ok v
  | none => .error .uninitialised

/-- `dwData`, bitmap.cpp:236-242 -/
def Bmp.rawData (b : Bmp) (top row i : Int) : Nat → Nat → Except UB Nat
  | 0, acc => .ok acc
  | n + 1, acc => do
    let v ← b.raw top row i
    b.rawData top row (i + 1) n ((acc * 256 + v) % 4294967296)

/-- The colour of a pixel, bitmap.cpp:224-247; `bit` is its bit offset in its row. A palette index of more than a byte
shifts by a negative number, as do pixels that cross a byte. -/
def Bmp.pixel (b : Bmp) (top row bit : Int) : Except UB Quad :=
  if b.bits < 16 ∨ b.clrUsed ≠ 0 then
    let shift : Int := 8 - b.bits - bit % 8
    if shift < 0 then .error .badShift
    else do
      let v ← b.raw top row (bit / 8)
      b.colour (v / 2 ^ shift.toNat % 2 ^ b.bits)
  else
    let c := b.bits / 3
    if 2 * c ≥ 32 then .error .badShift
    else do
      let d ← b.rawData top row (bit / 8) (b.bits / 8) 0
      .ok ⟨d / 2 ^ (2 * c) % 2 ^ c % 256, d / 2 ^ c % 2 ^ c % 256, d % 2 ^ c % 256, 0⟩

/-- The entries of pOutput and pMask for a pixel, bitmap.cpp:218-261; `mask` and `inv` are rgbMask and rgbInv, and
the last byte of rgbInv is not initialised. -/
def Bmp.cell (b : Bmp) (r : Rect) (mask : Quad) (inv : Option (Nat × Nat × Nat)) (shades : Nat) (row col : Int) : Except UB (Nat × Nat) :=
  let bit := (r.left + col) * b.bits
  if bit ≥ b.width * b.bits ∨ bit ≥ r.right * b.bits then .ok (0, 1)
  else do
    let q ← b.pixel r.top row bit
    let s ← shadeOf shades q.red q.green q.blue
    if inv = some (q.red, q.green, q.blue) then .error .uninitialised
    else .ok (s, if q = mask then 1 else 0)

/-- A loop over the elements of a list that ends with the first undefined behaviour. -/
def mapE {α β : Type} (f : α → Except UB β) : List α → Except UB (List β)
  | [] => .ok []
  | a :: as => do
    let b ← f a
    let bs ← mapE f as
    .ok (b :: bs)

/-- A row of pOutput and pMask: `n` computed columns, filled up to `size` (bitmap.cpp:180-191, 212-263). -/
def Bmp.row (b : Bmp) (r : Rect) (mask : Quad) (inv : Option (Nat × Nat × Nat)) (shades : Nat) (row : Int) (n size : Nat) : Except UB (List (Nat × Nat)) := do
  let cs ← mapE (fun col : Nat => b.cell r mask inv shades row col) (List.range n)
  .ok (cs ++ List.replicate (size - n) (0, 1))

/-- The rows of pOutput and pMask: the last row of the file comes first. -/
def Bmp.grid (b : Bmp) (r : Rect) (mask : Quad) (inv : Option (Nat × Nat × Nat)) (shades : Nat) (n size rows : Nat) : Except UB (List (List (Nat × Nat))) :=
  mapE (fun i : Nat => b.row r mask inv shades (rows - 1 - i : Nat) n size) (List.range rows)

/-- Eight columns make a byte, bitmap.cpp:284-293 and 310-323. -/
def packBits : List Nat → List Nat
  | a :: b :: c :: d :: e :: f :: g :: h :: t => (128 * a + 64 * b + 32 * c + 16 * d + 8 * e + 4 * f + 2 * g + h) :: packBits t
  | _ => []

/-- A layer of the image, bitmap.cpp:280-295 -/
def layerBytes (grid : List (List (Nat × Nat))) (i : Nat) : List Nat :=
  grid.flatMap fun row => packBits (row.map fun c => c.1 / 2 ^ i % 2)

/-- The layers of the image from the highest bit, bitmap.cpp:275-297 -/
def imageBytes (grid : List (List (Nat × Nat))) : Nat → List Nat
  | 0 => []
  | n + 1 => layerBytes grid n ++ imageBytes grid n

/-- define_with_value, utils.cpp:736-741 -/
def defineIs (k : Rec) (name : Str) (v : Int) : M Bool := do
  match ← searchDefines name with
  | none => pure false
  | some (_, d) =>
    match d.contents with
    | none => M.ub .nullDeref
    | some c => do
      let x ← parseF k c
      pure (x == v)

/-- The bytes of the mask, bitmap.cpp:308-325 -/
def writeMask (k : Rec) : List Nat → M Unit
  | [] => pure ()
  | b :: bs => do
    let inv ← defineIs k (b! "__BM_MSK_INV") 1
    writeOut (if inv then 255 - (b : Int) else b)
    advance 1
    writeMask k bs

/-- The mask, bitmap.cpp:301-331 -/
def maskPart (k : Rec) (grid : List (List (Nat × Nat))) : M Unit := do
  if ← defineIs k (b! "__BM_MSK") 1 then writeMask k (grid.flatMap fun row => packBits (row.map fun c => c.2 % 2)) else pure ()

/-- `int` overflow -/
def tooLarge (v : Int) : Bool := decide (v < -2147483648 ∨ v > 2147483647)

/-- handle_bitmap_internal, bitmap.cpp:160-336. Rectangles that are not inside the bitmap, which a negative __BM_PAD makes,
and a negative size of rows, which a negative __BM_MIN_W can make, are not modelled. A bitmap of negative size, so that
the memory for it cannot be allocated, is undefined. The logarithm of the shades is truncated. -/
def bitmapPart (k : Rec) (b : Bmp) (r : Rect) : M Unit := do
  let minW ← parseF k (b! "__BM_MIN_W")
  let mask ← parseF k (b! "__BM_MSK_RGB")
  let inv ← parseF k (b! "__BM_INV_RGB")
  let shd ← parseF k (b! "__BM_SHD")
  let rows := r.bottom - r.top
  let cols := max (r.right - r.left) minW
  if tooLarge (b.width * b.bits + 31) || tooLarge (b.scan * rows) || tooLarge (r.right * b.bits) || tooLarge ((r.left + minW) * b.bits) || tooLarge (cols + 7) then
    M.ub .signedOverflow
  else if b.width < 0 || rows < 0 then M.ub .nullDeref
  else if r.top < 0 || r.left < 0 || cols + 7 < 0 then M.halt .unmodelled
  else do
    let mask := toU32 mask
    let inv := toU32 inv
    let shades := (shd % 65536).toNat
    let size := ((cols + 7) / 8 * 8).toNat
    match b.grid r ⟨(mask % 256).toNat, (mask / 256 % 256).toNat, (mask / 65536 % 256).toNat, 0⟩
      (if inv = 4294967295 then none else some ((inv / 65536 % 256).toNat, (inv / 256 % 256).toNat, (inv % 256).toNat))
      shades (if b.bits = 0 then 0 else cols.toNat) size rows.toNat with
    | .error u => M.ub u
    | .ok grid => do
      let first ← defineIs k (b! "__BM_MSK_1ST") 1
      if shades = 0 then M.ub .badConversion
      else if first then do
        maskPart k grid
        importBytes (imageBytes grid shades.log2)
      else do
        importBytes (imageBytes grid shades.log2)
        maskPart k grid

/-- The strips of a bitmap that is wider than __BM_MIN_W, bitmap.cpp:402-411 and 468-477: `w` columns from `left` on. -/
def bitmapStrips (k : Rec) (b : Bmp) (r : Rect) (minW : Int) : Nat → Int → Int → M Unit
  | 0, _, _ => M.halt .fuel
  | f + 1, left, w =>
    if w > 0 then do
      bitmapPart k b { r with left := left, right := left + min minW w }
      bitmapStrips k b r minW f (left + minW) (w - minW)
    else pure ()

/-- The whole of a rectangle, bitmap.cpp:402-413 and 468-479 -/
def bitmapAll (k : Rec) (b : Bmp) (r : Rect) (minW width : Int) : M Unit :=
  if minW > 0 ∧ width > minW then bitmapStrips k b r minW (width.toNat + 1) r.left width else bitmapPart k b r

/-- The words of `strtok (..., ",;x ")` -/
def tokens : Str → Str → List Str
  | [], w => if w.isEmpty then [] else [w.reverse]
  | c :: t, w =>
    if c == 44 || c == 59 || c == 120 || c == 32 then (if w.isEmpty then tokens t [] else w.reverse :: tokens t [])
    else tokens t (c :: w)

/-- Two bytes of the header, bitmap.cpp:92-94, 101-103 and 118-120 -/
def writePair (v : Int) : M Unit := do
  writeOut v
  advance 1
  writeOut (v / 256)
  advance 1

/-- One byte of the header with its warning, bitmap.cpp:86-90, 96-99 and 113-116 -/
def writeSmall (v : Int) (m : Msg) : M Unit := do
  M.when (decide (v > 255)) (showWarning m)
  writeOut v
  advance 1

/-- The number of bytes, bitmap.cpp:107-111. (The name of the mask option is misspelt.) -/
def bitmapSize (k : Rec) (w h : Int) : M Int := do
  let n := (w + 7).tdiv 8 * h
  let four ← defineIs k (b! "__BM_SHD") 4
  let eight ← if four then pure false else defineIs k (b! "__BM_SHD") 8
  let mask ← defineIs k (b! "__BM_MASK") 1
  let n' := if four then n * 2 else if eight then n * 4 else n
  pure (if mask then n' + n else n')

/-- One entry of the header, bitmap.cpp:85-127 -/
def headerToken (k : Rec) (w h : Int) (p : Str) : M Unit := do
  if eqCase p (b! "w") then writeSmall w (.misc 6)
  else if eqCase p (b! "ww") then writePair w
  else if eqCase p (b! "h") then writeSmall h (.misc 7)
  else if eqCase p (b! "hh") then writePair h
  else if eqCase p (b! "b") then do
    let v ← parseF k (b! "__BM_SHD")
    writeOut v
    advance 1
  else if eqCase p (b! "s") then do
    let n ← bitmapSize k w h
    writeSmall n (.misc 8)
  else if eqCase p (b! "ss") then do
    let n ← bitmapSize k w h
    writePair n
  else do
    showWarning (.misc 9)
    writeOut 0
    advance 1

/-- The loop of handle_bitmap_header -/
def headerTokens (k : Rec) (w h : Int) : List Str → M Unit
  | [] => pure ()
  | p :: ps => do
    headerToken k w h p
    headerTokens k w h ps

/-- handle_bitmap_header, bitmap.cpp:71-131 -/
def bitmapHeader (k : Rec) (r : Rect) : M Unit := do
  if ← defineIs k (b! "__BM_HDR") 1 then do
    match ← searchDefines (b! "__BM_HDR_FMT") with
    | none => pure ()
    | some (_, d) =>
      match d.contents with
      | none => M.ub .nullDeref
      | some c => do
        let t ← reduceString k c
        headerTokens k (r.right - r.left) (r.bottom - r.top) (tokens t [])
  else pure ()

/-- A label whose name is that of the image with a suffix; bitmap.cpp:393-398 and others. -/
def imageLabel (base : Option Str) (suffix : Str) (v : Int) : M Unit := do
  match base with
  | none => pure ()
  | some n => do
    let _ ← addLabel (n ++ suffix) v
    pure ()

/-- The three numbers of an image map, bitmap.cpp:417-426: width, height and count, where missing ones are 0. -/
def mapNumbers (k : Rec) : List Str → Nat → Int × Int × Int → M (Int × Int × Int)
  | [], _, v => pure v
  | p :: ps, i, (w, h, c) => do
    if i = 0 then do
      let v ← parseF k p
      mapNumbers k ps 1 (v, h, c)
    else if i = 1 then do
      let v ← parseF k p
      mapNumbers k ps 2 (w, v, c)
    else if i = 2 then do
      let v ← parseF k p
      mapNumbers k ps 3 (w, h, toI32 (v + 1))
    else mapNumbers k ps i (w, h, c)

/-- The loops over an image map, bitmap.cpp:446-482; the result is the number of images. Steps that are not positive
make the program loop for ever unless a count ends it. -/
def mapLoop (k : Rec) (b : Bmp) (base : Option Str) (width height pad : Int) : Nat → Int → Int → Int → Int → M Int
  | 0, _, _, _, _ => M.halt .fuel
  | f + 1, left, top, count, num =>
    if left ≥ b.width then pure num
    else if top < 0 then mapLoop k b base width height pad f (left + width + 2 * pad) (b.height - height - 2 * pad) count num
    else do
      let minW ← parseF k (b! "__BM_MIN_W")
      if count = 1 then pure num
      else do
        let s ← M.get
        imageLabel base (fmtInt (num + 1)) (toI32 s.pc)
        let r : Rect := ⟨left + pad, top + pad, left + pad + width, top + pad + height⟩
        bitmapHeader k r
        bitmapAll k b r minW width
        mapLoop k b base width height pad f left (top - (height + 2 * pad)) (if count = 0 then 0 else count - 1) (num + 1)

/-- handle_bitmap with an image map, bitmap.cpp:414-487 -/
def bitmapMap (k : Rec) (b : Bmp) (base : Option Str) (padding : Int) (ref : DRef) (contents : Str) : M Unit := do
  let t ← reduceString k (skipWs contents)
  let (w, h, count) ← mapNumbers k (tokens t []) 0 (0, 0, 0)
  let pad := if padding = -1 then 0 else padding
  if w = 0 ∧ h = 0 then do
    showError (.misc 10)
    imageLabel base (b! "_COUNT") 0
    setDefine k ref (b! "0") false
  else if w = 0 ∨ h = 0 then M.ub .divByZero
  else do
    let width := (b.width - w * 2 * pad).tdiv w
    let height := (b.height - h * 2 * pad).tdiv h
    imageLabel base (b! "_WIDTH") width
    imageLabel base (b! "_HEIGHT") height
    let n ← mapLoop k b base width height pad ((b.width.toNat + 1) * (b.height.toNat + 2) + count.toNat + 1) 0 (b.height - height - 2 * pad) count 0
    imageLabel base (b! "_COUNT") n
    setDefine k ref (b! "0") false

/-- handle_bitmap without an image map, bitmap.cpp:383-413 -/
def bitmapSingle (k : Rec) (b : Bmp) (base : Option Str) (minW : Int) : M Unit := do
  imageLabel base (b! "_WIDTH") b.width
  imageLabel base (b! "_HEIGHT") b.height
  bitmapHeader k ⟨0, 0, b.width, b.height⟩
  bitmapAll k b ⟨0, 0, b.width, b.height⟩ minW b.width

/-- The headers of a bitmap, bitmap.cpp:350-369; a file that is too short leaves them uninitialised. -/
def bmpOf (bytes : List Nat) : Option (Bmp × Nat × Nat) := do
  let off ← leAt bytes 10 4
  let size ← leAt bytes 14 4
  let w ← leAt bytes 18 4
  let h ← leAt bytes 22 4
  let bits ← leAt bytes 28 2
  let compression ← leAt bytes 30 4
  let used ← leAt bytes 46 4
  let _ ← leAt bytes 50 4
  pure (⟨bytes, off, toI32 w, toI32 h, bits, used, if bits < 16 ∨ used ≠ 0 then (if used = 0 then 2 ^ bits else used) else 0⟩, size, compression)

/-- The name of the last label, if it has the address of the image, bitmap.cpp:376-380 -/
def imageBase (s : S) : Option Str :=
  match s.lastLabel with
  | none => none
  | some key =>
    match s.labels.lookup key with
    | none => none
    | some l => if toU32 l.value = s.pc then some l.name else none

/-- handle_bitmap, bitmap.cpp:338-491. The position after reading the palette is the end of it or of the file. -/
def handleBitmap (k : Rec) (bytes : List Nat) : M Unit := do
  let padding ← parseF k (b! "__BM_PAD")
  let map ← searchDefines (b! "__BM_MAP")
  let minW ← parseF k (b! "__BM_MIN_W")
  match bmpOf bytes with
  | none => M.ub .uninitialised
  | some (b, size, compression) =>
    if size ≠ 40 ∨ compression ≠ 0 then showError (.misc 11)
    else if min (54 + 4 * b.nColors) bytes.length ≠ b.offBits then
      M.modify fun s => { s with log := s.log ++ [.text (b! "invalid file structure!\n")] }
    else do
      let s ← M.get
      let base := imageBase s
      match map with
      | none => bitmapSingle k b base minW
      | some (ref, d) => do
        let v ← parseF k (b! "__BM_MAP")
        if v = 0 then bitmapSingle k b base minW
        else
          match d.contents with
          | none => M.ub .nullDeref
          | some c => bitmapMap k b base padding ref c

end Spasm
