import Verif.Spec.Function
import Verif.Spec.Output

/-
Specification vocabulary: bitmap files, the bit planes an included bitmap becomes, and the settings for it.
-/

namespace Spasm.Spec

/-- The number that bytes stand for, the lowest first. -/
def little : List Nat → Nat
  | [] => 0
  | b :: t => b + 256 * little t

/-- The number in `n` bytes from offset `off` on. -/
def field (bytes : List Nat) (off n : Nat) : Nat := little ((bytes.drop off).take n)

/-- A bitmap file and what its headers say. -/
structure Bitmap where
  bytes : List Nat
  width : Nat
  height : Nat
  bits : Nat
  colours : Nat

/-- A colour; the byte that pads the entries of palettes belongs to it. -/
structure Colour where
  red : Nat
  green : Nat
  blue : Nat
  reserved : Nat
  deriving DecidableEq, Repr

/-- A byte of the file. -/
def Bitmap.at (p : Bitmap) (i : Nat) : Nat := p.bytes.getD i 0

/-- The number of bytes of a row, which is a multiple of four. -/
def Bitmap.stride (p : Bitmap) : Nat := (p.width * p.bits + 31) / 32 * 4

/-- Where a row starts; rows are counted from the top and stored from the bottom up, after the palette. -/
def Bitmap.rowStart (p : Bitmap) (y : Nat) : Nat := 54 + 4 * p.colours + p.stride * (p.height - 1 - y)

/-- The number of the colour of a pixel in a file with a palette; the leftmost pixel of a byte is in its highest bits. -/
def Bitmap.index (p : Bitmap) (x y : Nat) : Nat :=
  p.at (p.rowStart y + x * p.bits / 8) / 2 ^ (8 - p.bits - x * p.bits % 8) % 2 ^ p.bits

/-- The colour of a pixel, counted from the top left: three bytes, or an entry of the palette. -/
def Bitmap.pixel (p : Bitmap) (x y : Nat) : Colour :=
  if p.bits = 24 then
    ⟨p.at (p.rowStart y + 3 * x + 2), p.at (p.rowStart y + 3 * x + 1), p.at (p.rowStart y + 3 * x), 0⟩
  else
    ⟨p.at (54 + 4 * p.index x y + 2), p.at (54 + 4 * p.index x y + 1), p.at (54 + 4 * p.index x y), p.at (54 + 4 * p.index x y + 3)⟩

/-- A complete uncompressed bitmap file whose rows are stored from the bottom up, with 1, 2, 4 or 8 bits for a pixel and a
palette, or with 24 bits for a pixel and none. -/
structure BitmapFile (p : Bitmap) : Prop where
  bytes : ∀ b ∈ p.bytes, b < 256
  start : field p.bytes 0 2 = 0x4D42
  offset : field p.bytes 10 4 = 54 + 4 * p.colours
  header : field p.bytes 14 4 = 40
  width : field p.bytes 18 4 = p.width ∧ p.width ≤ 32767
  height : field p.bytes 22 4 = p.height ∧ p.height ≤ 32767
  bits : field p.bytes 28 2 = p.bits ∧ p.bits ∈ [1, 2, 4, 8, 24]
  compression : field p.bytes 30 4 = 0
  palette : p.bits ≠ 24 → p.colours = if field p.bytes 46 4 = 0 then 2 ^ p.bits else field p.bytes 46 4
  noPalette : p.bits = 24 → field p.bytes 46 4 = 0 ∧ p.colours = 0
  complete : 54 + 4 * p.colours + p.stride * p.height ≤ p.bytes.length
  size : p.bytes.length < 2147483648
  indices : p.bits ≠ 24 → ∀ x < p.width, ∀ y < p.height, p.index x y < p.colours

/-- The shade `k` of a colour among `shades`, 0 being the brightest: the integer part of `(0.99 - luminance) * shades`,
where the luminance is `(0.2126 * red + 0.7152 * green + 0.0722 * blue) / 255`; 0 for colours brighter than 0.99. When
`(0.99 - luminance) * shades` is exactly an integer, the shade can be one less, since the program computes with rounded
numbers. -/
def Shade (shades : Nat) (c : Colour) (k : Nat) : Prop :=
  let e : Int := (2524500 - (2126 * c.red + 7152 * c.green + 722 * c.blue)) * shades
  if e < 0 then k = 0 else (k : Int) = e / 2550000 ∨ (e % 2550000 = 0 ∧ (k : Int) + 1 = e / 2550000)

/-- Bytes of eight bits each, the highest first. -/
def packed (n : Nat) (f : Nat → Nat) : List Nat :=
  (List.range n).map fun j => 128 * f (8 * j) + 64 * f (8 * j + 1) + 32 * f (8 * j + 2) + 16 * f (8 * j + 3) + 8 * f (8 * j + 4) +
    4 * f (8 * j + 5) + 2 * f (8 * j + 6) + f (8 * j + 7)

/-- A bit plane: the rows from the top down, each filled up to whole bytes. -/
def bitPlane (columns rows : Nat) (f : Nat → Nat → Nat) : List Nat :=
  (List.range rows).flatMap fun y => packed ((columns + 7) / 8) fun x => f x y

/-- A part of a bitmap, from column `left` and row `top` on. -/
structure Area where
  left : Nat
  top : Nat
  width : Nat
  height : Nat

/-- The planes of the shades, the one of the highest bits first; what is right of the area is bright. -/
def shadePlanes (a : Area) (columns : Nat) (shade : Nat → Nat → Nat) (planes : Nat) : List Nat :=
  (List.range planes).reverse.flatMap fun i => bitPlane columns a.height fun x y => if x < a.width then shade x y / 2 ^ i % 2 else 0

/-- The plane of the pixels that have the mask's colour; what is right of the area belongs to them. -/
def maskPlane (p : Bitmap) (a : Area) (columns : Nat) (colour : Colour) : List Nat :=
  bitPlane columns a.height fun x y => if x < a.width ∧ p.pixel (a.left + x) (a.top + y) ≠ colour then 0 else 1

/-- What the settings for bitmaps say: the number of shades, the least number of columns, whether there is a mask, where and
how, and its colour. -/
structure Settings where
  shades : Nat
  columns : Int
  mask : Bool
  maskFirst : Bool
  maskInverted : Bool
  maskColour : Colour

/-- The bytes for an area of a bitmap. -/
def areaBytes (c : Settings) (p : Bitmap) (a : Area) (shade : Nat → Nat → Nat) : List Nat :=
  let columns := max a.width c.columns.toNat
  let image := shadePlanes a columns shade c.shades.log2
  let mask := if c.mask then (maskPlane p a columns c.maskColour).map fun b => if c.maskInverted then 255 - b else b else []
  if c.maskFirst then mask ++ image else image ++ mask

/-- The bytes for a bitmap, given the shades of its pixels. A bitmap that is wider than the least number of columns, if that
is positive, is cut into strips of so many columns, from left to right. -/
def bitmapBytes (c : Settings) (p : Bitmap) (shade : Nat → Nat → Nat) : List Nat :=
  if 0 < c.columns.toNat ∧ c.columns.toNat < p.width then
    (List.range ((p.width + c.columns.toNat - 1) / c.columns.toNat)).flatMap fun i =>
      areaBytes c p ⟨i * c.columns.toNat, 0, min c.columns.toNat (p.width - i * c.columns.toNat), p.height⟩
        fun x y => shade (i * c.columns.toNat + x) y
  else areaBytes c p ⟨0, 0, p.width, p.height⟩ shade

/-- The value of a setting, `none` if there is no such name. It is the same at every address, and its text is nested less
than `depth` deep. -/
inductive SettingIs (s : S) (depth : Nat) (name : List Nat) : Option Int → Prop
  | unset : argumentOf s name = none → labelOf s name = none → defineOf s name = none → SettingIs s depth name none
  | set (b e b' v) : visibleText s name = some (b ++ e ++ b') → Blanks b → Blanks b' →
      (∀ pc, WithCalls { s with pc := pc } depth e v) → SettingIs s depth name (some v)

/-- A setting that is on has the value 1. -/
def Switch (s : S) (depth : Nat) (name : List Nat) (on : Bool) : Prop := ∃ v, SettingIs s depth name v ∧ (on = true ↔ v = some 1)

/-- The settings for bitmaps in a state; no colour is to be inverted. -/
structure SettingsAre (s : S) (depth : Nat) (c : Settings) : Prop where
  shades : SettingIs s depth (b! "__BM_SHD") (some c.shades)
  someShades : 1 ≤ c.shades ∧ c.shades ≤ 99
  columns : ∃ v, SettingIs s depth (b! "__BM_MIN_W") v ∧ c.columns = v.getD (-1)
  fewColumns : -32768 ≤ c.columns ∧ c.columns ≤ 32767
  mask : Switch s depth (b! "__BM_MSK") c.mask
  maskFirst : Switch s depth (b! "__BM_MSK_1ST") c.maskFirst
  maskInverted : Switch s depth (b! "__BM_MSK_INV") c.maskInverted
  maskColour : ∃ v : Nat, SettingIs s depth (b! "__BM_MSK_RGB") (some v) ∧ v < 16777216 ∧ c.maskColour = ⟨v / 65536, v / 256 % 256, v % 256, 0⟩
  noInversion : SettingIs s depth (b! "__BM_INV_RGB") none

/-- The words of a text, between commas, semicolons, the letter x and blanks. -/
inductive Words : List Nat → List (List Nat) → Prop
  | nil : Words [] []
  | skip (c t ws) : c ∈ [44, 59, 120, 32] → Words t ws → Words (c :: t) ws
  | last (w) : w ≠ [] → (∀ c ∈ w, c ∉ [44, 59, 120, 32]) → Words w [w]
  | word (w c t ws) : w ≠ [] → (∀ c ∈ w, c ∉ [44, 59, 120, 32]) → c ∈ [44, 59, 120, 32] → Words t ws → Words (w ++ c :: t) (w :: ws)

/-- The number of bytes that a header announces. (It is that of the image only for fewer than eight shades and without a
mask.) -/
def announced (c : Settings) (p : Bitmap) : Nat :=
  (p.width + 7) / 8 * p.height * (if c.shades = 4 then 2 else if c.shades = 8 then 4 else 1)

/-- An entry of the header and its bytes; entries are written in either case. -/
inductive Entry (c : Settings) (p : Bitmap) : List Nat → List Nat → Prop
  | width (t) : t.map upperCase = b! "W" → p.width ≤ 255 → Entry c p t [p.width]
  | widthWord (t) : t.map upperCase = b! "WW" → Entry c p t [p.width % 256, p.width / 256]
  | height (t) : t.map upperCase = b! "H" → p.height ≤ 255 → Entry c p t [p.height]
  | heightWord (t) : t.map upperCase = b! "HH" → Entry c p t [p.height % 256, p.height / 256]
  | shades (t) : t.map upperCase = b! "B" → Entry c p t [c.shades]
  | size (t) : t.map upperCase = b! "S" → announced c p ≤ 255 → Entry c p t [announced c p]
  | sizeWord (t) : t.map upperCase = b! "SS" → Entry c p t [announced c p % 256, announced c p / 256 % 256]

/-- The bytes of some entries. -/
inductive Entries (c : Settings) (p : Bitmap) : List (List Nat) → List Nat → Prop
  | nil : Entries c p [] []
  | cons (t bs ts cs) : Entry c p t bs → Entries c p ts cs → Entries c p (t :: ts) (bs ++ cs)

/-- The header before an image: there is none unless it is switched on and has a format. The format is a text without quotes
and backslashes. -/
inductive HeaderIs (s : S) (depth : Nat) (c : Settings) (p : Bitmap) : List Nat → Prop
  | off : Switch s depth (b! "__BM_HDR") false → HeaderIs s depth c p []
  | noFormat : Switch s depth (b! "__BM_HDR") true → argumentOf s (b! "__BM_HDR_FMT") = none → defineOf s (b! "__BM_HDR_FMT") = none → HeaderIs s depth c p []
  | format (t ws bs) : Switch s depth (b! "__BM_HDR") true → visibleText s (b! "__BM_HDR_FMT") = some t →
      (∀ ch ∈ t, ch ≠ 34 ∧ ch ≠ 92 ∧ ch ≠ 0) → Words t ws → Entries c p ws bs → SettingIs s depth (b! "__BM_MASK") none →
      HeaderIs s depth c p bs

/-- The name of the image: the last label, if it has the current address. -/
def imageName (s : S) : Option (List Nat) :=
  s.lastLabel.bind fun k =>
    (s.labels.find? fun e => decide (e.1 = k)).bind fun e => if e.2.value % 4294967296 = s.pc then some e.2.name else none

end Spasm.Spec
