import Verif.Spec.Bitmap
import Verif.Spec.Message

/-
Specification vocabulary: several images in one bitmap.
-/

namespace Spasm.Spec

/-- Decimal digits and the number they mean. -/
structure Decimal (ds : List Nat) (v : Nat) : Prop where
  some : ds ≠ []
  digits : ∀ c ∈ ds, 48 ≤ c ∧ c ≤ 57
  value : value 10 ds = v

/-- How the images are arranged in a bitmap: the number of columns and rows of images, how many images are wanted at most, and
the margin on each side of an image. -/
structure ImageMap where
  columns : Nat
  rows : Nat
  limit : Option Nat
  margin : Nat

/-- The texts for an image map: two numbers, or three with the number of images that are wanted, between which there is a
comma, an x or a blank. -/
inductive MapText : List Nat → Nat → Nat → Option Nat → Prop
  | all (b cs d rs c r) : Blanks b → Decimal cs c → d ∈ [44, 120, 32] → Decimal rs r → MapText (b ++ (cs ++ d :: rs)) c r none
  | limited (b cs d rs e ls c r n) : Blanks b → Decimal cs c → d ∈ [44, 120, 32] → Decimal rs r → e ∈ [44, 120, 32] → Decimal ls n → n ≤ 2147483646 →
      MapText (b ++ (cs ++ d :: (rs ++ e :: ls))) c r (some n)

/-- The columns and rows divide the bitmap evenly, and the images with their margins fit in. -/
structure MapFits (p : Bitmap) (m : ImageMap) : Prop where
  width : 0 < p.width ∧ m.columns ∣ p.width ∧ 2 * m.margin ≤ p.width / m.columns
  height : 0 < p.height ∧ m.rows ∣ p.height ∧ 2 * m.margin ≤ p.height / m.rows
  few : m.columns * m.rows ≤ 9999999

/-- The image in a column and a row of images. -/
def mapArea (p : Bitmap) (m : ImageMap) (i j : Nat) : Area :=
  ⟨i * (p.width / m.columns) + m.margin, j * (p.height / m.rows) + m.margin, p.width / m.columns - 2 * m.margin, p.height / m.rows - 2 * m.margin⟩

/-- As many of them as are wanted. -/
def upTo {α : Type} (limit : Option Nat) (l : List α) : List α :=
  match limit with
  | none => l
  | some n => l.take n

/-- The images of a map: column by column from the left, each column from the top down. -/
def mapAreas (p : Bitmap) (m : ImageMap) : List Area :=
  upTo m.limit ((List.range m.columns).flatMap fun i => (List.range m.rows).map fun j => mapArea p m i j)

/-- The bytes for a part of a bitmap, given the shades of the pixels of the bitmap. A part that is wider than the least number
of columns is cut into strips, as whole bitmaps are (`bitmapBytes`). -/
def partBytes (c : Settings) (p : Bitmap) (a : Area) (shade : Nat → Nat → Nat) : List Nat :=
  if 0 < c.columns.toNat ∧ c.columns.toNat < a.width then
    (List.range ((a.width + c.columns.toNat - 1) / c.columns.toNat)).flatMap fun i =>
      areaBytes c p ⟨a.left + i * c.columns.toNat, a.top, min c.columns.toNat (a.width - i * c.columns.toNat), a.height⟩
        fun x y => shade (a.left + i * c.columns.toNat + x) (a.top + y)
  else areaBytes c p a fun x y => shade (a.left + x) (a.top + y)

/-- A bitmap with the size of an image. -/
def imageOf (p : Bitmap) (m : ImageMap) : Bitmap :=
  { p with width := p.width / m.columns - 2 * m.margin, height := p.height / m.rows - 2 * m.margin }

/-- The bytes for each image: the header and the bit planes. -/
def mapBytes (c : Settings) (p : Bitmap) (m : ImageMap) (header : List Nat) (shade : Nat → Nat → Nat) : List (List Nat) :=
  (mapAreas p m).map fun a => header ++ partBytes c p a shade

/-- The labels for images of the given numbers of bytes from `pc` on, if they have a name: the width, the height, the address
of each image and their number. -/
def mapLabels (name : Option (List Nat)) (width height : Nat) (sizes : List Nat) (pc : Int) : List (List Nat × Int) :=
  match name with
  | none => []
  | some t =>
    [(t ++ b! "_WIDTH", (width : Int)), (t ++ b! "_HEIGHT", (height : Int))] ++
      (List.range sizes.length).map (fun i : Nat => (t ++ decimal ((i : Int) + 1), asInt32 (pc.toNat + (sizes.take i).sum))) ++
      [(t ++ b! "_COUNT", (sizes.length : Int))]

/-- The value of a label when some have been added. -/
def addedLabel (s : S) (adds : List (List Nat × Int)) (t : List Nat) : Option Int :=
  match adds.find? fun e => decide (nameKey s e.1 = nameKey s t) with
  | some e => some e.2
  | none => labelOf s t

/-- Labels that can be added: there is nothing else of these names. -/
def Addable (s : S) (adds : List (List Nat × Int)) : Prop :=
  ∀ e ∈ adds, argumentOf s e.1 = none ∧ defineOf s e.1 = none ∧ (labelOf s e.1 = none ∨ labelOf s e.1 = some e.2)

end Spasm.Spec
