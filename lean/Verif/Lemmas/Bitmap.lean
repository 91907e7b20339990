import Verif.Lemmas.Double

/-
The pixels of a bitmap file and the planes made from them.
-/

namespace Spasm
open Spec

/-! ### The file -/

theorem leAt_field (bytes : List Nat) : ∀ (n off : Nat), off + n ≤ bytes.length → leAt bytes off n = some (field bytes off n)
  | 0, off, _ => by simp [leAt, field, little]
  | n + 1, off, h => by
    have hlt : off < bytes.length := by omega
    have e : field bytes off (n + 1) = bytes[off] + 256 * field bytes (off + 1) n := by
      unfold field
      rw [List.drop_eq_getElem_cons hlt, List.take_succ_cons]
      rfl
    rw [leAt, leAt_field bytes n (off + 1) (by omega), List.getElem?_eq_getElem hlt, e]
    rfl

/-- The file as the model has it. -/
def Spec.Bitmap.model (p : Bitmap) : Bmp :=
  ⟨p.bytes, 54 + 4 * p.colours, p.width, p.height, p.bits, field p.bytes 46 4, p.colours⟩

theorem bmpOf_file {p : Bitmap} (h : BitmapFile p) : bmpOf p.bytes = some (p.model, 40, 0) := by
  have hl : 54 ≤ p.bytes.length := by have := h.complete; omega
  unfold bmpOf
  rw [leAt_field _ 4 10 (by omega), leAt_field _ 4 14 (by omega), leAt_field _ 4 18 (by omega), leAt_field _ 4 22 (by omega),
    leAt_field _ 2 28 (by omega), leAt_field _ 4 30 (by omega), leAt_field _ 4 46 (by omega), leAt_field _ 4 50 (by omega)]
  simp only [Option.bind_eq_bind, Option.bind_some, Option.pure_def]
  rw [h.offset, h.header, h.width.1, h.height.1, h.bits.1, h.compression]
  have hw : toI32 (p.width : Int) = p.width := by have := h.width.2; unfold toI32; omega
  have hh : toI32 (p.height : Int) = p.height := by have := h.height.2; unfold toI32; omega
  have hc : (if p.bits < 16 ∨ field p.bytes 46 4 ≠ 0 then (if field p.bytes 46 4 = 0 then 2 ^ p.bits else field p.bytes 46 4) else 0) = p.colours := by
    by_cases h24 : p.bits = 24
    · rw [(h.noPalette h24).1, (h.noPalette h24).2, h24]; rfl
    · rw [h.palette h24, if_pos]
      left
      have := h.bits.2
      simp at this
      omega
  rw [hw, hh, hc]
  rfl

theorem scan_stride (p : Bitmap) : p.model.scan = p.stride := by
  unfold Bmp.scan Spec.Bitmap.stride Spec.Bitmap.model
  dsimp only
  rw [Int.tdiv_eq_ediv_of_nonneg (by positivity)]
  push_cast
  rfl

theorem row_inside (p : Bitmap) (y : Nat) (hy : y < p.height) : p.stride * (p.height - 1 - y) + p.stride ≤ p.stride * p.height := by
  have : p.stride * (p.height - 1 - y) + p.stride = p.stride * (p.height - 1 - y + 1) := by rw [Nat.mul_add, Nat.mul_one]
  rw [this]
  exact Nat.mul_le_mul_left _ (by omega)

theorem raw_at {p : Bitmap} (h : BitmapFile p) (y : Nat) (hy : y < p.height) (top row : Int) (hrow : top + row = ((p.height - 1 - y : Nat) : Int))
    (j : Nat) (hj : j < p.stride) : p.model.raw top row j = .ok (p.at (p.rowStart y + j)) := by
  unfold Bmp.raw
  rw [scan_stride, hrow]
  have e : ((p.model.offBits : Int) + p.stride * ((p.height - 1 - y : Nat) : Int) + j).toNat = p.rowStart y + j := by
    unfold Spec.Bitmap.rowStart Spec.Bitmap.model
    dsimp only
    rw [← Int.natCast_mul]
    generalize p.stride * (p.height - 1 - y) = z
    push_cast
    omega
  rw [e]
  have hlt : p.rowStart y + j < p.bytes.length := by
    have := row_inside p y hy
    have := h.complete
    unfold Spec.Bitmap.rowStart
    omega
  show (match p.bytes[p.rowStart y + j]? with
    | some v => Except.ok v
    | none => Except.error UB.uninitialised) = _
  rw [List.getElem?_eq_getElem hlt]
  unfold Spec.Bitmap.at
  rw [List.getD_eq_getElem?_getD, List.getElem?_eq_getElem hlt]
  rfl

theorem at_byte {p : Bitmap} (h : BitmapFile p) (i : Nat) : p.at i < 256 := by
  unfold Spec.Bitmap.at
  rw [List.getD_eq_getElem?_getD]
  by_cases hi : i < p.bytes.length
  · rw [List.getElem?_eq_getElem hi]
    exact h.bytes _ (List.getElem_mem hi)
  · rw [List.getElem?_eq_none (by omega)]
    simp

/-- A colour as the model has it. -/
def Spec.Colour.model (c : Colour) : Quad := ⟨c.blue, c.green, c.red, c.reserved⟩

theorem pixel_model {p : Bitmap} (h : BitmapFile p) (x y : Nat) (hx : x < p.width) (hy : y < p.height) (top row : Int)
    (hrow : top + row = ((p.height - 1 - y : Nat) : Int)) :
    p.model.pixel top row ((x : Int) * p.bits) = .ok (p.pixel x y).model := by
  have hstride : p.width * p.bits ≤ 8 * p.stride := by unfold Spec.Bitmap.stride; omega
  have hmul : x * p.bits + p.bits ≤ p.width * p.bits := by
    have : x * p.bits + p.bits = (x + 1) * p.bits := by rw [Nat.add_mul, Nat.one_mul]
    rw [this]
    exact Nat.mul_le_mul_right _ hx
  have hbits := h.bits.2
  unfold Bmp.pixel
  by_cases h24 : p.bits = 24
  · have hn := h.noPalette h24
    rw [if_neg (by
      show ¬ (p.bits < 16 ∨ field p.bytes 46 4 ≠ 0)
      rw [hn.1]; omega)]
    have hb : p.model.bits = 24 := h24
    dsimp only
    rw [hb]
    have e0 : ((x : Int) * p.bits / 8) = ((3 * x : Nat) : Int) := by rw [h24]; push_cast; omega
    rw [if_neg (by decide), e0]
    have h3 : 3 * x + 2 < p.stride := by
      have e1 : x * p.bits = x * 24 := by rw [h24]
      omega
    have r0 := raw_at h y hy top row hrow (3 * x) (by omega)
    have r1 := raw_at h y hy top row hrow (3 * x + 1) (by omega)
    have r2 := raw_at h y hy top row hrow (3 * x + 2) (by omega)
    have e1 : ((3 * x : Nat) : Int) + 1 = ((3 * x + 1 : Nat) : Int) := by push_cast; rfl
    have e2 : ((3 * x + 1 : Nat) : Int) + 1 = ((3 * x + 2 : Nat) : Int) := by push_cast; omega
    have hraw : p.model.rawData top row ((3 * x : Nat) : Int) (24 / 8) 0 =
        .ok (((p.at (p.rowStart y + 3 * x) % 4294967296 * 256 + p.at (p.rowStart y + (3 * x + 1))) % 4294967296 * 256 + p.at (p.rowStart y + (3 * x + 2))) % 4294967296) := by
      show p.model.rawData top row _ 3 0 = _
      rw [Bmp.rawData, r0]
      show p.model.rawData top row _ 2 _ = _
      rw [Bmp.rawData, e1, r1]
      show p.model.rawData top row _ 1 _ = _
      rw [Bmp.rawData, e2, r2]
      refine congrArg Except.ok ?_
      simp
    rw [hraw]
    show Except.ok (Quad.mk _ _ _ _) = _
    have b0 := at_byte h (p.rowStart y + 3 * x)
    have b1 := at_byte h (p.rowStart y + (3 * x + 1))
    have b2 := at_byte h (p.rowStart y + (3 * x + 2))
    unfold Spec.Bitmap.pixel
    rw [if_pos h24]
    unfold Spec.Colour.model
    congr 2
    · simp only [Nat.reduceDiv, Nat.reduceMul, Nat.reducePow]; omega
    · simp only [Nat.reduceDiv, Nat.reduceMul, Nat.reducePow, Nat.add_assoc]; omega
    · simp only [Nat.reduceDiv, Nat.reduceMul, Nat.reducePow, Nat.add_assoc]; omega
  · have hb16 : p.bits < 16 := by simp at hbits; omega
    rw [if_pos (.inl hb16)]
    have hmod : p.bits + x * p.bits % 8 ≤ 8 := by
      simp at hbits
      rcases hbits with hb | hb | hb | hb | hb <;> rw [hb] <;> omega
    have e0 : ((x : Int) * p.bits / 8) = ((x * p.bits / 8 : Nat) : Int) := by push_cast; rfl
    have e1 : ((x : Int) * p.bits % 8) = ((x * p.bits % 8 : Nat) : Int) := by push_cast; rfl
    have hb : p.model.bits = p.bits := rfl
    dsimp only
    rw [e0, e1, hb, if_neg (by omega)]
    have hpos : 0 < p.bits := by simp at hbits; omega
    have r0 := raw_at h y hy top row hrow (x * p.bits / 8) (by omega)
    rw [r0]
    show p.model.colour _ = _
    have es : (8 - (p.bits : Int) - ((x * p.bits % 8 : Nat) : Int)).toNat = 8 - p.bits - x * p.bits % 8 := by omega
    rw [es]
    show p.model.colour (p.index x y) = _
    unfold Bmp.colour
    have hidx : p.index x y < p.model.nColors := h.indices h24 x hx y hy
    rw [if_pos hidx]
    unfold Spec.Bitmap.pixel
    rw [if_neg h24]
    unfold Spec.Colour.model Spec.Bitmap.at
    have a1 : 54 + 4 * p.index x y + 1 = 55 + 4 * p.index x y := by omega
    have a2 : 54 + 4 * p.index x y + 2 = 56 + 4 * p.index x y := by omega
    have a3 : 54 + 4 * p.index x y + 3 = 57 + 4 * p.index x y := by omega
    rw [a1, a2, a3]
    rfl

theorem pixel_bytes {p : Bitmap} (h : BitmapFile p) (x y : Nat) :
    (p.pixel x y).red < 256 ∧ (p.pixel x y).green < 256 ∧ (p.pixel x y).blue < 256 := by
  unfold Spec.Bitmap.pixel
  split <;> exact ⟨at_byte h _, at_byte h _, at_byte h _⟩

/-! ### The grid -/

/-- The shade the program computes. -/
def shadeAt (shades : Nat) (p : Bitmap) (a : Area) (x y : Nat) : Nat :=
  match shadeOf shades (p.pixel (a.left + x) (a.top + y)).red (p.pixel (a.left + x) (a.top + y)).green (p.pixel (a.left + x) (a.top + y)).blue with
  | .ok k => k
  | .error _ => 0

/-- The entries of the two tables for a pixel of an area. -/
def cellAt (c : Settings) (p : Bitmap) (a : Area) (x y : Nat) : Nat × Nat :=
  if x < a.width then (shadeAt c.shades p a x y, if p.pixel (a.left + x) (a.top + y) = c.maskColour then 1 else 0) else (0, 1)

/-- An area inside the bitmap. -/
structure Within (p : Bitmap) (a : Area) : Prop where
  right : a.left + a.width ≤ p.width
  bottom : a.top + a.height ≤ p.height

/-- An area as the model has it: the rows are counted from the bottom. -/
def areaRect (p : Bitmap) (a : Area) : Rect :=
  ⟨a.left, ((p.height - a.top - a.height : Nat) : Int), ((a.left + a.width : Nat) : Int), ((p.height - a.top : Nat) : Int)⟩

theorem mapE_ok {α β : Type} (f : α → Except UB β) (g : α → β) : ∀ l : List α, (∀ a ∈ l, f a = .ok (g a)) → mapE f l = .ok (l.map g)
  | [], _ => rfl
  | a :: l, h => by
    rw [mapE, h a (by simp)]
    show (do let bs ← mapE f l; Except.ok (g a :: bs)) = _
    rw [mapE_ok f g l (fun x hx => h x (by simp [hx]))]
    rfl

theorem ok_bind {α β : Type} (a : α) (f : α → Except UB β) : (Except.ok a >>= f) = f a := rfl

theorem cell_at {c : Settings} {p : Bitmap} {a : Area} (h : BitmapFile p) (hs : 1 ≤ c.shades ∧ c.shades ≤ 99) (ha : Within p a)
    (x y : Nat) (hy : y < a.height) :
    p.model.cell (areaRect p a) c.maskColour.model none c.shades ((a.height - 1 - y : Nat) : Int) x = .ok (cellAt c p a x y) := by
  have h1 := ha.right
  have h2 := ha.bottom
  have hpos : (0 : Int) < p.bits := by have := h.bits.2; simp at this; omega
  unfold Bmp.cell cellAt
  dsimp only
  have ex : (areaRect p a).left + (x : Int) = ((a.left + x : Nat) : Int) := by unfold areaRect; push_cast; rfl
  have hb : p.model.bits = p.bits := rfl
  rw [ex, hb]
  by_cases hx : x < a.width
  · rw [if_neg, if_pos hx]
    · have hrow : (areaRect p a).top + ((a.height - 1 - y : Nat) : Int) = ((p.height - 1 - (a.top + y) : Nat) : Int) := by
        unfold areaRect; dsimp only; omega
      rw [pixel_model h (a.left + x) (a.top + y) (by omega) (by omega) _ _ hrow]
      obtain ⟨b1, b2, b3⟩ := pixel_bytes h (a.left + x) (a.top + y)
      obtain ⟨k, hk, -⟩ := shadeOf_shade c.shades (p.pixel (a.left + x) (a.top + y)) hs b1 b2 b3
      have hm : (p.pixel (a.left + x) (a.top + y)).model = c.maskColour.model ↔ p.pixel (a.left + x) (a.top + y) = c.maskColour := by
        generalize p.pixel (a.left + x) (a.top + y) = u
        generalize c.maskColour = w
        cases u; cases w
        simp only [Spec.Colour.model, Quad.mk.injEq, Colour.mk.injEq]
        omega
      have hq : shadeOf c.shades (p.pixel (a.left + x) (a.top + y)).model.red (p.pixel (a.left + x) (a.top + y)).model.green
          (p.pixel (a.left + x) (a.top + y)).model.blue = .ok k := hk
      rw [ok_bind, hq, ok_bind, if_neg (by simp)]
      unfold shadeAt
      rw [hk]
      simp only [hm]
    · have hw : p.model.width = (p.width : Int) := rfl
      have hr : (areaRect p a).right = ((a.left + a.width : Nat) : Int) := rfl
      rw [hw, hr]
      have l1 : ((a.left + x : Nat) : Int) * p.bits < ((a.left + a.width : Nat) : Int) * p.bits :=
        Int.mul_lt_mul_of_pos_right (by omega) hpos
      have l2 : ((a.left + a.width : Nat) : Int) * p.bits ≤ (p.width : Int) * p.bits :=
        Int.mul_le_mul_of_nonneg_right (by omega) (by omega)
      omega
  · rw [if_pos, if_neg hx]
    right
    show ((a.left + a.width : Nat) : Int) * p.bits ≤ _
    exact Int.mul_le_mul_of_nonneg_right (by omega) (by omega)

theorem grid_area {c : Settings} {p : Bitmap} {a : Area} (h : BitmapFile p) (hs : 1 ≤ c.shades ∧ c.shades ≤ 99) (ha : Within p a)
    (n size : Nat) (hn : a.width ≤ n) (hsize : n ≤ size) :
    p.model.grid (areaRect p a) c.maskColour.model none c.shades n size a.height =
      .ok ((List.range a.height).map fun y => (List.range size).map fun x => cellAt c p a x y) := by
  unfold Bmp.grid
  refine mapE_ok _ _ _ ?_
  intro y hy
  rw [List.mem_range] at hy
  unfold Bmp.row
  rw [mapE_ok _ (fun x => cellAt c p a x y) _ (fun x _ => cell_at h hs ha x y hy)]
  show Except.ok ((List.range n).map (fun x => cellAt c p a x y) ++ List.replicate (size - n) (0, 1)) = _
  congr 1
  have e : size = n + (size - n) := by omega
  rw [e, List.range_add, List.map_append]
  congr 1
  simp only [Nat.add_sub_cancel_left, List.map_map]
  symm
  rw [List.eq_replicate_iff]
  refine ⟨by simp, ?_⟩
  · intro x hx
    obtain ⟨i, _, rfl⟩ := List.mem_map.1 hx
    show cellAt c p a (n + i) y = _
    unfold cellAt
    rw [if_neg (by omega)]

/-! ### Bytes -/

theorem range_eight (m : Nat) : List.range (8 * (m + 1)) = 0 :: 1 :: 2 :: 3 :: 4 :: 5 :: 6 :: 7 :: (List.range (8 * m)).map (· + 8) := by
  have e : 8 * (m + 1) = 8 + 8 * m := by omega
  rw [e, List.range_add]
  simp only [Nat.add_comm]
  rfl

theorem packBits_range : ∀ (m : Nat) (f : Nat → Nat), packBits ((List.range (8 * m)).map f) = packed m f
  | 0, f => rfl
  | m + 1, f => by
    rw [range_eight]
    simp only [List.map_cons, List.map_map]
    rw [packBits, packBits_range m (f ∘ fun x => x + 8)]
    unfold packed
    rw [List.range_succ_eq_map, List.map_cons, List.map_map]
    congr 1

theorem image_planes (c : Settings) (p : Bitmap) (a : Area) (columns : Nat) : ∀ planes,
    imageBytes ((List.range a.height).map fun y => (List.range ((columns + 7) / 8 * 8)).map fun x => cellAt c p a x y) planes =
      shadePlanes a columns (shadeAt c.shades p a) planes
  | 0 => rfl
  | n + 1 => by
    rw [imageBytes, image_planes c p a columns n]
    unfold shadePlanes
    rw [List.range_succ, List.reverse_append]
    show _ = bitPlane columns a.height _ ++ _
    congr 1
    unfold layerBytes bitPlane
    rw [List.flatMap_map]
    congr 1
    funext y
    dsimp only
    rw [Nat.mul_comm, List.map_map, packBits_range]
    congr 1
    funext x
    unfold cellAt
    dsimp only [Function.comp]
    by_cases hx : x < a.width <;> simp [hx]

theorem mask_bytes (c : Settings) (p : Bitmap) (a : Area) (columns : Nat) :
    (((List.range a.height).map fun y => (List.range ((columns + 7) / 8 * 8)).map fun x => cellAt c p a x y).flatMap
      fun row => packBits (row.map fun c => c.2 % 2)) = maskPlane p a columns c.maskColour := by
  unfold maskPlane bitPlane
  rw [List.flatMap_map]
  congr 1
  funext y
  dsimp only
  rw [Nat.mul_comm, List.map_map, packBits_range]
  congr 1
  funext x
  unfold cellAt
  dsimp only [Function.comp]
  by_cases hx : x < a.width <;> by_cases hc : p.pixel (a.left + x) (a.top + y) = c.maskColour <;> simp [hx, hc]

theorem packed_byte (n : Nat) (f : Nat → Nat) (h : ∀ x, f x ≤ 1) : ∀ b ∈ packed n f, b < 256 := by
  intro b hb
  obtain ⟨j, -, rfl⟩ := List.mem_map.1 hb
  have := h (8 * j); have := h (8 * j + 1); have := h (8 * j + 2); have := h (8 * j + 3)
  have := h (8 * j + 4); have := h (8 * j + 5); have := h (8 * j + 6); have := h (8 * j + 7)
  omega

theorem bitPlane_byte (columns rows : Nat) (f : Nat → Nat → Nat) (h : ∀ x y, f x y ≤ 1) : ∀ b ∈ bitPlane columns rows f, b < 256 := by
  intro b hb
  obtain ⟨y, -, hb⟩ := List.mem_flatMap.1 hb
  exact packed_byte _ _ (fun x => h x y) b hb

theorem shadePlanes_byte (a : Area) (columns : Nat) (shade : Nat → Nat → Nat) (planes : Nat) : ∀ b ∈ shadePlanes a columns shade planes, b < 256 := by
  intro b hb
  obtain ⟨i, -, hb⟩ := List.mem_flatMap.1 hb
  refine bitPlane_byte _ _ _ (fun x y => ?_) b hb
  split <;> omega

theorem maskPlane_byte (p : Bitmap) (a : Area) (columns : Nat) (colour : Colour) : ∀ b ∈ maskPlane p a columns colour, b < 256 := by
  refine bitPlane_byte _ _ _ (fun x y => ?_)
  split <;> omega

theorem shadeAt_shade {c : Settings} {p : Bitmap} (a : Area) (h : BitmapFile p) (hs : 1 ≤ c.shades ∧ c.shades ≤ 99) (x y : Nat) :
    Shade c.shades (p.pixel (a.left + x) (a.top + y)) (shadeAt c.shades p a x y) := by
  obtain ⟨b1, b2, b3⟩ := pixel_bytes h (a.left + x) (a.top + y)
  obtain ⟨k, hk, hk'⟩ := shadeOf_shade c.shades (p.pixel (a.left + x) (a.top + y)) hs b1 b2 b3
  unfold shadeAt
  rw [hk]
  exact hk'

end Spasm
