import Verif.Lemmas.MapRun

/-
C75, image maps: with `__BM_MAP` set to two or three numbers, `#include` of a bitmap writes several images.
-/

namespace Spasm.Props
open Spasm Spec

/-- C75. If `__BM_MAP` is a text like `3x2` or `3,2,4` whose first two numbers divide the bitmap evenly, then
`#include` of a bitmap writes the images column by column, as many as are wanted, each with its header and its planes. If the
line follows a label, there are labels for the size of the images, the address of each of them and their number; no other
label changes. Afterwards `__BM_MAP` is 0, so that the map is used once, and all other defines are as before.

Missing: maps that do not divide the bitmap (`C75_map_uneven`), texts with expressions, and labels that exist with other
values, for which there is an error for each of them. -/
theorem C75_map_partial (k depth : Nat) (w : Str) (hw : w.map upperCase = b! "INCLUDE") (b b1 file b2 rest : Str) (ch : Nat) (s : S)
    (p : Bitmap) (c : Settings) (m : ImageMap) (text header : List Nat) (sizes : List Nat) (df : Define)
    (hfile : Located s (slashes file) p.bytes) (hp : BitmapFile p) (hfit : MapFits p m) (htext : MapText text m.columns m.rows m.limit)
    (ha : argumentOf s (b! "__BM_MAP") = none) (hl : labelOf s (b! "__BM_MAP") = none) (hdf : defineOf s (b! "__BM_MAP") = some df)
    (hargs : df.args = []) (hcont : df.contents = some text) (hsess : 1 ≤ s.session)
    (hpad : SettingIs s depth (b! "__BM_PAD") none ∧ m.margin = 0 ∨ SettingIs s depth (b! "__BM_PAD") (some (m.margin : Int)))
    (hmode : s.mode.codeCounter = false)
    (hsizes : sizes = (mapBytes c p m header fun _ _ => 0).map List.length)
    (hadd : Addable s (mapLabels (imageName s) (imageOf p m).width (imageOf p m).height sizes s.pc))
    (hkeep : ∀ tab, (∀ t, labelOf { s with labels := tab } t = labelOf s t ∨
        ∃ e ∈ mapLabels (imageName s) (imageOf p m).width (imageOf p m).height sizes s.pc, nameKey s t = nameKey s e.1) →
      SettingsAre { s with labels := tab } depth c ∧ HeaderIs { s with labels := tab } depth c (imageOf p m) header ∧ Settled { s with labels := tab })
    (hb : Blanks b) (hb1 : Blanks b1) (hb2 : Blanks b2) (hc : ch = 32 ∨ ch = 9) (hf : StringBody file) (hq : 34 ∉ file)
    (hm : ∀ c ∈ file, c ≠ 10 ∧ c ≠ 13 ∧ c ≠ 59) (hlen : (34 :: file ++ [34] ++ b2).length ≤ 254) (hrest : AtEnd rest)
    (hroom : HasRoom (mapBytes c p m header fun _ _ => 0).flatten.length s) (hpc : 0 ≤ s.pc ∧ s.pc < 4294967296) (hD : depth ≤ 17) (hk : depth + 3 < k) :
    ∃ shade d f tab defs, (∀ x < p.width, ∀ y < p.height, Shade c.shades (p.pixel x y) (shade x y)) ∧
      (mapBytes c p m header shade).map List.length = sizes ∧
      (∀ t, labelOf { s with labels := tab } t = addedLabel s (mapLabels (imageName s) (imageOf p m).width (imageOf p m).height sizes s.pc) t) ∧
      (∀ t, defineOf { s with defines := defs } t = if nameKey s t = nameKey s (b! "__BM_MAP") then some { df with contents := some (b! "0") } else defineOf s t) ∧
      (knot (k + 2)).lineSec (b ++ 35 :: (w ++ ch :: (b1 ++ (34 :: file ++ [34]) ++ b2 ++ rest))) s =
        .ok (some rest) { emitted (mapBytes c p m header shade).flatten s with
          labels := tab, defines := defs, pc := (s.pc + (mapBytes c p m header shade).flatten.length) % 4294967296, parseDepth := d, fwdRef := f } := by
  obtain ⟨hset, -, -⟩ := hkeep s.labels (fun t => .inl rfl)
  obtain ⟨d, f, tab, h1, h2⟩ := handle_map hp hfit htext ha hl hdf hargs hcont hsess hpad hD hk hmode hsizes hadd hkeep hpc hroom
  refine ⟨shadeAt c.shades p ⟨0, 0, p.width, p.height⟩, d, f, tab, s.defines.update (b! "__BM_MAP") (fun d => { d with contents := some (b! "0") }), ?_, ?_, h1, ?_, ?_⟩
  · intro x _ y _
    simpa using shadeAt_shade ⟨0, 0, p.width, p.height⟩ hp hset.someShades x y
  · rw [hsizes]
    unfold mapBytes
    rw [List.map_map, List.map_map]
    refine List.map_congr_left fun a _ => ?_
    show (header ++ partBytes c p a _).length = (header ++ partBytes c p a _).length
    rw [List.length_append, List.length_append, partBytes_length]
  · intro t
    rw [defineOf_eq, defineOf_eq, mapKey]
    refine (Table.lookup_update (b! "__BM_MAP") (nameKey s t) (fun d : Define => { d with contents := some (b! "0") }) s.defines).trans ?_
    split
    · rename_i h
      have := hdf
      rw [defineOf_eq, mapKey] at this
      rw [h, this]
      rfl
    · rfl
  · rw [include_bitmap k w hw b b1 file b2 rest ch s p.bytes hfile (isBitmap_file hp) hb hb1 hb2 hc hf hq hm hlen hrest, M.bind_apply, h2]
    rfl

/-! ### A picture with six images, of which four are wanted -/

def pictureMap : ImageMap := ⟨3, 2, some 4, 0⟩

theorem pictureMap_header {tab : Table Label} {last : Option Str}
    (hl : ∀ t, labelOf (withPicture true tab last) t ≠ none → (nameKey (withPicture true tab last) t).head? = some 73) :
    HeaderIs (withPicture true tab last) 3 pictureSettings (imageOf picture pictureMap) [3, 1, 1, 0] := by
  refine .format (b! " wxhxss") [b! "w", b! "h", b! "ss"] _
    ⟨some 1, picture_number hl _ [32] 49 (by omega) (by intro c hc; simp at hc; omega) (by decide +kernel) (by decide +kernel) (by decide +kernel), by decide⟩
    (picture_text hl _ _ (by decide +kernel) (by decide +kernel) (by decide +kernel)) (by decide) ?_ ?_ (picture_unset hl _ (by decide +kernel) (by decide +kernel))
  · exact .skip _ _ _ (by decide) (.word (b! "w") 120 _ _ (by decide) (by decide) (by decide)
      (.word (b! "h") 120 _ _ (by decide) (by decide) (by decide) (.last (b! "ss") (by decide) (by decide))))
  · exact .cons _ _ _ _ (.width _ (by decide) (by decide)) (.cons _ _ _ _ (.height _ (by decide) (by decide)) (.cons _ _ _ _ (.sizeWord _ (by decide)) .nil))

private theorem noQuote (t : Str) (h : 34 ∉ t ∧ 92 ∉ t) : StringBody t := by
  induction t with
  | nil => exact .nil
  | cons c t ih =>
    simp only [List.mem_cons, not_or] at h
    exact .char c t (Ne.symm h.1.1) (Ne.symm h.2.1) (ih ⟨h.1.2, h.2.2⟩)

/-- The labels of the picture: images of six bytes, each with a header, a row and the row of the mask. -/
theorem pictureMap_labels : mapLabels (some (b! "IMG")) 3 1 [6, 6, 6, 6] 0x9D95 =
    [(b! "IMG_WIDTH", 3), (b! "IMG_HEIGHT", 1), (b! "IMG1", 0x9D95), (b! "IMG2", 0x9D9B), (b! "IMG3", 0x9DA1), (b! "IMG4", 0x9DA7), (b! "IMG_COUNT", 4)] := by
  decide +kernel

example : ∃ shade d f tab defs, (∀ x < 9, ∀ y < 2, Shade 2 (picture.pixel x y) (shade x y)) ∧
    (mapBytes pictureSettings picture pictureMap [3, 1, 1, 0] shade).map List.length = [6, 6, 6, 6] ∧
    (∀ t, labelOf { withPicture true pictureLabels (some (b! "IMG")) with labels := tab } t = addedLabel (withPicture true pictureLabels (some (b! "IMG")))
      [(b! "IMG_WIDTH", 3), (b! "IMG_HEIGHT", 1), (b! "IMG1", 0x9D95), (b! "IMG2", 0x9D9B), (b! "IMG3", 0x9DA1), (b! "IMG4", 0x9DA7), (b! "IMG_COUNT", 4)] t) ∧
    (∃ df : Define, ∀ t, defineOf { withPicture true pictureLabels (some (b! "IMG")) with defines := defs } t =
      if nameKey (withPicture true pictureLabels (some (b! "IMG"))) t = nameKey (withPicture true pictureLabels (some (b! "IMG"))) (b! "__BM_MAP")
      then some { df with contents := some (b! "0") } else defineOf (withPicture true pictureLabels (some (b! "IMG"))) t) ∧
    (knot 9).lineSec (b! "#include \"i.bmp\"\n") (withPicture true pictureLabels (some (b! "IMG"))) =
      .ok (some (b! "\n")) { emitted (mapBytes pictureSettings picture pictureMap [3, 1, 1, 0] shade).flatten (withPicture true pictureLabels (some (b! "IMG"))) with
        labels := tab, defines := defs, pc := (40341 + (mapBytes pictureSettings picture pictureMap [3, 1, 1, 0] shade).flatten.length) % 4294967296, parseDepth := d, fwdRef := f } := by
  have only : ∀ t, labelOf (withPicture true pictureLabels (some (b! "IMG"))) t = if nameKey (pictureState true) t = b! "IMG" then some 0x9D95 else none := by
    intro t
    rw [labelOf_eq]
    show (Table.lookup pictureLabels (nameKey (pictureState true) t)).map Label.value = _
    unfold Table.lookup pictureLabels
    by_cases h : nameKey (pictureState true) t = b! "IMG"
    · rw [h]; decide
    · rw [if_neg h, List.find?_cons_of_neg (by simpa using fun e => h e.symm)]
      rfl
  have hl : ∀ t, labelOf (withPicture true pictureLabels (some (b! "IMG"))) t ≠ none → (nameKey (withPicture true pictureLabels (some (b! "IMG"))) t).head? = some 73 := by
    intro t h
    rw [only] at h
    split at h
    · rename_i h'
      exact (congrArg List.head? h').trans rfl
    · exact absurd rfl h
  have hname : imageName (withPicture true pictureLabels (some (b! "IMG"))) = some (b! "IMG") := by decide +kernel
  have hd : (defineOf (pictureState true) (b! "__BM_MAP")).map (fun d => (d.args, d.contents)) = some ([], some (b! " 3x2,4")) := by decide +kernel
  obtain ⟨df, hdf, h2⟩ := Option.map_eq_some_iff.1 hd
  obtain ⟨hargs, hcont⟩ := Prod.mk.inj h2
  have dec : ∀ x : Nat, 48 ≤ x ∧ x ≤ 57 → Decimal [x] (x - 48) := by
    intro x hx
    refine ⟨by simp, by intro c hc; simp at hc; omega, ?_⟩
    simp [value, digit, hx]
  have hlab : mapLabels (imageName (withPicture true pictureLabels (some (b! "IMG")))) (imageOf picture pictureMap).width (imageOf picture pictureMap).height [6, 6, 6, 6]
      (withPicture true pictureLabels (some (b! "IMG"))).pc =
      [(b! "IMG_WIDTH", 3), (b! "IMG_HEIGHT", 1), (b! "IMG1", 0x9D95), (b! "IMG2", 0x9D9B), (b! "IMG3", 0x9DA1), (b! "IMG4", 0x9DA7), (b! "IMG_COUNT", 4)] := by
    rw [hname]
    exact pictureMap_labels
  obtain ⟨shade, d, f, tab, defs, h1, h2, h3, h4, h5⟩ := C75_map_partial 7 3 (b! "include") (by decide) [] [] (b! "i.bmp") [] (b! "\n") 32
    (withPicture true pictureLabels (some (b! "IMG"))) picture pictureSettings pictureMap (b! " 3x2,4") [3, 1, 1, 0] [6, 6, 6, 6] df
    (.relative [] (b! ".") [] (fun _ => by decide +kernel) rfl (by decide +kernel) (by decide +kernel)) picture_file
    ⟨by decide, by decide, by decide⟩
    (.limited [32] [51] 120 [50] 44 [52] 3 2 4 (by intro c hc; simp at hc; omega) (dec 51 (by omega)) (by decide) (dec 50 (by omega)) (by decide) (dec 52 (by omega)) (by omega))
    rfl (by decide +kernel) hdf hargs hcont (by decide +kernel) (.inl ⟨picture_unset hl _ (by decide +kernel) (by decide +kernel), rfl⟩) (by decide +kernel)
    (by decide +kernel)
    (by
      rw [hlab]
      intro e he
      fin_cases he <;> exact ⟨rfl, by decide +kernel, .inl (by decide +kernel)⟩)
    (by
      rw [hlab]
      intro tab htab
      have hl' : ∀ t, labelOf (withPicture true tab (some (b! "IMG"))) t ≠ none → (nameKey (withPicture true tab (some (b! "IMG"))) t).head? = some 73 := by
        intro t h
        rcases htab t with e | ⟨e, he, hk⟩
        · have h' : labelOf (withPicture true tab (some (b! "IMG"))) t = _ := e
          rw [h'] at h
          exact hl t h
        · refine (congrArg List.head? hk).trans ?_
          fin_cases he <;> decide +kernel
      exact ⟨picture_settings hl', pictureMap_header hl', (by decide +kernel : Settled (pictureState true))⟩)
    spec_nb spec_nb spec_nb (.inl rfl) (noQuote _ (by decide)) (by decide) (by decide) (by decide) (.inr ⟨10, _, rfl, by decide⟩)
    ⟨by decide +kernel, by decide +kernel⟩ (by decide +kernel) (by omega) (by omega)
  rw [hlab] at h3
  exact ⟨shade, d, f, tab, defs, h1, h2, h3, ⟨df, h4⟩, h5⟩

/-- The same in a whole program, without header and mask, and with the whole picture the second time: the columns of images are
`000` over `111` and `011` over `100`. -/
example : (asmBitmap (b! "#define __BM_MAP 3x2,4\nimg:\n#include \"i.bmp\"\nimf:\n#include \"i.bmp\"\n .db img2-img1,imf_width,img_width,img_count\n") picture.bytes).state.log =
    [.wrote (b! "a.bin") [0, 0xE0, 0x60, 0x80, 0x0F, 0x80, 0xF0, 0, 1, 9, 3, 4]] := by decide +kernel

/-- C75 is violated by maps that do not divide the bitmap: nine columns of pixels for two columns of images are three images,
the last of which is mostly outside. -/
theorem C75_map_uneven :
    (asmBitmap (b! "#define __BM_MAP 2x1\nimg:\n#include \"i.bmp\"\n .db img_width,img_count\n") picture.bytes).state.log =
      [.wrote (b! "a.bin") [0, 0xF0, 0xF0, 0, 0x80, 0, 4, 3]] := by decide +kernel

/-- C75 is violated by a semicolon between the numbers, which the source of the program expects: the text ends there, and the
program divides by zero. -/
theorem C75_map_semicolon :
    (match asmBitmap (b! "#define __BM_MAP 2;1\n#include \"i.bmp\"\n") picture.bytes with
     | .stop (.ub .divByZero) _ => true
     | _ => false) = true := by decide +kernel

end Spasm.Props
