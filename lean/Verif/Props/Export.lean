import Verif.Lemmas.Prgm
import Verif.Spec.Run

/-
C31 to C37: output files. `writeFile` is the exporter called at the end of a run, in a state whose output
buffer holds the program; `md5` is any hash function.
-/

namespace Spasm.Props
open Spasm Spec

/-- A state in which the given bytes were assembled; for examples. -/
def assembled (bytes : List Nat) : S := { outPtr := bytes.length, mem := fun i => bytes.getD i 0 }

theorem good_assembled (bytes : List Nat) (h : bytes.length ≤ 8000000) (hb : ∀ b ∈ bytes, b < 256) :
    GoodOutput (assembled bytes) := by
  refine ⟨Int.natCast_nonneg _, by simp only [assembled]; omega, ?_⟩
  intro i
  by_cases hi : i < bytes.length
  · simp only [assembled, List.getD_eq_getElem?_getD, List.getElem?_eq_getElem hi, Option.getD_some]
    exact hb _ (List.getElem_mem hi)
  · simp only [assembled, List.getD_eq_getElem?_getD, List.getElem?_eq_none (Nat.le_of_not_lt hi), Option.getD_none]
    omega

theorem hasExt_dot (stem e ext : Str) (h : stem ≠ []) (h' : 46 ∉ e) (h2 : e.map toLower = ext.map toLower) :
    HasExt (stem ++ 46 :: e) ext := ⟨stem, e, h, rfl, h', h2⟩

theorem writes_unique {r : Res Unit} {name : Str} {f g : List Nat} (h : Writes r name f) (h' : Writes r name g) :
    f = g := by
  obtain ⟨s1, e1, h1, l1⟩ := h
  obtain ⟨s2, e2, h2, l2⟩ := h'
  rw [h1] at h2
  cases h2
  rw [l1] at l2
  have := List.append_inj_right' l2 rfl
  cases this; rfl

/-! ### C31 -/

/-- A .hex file decodes to exactly the program, at 4000h.. of consecutive pages, and every record sums to 0
(the reader checks it), for programs of up to 256 pages. -/
theorem C31_hex_file (md5 : List Nat → List Nat) (name : Str) (s : S) (hn : HasExt name (b! "HEX")) (hg : GoodOutput s)
    (hl : s.outPtr ≤ 4194304) :
    ∃ file, Writes (writeFile md5 name s) name file ∧ readHex file = some (placed (image s)) := by
  refine writes_of_quiet md5 name .hex s _ (calcOf_ext name (b! "HEX", .hex) (by decide) hn) hg ?_
  refine .pure _ ?_
  rw [readHex_intelHex _ (bytes_image s hg), if_pos (by rw [length_image]; omega)]

/-- The text inside an application file decodes to an image whose first bytes are the program, but for the
four length bytes and the page byte of its header, and whose last 96 bytes are the signature. -/
theorem C31_app_file (md5 : List Nat → List Nat) (name : Str) (s : S) (hn : HasExt name (b! "8XK")) (hg : GoodOutput s)
    (hl : s.outPtr ≤ 4194208) (file : List Nat) (hw : Writes (writeFile md5 name s) name file) (hne : file ≠ []) :
    ∃ app page, readHex (file.drop 78) = some (placed app) ∧ app.length = (image s).length + 96 ∧
      ∀ i, 6 ≤ i → i ≠ page → i < (image s).length → app[i]? = (image s)[i]? := by
  obtain ⟨file', hw', h⟩ := writes_of_quiet md5 name .t8XK s _ (calcOf_ext name (b! "8XK", .t8XK) (by decide) hn) hg
    (quiet_makeApp md5 (image s) (bytes_image s hg))
  have := writes_unique hw hw'
  subst this
  rcases h with rfl | ⟨b, pages, nm, q, sig, hp, hs, hsb, -, rfl⟩
  · exact absurd rfl hne
  have hlen := length_image s
  have htl : (b.take (image s).length).length = (image s).length := by rw [List.length_take, hp.length]; omega
  refine ⟨b.take (image s).length ++ sig, q, ?_, ?_, ?_⟩
  · rw [List.drop_left' (length_header8xk _ _ hp.nameLen), readHex_intelHex, if_pos]
    · rw [List.length_append, htl, hs]; omega
    · intro x hx
      rcases List.mem_append.mp hx with hx | hx
      · exact hp.bytesOk x (List.mem_of_mem_take hx)
      · exact hsb x hx
  · rw [List.length_append, htl, hs]
  · intro i h6 hne hi
    rw [List.getElem?_append_left (by omega), List.getElem?_take, if_pos hi, hp.same i h6 hne hi]

/-- Above 256 pages the text has a record whose bytes do not sum to 0: it cannot be decoded. -/
theorem C31_too_large (md5 : List Nat → List Nat) (name : Str) (s : S) (hn : HasExt name (b! "HEX")) (hg : GoodOutput s)
    (hl : 4194304 < s.outPtr) :
    ∃ file, Writes (writeFile md5 name s) name file ∧ readHex file = none := by
  refine writes_of_quiet md5 name .hex s _ (calcOf_ext name (b! "HEX", .hex) (by decide) hn) hg ?_
  refine .pure _ ?_
  rw [readHex_intelHex _ (bytes_image s hg), if_neg (by rw [length_image]; omega)]

example : HasExt (b! "dir/prog.hex") (b! "HEX") := hasExt_dot (b! "dir/prog") (b! "hex") _ (by decide) (by decide) (by decide)
example : GoodOutput (assembled (List.range 40)) ∧ (assembled (List.range 40)).outPtr ≤ 4194304 :=
  ⟨good_assembled _ (by simp) (by intro b hb; have := List.mem_range.mp hb; omega), by decide⟩
example : readHex (intelHex [0xC9, 0xFF]) = some [⟨0, 0x4000, 0xC9⟩, ⟨0, 0x4001, 0xFF⟩] := by decide +kernel
example : readHex (b! ":02000002000100\r\n:00000001FF") = none := by decide +kernel

/-! ### C32, C37 -/

/-- C37: exporting an application always ends normally: no header search, patch or signature leaves the buffer
(an access outside it would be the outcome `ub`). -/
theorem C37_memory_safe (md5 : List Nat → List Nat) (name : Str) (s : S) (hn : HasExt name (b! "8XK"))
    (hg : GoodOutput s) : ∃ file, Writes (writeFile md5 name s) name file := by
  obtain ⟨file, h, _⟩ := writes_of_quiet md5 name .t8XK s _ (calcOf_ext name (b! "8XK", .t8XK) (by decide) hn) hg
    (quiet_makeApp md5 (image s) (bytes_image s hg))
  exact ⟨file, h⟩

/-- A header that makes the search run to the last byte of the program and beyond. -/
example : ∃ file, Writes (writeFile (fun _ => []) (b! "a.8xk") (assembled [0x80, 0x0F, 0, 0, 0, 0, 0x80, 0x1F]))
    (b! "a.8xk") file :=
  C37_memory_safe _ _ _ (hasExt_dot (b! "a") (b! "8xk") _ (by decide) (by decide) (by decide))
    (good_assembled _ (by decide) (by decide))

/-- C32: in an accepted application file (78 bytes of header, then the hex text) the length field is the
length of the text, and the page byte of the application is the number of pages the text fills.
Missing from the full statement: programs of 16289 to 16384 bytes, for which it is false (see
`C32_one_page_boundary`), and programs above 255 pages, whose page count does not fit the byte. -/
theorem C32_lengths_partial (md5 : List Nat → List Nat) (name : Str) (s : S) (hn : HasExt name (b! "8XK"))
    (hg : GoodOutput s) (file : List Nat) (hw : Writes (writeFile md5 name s) name file) (hne : file ≠ [])
    (hl : s.outPtr ≤ 4177824) (hsz : s.outPtr ≤ 16288 ∨ 16384 < s.outPtr)
    (x : Nat) (rest : List Nat) (hfield : appField 0x81 (image s) = some (x :: rest)) :
    dword file 74 = (file.drop 78).length ∧
    ∃ app rest', readHex (file.drop 78) = some (placed app) ∧
      appField 0x81 app = some (pagesOf app.length :: rest') := by
  obtain ⟨file', hw', h⟩ := writes_of_quiet md5 name .t8XK s _ (calcOf_ext name (b! "8XK", .t8XK) (by decide) hn) hg
    (quiet_makeApp md5 (image s) (bytes_image s hg))
  have := writes_unique hw hw'
  subst this
  rcases h with rfl | ⟨b, pages, nm, q, sig, hp, hs, hsb, -, rfl⟩
  · exact absurd rfl hne
  have hlen := length_image s
  have hg0 := hg.1
  have htl : (b.take (image s).length).length = (image s).length := by rw [List.length_take, hp.length]; omega
  have hal : (b.take (image s).length ++ sig).length = (image s).length + 96 := by
    rw [List.length_append, htl, hs]
  have hpages : pages = pagesOf ((image s).length + 96) := by
    have hroom := hp.room
    rw [hp.pagesEq]
    unfold appPages pagesOf
    have hL : (image s).length ≤ 16288 ∨ 16384 < (image s).length := by omega
    have h0 : 8 ≤ (image s).length := by have := hp.field; omega
    generalize (image s).length = L at *
    split <;> omega
  have hsmall : pagesOf ((image s).length + 96) ≤ 255 := by unfold pagesOf; omega
  refine ⟨?_, b.take (image s).length ++ sig, (b.take (image s).length ++ sig).drop (q + 1), ?_, ?_⟩
  · rw [header8xk_len _ _ hp.nameLen, List.drop_left' (length_header8xk _ _ hp.nameLen), length_intelHex, hal, hpages]
    · unfold appHexLength recChars; omega
    · rw [hal]; omega
    · unfold appHexLength; rw [hpages]; split <;> omega
  · rw [List.drop_left' (length_header8xk _ _ hp.nameLen), readHex_intelHex, if_pos]
    · rw [hal]; omega
    · intro x hx
      rcases List.mem_append.mp hx with hx | hx
      · exact hp.bytesOk x (List.mem_of_mem_take hx)
      · exact hsb x hx
  · have hq := hp.field
    have h1 : appField 0x81 (image s) = some ((image s).drop q) := by
      apply hp.found (image s) (image s).length
      · intro i h6 hi
        exact (hp.same i h6 (by omega) (by omega)).symm
      · omega
    have hqL : q < (image s).length := by
      apply Nat.lt_of_not_le
      intro hle
      rw [List.drop_eq_nil_of_le hle, hfield] at h1
      cases h1
    have h2 : appField 0x81 (b.take (image s).length ++ sig) = some ((b.take (image s).length ++ sig).drop q) := by
      unfold appField
      apply hp.found
      · intro i h6 hi
        rw [List.getElem?_append_left (by omega), List.getElem?_take, if_pos (by omega)]
      · omega
    rw [h2]
    have h3 : (b.take (image s).length ++ sig)[q]? = some (pages % 256) := by
      rw [List.getElem?_append_left (by omega), List.getElem?_take, if_pos hqL, hp.page]
    obtain ⟨l, g⟩ := List.getElem?_eq_some_iff.mp h3
    rw [List.drop_eq_getElem_cons l, g, hal]
    congr 2
    omega

/-- For programs of 16289 to 16384 bytes the signature starts a second page that is counted nowhere: the length
field is too small by 17 and the page byte is 1. -/
theorem C32_one_page_boundary (md5 : List Nat → List Nat) (name : Str) (s : S) (hn : HasExt name (b! "8XK"))
    (hg : GoodOutput s) (file : List Nat) (hw : Writes (writeFile md5 name s) name file) (hne : file ≠ [])
    (hsz : 16288 < s.outPtr ∧ s.outPtr ≤ 16384) :
    dword file 74 + 17 = (file.drop 78).length ∧ dword file 74 ≠ (file.drop 78).length := by
  obtain ⟨file', hw', h⟩ := writes_of_quiet md5 name .t8XK s _ (calcOf_ext name (b! "8XK", .t8XK) (by decide) hn) hg
    (quiet_makeApp md5 (image s) (bytes_image s hg))
  have := writes_unique hw hw'
  subst this
  rcases h with rfl | ⟨b, pages, nm, q, sig, hp, hs, hsb, -, rfl⟩
  · exact absurd rfl hne
  have hlen := length_image s
  have htl : (b.take (image s).length).length = (image s).length := by rw [List.length_take, hp.length]; omega
  have hal : (b.take (image s).length ++ sig).length = (image s).length + 96 := by
    rw [List.length_append, htl, hs]
  have hpages : pages = 1 := by
    rw [hp.pagesEq]; unfold appPages; split <;> omega
  have h2 : pagesOf ((image s).length + 96) = 2 := by unfold pagesOf; omega
  have : dword (header8xk nm (appHexLength ((image s).length + 96) pages) ++
      intelHex (b.take (image s).length ++ sig)) 74 + 17 =
      ((header8xk nm (appHexLength ((image s).length + 96) pages) ++
      intelHex (b.take (image s).length ++ sig)).drop 78).length := by
    rw [header8xk_len _ _ hp.nameLen, List.drop_left' (length_header8xk _ _ hp.nameLen), length_intelHex, hal, hpages, h2]
    · unfold appHexLength recChars; omega
    · rw [hal]; omega
    · unfold appHexLength; rw [hpages]; split <;> omega
  exact ⟨this, by omega⟩

/-- Acceptance does not depend on the signature, so it can be evaluated. -/
theorem accepted (md5 : List Nat → List Nat) (name : Str) (s : S) (hn : HasExt name (b! "8XK")) (hg : GoodOutput s)
    (h : returns (patchApp (image s) (exporting s)) (fun r _ => r.isSome) = true) (file : List Nat)
    (hw : Writes (writeFile md5 name s) name file) : file ≠ [] := by
  obtain ⟨r, s', e, hr⟩ := returns_elim h
  obtain ⟨⟨b, pages, nm⟩, rfl⟩ := Option.isSome_iff_exists.mp hr
  obtain ⟨s2, evs, e2, l2⟩ := hw
  rw [writeFile_eq md5 name .t8XK s (calcOf_ext name (b! "8XK", .t8XK) (by decide) hn) hg.1 hg.2.1] at e2
  have e' : (patchApp (image s) : M _) (exporting s) = .ok (some (b, pages, nm)) s' := e
  have : fileOf md5 .t8XK name s.mem (image s) = makeApp md5 (image s) := rfl
  rw [this] at e2
  have hs := length_siggen (md5 (b.take (image s).length))
  have e3 : makeApp md5 (image s) (exporting s) = .ok (header8xk nm (appHexLength
      (b.take (image s).length ++ sigBlock (siggen (md5 (b.take (image s).length))).1
        (siggen (md5 (b.take (image s).length))).2).length pages) ++ intelHex
      (b.take (image s).length ++ sigBlock (siggen (md5 (b.take (image s).length))).1
        (siggen (md5 (b.take (image s).length))).2)) s' := by
    unfold makeApp
    rw [M.bind_ok e']
    dsimp only
    rw [if_neg (by omega)]
    rfl
  rw [M.bind_ok e3] at e2
  simp only [M.modify_apply] at e2
  cases e2
  have := List.append_inj_right' l2 rfl
  intro hnil
  subst hnil
  simp [header8xk] at this

/-- A small application: length, type 0104, pages and name fields. -/
def sampleApp : List Nat := [0x80, 0x0F, 0, 0, 0, 0, 0x80, 0x12, 1, 4, 0x80, 0x81, 0, 0x80, 0x43, 65, 66, 67, 0xC9]

example (md5 : List Nat → List Nat) : ∃ file,
    Writes (writeFile md5 (b! "x.8xk") (assembled sampleApp)) (b! "x.8xk") file ∧
    dword file 74 = (file.drop 78).length ∧ file ≠ [] := by
  have hn : HasExt (b! "x.8xk") (b! "8XK") := hasExt_dot (b! "x") (b! "8xk") _ (by decide) (by decide) (by decide)
  have hg := good_assembled sampleApp (by decide) (by decide)
  obtain ⟨file, hw⟩ := C37_memory_safe md5 _ _ hn hg
  have ha := accepted md5 _ _ hn hg (by decide +kernel) file hw
  exact ⟨file, hw, (C32_lengths_partial md5 _ _ hn hg file hw ha (by decide) (.inl (by decide)) 0
    [0x80, 0x43, 65, 66, 67, 0xC9] (by decide +kernel)).1, ha⟩

/-! ### C33 -/

theorem programExts_mem : ∀ ext ∈ programExts, ∃ p ∈ extensions, p.1 = ext ∧ p.2.isPrgm = true := by decide

/-- Every calculator program file ends with the checksum of its bytes after the header. -/
theorem C33_checksum (md5 : List Nat → List Nat) (name : Str) (ext : Str) (hx : ext ∈ programExts) (s : S)
    (hn : HasExt name ext) (hg : GoodOutput s) :
    ∃ file, Writes (writeFile md5 name s) name file ∧ ChecksumOk file := by
  obtain ⟨p, hp, rfl, hc⟩ := programExts_mem ext hx
  obtain ⟨stem, e, hs, he1, he2, he3⟩ := hn
  refine ⟨_, writes_prgm md5 name stem p s hp hc hs e he2 he3 he1 hg, ?_⟩
  obtain ⟨H, c0, k0, k1, hH, eq, hsum, hk0, hk1⟩ := prgmBytes_split p.2 (prgmName p.2 stem).1 (image s)
  refine ⟨_, _, k0, k1, eq, ?_, hk0, hk1, hsum⟩
  rw [List.length_append, hH, List.length_map, length_fixedHeader _ hc]
  rfl

example : HasExt (b! "GAME.8XP") (b! "8XP") ∧ (b! "8XP") ∈ programExts :=
  ⟨hasExt_dot (b! "GAME") (b! "8XP") _ (by decide) (by decide) (by decide), by decide⟩
example : ∃ file, Writes (writeFile (fun _ => []) (b! "GAME.8xp") (assembled [0xBB, 0x6D, 0xC9])) (b! "GAME.8xp") file ∧
    ChecksumOk file :=
  C33_checksum _ _ (b! "8XP") (by decide) _ (hasExt_dot (b! "GAME") (b! "8xp") _ (by decide) (by decide) (by decide))
    (good_assembled _ (by decide) (by decide))

/-! ### C34 -/

theorem fieldsAgree_of (ct : Calc) (name : Str) (bytes : List Nat) (hc : ct.isPrgm = true) (p : Nat)
    (hp : p = 59 + (nameField ct name).length) (hl : (prgmBytes ct name bytes).length ≤ 65592)
    (hd : dataSize ct name bytes.length = p - 53 + varSize ct bytes.length) :
    FieldsAgree (prgmBytes ct name bytes) p := by
  obtain ⟨h1, h2, h3, h4, h5⟩ := prgmBytes_words ct name bytes hc p hp
  have hv := varSize_pos ct bytes.length
  have w1 := byteOf_word (dataSize ct name bytes.length) (by omega) (by omega)
  have w2 := byteOf_word (varSize ct bytes.length) (by omega) (by omega)
  have w3 := byteOf_word (varSize ct bytes.length - 2) (by omega) (by omega)
  rw [← h2] at w1
  rw [← h3] at w2
  rw [← h5] at w3
  rw [← h3] at h4
  constructor <;> omega

theorem lengthAt_mem : ∀ q ∈ lengthAt, ∃ p ∈ extensions, p.1 = q.1 ∧ p.2.isPrgm = true ∧ p.2 ≠ .t85P ∧ p.2 ≠ .t85S ∧
    p.2 ≠ .t86S ∧ q.2 = 59 + ((if p.2.ix ≥ 5 then 2 else 1) + 8 + (if p.2 = .t8XP ∨ p.2 = .t8XV then 2 else 0)) := by
  decide

/-- The length fields of a program file for the TI-73, 82, 83, 83+ (programs and variables) and 86 agree with
its contents when they fit 16 bits. Missing: TI-85 programs (`C34_ti85_partial`), and 85S and 86S files, for which
the claim is false (`C34_86S`, `C34_85S`). -/
theorem C34_lengths_partial (md5 : List Nat → List Nat) (name : Str) (q : Str × Nat) (hx : q ∈ lengthAt) (s : S)
    (hn : HasExt name q.1) (hg : GoodOutput s) :
    ∃ file, Writes (writeFile md5 name s) name file ∧ (file.length ≤ 65592 → FieldsAgree file q.2) := by
  obtain ⟨p, hp, h1, hc, n1, n2, n3, hq⟩ := lengthAt_mem q hx
  obtain ⟨stem, e, hs, he1, he2, he3⟩ := hn
  refine ⟨_, writes_prgm md5 name stem p s hp hc hs e he2 (by rw [h1]; exact he3) he1 hg, fun hl => ?_⟩
  have hnf := length_nameField p.2 (prgmName p.2 stem).1
  rw [if_neg (show ¬ (p.2 = .t85P ∨ p.2 = .t85S) by simp [n1, n2])] at hnf
  refine fieldsAgree_of _ _ _ hc q.2 (by rw [hnf, hq]) hl ?_
  rw [hq]
  unfold dataSize
  rw [if_neg n1]
  revert n1 n2 n3 hc
  generalize p.2 = ct
  cases ct <;> simp [Calc.ix, Calc.isPrgm] <;> omega

example : ∃ file, Writes (writeFile (fun _ => []) (b! "GAME.8xp") (assembled [0xBB, 0x6D, 0xC9])) (b! "GAME.8xp") file ∧
    (file.length ≤ 65592 → FieldsAgree file 70) :=
  C34_lengths_partial _ _ (b! "8XP", 70) (by decide) _
    (hasExt_dot (b! "GAME") (b! "8xp") _ (by decide) (by decide) (by decide)) (good_assembled _ (by decide) (by decide))
example : (prgmBytes .t8XP (b! "GAME") [0xBB, 0x6D, 0xC9]).length = 79 := by decide +kernel

theorem progBase_plain (stem : Str) (h : ∀ c ∈ stem, c ≠ 47 ∧ c ≠ 92) : progBase stem = stem := by
  cases stem with
  | nil => rfl
  | cons c t =>
    unfold progBase
    dsimp only
    rw [if_neg]
    intro hany
    obtain ⟨d, hd, h2⟩ := List.any_eq_true.mp hany
    have := h d (by simp [hd])
    simp at h2
    omega

/-- TI-85 programs with a name of at most eight characters and no directory. Missing: longer names, for which
the claim is false (`C34_ti85_long_name`). -/
theorem C34_ti85_partial (md5 : List Nat → List Nat) (stem e : Str) (s : S) (hs : stem ≠ []) (hs8 : stem.length ≤ 8)
    (hplain : ∀ c ∈ stem, c ≠ 47 ∧ c ≠ 92) (he : 46 ∉ e) (he' : e.map toLower = (b! "85P").map toLower)
    (hg : GoodOutput s) :
    ∃ file, Writes (writeFile md5 (stem ++ 46 :: e) s) (stem ++ 46 :: e) file ∧
      (file.length ≤ 65592 → FieldsAgree file (61 + stem.length)) := by
  refine ⟨_, writes_prgm md5 _ stem (b! "85P", .t85P) s (by decide) rfl hs e he he' rfl hg, fun hl => ?_⟩
  have hname : (prgmName .t85P stem).1 = stem := by
    unfold prgmName; simp [Calc.ix, progBase_plain stem hplain]
  dsimp only at hl ⊢
  rw [hname] at hl ⊢
  have hnf := length_nameField .t85P stem
  simp [Calc.ix] at hnf
  refine fieldsAgree_of _ _ _ rfl _ (by rw [hnf]; omega) hl ?_
  unfold dataSize
  rw [if_pos rfl]
  omega

/-- With a longer name the first length field counts the whole name although eight characters are stored. -/
theorem C34_ti85_long_name (md5 : List Nat → List Nat) (stem e : Str) (s : S) (hs8 : 8 < stem.length)
    (hplain : ∀ c ∈ stem, c ≠ 47 ∧ c ≠ 92) (he : 46 ∉ e) (he' : e.map toLower = (b! "85P").map toLower)
    (hg : GoodOutput s) :
    ∃ file, Writes (writeFile md5 (stem ++ 46 :: e) s) (stem ++ 46 :: e) file ∧
      (file.length + stem.length ≤ 65592 → word file 53 + 57 ≠ file.length) := by
  refine ⟨_, writes_prgm md5 _ stem (b! "85P", .t85P) s (by decide) rfl (by intro h; simp [h] at hs8) e he he' rfl hg,
    fun hl => ?_⟩
  have hname : (prgmName .t85P stem).1 = stem := by
    unfold prgmName; simp [Calc.ix, progBase_plain stem hplain]
  dsimp only at hl ⊢
  rw [hname] at hl ⊢
  have hnf := length_nameField .t85P stem
  simp [Calc.ix] at hnf
  obtain ⟨h1, h2, -⟩ := prgmBytes_words .t85P stem (image s) rfl _ rfl
  have hv := varSize_pos .t85P (image s).length
  have hd : dataSize .t85P stem (image s).length = varSize .t85P (image s).length + 8 + stem.length := rfl
  have w1 := byteOf_word (dataSize .t85P stem (image s).length) (by omega) (by omega)
  rw [← h2] at w1
  omega

/-- The first length field of every 86S file is too small by one. -/
theorem C34_86S (md5 : List Nat → List Nat) (name : Str) (s : S) (hn : HasExt name (b! "86S")) (hg : GoodOutput s) :
    ∃ file, Writes (writeFile md5 name s) name file ∧
      (file.length ≤ 65592 → word file 53 + 1 + 57 = file.length ∧ word file 53 + 57 ≠ file.length) := by
  obtain ⟨stem, e, hs, he1, he2, he3⟩ := hn
  refine ⟨_, writes_prgm md5 name stem (b! "86S", .t86S) s (by decide) rfl hs e he2 he3 he1 hg, fun hl => ?_⟩
  dsimp only at hl ⊢
  generalize (prgmName .t86S stem).1 = nm at *
  have hnf := length_nameField .t86S nm
  simp [Calc.ix] at hnf
  obtain ⟨h1, h2, -⟩ := prgmBytes_words .t86S nm (image s) rfl _ rfl
  have hv := varSize_pos .t86S (image s).length
  have hd : dataSize .t86S nm (image s).length = varSize .t86S (image s).length + 15 + 0 + 0 := rfl
  have w1 := byteOf_word (dataSize .t86S nm (image s).length) (by omega) (by omega)
  rw [← h2] at w1
  omega

/-- The first length field of an 85S file is right only if the name has seven characters. -/
theorem C34_85S (md5 : List Nat → List Nat) (stem e : Str) (s : S) (hs : stem ≠ []) (hs7 : stem.length ≠ 7)
    (hplain : ∀ c ∈ stem, c ≠ 47 ∧ c ≠ 92) (he : 46 ∉ e) (he' : e.map toLower = (b! "85S").map toLower)
    (hg : GoodOutput s) :
    ∃ file, Writes (writeFile md5 (stem ++ 46 :: e) s) (stem ++ 46 :: e) file ∧
      (file.length ≤ 65580 → word file 53 + 57 ≠ file.length) := by
  refine ⟨_, writes_prgm md5 _ stem (b! "85S", .t85S) s (by decide) rfl hs e he he' rfl hg, fun hl => ?_⟩
  have hname : (prgmName .t85S stem).1 = stem := by
    unfold prgmName; simp [Calc.ix, progBase_plain stem hplain]
  dsimp only at hl ⊢
  rw [hname] at hl ⊢
  have hnf := length_nameField .t85S stem
  simp [Calc.ix] at hnf
  obtain ⟨h1, h2, -⟩ := prgmBytes_words .t85S stem (image s) rfl _ rfl
  have hv := varSize_pos .t85S (image s).length
  have hd : dataSize .t85S stem (image s).length = varSize .t85S (image s).length + 15 + 0 + 0 := rfl
  have w1 := byteOf_word (dataSize .t85S stem (image s).length) (by omega) (by omega)
  rw [← h2] at w1
  omega

example : ∃ file, Writes (writeFile (fun _ => []) (b! "GAME.86s") (assembled [1, 2, 3])) (b! "GAME.86s") file ∧
    (file.length ≤ 65592 → word file 53 + 1 + 57 = file.length ∧ word file 53 + 57 ≠ file.length) :=
  C34_86S _ _ _ (hasExt_dot (b! "GAME") (b! "86s") _ (by decide) (by decide) (by decide)) (good_assembled _ (by decide) (by decide))

/-! ### C35 -/

/-- The body of a TI-83 program, from offset 72 to the nine bytes of the trailer and the checksum, is the
hexadecimal text of the program. -/
theorem C35_squished (md5 : List Nat → List Nat) (name : Str) (s : S) (hn : HasExt name (b! "83P"))
    (hg : GoodOutput s) :
    ∃ file, Writes (writeFile md5 name s) name file ∧ file.length = 72 + 2 * (image s).length + 9 + 2 ∧
      hexText ((file.drop 72).take (2 * (image s).length)) = some (image s) ∧
      ((file.drop 72).drop (2 * (image s).length)).take 9 = [0x3f, 0xd4, 0x3f, 0x30, 0x30, 0x30, 0x30, 0x3f, 0xd4] := by
  obtain ⟨stem, e, hs, he1, he2, he3⟩ := hn
  refine ⟨_, writes_prgm md5 name stem (b! "83P", .t83P) s (by decide) rfl hs e he2 he3 he1 hg, ?_⟩
  dsimp only
  generalize (prgmName .t83P stem).1 = nm at *
  have hnf := length_nameField .t83P nm
  simp [Calc.ix] at hnf
  obtain ⟨H, c0, k0, k1, hH, eq, -⟩ := prgmBytes_split .t83P nm (image s)
  have hHl : H.length = 53 := by rw [hH, List.length_map, length_fixedHeader _ rfl]
  have hcnt : ∀ l : List Nat, (∀ b ∈ l, b < 256) → (l.map (fun b : Nat => cnt b)).map (·.1) = l := by
    intro l hl
    induction l with
    | nil => rfl
    | cons b t ih =>
      simp only [List.map_cons, ih (fun x hx => hl x (by simp [hx]))]
      have := hl b (by simp)
      congr 1
      unfold cnt; dsimp only; omega
  have hbody : (prgmBody .t83P (image s)).map (·.1) = (image s).flatMap hexByte ++ trailer83 := by
    have h83 : ∀ l : List Nat, ∀ b ∈ l.flatMap hexByte, b < 256 := by
      intro l b hb
      obtain ⟨x, _, hx⟩ := List.mem_flatMap.mp hb
      simp only [hexByte, List.mem_cons, List.not_mem_nil, or_false, hexDigit] at hx
      rcases hx with rfl | rfl <;> split <;> omega
    unfold prgmBody
    simp only [reduceCtorEq, if_false, if_true, List.nil_append, List.map_append]
    rw [hcnt _ (h83 _), hcnt trailer83 (by decide)]
  rw [eq, hbody]
  generalize byteOf (dataSize .t83P nm (image s).length) = d0
  generalize byteOf (dataSize .t83P nm (image s).length / 256) = d1
  generalize byteOf (varSize .t83P (image s).length) = v0
  generalize byteOf (varSize .t83P (image s).length / 256) = v1
  generalize byteOf (varSize .t83P (image s).length - 2) = w0
  generalize byteOf ((varSize .t83P (image s).length - 2) / 256) = w1
  have hnl : ((nameField .t83P nm).map (·.1)).length = 9 := by rw [List.length_map, hnf]
  generalize ((nameField .t83P nm).map (·.1)) = N at *
  have hx := length_flatMap_hexByte (image s)
  have hform : H ++ [d0, d1] ++ ([c0, 0, v0, v1] ++ N ++ [v0, v1, w0, w1] ++ ((image s).flatMap hexByte ++ trailer83)) ++
      [k0, k1] = (H ++ [d0, d1, c0, 0, v0, v1] ++ N ++ [v0, v1, w0, w1]) ++
      ((image s).flatMap hexByte ++ (trailer83 ++ [k0, k1])) := by
    simp only [List.append_assoc, List.cons_append, List.nil_append]
  rw [hform]
  have hA : (H ++ [d0, d1, c0, 0, v0, v1] ++ N ++ [v0, v1, w0, w1]).length = 72 := by simp; omega
  refine ⟨?_, ?_, ?_⟩
  · rw [List.length_append, hA, List.length_append, hx]; simp [trailer83]; omega
  · rw [List.drop_left' hA, List.take_left' hx, hexText_all _ (bytes_image s hg)]
  · rw [List.drop_left' hA, List.drop_left' hx]; rfl

example : GoodOutput (assembled [0xEF, 0x01]) := good_assembled _ (by decide) (by decide)
example : ((prgmBytes .t83P (b! "A") [0xEF, 0x01]).drop 72).take 4 = b! "EF01" := by decide +kernel

/-! ### C36 -/

/-- A ROM image is the program and FFh bytes up to 524288 bytes. Missing from the full statement: larger
programs are accepted silently (`C36_oversize_silent`). -/
theorem C36_rom_partial (md5 : List Nat → List Nat) (name : Str) (s : S) (hn : HasExt name (b! "ROM"))
    (hg : GoodOutput s) (hl : s.outPtr ≤ 524288) :
    ∃ file, Writes (writeFile md5 name s) name file ∧ file.length = 524288 ∧
      ∀ i, i < 524288 → file[i]? = if i < (image s).length then (image s)[i]? else some 0xFF := by
  refine writes_of_quiet md5 name .rom s _ (calcOf_ext name (b! "ROM", .rom) (by decide) hn) hg ?_
  refine .pure _ ?_
  have hlen := length_image s
  unfold makeRom
  generalize image s = im at *
  generalize hN : 524288 = N at *
  constructor
  · rw [List.length_append, List.length_replicate]; omega
  · intro i hi
    split
    · rename_i h; rw [List.getElem?_append_left h]
    · rename_i h
      rw [List.getElem?_append_right (by omega), List.getElem?_replicate, if_pos (by omega)]

/-- A program larger than a ROM image is written as it is, without any diagnostic. -/
theorem C36_oversize_silent (md5 : List Nat → List Nat) (name : Str) (s : S) (hn : HasExt name (b! "ROM"))
    (hg : GoodOutput s) (hl : 524288 < s.outPtr) :
    ∃ s', writeFile md5 name s = .ok () s' ∧ s'.log = s.log ++ [.wrote name (image s)] ∧ s'.errors = s.errors ∧
      s'.exitCode = s.exitCode := by
  rw [writeFile_eq md5 name .rom s (calcOf_ext name (b! "ROM", .rom) (by decide) hn) hg.1 hg.2.1]
  have : fileOf md5 .rom name s.mem (image s) = pure (image s) := by
    show pure (makeRom (image s)) = _
    have hlen := length_image s
    have e : 524288 - (image s).length = 0 := by omega
    unfold makeRom
    rw [e, List.replicate_zero, List.append_nil]
  rw [this, M.pure_bind]
  exact ⟨_, rfl, rfl, rfl, rfl⟩

example : HasExt (b! "os.rom") (b! "ROM") := hasExt_dot (b! "os") (b! "rom") _ (by decide) (by decide) (by decide)
example : GoodOutput { outPtr := 600000 : S } := ⟨by decide, by decide, fun _ => by show (0 : Nat) < 256; omega⟩

end Spasm.Props
