import Verif.Lemmas.Text
import Verif.Props.Expr
import Verif.Spec.Export

/-
C39, C40, C41, C43, C44: the text utilities.
-/

namespace Spasm.Props
open Spasm Spasm.Spec

theorem takeWhile_self : ∀ l : List Nat, 0 ∉ l → l.takeWhile (fun c => c != 0) = l
  | [], _ => rfl
  | c :: t, h => by
    have h0 : c ≠ 0 := fun e => h (by simp [e])
    rw [List.takeWhile_cons, if_pos (by simpa using h0), takeWhile_self t (fun e => h (by simp [e]))]

theorem exists_last_dot : ∀ l : List Nat, 46 ∈ l → ∃ a b, l = a ++ 46 :: b ∧ 46 ∉ b
  | c :: t, h => by
    by_cases ht : 46 ∈ t
    · obtain ⟨a, b, rfl, hb⟩ := exists_last_dot t ht
      exact ⟨c :: a, b, rfl, hb⟩
    · have : c = 46 := by
        rcases List.mem_cons.mp h with h | h
        · exact h.symm
        · exact absurd h ht
      subst this
      exact ⟨[], t, rfl, ht⟩

/-! ### C41 -/

/-- C41: the word-at-a-time conversions change exactly the ASCII letters, in byte strings of any length. -/
theorem C41_upper (l : List Nat) (hb : ∀ c ∈ l, c < 256) : modpUpper l = l.map upper := modpUpper_eq l hb
theorem C41_lower (l : List Nat) (hb : ∀ c ∈ l, c < 256) : modpLower l = l.map lower := modpLower_eq l hb
/-- The third conversion of the file, to printable characters. -/
theorem C41_print (l : List Nat) (hb : ∀ c ∈ l, c < 256) : modpPrint l = l.map printable :=
  modpPrint_eq _ l (Nat.le_refl _) hb

example : modpUpper [0x61, 0xE1, 0x7A, 0x7B, 0x60, 0x5A] = [0x41, 0xE1, 0x5A, 0x7B, 0x60, 0x5A] := by decide +kernel
example : modpLower (b! "Az[@Z") = b! "az[@z" := by decide +kernel

/-! ### C40 -/

/-- One operation on an expandable buffer. `explicit` tells whether the caller gives the length of the text or
leaves it to the function; `junk` is what the allocator leaves in new memory. -/
def ebEdit (explicit : Bool) (junk : Nat → Nat) (e : Edit) (b : EBuf) : Option EBuf :=
  match e with
  | .append t => (ebAppend b t (if explicit then some t.length else none) junk).map (·.2)
  | .insert o t => (ebInsert b (some o) t (if explicit then some t.length else none) junk).map (·.2)

/-- A sequence of operations, each with its own choices. -/
def ebEdits : List (Bool × (Nat → Nat) × Edit) → EBuf → Option EBuf
  | [], b => some b
  | (x, j, e) :: es, b => (ebEdit x j e b).bind (ebEdits es)

theorem ebEdit_ok (x : Bool) (j : Nat → Nat) (e : Edit) (b : EBuf) (l : List Nat) (hb : b.len ≤ b.block.length)
    (h : e.apply b.text = some l) : ∃ b', ebEdit x j e b = some b' ∧ b'.len ≤ b'.block.length ∧ b'.text = l := by
  have htl : b.text.length = b.len := by unfold EBuf.text; rw [List.length_take]; omega
  cases e with
  | append t =>
    obtain ⟨r, b', h1, h2, -, h4⟩ := ebInsert_ok b none t (if x then some t.length else none) j hb
      (by simp) (by cases x <;> simp)
    refine ⟨b', ?_, h2, ?_⟩
    · simp only [ebEdit, ebAppend, h1]; rfl
    · simp only [Edit.apply, Option.some.injEq] at h
      rw [h4, ← h]
      simp only [Option.getD_none]
      rw [List.take_of_length_le (by omega), List.drop_eq_nil_of_le (by omega), List.append_nil]
  | insert o t =>
    simp only [Edit.apply] at h
    by_cases ho : o ≤ b.text.length
    · rw [if_pos ho] at h
      obtain ⟨r, b', h1, h2, -, h4⟩ := ebInsert_ok b (some o) t (if x then some t.length else none) j hb
        (by intro o' ho'; cases ho'; omega) (by cases x <;> simp)
      refine ⟨b', ?_, h2, ?_⟩
      · simp only [ebEdit, h1]; rfl
      · rw [h4]; exact Option.some.inj h
    · rw [if_neg ho] at h; cases h

theorem ebEdits_ok : ∀ (ops : List (Bool × (Nat → Nat) × Edit)) (b : EBuf) (l : List Nat), b.len ≤ b.block.length →
    applyAll (ops.map (·.2.2)) b.text = some l → ∃ b', ebEdits ops b = some b' ∧ b'.text = l
  | [], b, l, _, h => ⟨b, rfl, by simpa [applyAll] using h⟩
  | (x, j, e) :: ops, b, l, hb, h => by
    simp only [List.map_cons, applyAll] at h
    cases h1 : e.apply b.text with
    | none => rw [h1] at h; cases h
    | some l' =>
      rw [h1] at h
      obtain ⟨b', h2, h3, h4⟩ := ebEdit_ok x j e b l' hb h1
      obtain ⟨b'', h5, h6⟩ := ebEdits_ok ops b' l h3 (by rw [h4]; exact h)
      exact ⟨b'', by simp only [ebEdits, h2, Option.bind_some, h5], h6⟩

/-- C40: from a fresh buffer of any initial size, every sequence of appends and insertions that makes sense on an
ordinary string ends without a memory error and with that string in the buffer; extracting it gives the string when
it has no NUL. Whatever the allocator leaves in the memory does not matter. -/
theorem C40_buffer (size : Option Nat) (junk : Nat → Nat) (ops : List (Bool × (Nat → Nat) × Edit)) (l : List Nat)
    (h : applyAll (ops.map (·.2.2)) [] = some l) :
    ∃ b, ebEdits ops (ebInit size junk) = some b ∧ b.block.take b.len = l ∧ (0 ∉ l → ebExtract b = l) := by
  obtain ⟨b, h1, h2⟩ := ebEdits_ok ops (ebInit size junk) l (Nat.zero_le _) (by simpa [EBuf.text, ebInit] using h)
  refine ⟨b, h1, h2, ?_⟩
  intro h0
  unfold ebExtract
  have h2' : b.block.take b.len = l := h2
  rw [h2']
  exact takeWhile_self l h0

example : ∃ b, ebEdits [(true, fun _ => 9, .append (b! "abc")), (false, fun i => i, .insert 1 (b! "XY"))]
    (ebInit (some 0) (fun _ => 7)) = some b ∧ b.block.take b.len = b! "aXYbc" := by
  obtain ⟨b, h1, h2, -⟩ := C40_buffer (some 0) (fun _ => 7)
    [(true, fun _ => 9, .append (b! "abc")), (false, fun i => i, .insert 1 (b! "XY"))] (b! "aXYbc") (by decide +kernel)
  exact ⟨b, h1, h2⟩

/-- Erasing is not part of the claim: eb_erase moves only as many bytes as it erases. -/
theorem C40_erase_wrong : ∃ b : EBuf, b.block.take b.len = b! "abcdef" ∧
    (ebErase b 0 1).map (fun b => b.block.take b.len) = some (b! "bbcde") :=
  ⟨⟨b! "abcdef", 6⟩, rfl, by decide +kernel⟩

/-! ### C39 -/

theorem reduceLoop_escaped (n : Nat) : ∀ (t : Str) (s : S) (out : Str) (q : Nat),
    reduceLoop (knot (n + 1)) (t.flatMap (fun c => if c == 34 then [92, 34] else if c == 92 then [92, 92] else [c]) ++ [34])
      out q s =
    .ok (34 :: t.reverse ++ out, q + 1) (if 34 ∈ t ∨ 92 ∈ t then { s with parseDepth := 0, fwdRef := false } else s) := by
  intro t
  induction t with
  | nil => intro s out q; rfl
  | cons c t ih =>
    intro s out q
    have step : ∀ (d : Nat) (v : Int), (d, v) ∈ escapes → (v % 256).toNat = c → (c = 34 ∨ c = 92) →
        reduceLoop (knot (n + 1)) (92 :: d :: (t.flatMap (fun c => if c == 34 then [92, 34] else if c == 92 then [92, 92] else [c]) ++ [34]))
          out q s = .ok (34 :: (c :: t).reverse ++ out, q + 1) { s with parseDepth := 0, fwdRef := false } := by
      intro d v hd hv hc
      rw [reduceLoop]
      simp only [beq_self_eq_true, if_true]
      rw [M.bind_apply, C07_characters s n [39, 92, d, 39] v (.inr ⟨d, hd, rfl⟩)]
      simp only [Option.getD_some, hv]
      rw [ih]
      congr 1
      · simp
      · split <;> rfl
    by_cases h1 : c = 34
    · subst h1
      simp only [List.flatMap_cons, beq_self_eq_true, if_true]
      rw [if_pos (.inl List.mem_cons_self)]
      exact step 34 34 (by decide) (by decide) (.inl rfl)
    by_cases h2 : c = 92
    · subst h2
      rw [if_pos (.inr List.mem_cons_self)]
      exact step 92 92 (by decide) (by decide) (.inr rfl)
    have e : (c :: t).flatMap (fun c => if c == 34 then [92, 34] else if c == 92 then [92, 92] else [c]) ++ [34] =
        c :: (t.flatMap (fun c => if c == 34 then [92, 34] else if c == 92 then [92, 92] else [c]) ++ [34]) := by
      simp [List.flatMap_cons, h1, h2]
    rw [e]
    have hne : ∃ d r, t.flatMap (fun c => if c == 34 then [92, 34] else if c == 92 then [92, 92] else [c]) ++ [34] = d :: r := by
      cases t.flatMap (fun c => if c == 34 then [92, 34] else if c == 92 then [92, 92] else [c]) with
      | nil => exact ⟨_, _, rfl⟩
      | cons a b => exact ⟨_, _, rfl⟩
    obtain ⟨d, r, hdr⟩ := hne
    have h := ih s (c :: out) q
    rw [hdr] at h ⊢
    rw [reduceLoop, if_neg (by simpa using h2), if_neg (by simpa using h1), h]
    congr 1
    · simp
    · have : (34 ∈ c :: t ∨ 92 ∈ c :: t) ↔ (34 ∈ t ∨ 92 ∈ t) := by
        simp only [List.mem_cons]
        constructor
        · rintro ((h | h) | (h | h))
          · exact absurd h.symm h1
          · exact .inl h
          · exact absurd h.symm h2
          · exact .inr h
        · rintro (h | h)
          · exact .inl (.inr h)
          · exact .inr (.inr h)
      simp only [this]

/-- C39: escaping any string and reducing the quoted result gives the string back; nothing else in the state but
the scratch variables of the expression parser changes. -/
theorem C39_round_trip (n : Nat) (t : Str) (h0 : 0 ∉ t) (s : S) :
    ∃ s', reduceString (knot (n + 1)) (escapeString t) s = .ok t s' ∧
      (s' = s ∨ s' = { s with parseDepth := 0, fwdRef := false }) := by
  refine ⟨if 34 ∈ t ∨ 92 ∈ t then { s with parseDepth := 0, fwdRef := false } else s, ?_, by split <;> simp⟩
  unfold reduceString escapeString
  have hne : ∃ d r, t.flatMap (fun c => if c == 34 then [92, 34] else if c == 92 then [92, 92] else [c]) ++ [34] = d :: r := by
    cases t.flatMap (fun c => if c == 34 then [92, 34] else if c == 92 then [92, 92] else [c]) with
    | nil => exact ⟨_, _, rfl⟩
    | cons a b => exact ⟨_, _, rfl⟩
  have hl : reduceLoop (knot (n + 1)) ([34] ++ t.flatMap (fun c => if c == 34 then [92, 34] else if c == 92 then [92, 92] else [c]) ++ [34])
      [] 0 s = .ok (34 :: t.reverse ++ [34], 2) (if 34 ∈ t ∨ 92 ∈ t then { s with parseDepth := 0, fwdRef := false } else s) := by
    have h := reduceLoop_escaped n t s [34] 1
    obtain ⟨d, r, hdr⟩ := hne
    rw [List.append_assoc, hdr, List.singleton_append, reduceLoop, if_neg (by decide), if_pos (by decide), ← hdr, h]
  rw [M.bind_apply, hl]
  have e : (34 :: t.reverse ++ [34] : Str).reverse = 34 :: (t ++ [34]) := by simp
  have htw : (34 :: (t ++ [34]) : Str).takeWhile (fun c => c != 0) = 34 :: (t ++ [34]) := by
    apply takeWhile_self
    simp [h0]
  dsimp only
  rw [e, htw]
  have hr : hd (34 :: (t ++ [34]) : Str).reverse = 34 := by simp [hd]
  rw [hr, if_pos (by simp [hd])]
  show Res.ok _ _ = _
  congr 1
  rw [← List.cons_append, List.dropLast_concat]
  rfl

example (s : S) : ∃ s', reduceString (knot 1) (b! "\"say \\\"hi\\\" \\\\o/\"") s = .ok (b! "say \"hi\" \\o/") s' := by
  obtain ⟨s', h, -⟩ := C39_round_trip 0 (b! "say \"hi\" \\o/") (by decide) s
  exact ⟨s', h⟩

/-! ### C43 -/

theorem changeExtension_splits (path before old ext : Str) (h : Splits path before old) :
    changeExtension path ext = before ++ 46 :: ext := by
  obtain ⟨rfl, h⟩ := h
  unfold changeExtension
  rw [if_pos (by simp)]
  have : ((before ++ 46 :: old).reverse.dropWhile (fun c => c != 46)) = 46 :: before.reverse := by
    rw [List.reverse_append, List.reverse_cons, List.append_assoc, List.dropWhile_append_of_pos]
    · rfl
    · intro c hc
      simp only [bne_iff_ne, ne_eq]
      rintro rfl
      exact h (by simpa using hc)
  rw [this]
  simp

/-- C43: a path with a dot keeps what is before the last dot, a path without one is kept whole, and the new extension
follows. The last dot of the result is the one before the new extension. -/
theorem C43_extension (path ext : Str) :
    (∀ before old, Splits path before old → changeExtension path ext = before ++ 46 :: ext) ∧
    (46 ∉ path → changeExtension path ext = path ++ 46 :: ext) ∧
    (46 ∉ ext → ∃ before, Splits (changeExtension path ext) before ext) := by
  have h2 : 46 ∉ path → changeExtension path ext = path ++ 46 :: ext := by
    intro h
    unfold changeExtension
    rw [if_neg (by simpa using h)]
    simp
  refine ⟨fun before old h => changeExtension_splits path before old ext h, h2, ?_⟩
  intro he
  by_cases h : 46 ∈ path
  · have hx : ∃ before old, Splits path before old := by
      obtain ⟨a, b, rfl, hb⟩ := exists_last_dot path h
      exact ⟨a, b, rfl, hb⟩
    obtain ⟨before, old, hs⟩ := hx
    exact ⟨before, changeExtension_splits path before old ext hs, he⟩
  · exact ⟨path, h2 h, he⟩

example : changeExtension (b! "src/game.v2.asm") (b! "8xp") = b! "src/game.v2.8xp" := by decide
example : changeExtension (b! "game") (b! "bin") = b! "game.bin" := by decide
/-- The last dot may belong to a directory: then the file name itself is lost. -/
theorem C43_directory_dot : changeExtension (b! "v1.2/game") (b! "bin") = b! "v1.bin" := by decide

/-- Path separators are unified: backslashes become slashes and nothing else changes. -/
theorem C43_separators (path : Str) : (fixFilename path).length = path.length ∧
    ∀ i : Nat, (fixFilename path)[i]? = (path[i]?).map (fun c => if c = 92 then 47 else c) := by
  unfold fixFilename
  refine ⟨by simp, fun i => ?_⟩
  rw [List.getElem?_map]
  congr 1
  funext c
  simp

/-! ### C44 -/

/-- C44, for the function through which every source file is read. A file that begins with the mark is read as the
rest of the file, as the same bytes without the mark are; a file that does not begin with it is read unchanged.
Missing from the full statement: that the whole assembly is the same (it cannot be when the program also imports
the file as data), and the cases in which it is false: see `C44_empty` and `C44_prefix`. -/
theorem C44_mark_partial (t : List Nat) (h0 : 0 ∉ t) (hm : ¬ bom <+: t) (hp : ¬ t <+: bom) :
    fileText (bom ++ t) = some t ∧ fileText t = some t := by
  constructor
  · show some (t.takeWhile (fun c => c != 0)) = some t
    rw [takeWhile_self t h0]
  · unfold fileText
    split
    · exact absurd List.nil_prefix hp
    · exact absurd (by decide) hp
    · exact absurd (by decide) hp
    · exact absurd ⟨_, rfl⟩ hm
    · rw [takeWhile_self _ h0]

example : fileText (bom ++ b! " nop") = some (b! " nop") ∧ fileText (b! " nop") = some (b! " nop") :=
  C44_mark_partial (b! " nop") (by decide) (by decide) (by decide)
/-- A file that only starts like a mark is read unchanged. -/
example : fileText [0xEF, 0xBB, 0x41] = some [0xEF, 0xBB, 0x41] :=
  (C44_mark_partial [0xEF, 0xBB, 0x41] (by decide) (by decide) (by decide)).2

/-- An empty file cannot be read at all, an empty file with a mark can. -/
theorem C44_empty : fileText [] = none ∧ fileText bom = some [] := ⟨rfl, rfl⟩
/-- Nor can a file of one or two bytes of the mark. -/
theorem C44_prefix : fileText [0xEF] = none ∧ fileText [0xEF, 0xBB] = none := ⟨rfl, rfl⟩

end Spasm.Props
