import Verif.Model.Export
import Verif.Spec.Hex

/-
Lemmas for C31: the writer of Intel HEX text against the independent reader.
-/

namespace Spasm
open Spec

theorem nibble_hexDigit (d : Nat) (h : d < 16) : nibble (hexDigit d) = some d := by
  unfold hexDigit nibble
  split
  · rw [if_pos (by omega)]; congr 1; omega
  · rw [if_neg (by omega), if_pos (by omega)]; congr 1; omega

theorem hexDigit_ne (d : Nat) (h : d < 16) : hexDigit d ≠ 13 := by
  unfold hexDigit; split <;> omega

theorem hexByte_ne (b : Nat) : ∀ c ∈ hexByte b, c ≠ 13 := by
  intro c hc
  simp only [hexByte, List.mem_cons, List.not_mem_nil, or_false] at hc
  rcases hc with rfl | rfl <;> exact hexDigit_ne _ (by omega)

theorem hexText_hexByte (b : Nat) (h : b < 256) (t : Str) :
    hexText (hexByte b ++ t) = (hexText t).map (b :: ·) := by
  simp only [hexByte, List.cons_append, List.nil_append, hexText]
  rw [nibble_hexDigit _ (by omega), nibble_hexDigit _ (by omega)]
  cases hexText t with
  | none => rfl
  | some r => simp only [Option.map_some]; congr 2; omega

theorem hexText_bytes (bs : List Nat) (h : ∀ b ∈ bs, b < 256) (t : Str) :
    hexText (bs.flatMap hexByte ++ t) = (hexText t).map (bs ++ ·) := by
  induction bs with
  | nil => simp
  | cons b bs ih =>
    rw [List.flatMap_cons, List.append_assoc, hexText_hexByte b (h b (by simp)),
      ih (fun c hc => h c (by simp [hc]))]
    cases hexText t <;> rfl

theorem hexText_all (bs : List Nat) (h : ∀ b ∈ bs, b < 256) : hexText (bs.flatMap hexByte) = some bs := by
  have := hexText_bytes bs h []
  simpa [hexText] using this

theorem fmtHexPad_two (n : Nat) (h : n < 256) : fmtHexPad 2 n = hexByte n := by
  unfold fmtHexPad fmtHex
  by_cases h1 : n < 16
  · have h0 : n / 16 % 16 = 0 := by omega
    have h3 : n % 16 = n := by omega
    simp [hexAux, h1, hexByte, h0, h3, hexDigit]
  · have h0 : n / 16 < 16 := by omega
    have h3 : n / 16 % 16 = n / 16 := by omega
    simp [hexAux, h1, h0, hexByte, h3]

theorem fmtHexPad_four (n : Nat) (h : n < 65536) : fmtHexPad 4 n = hexByte (n / 256) ++ hexByte (n % 256) := by
  have e1 : n / 256 / 16 % 16 = n / 16 / 16 / 16 := by omega
  have e2 : n / 256 % 16 = n / 16 / 16 % 16 := by omega
  have e3 : n % 256 / 16 % 16 = n / 16 % 16 := by omega
  have e4 : n % 256 % 16 = n % 16 := by omega
  simp only [hexByte, e1, e2, e3, e4, List.cons_append, List.nil_append]
  unfold fmtHexPad fmtHex
  by_cases h1 : n < 16
  · have a1 : n / 16 / 16 / 16 = 0 := by omega
    have a2 : n / 16 / 16 % 16 = 0 := by omega
    have a3 : n / 16 % 16 = 0 := by omega
    have a4 : n % 16 = n := by omega
    simp [hexAux, h1, a1, a2, a3, a4, List.replicate, hexDigit]
  by_cases h2 : n / 16 < 16
  · have a1 : n / 16 / 16 / 16 = 0 := by omega
    have a2 : n / 16 / 16 % 16 = 0 := by omega
    have a3 : n / 16 % 16 = n / 16 := by omega
    simp [hexAux, h1, h2, a1, a2, a3, List.replicate, hexDigit]
  by_cases h3 : n / 16 / 16 < 16
  · have a1 : n / 16 / 16 / 16 = 0 := by omega
    have a2 : n / 16 / 16 % 16 = n / 16 / 16 := by omega
    simp only [hexAux, h1, h2, h3, a1, a2, if_true, if_false, List.length_cons, List.length_nil, List.replicate]
    simp [List.replicate, hexDigit]
  · have a1 : n / 16 / 16 / 16 < 16 := by omega
    simp only [hexAux, h1, h2, h3, a1, if_true, if_false, List.length_cons, List.length_nil, List.replicate]
    rfl

theorem crlfLines_line (r t : Str) (h : ∀ c ∈ r, c ≠ 13) : crlfLines (r ++ 13 :: 10 :: t) = r :: crlfLines t := by
  induction r with
  | nil => rfl
  | cons c r ih =>
    have hc : c ≠ 13 := h c (by simp)
    have ih := ih (fun d hd => h d (by simp [hd]))
    rw [List.cons_append, crlfLines.eq_def]
    split
    · rename_i e; cases e
    · rename_i e; injection e with e1 e2; exact absurd e1 hc
    · rename_i e e'
      injection e' with e1 e2
      subst e1 e2
      rw [ih]

theorem crlfLines_last (r : Str) (h : ∀ c ∈ r, c ≠ 13) : crlfLines r = [r] := by
  induction r with
  | nil => rfl
  | cons c r ih =>
    have hc : c ≠ 13 := h c (by simp)
    have ih := ih (fun d hd => h d (by simp [hd]))
    rw [crlfLines.eq_def]
    split
    · rename_i e; cases e
    · rename_i e; injection e with e1 e2; exact absurd e1 hc
    · rename_i e e'
      injection e' with e1 e2
      subst e1 e2
      rw [ih]

/-- A record made of the given bytes. -/
theorem readRecord_bytes (n ah al ty : Nat) (data : List Nat) (chk : Nat) (hn : data.length = n)
    (hb : ∀ b ∈ n :: ah :: al :: ty :: (data ++ [chk]), b < 256) :
    readRecord (58 :: (n :: ah :: al :: ty :: (data ++ [chk])).flatMap hexByte) =
      if (n + ah + al + ty + data.sum + chk) % 256 = 0 then some ⟨256 * ah + al, ty, data⟩ else none := by
  rw [readRecord]
  rw [hexText_all _ hb]
  dsimp only
  have e1 : (data ++ [chk]).length = n + 1 := by simp [hn]
  have e2 : n + ah + al + ty + (data ++ [chk]).sum = n + ah + al + ty + data.sum + chk := by
    simp only [List.sum_append, List.sum_cons, List.sum_nil]; omega
  have e3 : (data ++ [chk]).take n = data := by rw [← hn, List.take_left]
  rw [e1, e2, e3]
  simp

theorem flatMap_ne (bs : List Nat) : ∀ c ∈ bs.flatMap hexByte, c ≠ 13 := by
  intro c hc
  obtain ⟨b, _, h⟩ := List.mem_flatMap.mp hc
  exact hexByte_ne b c h

/-- The characters of a data record as bytes. -/
theorem hexRecord_eq (address : Nat) (data : List Nat) (ha : address < 65536) (hl : data.length < 256) :
    hexRecord address data = (58 :: (data.length :: address / 256 :: address % 256 :: 0 ::
      (data ++ [(256 - (address / 256 + address % 256 + data.sum + data.length) % 256) % 256])).flatMap hexByte)
      ++ [13, 10] := by
  unfold hexRecord
  dsimp only
  rw [fmtHexPad_two _ hl, fmtHexPad_four _ ha, fmtHexPad_two _ (by omega)]
  have e : hexByte 0 = [48, 48] := rfl
  simp only [List.flatMap_cons, List.flatMap_append, List.flatMap_nil, List.append_nil, e, List.append_assoc,
    List.cons_append, List.nil_append]

theorem readRecords_data (page address : Nat) (data : List Nat) (rest : Str) (ha : address < 65536)
    (hl : data.length < 256) (hd : ∀ b ∈ data, b < 256) :
    readRecords page (crlfLines (hexRecord address data ++ rest)) =
      (readRecords page (crlfLines rest)).map (cellsAt page address data ++ ·) := by
  rw [hexRecord_eq address data ha hl, List.append_assoc]
  simp only [List.cons_append, List.nil_append]
  rw [← List.cons_append, crlfLines_line]
  · rw [readRecords, readRecord_bytes _ _ _ _ _ _ rfl, if_pos]
    · dsimp only
      rw [if_neg (by decide), if_neg (by decide), if_pos rfl]
      have : 256 * (address / 256) + address % 256 = address := by omega
      rw [this]
      cases readRecords page (crlfLines rest) <;> rfl
    · omega
    · intro b hb
      simp only [List.mem_cons, List.mem_append, List.not_mem_nil, or_false] at hb
      rcases hb with rfl | rfl | rfl | rfl | hb | rfl
      · exact hl
      · omega
      · omega
      · omega
      · exact hd b hb
      · omega
  · intro c hc
    rcases List.mem_cons.mp hc with rfl | hc
    · decide
    · exact flatMap_ne _ c hc

theorem pageRecord_eq (page : Nat) (h : page < 65536) :
    pageRecord page = (58 :: (2 :: 0 :: 0 :: 2 :: ([page / 256, page % 256] ++
      [(256 - (4 + page) % 256) % 256])).flatMap hexByte) ++ [13, 10] := by
  unfold pageRecord
  rw [fmtHexPad_four _ h, fmtHexPad_two _ (by omega)]
  have e : hexByte 0 = [48, 48] := rfl
  have e2 : hexByte 2 = [48, 50] := rfl
  simp only [List.flatMap_cons, List.flatMap_nil, List.append_nil, e, e2, List.append_assoc,
    List.cons_append, List.nil_append]

theorem readRecords_page (p page : Nat) (rest : Str) (h : page < 65536) :
    readRecords p (crlfLines (pageRecord page ++ rest)) =
      if page < 256 then readRecords page (crlfLines rest) else
      if (page / 256) % 256 = 0 then readRecords page (crlfLines rest) else none := by
  rw [pageRecord_eq page h, List.append_assoc]
  simp only [List.cons_append, List.nil_append]
  rw [← List.cons_append, crlfLines_line]
  · have := readRecord_bytes 2 0 0 2 [page / 256, page % 256] ((256 - (4 + page) % 256) % 256) rfl (by
      intro b hb
      simp only [List.mem_cons, List.mem_append, List.not_mem_nil, or_false] at hb
      rcases hb with rfl | rfl | rfl | rfl | (rfl | rfl) | rfl <;> omega)
    simp only [List.cons_append, List.nil_append] at this
    rw [readRecords, this]
    have hs : [page / 256, page % 256].sum = page / 256 + page % 256 := by simp
    rw [hs]
    by_cases h1 : page < 256
    · rw [if_pos (show (2 + 0 + 0 + 2 + (page / 256 + page % 256) + (256 - (4 + page) % 256) % 256) % 256 = 0 by omega),
        if_pos h1]
      dsimp only
      rw [if_neg (by decide), if_pos rfl]
      congr 1; omega
    · rw [if_neg h1,
        if_neg (show ¬ (2 + 0 + 0 + 2 + (page / 256 + page % 256) + (256 - (4 + page) % 256) % 256) % 256 = 0 by omega),
        if_neg (by omega)]
  · intro c hc
    rcases List.mem_cons.mp hc with rfl | hc
    · decide
    · exact flatMap_ne _ c hc

theorem cellsAt_append (page address : Nat) (as bs : List Nat) :
    cellsAt page address (as ++ bs) = cellsAt page address as ++ cellsAt page (address + as.length) bs := by
  induction as generalizing address with
  | nil => rfl
  | cons a as ih =>
    simp only [List.cons_append, cellsAt, ih, List.length_cons]
    congr 3; omega

theorem readRecords_records (page : Nat) (rest : Str) : ∀ (n address : Nat) (bs : List Nat),
    address + 32 * n ≤ 65536 → (∀ b ∈ bs, b < 256) →
    (hexRecords n address bs).2 = bs.drop (32 * n) ∧
    readRecords page (crlfLines ((hexRecords n address bs).1 ++ rest)) =
      (readRecords page (crlfLines rest)).map (cellsAt page address (bs.take (32 * n)) ++ ·) := by
  intro n
  induction n with
  | zero =>
    intro address bs _ _
    refine ⟨rfl, ?_⟩
    simp only [hexRecords, Nat.mul_zero, List.take_zero, cellsAt, List.nil_append]
    simp
  | succ n ih =>
    intro address bs ha hb
    rw [hexRecords]
    cases bs with
    | nil =>
      refine ⟨by simp, ?_⟩
      simp [cellsAt]
    | cons b t =>
      simp only [List.isEmpty_cons, Bool.false_eq_true, if_false]
      obtain ⟨h1, h2⟩ := ih (address + 32) ((b :: t).drop 32) (by omega) (fun c hc => hb c (List.mem_of_mem_drop hc))
      refine ⟨?_, ?_⟩
      · rw [h1, List.drop_drop]; congr 1; omega
      · rw [List.append_assoc, readRecords_data _ _ _ _ (by omega) (by simp; omega)
          (fun c hc => hb c (List.mem_of_mem_take hc)), h2]
        have e : (b :: t).take (32 * (n + 1)) = (b :: t).take 32 ++ ((b :: t).drop 32).take (32 * n) := by
          rw [← List.take_add]; congr 1; omega
        rw [e, cellsAt_append]
        cases readRecords page (crlfLines rest) with
        | none => rfl
        | some cs =>
          simp only [Option.map_some, List.append_assoc]
          by_cases hl : 32 ≤ (b :: t).length
          · rw [List.length_take, Nat.min_eq_left hl]
          · have : (b :: t).drop 32 = [] := List.drop_eq_nil_of_le (by omega)
            simp [this, cellsAt]

theorem cellsAt_eq (page address : Nat) (bs : List Nat) :
    cellsAt page address bs = (List.range bs.length).map fun i => ⟨page, address + i, bs.getD i 0⟩ := by
  induction bs generalizing address with
  | nil => rfl
  | cons b t ih =>
    rw [cellsAt, ih, List.length_cons, List.range_succ_eq_map, List.map_cons, List.map_map]
    congr 1
    apply List.map_congr_left
    intro i _
    simp only [Function.comp, List.getD_cons_succ]
    congr 1; omega

/-- The image from a page on, with pages of P bytes. -/
def placedFrom (P page : Nat) (bs : List Nat) : List Cell :=
  (List.range bs.length).map fun i => ⟨page + i / P, 0x4000 + i % P, bs.getD i 0⟩

theorem placedFrom_step (P page : Nat) (hP : 0 < P) (bs : List Nat) (h : P ≤ bs.length) :
    placedFrom P page bs = cellsAt page 0x4000 (bs.take P) ++ placedFrom P (page + 1) (bs.drop P) := by
  unfold placedFrom
  rw [cellsAt_eq, List.length_take, Nat.min_eq_left h, List.length_drop]
  obtain ⟨k, e⟩ : ∃ k, bs.length = P + k := ⟨bs.length - P, by omega⟩
  have e' : bs.length - P = k := by omega
  rw [e', e, List.range_add, List.map_append, List.map_map]
  congr 1
  · apply List.map_congr_left
    intro i hi
    have := List.mem_range.mp hi
    rw [Nat.div_eq_of_lt this, Nat.mod_eq_of_lt this, Nat.add_zero]
    congr 1
    simp only [List.getD_eq_getElem?_getD, List.getElem?_take, this, if_true]
  · apply List.map_congr_left
    intro i hi
    simp only [Function.comp, List.getD_eq_getElem?_getD, List.getElem?_drop, Nat.add_div_left _ hP,
      Nat.add_mod_left]
    congr 1; omega

theorem placedFrom_last (P page : Nat) (bs : List Nat) (h : bs.length ≤ P) :
    placedFrom P page bs = cellsAt page 0x4000 bs := by
  unfold placedFrom
  rw [cellsAt_eq]
  apply List.map_congr_left
  intro i hi
  have := List.mem_range.mp hi
  rw [Nat.div_eq_of_lt (by omega), Nat.mod_eq_of_lt (by omega), Nat.add_zero]

theorem hexPages_records (p page : Nat) (rest : Str) (bs : List Nat) (hp : page < 256) (hb : ∀ b ∈ bs, b < 256) :
    (hexRecords 512 0x4000 bs).2 = bs.drop 16384 ∧
    readRecords p (crlfLines (pageRecord page ++ ((hexRecords 512 0x4000 bs).1 ++ rest))) =
      (readRecords page (crlfLines rest)).map (cellsAt page 0x4000 (bs.take 16384) ++ ·) := by
  obtain ⟨h1, h2⟩ := readRecords_records page rest 512 0x4000 bs (by omega) hb
  exact ⟨h1, by rw [readRecords_page _ _ _ (by omega), if_pos hp, h2]⟩

theorem readRecords_pages (p : Nat) : ∀ (f page : Nat) (bs : List Nat), bs.length < f → page ≤ 256 →
    (∀ b ∈ bs, b < 256) →
    readRecords p (crlfLines (hexPages 0x4000 f page bs ++ b! ":00000001FF")) =
      if bs.length ≤ (256 - page) * 16384 then some (placedFrom 16384 page bs) else none := by
  intro f
  induction f generalizing p with
  | zero => intro page bs h; omega
  | succ f ih =>
    intro page bs hf hp hb
    rw [hexPages]
    cases bs with
    | nil =>
      rw [if_pos (by simp)]
      simp only [List.isEmpty_nil, if_true, List.nil_append]
      rfl
    | cons b t =>
      simp only [List.isEmpty_cons, Bool.false_eq_true, if_false]
      rw [List.append_assoc, List.append_assoc]
      by_cases hp' : page < 256
      · obtain ⟨h1, h2⟩ := hexPages_records p page
          (hexPages 0x4000 f (page + 1) (hexRecords 512 0x4000 (b :: t)).2 ++ b! ":00000001FF") (b :: t) hp' hb
        rw [h2, h1]
        have hbt : 0 < (b :: t).length := by simp
        generalize b :: t = bs at *
        generalize hP : 16384 = P at *
        rw [ih page (page + 1) _ (by simp only [List.length_drop]; omega) (by omega)
          (fun c hc => hb c (List.mem_of_mem_drop hc))]
        simp only [List.length_drop]
        by_cases hl : bs.length ≤ (256 - page) * P
        · have hl' : bs.length - P ≤ (256 - (page + 1)) * P := by subst hP; omega
          rw [if_pos hl, if_pos hl']
          simp only [Option.map_some, Option.some.injEq]
          by_cases hc : P ≤ bs.length
          · rw [placedFrom_step P page (by omega) _ hc, hP]
          · rw [placedFrom_last P page _ (by omega)]
            have e1 : bs.take P = bs := List.take_of_length_le (by omega)
            have e2 : bs.drop P = [] := List.drop_eq_nil_of_le (by omega)
            rw [e1, e2, hP]
            simp [placedFrom]
        · have hl' : ¬ bs.length - P ≤ (256 - (page + 1)) * P := by subst hP; omega
          rw [if_neg hl, if_neg hl']
          rfl
      · rw [readRecords_page _ _ _ (by omega), if_neg hp', if_neg (by omega), if_neg (by simp; omega)]

theorem readHex_intelHex (bytes : List Nat) (hb : ∀ b ∈ bytes, b < 256) :
    readHex (intelHex bytes) = if bytes.length ≤ 4194304 then some (placed bytes) else none := by
  unfold readHex intelHex
  rw [readRecords_pages 0 _ 0 bytes (by omega) (by omega) hb]
  have : placedFrom 16384 0 bytes = placed bytes := by
    unfold placedFrom placed; simp
  rw [this]

end Spasm
