import Verif.Spec.Decode
import Verif.Model.Z80Table

/-
C19: the instruction table.
-/

namespace Spasm.Props
open Spasm Spec

variable {cpu : Cpu}

/-- Texts one character at a time. -/
def chars : List Part → List Part
  | [] => []
  | .text t :: ps => t.map (fun c => .text [c]) ++ chars ps
  | p :: ps => p :: chars ps

theorem readOperands_texts (t : Str) (ps : List Part) (bs : List Nat) :
    readOperands cpu.long (t.map (fun c => Part.text [c]) ++ ps) bs = (readOperands cpu.long ps bs).map fun p => (t.map .ch ++ p.1, p.2) := by
  induction t with
  | nil =>
    show readOperands cpu.long ps bs = _
    cases readOperands cpu.long ps bs <;> rfl
  | cons c t ih =>
    rw [List.map_cons, List.cons_append, readOperands, ih]
    cases readOperands cpu.long ps bs <;> rfl

theorem readOperands_chars (ps : List Part) (bs : List Nat) : readOperands cpu.long (chars ps) bs = readOperands cpu.long ps bs := by
  induction ps generalizing bs with
  | nil => rfl
  | cons p ps ih =>
    cases p with
    | text t => rw [chars, readOperands_texts, ih]; rfl
    | num v => show readOperands cpu.long (.num v :: chars ps) bs = _; unfold readOperands; rw [ih]
    | byte => cases bs with
      | nil => rfl
      | cons b bs => show readOperands cpu.long (.byte :: chars ps) (b :: bs) = _; unfold readOperands; rw [ih]
    | word => match bs with
      | [] => rfl
      | [b] => rfl
      | l :: h :: [] => show readOperands cpu.long (.word :: chars ps) (l :: h :: []) = _; unfold readOperands; rw [ih]
      | l :: h :: u :: bs => show readOperands cpu.long (.word :: chars ps) (l :: h :: u :: bs) = _; unfold readOperands; simp only [ih]
    | signed => cases bs with
      | nil => rfl
      | cons b bs => show readOperands cpu.long (.signed :: chars ps) (b :: bs) = _; unfold readOperands; rw [ih]

/-- The parts of a pattern; `b` is the bit number, or the restart vector divided by 8. -/
def patternParts (long : Bool) (b : Nat) (p : Str) : List Part :=
  p.map fun c =>
    match longType long c with
    | none => .text [c]
    | some .num8 => .byte
    | some .num16 => .word
    | some .num24 => .word
    | some .bitNum => .num b
    | some .rst => .num (8 * b)
    | some _ => .signed

/-- The number of operands and the one that is part of the opcode agree with the pattern. -/
def Fits (long : Bool) (b : Nat) : Str → List Int → Prop
  | [], _ => True
  | c :: p, vs =>
    match longType long c, vs with
    | none, vs => Fits long b p vs
    | some .bitNum, v :: vs => v = b ∧ Fits long b p vs
    | some .rst, v :: vs => v = 8 * b ∧ Fits long b p vs
    | some _, _ :: vs => Fits long b p vs
    | some _, [] => True

/-- The operand bytes that are not part of the opcode. -/
def stream (cpu : Cpu) (pc size : Int) : Str → List Int → Option (List Nat)
  | [], [] => some []
  | [], _ :: _ => none
  | c :: p, vs =>
    match longType cpu.long c, vs with
    | none, vs => stream cpu pc size p vs
    | some .bitNum, _ :: vs => stream cpu pc size p vs
    | some .rst, _ :: vs => stream cpu pc size p vs
    | some ty, v :: vs =>
      match encode cpu.ez80 pc ty size 0 v, stream cpu pc size p vs with
      | some bs, some r => some (bs ++ r)
      | _, _ => none
    | some _, [] => none

theorem longType_none {l : Bool} {c : Nat} (h : longType l c = none) : operandType c = none := by
  unfold longType at h
  split at h
  · cases h
  · exact h

theorem longType_some {l : Bool} {c : Nat} {ty : ArgTy} (h : longType l c = some ty) :
    operandType c = some ty ∨ operandType c = some .num16 ∧ ty = .num24 := by
  unfold longType at h
  split at h
  · rename_i hc
    cases h
    exact .inr ⟨by rw [hc.1]; rfl, rfl⟩
  · exact .inl h

theorem not_num24 (c : Nat) : operandType c ≠ some .num24 := by
  unfold operandType
  grind

theorem long_of {l : Bool} {c : Nat} (h : longType l c = some .num24) : l = true := by
  unfold longType at h
  split at h
  · rename_i hc; exact hc.2
  · exact absurd h (not_num24 c)

theorem short_of {l : Bool} {c : Nat} (h : longType l c = some .num16) : l = false := by
  unfold longType at h
  split at h
  · cases h
  · rename_i hc
    cases l
    · rfl
    · unfold operandType at h
      grind

theorem byte_signed (v : Int) (h : -128 ≤ v ∧ v ≤ 127) :
    (if (v % 256).toNat < 128 then (((v % 256).toNat : Nat) : Int) else ((v % 256).toNat : Nat) - 256) = v := by
  split <;> omega

theorem readOperands_pattern (pc size : Int) (b : Nat) (p : Str) (vs : List Int) (ops : List Nat) (rest : List Nat)
    (hf : Fits cpu.long b p vs) (hs : stream cpu pc size p vs = some ops) :
    readOperands cpu.long (patternParts cpu.long b p) (ops ++ rest) = some (written cpu.ez80 cpu.long pc size p vs, rest) := by
  induction p generalizing vs ops with
  | nil =>
    cases vs with
    | nil => simp [stream] at hs; subst hs; rfl
    | cons v vs => simp [stream] at hs
  | cons c p ih =>
    unfold patternParts
    rw [List.map_cons]
    change readOperands cpu.long (_ :: patternParts cpu.long b p) _ = _
    unfold stream at hs
    unfold Fits at hf
    unfold written
    cases ht : longType cpu.long c with
    | none =>
      rw [ht] at hs hf
      dsimp only at hs hf ⊢
      unfold readOperands
      rw [ih vs ops hf hs]
      rfl
    | some ty =>
      rw [ht] at hs hf
      cases vs with
      | nil => cases ty <;> cases hs
      | cons v vs =>
        have more : ∀ bs, (match encode cpu.ez80 pc ty size 0 v, stream cpu pc size p vs with
            | some bs, some r => some (bs ++ r)
            | _, _ => none) = some bs → ∃ x r, encode cpu.ez80 pc ty size 0 v = some x ∧ stream cpu pc size p vs = some r ∧ bs = x ++ r := by
          intro bs h
          cases h1 : encode cpu.ez80 pc ty size 0 v with
          | none => rw [h1] at h; cases h
          | some x =>
            cases h2 : stream cpu pc size p vs with
            | none => rw [h1, h2] at h; cases h
            | some r => rw [h1, h2] at h; cases h; exact ⟨x, r, rfl, rfl, rfl⟩
        cases ty with
        | bitNum =>
          dsimp only at hs hf ⊢
          unfold readOperands
          rw [ih vs ops hf.2 hs, hf.1]
          rfl
        | rst =>
          dsimp only at hs hf ⊢
          unfold readOperands
          rw [ih vs ops hf.2 hs, hf.1]
          rfl
        | num8 =>
          obtain ⟨x, r, h1, h2, rfl⟩ := more ops hs
          simp [encode] at h1
          subst h1
          dsimp only at hf ⊢
          show readOperands cpu.long (Part.byte :: _) ((v % 256).toNat :: (r ++ rest)) = _
          unfold readOperands
          rw [ih vs r hf h2]
          show some (Tok.num _ :: _, _) = some (Tok.num (v % 256) :: _, _)
          rw [Int.toNat_of_nonneg (by omega)]
        | num16 =>
          obtain ⟨x, r, h1, h2, rfl⟩ := more ops hs
          simp [encode] at h1
          subst h1
          dsimp only at hf ⊢
          show readOperands cpu.long (Part.word :: _) ((v % 256).toNat :: (v / 256 % 256).toNat :: (r ++ rest)) = _
          unfold readOperands
          rw [if_neg (by rw [short_of ht]; decide), ih vs r hf h2]
          show some (Tok.num _ :: _, _) = some (Tok.num (v % 65536) :: _, _)
          congr 4
          omega
        | num24 =>
          obtain ⟨x, r, h1, h2, rfl⟩ := more ops hs
          simp [encode] at h1
          subst h1
          dsimp only at hf ⊢
          show readOperands cpu.long (Part.word :: _) ((v % 256).toNat :: (v / 256 % 256).toNat :: (v / 65536 % 256).toNat :: (r ++ rest)) = _
          unfold readOperands
          rw [if_pos (long_of ht)]
          dsimp only
          rw [ih vs r hf h2]
          show some (Tok.num _ :: _, _) = some (Tok.num (v % 16777216) :: _, _)
          congr 4
          omega
        | addrOffset =>
          obtain ⟨x, r, h1, h2, rfl⟩ := more ops hs
          simp only [encode] at h1
          unfold operandValue
          dsimp only at h1 hf ⊢
          generalize (if cpu.ez80 = true then (16777216 : Int) else 65536) = space at h1 ⊢
          by_cases hr : -128 ≤ v % space - (pc % space + size) ∧ v % space - (pc % space + size) ≤ 127
          · rw [if_pos hr] at h1
            cases h1
            show readOperands cpu.long (Part.signed :: _) (((v % space - (pc % space + size)) % 256).toNat :: (r ++ rest)) = _
            unfold readOperands
            rw [ih vs r hf h2]
            show some (Tok.num _ :: _, _) = some (Tok.num (v % space - (pc % space + size)) :: _, _)
            rw [byte_signed _ hr]
          · rw [if_neg hr] at h1
            cases h1
        | ixIyOffset =>
          obtain ⟨x, r, h1, h2, rfl⟩ := more ops hs
          simp only [encode] at h1
          by_cases hr : -128 ≤ v ∧ v ≤ 127
          · rw [if_pos hr] at h1
            cases h1
            dsimp only at hf ⊢
            show readOperands cpu.long (Part.signed :: _) ((v % 256).toNat :: (r ++ rest)) = _
            unfold readOperands
            rw [ih vs r hf h2]
            show some (Tok.num _ :: _, _) = some (Tok.num v :: _, _)
            rw [byte_signed _ hr]
          · rw [if_neg hr] at h1
            cases h1

/-- The canonical way to write an entry, and whether it is one of the synonyms. -/
def canonical (cpu : Cpu) (name args : Str) (b : Nat) : Form :=
  if name = b! "SL1" then (b! "SLL", patternParts cpu.long b args)
  else if name ∈ [b! "SUB", b! "AND", b! "XOR", b! "OR", b! "CP"] ∧ args.take 2 = b! "A," then (name, patternParts cpu.long b (args.drop 2))
  else if name = b! "RST" ∧ args ∈ [b! "00H", b! "08H", b! "10H", b! "18H", b! "20H", b! "28H", b! "30H", b! "38H"] then
    (name, [.num (8 * ([b! "00H", b! "08H", b! "10H", b! "18H", b! "20H", b! "28H", b! "30H", b! "38H"].idxOf args : Nat))])
  else (name, patternParts cpu.long b args)

/-- The last byte of an entry with a bit number. -/
def lastByte (i : Instr) (b : Nat) : Nat := if 94 ∈ i.args then (ior ((b : Int) * 8) i.endData % 256).toNat else i.endData

/-- The opcode of an entry. -/
def entryForm (cpu : Cpu) (i : Instr) (b : Nat) : Option Form :=
  match i.data, i.hasEnd with
  | [], false => if i.args = [35] then cpu.plain .hl (0xC7 + 8 * b) else none
  | [op], false => if op ∈ [0xDD, 0xFD, 0xED, 0xCB] ∨ 35 ∈ i.args ∨ 94 ∈ i.args then none else cpu.plain .hl op
  | [a, op], false =>
    if 35 ∈ i.args ∨ 94 ∈ i.args then none
    else if a = 0xDD then (if op = 0xCB then none else cpu.plain .ix op)
    else if a = 0xFD then (if op = 0xCB then none else cpu.plain .iy op)
    else if a = 0xED then cpu.ext op
    else if a = 0xCB then cpu.bit .hl op
    else none
  | [0xCB], true =>
    if i.args.filter (fun c => (operandType c).isSome) ∈ [[], [94]] then cpu.bit .hl (lastByte i b) else none
  | [a, 0xCB], true =>
    if i.args.filter (fun c => (operandType c).isSome) ∈ [[64], [94, 64]] then
      (if a = 0xDD then cpu.bit .ix (lastByte i b) else if a = 0xFD then cpu.bit .iy (lastByte i b) else none)
    else none
  | _, _ => none

/-- The check of one entry. -/
def entryOk (cpu : Cpu) (name : Str) (i : Instr) (b : Nat) : Bool :=
  decide ((entryForm cpu i b).map (fun f => (f.1, chars f.2)) = some (canonical cpu name i.args b))

/-- The check of a table. -/
def tableOk (cpu : Cpu) (table : List Opcode) : Bool := table.all (fun o => o.instrs.all fun i => (List.range 8).all fun b => entryOk cpu o.name i b)

theorem table_ok : tableOk z80 z80Table = true := by
  decide +kernel

theorem operandType_35 {l : Bool} (c : Nat) (h : longType l c = some .rst) : c = 35 := by
  unfold longType operandType at h
  grind

theorem operandType_94 {l : Bool} (c : Nat) (h : longType l c = some .bitNum) : c = 94 := by
  unfold longType operandType at h
  grind

theorem bitNumber_long (l : Bool) (c : Nat) (p : Str) (vs : List Int) : bitNumber (c :: p) vs =
    match longType l c, vs with
    | none, vs => bitNumber p vs
    | some .bitNum, v :: _ => some v
    | some _, _ :: vs => bitNumber p vs
    | some _, [] => none := by
  conv => lhs; unfold bitNumber
  cases ht : longType l c with
  | none => rw [longType_none ht]
  | some ty =>
    rcases longType_some ht with h | ⟨h, rfl⟩
    · rw [h]
      cases vs <;> cases ty <;> rfl
    · rw [h]
      cases vs <;> rfl

theorem stream_eq (pc size : Int) (p : Str) (vs : List Int) (h : 35 ∉ p) : stream cpu pc size p vs = operandCode cpu.ez80 cpu.long pc size p vs := by
  induction p generalizing vs with
  | nil => cases vs <;> rfl
  | cons c p ih =>
    have h2 : 35 ∉ p := fun hp => h (by simp [hp])
    unfold stream operandCode
    cases ht : longType cpu.long c with
    | none => exact ih vs h2
    | some ty =>
      cases vs with
      | nil => cases ty <;> rfl
      | cons v vs =>
        cases ty with
        | rst => exact absurd (operandType_35 c ht) (fun hc => h (by simp [hc]))
        | bitNum => exact ih vs h2
        | num8 => dsimp only; rw [ih vs h2]; cases encode cpu.ez80 pc .num8 size 0 v <;> cases operandCode cpu.ez80 cpu.long pc size p vs <;> rfl
        | num16 => dsimp only; rw [ih vs h2]; cases encode cpu.ez80 pc .num16 size 0 v <;> cases operandCode cpu.ez80 cpu.long pc size p vs <;> rfl
        | num24 => dsimp only; rw [ih vs h2]; cases encode cpu.ez80 pc .num24 size 0 v <;> cases operandCode cpu.ez80 cpu.long pc size p vs <;> rfl
        | addrOffset => dsimp only; rw [ih vs h2]; cases encode cpu.ez80 pc .addrOffset size 0 v <;> cases operandCode cpu.ez80 cpu.long pc size p vs <;> rfl
        | ixIyOffset => dsimp only; rw [ih vs h2]; cases encode cpu.ez80 pc .ixIyOffset size 0 v <;> cases operandCode cpu.ez80 cpu.long pc size p vs <;> rfl

theorem fits_none (b : Nat) (p : Str) (vs : List Int) (h : 35 ∉ p) (h94 : 94 ∉ p) : Fits cpu.long b p vs := by
  induction p generalizing vs with
  | nil => trivial
  | cons c p ih =>
    have h2 : 35 ∉ p := fun hp => h (by simp [hp])
    have h3 : 94 ∉ p := fun hp => h94 (by simp [hp])
    unfold Fits
    cases ht : longType cpu.long c with
    | none => exact ih vs h2 h3
    | some ty =>
      cases vs with
      | nil => cases ty <;> trivial
      | cons v vs =>
        cases ty with
        | rst => exact absurd (operandType_35 c ht) (fun hc => h (by simp [hc]))
        | bitNum => exact absurd (operandType_94 c ht) (fun hc => h94 (by simp [hc]))
        | num8 => exact ih vs h2 h3
        | num16 => exact ih vs h2 h3
        | num24 => exact ih vs h2 h3
        | addrOffset => exact ih vs h2 h3
        | ixIyOffset => exact ih vs h2 h3

theorem fits_bit (b : Nat) (p : Str) (vs : List Int) (h : 35 ∉ p) (h94 : p.count 94 ≤ 1) (hb : ∀ v, bitNumber p vs = some v → v = b) :
    Fits cpu.long b p vs := by
  induction p generalizing vs with
  | nil => trivial
  | cons c p ih =>
    have h2 : 35 ∉ p := fun hp => h (by simp [hp])
    have h3 : p.count 94 ≤ 1 := by rw [List.count_cons] at h94; omega
    rw [bitNumber_long cpu.long] at hb
    unfold Fits
    cases ht : longType cpu.long c with
    | none => rw [ht] at hb; exact ih vs h2 h3 hb
    | some ty =>
      rw [ht] at hb
      cases vs with
      | nil => cases ty <;> trivial
      | cons v vs =>
        cases ty with
        | rst => exact absurd (operandType_35 c ht) (fun hc => h (by simp [hc]))
        | bitNum =>
          refine ⟨hb v rfl, fits_none b p vs h2 ?_⟩
          rw [operandType_94 c ht, List.count_cons] at h94
          have : p.count 94 = 0 := by simp at h94; omega
          exact List.count_eq_zero.1 this
        | num8 => exact ih vs h2 h3 hb
        | num16 => exact ih vs h2 h3 hb
        | num24 => exact ih vs h2 h3 hb
        | addrOffset => exact ih vs h2 h3 hb
        | ixIyOffset => exact ih vs h2 h3 hb

/-- The operand characters of a pattern. -/
def operandChars (p : Str) : Str := p.filter fun c => (operandType c).isSome

theorem operandChars_cons (c : Nat) (p : Str) : operandChars (c :: p) = if (operandType c).isSome then c :: operandChars p else operandChars p := by
  unfold operandChars
  rw [List.filter_cons]

theorem longType_isSome (l : Bool) (c : Nat) : (operandType c).isSome = (longType l c).isSome := by
  cases ht : longType l c with
  | none => rw [longType_none ht]
  | some ty => rcases longType_some ht with h | ⟨h, rfl⟩ <;> rw [h] <;> rfl

theorem middle_chars (pc size : Int) (p : Str) (vs : List Int) : operandCode cpu.ez80 cpu.long pc size p vs = operandCode cpu.ez80 cpu.long pc size (operandChars p) vs := by
  induction p generalizing vs with
  | nil => rfl
  | cons c p ih =>
    rw [operandChars_cons, longType_isSome cpu.long]
    cases ht : longType cpu.long c with
    | none =>
      simp only [Option.isSome_none, Bool.false_eq_true, if_false]
      rw [← ih]
      conv => lhs; unfold operandCode
      rw [ht]
    | some ty =>
      simp only [Option.isSome_some, if_true]
      unfold operandCode
      rw [ht]
      cases vs with
      | nil => cases ty <;> rfl
      | cons v vs => cases ty <;> (dsimp only; rw [ih])

theorem bitNumber_chars (p : Str) (vs : List Int) : bitNumber p vs = bitNumber (operandChars p) vs := by
  induction p generalizing vs with
  | nil => rfl
  | cons c p ih =>
    rw [operandChars_cons]
    cases ht : operandType c with
    | none =>
      simp only [Option.isSome_none, Bool.false_eq_true, if_false]
      rw [← ih]
      conv => lhs; unfold bitNumber
      rw [ht]
    | some ty =>
      simp only [Option.isSome_some, if_true]
      unfold bitNumber
      rw [ht]
      cases vs with
      | nil => cases ty <;> rfl
      | cons v vs => cases ty <;> (dsimp only; try rw [ih])

theorem mem_operandChars (c : Nat) (p : Str) (h : (operandType c).isSome = true) : c ∈ operandChars p ↔ c ∈ p := by
  unfold operandChars
  simp [h]

theorem count_operandChars (c : Nat) (p : Str) (h : (operandType c).isSome = true) : (operandChars p).count c = p.count c := by
  unfold operandChars
  rw [List.count_filter]
  simpa using h

theorem opcodeOf_plain (op : Nat) (r : List Nat) (h : op ∉ [0xDD, 0xFD, 0xED, 0xCB]) :
    opcodeOf cpu (op :: r) = (cpu.plain .hl op).map fun f => (f, r) := by
  simp only [List.mem_cons, List.not_mem_nil, or_false, not_or] at h
  unfold opcodeOf
  split <;> simp_all

theorem opcodeOf_ix (op : Nat) (r : List Nat) (h : op ≠ 0xCB) : opcodeOf cpu (0xDD :: op :: r) = (cpu.plain .ix op).map fun f => (f, r) := by
  rw [opcodeOf]
  intro d op' r' h1
  exact absurd h1 (by simp [h])

theorem opcodeOf_iy (op : Nat) (r : List Nat) (h : op ≠ 0xCB) : opcodeOf cpu (0xFD :: op :: r) = (cpu.plain .iy op).map fun f => (f, r) := by
  rw [opcodeOf]
  intro d op' r' h1
  exact absurd h1 (by simp [h])

theorem middle_0 {pc size : Int} {vs : List Int} {m : List Nat} (h : operandCode cpu.ez80 cpu.long pc size [] vs = some m) : vs = [] ∧ m = [] := by
  cases vs with
  | nil => cases h; exact ⟨rfl, rfl⟩
  | cons => cases h

theorem middle_64 {pc size : Int} {vs : List Int} {m : List Nat} (h : operandCode cpu.ez80 cpu.long pc size [64] vs = some m) : ∃ v x, vs = [v] ∧ m = [x] := by
  match vs, h with
  | [], h => cases h
  | v :: vs, h =>
    have h : (match encode cpu.ez80 pc .ixIyOffset size 0 v, operandCode cpu.ez80 cpu.long pc size [] vs with | some bs, some r => some (bs ++ r) | _, _ => none) =
      some m := h
    simp only [encode] at h
    split at h
    · rename_i x r hx hr
      split at hx
      · cases hx
        cases h
        obtain ⟨rfl, rfl⟩ := middle_0 hr
        exact ⟨v, _, rfl, rfl⟩
      · cases hx
    · cases h

theorem middle_94 {pc size : Int} {p : Str} {vs : List Int} {m : List Nat} (h : operandCode cpu.ez80 cpu.long pc size (94 :: p) vs = some m) :
    ∃ v vs', vs = v :: vs' ∧ operandCode cpu.ez80 cpu.long pc size p vs' = some m := by
  match vs, h with
  | [], h => cases h
  | v :: vs, h => exact ⟨v, vs, rfl, h⟩

theorem bit_of {pc size endData v : Int} {e : List Nat} (h : encode cpu.ez80 pc .bitNum size endData v = some e) :
    ∃ b : Nat, b < 8 ∧ v = b ∧ e = [(ior ((b : Int) * 8) endData % 256).toNat] := by
  simp only [encode] at h
  split at h
  · rename_i hv
    cases h
    refine ⟨v.toNat, by omega, by omega, ?_⟩
    rw [Int.toNat_of_nonneg hv.1]
  · cases h

/-- The opcode is found, and the operands behind it. -/
theorem opcodeOf_entry (pc size : Int) (i : Instr) (vs : List Int) (bs rest : List Nat) (h : codeBytes cpu.ez80 cpu.long pc size i vs = some bs)
    (hok : ∀ b < 8, (entryForm cpu i b).isSome = true) :
    ∃ b f ops, b < 8 ∧ entryForm cpu i b = some f ∧ Fits cpu.long b i.args vs ∧ stream cpu pc size i.args vs = some ops ∧
      opcodeOf cpu (bs ++ rest) = some (f, ops ++ rest) := by
  unfold codeBytes at h
  cases hm : operandCode cpu.ez80 cpu.long pc size i.args vs with
  | none => rw [hm] at h; cases h
  | some m =>
    rw [hm] at h
    dsimp only at h
    have h0 := hok 0 (by decide)
    obtain ⟨args, data, hasEnd, endData, isize, tmin, tmax, tadl⟩ := i
    dsimp only at *
    obtain ⟨f, hf⟩ := Option.isSome_iff_exists.1 h0
    have hf' := hf
    unfold entryForm at hf
    dsimp only at hf
    split at hf
    · split at hf
      · rename_i ha
        subst ha
        cases h
        match vs, hm with
        | [], hm => cases hm
        | [v], hm =>
          have hm : (match encode cpu.ez80 pc .rst size 0 v, some [] with | some bs, some r => some (bs ++ r) | _, _ => none) = some m := hm
          simp only [encode] at hm
          split at hm
          · rename_i x r hx hr
            split at hx
            · rename_i hv
              cases hx
              cases hr
              cases hm
              have hb : ∃ b : Nat, b < 8 ∧ v = 8 * b := ⟨(v / 8).toNat, by omega, by omega⟩
              obtain ⟨b, hb, rfl⟩ := hb
              have he : ((0xC7 + 8 * (b : Int)) % 256).toNat = 0xC7 + 8 * b := by omega
              obtain ⟨g, hg⟩ := Option.isSome_iff_exists.1 (hok b hb)
              refine ⟨b, g, [], hb, hg, ⟨rfl, trivial⟩, rfl, ?_⟩
              have hg : cpu.plain .hl (0xC7 + 8 * b) = some g := hg
              rw [he]
              show opcodeOf cpu ((0xC7 + 8 * b) :: rest) = _
              rw [opcodeOf_plain _ _ (by simp; omega), hg]
              rfl
            · cases hx
          · cases hm
        | _ :: _ :: _, hm =>
          exfalso
          unfold operandCode at hm
          have e : longType cpu.long 35 = some .rst := by cases cpu.long <;> rfl
          rw [e] at hm
          simp [operandCode] at hm
      · cases hf
    · split at hf
      · cases hf
      · rename_i op ha
        simp only [not_or] at ha
        cases h
        refine ⟨0, f, m, by decide, hf', fits_none _ _ _ ha.2.1 ha.2.2, ?_, ?_⟩
        · rw [stream_eq _ _ _ _ ha.2.1, hm]
        · rw [List.append_assoc]
          show opcodeOf cpu (op :: (m ++ rest)) = _
          rw [opcodeOf_plain _ _ ha.1, hf]
          rfl
    · split at hf
      · cases hf
      · rename_i a op ha
        simp only [not_or] at ha
        cases h
        refine ⟨0, f, m, by decide, hf', fits_none _ _ _ ha.1 ha.2, ?_, ?_⟩
        · rw [stream_eq _ _ _ _ ha.1, hm]
        · rw [List.append_assoc]
          show opcodeOf cpu (a :: op :: (m ++ rest)) = _
          split at hf
          · rename_i ha
            subst ha
            split at hf
            · cases hf
            · rename_i hop
              rw [opcodeOf_ix _ _ hop, hf]; rfl
          · split at hf
            · rename_i ha
              subst ha
              split at hf
              · cases hf
              · rename_i hop
                rw [opcodeOf_iy _ _ hop, hf]; rfl
            · split at hf
              · rename_i ha
                subst ha
                show (cpu.ext op).map _ = _
                rw [hf]; rfl
              · split at hf
                · rename_i ha
                  subst ha
                  show (cpu.bit .hl op).map _ = _
                  rw [hf]; rfl
                · cases hf
    · split at hf
      · rename_i hc
        have hc : operandChars args ∈ [[], [94]] := hc
        simp only [List.mem_cons, List.not_mem_nil, or_false] at hc
        rw [if_pos rfl, bitNumber_chars] at h
        have h35 : 35 ∉ args := by
          rw [← mem_operandChars 35 args (by decide)]
          rcases hc with hc | hc <;> rw [hc] <;> decide
        have hs := stream_eq (cpu := cpu) pc size args vs h35
        rw [hm] at hs
        rw [middle_chars] at hm
        rcases hc with hc | hc
        · rw [hc] at h hm
          obtain ⟨rfl, rfl⟩ := middle_0 hm
          cases h
          have h94 : 94 ∉ args := by rw [← mem_operandChars 94 args (by decide), hc]; decide
          refine ⟨0, f, [], by decide, hf', fits_none _ _ _ h35 h94, hs, ?_⟩
          unfold lastByte at hf
          rw [if_neg h94] at hf
          show (cpu.bit .hl endData).map _ = _
          rw [hf]; rfl
        · rw [hc] at h hm
          obtain ⟨v, vs', rfl, hm⟩ := middle_94 hm
          obtain ⟨rfl, rfl⟩ := middle_0 hm
          obtain ⟨e, he, rfl⟩ := Option.map_eq_some_iff.1 h
          obtain ⟨b, hb, rfl, rfl⟩ := bit_of he
          obtain ⟨g, hg⟩ := Option.isSome_iff_exists.1 (hok b hb)
          have h94 : 94 ∈ args := by rw [← mem_operandChars 94 args (by decide), hc]; decide
          refine ⟨b, g, [], hb, hg, fits_bit _ _ _ h35 ?_ ?_, hs, ?_⟩
          · rw [← count_operandChars 94 args (by decide), hc]; decide
          · rw [bitNumber_chars, hc]
            intro v hv
            exact (Option.some.inj hv).symm
          · change (if operandChars args ∈ [[], [94]] then cpu.bit .hl (lastByte ⟨args, [0xCB], true, endData, isize, tmin, tmax, tadl⟩ b) else none) = some g at hg
            rw [if_pos (by rw [hc]; decide)] at hg
            unfold lastByte at hg
            rw [if_pos h94] at hg
            show (cpu.bit .hl _).map _ = _
            rw [hg]; rfl
      · cases hf
    · split at hf
      · rename_i _ a hc
        have hc : operandChars args ∈ [[64], [94, 64]] := hc
        simp only [List.mem_cons, List.not_mem_nil, or_false] at hc
        rw [if_pos rfl, bitNumber_chars] at h
        have h35 : 35 ∉ args := by
          rw [← mem_operandChars 35 args (by decide)]
          rcases hc with hc | hc <;> rw [hc] <;> decide
        have hs := stream_eq (cpu := cpu) pc size args vs h35
        rw [hm] at hs
        rw [middle_chars] at hm
        have key : ∀ (b : Nat) (g : Form) (x e : Nat), entryForm cpu ⟨args, [a, 0xCB], true, endData, isize, tmin, tmax, tadl⟩ b = some g →
            e = lastByte ⟨args, [a, 0xCB], true, endData, isize, tmin, tmax, tadl⟩ b → opcodeOf cpu (a :: 0xCB :: x :: e :: rest) = some (g, x :: rest) := by
          intro b g x e hg he
          change (if operandChars args ∈ [[64], [94, 64]] then
            (if a = 0xDD then cpu.bit .ix (lastByte ⟨args, [a, 0xCB], true, endData, isize, tmin, tmax, tadl⟩ b)
              else if a = 0xFD then cpu.bit .iy (lastByte ⟨args, [a, 0xCB], true, endData, isize, tmin, tmax, tadl⟩ b) else none) else none) = some g at hg
          rw [if_pos (by rcases hc with hc | hc <;> rw [hc] <;> decide)] at hg
          split at hg
          · rename_i ha
            subst ha
            show (cpu.bit .ix e).map _ = _
            rw [he, hg]; rfl
          · split at hg
            · rename_i ha
              subst ha
              show (cpu.bit .iy e).map _ = _
              rw [he, hg]; rfl
            · cases hg
        rcases hc with hc | hc
        · rw [hc] at h hm
          obtain ⟨v, x, rfl, rfl⟩ := middle_64 hm
          cases h
          have h94 : 94 ∉ args := by rw [← mem_operandChars 94 args (by decide), hc]; decide
          refine ⟨0, f, [x], by decide, hf', fits_none _ _ _ h35 h94, hs, ?_⟩
          refine key 0 f x endData hf' ?_
          unfold lastByte
          rw [if_neg h94]
        · rw [hc] at h hm
          obtain ⟨v, vs', rfl, hm⟩ := middle_94 hm
          obtain ⟨w, x, rfl, rfl⟩ := middle_64 hm
          obtain ⟨e, he, rfl⟩ := Option.map_eq_some_iff.1 h
          obtain ⟨b, hb, rfl, rfl⟩ := bit_of he
          obtain ⟨g, hg⟩ := Option.isSome_iff_exists.1 (hok b hb)
          have h94 : 94 ∈ args := by rw [← mem_operandChars 94 args (by decide), hc]; decide
          refine ⟨b, g, [x], hb, hg, fits_bit _ _ _ h35 ?_ ?_, hs, ?_⟩
          · rw [← count_operandChars 94 args (by decide), hc]; decide
          · rw [bitNumber_chars, hc]
            intro v hv
            exact (Option.some.inj hv).symm
          · refine key b g x _ hg ?_
            unfold lastByte
            rw [if_pos h94]
      · cases hf
    · cases hf

/-- The text of a pattern without operands. -/
theorem written_text (pc size : Int) (p : Str) (vs : List Int) (h : operandChars p = []) : written cpu.ez80 cpu.long pc size p vs = p.map .ch := by
  induction p with
  | nil => rfl
  | cons c p ih =>
    rw [operandChars_cons] at h
    rw [longType_isSome cpu.long] at h
    cases ht : longType cpu.long c with
    | some ty => simp [ht] at h
    | none =>
      simp [ht] at h
      unfold written
      rw [ht]
      simp [ih h]

theorem entry_of {table : List Opcode} (htab : tableOk cpu table = true) (o : Opcode) (ho : o ∈ table) (i : Instr) (hi : i ∈ o.instrs) :
    ∀ b < 8, entryOk cpu o.name i b = true := by
  intro b hb
  have := htab
  unfold tableOk at this
  rw [List.all_eq_true] at this
  have := this o ho
  rw [List.all_eq_true] at this
  have := this i hi
  rw [List.all_eq_true] at this
  exact this b (List.mem_range.2 hb)

theorem encodings (name : Str) (i : Instr) (hall : ∀ b < 8, entryOk cpu name i b = true)
    (pc size : Int) (vs : List Int) (bs rest : List Nat) (hb : codeBytes cpu.ez80 cpu.long pc size i vs = some bs) :
    ∃ m t, decode cpu (bs ++ rest) = some (m, t, rest) ∧ Synonym (m, t) (name, written cpu.ez80 cpu.long pc size i.args vs) := by
  have hok : ∀ b < 8, (entryForm cpu i b).isSome = true := by
    intro b hb
    have := hall b hb
    unfold entryOk at this
    rw [decide_eq_true_iff] at this
    cases he : entryForm cpu i b with
    | none => rw [he] at this; cases this
    | some f => rfl
  obtain ⟨b, f, ops, hb8, hf, hfit, hs, hop⟩ := opcodeOf_entry pc size i vs bs rest hb hok
  have hcan := hall b hb8
  unfold entryOk at hcan
  rw [decide_eq_true_iff, hf] at hcan
  have hcan : (f.1, chars f.2) = canonical cpu name i.args b := Option.some.inj hcan
  have hdec : decode cpu (bs ++ rest) = (readOperands cpu.long (chars f.2) (ops ++ rest)).map fun q => (f.1, q.1, q.2) := by
    unfold decode
    rw [hop, readOperands_chars]
    rfl
  have hread := readOperands_pattern pc size b i.args vs ops rest hfit hs
  unfold canonical at hcan
  split at hcan
  · rename_i hn
    obtain ⟨h1, h2⟩ := Prod.mk.inj hcan
    rw [h2, hread, h1] at hdec
    refine ⟨_, _, hdec, ?_⟩
    rw [hn]
    exact .sl1 _
  · split at hcan
    · rename_i hn
      obtain ⟨h1, h2⟩ := Prod.mk.inj hcan
      have ha : i.args = 65 :: 44 :: i.args.drop 2 := by
        conv => lhs; rw [← List.take_append_drop 2 i.args, hn.2]
        rfl
      generalize i.args.drop 2 = p at *
      rw [ha] at hfit hs
      have hread := readOperands_pattern pc size b p vs ops rest hfit hs
      rw [h2, hread, h1] at hdec
      refine ⟨_, _, hdec, ?_⟩
      rw [ha]
      exact .accumulator _ _ hn.1
    · split at hcan
      · rename_i hn
        obtain ⟨h1, h2⟩ := Prod.mk.inj hcan
        have hoc : operandChars i.args = [] := by
          have : ∀ a ∈ [b! "00H", b! "08H", b! "10H", b! "18H", b! "20H", b! "28H", b! "30H", b! "38H"], operandChars a = [] := by decide
          exact this _ hn.2
        have hops : ops = [] := by
          have h35 : 35 ∉ i.args := by rw [← mem_operandChars 35 _ (by decide), hoc]; decide
          rw [stream_eq _ _ _ _ h35, middle_chars, hoc] at hs
          exact (middle_0 hs).2
        subst hops
        rw [h2, h1] at hdec
        refine ⟨_, _, hdec, ?_⟩
        rw [written_text _ _ _ _ hoc, hn.1]
        refine .vector _ _ ?_
        have : ∀ a ∈ [b! "00H", b! "08H", b! "10H", b! "18H", b! "20H", b! "28H", b! "30H", b! "38H"],
            [b! "00H", b! "08H", b! "10H", b! "18H", b! "20H", b! "28H", b! "30H", b! "38H"][
              [b! "00H", b! "08H", b! "10H", b! "18H", b! "20H", b! "28H", b! "30H", b! "38H"].idxOf a]? = some a := by decide
        exact this _ hn.2
      · obtain ⟨h1, h2⟩ := Prod.mk.inj hcan
        rw [h2, hread, h1] at hdec
        exact ⟨_, _, hdec, .same _⟩

/-- C19: for every entry of the Z80 table and all operand values, a Z80 decoder reads the bytes of the entry back as
the mnemonic and the operands of the entry, and stops exactly at the end. -/
theorem C19_encodings (o : Opcode) (ho : o ∈ z80Table) (i : Instr) (hi : i ∈ o.instrs) (pc : Int) (vs : List Int) (bs rest : List Nat)
    (hb : codeBytes false false pc i.size i vs = some bs) :
    ∃ m t, decode z80 (bs ++ rest) = some (m, t, rest) ∧ Synonym (m, t) (o.name, written false false pc i.size i.args vs) :=
  encodings o.name i (entry_of table_ok o ho i hi) pc i.size vs bs rest hb

/-! ### Every instruction can be written -/

/-- The forms an opcode byte can have, with the possible prefixes. -/
def formsOf (cpu : Cpu) (op : Nat) : List (Option Form) :=
  [cpu.plain .hl op, cpu.plain .ix op, cpu.plain .iy op, cpu.bit .hl op, cpu.bit .ix op, cpu.bit .iy op, cpu.ext op]

/-- There is an entry for a form. -/
def hasEntry (cpu : Cpu) (table : List Opcode) (b : Nat) (f : Option Form) : Bool :=
  match f with
  | none => true
  | some f => table.any fun o => o.name == f.1 && o.instrs.any fun i =>
      decide (0 ≤ i.size ∧ i.size ≤ 4) && decide (chars f.2 = patternParts cpu.long b i.args)

/-- Every form has an entry. -/
def allEntries (cpu : Cpu) (table : List Opcode) : Bool := (List.range 256).all (fun op => (formsOf cpu op).all (hasEntry cpu table (op / 8 % 8)))

theorem all_entries : allEntries z80 z80Table = true := by
  decide +kernel

theorem encodable (size : Int) (hs : 0 ≤ size ∧ size ≤ 4) (b : Nat) (hb8 : b < 8) (p : Str) (bs rest : List Nat) (t : List Tok)
    (hb : ∀ x ∈ bs, x < 256) (h : readOperands cpu.long (patternParts cpu.long b p) bs = some (t, rest)) :
    ∃ vs m, written cpu.ez80 cpu.long 128 size p vs = t ∧ operandCode cpu.ez80 cpu.long 128 size p vs = some m ∧ ∀ v, bitNumber p vs = some v → v = b := by
  induction p generalizing bs t with
  | nil =>
    cases h
    exact ⟨[], [], rfl, rfl, by intro v h; cases h⟩
  | cons c p ih =>
    have hp : patternParts cpu.long b (c :: p) = (match longType cpu.long c with
      | none => .text [c] | some .num8 => .byte | some .num16 => .word | some .num24 => .word | some .bitNum => .num b | some .rst => .num (8 * b)
      | some _ => .signed) :: patternParts cpu.long b p := rfl
    rw [hp] at h
    cases ht : longType cpu.long c with
    | none =>
      rw [ht] at h
      dsimp only at h
      unfold readOperands at h
      obtain ⟨q, hq, he⟩ := Option.map_eq_some_iff.1 h
      obtain ⟨t', r'⟩ := q
      cases he
      obtain ⟨vs, m, h1, h2, h3⟩ := ih bs t' hb hq
      refine ⟨vs, m, ?_, ?_, ?_⟩
      · unfold written; rw [ht]; dsimp only; rw [h1]; rfl
      · unfold operandCode; rw [ht]; exact h2
      · rw [bitNumber_long cpu.long, ht]; exact h3
    | some ty =>
      rw [ht] at h
      cases ty with
      | bitNum =>
        dsimp only at h
        unfold readOperands at h
        obtain ⟨q, hq, he⟩ := Option.map_eq_some_iff.1 h
        obtain ⟨t', r'⟩ := q
        cases he
        obtain ⟨vs, m, h1, h2, h3⟩ := ih bs t' hb hq
        refine ⟨b :: vs, m, ?_, ?_, ?_⟩
        · unfold written; rw [ht]; dsimp only; rw [h1]; rfl
        · unfold operandCode; rw [ht]; exact h2
        · rw [bitNumber_long cpu.long, ht]; intro v hv; exact (Option.some.inj hv).symm
      | rst =>
        dsimp only at h
        unfold readOperands at h
        obtain ⟨q, hq, he⟩ := Option.map_eq_some_iff.1 h
        obtain ⟨t', r'⟩ := q
        cases he
        obtain ⟨vs, m, h1, h2, h3⟩ := ih bs t' hb hq
        have henc : ∃ x, encode cpu.ez80 128 .rst size 0 (8 * (b : Int)) = some x := by
          refine ⟨_, if_pos ?_⟩
          omega
        obtain ⟨x, henc⟩ := henc
        refine ⟨8 * b :: vs, x ++ m, ?_, ?_, ?_⟩
        · unfold written; rw [ht]; dsimp only; rw [h1]; rfl
        · unfold operandCode; rw [ht]; dsimp only; rw [henc, h2]
        · rw [bitNumber_long cpu.long, ht]; exact h3
      | num8 =>
        dsimp only at h
        cases bs with
        | nil => cases h
        | cons x bs =>
          unfold readOperands at h
          obtain ⟨q, hq, he⟩ := Option.map_eq_some_iff.1 h
          obtain ⟨t', r'⟩ := q
          cases he
          obtain ⟨vs, m, h1, h2, h3⟩ := ih bs t' (fun y hy => hb y (by simp [hy])) hq
          have hx := hb x (by simp)
          refine ⟨x :: vs, [((x : Int) % 256).toNat] ++ m, ?_, ?_, ?_⟩
          · unfold written; rw [ht]; dsimp only; rw [h1]
            show Tok.num ((x : Int) % 256) :: _ = _
            rw [show (x : Int) % 256 = x by omega]
          · unfold operandCode; rw [ht]; dsimp only; rw [h2]; rfl
          · rw [bitNumber_long cpu.long, ht]; exact h3
      | num16 =>
        dsimp only at h
        match bs, h with
        | [], h => cases h
        | [_], h => cases h
        | x :: y :: bs, h =>
          unfold readOperands at h
          rw [if_neg (by rw [short_of ht]; decide)] at h
          obtain ⟨q, hq, he⟩ := Option.map_eq_some_iff.1 h
          obtain ⟨t', r'⟩ := q
          cases he
          obtain ⟨vs, m, h1, h2, h3⟩ := ih bs t' (fun y hy => hb y (by simp [hy])) hq
          have hx := hb x (by simp)
          have hy := hb y (by simp)
          refine ⟨(x + 256 * y) :: vs, [(((x : Int) + 256 * y) % 256).toNat, (((x : Int) + 256 * y) / 256 % 256).toNat] ++ m, ?_, ?_, ?_⟩
          · unfold written; rw [ht]; dsimp only; rw [h1]
            show Tok.num (((x : Int) + 256 * y) % 65536) :: _ = _
            rw [show ((x : Int) + 256 * y) % 65536 = x + 256 * y by omega]
          · unfold operandCode; rw [ht]; dsimp only; rw [h2]; rfl
          · rw [bitNumber_long cpu.long, ht]; exact h3
      | num24 =>
        dsimp only at h
        match bs, h with
        | [], h => cases h
        | [_], h => cases h
        | [_, _], h => unfold readOperands at h; rw [if_pos (long_of ht)] at h; cases h
        | x :: y :: z :: bs, h =>
          unfold readOperands at h
          rw [if_pos (long_of ht)] at h
          obtain ⟨q, hq, he⟩ := Option.map_eq_some_iff.1 h
          obtain ⟨t', r'⟩ := q
          cases he
          obtain ⟨vs, m, h1, h2, h3⟩ := ih bs t' (fun y hy => hb y (by simp [hy])) hq
          have hx := hb x (by simp)
          have hy := hb y (by simp)
          have hz := hb z (by simp)
          refine ⟨(x + 256 * y + 65536 * z) :: vs, [(((x : Int) + 256 * y + 65536 * z) % 256).toNat, (((x : Int) + 256 * y + 65536 * z) / 256 % 256).toNat,
            (((x : Int) + 256 * y + 65536 * z) / 65536 % 256).toNat] ++ m, ?_, ?_, ?_⟩
          · unfold written; rw [ht]; dsimp only; rw [h1]
            show Tok.num (((x : Int) + 256 * y + 65536 * z) % 16777216) :: _ = _
            rw [show ((x : Int) + 256 * y + 65536 * z) % 16777216 = x + 256 * y + 65536 * z by omega]
          · unfold operandCode; rw [ht]; dsimp only; rw [h2]; rfl
          · rw [bitNumber_long cpu.long, ht]; exact h3
      | addrOffset =>
        dsimp only at h
        cases bs with
        | nil => cases h
        | cons x bs =>
          unfold readOperands at h
          obtain ⟨q, hq, he⟩ := Option.map_eq_some_iff.1 h
          obtain ⟨t', r'⟩ := q
          cases he
          obtain ⟨vs, m, h1, h2, h3⟩ := ih bs t' (fun y hy => hb y (by simp [hy])) hq
          have hx := hb x (by simp)
          have hd : ∃ d : Int, (if x < 128 then (x : Int) else x - 256) = d ∧ -128 ≤ d ∧ d ≤ 127 := ⟨_, rfl, by split <;> omega⟩
          obtain ⟨d, hd, hr⟩ := hd
          rw [hd]
          obtain ⟨space, hspace, hsp⟩ : ∃ space : Int, (if cpu.ez80 = true then (16777216 : Int) else 65536) = space ∧ (space = 16777216 ∨ space = 65536) :=
            ⟨_, rfl, by split <;> simp⟩
          have hv : (128 + size + d) % space - (128 % space + size) = d := by rcases hsp with rfl | rfl <;> omega
          have henc : ∃ y, encode cpu.ez80 128 .addrOffset size 0 (128 + size + d) = some y := by
            unfold encode
            dsimp only
            rw [hspace]
            refine ⟨_, if_pos ?_⟩
            rw [hv]
            exact hr
          obtain ⟨y, henc⟩ := henc
          refine ⟨(128 + size + d) :: vs, y ++ m, ?_, ?_, ?_⟩
          · unfold written; rw [ht]; dsimp only; rw [h1]
            unfold operandValue
            dsimp only
            rw [hspace, hv]
          · unfold operandCode; rw [ht]; dsimp only; rw [henc, h2]
          · rw [bitNumber_long cpu.long, ht]; exact h3
      | ixIyOffset =>
        dsimp only at h
        cases bs with
        | nil => cases h
        | cons x bs =>
          unfold readOperands at h
          obtain ⟨q, hq, he⟩ := Option.map_eq_some_iff.1 h
          obtain ⟨t', r'⟩ := q
          cases he
          obtain ⟨vs, m, h1, h2, h3⟩ := ih bs t' (fun y hy => hb y (by simp [hy])) hq
          have hx := hb x (by simp)
          have hd : ∃ d : Int, (if x < 128 then (x : Int) else x - 256) = d ∧ -128 ≤ d ∧ d ≤ 127 := ⟨_, rfl, by split <;> omega⟩
          obtain ⟨d, hd, hr⟩ := hd
          rw [hd]
          have henc : ∃ y, encode cpu.ez80 128 .ixIyOffset size 0 d = some y := ⟨_, if_pos hr⟩
          obtain ⟨y, henc⟩ := henc
          refine ⟨d :: vs, y ++ m, ?_, ?_, ?_⟩
          · unfold written; rw [ht]; dsimp only; rw [h1]; rfl
          · unfold operandCode; rw [ht]; dsimp only; rw [henc, h2]
          · rw [bitNumber_long cpu.long, ht]; exact h3

theorem plain_formsOf {i : Index} {op : Nat} {f : Form} (h : cpu.plain i op = some f) : some f ∈ formsOf cpu op := by
  rw [← h]; unfold formsOf; cases i <;> simp

theorem bit_formsOf {i : Index} {op : Nat} {f : Form} (h : cpu.bit i op = some f) : some f ∈ formsOf cpu op := by
  rw [← h]; unfold formsOf; cases i <;> simp

theorem ext_formsOf {op : Nat} {f : Form} (h : cpu.ext op = some f) : some f ∈ formsOf cpu op := by
  rw [← h]; unfold formsOf; simp

theorem opcodeOf_form (bs : List Nat) (hb : ∀ x ∈ bs, x < 256) (f : Form) (r : List Nat) (h : opcodeOf cpu bs = some (f, r)) :
    (∀ x ∈ r, x < 256) ∧ ∃ op < 256, some f ∈ formsOf cpu op := by
  unfold opcodeOf at h
  split at h
  case h_8 => cases h
  all_goals
    obtain ⟨g, hg, he⟩ := Option.map_eq_some_iff.1 h
    cases he
    refine ⟨fun x hx => hb x (by grind), ?_⟩
    first
      | exact ⟨_, hb _ (by simp), plain_formsOf hg⟩
      | exact ⟨_, hb _ (by simp), bit_formsOf hg⟩
      | exact ⟨_, hb _ (by simp), ext_formsOf hg⟩

theorem complete {table : List Opcode} (htab : allEntries cpu table = true) (bs rest : List Nat) (hb : ∀ x ∈ bs, x < 256) (m : List Nat)
    (t : List Tok) (h : decode cpu bs = some (m, t, rest)) :
    ∃ o ∈ table, ∃ i ∈ o.instrs, ∃ vs bs', o.name = m ∧ written cpu.ez80 cpu.long 128 i.size i.args vs = t ∧
      codeBytes cpu.ez80 cpu.long 128 i.size i vs = some bs' := by
  unfold decode at h
  obtain ⟨⟨f, r⟩, hop, h⟩ := Option.bind_eq_some_iff.1 h
  obtain ⟨⟨t', r'⟩, hread, he⟩ := Option.map_eq_some_iff.1 h
  cases he
  obtain ⟨hr, op, hop8, hf⟩ := opcodeOf_form bs hb f r hop
  have ha := htab
  unfold allEntries at ha
  rw [List.all_eq_true] at ha
  have ha := ha op (List.mem_range.2 hop8)
  rw [List.all_eq_true] at ha
  have ha := ha _ hf
  unfold hasEntry at ha
  simp only [List.any_eq_true, Bool.and_eq_true, decide_eq_true_eq, beq_iff_eq, List.mem_range] at ha
  obtain ⟨o, ho, hn, i, hi, hs, hc⟩ := ha
  have hb8 : op / 8 % 8 < 8 := Nat.mod_lt _ (by decide)
  generalize op / 8 % 8 = b at *
  dsimp only at hread
  rw [← readOperands_chars, hc] at hread
  obtain ⟨vs, mid, h1, h2, h3⟩ := encodable i.size hs b hb8 i.args r _ _ hr hread
  have : ∃ bs', codeBytes cpu.ez80 cpu.long 128 i.size i vs = some bs' := by
    unfold codeBytes
    rw [h2]
    dsimp only
    split
    · cases hbn : bitNumber i.args vs with
      | none => exact ⟨_, rfl⟩
      | some v =>
        rw [h3 v hbn]
        refine ⟨_, by dsimp only; rw [show encode cpu.ez80 128 .bitNum i.size i.endData b = _ from if_pos (by omega)]; rfl⟩
    · exact ⟨_, rfl⟩
  obtain ⟨bs', hbs⟩ := this
  exact ⟨o, ho, i, hi, vs, bs', hn, h1, hbs⟩

/-- C52: every instruction the decoder knows can be written and assembled: the table has an entry of that mnemonic
whose pattern, with suitable operand values, is the decoded text. (Jump distances are taken at address 128.) -/
theorem C52_complete (bs rest : List Nat) (hb : ∀ x ∈ bs, x < 256) (m : List Nat) (t : List Tok) (h : decode z80 bs = some (m, t, rest)) :
    ∃ o ∈ z80Table, ∃ i ∈ o.instrs, ∃ vs bs', o.name = m ∧ written false false 128 i.size i.args vs = t ∧
      codeBytes false false 128 i.size i vs = some bs' :=
  complete all_entries bs rest hb m t h

example : decode z80 [0xDD, 0xCB, 0xFE, 0x5E, 0x00] = some (b! "BIT", [.num 3, .ch 44, .ch 40, .ch 73, .ch 88, .num (-2), .ch 41], [0x00]) := by
  decide

example : codeBytes false false 0x9D95 4 ⟨b! "^,(IX@)", [0xdd, 0xcb], true, 0x46, 4, 20, 20, 0⟩ [3, -2] = some [0xDD, 0xCB, 0xFE, 0x5E] := by decide +kernel

end Spasm.Props
