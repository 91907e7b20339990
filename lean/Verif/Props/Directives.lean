import Verif.Props.Data

/-
Directives that change the position: .org and .seek (C48).
-/

namespace Spasm.Props
open Spasm Spec

/-- A statement that is a directive with one expression: blanks, a dot and the name, a blank, the expression. -/
theorem lineSec_directive (k : Nat) (name : Str) (dir : Dir) (h1 : ∀ x ∈ name, isSpace x = false) (h2 : name.length < 32)
    (h3 : (dirNames.find? (fun d => eqCase d.1 name)).map (·.2) = some dir)
    (b b1 t r : Str) (c : Nat) (hb : Blanks b) (hb1 : Blanks b1) (hc : c = 32 ∨ c = 9)
    (ht : ∃ x y, t = x :: y ∧ isBlank x = false) (s : S) :
    (knot (k + 1)).lineSec (b ++ 46 :: name ++ c :: b1 ++ t ++ r) s = runDir (knot k) dir (t ++ r) s := by
  show lineSecBody (knot k) _ s = _
  unfold lineSecBody
  have e1 : b ++ 46 :: name ++ c :: b1 ++ t ++ r = b ++ 46 :: (name ++ c :: (b1 ++ t ++ r)) := by simp
  have hlen : ∀ r : Str, (b ++ 46 :: (name ++ r)).length + 1 = (b ++ (name ++ r)).length + 2 := by intro r; simp; omega
  have hbl : ∀ r, skipWs (c :: r) = skipWs r := fun r => skipWs_blanks [c] _ (by intro x hx; simp at hx; subst hx; omega)
  have hsk : skipWs (b1 ++ t ++ r) = t ++ r := by
    obtain ⟨x, y, rfl, hx⟩ := ht
    rw [show b1 ++ x :: y ++ r = b1 ++ (x :: y ++ r) by simp, skipWs_blanks _ _ hb1]
    exact skipWs_cons _ _ hx
  rw [e1, hlen, lineSec_dot _ _ _ hb]
  have := directive_named (knot k) name dir c (b1 ++ t ++ r) hc h1 h2 h3
  rw [List.cons_append] at this
  rw [this, hbl, hsk]

/-- Reading and evaluating the expression of a directive. -/
theorem directive_value (k d : Nat) (t b2 rest : Str) (v : Int) (s : S) (h : Denotes (toI32 s.pc) (visibleLabel s) (visibleText s) d t v)
    (hd : d < 20) (hk : d < k) (hb2 : Blanks b2) (hl : (t ++ b2).length ≤ 254) (hrest : AtEnd rest) :
    readExpr [] (t ++ b2 ++ rest) true s = .ok (true, t, rest) s ∧
    parseNum (knot k) t s = .ok (some v) { s with parseDepth := 0, fwdRef := false } := by
  have nb : Blanks [] := by intro c hc; simp at hc
  have h1 := readExpr_denotes [] (.inl rfl) h [] b2 rest s nb hb2 hl (AtEnd.stops hrest _)
  have h2 := C03_value s d k [] t [] [] v h hd hk nb nb (.inl rfl)
  simp only [List.nil_append, List.append_nil] at h1 h2
  exact ⟨h1, h2⟩

theorem nonblank_start {pc : Int} {label : Str → Option Int} {text : Str → Option Str} {d : Nat} {t : Str} {v : Int} (h : Denotes pc label text d t v) :
    ∃ x y, t = x :: y ∧ isBlank x = false := by
  obtain ⟨c, r, hc, hs⟩ := Denotes_start h
  exact ⟨c, r, hc, Starter.nonblank hs⟩

/-- .org with an operand whose value is known. -/
theorem org_reads (name : Str) (hn : name ∈ [b! "org", b! "ORG"]) (k : Nat) (b b1 t b2 rest : Str) (c : Nat)
    (v p : Int) (s : S) (h : Reading k t v s p) (hl : (t ++ b2).length ≤ 254)
    (hb : Blanks b) (hb1 : Blanks b1) (hb2 : Blanks b2) (hc : c = 32 ∨ c = 9) (hrest : AtEnd rest) :
    (knot (k + 1)).lineSec (b ++ 46 :: name ++ c :: b1 ++ t ++ (b2 ++ rest)) s = .ok (some rest)
      (if 0 ≤ v then { s with pc := v, parseDepth := p, fwdRef := false }
       else errorAt 0x107 { s with parseDepth := p, fwdRef := false }) := by
  have nb : Blanks [] := by intro c hc; simp at hc
  have e1 := h.read [] (.inl rfl) [] b2 rest s nb hb2 hl (AtEnd.stops hrest _)
  rw [List.nil_append] at e1
  have e2 := h.value
  have hdir : (∀ x ∈ name, isSpace x = false) ∧ name.length < 32 ∧ (dirNames.find? (fun d => eqCase d.1 name)).map (·.2) = some .org := by
    simp only [List.mem_cons, List.not_mem_nil, or_false] at hn
    rcases hn with rfl | rfl <;> decide
  rw [lineSec_directive k name .org hdir.1 hdir.2.1 hdir.2.2 b b1 t _ c hb hb1 hc h.start s, ← List.append_assoc]
  show dirOrg (knot k) _ s = _
  unfold dirOrg
  rw [M.bind_ok e1]
  dsimp only
  have hne : (skipWs t).isEmpty = false := by
    obtain ⟨x, y, rfl, hx⟩ := h.start
    rw [skipWs_cons _ _ hx]; rfl
  simp only [if_true, hne, Bool.not_true, Bool.or_false, M.when_false]
  rw [M.bind_ok e2]
  dsimp only
  by_cases hv : v < 0
  · rw [if_pos hv, if_neg (by omega), M.bind_ok (setError_apply _ _ (by decide))]
    rfl
  · rw [if_neg hv, if_pos (by omega)]
    rfl

/-- C48, .org: the address becomes the value of the expression, and neither the output nor the output position
changes; a negative value is reported (error 107h) and the address stays. -/
theorem C48_org (name : Str) (hn : name ∈ [b! "org", b! "ORG"]) (k d : Nat) (hd : d < 20) (hk : d < k) (b b1 t b2 rest : Str) (c : Nat)
    (v : Int) (s : S) (h : Denotes (toI32 s.pc) (visibleLabel s) (visibleText s) d t v) (hl : (t ++ b2).length ≤ 254)
    (hb : Blanks b) (hb1 : Blanks b1) (hb2 : Blanks b2) (hc : c = 32 ∨ c = 9) (hrest : AtEnd rest) :
    (knot (k + 1)).lineSec (b ++ 46 :: name ++ c :: b1 ++ t ++ (b2 ++ rest)) s = .ok (some rest)
      (if 0 ≤ v then { s with pc := v, parseDepth := 0, fwdRef := false }
       else errorAt 0x107 { s with parseDepth := 0, fwdRef := false }) :=
  org_reads name hn k b b1 t b2 rest c v 0 s (.denotes h hd hk) hl hb hb1 hb2 hc hrest

example (s : S) : Denotes (toI32 s.pc) (visibleLabel s) (visibleText s) 0 (b! "1 + 2*3") 9 := spec_left_to_right s

/-- C48, .seek, partial: for an address in the lower half of the address range, .seek moves the output position by as
much as it moves the address. If the new position is outside the output buffer (8000000 bytes), this is reported as a
fatal error.

Missing for the full property, because the program does not do it: positions behind the output produced so far are not
rejected (`C48_seek_gap`), and after the report the position is moved all the same. -/
theorem C48_seek_partial (name : Str) (hn : name ∈ [b! "seek", b! "SEEK"]) (k d : Nat) (hd : d < 20) (hk : d < k) (b b1 t b2 rest : Str)
    (c : Nat) (v : Int) (s : S) (h : Denotes (toI32 s.pc) (visibleLabel s) (visibleText s) d t v) (hl : (t ++ b2).length ≤ 254)
    (hb : Blanks b) (hb1 : Blanks b1) (hb2 : Blanks b2) (hc : c = 32 ∨ c = 9) (hrest : AtEnd rest)
    (hv : 0 ≤ v ∧ v < 2147483648) (hpc : 0 ≤ s.pc ∧ s.pc < 2147483648) (hout : 0 ≤ s.outPtr ∧ s.outPtr ≤ 8000000) :
    ∃ s', (knot (k + 1)).lineSec (b ++ 46 :: name ++ c :: b1 ++ t ++ (b2 ++ rest)) s = .ok (some rest) s' ∧
      s'.pc = v ∧ s'.outPtr = s.outPtr + (v - s.pc) ∧ s'.mem = s.mem ∧ s'.errors = s.errors ∧ s'.labels = s.labels ∧
      s'.defines = s.defines ∧
      (0 ≤ s'.outPtr ∧ s'.outPtr ≤ 8000000 → s'.log = s.log ∧ s'.exitCode = s.exitCode ∧ s'.errOccurred = s.errOccurred) ∧
      (¬ (0 ≤ s'.outPtr ∧ s'.outPtr ≤ 8000000) → s'.log = s.log ++ [.fatal .seekRange] ∧ 3 ≤ s'.exitCode ∧ s'.errOccurred = true) := by
  obtain ⟨e1, e2⟩ := directive_value k d t b2 rest v s h hd hk hb2 hl hrest
  have hdir : (∀ x ∈ name, isSpace x = false) ∧ name.length < 32 ∧ (dirNames.find? (fun d => eqCase d.1 name)).map (·.2) = some .seek := by
    simp only [List.mem_cons, List.not_mem_nil, or_false] at hn
    rcases hn with rfl | rfl <;> decide
  rw [lineSec_directive k name .seek hdir.1 hdir.2.1 hdir.2.2 b b1 t _ c hb hb1 hc (nonblank_start h) s, ← List.append_assoc]
  show ∃ s', dirSeek (knot k) _ s = _ ∧ _
  unfold dirSeek
  rw [M.bind_ok e1]
  dsimp only
  rw [M.bind_ok e2, M.get_bind]
  simp only [Option.getD_some]
  have hu : toU32 v = v := by unfold toU32; omega
  have hi : toI32 s.pc = s.pc := by unfold toI32; omega
  have h32 : inI32 (v - s.pc) = true := by unfold inI32 intMin intMax; simp; omega
  have hw : toU32 (v - s.pc) = (v - s.pc) % 4294967296 := rfl
  simp only [hu, hi, h32, Bool.not_true, Bool.false_eq_true, if_false, hw]
  by_cases hr : 0 ≤ s.outPtr + (v - s.pc) ∧ s.outPtr + (v - s.pc) ≤ 8000000
  · rw [if_neg (by unfold outputBufSize; omega), if_neg (by omega)]
    exact ⟨_, rfl, rfl, rfl, rfl, rfl, rfl, rfl, fun _ => ⟨rfl, rfl, rfl⟩, fun h => absurd hr h⟩
  · have fin : ∃ s', (do showFatal .seekRange; (do M.modify fun x => { x with outPtr := x.outPtr + (v - s.pc), pc := v, sought := true }; pure (some rest)) : M (Option Str))
        { s with parseDepth := 0, fwdRef := false } = .ok (some rest) s' ∧
      s'.pc = v ∧ s'.outPtr = s.outPtr + (v - s.pc) ∧ s'.mem = s.mem ∧ s'.errors = s.errors ∧ s'.labels = s.labels ∧
      s'.defines = s.defines ∧
      (0 ≤ s'.outPtr ∧ s'.outPtr ≤ 8000000 → s'.log = s.log ∧ s'.exitCode = s.exitCode ∧ s'.errOccurred = s.errOccurred) ∧
      (¬ (0 ≤ s'.outPtr ∧ s'.outPtr ≤ 8000000) → s'.log = s.log ++ [.fatal .seekRange] ∧ 3 ≤ s'.exitCode ∧ s'.errOccurred = true) := by
      refine ⟨_, rfl, rfl, rfl, rfl, rfl, rfl, rfl, fun h => absurd h hr, fun _ => ⟨rfl, ?_, rfl⟩⟩
      show 3 ≤ if s.exitCode < 3 then 3 else s.exitCode
      split <;> omega
    by_cases hp : v > s.pc
    · rw [if_pos (by unfold outputBufSize; omega)]
      exact fin
    · rw [if_neg (by omega), if_pos (by omega)]
      exact fin

/-- C48 fails: a position behind the output produced so far is accepted; the bytes in between are whatever the buffer
held. -/
theorem C48_seek_gap :
    exitStatus (asm (b! " .db 1\n .seek 5\n .db 2\n") [b! "a.asm"]) = some 0 ∧
    (asm (b! " .db 1\n .seek 5\n .db 2\n") [b! "a.asm"]).state.log = [.wrote (b! "a.bin") [1, 0, 0, 0, 0, 2]] := by
  decide +kernel

example : (asm (b! " .org $9D95\n .dw $,$\n .seek $9D95\n .db 7\n .seek $9D99\n") [b! "a.asm"]).state.log =
    [.wrote (b! "a.bin") [7, 0x9D, 0x97, 0x9D]] := by decide +kernel

end Spasm.Props
