import Verif.Lemmas.SplitExpr
import Verif.Props.Operands
import Verif.Props.Text
import Verif.Spec.Data
import Verif.Spec.Emit

/-
The operands of data directives.
-/

namespace Spasm
open Spec Props

theorem afterData_nil (s : S) (h : 0 ≤ s.pc ∧ s.pc < 4294967296) : afterData [] [] s.parseDepth s.fwdRef s = s := by
  unfold afterData
  rw [emitted_nil]
  have : s.pc % 4294967296 = s.pc := by omega
  simp [this]

theorem afterData_afterData (bs ws bs' ws' : List Nat) (d d' : Int) (f f' : Bool) (s : S) (h : 0 ≤ s.outPtr) :
    afterData bs' ws' d' f' (afterData bs ws d f s) = afterData (bs ++ bs') (ws ++ ws') d' f' s := by
  unfold afterData
  have e := emitted_append bs bs' s h
  unfold emitted at e ⊢
  simp only [S.mk.injEq] at e ⊢
  obtain ⟨-, -, -, -, -, -, -, -, -, h1, h2, -⟩ := e
  simp only [List.length_append, Int.natCast_add, List.reverse_append, List.map_append, List.append_assoc, and_true, true_and]
  refine ⟨?_, by simpa only [List.length_append] using h1, ?_, ?_⟩ <;> omega

/-- The width of a data operand. -/
def Es.width (ty : Es) : Nat := match ty with | .byte => 1 | .word => 2 | .long => 3 | _ => 0

theorem littleEndian_length (n : Nat) : ∀ v : Int, (littleEndian n v).length = n := by
  induction n with
  | zero => intro v; rfl
  | succ n ih => intro v; simp [littleEndian, ih]

theorem writeArg_data (ty : Es) (aty : ArgTy) (w : Int) (h : ty.data = some (aty, w)) (v : Int) (s : S) (room : HasRoom ty.width s) :
    writeArg v aty 0 0 s = .ok () { emitted (littleEndian ty.width v) s with
      errors := (truncation s.mode.ez80 ty.width v).map (fun c => ⟨c, s.session, true, s.lineNum, s.currFile⟩) ++ s.errors } := by
  cases ty <;> simp only [Es.data, Option.some.injEq, Prod.mk.injEq, reduceCtorEq] at h <;> obtain ⟨rfl, rfl⟩ := h
  · obtain ⟨b, hb, hv, e⟩ := C10_num8 v 0 0 s room
    rw [e]
    have : littleEndian 1 v = [b] := by simp only [littleEndian, List.cons.injEq, and_true]; omega
    rw [show Es.width .byte = 1 from rfl, this]
    unfold truncation
    by_cases hr : -128 ≤ v ∧ v ≤ 255
    · simp [hr, emitted]
    · simp [hr, emitted, warningAt]
  · obtain ⟨lo, hi, h1, h2, hv, e⟩ := C11_num16 v 0 0 s room
    rw [e]
    have : littleEndian 2 v = [lo, hi] := by simp only [littleEndian, List.cons.injEq, and_true]; omega
    rw [show Es.width .word = 2 from rfl, this]
    unfold truncation
    by_cases hr : s.mode.ez80 = true ∧ ¬ (-32768 ≤ v ∧ v ≤ 65535)
    · rw [if_pos hr]; simp [hr, emitted, warningAt]
    · rw [if_neg hr, if_neg (by omega), if_neg (by simpa using hr)]; simp [emitted]
  · obtain ⟨b0, b1, b2, h1, h2, h3, hv, e⟩ := C11_num24 v 0 0 s room
    rw [e]
    have : littleEndian 3 v = [b0, b1, b2] := by simp only [littleEndian, List.cons.injEq, and_true]; omega
    rw [show Es.width .long = 3 from rfl, this]
    simp [truncation, emitted]

/-- A number operand. -/
theorem emitNum_parsed (ty : Es) (hty : 0 < ty.width) (s : S) (k : Nat) (t : Str) (v p : Int) (hs : InSession s)
    (e : parseNum (knot k) t { s with session := s.session + 1 } = .ok (some v) { s with session := s.session + 1, parseDepth := p, fwdRef := false })
    (room : HasRoom ty.width s) :
    emitNum (knot k) ty t (s.session + 1) { s with session := s.session + 1 } =
      .ok [] (afterData (littleEndian ty.width v) (truncation s.mode.ez80 ty.width v) p false s) := by
  obtain ⟨aty, hdata⟩ : ∃ aty, ty.data = some (aty, (ty.width : Int)) := by cases ty <;> first | exact ⟨_, rfl⟩ | simp [Es.width] at hty
  have hshow : ty.shows = false := by cases ty <;> first | rfl | simp [Es.width] at hty
  unfold emitNum
  rw [M.bind_ok e, M.get_bind]
  simp only [hdata]
  rw [M.bind_ok (writeArg_data ty aty _ hdata v { s with session := s.session + 1, parseDepth := p, fwdRef := false } room)]
  obtain ⟨h1, h2⟩ := hs
  have hn : s.session + 1 ≠ 1 := by omega
  have hlow : lowerPrefix (s.session + 1) s.errors = s.errors := by
    cases he : s.errors with
    | nil => rfl
    | cons a l =>
      have := h2 a (by simp [he])
      unfold lowerPrefix
      rw [if_neg (by simp; omega)]
  have hdrop : s.errors.dropWhile (fun e => e.sess == s.session + 1) = s.errors := by
    cases he : s.errors with
    | nil => rfl
    | cons a l =>
      have := h2 a (by simp [he])
      rw [List.dropWhile_cons, if_neg (by simp; omega)]
  have hlen := littleEndian_length ty.width v
  have htr : truncation s.mode.ez80 ty.width v = [] ∨ ∃ c, truncation s.mode.ez80 ty.width v = [c] := by
    unfold truncation; split
    · exact .inr ⟨_, rfl⟩
    · split
      · exact .inr ⟨_, rfl⟩
      · exact .inl rfl
  simp only [countData, advance, M.bind_assoc, M.modify_bind, hshow]
  unfold afterData
  rw [hlen]
  rcases htr with htr | ⟨c, htr⟩
  · rw [htr]
    simp [M.bind_apply, replaySession, endSession, hn, hlow, hdrop, emitted, pure, M.pure', toU32]
  · rw [htr]
    simp [M.bind_apply, replaySession, endSession, hn, hlow, emitted, lowerPrefix, pure, M.pure', toU32]
    rw [List.dropWhile_cons, if_neg (by simp; omega)]

theorem emitNum_denotes (ty : Es) (hty : 0 < ty.width) (s : S) (k d : Nat) (t : Str) (v : Int) (hs : InSession s)
    (h : Denotes (toI32 s.pc) (visibleLabel s) (visibleText s) d t v) (hd : d < 20) (hk : d < k) (room : HasRoom ty.width s) :
    emitNum (knot k) ty t (s.session + 1) { s with session := s.session + 1 } =
      .ok [] (afterData (littleEndian ty.width v) (truncation s.mode.ez80 ty.width v) 0 false s) := by
  have e := C03_value { s with session := s.session + 1 } d k [] t [] [] v (by rw [visibleText_session s _ (by omega) hs.2]; exact h) hd hk (by intro c hc; simp at hc) (by intro c hc; simp at hc) (.inl rfl)
  simp only [List.nil_append, List.append_nil] at e
  exact emitNum_parsed ty hty s k t v 0 hs e room

theorem chars_stringBody {body cs : Str} (h : Chars body cs) : StringBody body := by
  induction h with
  | nil => exact .nil
  | char c t cs h1 h2 _ _ _ ih => exact .char c t h1 h2 ih
  | escape c v t cs _ _ _ ih => exact .escape c t ih

theorem chars_range {body cs : Str} (h : Chars body cs) : ∀ c ∈ cs, 0 < c ∧ c < 256 := by
  induction h with
  | nil => intro c hc; simp at hc
  | char c t cs h1 h2 h3 h4 _ ih =>
    intro x hx
    rcases List.mem_cons.1 hx with rfl | hx
    · exact ⟨h3, h4⟩
    · exact ih x hx
  | escape c v t cs he hv _ ih =>
    intro x hx
    rcases List.mem_cons.1 hx with rfl | hx
    · simp [escapes] at he; omega
    · exact ih x hx

theorem reduceLoop_chars (n : Nat) {body cs : Str} (h : Chars body cs) : ∀ (out : Str) (q : Nat) (s : S), ∃ d f,
    reduceLoop (knot (n + 1)) (body ++ [34]) out q s =
      .ok (34 :: cs.reverse ++ out, q + 1) { s with parseDepth := d, fwdRef := f } := by
  induction h with
  | nil => intro out q s; exact ⟨s.parseDepth, s.fwdRef, rfl⟩
  | char c t cs h1 h2 h3 h4 _ ih =>
    intro out q s
    obtain ⟨x, r, hx⟩ : ∃ x r, t ++ [34] = x :: r := by cases t <;> simp
    obtain ⟨d, f, e⟩ := ih (c :: out) q s
    refine ⟨d, f, ?_⟩
    rw [List.cons_append, hx, reduceLoop, if_neg (by simpa using h2), if_neg (by simpa using h1), ← hx, e]
    simp
  | escape c v t cs he hv _ ih =>
    intro out q s
    obtain ⟨d, f, e⟩ := ih (v.toNat :: out) q { s with parseDepth := 0, fwdRef := false }
    refine ⟨d, f, ?_⟩
    rw [List.cons_append, List.cons_append, reduceLoop]
    simp only [beq_self_eq_true, if_true]
    rw [M.bind_apply, C07_characters s n [39, 92, c, 39] v (.inr ⟨c, he, rfl⟩)]
    have hv' : (v % 256).toNat = v.toNat := by simp [escapes] at he; omega
    simp only [Option.getD_some, hv']
    rw [e]
    simp

theorem reduceString_chars (n : Nat) {body cs : Str} (h : Chars body cs) (s : S) : ∃ d f,
    reduceString (knot (n + 1)) (34 :: body ++ [34]) s = .ok cs { s with parseDepth := d, fwdRef := f } := by
  obtain ⟨x, r, hx⟩ : ∃ x r, body ++ [34] = x :: r := by cases body <;> simp
  obtain ⟨d, f, e⟩ := reduceLoop_chars n h [34] 1 s
  refine ⟨d, f, ?_⟩
  unfold reduceString
  have hl : reduceLoop (knot (n + 1)) (34 :: body ++ [34]) [] 0 s = .ok (34 :: cs.reverse ++ [34], 2) { s with parseDepth := d, fwdRef := f } := by
    rw [List.cons_append, hx, reduceLoop, if_neg (by decide), if_pos (by decide), ← hx, e]
  rw [M.bind_apply, hl]
  have e : (34 :: cs.reverse ++ [34] : Str).reverse = 34 :: (cs ++ [34]) := by simp
  have htw : (34 :: (cs ++ [34]) : Str).takeWhile (fun c => c != 0) = 34 :: (cs ++ [34]) := by
    apply takeWhile_self
    intro hc
    simp only [List.mem_cons, List.mem_append, List.not_mem_nil, or_false] at hc
    rcases hc with hc | hc | hc
    · omega
    · have := (chars_range h 0 hc).1
      omega
    · omega
  dsimp only
  rw [e, htw]
  have hr : hd (34 :: (cs ++ [34]) : Str).reverse = 34 := by simp [hd]
  rw [hr, if_pos (by simp [hd])]
  show Res.ok _ _ = _
  congr 1
  rw [← List.cons_append, List.dropLast_concat]
  rfl

theorem emitChars_ok : ∀ (cs : Str) (s : S), (∀ c ∈ cs, c < 256) → HasRoom cs.length s → (s.mode.normal || s.mode.list) = true →
    0 ≤ s.pc ∧ s.pc < 4294967296 → emitChars cs s = .ok () (afterData cs [] s.parseDepth s.fwdRef s)
  | [], s, _, _, _, hp => by rw [afterData_nil s hp]; rfl
  | c :: t, s, hc, room, hm, hp => by
    rw [emitChars, M.get_bind, hm, M.when_true, M.bind_ok (writeOut_ok c s ⟨room.1, by have := room.2; simp at this; omega⟩)]
    have h1 : countData 1 (emitted [((c : Int) % 256).toNat] s) = .ok () (afterData [c] [] s.parseDepth s.fwdRef s) := by
      have : ((c : Int) % 256).toNat = c := by have := hc c (by simp); omega
      rw [this]
      rfl
    rw [M.bind_ok h1, emitChars_ok t (afterData [c] [] s.parseDepth s.fwdRef s) (fun x hx => hc x (by simp [hx])) ?_ hm ?_]
    · show Res.ok () (afterData t [] _ _ (afterData [c] [] s.parseDepth s.fwdRef s)) = _
      rw [afterData_afterData _ _ _ _ _ _ _ _ _ room.1]
      rfl
    · have := room.1
      have := room.2
      constructor
      · show 0 ≤ s.outPtr + _
        omega
      · show s.outPtr + _ + _ ≤ _
        simp at *
        omega
    · show 0 ≤ (s.pc + _) % 4294967296 ∧ (s.pc + _) % 4294967296 < 4294967296
      omega

end Spasm
