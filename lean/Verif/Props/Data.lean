import Verif.Lemmas.Data
import Verif.Props.Split
import Verif.Props.Run

/-
Data directives: .db, .dw, .dl with operand lists (C46).
-/

namespace Spasm.Props
open Spasm Spec

theorem joined_length {args : List Str} {t : Str} (h : Joined args t) : args.length ≤ t.length := by
  induction h with
  | one b a b' _ _ ha _ =>
    have := List.length_pos_iff.2 ha.trimmed.1
    simp; omega
  | more b a b' as t _ _ _ _ _ ih => simp; omega

/-- What evaluating operands leaves alone. -/
theorem visibleLabel_afterData (bs ws : List Nat) (d : Int) (f : Bool) (s : S) : visibleLabel (afterData bs ws d f s) = visibleLabel s := rfl

theorem visibleText_afterData (bs ws : List Nat) (d : Int) (f : Bool) (s : S) (h : InSession s) :
    visibleText (afterData bs ws d f s) = visibleText s := by
  have h1 : Settled (afterData bs ws d f s) ↔ Settled s := by
    refine ⟨fun h' => ⟨h'.1, h.2⟩, fun h' => ⟨h'.1, fun e he => ?_⟩⟩
    rcases List.mem_append.1 he with he | he
    · obtain ⟨c, -, rfl⟩ := List.mem_map.1 he
      exact Int.le_refl _
    · exact h.2 e he
  funext name
  unfold visibleText
  simp only [h1]
  rfl

theorem inSession_afterData (bs ws : List Nat) (d : Int) (f : Bool) (s : S) (h : InSession s) : InSession (afterData bs ws d f s) := by
  refine ⟨h.1, fun e he => ?_⟩
  rcases List.mem_append.1 he with he | he
  · obtain ⟨c, -, rfl⟩ := List.mem_map.1 he
    exact Int.le_refl _
  · exact h.2 e he

theorem hasRoom_afterData (n : Nat) (bs ws : List Nat) (d : Int) (f : Bool) (s : S) (h : HasRoom (bs.length + n) s) :
    HasRoom n (afterData bs ws d f s) := by
  obtain ⟨h1, h2⟩ := h
  constructor
  · show 0 ≤ s.outPtr + _
    omega
  · show s.outPtr + _ + _ ≤ _
    push_cast at h2
    omega

/-- The conditions under which operands are emitted. -/
structure Ready (n : Nat) (s : S) : Prop where
  inSession : InSession s
  room : HasRoom n s
  writes : s.mode.normal = true ∨ s.mode.list = true
  pc : 0 ≤ s.pc ∧ s.pc < 4294967296

theorem Ready.afterData {n : Nat} {s : S} (bs ws : List Nat) (d : Int) (f : Bool) (h : Ready (bs.length + n) s) :
    Ready n (afterData bs ws d f s) :=
  ⟨inSession_afterData _ _ _ _ _ h.inSession, hasRoom_afterData _ _ _ _ _ _ h.room, h.writes, by
    show 0 ≤ (s.pc + _) % 4294967296 ∧ (s.pc + _) % 4294967296 < 4294967296
    omega⟩

/-- One operand. -/
theorem emitLoop_number (ty : Es) (hty : 0 < ty.width) (k d g : Nat) (e e' : Bool) (se : Option Int) (t t' r : Str) (v : Int) (s : S)
    (hx : extractArg e t s = .ok (some t', e', r) s) (hs : Ready ty.width s)
    (h : Denotes (toI32 s.pc) (visibleLabel s) (visibleText s) d t' v) (hd : d < 20) (hk : d < k) :
    emitLoop (knot k) ty (g + 1) e se [] t s = emitLoop (knot k) ty g e' (some (s.session + 1)) [] r
      (afterData (littleEndian ty.width v) (truncation s.mode.ez80 ty.width v) 0 false s) := by
  rw [emitLoop, M.bind_ok hx]
  dsimp only
  have h34 : (Spasm.hd t' == 34) = false := by
    obtain ⟨c, r, rfl, hs⟩ := Denotes_start h
    unfold Starter' Starter Alnum at hs
    simp only [Spasm.hd, beq_eq_false_iff_ne]
    omega
  rw [h34, if_neg (by decide)]
  have hst : startSession s = .ok (s.session + 1) { s with session := s.session + 1 } := rfl
  rw [M.bind_ok hst]
  rw [M.bind_ok (emitNum_denotes ty hty s k d t' v hs.inSession h hd hk hs.room)]
  simp

theorem emitLoop_text (ty : Es) (hty : 0 < ty.width) (k g : Nat) (e e' : Bool) (se : Option Int) (t r body cs : Str) (s : S)
    (hx : extractArg e t s = .ok (some (34 :: body ++ [34]), e', r) s) (hs : Ready cs.length s) (h : Chars body cs) :
    ∃ d f, emitLoop (knot (k + 1)) ty (g + 1) e se [] t s = emitLoop (knot (k + 1)) ty g e' se [] r (afterData cs [] d f s) := by
  obtain ⟨d, f, hr⟩ := reduceString_chars k h s
  refine ⟨d, f, ?_⟩
  rw [emitLoop, M.bind_ok hx]
  dsimp only
  rw [if_pos (by simp [Spasm.hd]), nextExpr_string _ body (chars_stringBody h) (by decide)]
  simp only [List.isEmpty_nil, Bool.not_true, Bool.false_eq_true, if_false]
  rw [M.bind_ok hr]
  have hdat : ty.data.isSome = true := by cases ty <;> first | rfl | simp [Es.width] at hty
  have hsh : ty.shows = false := by cases ty <;> first | rfl | simp [Es.width] at hty
  have he := emitChars_ok cs { s with parseDepth := d, fwdRef := f } (fun c hc => (chars_range h c hc).2) hs.room
    (by have := hs.writes; simpa using this) hs.pc
  rw [if_pos hdat, M.bind_ok he, hsh]
  rfl

theorem emitLoop_end (ty : Es) (k : Rec) (g : Nat) (se : Option Int) (r : Str) (hr : EndsList r) (s : S) :
    emitLoop k ty (g + 1) false se [] r s = .ok (r, []) s := by
  rw [emitLoop, M.bind_ok (extractArg_end hr s)]
  rfl

theorem emitLoop_data (ty : Es) (hty : 0 < ty.width) (k depth : Nat) (hd : depth ≤ 20) (hk : depth ≤ k) (hk0 : 0 < k)
    {ez : Bool} {label : Str → Option Int} {text : Str → Option Str} {pc : Nat} {args : List Str} {bs ws : List Nat}
    (h : Data ez label text depth ty.width pc args bs ws) :
    ∀ (t r : Str) (s : S) (g : Nat) (e : Bool) (se : Option Int), Joined args t → EndsList r → args.length < g → Ready bs.length s →
      s.mode.ez80 = ez → visibleLabel s = label → visibleText s = text → toI32 s.pc = asInt32 pc →
      ∃ d f, emitLoop (knot k) ty g e se [] (t ++ r) s = .ok (r, []) (afterData bs ws d f s) := by
  have hpc : ∀ (s : S) (pc : Nat) (bs ws : List Nat) (d : Int) (f : Bool), toI32 s.pc = asInt32 pc →
      toI32 (afterData bs ws d f s).pc = asInt32 (pc + bs.length) := by
    intro s pc bs ws d f h
    rw [← toI32_eq_asInt32] at h ⊢
    show toI32 ((s.pc + bs.length) % 4294967296) = _
    unfold toI32 at *
    omega
  induction h with
  | nil pc => intro t r s g e se hj; cases hj
  | number pc d t' v args bs ws hden hdep hdat ih =>
    intro t r s g e se hj hr hg hs hez hl htx hpc0
    have hlen := littleEndian_length ty.width v
    have hs1 : Ready ty.width s := ⟨hs.inSession, ⟨hs.room.1, by have := hs.room.2; simp [hlen] at this; omega⟩, hs.writes, hs.pc⟩
    have hden' : Denotes (toI32 s.pc) (visibleLabel s) (visibleText s) d t' v := by rw [hl, htx, hpc0]; exact hden
    obtain ⟨g, rfl⟩ : ∃ m, g = m + 1 := ⟨g - 1, by omega⟩
    cases hj with
    | one b a b' hb hb' ha hle =>
      cases hdat
      refine ⟨0, false, ?_⟩
      rw [emitLoop_number ty hty k d g e false se _ t' r v s (C42_last_argument b t' b' r e s hb hb' ha hle hr) hs1 hden' (by omega) (by omega)]
      obtain ⟨g, rfl⟩ : ∃ m, g = m + 1 := ⟨g - 1, by simp at hg; omega⟩
      rw [emitLoop_end ty _ g _ r hr, hez]
      simp
    | more b a b' as t2 hb hb' ha hle hj =>
      have hx := C42_argument b t' b' (t2 ++ r) e s hb hb' ha hle
      obtain ⟨d2, f2, e2⟩ := ih t2 r (afterData (littleEndian ty.width v) (truncation s.mode.ez80 ty.width v) 0 false s) g true
        (some (s.session + 1)) hj hr (by simp at hg; omega) (Ready.afterData _ _ _ _ (by simpa using hs)) hez hl
        ((visibleText_afterData _ _ _ _ _ hs.inSession).trans htx)
        (by rw [hpc _ _ _ _ _ _ hpc0, hlen])
      refine ⟨d2, f2, ?_⟩
      rw [show b ++ t' ++ b' ++ [44] ++ t2 ++ r = b ++ t' ++ b' ++ [44] ++ (t2 ++ r) by simp,
        emitLoop_number ty hty k d g e true se _ t' _ v s hx hs1 hden' (by omega) (by omega), e2,
        afterData_afterData _ _ _ _ _ _ _ _ _ hs.room.1, hez]
  | string pc body cs args bs ws hch hdat ih =>
    intro t r s g e se hj hr hg hs hez hl htx hpc0
    have hs1 : Ready cs.length s := ⟨hs.inSession, ⟨hs.room.1, by have := hs.room.2; simp at this; omega⟩, hs.writes, hs.pc⟩
    obtain ⟨g, rfl⟩ : ∃ m, g = m + 1 := ⟨g - 1, by omega⟩
    obtain ⟨k, rfl⟩ : ∃ m, k = m + 1 := ⟨k - 1, by omega⟩
    cases hj with
    | one b a b' hb hb' ha hle =>
      cases hdat
      obtain ⟨d, f, e1⟩ := emitLoop_text ty hty k g e false se _ r body cs s (C42_last_argument b _ b' r e s hb hb' ha hle hr) hs1 hch
      refine ⟨d, f, ?_⟩
      rw [e1]
      obtain ⟨g, rfl⟩ : ∃ m, g = m + 1 := ⟨g - 1, by simp at hg; omega⟩
      rw [emitLoop_end ty _ g _ r hr]
      simp
    | more b a b' as t2 hb hb' ha hle hj =>
      obtain ⟨d, f, e1⟩ := emitLoop_text ty hty k g e true se _ (t2 ++ r) body cs s (C42_argument b _ b' (t2 ++ r) e s hb hb' ha hle) hs1 hch
      obtain ⟨d2, f2, e2⟩ := ih t2 r (afterData cs [] d f s) g true
        se hj hr (by simp at hg; omega) (Ready.afterData _ _ _ _ (by simpa using hs)) hez hl
        ((visibleText_afterData _ _ _ _ _ hs.inSession).trans htx)
        (by rw [hpc _ _ _ _ _ _ hpc0])
      refine ⟨d2, f2, ?_⟩
      rw [show ∀ x : Str, b ++ x ++ b' ++ [44] ++ t2 ++ r = b ++ x ++ b' ++ [44] ++ (t2 ++ r) by simp, e1, e2,
        afterData_afterData _ _ _ _ _ _ _ _ _ hs.room.1]
      rfl

theorem emitStringBody_data (ty : Es) (hty : 0 < ty.width) (k depth : Nat) (hd : depth ≤ 20) (hk : depth ≤ k) (hk0 : 0 < k)
    {pc : Nat} {args : List Str} {bs ws : List Nat} (t r : Str) (s : S)
    (h : Data s.mode.ez80 (visibleLabel s) (visibleText s) depth ty.width pc args bs ws)
    (hj : Joined args t) (hr : EndsList r) (hs : Ready bs.length s) (hpc : s.pc = pc) :
    ∃ d f, emitStringBody (knot k) (t ++ r) ty s = .ok (r, []) (afterData bs ws d f s) := by
  obtain ⟨d, f, e⟩ := emitLoop_data ty hty k depth hd hk hk0 h t r { s with emitLevel := s.emitLevel + 1 }
    ((t ++ r).length + 2) true none hj hr (by have := joined_length hj; simp; omega)
    ⟨hs.inSession, hs.room, hs.writes, hs.pc⟩ rfl rfl rfl (by rw [← toI32_eq_asInt32]; show toI32 s.pc = _; rw [hpc])
  refine ⟨d, f, ?_⟩
  unfold emitStringBody
  rw [M.modify_bind, M.bind_ok e]
  dsimp only
  rw [M.get_bind, M.modify_bind]
  have hty' : (ty == .echoOut) = false := by cases ty <;> first | rfl | simp [Es.width] at hty
  rw [hty', Bool.and_false, if_neg (by decide)]
  have e2 : ∀ s : S, { afterData bs ws d f { s with emitLevel := s.emitLevel + 1 } with emitLevel := (afterData bs ws d f { s with emitLevel := s.emitLevel + 1 }).emitLevel - 1 }
      = afterData bs ws d f s := by
    intro s
    have : s.emitLevel + 1 - 1 = s.emitLevel := by omega
    unfold afterData emitted
    simp only [this]
  rw [e2]
  rfl

/-- The type of operands for each width. -/
def esOf (n : Nat) : Es := if n = 1 then .byte else if n = 2 then .word else .long

/-- Directive names are recognised. -/
theorem directive_named (k : Rec) (name : Str) (d : Dir) (c : Nat) (r : Str) (hc : c = 32 ∨ c = 9)
    (h1 : ∀ x ∈ name, isSpace x = false) (h2 : name.length < 32)
    (h3 : (dirNames.find? (fun d => eqCase d.1 name)).map (·.2) = some d) :
    handleDirective k (46 :: name ++ c :: r) = runDir k d (skipWs (c :: r)) := by
  have hsp : isSpace c = true := by rcases hc with rfl | rfl <;> rfl
  have ht : (name ++ c :: r).takeWhile (fun c => !isSpace c) = name := by
    rw [List.takeWhile_append_of_pos (by simpa using h1), List.takeWhile_cons, if_neg (by simp [hsp]), List.append_nil]
  have hdr : (name ++ c :: r).dropWhile (fun c => !isSpace c) = c :: r := by
    rw [List.dropWhile_append_of_pos (by simpa using h1), List.dropWhile_cons, if_neg (by simp [hsp])]
  unfold handleDirective findDir
  simp only [List.cons_append, List.tail_cons, ht, hdr, if_pos h2, h3]

theorem findDir_data (k : Rec) : ∀ p ∈ dataDirectives, ∀ (c : Nat) (r : Str), (c = 32 ∨ c = 9) →
    handleDirective k (p.1 ++ c :: r) = (do pure (some (← k.emitString (skipWs (c :: r)) (esOf p.2)).1)) := by
  intro p hp c r hc
  simp only [dataDirectives, List.mem_cons, List.not_mem_nil, or_false] at hp
  rcases hp with rfl | rfl | rfl | rfl | rfl | rfl | rfl | rfl | rfl | rfl | rfl | rfl
  · exact directive_named k (b! "db") .db c r hc (by decide) (by decide) (by decide)
  · exact directive_named k (b! "DB") .db c r hc (by decide) (by decide) (by decide)
  · exact directive_named k (b! "byte") .byte c r hc (by decide) (by decide) (by decide)
  · exact directive_named k (b! "BYTE") .byte c r hc (by decide) (by decide) (by decide)
  · exact directive_named k (b! "dw") .dw c r hc (by decide) (by decide) (by decide)
  · exact directive_named k (b! "DW") .dw c r hc (by decide) (by decide) (by decide)
  · exact directive_named k (b! "word") .word c r hc (by decide) (by decide) (by decide)
  · exact directive_named k (b! "WORD") .word c r hc (by decide) (by decide) (by decide)
  · exact directive_named k (b! "dl") .dl c r hc (by decide) (by decide) (by decide)
  · exact directive_named k (b! "DL") .dl c r hc (by decide) (by decide) (by decide)
  · exact directive_named k (b! "long") .long c r hc (by decide) (by decide) (by decide)
  · exact directive_named k (b! "LONG") .long c r hc (by decide) (by decide) (by decide)

/-- A statement that begins with a dot, with or without blanks before it, is a directive. -/
theorem lineSec_dot (k : Rec) (b t : Str) (hb : Blanks b) (f : Nat) (s : S) :
    lineSecLoop k (f + 2) (b ++ 46 :: t) s = handleDirective k (46 :: t) s := by
  have h0 : ∀ g, lineSecLoop k (g + 1) (46 :: t) s = handleDirective k (46 :: t) s := by
    intro g
    rw [lineSecLoop]
    dsimp only
    rw [if_neg (show ¬ isEnd (46 :: t) = true from by simp [isEnd, hd]), if_neg (show ¬ (isAlpha (hd (46 :: t)) || hd (46 :: t) == 95) = true by
      show ¬ (isAlpha 46 || 46 == 95) = true; decide), if_neg (show ¬ isSpace (hd (46 :: t)) = true by show ¬ isSpace 46 = true; decide),
      if_pos (show (hd (46 :: t) == 46) = true from rfl)]
  cases b with
  | nil => exact h0 _
  | cons c b =>
    have hs : skipWs (c :: b ++ 46 :: t) = 46 :: t := by
      rw [skipWs_blanks _ _ hb, skipWs_cons _ _ (by decide)]
    have hc := hb c (by simp)
    rw [lineSecLoop]
    have h1 : isEnd (c :: b ++ 46 :: t) = false := by rcases hc with rfl | rfl | rfl | rfl <;> rfl
    have h2 : (isAlpha (hd (c :: b ++ 46 :: t)) || hd (c :: b ++ 46 :: t) == 95) = false := by rcases hc with rfl | rfl | rfl | rfl <;> rfl
    have h3 : isSpace (hd (c :: b ++ 46 :: t)) = true := by rcases hc with rfl | rfl | rfl | rfl <;> rfl
    dsimp only
    rw [h1, h2, h3, hs]
    simp only [Bool.false_eq_true, if_false, if_true]
    rw [if_neg (show ¬ (isAlpha (hd (46 :: t)) || hd (46 :: t) == 95) = true by show ¬ (isAlpha 46 || 46 == 95) = true; decide), h0]

/-- Blanks before the first operand do not matter. -/
theorem joined_skip {args : List Str} {t : Str} (h : Joined args t) : ∃ t', Joined args t' ∧ ∀ r, skipWs (t ++ r) = t' ++ r := by
  have key : ∀ (b a u : Str), Blanks b → Argument a → ∀ r, skipWs (b ++ a ++ u ++ r) = a ++ u ++ r := by
    intro b a u hb ha r
    rw [show b ++ a ++ u ++ r = b ++ (a ++ u ++ r) by simp, skipWs_blanks _ _ hb]
    obtain ⟨hne, hw, -⟩ := ha.trimmed
    cases a with
    | nil => exact absurd rfl hne
    | cons c a =>
      have := hw c rfl
      rw [← isSpace_iff] at this
      exact skipWs_cons _ _ (by unfold isBlank; simp [this])
  have nb : Blanks [] := by intro c hc; simp at hc
  cases h with
  | one b a b' hb hb' ha hl => exact ⟨a ++ b', by simpa using Joined.one [] a b' nb hb' ha hl, fun r => key b a b' hb ha r⟩
  | more b a b' as t hb hb' ha hl hj =>
    refine ⟨a ++ (b' ++ [44] ++ t), by simpa using Joined.more [] a b' as t nb hb' ha hl hj, fun r => ?_⟩
    have := key b a (b' ++ [44] ++ t) hb ha r
    simpa using this

/-- C46: a data directive places the bytes of its operands, in order: numbers with the width of the directive and the
least significant byte first, strings as their characters. Its address advances by the number of bytes. Warnings are
put on record exactly for numbers that lose bits; nothing else in the state changes. The operand list may be of any
length, with blanks anywhere between the tokens; expressions are nested less than 20 deep.

Missing for the full property: operands that are defines or not yet known labels (these are C16 to C18), and strings
with the escape for the character 0, for which the program is wrong (`C46_escaped_nul`). -/
theorem C46_data_partial (name : Str) (n : Nat) (hn : (name, n) ∈ dataDirectives) (k depth : Nat) (hd : depth ≤ 20) (hk : depth ≤ k)
    (hk0 : 0 < k) (pc : Nat) (args : List Str) (bs ws : List Nat) (b : Str) (c : Nat) (t rest : Str) (s : S)
    (h : Data s.mode.ez80 (visibleLabel s) (visibleText s) depth n pc args bs ws) (hj : Joined args t)
    (hb : Blanks b) (hc : c = 32 ∨ c = 9) (hrest : AtEnd rest)
    (hpc : s.pc = pc ∧ pc < 4294967296) (hs : InSession s) (hroom : HasRoom bs.length s)
    (hmode : s.mode.normal = true ∨ s.mode.list = true) :
    ∃ depth' fwd, (knot (k + 2)).lineSec (b ++ name ++ c :: t ++ rest) s =
      .ok (some rest) (afterData bs ws depth' fwd s) := by
  have hr : EndsList rest := by
    rcases hrest with rfl | ⟨c, r, rfl, h⟩
    · exact .inl rfl
    · exact .inr ⟨c, r, rfl, by omega⟩
  have hw : (esOf n).width = n ∧ 0 < n ∧ ∃ m, name = 46 :: m := by
    simp only [dataDirectives, List.mem_cons, List.not_mem_nil, or_false, Prod.mk.injEq] at hn
    rcases hn with h | h | h | h | h | h | h | h | h | h | h | h <;> obtain ⟨rfl, rfl⟩ := h <;> exact ⟨rfl, by decide, _, rfl⟩
  obtain ⟨hw, hn0, m, hm⟩ := hw
  obtain ⟨t', hj', hsk⟩ := joined_skip hj
  obtain ⟨d, f, e⟩ := emitStringBody_data (esOf n) (by omega) k depth hd hk hk0 t' rest s (by rw [hw]; exact h) hj' hr
    ⟨hs, hroom, hmode, by omega⟩ hpc.1
  refine ⟨d, f, ?_⟩
  show lineSecBody (knot (k + 1)) _ s = _
  unfold lineSecBody
  have e1 : b ++ name ++ c :: t ++ rest = b ++ 46 :: (m ++ c :: (t ++ rest)) := by rw [hm]; simp
  have hlen : (b ++ 46 :: (m ++ c :: (t ++ rest))).length + 1 = (b ++ (m ++ c :: (t ++ rest))).length + 2 := by simp; omega
  have e2 := findDir_data (knot (k + 1)) (name, n) hn c (t ++ rest) hc
  rw [hm, List.cons_append] at e2
  have hbl : skipWs (c :: (t ++ rest)) = skipWs (t ++ rest) :=
    skipWs_blanks [c] _ (by intro x hx; simp at hx; subst hx; omega)
  rw [e1, hlen, lineSec_dot _ _ _ hb, e2, hbl, hsk]
  have e3 : (knot (k + 1)).emitString (t' ++ rest) (esOf n) s = .ok (rest, []) (afterData bs ws d f s) := e
  rw [M.bind_ok e3]
  rfl

/-- The operands of the example: a number that depends on its own address, a string, and an expression. -/
example (label : Str → Option Int) (text : Str → Option Str) : Data false label text 1 2 0x8000 [b! "$+1", b! "\"a\\nb\"", b! "2*3"] [1, 0x80, 97, 10, 98, 6, 0] [] := by
  have lit := fun pc => atom_digit pc label
  have nb : Blanks [] := by intro c hc; simp at hc
  have n1 : Denotes (asInt32 0x8000) label text 0 (b! "$+1") 0x8001 :=
    .join 0 [36] _ [] .add [43] [] 0 [49] 1 _ (.one 0 _ _ (.plain 0 _ _ (.atom _ _ .here))) nb nb (by decide) (by simp)
      (.plain 0 _ _ (.atom _ _ (lit _ 49 (by omega) (by omega)))) (by decide)
  have n3 : Denotes (asInt32 0x8005) label text 0 (b! "2*3") 6 :=
    .join 0 [50] 2 [] .mul [42] [] 0 [51] 3 _ (.one 0 _ _ (.plain 0 _ _ (.atom _ _ (lit _ 50 (by omega) (by omega))))) nb nb (by decide)
      (by simp) (.plain 0 _ _ (.atom _ _ (lit _ 51 (by omega) (by omega)))) (by decide)
  have c2 : Chars (b! "a\\nb") [97, 10, 98] :=
    .char 97 _ _ (by decide) (by decide) (by decide) (by decide) (.escape 110 10 _ _ (by decide) (by decide)
      (.char 98 _ _ (by decide) (by decide) (by decide) (by decide) .nil))
  exact .number _ 0 _ _ _ _ _ n1 (by decide) (.string _ _ _ _ _ _ c2 (.number _ 0 _ _ _ _ _ n3 (by decide) (.nil _)))

/-- C46 fails for strings with the escape for the character 0: of `"a\0b"`, the program places the opening quote and
the `a`. -/
theorem C46_escaped_nul :
    exitStatus (asm (b! " .db \"a\\0b\",1\n") [b! "a.asm"]) = some 0 ∧
    (asm (b! " .db \"a\\0b\",1\n") [b! "a.asm"]).state.log = [.wrote (b! "a.bin") [34, 97, 1]] := by
  decide +kernel

/-- The same statement without it. -/
example : (asm (b! " .dw $+1, \"a\\nb\",2*3\n .fill 2,-1\n .fill 1") [b! "a.asm"]).state.log =
    [.wrote (b! "a.bin") [1, 0, 97, 10, 98, 6, 0, 255, 255, 0]] := by decide +kernel

/-! ### .fill and .block -/

theorem writeFill_ok (v : Int) : ∀ (n : Nat) (s : S), HasRoom n s →
    writeFill v n s = .ok () (emitted (List.replicate n (v % 256).toNat) s)
  | 0, s, _ => by rw [List.replicate_zero, emitted_nil]; rfl
  | n + 1, s, h => by
    have h0 := h.1
    have h1 := h.2
    push_cast at h1
    rw [writeFill, M.bind_ok (writeOut_ok v s ⟨h0, by omega⟩), writeFill_ok v n _ (by rw [hasRoom_emitted _ _ _ h0]; simpa [Nat.add_comm] using h),
      emitted_append _ _ _ h0]
    rfl

theorem readExpr_denotes (delims : Str) (hdel : delims = [] ∨ delims = [44]) {pc : Int} {label : Str → Option Int} {text : Str → Option Str} {d : Nat} {t : Str} {v : Int}
    (h : Denotes pc label text d t v) (b b' r : Str) (s : S) (hb : Blanks b) (hb' : Blanks b') (hl : (t ++ b').length ≤ 254)
    (hr : Stops delims r) : readExpr delims (b ++ t ++ b' ++ r) true s = .ok (true, t, r) s := by
  refine readExpr_balanced true delims ?_ ?_ b t b' r s hb hb' ?_ (trimmed_denotes h) (fun _ => hl) hr
  · rcases hdel with rfl | rfl <;> decide
  · rcases hdel with rfl | rfl
    · intro c hc; simp at hc
    · exact comma_delims.2
  · rcases hdel with rfl | rfl
    · exact balanced_denotes h
    · exact (argument_denotes h).balanced

theorem AtEnd.stops {r : Str} (h : AtEnd r) (delims : Str) : Stops delims r := .inl h.isEnd

/-- An expression that is read from a line up to a delimiter and has a value. -/
structure Reading (k : Nat) (t : Str) (v : Int) (s : S) (p : Int) : Prop where
  start : ∃ x y, t = x :: y ∧ isBlank x = false
  read : ∀ delims, (delims = [] ∨ delims = [44]) → ∀ (b b' r : Str) (s' : S), Blanks b → Blanks b' → (t ++ b').length ≤ 254 → Stops delims r →
    readExpr delims (b ++ t ++ b' ++ r) true s' = .ok (true, t, r) s'
  value : parseNum (knot k) t s = .ok (some v) { s with parseDepth := p, fwdRef := false }

theorem Reading.denotes {k d : Nat} {t : Str} {v : Int} {s : S} (h : Denotes (toI32 s.pc) (visibleLabel s) (visibleText s) d t v)
    (hd : d < 20) (hk : d < k) : Reading k t v s 0 where
  start := by
    obtain ⟨c, r, hc, hs⟩ := Denotes_start h
    exact ⟨c, r, hc, Starter.nonblank hs⟩
  read := fun delims hdel b b' r s' hb hb' hl hr => readExpr_denotes delims hdel h b b' r s' hb hb' hl hr
  value := by
    have nb : Blanks [] := by intro c hc; simp at hc
    have h2 := C03_value s d k [] t [] [] v h hd hk nb nb (.inl rfl)
    simpa only [List.nil_append, List.append_nil] using h2

theorem atEnd_skip {r : Str} (h : AtEnd r) : skipWs r = r := by
  rcases h with rfl | ⟨c, t, rfl, h⟩
  · rfl
  · rcases h with rfl | rfl | rfl | rfl <;> rfl

/-- The end of .fill: size and value are known. -/
theorem fill_tail (size v : Int) (hsize : 0 ≤ size) (r : Str) (s : S) (room : HasRoom size.toNat s) :
    (if size < 0 then (do setError E.SIZE_MUST_BE_POSITIVE; pure (some r)) else do
      M.when (decide (v < -128 ∨ v > 255)) (setWarning E.WARN_TRUNCATING_8)
      countData size
      writeFill v size.toNat
      pure (some r) : M (Option Str)) s =
    .ok (some r) (afterData (List.replicate size.toNat (v % 256).toNat) (truncation s.mode.ez80 1 v) s.parseDepth s.fwdRef s) := by
  rw [if_neg (by omega)]
  have hn : ((size.toNat : Nat) : Int) = size := by omega
  have fin : ∀ s0 : S, HasRoom size.toNat s0 → (do countData size; writeFill v size.toNat; pure (some r) : M (Option Str)) s0 =
      .ok (some r) (afterData (List.replicate size.toNat (v % 256).toNat) [] s0.parseDepth s0.fwdRef s0) := by
    intro s0 h0
    have hc : countData size s0 = .ok () { s0 with statsData := s0.statsData + size, pc := toU32 (s0.pc + size) } := rfl
    rw [M.bind_ok hc, M.bind_ok (writeFill_ok v size.toNat { s0 with statsData := s0.statsData + size, pc := toU32 (s0.pc + size) } h0)]
    unfold afterData emitted toU32
    simp only [List.length_replicate, hn]
    rfl
  by_cases hv : -128 ≤ v ∧ v ≤ 255
  · rw [show decide (v < -128 ∨ v > 255) = false by simp; omega, M.when_false, M.pure_bind, fin s room]
    simp [truncation, hv]
  · rw [show decide (v < -128 ∨ v > 255) = true by simp; omega, M.when_true, M.bind_ok (setWarning_apply _ _ (by decide)),
      fin _ (by simpa using room)]
    simp only [truncation, hv, not_false_eq_true, and_true, if_true]
    rfl

/-- .fill and .block with operands whose values are known. -/
theorem fill_reads (name : Str) (hn : name ∈ [b! ".fill", b! ".FILL", b! ".block", b! ".BLOCK"]) (k : Nat)
    (b b1 t b2 : Str) (c : Nat) (size v : Int) (second rest : Str) (s : S) (p p' : Int)
    (hsize : Reading k t size s p) (hpos : 0 ≤ size) (hl : (t ++ b2).length ≤ 254)
    (h2 : (second = [] ∧ v = 0 ∧ p' = p) ∨ ∃ b3 t' b4, second = 44 :: b3 ++ t' ++ b4 ∧ Blanks b3 ∧ Blanks b4 ∧ (t' ++ b4).length ≤ 254 ∧
      Reading k t' v { s with parseDepth := p, fwdRef := false } p')
    (hb : Blanks b) (hb1 : Blanks b1) (hb2 : Blanks b2) (hc : c = 32 ∨ c = 9) (hrest : AtEnd rest) (hroom : HasRoom size.toNat s) :
    (knot (k + 1)).lineSec (b ++ name ++ c :: b1 ++ t ++ b2 ++ second ++ rest) s =
      .ok (some rest) (afterData (List.replicate size.toNat (v % 256).toNat) (truncation s.mode.ez80 1 v) p' false s) := by
  have hdir : ∀ r, handleDirective (knot k) (name ++ c :: r) = dirFill (knot k) (skipWs (c :: r)) := by
    intro r
    simp only [List.mem_cons, List.not_mem_nil, or_false] at hn
    rcases hn with rfl | rfl | rfl | rfl
    · exact directive_named _ (b! "fill") .fill c r hc (by decide) (by decide) (by decide)
    · exact directive_named _ (b! "FILL") .fill c r hc (by decide) (by decide) (by decide)
    · exact directive_named _ (b! "block") .block c r hc (by decide) (by decide) (by decide)
    · exact directive_named _ (b! "BLOCK") .block c r hc (by decide) (by decide) (by decide)
  obtain ⟨m, hm⟩ : ∃ m, name = 46 :: m := by
    simp only [List.mem_cons, List.not_mem_nil, or_false] at hn
    rcases hn with rfl | rfl | rfl | rfl <;> exact ⟨_, rfl⟩
  show lineSecBody (knot k) _ s = _
  unfold lineSecBody
  have e1 : b ++ name ++ c :: b1 ++ t ++ b2 ++ second ++ rest = b ++ 46 :: (m ++ c :: (b1 ++ t ++ b2 ++ (second ++ rest))) := by rw [hm]; simp
  have hlen : ∀ r : Str, (b ++ 46 :: (m ++ r)).length + 1 = (b ++ (m ++ r)).length + 2 := by intro r; simp; omega
  have hdir' := hdir (b1 ++ t ++ b2 ++ (second ++ rest))
  rw [hm, List.cons_append] at hdir'
  have hbl : ∀ r, skipWs (c :: r) = skipWs r := fun r => skipWs_blanks [c] _ (by intro x hx; simp at hx; subst hx; omega)
  have hsk : skipWs (b1 ++ t ++ b2 ++ (second ++ rest)) = [] ++ t ++ b2 ++ (second ++ rest) := by
    obtain ⟨x, y, h, hst⟩ := hsize.start
    rw [show b1 ++ t ++ b2 ++ (second ++ rest) = b1 ++ (t ++ (b2 ++ (second ++ rest))) by simp, skipWs_blanks _ _ hb1, h]
    simp only [List.cons_append, List.nil_append, List.append_assoc]
    exact skipWs_cons _ _ hst
  rw [e1, hlen, lineSec_dot _ _ _ hb, hdir', hbl, hsk]
  have nb : Blanks [] := by intro c hc; simp at hc
  have hst : Stops [44] (second ++ rest) := by
    rcases h2 with ⟨rfl, -⟩ | ⟨b3, t', b4, rfl, -⟩
    · exact AtEnd.stops hrest _
    · exact .inr (.inl (by simp [Spasm.hd]))
  have e2 := hsize.value
  unfold dirFill
  rw [M.bind_ok (hsize.read [44] (.inr rfl) [] b2 (second ++ rest) s nb hb2 hl hst)]
  dsimp only
  rw [M.bind_ok e2]
  simp only [Option.getD_some]
  rcases h2 with ⟨rfl, rfl, rfl⟩ | ⟨b3, t', b4, rfl, hb3, hb4, hl', hden⟩
  · have hr0 : readExpr [] (dropChar 44 (skipWs ([] ++ rest))) true { s with parseDepth := p', fwdRef := false } =
        .ok (false, [], rest) { s with parseDepth := p', fwdRef := false } := by
      have hdc : dropChar 44 rest = rest := by
        rcases hrest with rfl | ⟨c, t, rfl, h⟩
        · rfl
        · rcases h with rfl | rfl | rfl | rfl <;> rfl
      rw [List.nil_append, atEnd_skip hrest, hdc]
      unfold readExpr
      simp only [atEnd_skip hrest, hrest.isEnd, Bool.true_or, if_true]
    rw [M.bind_ok hr0]
    simp only [Bool.false_eq_true, if_false]
    rw [M.pure_bind]
    exact fill_tail size 0 hpos rest { s with parseDepth := _, fwdRef := false } hroom
  · have hdc : dropChar 44 (skipWs (44 :: b3 ++ t' ++ b4 ++ rest)) = b3 ++ t' ++ b4 ++ rest := by
      rw [List.cons_append, List.cons_append, List.cons_append, skipWs_cons _ _ (by decide)]
      rfl
    rw [hdc, M.bind_ok (hden.read [] (.inl rfl) b3 b4 rest { s with parseDepth := p, fwdRef := false } hb3 hb4 hl' (AtEnd.stops hrest _))]
    have e3 := hden.value
    simp only [if_true]
    rw [M.bind_ok e3, M.pure_bind, Option.getD_some]
    exact fill_tail size v hpos rest { s with parseDepth := p', fwdRef := false } hroom

/-- C46, .fill and .block: the given number of bytes of the given value (0 if there is none) are placed; the address
advances by this number. A warning is put on record exactly for a value outside -128..255. `second` is the second
operand, if any, with its value and the blanks around it. -/
theorem C46_fill (name : Str) (hn : name ∈ [b! ".fill", b! ".FILL", b! ".block", b! ".BLOCK"]) (k d : Nat) (hd : d < 20) (hk : d < k)
    (b b1 t b2 : Str) (c : Nat) (size v : Int) (second rest : Str) (s : S)
    (hsize : Denotes (toI32 s.pc) (visibleLabel s) (visibleText s) d t size) (hpos : 0 ≤ size) (hl : (t ++ b2).length ≤ 254)
    (h2 : (second = [] ∧ v = 0) ∨ ∃ b3 t' b4 d', second = 44 :: b3 ++ t' ++ b4 ∧ Blanks b3 ∧ Blanks b4 ∧ (t' ++ b4).length ≤ 254 ∧
      Denotes (toI32 s.pc) (visibleLabel s) (visibleText s) d' t' v ∧ d' < 20 ∧ d' < k)
    (hb : Blanks b) (hb1 : Blanks b1) (hb2 : Blanks b2) (hc : c = 32 ∨ c = 9) (hrest : AtEnd rest) (hroom : HasRoom size.toNat s) :
    (knot (k + 1)).lineSec (b ++ name ++ c :: b1 ++ t ++ b2 ++ second ++ rest) s =
      .ok (some rest) (afterData (List.replicate size.toNat (v % 256).toNat) (truncation s.mode.ez80 1 v) 0 false s) := by
  refine fill_reads name hn k b b1 t b2 c size v second rest s 0 0 (.denotes hsize hd hk) hpos hl ?_ hb hb1 hb2 hc hrest hroom
  rcases h2 with ⟨h2, h3⟩ | ⟨b3, t', b4, d', h3, h4, h5, h6, h7, h8, h9⟩
  · exact .inl ⟨h2, h3, rfl⟩
  · exact .inr ⟨b3, t', b4, h3, h4, h5, h6, .denotes (s := { s with parseDepth := 0, fwdRef := false }) h7 h8 h9⟩

end Spasm.Props
