import Verif.Props.Data
import Verif.Spec.Message

/-
C59: messages, `.echo` and `.error`.
-/

namespace Spasm.Props
open Spasm Spec

theorem decAux_digits : ∀ (f n : Nat) (acc : Str), n < 10 ^ f → 0 < f → decAux f n acc = decimalDigits n ++ acc
  | 0, _, _, _, h => absurd h (by omega)
  | f + 1, n, acc, hn, _ => by
    rw [decAux, decimalDigits]
    split
    · rfl
    · have : n / 10 < 10 ^ f := by
        rw [Nat.pow_succ] at hn
        omega
      rcases Nat.eq_zero_or_pos f with rfl | hf
      · simp at hn; omega
      · rw [decAux_digits f _ _ this hf]
        simp

theorem fmtInt_decimal (v : Int) (h1 : -2147483648 ≤ v) (h2 : v ≤ 2147483647) : fmtInt v = decimal v := by
  unfold fmtInt decimal fmtNat
  rw [decAux_digits 11 _ _ (by omega) (by omega)]
  split <;> simp

theorem escapeString_quoted (m : Str) : escapeString m = quoted m := by
  unfold escapeString quoted
  have : (fun c : Nat => if c == 34 then [92, 34] else if c == 92 then [92, 92] else [c]) = fun c => if c = 34 ∨ c = 92 then [92, c] else [c] := by
    funext c
    by_cases h1 : c = 34
    · subst h1; rfl
    · by_cases h2 : c = 92
      · subst h2; rfl
      · simp [h1, h2]
  rw [this]
  rfl

/-- The digits of messages. -/
theorem message_range {pc : Int} {label : Str → Option Int} {text : Str → Option Str} {depth : Nat} {args : List Str} {m : Str}
    (h : Message pc label text depth args m) : 0 ∉ m := by
  have hd : ∀ n : Nat, 0 ∉ decimalDigits n := by
    intro n
    induction n using Nat.strongRecOn with
    | ind n ih =>
      rw [decimalDigits]
      split
      · simp; omega
      · simp only [List.mem_append, List.mem_singleton, not_or]
        exact ⟨ih _ (by omega), by omega⟩
  induction h with
  | nil => simp
  | number d t v args m _ _ _ _ _ ih =>
    simp only [List.mem_append, not_or, decimal]
    refine ⟨⟨?_, hd _⟩, ih⟩
    split <;> simp
  | string body cs args m hc _ ih =>
    simp only [List.mem_append, not_or]
    exact ⟨fun h0 => by have := (chars_range hc 0 h0).1; omega, ih⟩

/-- A number operand of a message. -/
theorem emitNum_message (ty : Es) (hty : ty.data = none) (s : S) (k d : Nat) (t : Str) (v : Int) (hs : ∀ e ∈ s.errors, e.sess ≤ s.session) (h1 : 1 ≤ s.session)
    (h : Denotes (toI32 s.pc) (visibleLabel s) (visibleText s) d t v) (hd : d < 20) (hk : d < k) :
    emitNum (knot k) ty t (s.session + 1) { s with session := s.session + 1 } =
      .ok (if ty.shows then fmtInt v else []) { s with parseDepth := 0, fwdRef := false } := by
  unfold emitNum
  have e := C03_value { s with session := s.session + 1 } d k [] t [] [] v (by rw [visibleText_session s _ (by omega) hs]; exact h) hd hk (by intro c hc; simp at hc) (by intro c hc; simp at hc) (.inl rfl)
  simp only [List.nil_append, List.append_nil] at e
  rw [M.bind_ok e, M.get_bind]
  simp only [hty]
  have hn : s.session + 1 ≠ 1 := by omega
  have hlow : lowerPrefix (s.session + 1) s.errors = s.errors := by
    cases he : s.errors with
    | nil => rfl
    | cons a l =>
      have := hs a (by simp [he])
      unfold lowerPrefix
      rw [if_neg (by simp; omega)]
  have hdrop : s.errors.dropWhile (fun e => e.sess == s.session + 1) = s.errors := by
    cases he : s.errors with
    | nil => rfl
    | cons a l =>
      have := hs a (by simp [he])
      rw [List.dropWhile_cons, if_neg (by simp; omega)]
  simp [M.bind_apply, replaySession, endSession, hn, hlow, hdrop, pure, M.pure']

theorem emitLoop_message_number (ty : Es) (hty : ty.data = none) (k d g : Nat) (e e' : Bool) (se : Option Int) (out t t' r : Str) (v : Int) (s : S)
    (hx : extractArg e t s = .ok (some t', e', r) s) (hs : InSession s)
    (h : Denotes (toI32 s.pc) (visibleLabel s) (visibleText s) d t' v) (hd : d < 20) (hk : d < k) :
    emitLoop (knot k) ty (g + 1) e se out t s = emitLoop (knot k) ty g e' (some (s.session + 1)) (out ++ if ty.shows then fmtInt v else []) r
      { s with parseDepth := 0, fwdRef := false } := by
  rw [emitLoop, M.bind_ok hx]
  dsimp only
  have h34 : (Spasm.hd t' == 34) = false := by
    obtain ⟨c, r, rfl, hs⟩ := Denotes_start h
    unfold Starter' Starter Alnum at hs
    simp only [Spasm.hd, beq_eq_false_iff_ne]
    omega
  rw [h34, if_neg (by decide)]
  have hst : startSession s = .ok (s.session + 1) { s with session := s.session + 1 } := rfl
  rw [M.bind_ok hst, M.bind_ok (emitNum_message ty hty s k d t' v hs.2 hs.1 h hd hk)]

theorem emitLoop_message_text (ty : Es) (hty : ty.data = none) (k g : Nat) (e e' : Bool) (se : Option Int) (out t r body cs : Str) (s : S)
    (hx : extractArg e t s = .ok (some (34 :: body ++ [34]), e', r) s) (hb : StringBody body) (d : Int) (f : Bool)
    (h : reduceString (knot k) (34 :: body ++ [34]) s = .ok cs { s with parseDepth := d, fwdRef := f }) :
    emitLoop (knot k) ty (g + 1) e se out t s =
      emitLoop (knot k) ty g e' se (out ++ if ty.shows then cs else []) r { s with parseDepth := d, fwdRef := f } := by
  rw [emitLoop, M.bind_ok hx]
  dsimp only
  rw [if_pos (by simp [Spasm.hd]), nextExpr_string _ body hb (by decide)]
  simp only [List.isEmpty_nil, Bool.not_true, Bool.false_eq_true, if_false]
  rw [M.bind_ok h, hty]
  rfl

theorem visibleText_parse (s : S) (d : Int) (f : Bool) : visibleText { s with parseDepth := d, fwdRef := f } = visibleText s := rfl

theorem emitLoop_message (ty : Es) (hty : ty.data = none) (k depth : Nat) (hd : depth ≤ 20) (hk : depth ≤ k) (hk0 : 0 < k)
    {pc : Int} {label : Str → Option Int} {text : Str → Option Str} {args : List Str} {m : Str}
    (h : Message pc label text depth args m) :
    ∀ (t r : Str) (s : S) (g : Nat) (e : Bool) (se : Option Int) (out : Str), Joined args t → EndsList r → args.length < g → InSession s →
      visibleLabel s = label → visibleText s = text → toI32 s.pc = pc →
      ∃ d f, emitLoop (knot k) ty g e se out (t ++ r) s =
        .ok (r, out ++ if ty.shows then m else []) { s with parseDepth := d, fwdRef := f } := by
  have hend : ∀ g se out r s, EndsList r → emitLoop (knot k) ty (g + 1) false se out r s = .ok (r, out) s := by
    intro g se out r s hr
    rw [emitLoop, M.bind_ok (extractArg_end hr s)]
    rfl
  induction h with
  | nil => intro t r s g e se out hj; cases hj
  | number d t' v args m hden hdep h1 h2 hdat ih =>
    intro t r s g e se out hj hr hg hs hl htx hpc
    have hden' : Denotes (toI32 s.pc) (visibleLabel s) (visibleText s) d t' v := by rw [hl, htx, hpc]; exact hden
    obtain ⟨g, rfl⟩ : ∃ m, g = m + 1 := ⟨g - 1, by omega⟩
    cases hj with
    | one b a b' hb hb' ha hle =>
      cases hdat
      refine ⟨0, false, ?_⟩
      rw [emitLoop_message_number ty hty k d g e false se out _ t' r v s (C42_last_argument b t' b' r e s hb hb' ha hle hr) hs hden' (by omega) (by omega)]
      obtain ⟨g, rfl⟩ : ∃ m, g = m + 1 := ⟨g - 1, by simp at hg; omega⟩
      rw [hend g _ _ r _ hr, fmtInt_decimal v h1 h2]
      simp
    | more b a b' as t2 hb hb' ha hle hj =>
      have hx := C42_argument b t' b' (t2 ++ r) e s hb hb' ha hle
      obtain ⟨d2, f2, e2⟩ := ih t2 r { s with parseDepth := 0, fwdRef := false } g true
        (some (s.session + 1)) (out ++ if ty.shows then fmtInt v else []) hj hr (by simp at hg; omega) hs hl htx hpc
      refine ⟨d2, f2, ?_⟩
      rw [show b ++ t' ++ b' ++ [44] ++ t2 ++ r = b ++ t' ++ b' ++ [44] ++ (t2 ++ r) by simp,
        emitLoop_message_number ty hty k d g e true se out _ t' _ v s hx hs hden' (by omega) (by omega), e2, fmtInt_decimal v h1 h2]
      cases ty.shows <;> simp
  | string body cs args m hch hdat ih =>
    intro t r s g e se out hj hr hg hs hl htx hpc
    obtain ⟨g, rfl⟩ : ∃ m, g = m + 1 := ⟨g - 1, by omega⟩
    obtain ⟨k, rfl⟩ : ∃ m, k = m + 1 := ⟨k - 1, by omega⟩
    obtain ⟨d, f, hred⟩ := reduceString_chars k hch s
    cases hj with
    | one b a b' hb hb' ha hle =>
      cases hdat
      refine ⟨d, f, ?_⟩
      rw [emitLoop_message_text ty hty (k + 1) g e false se out _ r body cs s (C42_last_argument b _ b' r e s hb hb' ha hle hr) (chars_stringBody hch) d f hred]
      obtain ⟨g, rfl⟩ : ∃ m, g = m + 1 := ⟨g - 1, by simp at hg; omega⟩
      rw [hend g _ _ r _ hr]
      simp
    | more b a b' as t2 hb hb' ha hle hj =>
      obtain ⟨d2, f2, e2⟩ := ih t2 r { s with parseDepth := d, fwdRef := f } g true
        se (out ++ if ty.shows then cs else []) hj hr (by simp at hg; omega) hs hl htx hpc
      refine ⟨d2, f2, ?_⟩
      rw [show ∀ x : Str, b ++ x ++ b' ++ [44] ++ t2 ++ r = b ++ x ++ b' ++ [44] ++ (t2 ++ r) by simp,
        emitLoop_message_text ty hty (k + 1) g e true se out _ (t2 ++ r) body cs s (C42_argument b _ b' (t2 ++ r) e s hb hb' ha hle)
          (chars_stringBody hch) d f hred, e2]
      cases ty.shows <;> simp

theorem emitString_message (ty : Es) (hty : ty.data = none) (k depth : Nat) (hd : depth ≤ 20) (hk : depth ≤ k) (hk0 : 0 < k)
    {args : List Str} {m : Str} (t r : Str) (s : S) (h : Message (toI32 s.pc) (visibleLabel s) (visibleText s) depth args m)
    (hj : Joined args t) (hr : EndsList r) (hs : InSession s) :
    ∃ d f, (knot (k + 1)).emitString (t ++ r) ty s =
      .ok (r, if ty.shows then (if s.emitLevel = 0 ∧ ty = .echoOut then m ++ [10] else m) else []) { s with parseDepth := d, fwdRef := f } := by
  obtain ⟨d, f, e⟩ := emitLoop_message ty hty k depth hd hk hk0 h t r { s with emitLevel := s.emitLevel + 1 }
    ((t ++ r).length + 2) true none [] hj hr (by have := joined_length hj; simp; omega) hs rfl rfl rfl
  refine ⟨d, f, ?_⟩
  show emitStringBody (knot k) (t ++ r) ty s = _
  unfold emitStringBody
  rw [M.modify_bind, M.bind_ok e]
  dsimp only
  rw [M.get_bind, M.modify_bind]
  have e1 : s.emitLevel + 1 - 1 = s.emitLevel := by omega
  show Res.ok _ { s with parseDepth := d, fwdRef := f, emitLevel := s.emitLevel + 1 - 1 } = _
  rw [e1]
  congr 1
  cases ty <;> simp [Es.shows, Es.data] at hty ⊢

/-! ### `.error` -/

theorem endsList_of_atEnd {rest : Str} (h : AtEnd rest) : EndsList rest := by
  rcases h with rfl | ⟨c, r, rfl, h⟩
  · exact .inl rfl
  · exact .inr ⟨c, r, rfl, by omega⟩

/-- A directive in its line. -/
theorem lineSec_message (k : Rec) (b name : Str) (c : Nat) (t : Str) (d : Dir) (hb : Blanks b) (hc : c = 32 ∨ c = 9)
    (h1 : ∀ x ∈ name, isSpace x = false) (h2 : name.length < 32) (h3 : (dirNames.find? (fun d => eqCase d.1 name)).map (·.2) = some d) (s : S) :
    lineSecBody k (b ++ 46 :: name ++ c :: t) s = runDir k d (skipWs t) s := by
  unfold lineSecBody
  have e1 : b ++ 46 :: name ++ c :: t = b ++ 46 :: (name ++ c :: t) := by simp
  have hlen : (b ++ 46 :: (name ++ c :: t)).length + 1 = (b ++ (name ++ c :: t)).length + 2 := by simp; omega
  have hbl : skipWs (c :: t) = skipWs t := skipWs_blanks [c] _ (by intro x hx; simp at hx; subst hx; omega)
  have := directive_named k name d c t hc h1 h2 h3
  rw [List.cons_append] at this
  rw [e1, hlen, lineSec_dot _ _ _ hb, this, hbl]

/-- C59: `.error` with any message puts an error on record. Nothing else in the state changes. (The text of the error is not
part of the model.) -/
theorem C59_error (k depth : Nat) (hd : depth ≤ 20) (hk : depth ≤ k) (hk0 : 0 < k) (name : Str) (hn : name ∈ [b! ".error", b! ".ERROR"])
    (args : List Str) (m b : Str) (c : Nat) (t rest : Str) (s : S) (h : Message (toI32 s.pc) (visibleLabel s) (visibleText s) depth args m)
    (hj : Joined args t) (hb : Blanks b) (hc : c = 32 ∨ c = 9) (hrest : AtEnd rest) (hs : InSession s) :
    ∃ depth' fwd, (knot (k + 2)).lineSec (b ++ name ++ c :: t ++ rest) s =
      .ok (some rest) { errorAt 0x600 s with parseDepth := depth', fwdRef := fwd } := by
  obtain ⟨t', hj', hsk⟩ := joined_skip hj
  obtain ⟨d, f, e⟩ := emitString_message .fcreate rfl k depth hd hk hk0 t' rest s h hj' (endsList_of_atEnd hrest) hs
  refine ⟨d, f, ?_⟩
  have e1 : lineSecBody (knot (k + 1)) (b ++ name ++ c :: t ++ rest) s = runDir (knot (k + 1)) .error (skipWs (t ++ rest)) s := by
    rw [show b ++ name ++ c :: t ++ rest = b ++ name ++ c :: (t ++ rest) by simp]
    simp only [List.mem_cons, List.not_mem_nil, or_false] at hn
    rcases hn with rfl | rfl
    · exact lineSec_message _ b (b! "error") c _ .error hb hc (by decide) (by decide) (by decide) s
    · exact lineSec_message _ b (b! "ERROR") c _ .error hb hc (by decide) (by decide) (by decide) s
  show lineSecBody (knot (k + 1)) _ s = _
  rw [e1, hsk]
  show dirError (knot (k + 1)) (t' ++ rest) s = _
  unfold dirError
  rw [M.bind_ok e]
  rfl

/-! ### `.echo` -/

theorem balanced_any {d : Str} {i : Bool} {u : Str} (h : Balanced d i u) : Balanced [] i u := by
  induction h with
  | nil i => exact .nil i
  | char i c t h1 _ _ ih => exact .char i c t h1 (by simp) ih
  | quoted i c t h1 _ ih => exact .quoted i c t h1 ih
  | escaped i c t _ ih => exact .escaped i c t ih
  | string i b t h1 _ ih => exact .string i b t h1 ih
  | paren i u t _ _ ih1 ih2 => exact .paren i u t ih1 ih2

theorem balanced_white {b : Str} (h : Blanks b) : Balanced [] false b := by
  have := balanced_blanks [] (by simp) (.nil false) h
  simpa using this

/-- A list of operands is a balanced text. -/
theorem joined_whole {args : List Str} {t : Str} (h : Joined args t) :
    ∃ b u b', t = b ++ u ++ b' ∧ Blanks b ∧ Blanks b' ∧ Balanced [] false u ∧ Trimmed u ∧ Joined args u := by
  have nb : Blanks [] := by intro c hc; simp at hc
  induction h with
  | one b a b' hb hb' ha hl =>
    exact ⟨b, a, b', rfl, hb, hb', balanced_any ha.balanced, ha.trimmed, by
      simpa using Joined.one [] a [] nb nb ha (by simp at hl ⊢; omega)⟩
  | more b a b' as t hb hb' ha hl hj ih =>
    obtain ⟨c, u, c', rfl, hc, hc', hu, ht, hj'⟩ := ih
    refine ⟨b, a ++ (b' ++ ([44] ++ (c ++ u))), c', by simp, hb, hc', ?_, ?_, ?_⟩
    · refine balanced_append (balanced_any ha.balanced) (balanced_append (balanced_white hb') (balanced_append ?_ (balanced_append (balanced_white hc) hu)))
      exact .char _ _ _ (by decide) (by simp) (.nil _)
    · obtain ⟨h1, h2, -⟩ := ha.trimmed
      obtain ⟨h3, -, h4⟩ := ht
      refine ⟨by simp [h1], ?_, ?_⟩
      · cases a with
        | nil => exact absurd rfl h1
        | cons x a => simpa using h2
      · have : (a ++ (b' ++ ([44] ++ (c ++ u)))).getLast? = u.getLast? := by
          rw [show a ++ (b' ++ ([44] ++ (c ++ u))) = (a ++ b' ++ [44] ++ c) ++ u by simp, List.getLast?_append]
          cases hu : u.getLast? with
          | none => simp at hu; exact absurd hu h3
          | some x => rfl
        rw [this]; exact h4
    · have : Joined as (c ++ u) := by
        cases hj' with
        | one b0 a0 b0' g1 g2 g3 g4 =>
          rw [show c ++ (b0 ++ a0 ++ b0') = (c ++ b0) ++ a0 ++ b0' by simp]
          exact .one _ _ _ (by intro x hx; rcases List.mem_append.1 hx with hx | hx; exact hc x hx; exact g1 x hx) g2 g3 g4
        | more b0 a0 b0' as0 t0 g1 g2 g3 g4 g5 =>
          rw [show c ++ (b0 ++ a0 ++ b0' ++ [44] ++ t0) = (c ++ b0) ++ a0 ++ b0' ++ [44] ++ t0 by simp]
          exact .more _ _ _ _ _ (by intro x hx; rcases List.mem_append.1 hx with hx | hx; exact hc x hx; exact g1 x hx) g2 g3 g4 g5
      have := Joined.more [] a b' as _ nb hb' ha hl this
      simpa using this

theorem quoted_body (m : Str) : StringBody (m.flatMap (fun c => if c = 34 ∨ c = 92 then [92, c] else [c])) := by
  induction m with
  | nil => exact .nil
  | cons c m ih =>
    rw [List.flatMap_cons]
    by_cases h : c = 34 ∨ c = 92
    · rw [if_pos h]; exact .escape c _ ih
    · rw [if_neg h]; exact .char c _ (by omega) (by omega) ih

theorem skipQuoted_body {b : Str} (h : StringBody b) : skipQuoted (b ++ [34]) = [] := by
  induction h with
  | nil => rfl
  | char c t h1 h2 _ ih =>
    obtain ⟨x, r, hx⟩ : ∃ x r, t ++ [34] = x :: r := by cases t <;> simp
    rw [List.cons_append, hx, skipQuoted, if_neg (by simpa using h1), if_neg (by simpa using h2), ← hx, ih]
  | escape c t _ ih =>
    rw [List.cons_append, List.cons_append, skipQuoted, if_neg (by decide), if_pos (by decide), ih]

/-- Expansion leaves a string alone. -/
theorem expandExpr_quoted (k : Nat) (m : Str) (s : S) : expandExpr (knot (k + 1)) (quoted m) true s = .ok (quoted m) s := by
  show expandFullBody (knot k) (quoted m) 0 true s = _
  unfold expandFullBody
  rw [if_neg (by decide)]
  obtain ⟨f, hf⟩ : ∃ f, (quoted m).length + 1 = f + 2 := ⟨(quoted m).length - 1, by simp [quoted]⟩
  rw [hf, expandLoop]
  have h1 : (quoted m).isEmpty = false := rfl
  have h2 : (if hd (quoted m) == 34 then skipQuoted (quoted m).tail else quoted m) = [] := skipQuoted_body (quoted_body m)
  rw [h1]
  simp only [Bool.false_eq_true, if_false]
  rw [h2]
  have h3 : between (quoted m) [] = quoted m := by unfold between; simp
  rw [h3]
  simp only [takeName, List.takeWhile_nil, List.length_nil]
  show expandLoop (knot k) 0 true (f + 1) [] ([] ++ quoted m ++ between [] []) s = _
  rw [expandLoop]
  have h4 : ([] ++ quoted m ++ between [] [] : Str) = quoted m := by unfold between; simp
  rw [h4]
  rfl

/-- No problem of a new session is on record. -/
theorem new_session (s : S) (hs : ∀ e ∈ s.errors, e.sess ≤ s.session) : sessPrefix (s.session + 1) s.errors = [] ∧
    lowerPrefix (s.session + 1) s.errors = s.errors ∧ s.errors.dropWhile (fun e => e.sess == s.session + 1) = s.errors := by
  cases he : s.errors with
  | nil => exact ⟨rfl, rfl, rfl⟩
  | cons a l =>
    have := hs a (by simp [he])
    have hne : (a.sess == s.session + 1) = false := by simp; omega
    refine ⟨?_, ?_, ?_⟩
    · unfold sessPrefix; rw [List.takeWhile_cons, hne]; rfl
    · unfold lowerPrefix; rw [hne]; rfl
    · rw [List.dropWhile_cons, hne]; rfl

/-- The message of an `.echo`, kept for the second pass: the place of the statement and the message as a string. -/
def echoAt (s : S) (m : Str) : POut := ⟨toI32 s.pc, s.lineNum, s.currReusable - 1, quoted m, false, s.currFile⟩

/-- C59: `.echo` keeps its message, with the values its operands have at the statement, for the second pass. Nothing else in
the state changes. -/
theorem C59_echo_partial (k depth : Nat) (hd : depth ≤ 20) (hk : depth ≤ k) (hk0 : 0 < k) (name : Str) (hn : name ∈ [b! ".echo", b! ".ECHO"])
    (args : List Str) (m b : Str) (c : Nat) (t rest : Str) (s : S) (h : Message (toI32 s.pc) (visibleLabel s) (visibleText s) depth args m)
    (hj : Joined args t) (hl : t.length ≤ 254) (hb : Blanks b) (hc : c = 32 ∨ c = 9) (hrest : AtEnd rest) (hs : InSession s) :
    ∃ depth' fwd, (knot (k + 2)).lineSec (b ++ name ++ c :: t ++ rest) s =
      .ok (some rest) { s with outputs := s.outputs ++ [echoAt s m], parseDepth := depth', fwdRef := fwd } := by
  obtain ⟨b1, u, b2, rfl, hb1, hb2, hu, htr, hj⟩ := joined_whole hj
  have nb : Blanks [] := by intro c hc; simp at hc
  have hs1 : InSession { s with session := s.session + 1 } := ⟨show 1 ≤ s.session + 1 by have := hs.1; omega, fun e he => by
    show e.sess ≤ s.session + 1
    have := hs.2 e he
    omega⟩
  have hm1 : Message (toI32 s.pc) (visibleLabel { s with session := s.session + 1 }) (visibleText { s with session := s.session + 1 }) depth args m := by
    rw [visibleText_session s _ (by omega) hs.2]; exact h
  obtain ⟨d1, f1, e1⟩ := emitString_message .echoNull rfl k depth hd hk hk0 u [] { s with session := s.session + 1 } hm1 hj (.inl rfl) hs1
  obtain ⟨d2, f2, e2⟩ := emitString_message .fcreate rfl k depth hd hk hk0 u [] { s with session := s.session + 1, parseDepth := d1, fwdRef := f1 }
    hm1 hj (.inl rfl) hs1
  rw [List.append_nil] at e1 e2
  refine ⟨d2, f2, ?_⟩
  have hsk : skipWs (b1 ++ u ++ b2 ++ rest) = u ++ b2 ++ rest := by
    rw [show b1 ++ u ++ b2 ++ rest = b1 ++ (u ++ (b2 ++ rest)) by simp, skipWs_blanks _ _ hb1]
    obtain ⟨h1, h2, -⟩ := htr
    cases u with
    | nil => exact absurd rfl h1
    | cons x u =>
      have := h2 x rfl
      rw [← isSpace_iff] at this
      simpa using skipWs_cons x (u ++ (b2 ++ rest)) (by unfold isBlank; simp [this])
  have e0 : lineSecBody (knot (k + 1)) (b ++ name ++ c :: (b1 ++ u ++ b2) ++ rest) s = runDir (knot (k + 1)) .echo (u ++ b2 ++ rest) s := by
    rw [show b ++ name ++ c :: (b1 ++ u ++ b2) ++ rest = b ++ name ++ c :: (b1 ++ u ++ b2 ++ rest) by simp, ← hsk]
    simp only [List.mem_cons, List.not_mem_nil, or_false] at hn
    rcases hn with rfl | rfl
    · exact lineSec_message _ b (b! "echo") c _ .echo hb hc (by decide) (by decide) (by decide) s
    · exact lineSec_message _ b (b! "ECHO") c _ .echo hb hc (by decide) (by decide) (by decide) s
  show lineSecBody (knot (k + 1)) _ s = _
  rw [e0]
  show dirEcho (knot (k + 1)) (u ++ b2 ++ rest) s = _
  -- the first operand does not begin with `>`
  have h62 : (Spasm.hd (u ++ b2 ++ rest) == 62) = false := by
    have first : ∃ a x y, u = x ++ a ++ y ∧ Blanks x ∧ ∃ c r, a = c :: r ∧ c ≠ 62 ∧ ¬ White c := by
      have ha : ∀ a as, args = a :: as → ∃ c r, a = c :: r ∧ c ≠ 62 ∧ ¬ White c := by
        rintro a as rfl
        cases h with
        | number d t v args m hden =>
          obtain ⟨c, r, rfl, hs⟩ := Denotes_start hden
          unfold Starter' Starter Alnum at hs
          exact ⟨c, r, rfl, by omega, by unfold White; omega⟩
        | string body cs args m => exact ⟨34, _, rfl, by decide, by decide⟩
      cases hj with
      | one b a b' g1 g2 g3 g4 => exact ⟨a, b, b', rfl, g1, ha _ _ rfl⟩
      | more b a b' as t g1 g2 g3 g4 g5 => exact ⟨a, b, b' ++ [44] ++ t, by simp, g1, ha _ _ rfl⟩
    obtain ⟨a, x, y, rfl, hx, z, r, rfl, hz, hzw⟩ := first
    cases x with
    | nil => simpa [Spasm.hd] using hz
    | cons p x =>
      have := hx p (by simp)
      have h2 := htr.2.1 p (by simp)
      exfalso
      apply h2
      unfold White
      omega
  obtain ⟨n1, n2, n3⟩ := new_session s hs.2
  unfold dirEcho
  rw [h62]
  simp only [Bool.false_eq_true, if_false]
  have hrd := readExpr_balanced true [] (by simp) (by simp) [] u b2 rest s nb hb2 hu htr (fun _ => by simp at hl ⊢; omega) (AtEnd.stops hrest [])
  rw [List.nil_append] at hrd
  rw [M.bind_ok hrd]
  dsimp only
  have hst : startSession s = .ok (s.session + 1) { s with session := s.session + 1 } := rfl
  rw [M.bind_ok hst, M.bind_ok e1]
  rw [M.get_bind]
  have hf : sessionFatal (s.session + 1) { s with session := s.session + 1, parseDepth := d1, fwdRef := f1 } = false := by
    unfold sessionFatal
    show List.any (sessPrefix (s.session + 1) s.errors) _ = false
    rw [n1]; rfl
  have hcnt : sessionCount (s.session + 1) { s with session := s.session + 1, parseDepth := d1, fwdRef := f1 } = 0 := by
    unfold sessionCount
    show (List.filter _ (sessPrefix (s.session + 1) s.errors)).length = 0
    rw [n1]; rfl
  rw [hf, hcnt]
  simp only [Bool.false_eq_true, if_false, gt_iff_lt, Nat.lt_irrefl]
  rw [M.bind_ok e2]
  dsimp only
  have hadd : addPassTwoOutput (knot (k + 1)) (escapeString m) false { s with session := s.session + 1, parseDepth := d2, fwdRef := f2 } =
      .ok () { s with session := s.session + 1, parseDepth := d2, fwdRef := f2, outputs := s.outputs ++ [echoAt s m] } := by
    unfold addPassTwoOutput
    rw [M.get_bind, escapeString_quoted]
    simp only [Bool.false_eq_true, if_false]
    rw [M.bind_ok (expandExpr_quoted k m _)]
    rfl
  have hshow : (if Es.fcreate.shows = true then if s.emitLevel = 0 ∧ Es.fcreate = Es.echoOut then m ++ [10] else m else []) = m := by simp [Es.shows]
  rw [show ∀ x : Str, x = m → addPassTwoOutput (knot (k + 1)) (escapeString x) false = addPassTwoOutput (knot (k + 1)) (escapeString m) false from
    fun x hx => by rw [hx]] <;> try exact hshow
  rw [M.bind_ok hadd]
  have hend : endSession (s.session + 1) { s with session := s.session + 1, parseDepth := d2, fwdRef := f2, outputs := s.outputs ++ [echoAt s m] } =
      .ok () { s with parseDepth := d2, fwdRef := f2, outputs := s.outputs ++ [echoAt s m] } := by
    have hne : s.session + 1 ≠ 1 := by have := hs.1; omega
    have hse : s.session + 1 - 1 = s.session := by omega
    unfold endSession
    simp only [hne, decide_false, Bool.false_and, Bool.false_eq_true, if_false, n3, hse]
  rw [M.bind_ok hend]
  rfl

/-- The second pass, for one message. -/
theorem runOutput_quoted (k : Nat) (o : POut) (m : Str) (h0 : 0 ∉ m) (hl : (quoted m).length ≤ 254) (ho : o.expr = quoted m ∧ o.isShow = false) (s : S)
    (hs : InSession s) (hlev : s.emitLevel = 0) :
    ∃ d f, runOutput (knot (k + 2)) o s = .ok () { s with
      pc := o.pc % 4294967296, lineNum := o.line, currFile := o.file, currReusable := o.reusable + 1, log := s.log ++ [.text (m ++ [10])],
      parseDepth := d, fwdRef := f } := by
  have nb : Blanks [] := by intro c hc; simp at hc
  have hbody := quoted_body m
  have harg : Argument (quoted m) := by
    refine ⟨.string _ _ _ hbody (.nil _), by simp [quoted], ?_, ?_⟩
    · intro c hc
      have : c = 34 := by simpa [quoted] using hc.symm
      rw [this]; decide
    · intro c hc
      have : c = 34 := by
        unfold quoted at hc
        rw [List.getLast?_append] at hc
        simpa using hc.symm
      rw [this]; decide
  let s1 : S := { s with pc := o.pc % 4294967296, lineNum := o.line, currFile := o.file, currReusable := o.reusable + 1, session := s.session + 1 }
  let s2 : S := { s1 with emitLevel := s1.emitLevel + 1 }
  obtain ⟨s3, hred, hs3⟩ := C39_round_trip k m h0 s2
  obtain ⟨d, f, hdf⟩ : ∃ d f, s3 = { s2 with parseDepth := d, fwdRef := f } := by
    rcases hs3 with h | h
    · exact ⟨s2.parseDepth, s2.fwdRef, h⟩
    · exact ⟨0, false, h⟩
  rw [escapeString_quoted, hdf] at hred
  refine ⟨d, f, ?_⟩
  have hx : extractArg true (quoted m) s2 = .ok (some (quoted m), false, []) s2 := by
    have := C42_last_argument [] (quoted m) [] [] true s2 nb nb harg (by simpa using hl) (.inl rfl)
    simpa using this
  have hloop : emitLoop (knot (k + 1)) .echoOut ((quoted m).length + 2) true none [] (quoted m) s2 = .ok ([], m) { s2 with parseDepth := d, fwdRef := f } := by
    rw [emitLoop_message_text .echoOut rfl (k + 1) _ true false none [] _ [] _ m s2 hx hbody d f hred, emitLoop,
      M.bind_ok (extractArg_end (.inl rfl) _)]
    rfl
  have hemit : (knot (k + 2)).emitString o.expr .echoOut s1 = .ok ([], m ++ [10]) { s1 with parseDepth := d, fwdRef := f } := by
    show emitStringBody (knot (k + 1)) o.expr .echoOut s1 = _
    unfold emitStringBody
    rw [ho.1, M.modify_bind, M.bind_ok hloop]
    dsimp only
    rw [M.get_bind, M.modify_bind]
    have e1 : s1.emitLevel + 1 - 1 = s1.emitLevel := by omega
    show Res.ok _ { s1 with parseDepth := d, fwdRef := f, emitLevel := s1.emitLevel + 1 - 1 } = _
    rw [e1]
    have : s2.emitLevel = 1 := by show s.emitLevel + 1 = 1; omega
    simp [this]
  obtain ⟨n1, n2, n3⟩ := new_session s hs.2
  have hne : s.session + 1 ≠ 1 := by have := hs.1; omega
  unfold runOutput
  rw [M.modify_bind]
  show (setCurrReusable o.reusable >>= _) _ = _
  unfold setCurrReusable
  rw [M.modify_bind, ho.2]
  simp only [Bool.false_eq_true, if_false]
  show (startSession >>= _) { s1 with session := s.session } = _
  have hst : startSession { s1 with session := s.session } = .ok (s.session + 1) s1 := rfl
  rw [M.bind_ok hst, M.bind_ok hemit]
  dsimp only
  rw [M.modify_bind]
  have hrep : replaySession (s.session + 1) false { s1 with parseDepth := d, fwdRef := f, log := s.log ++ [.text (m ++ [10])] } =
      .ok () { s1 with parseDepth := d, fwdRef := f, log := s.log ++ [.text (m ++ [10])] } := by
    unfold replaySession
    rw [if_neg hne]
    show Res.ok () { s1 with parseDepth := d, fwdRef := f, log := s.log ++ [.text (m ++ [10])], errors := lowerPrefix (s.session + 1) s.errors } = _
    rw [n2]
  rw [M.bind_ok hrep]
  unfold endSession
  simp only [hne, decide_false, Bool.false_and, Bool.false_eq_true, if_false]
  show Res.ok () { s1 with parseDepth := d, fwdRef := f, log := s.log ++ [.text (m ++ [10])], errors := s.errors.dropWhile (fun e => e.sess == s.session + 1), session := s.session + 1 - 1 } = _
  rw [n3]
  have hse : s.session + 1 - 1 = s.session := by omega
  rw [hse]

/-- C59: the second pass prints the messages that were kept, one line for each, in the order of the statements. Apart from the
position in the source nothing changes. -/
theorem C59_printed_partial (k : Nat) : ∀ (os : List (POut × Str)) (s : S),
    (∀ p ∈ os, p.1.expr = quoted p.2 ∧ p.1.isShow = false ∧ 0 ∉ p.2 ∧ (quoted p.2).length ≤ 254) → InSession s → s.emitLevel = 0 →
    ∃ pc line file reusable d f, runOutputs (knot (k + 2)) (os.map (·.1)) s = .ok () { s with
      pc := pc, lineNum := line, currFile := file, currReusable := reusable, parseDepth := d, fwdRef := f,
      log := s.log ++ os.map (fun p => .text (p.2 ++ [10])) }
  | [], s, _, _, _ => ⟨s.pc, s.lineNum, s.currFile, s.currReusable, s.parseDepth, s.fwdRef, by
      simp only [List.map_nil, List.append_nil]; rfl⟩
  | p :: os, s, h, hs, hl => by
    obtain ⟨h1, h2, h3, h4⟩ := h p (by simp)
    obtain ⟨d, f, e⟩ := runOutput_quoted k p.1 p.2 h3 h4 ⟨h1, h2⟩ s hs hl
    obtain ⟨pc, line, file, reusable, d', f', e'⟩ := C59_printed_partial k os { s with
      pc := p.1.pc % 4294967296, lineNum := p.1.line, currFile := p.1.file, currReusable := p.1.reusable + 1, log := s.log ++ [.text (p.2 ++ [10])],
      parseDepth := d, fwdRef := f } (fun q hq => h q (by simp [hq])) hs hl
    refine ⟨pc, line, file, reusable, d', f', ?_⟩
    rw [List.map_cons, runOutputs, M.bind_ok e, e']
    simp

/-! ### `.echo` to a file -/

/-- A quoted word that is followed by a blank. -/
theorem readExpr_quoted (body : Str) (y : Nat) (r : Str) (s : S) (hb : StringBody body) (hl : body.length ≤ 252) (hy : y = 32 ∨ y = 9) :
    readExpr [32, 9] (34 :: body ++ [34] ++ y :: r) true s = .ok (true, 34 :: body ++ [34], y :: r) s := by
  have hbal : Balanced [32, 9] false (34 :: body ++ [34]) := .string false body [] hb (.nil _)
  unfold readExpr
  have hsk : skipWs (34 :: body ++ [34] ++ y :: r) = 34 :: body ++ [34] ++ y :: r := skipWs_cons 34 _ (by decide)
  simp only [hsk]
  have h1 : (isEnd (34 :: body ++ [34] ++ y :: r) || hd (34 :: body ++ [34] ++ y :: r) == 41) = false := rfl
  simp only [h1, Bool.false_eq_true, if_false]
  rw [read_balanced true [32, 9] (by decide) hbal _ [] _ 0 (by omega) (fun h => by simp at h) (by simp; omega) (fun h => by simp; omega)]
  obtain ⟨f, hf⟩ : ∃ f, 3 * (34 :: body ++ [34] ++ y :: r).length + 3 - (34 :: body ++ [34]).length = f + 1 :=
    ⟨2 * body.length + 3 * r.length + 9, by simp; omega⟩
  have hstop : Stops [32, 9] (y :: r) := .inr (.inl (by rcases hy with rfl | rfl <;> simp [hd]))
  rw [hf, read_stop true [32, 9] f _ _ hstop]
  simp only [List.append_nil]
  have := dropWhile_trim (34 :: body ++ [34]) [] ⟨by simp, by intro c hc; simp at hc; subst hc; decide, by
    intro c hc; rw [List.getLast?_concat] at hc; simp at hc; subst hc; decide⟩ (by intro c hc; simp at hc)
  rw [List.append_nil] at this
  rw [this]

theorem joined_blank {args : List Str} {t : Str} (y : Nat) (hy : y = 32 ∨ y = 9) (h : Joined args t) : Joined args (y :: t) := by
  have hb : ∀ b, Blanks b → Blanks (y :: b) := by
    intro b h c hc
    rcases List.mem_cons.mp hc with rfl | hc
    · omega
    · exact h c hc
  cases h with
  | one b a b' h1 h2 h3 h4 => exact .one (y :: b) a b' (hb b h1) h2 h3 h4
  | more b a b' as t h1 h2 h3 h4 h5 => exact .more (y :: b) a b' as t (hb b h1) h2 h3 h4 h5

theorem echoPath_placed (dir fn : Str) (h1 : 92 ∉ dir) (h2 : PlainPath fn) : echoPath dir fn = filePath dir fn := by
  obtain ⟨hb, hw, hd⟩ := h2
  have hsk : skipWs fn = fn := by
    cases fn with
    | nil => rfl
    | cons c t =>
      have := hw c rfl
      rw [← isSpace_iff] at this
      exact skipWs_cons _ _ (by unfold isBlank; simp [this])
  have hfix : ∀ t : Str, 92 ∉ t → fixFilename t = t := by
    intro t ht
    unfold fixFilename
    conv => rhs; rw [← List.map_id t]
    apply List.map_congr_left
    intro c hc
    have : c ≠ 92 := fun h => ht (h ▸ hc)
    simp [this]
  have habs : isAbsPath fn = decide (fn.head? = some 47) := by
    unfold isAbsPath
    rw [hsk]
    cases fn with
    | nil => rfl
    | cons c r =>
      have h1 : c ≠ 92 := fun h => hb (by simp [h])
      cases r with
      | nil => by_cases h : c = 47 <;> simp [h, h1]
      | cons d r =>
        have h2 : d ≠ 58 := fun h => hd (by simp [h])
        by_cases h : c = 47 <;> simp [h, h1, h2]
  unfold echoPath filePath
  rw [habs, hsk]
  by_cases h : fn.head? = some 47
  · simp only [h, decide_true, if_true]
    exact hfix fn hb
  · simp only [h, decide_false, Bool.false_eq_true, if_false]
    rw [hfix _ (by simp [h1, hb])]
    simp

/-- C59: `.echo > "file" ...` writes its message to the file at once, and `.echo >> "file" ...` appends it. The character
behind `>` has to be a blank (see `C59_file_loses_letter`). -/
theorem C59_file_partial (k depth : Nat) (hd : depth ≤ 20) (hk : depth ≤ k) (hk0 : 0 < k) (name : Str) (hn : name ∈ [b! ".echo", b! ".ECHO"])
    (args : List Str) (m b g body fn : Str) (c x y : Nat) (t rest : Str) (s : S)
    (h : Message (toI32 s.pc) (visibleLabel s) (visibleText s) depth args m)
    (hj : Joined args t) (hb : Blanks b) (hc : c = 32 ∨ c = 9) (hx : x = 62 ∨ x = 32 ∨ x = 9) (hg : Blanks g) (hy : y = 32 ∨ y = 9)
    (hfn : Chars body fn) (hl : body.length ≤ 252) (hp : PlainPath fn) (hdir : 92 ∉ s.tempPath)
    (hno : argumentOf s (34 :: body ++ [34]) = none ∧ defineOf s (34 :: body ++ [34]) = none) (hrest : AtEnd rest) (hs : InSession s) :
    ∃ depth' fwd, (knot (k + 2)).lineSec (b ++ name ++ c :: 62 :: x :: g ++ (34 :: body ++ [34]) ++ y :: t ++ rest) s =
      .ok (some rest) { s with
        parseDepth := depth', fwdRef := fwd,
        log := s.log ++ [if x = 62 then .appended (filePath s.tempPath fn) m else .wrote (filePath s.tempPath fn) m] } := by
  obtain ⟨d1, f1, e1⟩ := reduceString_chars k hfn s
  obtain ⟨d2, f2, e2⟩ := emitString_message .echoFile rfl k depth hd hk hk0 (y :: t) rest { s with parseDepth := d1, fwdRef := f1 }
    (by rw [visibleText_parse]; exact h) (joined_blank y hy hj) (endsList_of_atEnd hrest) hs
  refine ⟨d2, f2, ?_⟩
  have e0 : lineSecBody (knot (k + 1)) (b ++ name ++ c :: 62 :: x :: g ++ (34 :: body ++ [34]) ++ y :: t ++ rest) s =
      runDir (knot (k + 1)) .echo (62 :: x :: g ++ (34 :: body ++ [34]) ++ y :: (t ++ rest)) s := by
    have hsk : skipWs (62 :: x :: g ++ (34 :: body ++ [34]) ++ y :: (t ++ rest)) = 62 :: x :: g ++ (34 :: body ++ [34]) ++ y :: (t ++ rest) :=
      skipWs_cons 62 _ (by decide)
    rw [show b ++ name ++ c :: 62 :: x :: g ++ (34 :: body ++ [34]) ++ y :: t ++ rest =
      b ++ name ++ c :: (62 :: x :: g ++ (34 :: body ++ [34]) ++ y :: (t ++ rest)) by simp]
    conv => rhs; rw [← hsk]
    simp only [List.mem_cons, List.not_mem_nil, or_false] at hn
    rcases hn with rfl | rfl
    · exact lineSec_message _ b (b! "echo") c _ .echo hb hc (by decide) (by decide) (by decide) s
    · exact lineSec_message _ b (b! "ECHO") c _ .echo hb hc (by decide) (by decide) (by decide) s
  show lineSecBody (knot (k + 1)) _ s = _
  rw [e0]
  show dirEchoFile (knot (k + 1)) (x :: (g ++ (34 :: body ++ [34]) ++ y :: (t ++ rest))) s = _
  unfold dirEchoFile
  have hsk : skipWs (g ++ (34 :: body ++ [34]) ++ y :: (t ++ rest)) = 34 :: body ++ [34] ++ y :: (t ++ rest) := by
    rw [List.append_assoc, skipWs_blanks g _ hg]
    exact skipWs_cons 34 _ (by decide)
  have hend : isEnd (34 :: body ++ [34] ++ y :: (t ++ rest)) = false := rfl
  simp only [List.isEmpty_cons, Bool.false_eq_true, if_false, List.tail_cons, hsk, hend]
  rw [M.bind_ok (readExpr_quoted body y (t ++ rest) s (chars_stringBody hfn) hl hy)]
  dsimp only
  rw [M.bind_ok (searchDefines_none _ s hno.1 hno.2)]
  dsimp only
  rw [M.pure_bind, M.bind_ok e1]
  have e2' : (knot (k + 1)).emitString (y :: (t ++ rest)) .echoFile { s with parseDepth := d1, fwdRef := f1 } =
      .ok (rest, m) { s with parseDepth := d2, fwdRef := f2 } := by
    rw [← List.cons_append, e2]
    simp [Es.shows]
  rw [M.bind_ok e2']
  dsimp only
  by_cases h62 : x = 62
  · subst h62
    simp only [Spasm.hd, beq_self_eq_true, if_true, ← echoPath_placed s.tempPath fn hdir hp]
    rfl
  · have : (Spasm.hd (x :: (g ++ (34 :: body ++ [34]) ++ y :: (t ++ rest))) == 62) = false := by simp [Spasm.hd, h62]
    simp only [this, h62, Bool.false_eq_true, if_false, ← echoPath_placed s.tempPath fn hdir hp]
    rfl

/-! ### Whole runs -/

/-- Operands that make up a message. -/
example (pc : Int) (label : Str → Option Int) (text : Str → Option Str) :
    Message pc label text 1 [b! "\"n=\"", b! "2*3"] (b! "n=6") ∧ Joined [b! "\"n=\"", b! "2*3"] (b! "\"n=\", 2*3") := by
  have nb : Blanks [] := by intro c hc; simp at hc
  have b1 : Blanks [32] := by intro c hc; simp at hc; omega
  have n : Denotes pc label text 0 (b! "2*3") 6 :=
    .join 0 [50] 2 [] .mul [42] [] 0 [51] 3 _ (.one 0 _ _ (.plain 0 _ _ (.atom _ _ (atom_digit pc label 50 (by omega) (by omega))))) nb nb (by decide)
      (by simp) (.plain 0 _ _ (.atom _ _ (atom_digit pc label 51 (by omega) (by omega)))) (by decide)
  have c : Chars (b! "n=") (b! "n=") :=
    .char 110 _ _ (by decide) (by decide) (by decide) (by decide) (.char 61 _ _ (by decide) (by decide) (by decide) (by decide) .nil)
  have a1 : Argument (b! "\"n=\"") := ⟨.string _ (b! "n=") [] (chars_stringBody c) (.nil _), by unfold Trimmed; simp [White]⟩
  have e : decimal 6 = [54] := by simp [decimal, decimalDigits]
  have m : Message pc label text 1 [b! "2*3"] (decimal 6 ++ []) := .number 0 _ 6 [] [] n (by decide) (by decide) (by decide) .nil
  rw [e] at m
  exact ⟨.string _ _ _ _ c m, .more [] _ [] _ (b! " 2*3") nb nb a1 (by decide) (.one [32] (b! "2*3") [] b1 nb (argument_denotes n) (by decide))⟩

/-- Values are those at the statement, and the messages come in order. -/
example : (asm (b! "x = 5\n .echo \"say \\\"\",x,\"\\\" twice\"\nx = 6\n .echo -x\n") [b! "a.asm"]).state.log =
    [.warning .labelRedefined, .text (b! "say \"5\" twice\n"), .text (b! "-6\n"), .wrote (b! "a.bin") []] := by decide +kernel

/-- `.error` makes the run fail, and no file is written. -/
example : exitStatus (asm (b! " .db 1\n .error \"bad\"\n") [b! "a.asm"]) = some 3 ∧
    (asm (b! " .db 1\n .error \"bad\"\n") [b! "a.asm"]).state.log = [.printed 0x600 false] := by decide +kernel

/-- C59 fails for labels that are defined later: `.echo` prints an empty line for them. -/
theorem C59_later_labels : (asm (b! " .echo later\nlater:\n") [b! "a.asm"]).state.log = [.text [10], .wrote (b! "a.bin") []] ∧
    (asm (b! "later:\n .echo later\n") [b! "a.asm"]).state.log = [.text (b! "0\n"), .wrote (b! "a.bin") []] := by decide +kernel

/-- C59 fails for files: the character behind `>` is skipped, even if it is the first letter of the name. -/
theorem C59_file_loses_letter : (asm (b! " .echo >out \"hi\"\n") [b! "a.asm"]).state.log = [.wrote (b! "/ut") (b! "hi"), .wrote (b! "a.bin") []] := by
  decide +kernel

/-- A file is written and then appended to. -/
example : (asm (b! " .echo > \"o.txt\" \"n=\",2+3\n .echo >> \"o.txt\" \".\"\n") [b! "a.asm"]).state.log =
    [.wrote (b! "/o.txt") (b! "n=5"), .appended (b! "/o.txt") (b! "."), .wrote (b! "a.bin") []] := by decide +kernel

end Spasm.Props
