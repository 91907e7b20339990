import Verif.Spec.Buffer
import Verif.Props.Macro
import Verif.Props.Message
import Verif.Lemmas.Skip

/-
C64: text buffers.
-/

namespace Spasm.Props
open Spasm Spec

theorem builtIn_name {s : S} {word name : Str} (h : BuiltIn s word name) (hw : word ∈ [b! "BUF", b! "CLR", b! "WR", b! "RUN"]) :
    Name name ∧ 46 ∉ name ∧ name.length = word.length := by
  have hlen : name.length = word.length := by rw [← h.same]; simp
  have hc : ∀ c ∈ name, (65 ≤ c ∧ c ≤ 90) ∨ (97 ≤ c ∧ c ≤ 122) := by
    intro c hc
    have h1 : upperCase c ∈ word := by rw [← h.same]; exact List.mem_map_of_mem hc
    have h2 : ∀ x ∈ word, 65 ≤ x ∧ x ≤ 90 := by
      intro x hx
      simp only [List.mem_cons, List.not_mem_nil, or_false] at hw
      rcases hw with rfl | rfl | rfl | rfl <;> revert x <;> decide
    have := h2 _ h1
    unfold upperCase at this
    split at this <;> omega
  refine ⟨?_, fun h46 => by have := hc 46 h46; omega, hlen⟩
  have hne : name ≠ [] := by
    rintro rfl
    simp only [List.mem_cons, List.not_mem_nil, or_false] at hw
    rcases hw with rfl | rfl | rfl | rfl <;> cases hlen
  obtain ⟨c, r, rfl⟩ := List.exists_cons_of_ne_nil hne
  refine ⟨⟨c, r, rfl, ?_, ?_⟩, ?_⟩
  · have := hc c (by simp)
    omega
  · intro x hx
    have := hc x (by simp [hx])
    unfold NameChar Alnum
    omega
  · rintro ⟨⟩
    have := hc 95 (by simp)
    omega

/-- The function behind a built-in statement. -/
def builtInBody (k : Rec) (word : Str) (t : Str) : M Str :=
  if word = b! "BUF" then fcBuf k (40 :: t)
  else if word = b! "CLR" then fcClr (40 :: t)
  else if word = b! "WR" then fcWr k (40 :: t)
  else fcRun k (40 :: t)

theorem builtIn_line (k : Rec) (s : S) (word name b t : Str) (h : BuiltIn s word name) (hw : word ∈ [b! "BUF", b! "CLR", b! "WR", b! "RUN"]) (hb : Blanks b) :
    lineSecBody k (b ++ name ++ 40 :: t) s = (builtInBody k word t >>= fun r => pure (some r)) s := by
  obtain ⟨hn, h46, hlen⟩ := builtIn_name h hw
  show lineSecLoop k (_ + 1) _ s = _
  rw [call_lineSec _ _ _ _ hb hn]
  obtain ⟨c, u, hcu, hc, hu⟩ := hn.1
  have hchars : ∀ x ∈ name, NameChar x := by
    intro x hx
    rw [hcu] at hx
    rcases List.mem_cons.1 hx with rfl | hx
    · unfold NameChar Alnum; omega
    · exact hu x hx
  have hr : ∀ c ∈ (40 :: t).head?, ¬ NameChar c := by intro c hc; cases hc; unfold NameChar Alnum; omega
  obtain ⟨ht, hk⟩ := takeName_stop name (40 :: t) hchars hr
  unfold opcodeOrMacro
  rw [ht, hk]
  dsimp only
  rw [M.get_bind]
  have hsfx : (if s.mode.ez80 = true then parseSuffix s.adl name else none) = none := by
    by_cases he : s.mode.ez80 = true
    · rw [if_pos he, parseSuffix_nodot _ _ h46]
    · rw [if_neg he]
  rw [hsfx]
  dsimp only
  rw [findOpcode_none name (40 :: t) s.opcodes (fun x hx hal => hr x hx (.inl hal)) h.table (fun o ho => by
    have := h.noMnemonic o ho
    rw [h.same]
    exact this)]
  dsimp only
  have hno : ∀ w : Str, ¬ word <+: w.map upperCase → eqCaseN (name ++ 40 :: t) w name.length = false := by
    intro w hw
    cases he : eqCaseN (name ++ 40 :: t) w name.length with
    | false => rfl
    | true =>
      have := eqCaseN_prefix _ _ _ he
      rw [h.same] at this
      exact absurd this hw
  have hyes : ∀ w : Str, w.map upperCase = word → eqCaseN (name ++ 40 :: t) w name.length = true := by
    intro w hw
    have hl : w.length = name.length := by rw [hlen, ← hw]; simp
    rw [← hl, eqCaseN_take w _ (by simp; omega), hl, List.take_left]
    unfold SameText
    rw [h.same, hw]
  have h40 : (hd (40 :: t) == 40) = true := rfl
  simp only [h40, Bool.and_true]
  simp only [List.mem_cons, List.not_mem_nil, or_false] at hw
  rcases hw with rfl | rfl | rfl | rfl
  · rw [hyes (b! "buf") (by decide)]; rfl
  · rw [hno (b! "buf") (by decide), hyes (b! "clr") (by decide)]; rfl
  · rw [hno (b! "buf") (by decide), hno (b! "clr") (by decide), hyes (b! "wr") (by decide)]; rfl
  · rw [hno (b! "buf") (by decide), hno (b! "clr") (by decide), hno (b! "wr") (by decide), hyes (b! "run") (by decide)]; rfl

/-- Closing parentheses do not occur in balanced texts but in pairs. -/
theorem balanced_close {i : Bool} {u : Str} (h : Balanced [] i u) : Balanced [41] i u := by
  induction h with
  | nil i => exact .nil i
  | char i c t h1 h2 _ ih => exact .char i c t h1 (fun _ hc => h1.2.2.2.2.1 (by simpa using hc)) ih
  | quoted i c t h1 _ ih => exact .quoted i c t h1 ih
  | escaped i c t _ ih => exact .escaped i c t ih
  | string i b t h1 _ ih => exact .string i b t h1 ih
  | paren i u t _ _ ih1 ih => exact .paren i u t ih1 ih

/-- C64: `buf(number)` selects a buffer. -/
theorem C64_buf (k d : Nat) (s : S) (b name b1 a b2 rest : Str) (v : Int) (hb : Blanks b) (h : BuiltIn s (b! "BUF") name) (hb1 : Blanks b1)
    (hb2 : Blanks b2) (hlen : (a ++ b2).length ≤ 254)
    (hv : Denotes (toI32 s.pc) (visibleLabel s) (visibleText s) d a v) (hd : d < 20) (hk : d < k) :
    (knot (k + 1)).lineSec (b ++ name ++ 40 :: (b1 ++ a ++ b2 ++ 41 :: rest)) s =
      .ok (some rest) { s with curBuf := v, parseDepth := 0, fwdRef := false } := by
  show lineSecBody (knot k) _ s = _
  rw [builtIn_line _ _ _ _ _ _ h (by simp) hb]
  have e : builtInBody (knot k) (b! "BUF") (b1 ++ a ++ b2 ++ 41 :: rest) s = .ok rest { s with curBuf := v, parseDepth := 0, fwdRef := false } := by
    show fcBuf (knot k) (40 :: (b1 ++ a ++ b2 ++ 41 :: rest)) s = _
    unfold fcBuf
    rw [List.tail_cons, M.bind_ok (readExpr_balanced true [41] (by decide) (by simp [White]) b1 a b2 (41 :: rest) s hb1 hb2 (balanced_close (balanced_denotes hv)) (trimmed_denotes hv) (fun _ => hlen) (.inr (.inr rfl)))]
    dsimp only
    have hnone : Blanks [] := by intro c hc; cases hc
    have := C03_value s d k [] a [] [] v hv hd hk hnone hnone (.inl rfl)
    simp only [List.nil_append, List.append_nil] at this
    rw [M.bind_ok this]
    rfl
  rw [M.bind_ok e]
  rfl

theorem bufIndex_some (s : S) (i : Nat) (hi : i < 10) (hc : s.curBuf = i) : bufIndex s = some i := by
  unfold bufIndex
  rw [if_pos (by omega), hc]
  rfl

/-- C64: `clr()` empties the selected buffer. -/
theorem C64_clr (k i : Nat) (s : S) (b name rest : Str) (hb : Blanks b) (h : BuiltIn s (b! "CLR") name) (hi : i < 10) (hc : s.curBuf = i) :
    (knot (k + 1)).lineSec (b ++ name ++ 40 :: 41 :: rest) s = .ok (some rest) (withBuffer i (some []) s) := by
  show lineSecBody (knot k) _ s = _
  rw [builtIn_line _ _ _ _ _ _ h (by simp) hb]
  have e : builtInBody (knot k) (b! "CLR") (41 :: rest) s = .ok rest (withBuffer i (some []) s) := by
    show fcClr (40 :: 41 :: rest) s = _
    unfold fcClr
    rw [M.get_bind, bufIndex_some s i hi hc]
    rfl
  rw [M.bind_ok e]
  rfl

/-- C64: `wr(…)` adds a line to the selected buffer: the characters of its strings and the values of its expressions in decimal
notation. -/
theorem C64_wr (k depth i : Nat) (s : S) (b name t rest m : Str) (args : List Str) (hb : Blanks b) (h : BuiltIn s (b! "WR") name) (hi : i < 10)
    (hc : s.curBuf = i) (hj : Joined args t) (hm : Message (toI32 s.pc) (visibleLabel s) (visibleText s) depth args m) (hd : depth ≤ 20)
    (hk : depth ≤ k) (hk0 : 0 < k) (hs : InSession s) :
    ∃ d f, (knot (k + 2)).lineSec (b ++ name ++ 40 :: (t ++ 41 :: rest)) s =
      .ok (some rest) (withBuffer i (some ((s.bufs i).getD [] ++ m ++ [10])) { s with parseDepth := d, fwdRef := f }) := by
  obtain ⟨d, f, e⟩ := emitString_message .fcreate rfl k depth hd hk hk0 t (41 :: rest) s hm hj (.inr ⟨41, rest, rfl, by omega⟩) hs
  refine ⟨d, f, ?_⟩
  show lineSecBody (knot (k + 1)) _ s = _
  rw [builtIn_line _ _ _ _ _ _ h (by simp) hb]
  have e : builtInBody (knot (k + 1)) (b! "WR") (t ++ 41 :: rest) s =
      .ok rest (withBuffer i (some ((s.bufs i).getD [] ++ m ++ [10])) { s with parseDepth := d, fwdRef := f }) := by
    show fcWr (knot (k + 1)) (40 :: (t ++ 41 :: rest)) s = _
    unfold fcWr
    rw [M.get_bind, bufIndex_some s i hi hc]
    dsimp only
    have em : (if Es.fcreate.shows = true then (if s.emitLevel = 0 ∧ Es.fcreate = Es.echoOut then m ++ [10] else m) else []) = m := by simp [Es.shows]
    rw [em] at e
    rw [List.tail_cons, M.bind_ok e]
    rfl
  rw [M.bind_ok e]
  rfl

/-- A statement that takes up a whole line. -/
theorem runLine_whole (k : Nat) (t rest : Str) (s s' : S) (h : (knot k).lineSec (t ++ 10 :: rest) s = .ok (some (10 :: rest)) s')
    (h92 : ∀ c ∈ t.head?, c ≠ 92) : runLine (knot k) (t ++ 10 :: rest) s = .ok (some (10 :: rest)) s' := by
  unfold runLine
  rw [lineLoop]
  have hdc : dropChar 92 (t ++ 10 :: rest) = t ++ 10 :: rest := by
    cases t with
    | nil => rfl
    | cons c t => simp [dropChar, h92 c (by simp)]
  rw [hdc, M.bind_ok h]
  dsimp only
  rw [M.get_bind]
  have : skipWs (10 :: rest) = 10 :: rest := rfl
  rw [this, if_neg (by simp)]
  rfl

/-- C64: the buffers after any sequence of these statements, in lines of their own, are what the statements say. Nothing else in
the state changes but the line. -/
theorem C64_history (k depth : Nat) (hd : depth ≤ 20) (hk : depth ≤ k) (hk0 : 0 < k) (s : S) (hs : InSession s) (he : s.errOccurred = false)
    {ops : List BufferOp} {ls : List Str} (h : List.Forall₂ (BufferStatement s depth) ops ls) (i : Nat) (hi : i < 10) (hc : s.curBuf = i) :
    ∃ d f, Lines (k + 2) (ls.flatMap (· ++ [10])) s
      { s with
        curBuf := (ops.foldl (fun b op => op.apply b) (i, s.bufs)).1
        bufs := (ops.foldl (fun b op => op.apply b) (i, s.bufs)).2
        lineNum := s.lineNum + ops.length
        parseDepth := d
        fwdRef := f } := by
  have gen : ∀ st : S, (∃ p c bf n f, st = { s with parseDepth := p, curBuf := c, bufs := bf, lineNum := n, fwdRef := f }) → ∀ i : Nat, i < 10 → st.curBuf = i →
    ∃ d f, Lines (k + 2) (ls.flatMap (· ++ [10])) st
      { st with
        curBuf := (ops.foldl (fun b op => op.apply b) (i, st.bufs)).1
        bufs := (ops.foldl (fun b op => op.apply b) (i, st.bufs)).2
        lineNum := st.lineNum + ops.length
        parseDepth := d
        fwdRef := f } := by
    clear hc hi i
    induction h with
    | nil =>
      intro st _ i hi hc
      refine ⟨st.parseDepth, st.fwdRef, ?_⟩
      have : ({ st with curBuf := (i : Int), lineNum := st.lineNum + 0 } : S) = st := by
        rw [← hc]; simp
      show Lines (k + 2) [] st { st with curBuf := (i : Int), lineNum := st.lineNum + 0 }
      rw [this]
      exact .nil st
    | @cons op l ops ls h1 h2 ih =>
      rintro st ⟨p, c0, bf, n, f0, hst⟩ i hi hc
      have hvl : visibleLabel st = visibleLabel s := by rw [hst]; rfl
      have hvt : visibleText st = visibleText s := by rw [hst]; rfl
      have hpc : st.pc = s.pc := by rw [hst]
      have hops : st.opcodes = s.opcodes := by rw [hst]
      have hin : InSession st := by rw [hst]; exact hs
      have her : st.errOccurred = false := by rw [hst]; exact he
      have hbi : ∀ {w nm}, BuiltIn s w nm → BuiltIn st w nm := fun h => ⟨h.same, by rw [hops]; exact h.table, by rw [hops]; exact h.noMnemonic⟩
      have h92 : ∀ (b nm w : Str) (t : Str), Blanks b → BuiltIn s w nm → w ∈ [b! "BUF", b! "CLR", b! "WR", b! "RUN"] → ∀ c ∈ (b ++ nm ++ t).head?, c ≠ 92 := by
        intro b nm w t hb hbi hw c hc
        cases b with
        | nil =>
          obtain ⟨⟨⟨x, r, rfl, hx, -⟩, -⟩, -⟩ := builtIn_name hbi hw
          cases hc
          omega
        | cons y b =>
          cases hc
          have := hb c (by simp)
          omega
      -- one line
      have one : ∃ d f j, ∃ bf' : Nat → Option Str, j < 10 ∧ op.apply (i, st.bufs) = (j, bf') ∧
          runLine (knot (k + 2)) (l ++ 10 :: ls.flatMap (· ++ [10])) st =
            .ok (some (10 :: ls.flatMap (· ++ [10]))) { st with curBuf := (j : Int), bufs := bf', parseDepth := d, fwdRef := f } := by
        obtain ⟨b, name, hb, h1⟩ := h1
        cases op with
        | select j =>
          obtain ⟨b1, a, b2, d, hn, rfl, hb1, hb2, hlen, hv, hdd, hj⟩ := h1
          rw [← hvl, ← hvt, ← hpc] at hv
          have e := C64_buf (k + 1) d st b name b1 a b2 (10 :: ls.flatMap (· ++ [10])) j hb (hbi hn) hb1 hb2 hlen hv (by omega) (by omega)
          refine ⟨0, false, j, st.bufs, hj, rfl, runLine_whole (k + 2) _ _ _ _ ?_ ?_⟩
          · rw [show b ++ name ++ 40 :: (b1 ++ a ++ b2 ++ [41]) ++ 10 :: ls.flatMap (· ++ [10]) =
              b ++ name ++ 40 :: (b1 ++ a ++ b2 ++ 41 :: 10 :: ls.flatMap (· ++ [10])) by simp]
            exact e
          · exact h92 b name _ _ hb hn (by simp)
        | clear =>
          obtain ⟨hn, rfl⟩ := h1
          have e := C64_clr (k + 1) i st b name (10 :: ls.flatMap (· ++ [10])) hb (hbi hn) hi hc
          refine ⟨st.parseDepth, st.fwdRef, i, _, hi, rfl, runLine_whole (k + 2) _ _ _ _ ?_ ?_⟩
          · rw [show b ++ name ++ [40, 41] ++ 10 :: ls.flatMap (· ++ [10]) = b ++ name ++ 40 :: 41 :: 10 :: ls.flatMap (· ++ [10]) by simp]
            refine Eq.trans e ?_
            unfold withBuffer
            rw [← hc]
          · exact h92 b name _ _ hb hn (by simp)
        | write m =>
          obtain ⟨args, t, hn, rfl, hj, hm⟩ := h1
          rw [← hvl, ← hvt, ← hpc] at hm
          obtain ⟨d, f, e⟩ := C64_wr k depth i st b name t (10 :: ls.flatMap (· ++ [10])) m args hb (hbi hn) hi hc hj hm hd hk hk0 hin
          refine ⟨d, f, i, _, hi, rfl, runLine_whole (k + 2) _ _ _ _ ?_ ?_⟩
          · rw [show b ++ name ++ 40 :: (t ++ [41]) ++ 10 :: ls.flatMap (· ++ [10]) = b ++ name ++ 40 :: (t ++ 41 :: 10 :: ls.flatMap (· ++ [10])) by simp]
            refine Eq.trans e ?_
            unfold withBuffer
            rw [← hc]
          · exact h92 b name _ _ hb hn (by simp)
      obtain ⟨d1, f1, j, bf', hj, happ, hrun⟩ := one
      obtain ⟨d, f, hL⟩ := ih { st with curBuf := (j : Int), bufs := bf', parseDepth := d1, fwdRef := f1, lineNum := st.lineNum + 1 }
        ⟨d1, j, bf', st.lineNum + 1, f1, by rw [hst]⟩ j hj rfl
      refine ⟨d, f, ?_⟩
      have hfm : (l :: ls).flatMap (· ++ [10]) = l ++ 10 :: ls.flatMap (· ++ [10]) := by simp
      rw [hfm]
      refine .line _ _ st _ _ (by simp) her hrun ?_ ?_
      · show (ls.flatMap (· ++ [10])).length < _
        simp; omega
      · rw [List.foldl_cons, happ]
        have el : st.lineNum + ((op :: ops).length : Nat) = st.lineNum + 1 + (ops.length : Nat) := by simp; omega
        rw [el]
        exact hL
  exact gen s ⟨s.parseDepth, s.curBuf, s.bufs, s.lineNum, s.fwdRef, rfl⟩ i hi hc

theorem firstPassLoop_lines (k : Nat) {t : Str} {s s' : S} (h : Lines k t s s') : ∀ f, t.length < f → firstPassLoop (runLine (knot k)) f t s = .ok () s' := by
  induction h with
  | nil s =>
    intro f hf
    obtain ⟨f, rfl⟩ : ∃ m, f = m + 1 := ⟨f - 1, by simp at hf; omega⟩
    rw [firstPassLoop, M.get_bind, if_pos (by simp)]
    rfl
  | line t r s s1 s2 hne he hrun hlen hl ih =>
    intro f hf
    obtain ⟨f, rfl⟩ : ∃ m, f = m + 1 := ⟨f - 1, by omega⟩
    rw [firstPassLoop, M.get_bind]
    have : t.isEmpty = false := by cases t with
      | nil => exact absurd rfl hne
      | cons c t => rfl
    rw [this, he]
    simp only [Bool.or_false, Bool.false_eq_true, if_false]
    rw [M.bind_ok hrun]
    dsimp only
    rw [M.modify_bind]
    exact ih f (by omega)

/-- C64: `run()` assembles the lines of the selected buffer as those of a file, empties it and goes on behind the statement. -/
theorem C64_run (k i : Nat) (s s' : S) (b name text rest : Str) (hb : Blanks b) (h : BuiltIn s (b! "RUN") name) (hi : i < 10) (hc : s.curBuf = i)
    (ht : s.bufs i = some text) (hs : InSession s) (hl : Lines k text (inBuffer s) s') (ho : OwnMessages s s') (hcode : ∀ e ∈ s'.errors, e.code ≠ 0)
    (hc' : s'.curBuf = i) (hb' : s'.bufs i ≠ none) :
    (knot (k + 1)).lineSec (b ++ name ++ 40 :: 41 :: rest) s = .ok (some rest) (afterBuffer i s s') := by
  show lineSecBody (knot k) _ s = _
  rw [builtIn_line _ _ _ _ _ _ h (by simp) hb]
  have e : builtInBody (knot k) (b! "RUN") (41 :: rest) s = .ok rest (afterBuffer i s s') := by
    show fcRun (knot k) (40 :: 41 :: rest) s = _
    unfold fcRun
    rw [M.get_bind, bufIndex_some s i hi hc]
    dsimp only
    rw [ht]
    dsimp only
    rw [M.modify_bind]
    have hss : startSession { s with currFile := b! "Built-in fcreate" } =
      .ok (s.session + 1) { s with currFile := b! "Built-in fcreate", session := s.session + 1 } := rfl
    rw [M.bind_ok hss]
    have hrun : runFirstPass (knot k) text { s with currFile := b! "Built-in fcreate", session := s.session + 1 } = .ok () s' := by
      unfold runFirstPass
      rw [M.modify_bind]
      exact firstPassLoop_lines k hl _ (by omega)
    rw [M.bind_ok hrun, M.modify_bind, M.get_bind]
    have hbi : bufIndex { s' with currFile := s.currFile, lineNum := s.lineNum, inMacro := s.inMacro } = some i := bufIndex_some _ i hi hc'
    simp only [hbi]
    have hsome : (s'.bufs i).isNone = false := by
      cases hx : s'.bufs i with
      | none => exact absurd hx hb'
      | some x => rfl
    rw [if_neg (by rw [hsome]; decide)]
    have hset : setBuf i none { s' with currFile := s.currFile, lineNum := s.lineNum, inMacro := s.inMacro } =
      .ok () (withBuffer i none { s' with currFile := s.currFile, lineNum := s.lineNum, inMacro := s.inMacro }) := rfl
    rw [M.bind_ok hset, M.get_bind]
    obtain ⟨hsess, own, hown, hall⟩ := ho
    have hpre : sessPrefix (s.session + 1) s'.errors = own := by
      rw [hown]
      unfold sessPrefix
      rw [List.takeWhile_append_of_pos (by intro e he; simp [hall e he])]
      cases hE : s.errors with
      | nil => simp
      | cons x xs =>
        have := hs.2 x (by rw [hE]; simp)
        rw [List.takeWhile_cons_of_neg (by simp; omega)]
        simp
    have hcount : sessionCount (s.session + 1) (withBuffer i none { s' with currFile := s.currFile, lineNum := s.lineNum, inMacro := s.inMacro }) = own.length := by
      show ((sessPrefix (s.session + 1) s'.errors).filter _).length = _
      rw [hpre, List.filter_eq_self.2]
      intro e he
      have := hcode e (by rw [hown]; simp [he])
      simp [this]
    have hlow : ∀ own : List Err, (∀ e ∈ own, e.sess = s.session + 1) →
        lowerPrefix (s.session + 1) (own ++ s.errors) = own.map (fun e => { e with sess := e.sess - 1 }) ++ s.errors := by
      intro own hall
      induction own with
      | nil =>
        cases hE : s.errors with
        | nil => rfl
        | cons x xs =>
          have := hs.2 x (by rw [hE]; simp)
          simp only [List.nil_append, List.map_nil]
          rw [lowerPrefix, if_neg]
          simp; omega
      | cons x xs ih =>
        rw [List.cons_append, lowerPrefix, if_pos (by simp [hall x (by simp)]), ih (fun e he => hall e (by simp [he]))]
        rfl
    have herr : own.map (fun e => { e with sess := e.sess - 1 }) ++ s.errors =
        s'.errors.map (fun e => if e.sess = s'.session then { e with sess := e.sess - 1 } else e) := by
      rw [hown, List.map_append]
      congr 1
      · refine List.map_congr_left (fun e he => ?_)
        rw [if_pos (by rw [hsess]; exact hall e he)]
      · conv => lhs; rw [← List.map_id s.errors]
        refine List.map_congr_left (fun e he => ?_)
        have := hs.2 e he
        rw [if_neg (by omega)]
        rfl
    have hwhen : M.when (decide (sessionCount (s.session + 1) (withBuffer i none { s' with currFile := s.currFile, lineNum := s.lineNum, inMacro := s.inMacro }) > 0))
        (do annotate (s.session + 1); replaySession (s.session + 1)) (withBuffer i none { s' with currFile := s.currFile, lineNum := s.lineNum, inMacro := s.inMacro }) =
      .ok () (withBuffer i none { s' with currFile := s.currFile, lineNum := s.lineNum, inMacro := s.inMacro, errors := own.map (fun e => { e with sess := e.sess - 1 }) ++ s.errors }) := by
      rw [hcount]
      cases own with
      | nil =>
        show Res.ok _ _ = _
        congr 1
        simp only [List.map_nil, List.nil_append] at hown ⊢
        rw [← hown]
      | cons x xs =>
        have h1 : s.session + 1 ≠ 1 := by have := hs.1; omega
        have h2 : (withBuffer i none { s' with currFile := s.currFile, lineNum := s.lineNum, inMacro := s.inMacro }).errors = (x :: xs) ++ s.errors := hown
        rw [show decide ((x :: xs).length > 0) = true by simp, M.when_true]
        unfold annotate
        rw [M.pure_bind]
        unfold replaySession
        rw [if_neg h1, h2, hlow _ hall]
        rfl
    rw [M.bind_ok hwhen]
    rw [M.bind_ok (endSession_clean _ _ (by
      intro e he
      rcases List.mem_append.1 he with he | he
      · obtain ⟨x, hx, rfl⟩ := List.mem_map.1 he
        have := hall x hx
        show x.sess - 1 < _
        omega
      · have := hs.2 e he
        omega))]
    rw [M.pure_apply]
    show Res.ok rest _ = _
    congr 1
    unfold afterBuffer
    rw [← herr]
    rfl
  rw [M.bind_ok e]
  rfl

/-- Lines of data directives, read in a state that knows their names. -/
theorem dataLines_here {ez80 : Bool} {label : Str → Option Int} {text : Str → Option Str} (k depth : Nat) (hd : depth ≤ 20) (hk : depth ≤ k) (hk0 : 0 < k)
    {pc : Nat} {t : Str} {bs : List Nat} (hl : DataLines ez80 label text depth pc t bs) :
    ∀ st : S, visibleLabel st = label → visibleText st = text → st.mode.ez80 = ez80 → Settled st → st.pc = pc → pc + bs.length < 4294967296 →
      InSession st → HasRoom bs.length st → (st.mode.normal = true ∨ st.mode.list = true) →
      ∃ n d f, Lines (k + 2) t st { afterData bs [] d f st with lineNum := n } := by
  induction hl with
  | nil pc =>
    intro st _ _ _ _ hpc hpc' _ _ _
    refine ⟨st.lineNum, st.parseDepth, st.fwdRef, ?_⟩
    rw [afterData_nil st (by omega)]
    exact .nil st
  | line pc b name n c dargs t bs rest bs' hb hname hc hj hdat hrest ih =>
    intro st h1 h2 h3 h5 hpc hpc' h7 h8 h9
    rw [← h1, ← h2, ← h3] at hdat
    simp only [List.length_append] at hpc' h8
    obtain ⟨d, f, hrun⟩ := C46_data_partial name n hname k depth hd hk hk0 pc dargs bs [] b c t (10 :: rest) st hdat hj hb hc
      (.inr ⟨10, rest, rfl, .inl rfl⟩) ⟨hpc, by omega⟩ h7 ⟨h8.1, by have := h8.2; push_cast at this; omega⟩ h9
    have hline := runLine_whole (k + 2) (b ++ name ++ c :: t) rest st _ hrun (by
      intro x hx
      cases b with
      | nil =>
        simp only [dataDirectives, List.mem_cons, List.not_mem_nil, or_false, Prod.mk.injEq] at hname
        rcases hname with h | h | h | h | h | h | h | h | h | h | h | h <;> obtain ⟨rfl, rfl⟩ := h <;> cases hx <;> decide
      | cons y b =>
        cases hx
        have := hb x (by simp)
        omega)
    have hvis : visibleText { afterData bs [] d f st with lineNum := st.lineNum + 1 } = visibleText st := rfl
    obtain ⟨n, d', f', hL⟩ := ih { afterData bs [] d f st with lineNum := st.lineNum + 1 } h1 (hvis.trans h2) h3 h5
      (by show (st.pc + bs.length) % 4294967296 = _; rw [hpc]; push_cast; omega) (by omega) h7
      ⟨by have := h8.1; show 0 ≤ st.outPtr + bs.length; omega, by
        have := h8.2
        show st.outPtr + bs.length + bs'.length ≤ 8000000
        push_cast at this
        omega⟩ h9
    refine ⟨n, d', f', .line _ (10 :: rest) st (afterData bs [] d f st) _ (by simp) h5.1 ?_ ?_ ?_⟩
    · rw [show b ++ name ++ c :: t ++ [10] ++ rest = b ++ name ++ c :: t ++ 10 :: rest by simp]
      exact hline
    · show rest.length < _
      simp
      omega
    · rw [afterData_append bs bs' d d' f f' _ n st h8.1] at hL
      exact hL

/-- C64, for buffers of data: `run()` places the data the lines stand for at the present address. Nothing else changes, but the buffer
is gone and an eZ80 is back in ADL mode. -/
theorem C64_data (k depth pc i : Nat) (hd : depth ≤ 20) (hk : depth ≤ k) (hk0 : 0 < k) (s : S) (b name text rest : Str) (bs : List Nat) (hb : Blanks b)
    (h : BuiltIn s (b! "RUN") name) (hi : i < 10) (hc : s.curBuf = i) (ht : s.bufs i = some text) (hs : Settled s) (hsess : 1 ≤ s.session)
    (hcode : ∀ e ∈ s.errors, e.code ≠ 0) (hdata : DataLines s.mode.ez80 (visibleLabel s) (visibleText s) depth pc text bs)
    (hpc : s.pc = pc) (hpc' : pc + bs.length < 4294967296) (hroom : HasRoom bs.length s) (hmode : s.mode.normal = true ∨ s.mode.list = true) :
    ∃ d f, (knot (k + 3)).lineSec (b ++ name ++ 40 :: 41 :: rest) s =
      .ok (some rest) { withBuffer i none (afterData bs [] d f s) with adl := if s.mode.ez80 then true else s.adl } := by
  have hle : ∀ e ∈ s.errors, e.sess ≤ s.session + 1 := fun e he => by have := hs.2 e he; omega
  have hvis : visibleText (inBuffer s) = visibleText s := visibleText_session s (s.session + 1) (by omega) hs.2
  obtain ⟨n, d, f, hL⟩ := dataLines_here k depth hd hk hk0 hdata (inBuffer s) rfl hvis rfl ⟨hs.1, hle⟩ hpc hpc'
    ⟨by show 1 ≤ s.session + 1; omega, hle⟩ hroom hmode
  refine ⟨d, f, ?_⟩
  rw [C64_run (k + 2) i s _ b name text rest hb h hi hc ht ⟨hsess, hs.2⟩ hL ⟨rfl, [], rfl, by simp⟩ hcode hc (by show s.bufs i ≠ none; rw [ht]; simp)]
  congr 1
  have herr : s.errors.map (fun e => if e.sess = s.session + 1 then { e with sess := e.sess - 1 } else e) = s.errors := by
    conv => rhs; rw [← List.map_id s.errors]
    refine List.map_congr_left (fun e he => ?_)
    have := hs.2 e he
    rw [if_neg (by omega)]
    rfl
  have e : afterBuffer i s { afterData bs [] d f (inBuffer s) with lineNum := n } =
      { withBuffer i none (afterData bs [] d f s) with
        adl := if s.mode.ez80 then true else s.adl
        session := s.session + 1 - 1
        errors := s.errors.map (fun e => if e.sess = s.session + 1 then { e with sess := e.sess - 1 } else e) } := rfl
  have e1 : s.session + 1 - 1 = s.session := by omega
  rw [e, herr, e1]
  rfl

/-! ### Cases -/

/-- A state with the label `x`, whose value is 3, and some text in buffer 2. -/
def withBuffers : S :=
  { (asm (b! "x = 3\n") [b! "a.asm"]).state with
    session := 1, errors := [], pc := 0x9D95, outPtr := 0, argSets := [], errOccurred := false, opcodes := z80Table,
    curBuf := 0, bufs := fun j => if j = 2 then some (b! " .db 3,x\n .dw x\n") else none }

theorem withBuffers_word (word name : Str) (hw : word ∈ [b! "BUF", b! "CLR", b! "WR", b! "RUN"]) (h : name.map upperCase = word) : BuiltIn withBuffers word name := by
  refine ⟨h, ?_, ?_⟩
  · show ∀ o ∈ z80Table, ∀ c ∈ o.name, Alnum c
    decide +kernel
  · show ∀ o ∈ z80Table, _
    simp only [List.mem_cons, List.not_mem_nil, or_false] at hw
    rcases hw with rfl | rfl | rfl | rfl <;> decide +kernel

/-- Three lines, ` buf(2)`, ` clr()` and ` wr(" .db ",x,",x")`: buffer 2 then consists of the line ` .db 3,x`. -/
example : ∃ d f s', Lines 4 (b! " buf(2)\n clr()\n wr(\" .db \",x,\",x\")\n") withBuffers s' ∧ s'.curBuf = 2 ∧ s'.bufs 2 = some (b! " .db 3,x\n") ∧
    s' = { withBuffers with curBuf := s'.curBuf, bufs := s'.bufs, lineNum := withBuffers.lineNum + 3, parseDepth := d, fwdRef := f } := by
  have blank : Blanks [32] := by intro c hc; simp at hc; subst hc; exact .inl rfl
  have hx : visibleLabel withBuffers (b! "x") = some 3 := by decide +kernel
  have h1 : BufferStatement withBuffers 1 (.select 2) (b! " buf(2)") :=
    ⟨[32], b! "buf", blank, [], b! "2", [], 0, withBuffers_word _ _ (by decide) (by decide), rfl, spec_nb, spec_nb, by decide, .one _ _ _ (.plain _ _ _ (spec_digit 50 (by omega))), by omega, by omega⟩
  have h2 : BufferStatement withBuffers 1 .clear (b! " clr()") := ⟨[32], b! "clr", blank, withBuffers_word _ _ (by decide) (by decide), rfl⟩
  have hc1 : Chars (b! " .db ") (b! " .db ") := .char 32 _ _ (by decide) (by decide) (by decide) (by decide) (.char 46 _ _ (by decide) (by decide) (by decide) (by decide)
    (.char 100 _ _ (by decide) (by decide) (by decide) (by decide) (.char 98 _ _ (by decide) (by decide) (by decide) (by decide)
      (.char 32 _ _ (by decide) (by decide) (by decide) (by decide) .nil))))
  have hc2 : Chars (b! ",x") (b! ",x") := .char 44 _ _ (by decide) (by decide) (by decide) (by decide) (.char 120 _ _ (by decide) (by decide) (by decide) (by decide) .nil)
  have arg : ∀ {b c : Str}, Chars b c → Argument (34 :: b ++ [34]) := fun {b _} h => by
    refine ⟨.string _ _ [] (chars_stringBody h) (.nil _), by simp, ?_, ?_⟩
    · intro c hc; cases hc; unfold White; omega
    · intro c hc
      have e : (34 :: b ++ [34]).getLast? = some 34 := by rw [List.getLast?_append]; rfl
      rw [e] at hc
      cases hc
      unfold White; omega
  have h3 : BufferStatement withBuffers 1 (.write (b! " .db " ++ (decimal 3 ++ (b! ",x" ++ [])))) (b! " wr(\" .db \",x,\",x\")") :=
    ⟨[32], b! "wr", blank, [b! "\" .db \"", b! "x", b! "\",x\""], b! "\" .db \",x,\",x\"", withBuffers_word _ _ (by decide) (by decide), rfl,
      .more [] _ [] _ _ spec_nb spec_nb (arg hc1) (by decide) (.more [] _ [] _ _ spec_nb spec_nb (spec_argument (b! "x") (by decide) (by decide)) (by decide)
        (.one [] _ [] spec_nb spec_nb (arg hc2) (by decide))),
      .string _ _ _ _ hc1 (.number 0 (b! "x") 3 _ _ (.one _ _ _ (.plain _ _ _ (spec_label 120 3 (by omega) hx))) (by omega) (by omega) (by omega)
        (.string _ _ _ _ hc2 .nil))⟩
  obtain ⟨d, f, h⟩ := C64_history 2 1 (by omega) (by omega) (by omega) withBuffers ⟨by decide, by decide⟩ rfl (.cons h1 (.cons h2 (.cons h3 .nil))) 0 (by omega) rfl
  refine ⟨d, f, _, h, rfl, ?_, rfl⟩
  have h2 : decimal 3 = b! "3" := by
    unfold decimal decimalDigits
    rfl
  rw [h2]
  rfl

/-- ` run()` with the lines ` .db 3,x` and ` .dw x` in the buffer. -/
example : ∃ d f, (knot 5).lineSec (b! " run()\n") { withBuffers with curBuf := 2 } =
    .ok (some (b! "\n")) (withBuffer 2 none (afterData [3, 3, 3, 0] [] d f { withBuffers with curBuf := 2 })) := by
  have blank : Blanks [32] := by intro c hc; simp at hc; subst hc; exact .inl rfl
  have hx : visibleLabel { withBuffers with curBuf := 2 } (b! "x") = some 3 := by decide +kernel
  have hr : BuiltIn { withBuffers with curBuf := 2 } (b! "RUN") (b! "run") := by
    have := withBuffers_word (b! "RUN") (b! "run") (by decide) (by decide)
    exact ⟨this.1, this.2, this.3⟩
  have hz : withBuffers.mode.ez80 = false := by decide +kernel
  have hl : DataLines false (visibleLabel { withBuffers with curBuf := 2 }) (visibleText { withBuffers with curBuf := 2 }) 1 0x9D95 (b! " .db 3,x\n .dw x\n") [3, 3, 3, 0] :=
    .line _ [32] (b! ".db") 1 32 [b! "3", b! "x"] (b! "3,x") [3, 3] (b! " .dw x\n") [3, 0] blank (by decide) (.inl rfl)
      (spec_two (b! "3") (b! "x") (spec_argument _ (by decide) (by decide)) (spec_argument _ (by decide) (by decide)) (by decide))
      (.number _ 0 (b! "3") 3 _ _ [] (.one _ _ _ (.plain _ _ _ (spec_digit 51 (by omega)))) (by omega)
        (.number _ 0 (b! "x") 3 _ _ [] (.one _ _ _ (.plain _ _ _ (spec_label 120 3 (by omega) hx))) (by omega) (.nil _)))
      (.line (depth := 1) _ [32] (b! ".dw") 2 32 [b! "x"] (b! "x") [3, 0] [] [] blank (by decide) (.inl rfl)
        (.one [] (b! "x") [] spec_nb spec_nb (spec_argument _ (by decide) (by decide)) (by decide))
        (.number (depth := 1) _ 0 (b! "x") 3 [] [] [] (.one _ _ _ (.plain _ _ _ (spec_label 120 3 (by omega) hx))) (by decide) (.nil _)) (.nil _))
  obtain ⟨d, f, h⟩ := C64_data 2 1 0x9D95 2 (by omega) (by omega) (by omega) { withBuffers with curBuf := 2 } [32] (b! "run") _ (b! "\n") [3, 3, 3, 0] blank hr (by omega) rfl rfl
    ⟨rfl, by decide⟩ (by decide) (by decide)
    (hz ▸ hl)
    rfl (by decide) ⟨by decide, by decide⟩ (.inl (by decide +kernel))
  refine ⟨d, f, h.trans ?_⟩
  have e : ∀ x : S, x.mode.ez80 = false → ({ x with adl := if x.mode.ez80 then true else x.adl } : S) = x := by
    intro x hx; rw [hx]; rfl
  exact congrArg _ (e (withBuffer 2 none (afterData [3, 3, 3, 0] [] d f { withBuffers with curBuf := 2 })) hz)

/-- In a whole program: the value of `x` in the first operand is the one it has at `wr`, in the second the one at `run`. -/
example : (asm (b! "x = 3\n clr()\n wr(\" .db \",x,\",x\")\n wr(\" .dw 258\")\nx = 4\n run()\n .db 9\n") [b! "a.asm"]).state.log =
    [.warning .labelRedefined, .wrote (b! "a.bin") [3, 4, 2, 1, 9]] := by decide +kernel

/-! ### Where the buffers fail -/

/-- C64, numbers that are not those of buffers: they are accepted, and the next statement reaches behind the array. -/
theorem C64_no_such_buffer (v : Int) (hv : v < 0 ∨ 10 ≤ v) (k : Nat) (s : S) (hc : s.curBuf = v) (b word name t : Str) (hb : Blanks b)
    (h : BuiltIn s word name) (hw : word ∈ [b! "CLR", b! "WR", b! "RUN"]) :
    (knot (k + 1)).lineSec (b ++ name ++ 40 :: t) s = .stop (.ub .outOfBounds) s := by
  show lineSecBody (knot k) _ s = _
  rw [builtIn_line _ _ _ _ _ _ h (by simp only [List.mem_cons, List.not_mem_nil, or_false] at hw ⊢; exact .inr hw) hb]
  have hi : bufIndex s = none := by
    unfold bufIndex
    rw [if_neg (by omega)]
  have e : builtInBody (knot k) word t s = .stop (.ub .outOfBounds) s := by
    simp only [List.mem_cons, List.not_mem_nil, or_false] at hw
    rcases hw with rfl | rfl | rfl
    · show fcClr (40 :: t) s = _
      unfold fcClr
      rw [M.get_bind, hi]
      rfl
    · show fcWr (knot k) (40 :: t) s = _
      unfold fcWr
      rw [M.get_bind, hi]
      rfl
    · show fcRun (knot k) (40 :: t) s = _
      unfold fcRun
      rw [M.get_bind, hi]
      rfl
  rw [M.bind_stop e]

example : (match asm (b! " buf(10)\n clr()\n") [b! "a.asm"] with | .stop (.ub .outOfBounds) _ => true | _ => false) = true := by decide +kernel

/-- C64, selecting another buffer in the text of one: `run` then releases the other one, which is not there. -/
theorem C64_released_twice : (match asm (b! " clr()\n wr(\" buf(1)\")\n run()\n") [b! "a.asm"] with
    | .stop (.ub .nullDeref) _ => true
    | _ => false) = true := by decide +kernel

/-- C64, labels that are defined later: `wr` puts the text `(error)` in their place. There is no message, and where a label is
called `error` the run counts as successful. -/
theorem C64_later_label :
    (asm (b! "error = 2\n wr(\" .db 7-\",later)\n run()\nlater = 1\n") [b! "a.asm"]).state.log = [.wrote (b! "a.bin") [5]] ∧
    exitStatus (asm (b! "error = 2\n wr(\" .db 7-\",later)\n run()\nlater = 1\n") [b! "a.asm"]) = some 0 := by decide +kernel

private theorem pass_stops (line : Str → M (Option Str)) (f : Nat) (p : Str) (x x' : S) (e : Stop) (hp : p.isEmpty = false) (hx : x.errOccurred = false)
    (h : line p x = .stop e x') : firstPassLoop line (f + 1) p x = .stop e x' := by
  rw [firstPassLoop, M.get_bind, hx, hp]
  exact M.bind_stop h

/-- C64, a buffer that runs itself: the line ` run()` in the buffer is assembled again and again, however deep the nesting may be. -/
theorem C64_endless (k : Nat) : ∀ (s : S) (i : Nat) (b name rest : Str), Blanks b → BuiltIn s (b! "RUN") name → i < 10 → s.curBuf = i →
    s.bufs i = some (b ++ name ++ b! "()\n") → s.errOccurred = false → ∃ s', (knot k).lineSec (b ++ name ++ 40 :: 41 :: rest) s = .stop .fuel s' := by
  induction k with
  | zero => intro s _ b name rest _ _ _ _ _ _; exact ⟨s, rfl⟩
  | succ k ih =>
    intro s i b name rest hb h hi hc ht he
    obtain ⟨s', hs'⟩ := ih (inBuffer s) i b name [10] hb ⟨h.same, h.table, h.noMnemonic⟩ hi hc ht he
    refine ⟨s', ?_⟩
    show lineSecBody (knot k) _ s = _
    rw [builtIn_line _ _ _ _ _ _ h (by simp) hb]
    have h92 : dropChar 92 (b ++ name ++ b! "()\n") = b ++ name ++ b! "()\n" := by
      cases b with
      | nil =>
        obtain ⟨⟨⟨x, r, rfl, hx, -⟩, -⟩, -⟩ := builtIn_name h (by simp)
        have : x ≠ 92 := by omega
        simp [dropChar, this]
      | cons y b =>
        have := hb y (by simp)
        have : y ≠ 92 := by omega
        simp [dropChar, this]
    have hline : runLine (knot k) (b ++ name ++ b! "()\n") (inBuffer s) = .stop .fuel s' := by
      unfold runLine
      rw [lineLoop, h92]
      exact M.bind_stop hs'
    have hempty : (b ++ name ++ b! "()\n").isEmpty = false := by simp
    have e : builtInBody (knot k) (b! "RUN") (41 :: rest) s = .stop .fuel s' := by
      show fcRun (knot k) (40 :: 41 :: rest) s = _
      unfold fcRun
      rw [M.get_bind, bufIndex_some s i hi hc]
      dsimp only
      rw [ht]
      dsimp only
      rw [M.modify_bind]
      have hss : startSession { s with currFile := b! "Built-in fcreate" } =
        .ok (s.session + 1) { s with currFile := b! "Built-in fcreate", session := s.session + 1 } := rfl
      rw [M.bind_ok hss]
      have hrun : runFirstPass (knot k) (b ++ name ++ b! "()\n") { s with currFile := b! "Built-in fcreate", session := s.session + 1 } = .stop .fuel s' := by
        unfold runFirstPass
        rw [M.modify_bind]
        exact pass_stops _ _ _ _ _ _ hempty he hline
      rw [M.bind_stop hrun]
    rw [M.bind_stop e]

end Spasm.Props
