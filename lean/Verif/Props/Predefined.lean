import Verif.Props.Option
import Verif.Props.Function
import Verif.Props.Bitmap
import Verif.Props.Options
import Verif.Spec.Predefined

/-
C71: the names that are defined before the source is read.
-/

namespace Spasm.Props
open Spasm Spec

theorem refreshed_place (s : S) (name : Str) (hm : Maintained s name) (h1 : -2147483648 ≤ s.lineNum) (h2 : s.lineNum ≤ 2147483647) :
    refreshed (nameKey s name) s = some (placeText (nameKey s name) s.lineNum s.currFile) := by
  unfold refreshed placeText
  rw [fmtInt_decimal _ h1 h2]
  rcases hm with h | h
  · rw [h]; rfl
  · rw [h]
    show some (fileDefine s.currFile) = _
    unfold fileDefine
    have : (fun c : Nat => if c == 92 then [92, 92] else [c]) = fun c => if c = 92 then [92, 92] else [c] := by
      funext c
      by_cases h : c = 92 <;> simp [h]
    rw [this]
    simp

/-- Looking up a name that the assembler maintains. -/
theorem searchDefines_place (s : S) (name : Str) (df : Define) (hm : Maintained s name) (harg : argumentOf s name = none)
    (hdef : defineOf s name = some df) (h1 : -2147483648 ≤ s.lineNum) (h2 : s.lineNum ≤ 2147483647) :
    ∃ T r, searchDefines name true s = .ok (some (r, { df with contents := some (placeText (nameKey s name) s.lineNum s.currFile) })) { s with defines := T } ∧
      OnlyText (nameKey s name) s { s with defines := T } := by
  have hfind : findDefine (nameKey s name) s = some (.glob (nameKey s name), df) := by
    unfold findDefine
    have h := searchLocal_eq s name
    unfold searchLocal at h
    rw [keyOf_eq, harg, Option.map_eq_none_iff] at h
    rw [h]
    rw [defineOf_eq] at hdef
    simp [hdef]
  have e : searchDefines name true s = (match findDefine (keyOf s name) s with
      | none => .ok none s
      | some (r, d) =>
        match refreshed (keyOf s name) s with
        | none => .ok (some (r, d)) s
        | some c => .ok (some (r, { d with contents := some c }))
            (writeDef r (fun d => { d with contents := some c }) s)) := rfl
  refine ⟨s.defines.update (nameKey s name) (fun d => { d with contents := some (placeText (nameKey s name) s.lineNum s.currFile) }),
    .glob (nameKey s name), ?_, ?_, rfl⟩
  · rw [e, keyOf_eq, hfind, refreshed_place s name hm h1 h2]
    rfl
  · intro other hk
    rw [defineOf_eq, defineOf_eq]
    have := Table.lookup_update (nameKey s name) (nameKey s other) (fun d : Define => { d with contents := some (placeText (nameKey s name) s.lineNum s.currFile) }) s.defines
    rw [if_neg hk] at this
    exact this

/-- A define without parameters in an expression: the value of its text. -/
theorem parseMacro_value (s : S) (n : Nat) (df : Define) (rest : Str) (v l q p p' : Int) (hargs : df.args = []) (hf : Follows rest)
    (hsess : ∀ e ∈ s.errors, e.sess ≤ q) (c r : Str)
    (hev1 : parseDefine (knot n) df (evalState { s with lineNum := df.line, session := q + 1 } p) =
        .ok (some c) (evalState { s with lineNum := df.line, session := q + 1 } p))
    (hev2 : (knot n).numFull c 0 (evalState { s with lineNum := df.line, session := q + 1 } p) =
        .ok (some (r, v)) (evalState { s with lineNum := df.line, session := q + 1 } p')) :
    parseMacro (knot n) df rest (evalState { s with lineNum := l, session := q } p) =
      .ok (some (rest, v)) (evalState { s with lineNum := l, session := q } p') := by
  generalize hst : evalState { s with lineNum := l, session := q } p = st
  unfold parseMacro
  have hpa : parseArgs (knot n) rest df st = .ok (rest, false) st := by
    unfold parseArgs
    rw [if_pos (by rw [hargs]; simpa using hf.not40)]
    rfl
  rw [M.bind_ok hpa]
  dsimp only
  simp only [M.get_bind, M.modify_bind]
  have hss : startSession { st with lineNum := df.line } =
      .ok (q + 1) (evalState { s with lineNum := df.line, session := q + 1 } p) := by
    rw [← hst]; rfl
  rw [M.bind_ok hss]
  rw [M.bind_ok hev1]
  dsimp only
  rw [M.bind_ok hev2]
  simp only [M.modify_bind, M.get_bind]
  have hpre : sessPrefix (q + 1) s.errors = [] := by
    unfold sessPrefix
    cases hE : s.errors with
    | nil => rfl
    | cons x xs =>
      have := hsess x (by rw [hE]; simp)
      rw [List.takeWhile_cons_of_neg]
      simp; omega
  have hdrop : s.errors.dropWhile (fun e => e.sess == q + 1) = s.errors := by
    cases hE : s.errors with
    | nil => rfl
    | cons x xs =>
      have := hsess x (by rw [hE]; simp)
      rw [List.dropWhile_cons_of_neg]
      simp; omega
  have hcount : ∀ l' : Int, sessionCount (q + 1) { evalState { s with lineNum := df.line, session := q + 1 } p' with lineNum := l' } = 0 := by
    intro l'
    show ((sessPrefix (q + 1) s.errors).filter _).length = 0
    rw [hpre]; rfl
  rw [hcount, show decide (0 > 0) = false from rfl, M.when_false, M.pure_bind]
  have hes : endSession (q + 1) { evalState { s with lineNum := df.line, session := q + 1 } p' with lineNum := st.lineNum } =
      .ok () (evalState { s with lineNum := l, session := q } p') := by
    unfold endSession
    have e1 : sessPrefix (q + 1) ({ evalState { s with lineNum := df.line, session := q + 1 } p' with lineNum := st.lineNum } : S).errors = [] := hpre
    rw [e1]
    simp only [List.any_nil, Bool.and_false, Bool.false_eq_true, if_false]
    congr 1
    rw [← hst]
    unfold evalState
    simp [hdrop]
  rw [M.bind_ok hes]
  rfl

/-- C71: the name `__LINE` in an expression is the number of the line. Only the text of `__LINE` changes. -/
theorem C71_line (s : S) (n : Nat) (b t b' rest : Str) (df : Define) (hs : Settled s) (hname : Name t) (hkey : nameKey s t = b! "__LINE")
    (harg : argumentOf s t = none) (hlab : labelOf s t = none) (hdef : defineOf s t = some df) (hnone : df.args = [])
    (h1 : 0 ≤ s.lineNum) (h2 : s.lineNum ≤ 2147483647) (hn : 2 ≤ n) (hb : Blanks b) (hb' : Blanks b') (hrest : AtEnd rest) :
    ∃ s', parseNum (knot n) (b ++ t ++ b' ++ rest) s = .ok (some s.lineNum) { s' with parseDepth := 0, fwdRef := false } ∧ OnlyText (b! "__LINE") s s' := by
  obtain ⟨n, rfl⟩ : ∃ m, n = m + 1 := ⟨n - 1, by omega⟩
  obtain ⟨n, rfl⟩ : ∃ m, n = m + 1 := ⟨n - 1, by omega⟩
  obtain ⟨T, r0, hsd, honly⟩ := searchDefines_place (evalState s 1) t df (.inl hkey) harg hdef (show -2147483648 ≤ s.lineNum by omega) h2
  refine ⟨{ s with defines := T }, ?_, ⟨fun name h => honly.others name (by show _ ≠ nameKey s t; rw [hkey]; exact h), rfl⟩⟩
  have hf := hrest.follows hb'
  obtain ⟨⟨c, r, hct, hc, hx⟩, hne⟩ := id hname
  have hst : Starter' c := by unfold Starter' Starter Alnum; omega
  have hal : ∀ x ∈ t, NameChar x := by
    intro x hx'
    rw [hct] at hx'
    rcases List.mem_cons.1 hx' with rfl | hx'
    · unfold NameChar Alnum; omega
    · exact hx x hx'
  have htw := takeName_append t (b' ++ rest) hal hf
  have e : b ++ t ++ b' ++ rest = b ++ (t ++ (b' ++ rest)) := by simp
  rw [e, parseNum_start (n + 1) s b (t ++ (b' ++ rest)) c (r ++ (b' ++ rest)) hb (by rw [hct]; rfl) hst]
  -- the text of the name
  obtain ⟨ds, e1, e2, e3, e4, e5⟩ := decAux_spec 11 s.lineNum.natAbs [] (by omega) (by omega)
  have htext : placeText (nameKey s t) s.lineNum s.currFile = ds := by
    unfold placeText
    rw [hkey, if_pos rfl, ← fmtInt_decimal _ (by omega) h2]
    unfold fmtInt fmtNat
    rw [if_neg (by omega), e1, List.append_nil]
  have hden : Denotes (toI32 s.pc) (visibleLabel { s with defines := T }) (visibleText { s with defines := T }) 0 ds s.lineNum := by
    have := spec_decimal (pc := toI32 s.pc) (label := visibleLabel { s with defines := T }) (text := visibleText { s with defines := T }) ds e2 e3 (by omega)
    have ev : asInt32 (value 10 ds) = s.lineNum := by unfold asInt32; split <;> omega
    rw [ev] at this
    exact .one _ _ _ (.plain _ _ _ this)
  have nb : Blanks [] := by intro c hc; cases hc
  have key : operandM (knot (n + 1)) 0 (t ++ (b' ++ rest)) (evalState s 1) = .ok (some (b' ++ rest, s.lineNum)) (evalState { s with defines := T } 1) := by
    have reach : operandM (knot (n + 1)) 0 (t ++ (b' ++ rest)) (evalState s 1) = parseName (knot (n + 1)) (t ++ (b' ++ rest)) (evalState s 1) := by
      unfold operandM
      rw [hct]
      rw [if_neg (by simp; omega)]
      unfold parseSingle
      simp only [List.cons_append, hd_cons]
      rw [if_neg, if_neg, if_neg, if_neg, if_neg, if_pos]
      · unfold isAlpha isUpper isLower; simp; omega
      all_goals simp; omega
    rw [reach]
    unfold parseName
    rw [htw.1, htw.2]
    have hne' : (t == [95]) = false := by simpa using hne
    have h40 : (Spasm.hd (b' ++ rest) == 40) = false := by simpa using hf.not40
    have hloc : searchLocal t (evalState s 1) = none := by rw [searchLocal_eq]; exact harg
    have hlab' : searchLabels t (evalState s 1) = none := by
      have := searchLabels_eq (evalState s 1) t
      rw [show labelOf (evalState s 1) t = none from hlab] at this
      exact Option.map_eq_none_iff.1 this
    simp only [M.get_bind, hloc, Option.isSome_none, Bool.false_eq_true, if_false, hlab']
    rw [M.bind_ok hsd]
    simp only [M.pure_bind, hne', h40, Bool.and_false, Bool.false_eq_true, if_false, Option.map_some]
    obtain ⟨e6, e7⟩ := eval_text { s with defines := T } 0 [] ds [] s.lineNum nb nb hden (eval_denotes _ hden)
      { s with defines := T, lineNum := df.line, session := s.session + 1 } ⟨df.line, s.session + 1, by show s.session ≤ _; omega, rfl⟩ hs.1
      { df with contents := some (placeText (nameKey s t) s.lineNum s.currFile) } (by rw [htext]; simp) (n + 1) 1 (by omega) (by omega)
    have := parseMacro_value { s with defines := T } (n + 1) { df with contents := some (placeText (nameKey s t) s.lineNum s.currFile) } (b' ++ rest)
      s.lineNum s.lineNum s.session 1 1 hnone hf hs.2 (ds ++ []) [] e6 e7
    exact this
  have hg : getOp 0 ((b' ++ rest).length + 1) (b' ++ rest) (evalState { s with defines := T } 1) =
      .ok (.done rest) { s with defines := T, parseDepth := 0, fwdRef := false } := by
    rw [getOp, hrest.skipWs hb']
    simp only [hrest.isEnd, if_true]
    rfl
  rw [M.bind_ok (a := some (rest, s.lineNum)) (s' := { s with defines := T, parseDepth := 0, fwdRef := false })]
  · rfl
  · rw [numLoop_step (knot (n + 1)) 0 _ 0 none (t ++ (b' ++ rest)) (t ++ (b' ++ rest)) (b' ++ rest) _ _ false false s.lineNum
      (unary_plain _ c (r ++ (b' ++ rest)) (by rw [hct]; rfl) (by unfold Starter Alnum; omega)) key (by simp) (by simp)]
    simp only [Bool.false_eq_true, if_false]
    show afterOperand _ _ _ _ _ _ = _
    unfold afterOperand
    rw [M.bind_ok hg]
    rfl

/-- C71: `.show` prints the number of the line for `__LINE` and the path of the file for `__FILE`. -/
theorem C71_show (k : Nat) (b w name b' rest : Str) (c : Nat) (df : Define) (s : S) (hw : w.map upperCase = b! "SHOW") (hb : Blanks b) (hc : c = 32 ∨ c = 9)
    (h0 : name ≠ []) (hn : ∀ x ∈ name, NameChar x) (hb' : Blanks b') (hl : (name ++ b').length ≤ 254) (hr : AtEnd rest)
    (hm : Maintained s name) (harg : argumentOf s name = none) (hdef : defineOf s name = some df) (hnone : df.args = [])
    (h1 : -2147483648 ≤ s.lineNum) (h2 : s.lineNum ≤ 2147483647) :
    ∃ s', (knot (k + 1)).lineSec (b ++ 46 :: w ++ c :: name ++ b' ++ rest) s =
        .ok (some rest) { s' with log := s.log ++ [.text (df.name ++ b! ": " ++ placeText (nameKey s name) s.lineNum s.currFile ++ [10])] } ∧
      OnlyText (nameKey s name) s s' := by
  obtain ⟨e1, e2⟩ := show_reads (knot k) b w name b' rest c s hw hb hc h0 hn hb' hl hr
  obtain ⟨T, r, e3, e4⟩ := searchDefines_place s name df hm harg hdef h1 h2
  refine ⟨_, ?_, e4⟩
  show lineSecBody (knot k) _ s = _
  rw [e1]
  unfold dirShow
  rw [M.bind_ok e2]
  dsimp only
  rw [M.bind_ok e3]
  dsimp only
  rw [M.bind_ok (showDefine_prints _ _)]
  unfold shownLine
  rw [hnone]
  simp

/-- The defines that a list of entries gives. -/
def Gives (es : List (Str × List Str × Str)) (T : Table Define) : Prop :=
  ∀ e ∈ es, (T.lookup e.1).map (fun d => (d.args, d.contents)) = some (e.2.1, some e.2.2)

/-- The program defines exactly these names. -/
def Provides (es : List (Str × List Str × Str)) (m : M Unit) : Prop := ∀ s, Early s → ∃ T, m s = .ok () { s with defines := T } ∧ Gives es T ∧
  ∀ key, (∀ e ∈ es, e.1 ≠ key) → T.lookup key = s.defines.lookup key

theorem Provides.bind {es es' : List (Str × List Str × Str)} {m m' : M Unit} (h : Provides es m) (h' : Provides es' m')
    (hd : ∀ e ∈ es, ∀ e' ∈ es', e'.1 ≠ e.1) : Provides (es ++ es') (m >>= fun _ => m') := by
  intro s hs
  obtain ⟨T, e1, e2, e3⟩ := h s hs
  obtain ⟨T', f1, f2, f3⟩ := h' { s with defines := T } ⟨hs.labels, hs.args⟩
  refine ⟨T', by rw [M.bind_ok e1, f1], ?_, ?_⟩
  · intro e he
    rcases List.mem_append.1 he with he | he
    · rw [f3 e.1 (hd e he)]
      exact e2 e he
    · exact f2 e he
  · intro key hk
    rw [f3 key fun e he => hk e (List.mem_append_right _ he)]
    exact e3 key fun e he => hk e (List.mem_append_left _ he)

theorem builtin_provides (name c : Str) (as : List Str) (h0 : name ≠ []) (hu : name.map upperCase = name) : Provides [(name, as, c)] (builtin name c as) := by
  intro s h
  obtain ⟨T, b, d, e, e1, -, e2, -⟩ := addDefine_early s name h0 h
  have hk : nameKey s name = name := by unfold nameKey; rw [hu]; split <;> rfl
  unfold builtin
  rw [M.bind_ok e]
  refine ⟨_, rfl, ?_, ?_⟩
  · intro x hx
    obtain rfl := List.mem_singleton.1 hx
    show (Table.lookup (Table.update _ _ _) name).map _ = _
    rw [Table.lookup_update, if_pos hk.symm, ← hk, e1]
    rfl
  · intro key hkey
    have : key ≠ nameKey s name := by rw [hk]; exact fun h => hkey (name, as, c) (by simp) h.symm
    rw [Table.lookup_update, if_neg this, e2 key this]

/-- C71: before the source is read, the names of `builtIns` are defined, whatever case the user distinguishes; nothing else changes. -/
theorem C71_defined (s : S) (hl : s.labels = []) (ha : s.argSets = []) :
    ∃ T, initStorage s = .ok () { s with defines := T } ∧ (∀ e ∈ builtIns, DefinedAs { s with defines := T } e.1 e.2.1 e.2.2) ∧
      ∀ name, (∀ e ∈ builtIns, e.1 ≠ nameKey s name) → defineOf { s with defines := T } name = defineOf s name := by
  have h : Provides builtIns initStorage := by
    refine Provides.bind (builtin_provides _ _ _ (by decide) (by decide)) (.bind (builtin_provides _ _ _ (by decide) (by decide)) (.bind (builtin_provides _ _ _ (by decide) (by decide))
      (.bind (builtin_provides _ _ _ (by decide) (by decide)) (.bind (builtin_provides _ _ _ (by decide) (by decide)) (.bind (builtin_provides _ _ _ (by decide) (by decide))
      (.bind (builtin_provides _ _ _ (by decide) (by decide)) (.bind (builtin_provides _ _ _ (by decide) (by decide)) (.bind (builtin_provides _ _ _ (by decide) (by decide))
      (builtin_provides _ _ _ (by decide) (by decide)) ?_) ?_) ?_) ?_) ?_) ?_) ?_) ?_) ?_ <;> decide
  obtain ⟨T, e1, e2, e3⟩ := h s ⟨hl, ha⟩
  refine ⟨T, e1, ?_, ?_⟩
  · intro e he
    have hk : nameKey { s with defines := T } e.1 = e.1 := by
      have : ∀ e ∈ builtIns, e.1.map upperCase = e.1 := by decide
      unfold nameKey; rw [this e he]; split <;> rfl
    unfold DefinedAs
    rw [defineOf_eq, hk]
    exact e2 e he
  · intro name hn
    rw [defineOf_eq, defineOf_eq]
    exact e3 _ hn

theorem bits_sum (r g b : Nat) (hr : r ≤ 255) (hg : g ≤ 255) (hb : b ≤ 255) :
    binary .shl r 16 = some ((65536 * r : Nat) : Int) ∧ binary .shl g 8 = some ((256 * g : Nat) : Int) ∧
      binary .bitor ((65536 * r : Nat) : Int) ((256 * g : Nat) : Int) = some ((65536 * r + 256 * g : Nat) : Int) ∧
      binary .bitor ((65536 * r + 256 * g : Nat) : Int) (b : Int) = some ((65536 * r + 256 * g + b : Nat) : Int) := by
  have lit : ∀ n : Nat, n < 2147483648 → (BitVec.ofInt 32 (n : Int)).toInt = n ∧ (BitVec.ofInt 32 (n : Int)).toNat = n := by
    intro n hn
    rw [BitVec.toInt_ofInt, BitVec.toNat_ofInt]
    constructor
    · rw [Int.bmod_def]; omega
    · omega
  have orr : ∀ x y z : Nat, x ||| y = z → x < 2147483648 → y < 2147483648 → z < 2147483648 → binary .bitor (x : Int) (y : Int) = some (z : Int) := by
    intro x y z h hx hy hz
    show some (BitVec.ofInt 32 (x : Int) ||| BitVec.ofInt 32 (y : Int)).toInt = some (z : Int)
    have : (BitVec.ofInt 32 (x : Int) ||| BitVec.ofInt 32 (y : Int)) = BitVec.ofInt 32 (z : Int) := by
      apply BitVec.eq_of_toNat_eq
      rw [BitVec.toNat_or, (lit x hx).2, (lit y hy).2, (lit z hz).2, h]
    rw [this, (lit z hz).1]
  refine ⟨?_, ?_, orr _ _ _ ?_ (by omega) (by omega) (by omega), orr _ _ _ ?_ (by omega) (by omega) (by omega)⟩
  · show some (BitVec.ofInt 32 ((r : Int) * 2 ^ 16)).toInt = _
    rw [show (r : Int) * 2 ^ 16 = ((65536 * r : Nat) : Int) by push_cast; omega, (lit _ (by omega)).1]
  · show some (BitVec.ofInt 32 ((g : Int) * 2 ^ 8)).toInt = _
    rw [show (g : Int) * 2 ^ 8 = ((256 * g : Nat) : Int) by push_cast; omega, (lit _ (by omega)).1]
  · have := Nat.two_pow_add_eq_or_of_lt (i := 16) (b := 256 * g) (by omega) r
    rw [show 2 ^ 16 * r = 65536 * r from rfl] at this
    exact this.symm
  · have := Nat.two_pow_add_eq_or_of_lt (i := 8) (b := b) (by omega) (256 * r + g)
    rw [show 2 ^ 8 * (256 * r + g) = 65536 * r + 256 * g by omega] at this
    exact this.symm

/-- C71: `RGB(r, g, b)` with expressions of values from 0 to 255 is the number with the bytes `r`, `g` and `b`. -/
theorem C71_rgb (s : S) (depth n : Nat) (bl name t b' rest : Str) (args : List Str) (r g b : Nat) (hs : Settled s) (hname : Name name)
    (hkey : nameKey s name = b! "RGB") (hdef : DefinedAs s name [b! "__R", b! "__G", b! "__B"] (b! "((__R) << 16)|((__G) << 8)|(__B)"))
    (harg : argumentOf s name = none) (hlab : labelOf s name = none) (hj : Joined args t)
    (hvs : InOrder (fun done => ArgValue s done depth) [] [b! "__R", b! "__G", b! "__B"] args [some (r : Int), some (g : Int), some (b : Int)])
    (hr : r ≤ 255) (hg : g ≤ 255) (hb : b ≤ 255) (hd : 3 ≤ depth) (hD : depth ≤ 18) (hn : depth + 2 < n)
    (hbl : Blanks bl) (hb' : Blanks b') (hrest : AtEnd rest) :
    ∃ p, parseNum (knot n) (bl ++ (name ++ [40] ++ t ++ [41]) ++ b' ++ rest) s =
      .ok (some ((65536 * r + 256 * g + b : Nat) : Int)) { s with parseDepth := p, fwdRef := false } := by
  refine C56_value s depth n bl _ b' rest _ (.one _ _ _ (.call _ _ _ ?_)) hs hD hn hbl hb' hrest
  obtain ⟨df, h1, h2⟩ := Option.map_eq_some_iff.1 hdef
  obtain ⟨h3, h2⟩ := Prod.mk.inj h2
  have ob : Blanks [32] := by intro c hc; simp at hc; omega
  have hup : name.map upperCase = b! "RGB" := by
    unfold nameKey at hkey
    split at hkey
    · rw [hkey]; rfl
    · exact hkey
  obtain ⟨s1, s2, s3, s4⟩ := bits_sum r g b hr hg hb
  have low : ∀ w ∈ [b! "__R", b! "__G", b! "__B"], nameKey s w = w := by
    intro w hw
    have : ∀ w ∈ [b! "__R", b! "__G", b! "__B"], w.map upperCase = w := by decide
    unfold nameKey; rw [this w hw]; split <;> rfl
  have hkeys : [b! "__R", b! "__G", b! "__B"].map (nameKey s) = [b! "__R", b! "__G", b! "__B"] := by
    simp only [List.map_cons, List.map_nil, low _ (by simp : (b! "__R") ∈ _), low _ (by simp : (b! "__G") ∈ _), low _ (by simp : (b! "__B") ∈ _)]
  refine .call name df args t [(r : Int), (g : Int), (b : Int)] [] (b! "((__R) << 16)|((__G) << 8)|(__B)") [] 2 _
    ⟨hname, h1, harg, hlab, ?_, ?_⟩ h2 spec_nb spec_nb ?_ hj ?_ ?_ (by omega)
  · unfold Maintained; rw [hkey]; decide
  · rw [hup]; decide
  · rw [h3]
    refine ⟨?_, by decide, ?_⟩
    · rw [hkeys]; decide
    · intro p hp
      unfold Maintained
      rw [low p hp]
      revert p; decide
  · rw [h3]; exact hvs
  · rw [h3]
    have val : ∀ (i : Nat) (v : Int), bodyLabel s [b! "__R", b! "__G", b! "__B"] [some (r : Int), some (g : Int), some (b : Int)] [95, 95, i] = some v →
        (65 ≤ i ∧ i ≤ 90) → Denotes (toI32 s.pc) (bodyLabel s [b! "__R", b! "__G", b! "__B"] [some (r : Int), some (g : Int), some (b : Int)])
          (outerText s [b! "__R", b! "__G", b! "__B"]) 0 [95, 95, i] v := by
      intro i v hv hi
      refine .one _ _ _ (.plain _ _ _ (.atom _ _ (.label _ _ ?_ hv)))
      exact settingName [i] (by simp; omega)
    have num : ∀ ds : Str, ds ≠ [] → (∀ c ∈ ds, 48 ≤ c ∧ c ≤ 57) → value 10 ds ≤ 4294967295 →
        Prefixed (toI32 s.pc) (bodyLabel s [b! "__R", b! "__G", b! "__B"] [some (r : Int), some (g : Int), some (b : Int)])
          (outerText s [b! "__R", b! "__G", b! "__B"]) 0 ds (asInt32 (value 10 ds)) :=
      fun ds h0 h hv => .plain _ _ _ (spec_decimal ds h0 h hv)
    have body : ∀ w v, w ∈ [b! "__R", b! "__G", b! "__B"] →
        (([b! "__R", b! "__G", b! "__B"].zip [some (r : Int), some (g : Int), some (b : Int)]).find? (fun p => decide (nameKey s p.1 = w))).bind (·.2) = some v →
        bodyLabel s [b! "__R", b! "__G", b! "__B"] [some (r : Int), some (g : Int), some (b : Int)] w = some v := by
      intro w v hw h
      unfold bodyLabel
      rw [if_pos (by unfold IsParam; rw [hkeys, low w hw]; exact hw), low w hw]
      exact h
    have hR := low (b! "__R") (by simp)
    have hG := low (b! "__G") (by simp)
    have hB := low (b! "__B") (by simp)
    have vr := val 82 r (body _ _ (by simp) (by simp [List.zip, List.find?, hR])) (by omega)
    have vg := val 71 g (body _ _ (by simp) (by simp [List.zip, List.find?, hR, hG])) (by omega)
    have vb := val 66 b (body _ _ (by simp) (by simp [List.zip, List.find?, hR, hG, hB])) (by omega)
    have r1 := Denotes.join _ _ _ [32] .shl (b! "<<") [32] _ _ _ _ (.one _ _ _ (.plain _ _ _ (.paren _ [] _ [] _ spec_nb spec_nb vr))) ob ob (by decide) (by simp)
      (num (b! "16") (by decide) (by decide) (by decide)) s1
    have g1 := Denotes.join _ _ _ [32] .shl (b! "<<") [32] _ _ _ _ (.one _ _ _ (.plain _ _ _ (.paren _ [] _ [] _ spec_nb spec_nb vg))) ob ob (by decide) (by simp)
      (num (b! "8") (by decide) (by decide) (by decide)) s2
    have j1 := Denotes.join _ _ _ [] .bitor (b! "|") [] _ _ _ _ (.one _ _ _ (.plain _ _ _ (.paren _ [] _ [] _ spec_nb spec_nb r1))) spec_nb spec_nb (by decide) (by simp)
      (.plain _ _ _ (.paren _ [] _ [] _ spec_nb spec_nb g1)) s3
    exact Denotes.join _ _ _ [] .bitor (b! "|") [] _ _ _ _ j1 spec_nb spec_nb (by decide) (by simp)
      (.plain _ _ _ (.paren _ [] _ [] _ spec_nb spec_nb vb)) s4

/-! ### Examples -/

/-- A state with the built-in names, in line 7 of `a\b.asm`. -/
def withBuiltIns : S := { (initStorage { ({} : S) with lineNum := 7, currFile := b! "a\\b.asm" }).state with session := 1 }

example : ∃ s', parseNum (knot 2) (b! " __line ; here") withBuiltIns = .ok (some 7) { s' with parseDepth := 0, fwdRef := false } ∧
    OnlyText (b! "__LINE") withBuiltIns s' := by
  have h : (defineOf withBuiltIns (b! "__line")).map (·.args) = some [] := by decide +kernel
  obtain ⟨df, h1, h2⟩ := Option.map_eq_some_iff.1 h
  exact C71_line withBuiltIns 2 [32] (b! "__line") [32] (b! "; here") df (by decide +kernel) ⟨⟨95, _, rfl, by omega, by intro x hx; simp at hx; unfold NameChar Alnum; omega⟩, by decide⟩
    (by decide +kernel) (by decide +kernel) (by decide +kernel) h1 h2 (by decide +kernel) (by decide +kernel) (by omega)
    (by intro c hc; simp at hc; omega) (by intro c hc; simp at hc; omega) (.inr ⟨59, _, rfl, by simp⟩)

example : ∃ s', (knot 1).lineSec (b! " .SHOW __file") withBuiltIns =
      .ok (some []) { s' with log := [.text (b! "__FILE: \"a\\\\b.asm\"\n")] } ∧ OnlyText (b! "__FILE") withBuiltIns s' := by
  have h : (defineOf withBuiltIns (b! "__file")).map (fun d => (d.name, d.args)) = some (b! "__FILE", []) := by decide +kernel
  obtain ⟨df, h1, h2⟩ := Option.map_eq_some_iff.1 h
  obtain ⟨h2, h3⟩ := Prod.mk.inj h2
  have nc : ∀ x ∈ b! "__file", NameChar x := by intro x hx; simp at hx; unfold NameChar Alnum; omega
  obtain ⟨s', e1, e2⟩ := C71_show 0 [32] (b! "SHOW") (b! "__file") [] [] 32 df withBuiltIns (by decide) (by intro c hc; simp at hc; omega) (.inl rfl) (by decide)
    nc (by intro c hc; cases hc) (by decide) (.inl rfl) (by decide +kernel) (by decide +kernel) h1 h3 (by decide +kernel) (by decide +kernel)
  have hk : nameKey withBuiltIns (b! "__file") = b! "__FILE" := by decide +kernel
  have hp : placeText (b! "__FILE") withBuiltIns.lineNum withBuiltIns.currFile = b! "\"a\\\\b.asm\"" := by decide +kernel
  have hlog : withBuiltIns.log = [] := by decide +kernel
  rw [hk, h2, hp, hlog] at e1
  rw [hk] at e2
  exact ⟨s', e1, e2⟩

example : ∃ p, parseNum (knot 6) (b! "rgb(1, 2+3,255)") withBuiltIns = .ok (some 67071) { withBuiltIns with parseDepth := p, fwdRef := false } := by
  have dec : ∀ {done : List Str} (ds : Str), ds ≠ [] → (∀ c ∈ ds, 48 ≤ c ∧ c ≤ 57) → value 10 ds ≤ 4294967295 → Prefixed (toI32 withBuiltIns.pc) (outerLabel withBuiltIns done)
        (outerText withBuiltIns done) 0 ds (asInt32 (value 10 ds)) :=
    fun ds h0 h hv => .plain _ _ _ (spec_decimal ds h0 h hv)
  have ob : Blanks [32] := by intro c hc; simp at hc; omega
  have arg : Argument (b! "2+3") := by
    refine ⟨?_, by decide, by decide, by decide⟩
    exact .char _ _ _ (by decide) (by decide) (.char _ _ _ (by decide) (by decide) (.char _ _ _ (by decide) (by decide) (.nil _)))
  exact C71_rgb withBuiltIns 3 6 [] (b! "rgb") (b! "1, 2+3,255") [] [] [b! "1", b! "2+3", b! "255"] 1 5 255 (by decide +kernel)
    ⟨⟨114, _, rfl, by omega, by intro x hx; simp at hx; unfold NameChar Alnum; omega⟩, by decide⟩ (by decide +kernel) (by unfold DefinedAs; decide +kernel)
    (by decide +kernel) (by decide +kernel)
    (.more [] (b! "1") [] _ _ spec_nb spec_nb (spec_argument _ (by decide) (by decide)) (by decide)
      (.more [32] (b! "2+3") [] _ _ ob spec_nb arg (by decide)
        (.one [] (b! "255") [] spec_nb spec_nb (spec_argument _ (by decide) (by decide)) (by decide))))
    (.cons _ _ _ _ _ _ _ ⟨0, by omega, .one _ _ _ (dec (b! "1") (by decide) (by decide) (by decide)), by omega, by omega⟩
      (.cons _ _ _ _ _ _ _ ⟨0, by omega, .join _ _ _ [] .add [43] [] _ _ _ 5 (.one _ _ _ (dec (b! "2") (by decide) (by decide) (by decide))) spec_nb spec_nb (by decide) (by decide)
          (dec (b! "3") (by decide) (by decide) (by decide)) (by decide), by omega, by omega⟩
        (.cons _ _ _ _ _ _ _ ⟨0, by omega, .one _ _ _ (dec (b! "255") (by decide) (by decide) (by decide)), by omega, by omega⟩ (.nil _))))
    (by omega) (by omega) (by omega) (by omega) (by omega) (by omega) spec_nb spec_nb (.inl rfl)

/-- All of this in a whole program. -/
example : (asm (b! " .db __LINE,TRUE,FALSE,SPASMVER\n .db __BM_MSK_RGB>>8\n .db __LINE,RGB(0,0,9)\n .echo __FILE\n") [b! "a.asm"]).state.log =
    [.text (b! "a.asm\n"), .wrote (b! "a.bin") [1, 1, 0, 2, 255, 3, 9]] := by decide +kernel

end Spasm.Props
