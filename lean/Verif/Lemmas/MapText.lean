import Verif.Lemmas.ImageMap

/-
Lemmas for C75: the text of an image map. It is no expression, so that its value is that of a failure.
-/

namespace Spasm.Props
open Spasm Spec

theorem matchOp_none (c : Nat) (t : Str) (h : c = 44 ∨ (48 ≤ c ∧ c ≤ 57)) : matchOp (c :: t) = none := by
  have : ∀ d ∈ mathDefs, d.2.isPrefixOf (c :: t) = false := by
    intro d hd
    have hh : ∀ d ∈ mathDefs, ∃ x r, d.2 = x :: r ∧ x ≠ 44 ∧ ¬ (48 ≤ x ∧ x ≤ 57) := by
      intro d hd
      fin_cases hd <;> exact ⟨_, _, rfl, by decide, by decide⟩
    obtain ⟨x, r, hx, h1, h2⟩ := hh d hd
    rw [hx]
    have : (x == c) = false := by simp; omega
    simp [List.isPrefixOf, this]
  unfold matchOp
  rw [List.find?_eq_none.2 (by intro d hd; simp [this d hd])]
  rfl

theorem digit_nonblank {c : Nat} (h : 48 ≤ c ∧ c ≤ 57) : isBlank c = false := Starter.nonblank (by unfold Starter' Starter Alnum; omega)

theorem digit_alnum {c : Nat} (h : 48 ≤ c ∧ c ≤ 57) : Alnum c := .inl h

theorem digit_isDigit {c : Nat} (h : 48 ≤ c ∧ c ≤ 57) : IsDigit 10 c := ⟨c - 48, by unfold digit; rw [if_pos h], by omega⟩

/-- A run of letters and digits that is no number: an x behind the first digits. -/
theorem digits_fail (k : Rec) (run rest : Str) (st : S) (c : Nat) (r : Str) (hrun : run = c :: r) (hc : 48 ≤ c ∧ c ≤ 57) (hal : ∀ x ∈ run, Alnum x)
    (hbad : ∃ x ∈ run, ¬ IsDigit 10 x) (hlast : ∃ x, run.getLast? = some x ∧ 48 ≤ x ∧ x ≤ 57) (hrest : EndsWord rest) :
    parseSingle k (run ++ rest) st = .ok none (errorAt E.INVALID_DECIMAL_DIGIT st) := by
  obtain ⟨h1, h2⟩ := takeWhile_alnum run rest hal hrest
  have reach : parseSingle k (run ++ rest) st = parseDigits (run ++ rest) st := by
    unfold parseSingle
    rw [hrun]
    simp only [List.cons_append, hd_cons]
    rw [if_neg, if_neg, if_neg, if_neg, if_neg, if_neg, if_pos]
    · unfold isDigit; simp; omega
    · unfold isAlpha isUpper isLower; simp; omega
    all_goals simp; omega
  rw [reach]
  unfold parseDigits
  rw [h1, h2]
  dsimp only
  obtain ⟨x, hx, hx'⟩ := hlast
  have hu : toUpper (hd run.reverse) = x := by
    have : run.reverse.head? = some x := by rw [List.head?_reverse]; exact hx
    have e : hd run.reverse = x := by
      cases hr : run.reverse with
      | nil => rw [hr] at this; cases this
      | cons y t => rw [hr] at this; cases this; rfl
    rw [e]
    unfold toUpper isLower
    rw [if_neg (by simp; omega)]
  rw [hu]
  have e1 : (x == 72) = false := by simp; omega
  have e2 : (x == 66) = false := by simp; omega
  have e3 : (x == 68) = false := by simp; omega
  simp only [e1, e2, e3, Bool.false_eq_true, if_false]
  have hs := strtoll_bad 10 (by omega) run rest hal hbad (by omega)
  have hconv : convDec (run ++ rest) run.length st = .ok none (errorAt E.INVALID_DECIMAL_DIGIT st) := by
    unfold convDec convGeneric
    dsimp only
    rw [if_pos hs, M.bind_ok (setError_apply _ st (by decide))]
    rfl
  rw [M.bind_ok hconv]
  rfl

/-- The value of digits, and the text behind them. -/
theorem digits_ok (k : Rec) (ds rest : Str) (v : Nat) (st : S) (h : Decimal ds v) (hv : v ≤ 4294967295) (hrest : EndsWord rest) (hx : hd rest ≠ 120 ∧ hd rest ≠ 88)  :
    parseSingle k (ds ++ rest) st = .ok (some (rest, toI32 v)) st := by
  obtain ⟨h0, hd9, hval⟩ := h
  have hal : ∀ x ∈ ds, Alnum x := fun x hx => digit_alnum (hd9 x hx)
  obtain ⟨h1, h2⟩ := takeWhile_alnum ds rest hal hrest
  have reach : parseSingle k (ds ++ rest) st = parseDigits (ds ++ rest) st := by
    obtain ⟨c, r, rfl⟩ := List.exists_cons_of_ne_nil h0
    have hc := hd9 c (by simp)
    unfold parseSingle
    simp only [List.cons_append, hd_cons]
    rw [if_neg, if_neg, if_neg, if_neg, if_neg, if_neg, if_pos]
    · unfold isDigit; simp; omega
    · unfold isAlpha isUpper isLower; simp; omega
    all_goals simp; omega
  rw [reach]
  unfold parseDigits
  rw [h1, h2]
  dsimp only
  have hu : 48 ≤ toUpper (hd ds.reverse) ∧ toUpper (hd ds.reverse) ≤ 57 := by
    cases hr : ds.reverse with
    | nil => exact absurd (List.reverse_eq_nil_iff.1 hr) h0
    | cons y t =>
      have := hd9 y (List.mem_reverse.1 (by rw [hr]; simp))
      rw [hd_cons]
      unfold toUpper isLower
      rw [if_neg (by simp; omega)]
      exact this
  generalize toUpper (hd ds.reverse) = x at hu
  have e1 : (x == 72) = false := by simp; omega
  have e2 : (x == 66) = false := by simp; omega
  have e3 : (x == 68) = false := by simp; omega
  simp only [e1, e2, e3, Bool.false_eq_true, if_false]
  have hnd : isDigitOf 10 (hd rest) = false ∨ rest = [] := by
    cases rest with
    | nil => exact .inr rfl
    | cons y t =>
      left
      refine isDigitOf_false 10 _ (by omega) ?_
      intro hdig
      exact hrest y (by simp) hdig.alnum
  have hs := strtoll_digits 10 (by omega) ds rest h0 (fun x hx => digit_isDigit (hd9 x hx)) hnd hx
  have hconv : convDec (ds ++ rest) ds.length st = .ok (some (toI32 v)) st := by
    unfold convDec convGeneric
    rw [hs]
    dsimp only
    rw [if_neg (by omega), if_neg (by unfold intMin; omega), hval]
    rfl
  rw [M.bind_ok hconv]
  rfl

/-- An operator is missing. -/
theorem getOp_fail (f : Nat) (t : Str) (c : Nat) (r : Str) (st : S) (h : skipWs t = c :: r) (hc : c = 44 ∨ (48 ≤ c ∧ c ≤ 57)) :
    getOp 0 (f + 1) t st = .ok .fail (errorAt E.OPERATOR_EXPECTED st) := by
  rw [getOp, h]
  dsimp only
  have he : isEnd (c :: r) = false := by simp [isEnd]; omega
  rw [he, matchOp_none c r hc]
  simp only [Bool.false_eq_true, if_false, hd_cons]
  have e1 : (c == 41) = false := by simp; omega
  rw [e1]
  simp only [Bool.false_eq_true, if_false]
  rw [M.bind_ok (setError_apply _ st (by decide))]
  rfl

/-- The text of a map is no expression. -/
theorem map_fails (k : Rec) {x b : Str} {c r : Nat} {n : Option Nat} (h : MapText (b ++ x) c r n) (hb : Blanks b) (hx : ∃ y t, x = y :: t ∧ 48 ≤ y ∧ y ≤ 57)
    (hv : c ≤ 4294967295) (f : Nat) (st : S) :
    ∃ code, code ≠ 0 ∧ numLoop k 0 (f + 1) 0 none x st = .ok none (errorAt code st) := by
  -- the shape of the text
  obtain ⟨cs, d, t, rfl, hcs, hd, hdig, hshape⟩ : ∃ cs d t, x = cs ++ d :: t ∧ Decimal cs c ∧ d ∈ [44, 120, 32] ∧ (∃ y u, t = y :: u ∧ 48 ≤ y ∧ y ≤ 57) ∧
      ∃ u rest, t = u ++ rest ∧ (∀ y ∈ u, Alnum y) ∧ (∃ y, u.getLast? = some y ∧ 48 ≤ y ∧ y ≤ 57) ∧ EndsWord rest := by
    have cancel : ∀ b' x', Blanks b' → (∃ y t, x' = y :: t ∧ 48 ≤ y ∧ y ≤ 57) → b ++ x = b' ++ x' → x = x' := by
      intro b' x' hb' hx' he
      have e1 : skipWs (b ++ x) = x := by
        obtain ⟨y, t, rfl, h1, h2⟩ := hx
        rw [skipWs_blanks b _ hb, skipWs_cons y _ (digit_nonblank (by omega))]
      have e2 : skipWs (b' ++ x') = x' := by
        obtain ⟨y, t, rfl, h1, h2⟩ := hx'
        rw [skipWs_blanks b' _ hb', skipWs_cons y _ (digit_nonblank (by omega))]
      rw [← e1, he, e2]
    have first : ∀ ds v, Decimal ds v → ∀ t, ∃ y u, ds ++ t = y :: u ∧ 48 ≤ y ∧ y ≤ 57 := by
      intro ds v h t
      obtain ⟨y, u, rfl⟩ := List.exists_cons_of_ne_nil h.some
      exact ⟨y, u ++ t, rfl, h.digits y (by simp)⟩
    have lastd : ∀ ds v, Decimal ds v → ∃ y, ds.getLast? = some y ∧ 48 ≤ y ∧ y ≤ 57 := by
      intro ds v h
      exact ⟨ds.getLast h.some, List.getLast?_eq_some_getLast h.some, h.digits _ (List.getLast_mem _)⟩
    generalize hz : b ++ x = z at h
    cases h with
    | all b' cs d rs _ _ hb' h1 h2 h3 =>
      have := cancel b' _ hb' (first cs c h1 (d :: rs)) hz
      refine ⟨cs, d, rs, this, h1, h2, ?_, rs, [], by simp, fun y hy => digit_alnum (h3.digits y hy), lastd _ _ h3, by intro y hy; simp at hy⟩
      have := first rs r h3 []
      rwa [List.append_nil] at this
    | limited b' cs d rs e ls _ _ n hb' h1 h2 h3 h4 h5 _ =>
      have := cancel b' _ hb' (first cs c h1 _) hz
      refine ⟨cs, d, rs ++ e :: ls, this, h1, h2, first rs r h3 _, ?_⟩
      by_cases he : e = 120
      · refine ⟨rs ++ e :: ls, [], by simp, ?_, ?_, by intro y hy; simp at hy⟩
        · intro y hy
          rcases List.mem_append.1 hy with hy | hy
          · exact digit_alnum (h3.digits y hy)
          · rcases List.mem_cons.1 hy with rfl | hy
            · rw [he]; unfold Alnum; omega
            · exact digit_alnum (h5.digits y hy)
        · obtain ⟨y, hy, hy'⟩ := lastd _ _ h5
          refine ⟨y, ?_, hy'⟩
          have e1 : rs ++ e :: ls = (rs ++ [e]) ++ ls := by simp
          rw [e1, List.getLast?_append, hy]
          rfl
      · refine ⟨rs, e :: ls, rfl, fun y hy => digit_alnum (h3.digits y hy), lastd _ _ h3, ?_⟩
        intro y hy
        simp at hy
        subst hy
        simp at h4
        unfold Alnum
        omega
  obtain ⟨c0, r0, hc0⟩ := List.exists_cons_of_ne_nil hcs.some
  have hc9 := hcs.digits c0 (by rw [hc0]; simp)
  have hun : unary (cs ++ d :: t) = (false, false, cs ++ d :: t) :=
    unary_plain _ c0 (r0 ++ d :: t) (by rw [hc0]; rfl) (by unfold Starter Alnum; omega)
  have h40 : (Spasm.hd (cs ++ d :: t) == 40) = false := by rw [hc0]; simp; omega
  by_cases hd' : d = 120
  · subst hd'
    obtain ⟨u, rest, rfl, hu, ⟨y, hy, hy'⟩, hrest⟩ := hshape
    refine ⟨E.INVALID_DECIMAL_DIGIT, by decide, numLoop_fail k 0 f 0 none _ _ st _ false false hun ?_⟩
    unfold operandM
    rw [h40]
    simp only [Bool.false_eq_true, if_false]
    have e : cs ++ 120 :: (u ++ rest) = (cs ++ 120 :: u) ++ rest := by simp
    rw [e]
    refine digits_fail k (cs ++ 120 :: u) rest st c0 (r0 ++ 120 :: u) (by rw [hc0]; rfl) hc9 ?_ ?_ ?_ hrest
    · intro z hz
      rcases List.mem_append.1 hz with hz | hz
      · exact digit_alnum (hcs.digits z hz)
      · rcases List.mem_cons.1 hz with rfl | hz
        · unfold Alnum; omega
        · exact hu z hz
    · refine ⟨120, by simp, ?_⟩
      rintro ⟨v, hv, hv'⟩
      simp [digit] at hv
    · refine ⟨y, ?_, hy'⟩
      have e1 : cs ++ 120 :: u = (cs ++ [120]) ++ u := by simp
      rw [e1, List.getLast?_append, hy]
      rfl
  · have hd2 : d = 44 ∨ d = 32 := by simp at hd; omega
    have hop : operandM k 0 (cs ++ d :: t) st = .ok (some (d :: t, toI32 c)) st := by
      unfold operandM
      rw [h40]
      simp only [Bool.false_eq_true, if_false]
      exact digits_ok k cs (d :: t) c st hcs hv (by intro y hy; simp at hy; subst hy; unfold Alnum; omega) (by rw [hd_cons]; omega)
    refine ⟨E.OPERATOR_EXPECTED, by decide, ?_⟩
    rw [numLoop_step k 0 f 0 none _ _ _ st st false false _ hun hop (by simp) (by simp)]
    simp only [Bool.false_eq_true, if_false]
    have ha : applyOp none 0 (toI32 c) = .val (toI32 c) := rfl
    rw [ha]
    dsimp only
    unfold afterOperand
    have hsk : ∃ y u, skipWs (d :: t) = y :: u ∧ (y = 44 ∨ (48 ≤ y ∧ y ≤ 57)) := by
      rcases hd2 with rfl | rfl
      · exact ⟨44, t, rfl, .inl rfl⟩
      · obtain ⟨y, u, rfl, h1, h2⟩ := hdig
        refine ⟨y, u, ?_, .inr ⟨h1, h2⟩⟩
        have : skipWs (32 :: y :: u) = skipWs (y :: u) := rfl
        rw [this, skipWs_cons y u (digit_nonblank (by omega))]
    obtain ⟨y, u, hy, hy'⟩ := hsk
    rw [M.bind_ok (getOp_fail _ _ y u st hy hy')]
    rfl

/-- The bytes of the text of a map. -/
theorem map_bytes {t : Str} {c r : Nat} {n : Option Nat} (h : MapText t c r n) : ∃ b x, t = b ++ x ∧ Blanks b ∧ (∃ y u, x = y :: u ∧ 48 ≤ y ∧ y ≤ 57) ∧
    ∀ z ∈ x, (48 ≤ z ∧ z ≤ 57) ∨ z = 44 ∨ z = 120 ∨ z = 32 := by
  have first : ∀ ds v, Decimal ds v → ∀ t, ∃ y u, ds ++ t = y :: u ∧ 48 ≤ y ∧ y ≤ 57 := by
    intro ds v h t
    obtain ⟨y, u, rfl⟩ := List.exists_cons_of_ne_nil h.some
    exact ⟨y, u ++ t, rfl, h.digits y (by simp)⟩
  cases h with
  | all b cs d rs _ _ hb h1 h2 h3 =>
    refine ⟨b, _, rfl, hb, first cs c h1 _, ?_⟩
    intro z hz
    simp only [List.mem_append, List.mem_cons] at hz h2
    rcases hz with hz | hz | hz
    · exact .inl (h1.digits z hz)
    · subst hz; simp at h2; omega
    · exact .inl (h3.digits z hz)
  | limited b cs d rs e ls _ _ n hb h1 h2 h3 h4 h5 _ =>
    refine ⟨b, _, rfl, hb, first cs c h1 _, ?_⟩
    intro z hz
    simp only [List.mem_append, List.mem_cons] at hz h2 h4
    rcases hz with hz | hz | hz | hz | hz
    · exact .inl (h1.digits z hz)
    · subst hz; simp at h2; omega
    · exact .inl (h3.digits z hz)
    · subst hz; simp at h4; omega
    · exact .inl (h5.digits z hz)

theorem map_codeLine {x : Str} (hx : ∃ y u, x = y :: u ∧ 48 ≤ y ∧ y ≤ 57) (h : ∀ z ∈ x, (48 ≤ z ∧ z ≤ 57) ∨ z = 44 ∨ z = 120 ∨ z = 32) : codeLine x = (x, []) := by
  refine codeLine_balanced ?_ ?_
  · clear hx
    induction x with
    | nil => exact .nil _
    | cons y u ih =>
      refine .char _ y u ?_ (by simp) (ih fun z hz => h z (by simp [hz]))
      have := h y (by simp)
      unfold Ordinary
      omega
  · obtain ⟨y, u, rfl, hy⟩ := hx
    exact ⟨y, u, rfl, digit_nonblank hy⟩

/-- A name for a map has the value of a failure, which is not reported. -/
theorem parseF_map (s : S) (n : Nat) (t text : Str) (c r : Nat) (lim : Option Nat) (hname : Name t) (h : MapText text c r lim) (hc : c ≤ 4294967295) (df : Define)
    (ha : argumentOf s t = none) (hl : labelOf s t = none) (hdf : defineOf s t = some df) (hargs : df.args = []) (hcont : df.contents = some text)
    (hm : ¬ Maintained s t) (hs : Settled s) (hsess : 1 ≤ s.session) (hn : 2 ≤ n) :
    ∃ p, parseF (knot n) t s = .ok (-1) { s with parseDepth := p, fwdRef := false } := by
  obtain ⟨k, rfl⟩ : ∃ j, n = j + 2 := ⟨n - 2, by omega⟩
  obtain ⟨b, x, rfl, hb, hx, hbytes⟩ := map_bytes h
  obtain ⟨herr, hse⟩ := hs
  obtain ⟨y, u, hyx, hy⟩ := hx
  generalize hS : ({ s with session := s.session + 1 } : S) = S1
  generalize hS2 : ({ s with session := s.session + 2, lineNum := df.line } : S) = S2
  -- the text
  have hsk : skipWs (b ++ x) = x := by rw [skipWs_blanks b _ hb, hyx, skipWs_cons y _ (digit_nonblank hy)]
  have hdef : parseDefine (knot (k + 1)) df (evalState S2 1) = .ok (some x) (evalState S2 1) := by
    unfold parseDefine
    rw [hcont]
    show parseDefineLoop (knot (k + 1)) ((b ++ x).length + 1) (b ++ x) (evalState S2 1) = _
    rw [parseDefineLoop]
    simp only [M.get_bind]
    rw [if_neg (by rw [hyx, ← hS2]; simp [evalState, herr])]
    rw [hsk]
    have h35 : (Spasm.hd x == 35) = false := by rw [hyx]; simp; omega
    have hend : isEnd x = false := by rw [hyx]; simp [isEnd]; omega
    simp only [h35, hend, Bool.not_false, if_true, Bool.false_eq_true, if_false]
    rw [map_codeLine ⟨y, u, hyx, hy⟩ hbytes]
    rfl
  obtain ⟨code, hcode, hfail⟩ := map_fails (knot k) h hb ⟨y, u, hyx, hy⟩ hc x.length (evalState S2 2)
  have hnum : (knot (k + 1)).numFull x 0 (evalState S2 1) = .ok none (errorAt code (evalState S2 2)) := by
    show numFullBody (knot k) x 0 (evalState S2 1) = _
    unfold numFullBody
    simp only [M.modify_bind, M.get_bind]
    rw [if_neg (by show ¬ ((1 : Int) + 1 > 20); omega)]
    have hsk2 : skipWs x = x := by rw [hyx, skipWs_cons y _ (digit_nonblank hy)]
    rw [hsk2, if_neg (by rw [hyx]; simp)]
    exact hfail
  have hpre : ∀ q, s.session < q → sessPrefix q s.errors = [] := by
    intro q hq
    unfold sessPrefix
    cases hE : s.errors with
    | nil => rfl
    | cons x xs =>
      have := hse x (by rw [hE]; simp)
      rw [List.takeWhile_cons_of_neg]
      simp; omega
  have hlow : ∀ q, s.session < q → lowerPrefix q s.errors = s.errors := by
    intro q hq
    cases hE : s.errors with
    | nil => rfl
    | cons x xs =>
      have := hse x (by rw [hE]; simp)
      rw [lowerPrefix, if_neg (by simp; omega)]
  have hdrop : ∀ q, s.session < q → s.errors.dropWhile (fun e => e.sess == q) = s.errors := by
    intro q hq
    cases hE : s.errors with
    | nil => rfl
    | cons x xs =>
      have := hse x (by rw [hE]; simp)
      rw [List.dropWhile_cons_of_neg]
      simp; omega
  -- the name
  obtain ⟨c0, r0, hcr, hc0, hx0⟩ := hname.1
  have hal : ∀ x ∈ t, NameChar x := by
    intro z hz
    rw [hcr] at hz
    rcases List.mem_cons.1 hz with rfl | hz
    · unfold NameChar Alnum; omega
    · exact hx0 z hz
  have hf : Follows [] := by intro z hz; simp at hz
  have htw := takeName_append t [] hal hf
  rw [List.append_nil] at htw
  have hne' : (t == [95]) = false := by simpa using hname.2
  generalize hst : evalState S1 1 = st
  have hloc : searchLocal t st = none := by rw [searchLocal_eq, ← hst, ← hS]; exact ha
  have hlab : searchLabels t st = none := by
    have : (searchLabels t st).map Label.value = labelOf s t := by rw [searchLabels_eq, ← hst, ← hS]; rfl
    rw [hl] at this
    exact Option.map_eq_none_iff.1 this
  have hm' : ¬ Maintained st t := by rw [← hst, ← hS]; exact hm
  have hsd := searchDefines_calm t st (by rw [keyOf_eq]; exact refreshed_none st t hm')
  have hfd : (findDefine (keyOf st t) st).map (·.2) = some df := by
    rw [keyOf_eq, findDefine_eq]
    have e1 : argumentOf st t = none := by rw [← hst, ← hS]; exact ha
    have e2 : defineOf st t = some df := by rw [← hst, ← hS]; exact hdf
    rw [e1, e2]
  have hpn : parseName (knot (k + 1)) t st = parseMacro (knot (k + 1)) df [] st := by
    unfold parseName
    rw [htw.1, htw.2]
    simp only [M.get_bind, hloc, Option.isSome_none, Bool.false_eq_true, if_false, hlab]
    rw [M.bind_ok hsd]
    have h40 : (Spasm.hd ([] : Str) == 40) = false := rfl
    simp only [M.pure_bind, hne', hfd, h40, Bool.and_false, Bool.false_eq_true, if_false]
  have hop : operandM (knot (k + 1)) 0 t st = .ok none (errorAt code { S1 with parseDepth := 2, fwdRef := false, lineNum := df.line }
      |> fun z => { z with lineNum := s.lineNum }) := by
    have reach : operandM (knot (k + 1)) 0 t st = parseName (knot (k + 1)) t st := by
      unfold operandM
      rw [if_neg (by rw [hcr]; simp; omega)]
      unfold parseSingle
      rw [hcr]
      simp only [hd_cons]
      rw [if_neg, if_neg, if_neg, if_neg, if_neg, if_pos]
      · unfold isAlpha isUpper isLower; simp; omega
      all_goals simp; omega
    rw [reach, hpn]
    unfold parseMacro
    have hpa : parseArgs (knot (k + 1)) [] df st = .ok ([], false) st := by
      unfold parseArgs
      rw [if_pos (by rw [hargs]; rfl)]
      rfl
    rw [M.bind_ok hpa]
    dsimp only
    simp only [M.get_bind, M.modify_bind]
    have hss : startSession { st with lineNum := df.line } = .ok (s.session + 2) (evalState S2 1) := by
      rw [← hst, ← hS, ← hS2]
      have : s.session + 1 + 1 = s.session + 2 := by omega
      show Res.ok (s.session + 1 + 1) _ = _
      rw [this]
      congr 1
      show ({ s with session := s.session + 1 + 1, fwdRef := false, parseDepth := 1, lineNum := df.line } : S) = _
      rw [this]
      rfl
    rw [M.bind_ok hss, M.bind_ok hdef]
    dsimp only
    rw [M.bind_ok hnum]
    simp only [M.modify_bind, M.get_bind]
    have hcnt : ∀ l : Int, sessionCount (s.session + 2) { errorAt code (evalState S2 2) with lineNum := l } = 1 := by
      intro l
      unfold sessionCount
      have : ({ errorAt code (evalState S2 2) with lineNum := l } : S).errors = ⟨code, s.session + 2, false, df.line, s.currFile⟩ :: s.errors := by rw [← hS2]; rfl
      rw [this]
      have hp := hpre (s.session + 2) (by omega)
      unfold sessPrefix at hp ⊢
      rw [List.takeWhile_cons_of_pos (by simp), hp]
      have : (code != 0) = true := by simpa using hcode
      simp [this]
    rw [hcnt]
    simp only [Nat.one_pos, gt_iff_lt, decide_true, M.when_true, if_true]
    have hrep : (do annotate (s.session + 2); replaySession (s.session + 2) : M Unit) { errorAt code (evalState S2 2) with lineNum := st.lineNum } =
        .ok () { s with session := s.session + 2, parseDepth := 2, fwdRef := false, errors := ⟨code, s.session + 1, false, df.line, s.currFile⟩ :: s.errors } := by
      unfold annotate
      rw [M.pure_bind]
      unfold replaySession
      rw [if_neg (by omega)]
      congr 1
      have e1 : ({ errorAt code (evalState S2 2) with lineNum := st.lineNum } : S).errors = ⟨code, s.session + 2, false, df.line, s.currFile⟩ :: s.errors := by rw [← hS2]; rfl
      rw [e1, lowerPrefix, if_pos (by simp), hlow _ (by omega)]
      have e2 : s.session + 2 - 1 = s.session + 1 := by omega
      dsimp only
      rw [e2, ← hst, ← hS, ← hS2]
      rfl
    rw [M.bind_ok hrep]
    have hes : endSession (s.session + 2) { s with session := s.session + 2, parseDepth := 2, fwdRef := false, errors := ⟨code, s.session + 1, false, df.line, s.currFile⟩ :: s.errors } =
        .ok () { s with session := s.session + 1, parseDepth := 2, fwdRef := false, errors := ⟨code, s.session + 1, false, df.line, s.currFile⟩ :: s.errors } := by
      unfold endSession
      have e1 : sessPrefix (s.session + 2) (⟨code, s.session + 1, false, df.line, s.currFile⟩ :: s.errors) = [] := by
        unfold sessPrefix
        rw [List.takeWhile_cons_of_neg]
        simp
      have e2 : (⟨code, s.session + 1, false, df.line, s.currFile⟩ :: s.errors : List Err).dropWhile (fun e => e.sess == s.session + 2) =
          ⟨code, s.session + 1, false, df.line, s.currFile⟩ :: s.errors := by
        rw [List.dropWhile_cons_of_neg]
        simp
      dsimp only
      rw [e1, e2]
      simp only [List.any_nil, Bool.and_false, Bool.false_eq_true, if_false]
      congr 1
      have e3 : s.session + 2 - 1 = s.session + 1 := by omega
      rw [e3]
    rw [M.bind_ok hes, ← hS]
    rfl
  have hun : unary t = (false, false, t) := unary_plain t c0 r0 hcr (by unfold Starter Alnum; omega)
  have hnl := numLoop_fail (knot (k + 1)) 0 t.length 0 none t t st _ false false hun hop
  have hps := parseNum_start (k + 1) S1 [] t c0 r0 (by intro z hz; simp at hz) hcr (by unfold Starter' Starter Alnum; omega)
  simp only [List.nil_append] at hps
  refine ⟨2, ?_⟩
  unfold parseF
  have hss : startSession s = .ok (s.session + 1) S1 := by rw [← hS]; rfl
  rw [M.bind_ok hss]
  have hpnum := hps
  rw [hst, M.bind_ok hnl] at hpnum
  rw [M.bind_ok (hpnum.trans rfl), M.get_bind]
  have hv : ∀ z : Bool, (if z then (-1 : Int) else (Option.map (fun x : Str × Int => x.2) none).getD (-1)) = -1 := by
    intro z; cases z <;> rfl
  rw [hv]
  have hes : endSession (s.session + 1) { errorAt code { S1 with parseDepth := 2, fwdRef := false, lineNum := df.line } with lineNum := s.lineNum } =
      .ok () { s with parseDepth := 2, fwdRef := false } := by
    unfold endSession
    have e1 : ({ errorAt code { S1 with parseDepth := 2, fwdRef := false, lineNum := df.line } with lineNum := s.lineNum } : S).errors =
        ⟨code, s.session + 1, false, df.line, s.currFile⟩ :: s.errors := by rw [← hS]; rfl
    rw [e1, List.dropWhile_cons_of_pos (by simp), hdrop _ (by omega)]
    have e2 : decide (s.session + 1 = 1) = false := by simp; omega
    dsimp only
    rw [e2]
    simp only [Bool.false_and, Bool.false_eq_true, if_false]
    congr 1
    have e3 : s.session + 1 - 1 = s.session := by omega
    show ({ S1 with session := S1.session - 1, parseDepth := 2, fwdRef := false, lineNum := s.lineNum, errors := s.errors } : S) = _
    rw [← hS]
    dsimp only
    rw [e3]
  exact (M.bind_ok hes).trans rfl

end Spasm.Props
