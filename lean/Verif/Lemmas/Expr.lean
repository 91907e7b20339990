import Verif.Lemmas.SplitExpr

/-
Evaluation of expressions, by induction over the specification.
-/

namespace Spasm
open Spec

/-- The state while the text of a define is evaluated: other line number, deeper session. -/
def Inner (s s1 : S) : Prop := ∃ l q, s.session ≤ q ∧ s1 = { s with lineNum := l, session := q }

theorem Inner.refl (s : S) : Inner s s := ⟨s.lineNum, s.session, Int.le_refl _, rfl⟩

/-- Evaluation of an operand (without prefix). -/
def EvalOperand (s : S) (d : Nat) (t : Str) (v : Int) : Prop :=
  ∀ (s1 : S), Inner s s1 → ∀ (n : Nat) (depth p : Int) (rest : Str), d ≤ n → p + d ≤ 20 → 0 ≤ depth → Rest t rest →
    ∃ r', skipWs r' = skipWs rest ∧
      operandM (knot n) depth (t ++ rest) (evalState s1 p) = .ok (some (r', v)) (evalState s1 p)

/-- Evaluation of an operand with its prefix, combined with what came before. -/
def EvalPrefixed (s : S) (d : Nat) (t : Str) (v : Int) : Prop :=
  ∀ (s1 : S), Inner s s1 → ∀ (n : Nat) (depth p : Int) (rest : Str) (f : Nat) (total : Int) (op : Option Op),
    d ≤ n → p + d ≤ 20 → 0 ≤ depth → Rest t rest →
    numLoop (knot n) depth (f + 1) total op (t ++ rest) (evalState s1 p) =
      (match applyOp op total v with
       | .err c => (do setError c; pure none : M (Option (Str × Int)))
       | .ub u => M.ub u
       | .val w => afterOperand (knot n) depth f w rest) (evalState s1 p)

/-- Evaluation of an expression up to what follows it. -/
def EvalDenotes (s : S) (d : Nat) (t : Str) (v : Int) : Prop :=
  ∀ (s1 : S), Inner s s1 → ∀ (n : Nat) (depth p : Int) (rest : Str), d ≤ n → p + d ≤ 20 → 0 ≤ depth → Rest t rest →
    ∃ m, m ≤ t.length ∧ ∀ f, numLoop (knot n) depth (f + m) 0 none (t ++ rest) (evalState s1 p) =
      afterOperand (knot n) depth f v rest (evalState s1 p)

theorem eval_atom (s : S) : ∀ (t : Str) (v : Int), Atom (toI32 s.pc) (visibleLabel s) t v → EvalOperand s 0 t v := by
  intro t v h s1 hs n depth p rest _ _ _ hr
  obtain ⟨l, q, hq, rfl⟩ := hs
  have hf : Follows rest := by
    rcases hr with hr | hr
    · exact hr
    · exact absurd hr (Atom_last h)
  obtain ⟨c, r, rfl, _, h40, _⟩ := Atom_start h
  refine ⟨rest, rfl, ?_⟩
  unfold operandM
  rw [if_neg (by simpa using h40)]
  exact parseSingle_atom (knot n) (evalState _ p) (c :: r) v rest h hf

theorem eval_paren (s : S) : ∀ (d : Nat) (b t b' : Str) (v : Int), Blanks b → Blanks b' →
    Denotes (toI32 s.pc) (visibleLabel s) (visibleText s) d t v → EvalDenotes s d t v → EvalOperand s (d + 1) ([40] ++ b ++ t ++ b' ++ [41]) v := by
  intro d b t b' v hb hb' _ ih s1 hs n depth p rest hn hp hdep _
  obtain ⟨n, rfl⟩ : ∃ m, n = m + 1 := ⟨n - 1, by omega⟩
  obtain ⟨c, r, hct, hst⟩ := Denotes_start (by assumption)
  have hfol : Rest t (b' ++ 41 :: rest) :=
    Or.inl (blanks_follow b' 41 rest hb' (fun _ => by unfold NameChar Alnum; omega))
  obtain ⟨m, hm, hloop⟩ := ih s1 hs n (depth + 1) (p + 1) (b' ++ 41 :: rest) (by omega) (by push_cast at hp; omega)
    (by omega) hfol
  refine ⟨skipWs rest, skipWs_idem rest, ?_⟩
  have e : [40] ++ b ++ t ++ b' ++ [41] ++ rest = 40 :: (b ++ (t ++ (b' ++ 41 :: rest))) := by simp
  rw [e]
  unfold operandM
  rw [if_pos (by simp)]
  show numFullBody (knot n) (b ++ (t ++ (b' ++ 41 :: rest))) (depth + 1) (evalState s1 p) = _
  unfold numFullBody
  simp only [M.modify_bind, M.get_bind]
  have hp1 : ¬ (evalState s1 p).parseDepth + 1 > 20 := by show ¬ (p + 1 > 20); push_cast at hp; omega
  rw [if_neg hp1]
  have hsk : skipWs (b ++ (t ++ (b' ++ 41 :: rest))) = t ++ (b' ++ 41 :: rest) := by
    rw [skipWs_blanks b _ hb, hct, List.cons_append, skipWs_cons c _ (Starter.nonblank hst)]
  rw [hsk, if_neg (by rw [hct]; simp)]
  have hlen : (b ++ (t ++ (b' ++ 41 :: rest))).length + 1 =
      ((b ++ (t ++ (b' ++ 41 :: rest))).length + 1 - m) + m := by
    simp only [List.length_append, List.length_cons]; omega
  rw [hlen]
  have hst' : ({ evalState s1 p with fwdRef := false, parseDepth := (evalState s1 p).parseDepth + 1 } : S) =
      evalState s1 (p + 1) := rfl
  rw [hst', hloop]
  unfold afterOperand
  have hg : getOp (depth + 1) ((b' ++ 41 :: rest).length + 1) (b' ++ 41 :: rest) (evalState s1 (p + 1)) =
      .ok (.done (skipWs rest)) (evalState s1 p) := by
    rw [getOp, skipWs_blanks b' _ hb', skipWs_cons 41 rest (by decide)]
    have hm : matchOp (41 :: rest) = none := by
      simp [matchOp, mathDefs, List.find?, List.isPrefixOf]
    have hend : isEnd (41 :: rest) = false := rfl
    simp only [hend, Bool.false_eq_true, if_false, hm, hd_cons, Nat.reduceBEq, if_true, List.tail_cons]
    rw [if_pos (by omega)]
    simp only [M.modify_bind, M.pure_apply]
    congr 1
    unfold evalState
    simp
  rw [M.bind_ok hg]
  rfl

/-- The text of a name, evaluated. -/
theorem text_value (b e b' : Str) (v : Int) (hb : Blanks b) (hb' : Blanks b') (hstart : ∃ c r, e = c :: r ∧ Starter' c)
    (hcode : codeLine (e ++ b') = (e ++ b', [])) (s1 : S) (he : s1.errOccurred = false) (df : Define) (hd : df.contents = some (b ++ e ++ b'))
    (n m : Nat) (p p' : Int) (hp : p + 1 ≤ 20) (hm : m ≤ e.length)
    (hloop : ∀ f, numLoop (knot n) 0 (f + m) 0 none (e ++ b') (evalState s1 (p + 1)) = afterOperand (knot n) 0 f v b' (evalState s1 (p' + 1))) :
    parseDefine (knot (n + 1)) df (evalState s1 p) = .ok (some (e ++ b')) (evalState s1 p) ∧
      (knot (n + 1)).numFull (e ++ b') 0 (evalState s1 p) = .ok (some ([], v)) (evalState s1 p') := by
  obtain ⟨c, r, hct, hst⟩ := hstart
  have hsk : skipWs (b ++ e ++ b') = e ++ b' := by
    rw [List.append_assoc, skipWs_blanks b _ hb, hct, List.cons_append, skipWs_cons c _ (Starter.nonblank hst)]
  have hdef : parseDefine (knot (n + 1)) df (evalState s1 p) = .ok (some (e ++ b')) (evalState s1 p) := by
    unfold parseDefine
    rw [hd]
    show parseDefineLoop (knot (n + 1)) ((b ++ e ++ b').length + 1) (b ++ e ++ b') (evalState s1 p) = _
    rw [parseDefineLoop]
    simp only [M.get_bind]
    rw [if_neg (by rw [hct]; simp [evalState, he])]
    rw [hsk]
    have h35 : (Spasm.hd (e ++ b') == 35) = false := by
      rw [hct]; unfold Starter' Starter Alnum at hst; simp; omega
    have hend : isEnd (e ++ b') = false := by
      rw [hct]; unfold Starter' Starter Alnum at hst; simp [isEnd]; omega
    simp only [h35, hend, Bool.not_false, if_true, Bool.false_eq_true, if_false]
    rw [hcode]
    rfl
  refine ⟨hdef, ?_⟩
  show numFullBody (knot n) (e ++ b') 0 (evalState s1 p) = _
  unfold numFullBody
  simp only [M.modify_bind, M.get_bind]
  have hp1 : ¬ (evalState s1 p).parseDepth + 1 > 20 := by show ¬ (p + 1 > 20); omega
  rw [if_neg hp1]
  have hsk2 : skipWs (e ++ b') = e ++ b' := by rw [hct, List.cons_append, skipWs_cons c _ (Starter.nonblank hst)]
  rw [hsk2, if_neg (by rw [hct]; simp)]
  have hlen : (e ++ b').length + 1 = ((e ++ b').length + 1 - m) + m := by
    simp only [List.length_append]; omega
  rw [hlen]
  have hst' : ({ evalState s1 p with fwdRef := false, parseDepth := (evalState s1 p).parseDepth + 1 } : S) =
      evalState s1 (p + 1) := rfl
  rw [hst', hloop]
  unfold afterOperand
  have hbb : skipWs b' = [] := by
    have := skipWs_blanks b' [] hb'
    rw [List.append_nil] at this
    rw [this]; rfl
  have hg : getOp 0 (b'.length + 1) b' (evalState s1 (p' + 1)) = .ok (.done []) (evalState s1 p') := by
    rw [getOp, hbb]
    have e : ∀ (x : S), (if isEnd ([] : Str) then (do
        M.when (decide ((0 : Int) > 0)) (showWarning .missingParen)
        M.modify fun st => { st with parseDepth := st.parseDepth - 1 }
        pure (Next.done ([] : Str)) : M Next) else pure .fail) x = .ok (.done []) { x with parseDepth := x.parseDepth - 1 } := fun _ => rfl
    refine (e (evalState s1 (p' + 1))).trans ?_
    unfold evalState
    simp
  rw [M.bind_ok hg]
  rfl

theorem eval_text (s : S) (d : Nat) (b e b' : Str) (v : Int) (hb : Blanks b) (hb' : Blanks b')
    (h : Denotes (toI32 s.pc) (visibleLabel s) (visibleText s) d e v) (ih : EvalDenotes s d e v)
    (s1 : S) (hs : Inner s s1) (he : s1.errOccurred = false) (df : Define) (hd : df.contents = some (b ++ e ++ b')) (n : Nat) (p : Int)
    (hn : d + 1 ≤ n) (hp : p + (d + 1 : Nat) ≤ 20) :
    parseDefine (knot n) df (evalState s1 p) = .ok (some (e ++ b')) (evalState s1 p) ∧
      (knot n).numFull (e ++ b') 0 (evalState s1 p) = .ok (some ([], v)) (evalState s1 p) := by
  obtain ⟨n, rfl⟩ : ∃ m, n = m + 1 := ⟨n - 1, by omega⟩
  obtain ⟨m, hm, hloop⟩ := ih s1 hs n 0 (p + 1) b' (by omega) (by push_cast at hp; omega)
    (by omega) (.inl (by
      intro x hx
      have := hb' x (List.mem_of_mem_head? hx)
      unfold NameChar Alnum; omega))
  exact text_value b e b' v hb hb' (Denotes_start h) (codeLine_denotes h hb') s1 he df hd n m p p (by push_cast at hp; omega) hm hloop

/-- A name with a text has the value of the text. -/
theorem named_text (s : S) (t text : Str) (v : Int) (hname : Name t) (htext : visibleText s t = some text) (n : Nat) (depth p : Int) (rest : Str)
    (hr : Rest t rest) (l q : Int) (hq : s.session ≤ q) (Q : Int → Prop)
    (hval : ∀ df : Define, df.contents = some text → ∃ p' c r, Q p' ∧ parseDefine (knot n) df (evalState { s with lineNum := df.line, session := q + 1 } p) =
        .ok (some c) (evalState { s with lineNum := df.line, session := q + 1 } p) ∧
      (knot n).numFull c 0 (evalState { s with lineNum := df.line, session := q + 1 } p) =
        .ok (some (r, v)) (evalState { s with lineNum := df.line, session := q + 1 } p')) :
    ∃ p', Q p' ∧ operandM (knot n) depth (t ++ rest) (evalState { s with lineNum := l, session := q } p) =
      .ok (some (rest, v)) (evalState { s with lineNum := l, session := q } p') := by
  have hf : Follows rest := by
    rcases hr with hr | hr
    · exact hr
    · have hlast := List.mem_of_getLast? hr
      obtain ⟨⟨c, r, rfl, hc, hx⟩, -⟩ := hname
      rcases List.mem_cons.1 hlast with h | h
      · omega
      · have := hx 41 h
        unfold NameChar Alnum at this; omega
  have htxt : Settled s ∧ ¬ Maintained s t ∧ nameText s t = some text := by
    unfold visibleText at htext
    split at htext
    · rename_i hc; exact ⟨hc.1, hc.2, htext⟩
    · simp at htext
  obtain ⟨⟨herr, hsess⟩, hmaint, htext'⟩ := htxt
  generalize hst : evalState { s with lineNum := l, session := q } p = st
  obtain ⟨⟨c, r, rfl, hc, hx⟩, hne⟩ := hname
  have hal : ∀ x ∈ c :: r, NameChar x := by
    intro x hx'
    rcases List.mem_cons.1 hx' with rfl | hx'
    · unfold NameChar Alnum; omega
    · exact hx x hx'
  have htw := takeName_append (c :: r) rest hal hf
  have reach : operandM (knot n) depth (c :: r ++ rest) st = parseName (knot n) (c :: r ++ rest) st := by
    unfold operandM
    rw [if_neg (by simp; omega)]
    unfold parseSingle
    simp only [List.cons_append, hd_cons]
    rw [if_neg, if_neg, if_neg, if_neg, if_neg, if_pos]
    · unfold isAlpha isUpper isLower; simp; omega
    all_goals simp; omega
  have hne' : (c :: r == [95]) = false := by simpa using hne
  have h40 : (Spasm.hd rest == 40) = false := by simpa using hf.not40
  have hloc : searchLocal (c :: r) st = argumentOf s (c :: r) := by rw [searchLocal_eq, ← hst]; rfl
  have hlab : (searchLabels (c :: r) st).map Label.value = labelOf s (c :: r) := by rw [searchLabels_eq, ← hst]; rfl
  -- which define the name means
  have key : ∃ df, df.args = [] ∧ df.contents = some text ∧
      parseName (knot n) (c :: r ++ rest) st = parseMacro (knot n) df rest st := by
    unfold nameText at htext'
    unfold parseName
    rw [htw.1, htw.2]
    cases ha : argumentOf s (c :: r) with
    | some df =>
      rw [ha] at htext'
      unfold Define.text at htext'
      simp only at htext'
      split at htext'
      · rename_i hargs
        refine ⟨df, hargs, htext', ?_⟩
        simp [M.get_bind, hloc, ha, hne', h40]
      · simp at htext'
    | none =>
      rw [ha] at htext'
      simp only at htext'
      split at htext'
      · rename_i hl
        rw [hl] at hlab
        have hlab' : searchLabels (c :: r) st = none := Option.map_eq_none_iff.1 hlab
        cases hdf : defineOf s (c :: r) with
        | none => rw [hdf] at htext'; simp at htext'
        | some df =>
          rw [hdf] at htext'
          unfold Define.text at htext'
          simp only [Option.bind_some] at htext'
          split at htext'
          · rename_i hargs
            refine ⟨df, hargs, htext', ?_⟩
            have hm : ¬ Maintained st (c :: r) := by rw [← hst]; exact hmaint
            have hsd := searchDefines_calm (c :: r) st (by rw [keyOf_eq]; exact refreshed_none st (c :: r) hm)
            have hfd : (findDefine (keyOf st (c :: r)) st).map (·.2) = some df := by
              rw [keyOf_eq, findDefine_eq]
              have e1 : argumentOf st (c :: r) = none := by rw [← hst]; exact ha
              have e2 : defineOf st (c :: r) = some df := by rw [← hst]; exact hdf
              rw [e1, e2]
            simp only [M.get_bind, hloc, ha, Option.isSome_none, Bool.false_eq_true, if_false, hlab']
            rw [M.bind_ok hsd]
            simp only [M.pure_bind, hne', hfd, h40, Bool.and_false, Bool.false_eq_true, if_false]
          · simp at htext'
      · simp at htext'
  obtain ⟨df, hargs, hcont, hpn⟩ := key
  obtain ⟨p', tx, tr, hQ, hev1, hev2⟩ := hval df hcont
  refine ⟨p', hQ, ?_⟩
  rw [reach, hpn]
  unfold parseMacro
  have hpa : parseArgs (knot n) rest df st = .ok (rest, false) st := by
    unfold parseArgs
    rw [if_pos (by rw [hargs]; simpa using hf.not40)]
    rfl
  rw [M.bind_ok hpa]
  dsimp only
  simp only [M.get_bind, M.modify_bind]
  have hss : startSession { st with lineNum := df.line } =
      .ok (q + 1) (evalState { s with lineNum := df.line, session := q + 1 } p) := by
    rw [← hst]; rfl
  rw [M.bind_ok hss]
  rw [M.bind_ok hev1]
  dsimp only
  rw [M.bind_ok hev2]
  simp only [M.modify_bind, M.get_bind]
  have hpre : sessPrefix (q + 1) s.errors = [] := by
    unfold sessPrefix
    cases hE : s.errors with
    | nil => rfl
    | cons x xs =>
      have := hsess x (by rw [hE]; simp)
      rw [List.takeWhile_cons_of_neg]
      simp; omega
  have hdrop : s.errors.dropWhile (fun e => e.sess == q + 1) = s.errors := by
    cases hE : s.errors with
    | nil => rfl
    | cons x xs =>
      have := hsess x (by rw [hE]; simp)
      rw [List.dropWhile_cons_of_neg]
      simp; omega
  have hcount : ∀ l' : Int, sessionCount (q + 1) { evalState { s with lineNum := df.line, session := q + 1 } p' with lineNum := l' } = 0 := by
    intro l'
    show ((sessPrefix (q + 1) s.errors).filter _).length = 0
    rw [hpre]; rfl
  rw [hcount, show decide (0 > 0) = false from rfl, M.when_false, M.pure_bind]
  have hes : endSession (q + 1) { evalState { s with lineNum := df.line, session := q + 1 } p' with lineNum := st.lineNum } =
      .ok () (evalState { s with lineNum := l, session := q } p') := by
    unfold endSession
    have e1 : sessPrefix (q + 1) ({ evalState { s with lineNum := df.line, session := q + 1 } p' with lineNum := st.lineNum } : S).errors = [] := hpre
    rw [e1]
    simp only [List.any_nil, Bool.and_false, Bool.false_eq_true, if_false]
    congr 1
    rw [← hst]
    unfold evalState
    simp [hdrop]
  rw [M.bind_ok hes]
  rfl

theorem eval_named (s : S) : ∀ (d : Nat) (t b e b' : Str) (v : Int), Name t → visibleText s t = some (b ++ e ++ b') → Blanks b →
    Blanks b' → Denotes (toI32 s.pc) (visibleLabel s) (visibleText s) d e v → EvalDenotes s d e v → EvalOperand s (d + 1) t v := by
  intro d t b e b' v hname htext hb hb' h ih s1 hs n depth p rest hn hp hdep hr
  obtain ⟨l, q, hq, rfl⟩ := hs
  have herr : s.errOccurred = false := by
    unfold visibleText at htext
    split at htext
    · rename_i hc; exact hc.1.1
    · simp at htext
  suffices h : ∃ p', p' = p ∧ operandM (knot n) depth (t ++ rest) (evalState { s with lineNum := l, session := q } p) =
      .ok (some (rest, v)) (evalState { s with lineNum := l, session := q } p') by
    obtain ⟨p', rfl, h⟩ := h
    exact ⟨rest, rfl, h⟩
  refine named_text s t _ v hname htext n depth p rest hr l q hq (· = p) ?_
  intro df hcont
  have hev := eval_text s d b e b' v hb hb' h ih { s with lineNum := df.line, session := q + 1 } ⟨df.line, q + 1, by omega, rfl⟩ herr
    df hcont n p hn hp
  exact ⟨p, _, _, rfl, hev.1, hev.2⟩

theorem eval_plain (s : S) : ∀ (d : Nat) (t : Str) (v : Int), Operand (toI32 s.pc) (visibleLabel s) (visibleText s) d t v →
    EvalOperand s d t v → EvalPrefixed s d t v := by
  intro d t v h ih s1 hs n depth p rest f total op hn hp hdep hr
  obtain ⟨r', h1, h2⟩ := ih s1 hs n depth p rest hn hp hdep hr
  obtain ⟨c, r, rfl, hst, _⟩ := Operand_start h
  rw [numLoop_step (knot n) depth f total op (c :: r ++ rest) (c :: r ++ rest) r' _ _ false false v
    (unary_plain _ c (r ++ rest) rfl hst) h2 (by simp) (by simp)]
  simp only [Bool.false_eq_true, if_false]
  cases applyOp op total v with
  | val w => exact congrFun (afterOperand_skipWs _ _ _ _ _ _ h1) _
  | err c => rfl
  | ub u => rfl

theorem eval_plus (s : S) : ∀ (d : Nat) (b t : Str) (v : Int), Blanks b → Operand (toI32 s.pc) (visibleLabel s) (visibleText s) d t v →
    EvalOperand s d t v → EvalPrefixed s d ([43] ++ b ++ t) v := by
  intro d b t v hb h ih s1 hs n depth p rest f total op hn hp hdep hr
  obtain ⟨c, r, hct, hst, h95⟩ := Operand_start h
  have hr' : Rest t rest := by
    rcases hr with hr | hr
    · exact Or.inl hr
    · right
      rw [List.append_assoc, getLast?_append_ne, getLast?_append_ne] at hr
      · exact hr
      all_goals (rw [hct]; simp)
  obtain ⟨r', h1, h2⟩ := ih s1 hs n depth p rest hn hp hdep hr'
  have e : [43] ++ b ++ t ++ rest = [43] ++ b ++ (t ++ rest) := by simp
  rw [e, numLoop_step (knot n) depth f total op _ (t ++ rest) r' _ _ false false v
    (unary_sign 43 (Or.inr rfl) b (t ++ rest) hb c (r ++ rest) (by rw [hct]; rfl) hst
      (fun h => by obtain ⟨c', r', rfl, hn⟩ := h95 h; exact ⟨c', r' ++ rest, rfl, hn⟩)) h2 (by simp) (by simp)]
  simp only [Bool.false_eq_true, if_false]
  cases applyOp op total v with
  | val w => exact congrFun (afterOperand_skipWs _ _ _ _ _ _ h1) _
  | err c => rfl
  | ub u => rfl

theorem eval_minus (s : S) : ∀ (d : Nat) (b t : Str) (v : Int), Blanks b → Operand (toI32 s.pc) (visibleLabel s) (visibleText s) d t v →
    v ≠ -2147483648 → EvalOperand s d t v → EvalPrefixed s d ([45] ++ b ++ t) (-v) := by
  intro d b t v hb h hv ih s1 hs n depth p rest f total op hn hp hdep hr
  obtain ⟨c, r, hct, hst, h95⟩ := Operand_start h
  have hr' : Rest t rest := by
    rcases hr with hr | hr
    · exact Or.inl hr
    · right
      rw [List.append_assoc, getLast?_append_ne, getLast?_append_ne] at hr
      · exact hr
      all_goals (rw [hct]; simp)
  obtain ⟨r', h1, h2⟩ := ih s1 hs n depth p rest hn hp hdep hr'
  have e : [45] ++ b ++ t ++ rest = [45] ++ b ++ (t ++ rest) := by simp
  rw [e, numLoop_step (knot n) depth f total op _ (t ++ rest) r' _ _ false true v
    (unary_sign 45 (Or.inl rfl) b (t ++ rest) hb c (r ++ rest) (by rw [hct]; rfl) hst
      (fun h => by obtain ⟨c', r', rfl, hn⟩ := h95 h; exact ⟨c', r' ++ rest, rfl, hn⟩)) h2 (fun _ => hv) (by simp)]
  simp only [Bool.false_eq_true, if_false, if_true]
  cases applyOp op total (-v) with
  | val w => exact congrFun (afterOperand_skipWs _ _ _ _ _ _ h1) _
  | err c => rfl
  | ub u => rfl

theorem eval_invert (s : S) : ∀ (d : Nat) (b t : Str) (v : Int), Blanks b → Operand (toI32 s.pc) (visibleLabel s) (visibleText s) d t v →
    EvalOperand s d t v → EvalPrefixed s d ([126] ++ b ++ t) (-v - 1) := by
  intro d b t v hb h ih s1 hs n depth p rest f total op hn hp hdep hr
  obtain ⟨c, r, hct, hst, h95⟩ := Operand_start h
  have hr' : Rest t rest := by
    rcases hr with hr | hr
    · exact Or.inl hr
    · right
      rw [List.append_assoc, getLast?_append_ne, getLast?_append_ne] at hr
      · exact hr
      all_goals (rw [hct]; simp)
  obtain ⟨r', h1, h2⟩ := ih s1 hs n depth p rest hn hp hdep hr'
  have e : [126] ++ b ++ t ++ rest = [126] ++ b ++ (t ++ rest) := by simp
  rw [e, numLoop_step (knot n) depth f total op _ (t ++ rest) r' _ _ true false v
    (unary_invert b (t ++ rest) hb c (r ++ rest) (by rw [hct]; rfl) hst) h2 (by simp) (by simp)]
  simp only [if_true]
  have : icpl v = -v - 1 := rfl
  rw [this]
  cases applyOp op total (-v - 1) with
  | val w => exact congrFun (afterOperand_skipWs _ _ _ _ _ _ h1) _
  | err c => rfl
  | ub u => rfl

theorem eval_one (s : S) : ∀ (d : Nat) (t : Str) (v : Int), Prefixed (toI32 s.pc) (visibleLabel s) (visibleText s) d t v →
    EvalPrefixed s d t v → EvalDenotes s d t v := by
  intro d t v h ih s1 hs n depth p rest hn hp hdep hr
  obtain ⟨c, r, hct, _⟩ := Prefixed_start h
  refine ⟨1, by rw [hct]; simp, ?_⟩
  intro f
  rw [ih s1 hs n depth p rest f 0 none hn hp hdep hr]
  rfl

/-- Reading an operator between two operands. -/
theorem getOp_op (depth : Int) (b optext b' t₂ rest : Str) (op : BinOp) (st : S) (c₂ : Nat) (r₂ : Str)
    (hb : Blanks b) (hb' : Blanks b') (hop : optext ∈ BinOp.spelled op) (hc₂ : t₂ = c₂ :: r₂) (hst₂ : Starter' c₂) :
    getOp depth ((b ++ (optext ++ (b' ++ (t₂ ++ rest)))).length + 1) (b ++ (optext ++ (b' ++ (t₂ ++ rest)))) st =
      .ok (.op (opOf op) (t₂ ++ rest)) st := by
  obtain ⟨oc, or_, hoc, hocm, hocne⟩ := spelled_head op optext hop
  have hsk : skipWs (b' ++ (t₂ ++ rest)) = t₂ ++ rest := by
    rw [skipWs_blanks b' _ hb', hc₂, List.cons_append, skipWs_cons _ _ (Starter.nonblank hst₂)]
  have hnb : isBlank oc = false := by
    simp only [List.mem_cons, List.not_mem_nil, or_false] at hocm
    rcases hocm with h | h | h | h | h | h | h | h | h | h | h | h <;> subst h <;> decide
  have hne : isEnd (optext ++ (b' ++ (t₂ ++ rest))) = false := by
    rw [hoc]
    simp only [List.mem_cons, List.not_mem_nil, or_false] at hocm
    rcases hocm with h | h | h | h | h | h | h | h | h | h | h | h <;> subst h <;> rfl
  have hmo : matchOp (optext ++ (b' ++ (t₂ ++ rest))) = some (opOf op, b' ++ (t₂ ++ rest)) := by
    have : ∃ c r, b' ++ (t₂ ++ rest) = c :: r ∧ c ≠ 60 ∧ c ≠ 62 ∧ c ≠ 61 ∧ c ≠ 38 ∧ c ≠ 124 := by
      cases b' with
      | nil =>
        refine ⟨c₂, r₂ ++ rest, by rw [hc₂]; rfl, ?_⟩
        unfold Starter' Starter Alnum at hst₂; omega
      | cons x b' =>
        refine ⟨x, b' ++ (t₂ ++ rest), rfl, ?_⟩
        have := hb' x (by simp); omega
    obtain ⟨c, r, hcr, hcc⟩ := this
    rw [hcr]
    exact matchOp_spelled op optext c r hop hcc
  rw [getOp, skipWs_blanks b _ hb]
  have hsk2 : skipWs (optext ++ (b' ++ (t₂ ++ rest))) = optext ++ (b' ++ (t₂ ++ rest)) := by
    rw [hoc, List.cons_append, skipWs_cons oc _ hnb]
  rw [hsk2]
  simp only [hne, Bool.false_eq_true, if_false, hmo, hsk]
  rw [if_neg (by rw [hc₂]; simp)]
  rfl

/-- What may follow an operand when an operator comes next. -/
theorem rest_op (t₁ b optext tail : Str) (op : BinOp) (hb : Blanks b) (hop : optext ∈ BinOp.spelled op)
    (hne : op = .ne → b ≠ [] ∨ t₁.getLast? = some 41) : Rest t₁ (b ++ (optext ++ tail)) := by
  obtain ⟨oc, or_, hoc, hocm, hocne⟩ := spelled_head op optext hop
  rw [hoc]
  by_cases hb0 : b = []
  · by_cases h33 : oc = 33
    · have := hne (hocne.1 h33)
      rcases this with h | h
      · exact absurd hb0 h
      · exact Or.inr h
    · left
      apply blanks_follow b _ _ hb
      intro _
      simp only [List.mem_cons, List.not_mem_nil, or_false] at hocm
      unfold NameChar Alnum; omega
  · left
    exact blanks_follow b _ _ hb (fun h => absurd h hb0)

theorem eval_join (s : S) : ∀ (d₁ : Nat) (t₁ : Str) (v₁ : Int) (b : Str) (op : BinOp) (optext b' : Str) (d₂ : Nat)
    (t₂ : Str) (v₂ v : Int), Denotes (toI32 s.pc) (visibleLabel s) (visibleText s) d₁ t₁ v₁ → Blanks b → Blanks b' →
    optext ∈ BinOp.spelled op → (op = .ne → b ≠ [] ∨ t₁.getLast? = some 41) →
    Prefixed (toI32 s.pc) (visibleLabel s) (visibleText s) d₂ t₂ v₂ → binary op v₁ v₂ = some v →
    EvalDenotes s d₁ t₁ v₁ → EvalPrefixed s d₂ t₂ v₂ →
    EvalDenotes s (max d₁ d₂) (t₁ ++ b ++ optext ++ b' ++ t₂) v := by
  intro d₁ t₁ v₁ b op optext b' d₂ t₂ v₂ v h₁ hb hb' hop hne h₂ hbin ih₁ ih₂ s1 hs n depth p rest hn hp hdep hr
  obtain ⟨c₂, r₂, hc₂, hst₂⟩ := Prefixed_start h₂
  have hr₁ : Rest t₁ (b ++ (optext ++ (b' ++ (t₂ ++ rest)))) := rest_op t₁ b optext _ op hb hop hne
  obtain ⟨m, hm, hloop⟩ := ih₁ s1 hs n depth p _ (by omega) (by omega) hdep hr₁
  refine ⟨m + 1, by simp only [List.length_append, hc₂, List.length_cons]; omega, ?_⟩
  intro f
  have e : t₁ ++ b ++ optext ++ b' ++ t₂ ++ rest = t₁ ++ (b ++ (optext ++ (b' ++ (t₂ ++ rest)))) := by simp
  have e2 : f + (m + 1) = (f + 1) + m := by omega
  rw [e, e2, hloop]
  unfold afterOperand
  have hg := getOp_op depth b optext b' t₂ rest op (evalState s1 p) c₂ r₂ hb hb' hop hc₂ hst₂
  rw [M.bind_ok hg]
  simp only
  have hr₂ : Rest t₂ rest := by
    rcases hr with hr | hr
    · exact Or.inl hr
    · right
      rw [getLast?_append_ne] at hr
      · exact hr
      · rw [hc₂]; simp
  have := ih₂ s1 hs n depth p rest f v₁ (some (opOf op)) (by omega) (by omega) hdep hr₂
  rw [this, applyOp_binary op v₁ v₂ v hbin]
  rfl

theorem Atom_mono {pc : Int} {label label' : Str → Option Int} (hl : ∀ t v, label t = some v → label' t = some v)
    {t : Str} {v : Int} (h : Atom pc label t v) : Atom pc label' t v := by
  cases h with
  | literal base ds text h1 h2 h3 => exact .literal base ds _ h1 h2 h3
  | here => exact .here
  | char c h1 h2 h3 => exact .char c h1 h2 h3
  | escape c v h => exact .escape c v h
  | label t v h1 h2 => exact .label t v h1 (hl t v h2)

/-- More labels and texts leave the value of an expression as it is. -/
theorem Denotes_mono {pc : Int} {label label' : Str → Option Int} {text text' : Str → Option Str}
    (hl : ∀ t v, label t = some v → label' t = some v) (ht : ∀ t e, text t = some e → text' t = some e)
    {d : Nat} {t : Str} {v : Int} (h : Denotes pc label text d t v) : Denotes pc label' text' d t v := by
  refine Denotes.rec (motive_1 := fun d t v _ => Operand pc label' text' d t v)
    (motive_2 := fun d t v _ => Prefixed pc label' text' d t v) (motive_3 := fun d t v _ => Denotes pc label' text' d t v)
    ?_ ?_ ?_ ?_ ?_ ?_ ?_ ?_ ?_ h
  · intro t v h; exact .atom t v (Atom_mono hl h)
  · intro d b t b' v h1 h2 _ ih; exact .paren d b t b' v h1 h2 ih
  · intro d t b e b' v h1 h2 h3 h4 _ ih; exact .named d t b e b' v h1 (ht _ _ h2) h3 h4 ih
  · intro d t v _ ih; exact .plain d t v ih
  · intro d b t v h1 _ ih; exact .plus d b t v h1 ih
  · intro d b t v h1 _ h3 ih; exact .minus d b t v h1 ih h3
  · intro d b t v h1 _ ih; exact .invert d b t v h1 ih
  · intro d t v _ ih; exact .one d t v ih
  · intro d₁ t₁ v₁ b op optext b' d₂ t₂ v₂ v _ h2 h3 h4 h5 _ h7 ih1 ih2
    exact .join d₁ t₁ v₁ b op optext b' d₂ t₂ v₂ v ih1 h2 h3 h4 h5 ih2 h7

/-- Evaluation of operands, by induction over the specification. -/
theorem eval_prefixed (s : S) {d : Nat} {t : Str} {v : Int} (h : Prefixed (toI32 s.pc) (visibleLabel s) (visibleText s) d t v) :
    EvalPrefixed s d t v :=
  Prefixed.rec (motive_1 := fun d t v _ => EvalOperand s d t v) (motive_2 := fun d t v _ => EvalPrefixed s d t v)
    (motive_3 := fun d t v _ => EvalDenotes s d t v) (eval_atom s) (eval_paren s) (eval_named s) (eval_plain s) (eval_plus s)
    (eval_minus s) (eval_invert s) (eval_one s) (eval_join s) h

/-- Evaluation of expressions, by induction over the specification. -/
theorem eval_denotes (s : S) {d : Nat} {t : Str} {v : Int} (h : Denotes (toI32 s.pc) (visibleLabel s) (visibleText s) d t v) :
    EvalDenotes s d t v :=
  Denotes.rec (motive_1 := fun d t v _ => EvalOperand s d t v) (motive_2 := fun d t v _ => EvalPrefixed s d t v)
    (motive_3 := fun d t v _ => EvalDenotes s d t v) (eval_atom s) (eval_paren s) (eval_named s) (eval_plain s) (eval_plus s)
    (eval_minus s) (eval_invert s) (eval_one s) (eval_join s) h

/-! ### Expressions nested too deeply -/

/-- The state after the recursion error. -/
def tooDeep (s : S) : S := errorAt 0x115 (evalState s 21)

def FailOperand (s : S) (d : Nat) (t : Str) : Prop :=
  ∀ (n : Nat) (depth p : Int) (rest : Str), d ≤ n → p ≤ 20 → 20 < p + d → 0 ≤ depth → Rest t rest →
    operandM (knot n) depth (t ++ rest) (evalState s p) = .ok none (tooDeep s)

def FailPrefixed (s : S) (d : Nat) (t : Str) : Prop :=
  ∀ (n : Nat) (depth p : Int) (rest : Str) (f : Nat) (total : Int) (op : Option Op),
    d ≤ n → p ≤ 20 → 20 < p + d → 0 ≤ depth → Rest t rest →
    numLoop (knot n) depth (f + 1) total op (t ++ rest) (evalState s p) = .ok none (tooDeep s)

def FailDenotes (s : S) (d : Nat) (t : Str) : Prop :=
  ∀ (n : Nat) (depth p : Int) (rest : Str) (f : Nat), d ≤ n → p ≤ 20 → 20 < p + d → 0 ≤ depth → Rest t rest →
    t.length ≤ f → numLoop (knot n) depth f 0 none (t ++ rest) (evalState s p) = .ok none (tooDeep s)

/-- One step of the loop for an operand without value. -/
theorem numLoop_fail (k : Rec) (depth : Int) (f : Nat) (total : Int) (op : Option Op) (t rest : Str) (s s' : S)
    (inv neg : Bool) (hu : unary t = (inv, neg, rest)) (ho : operandM k depth rest s = .ok none s') :
    numLoop k depth (f + 1) total op t s = .ok none s' := by
  rw [numLoop, hu]
  dsimp only
  unfold operandM at ho
  split
  · rw [if_pos (by assumption)] at ho
    rw [M.bind_ok ho]; rfl
  · rw [if_neg (by assumption)] at ho
    rw [M.bind_ok ho]; rfl

theorem fail_paren (s : S) (d : Nat) (b t b' : Str) (v : Int) (hb : Blanks b) (hb' : Blanks b')
    (h : Denotes (toI32 s.pc) (visibleLabel s) (fun _ => none) d t v) (ih : FailDenotes s d t) :
    FailOperand s (d + 1) ([40] ++ b ++ t ++ b' ++ [41]) := by
  intro n depth p rest hn hp hpd hdep _
  obtain ⟨n, rfl⟩ : ∃ m, n = m + 1 := ⟨n - 1, by omega⟩
  obtain ⟨c, r, hct, hst⟩ := Denotes_start h
  have e : [40] ++ b ++ t ++ b' ++ [41] ++ rest = 40 :: (b ++ (t ++ (b' ++ 41 :: rest))) := by simp
  rw [e]
  unfold operandM
  rw [if_pos (by simp)]
  show numFullBody (knot n) (b ++ (t ++ (b' ++ 41 :: rest))) (depth + 1) (evalState s p) = _
  unfold numFullBody
  simp only [M.modify_bind, M.get_bind]
  by_cases hp1 : (evalState s p).parseDepth + 1 > 20
  · rw [if_pos hp1]
    have hp' : p = 20 := by
      have : p + 1 > 20 := hp1
      omega
    subst hp'
    rw [M.bind_ok (setError_apply _ _ (by decide))]
    rfl
  · rw [if_neg hp1]
    have hp' : ¬ p + 1 > 20 := hp1
    have hsk : skipWs (b ++ (t ++ (b' ++ 41 :: rest))) = t ++ (b' ++ 41 :: rest) := by
      rw [skipWs_blanks b _ hb, hct, List.cons_append, skipWs_cons c _ (Starter.nonblank hst)]
    rw [hsk, if_neg (by rw [hct]; simp)]
    have hst' : ({ evalState s p with fwdRef := false, parseDepth := (evalState s p).parseDepth + 1 } : S) =
        evalState s (p + 1) := rfl
    rw [hst']
    exact ih n (depth + 1) (p + 1) (b' ++ 41 :: rest) _ (by omega) (by omega) (by push_cast at hpd; omega) (by omega)
      (Or.inl (blanks_follow b' 41 rest hb' (fun _ => by unfold NameChar Alnum; omega)))
      (by simp only [List.length_append]; omega)

theorem fail_join (s : S) (d₁ : Nat) (t₁ : Str) (v₁ : Int) (b : Str) (op : BinOp) (optext b' : Str) (d₂ : Nat)
    (t₂ : Str) (v₂ v : Int) (h₁ : Denotes (toI32 s.pc) (visibleLabel s) (fun _ => none) d₁ t₁ v₁) (hb : Blanks b) (hb' : Blanks b')
    (hop : optext ∈ BinOp.spelled op) (hne : op = .ne → b ≠ [] ∨ t₁.getLast? = some 41)
    (h₂ : Prefixed (toI32 s.pc) (visibleLabel s) (fun _ => none) d₂ t₂ v₂) (_ : binary op v₁ v₂ = some v)
    (ih₁ : FailDenotes s d₁ t₁) (ih₂ : FailPrefixed s d₂ t₂) :
    FailDenotes s (max d₁ d₂) (t₁ ++ b ++ optext ++ b' ++ t₂) := by
  intro n depth p rest f hn hp hpd hdep hr hf
  obtain ⟨c₂, r₂, hc₂, hst₂⟩ := Prefixed_start h₂
  have hr₁ : Rest t₁ (b ++ (optext ++ (b' ++ (t₂ ++ rest)))) := rest_op t₁ b optext _ op hb hop hne
  have e : t₁ ++ b ++ optext ++ b' ++ t₂ ++ rest = t₁ ++ (b ++ (optext ++ (b' ++ (t₂ ++ rest)))) := by simp
  simp only [List.length_append] at hf
  rw [e]
  by_cases hdeep : 20 < p + d₁
  · exact ih₁ n depth p _ f (by omega) hp hdeep hdep hr₁ (by omega)
  · obtain ⟨m, hm, hloop⟩ := eval_denotes s (Denotes_mono (fun _ _ h => h) (fun _ _ h => by simp at h) h₁) s (Inner.refl s) n depth p _ (by omega) (by omega) hdep hr₁
    have hlen2 : 1 ≤ t₂.length := by rw [hc₂]; simp
    have e2 : f = (f - m - 1 + 1) + m := by omega
    rw [e2, hloop]
    unfold afterOperand
    rw [M.bind_ok (getOp_op depth b optext b' t₂ rest op (evalState s p) c₂ r₂ hb hb' hop hc₂ hst₂)]
    have hr₂ : Rest t₂ rest := by
      rcases hr with hr | hr
      · exact Or.inl hr
      · right
        rw [getLast?_append_ne] at hr
        · exact hr
        · rw [hc₂]; simp
    exact ih₂ n depth p rest _ v₁ _ (by omega) hp (by omega) hdep hr₂

/-- Expressions nested too deeply are rejected. -/
theorem eval_too_deep (s : S) {d : Nat} {t : Str} {v : Int} (h : Denotes (toI32 s.pc) (visibleLabel s) (fun _ => none) d t v) :
    FailDenotes s d t := by
  refine Denotes.rec (motive_1 := fun d t v _ => FailOperand s d t) (motive_2 := fun d t v _ => FailPrefixed s d t)
    (motive_3 := fun d t v _ => FailDenotes s d t) ?_ (fail_paren s) (fun _ _ _ _ _ _ _ h => by simp at h) ?_ ?_ ?_ ?_ ?_ (fail_join s) h
  · intro t v _ n depth p rest _ hp hpd
    omega
  · intro d t v h ih n depth p rest f total op hn hp hpd hdep hr
    obtain ⟨c, r, rfl, hst, _⟩ := Operand_start h
    exact numLoop_fail _ _ _ _ _ _ _ _ _ false false (unary_plain _ c (r ++ rest) rfl hst) (ih n depth p rest hn hp hpd hdep hr)
  · intro d b t v hb h ih n depth p rest f total op hn hp hpd hdep hr
    obtain ⟨c, r, hct, hst, h95⟩ := Operand_start h
    have hr' : Rest t rest := by
      rcases hr with hr | hr
      · exact Or.inl hr
      · right
        rw [List.append_assoc, getLast?_append_ne, getLast?_append_ne] at hr
        · exact hr
        all_goals (rw [hct]; simp)
    have e : [43] ++ b ++ t ++ rest = [43] ++ b ++ (t ++ rest) := by simp
    rw [e]
    exact numLoop_fail _ _ _ _ _ _ (t ++ rest) _ _ false false (unary_sign 43 (Or.inr rfl) b (t ++ rest) hb c (r ++ rest) (by rw [hct]; rfl) hst
      (fun h => by obtain ⟨c', r', rfl, hn⟩ := h95 h; exact ⟨c', r' ++ rest, rfl, hn⟩)) (ih n depth p rest hn hp hpd hdep hr')
  · intro d b t v hb h _ ih n depth p rest f total op hn hp hpd hdep hr
    obtain ⟨c, r, hct, hst, h95⟩ := Operand_start h
    have hr' : Rest t rest := by
      rcases hr with hr | hr
      · exact Or.inl hr
      · right
        rw [List.append_assoc, getLast?_append_ne, getLast?_append_ne] at hr
        · exact hr
        all_goals (rw [hct]; simp)
    have e : [45] ++ b ++ t ++ rest = [45] ++ b ++ (t ++ rest) := by simp
    rw [e]
    exact numLoop_fail _ _ _ _ _ _ (t ++ rest) _ _ false true (unary_sign 45 (Or.inl rfl) b (t ++ rest) hb c (r ++ rest) (by rw [hct]; rfl) hst
      (fun h => by obtain ⟨c', r', rfl, hn⟩ := h95 h; exact ⟨c', r' ++ rest, rfl, hn⟩)) (ih n depth p rest hn hp hpd hdep hr')
  · intro d b t v hb h ih n depth p rest f total op hn hp hpd hdep hr
    obtain ⟨c, r, hct, hst, h95⟩ := Operand_start h
    have hr' : Rest t rest := by
      rcases hr with hr | hr
      · exact Or.inl hr
      · right
        rw [List.append_assoc, getLast?_append_ne, getLast?_append_ne] at hr
        · exact hr
        all_goals (rw [hct]; simp)
    have e : [126] ++ b ++ t ++ rest = [126] ++ b ++ (t ++ rest) := by simp
    rw [e]
    exact numLoop_fail _ _ _ _ _ _ (t ++ rest) _ _ true false (unary_invert b (t ++ rest) hb c (r ++ rest) (by rw [hct]; rfl) hst) (ih n depth p rest hn hp hpd hdep hr')
  · intro d t v h ih n depth p rest f hn hp hpd hdep hr hf
    obtain ⟨c, r, hct, _⟩ := Prefixed_start h
    obtain ⟨f, rfl⟩ : ∃ m, f = m + 1 := ⟨f - 1, by rw [hct] at hf; simp at hf; omega⟩
    exact ih n depth p rest f 0 none hn hp hpd hdep hr

end Spasm
