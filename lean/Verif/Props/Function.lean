import Verif.Props.Macro
import Verif.Lemmas.Ends
import Verif.Spec.Function

/-
C56: calls of texts with parameters in expressions.
-/

namespace Spasm.Props

open Spasm.Spec

/-- A name followed by `(` that is a text leads to its evaluation. -/
theorem function_reach (k : Rec) (depth : Int) (name r : Str) (df : Define) (st : S) (hname : FunctionName st name df) :
    operandM k depth (name ++ 40 :: r) st = parseMacro k df (40 :: r) st := by
  obtain ⟨c, r', hcr, hc, hx⟩ := hname.proper.1
  have hal : ∀ x ∈ name, NameChar x := by
    intro x hx'
    rw [hcr] at hx'
    rcases List.mem_cons.1 hx' with rfl | hx'
    · unfold NameChar Alnum; omega
    · exact hx x hx'
  have htw := takeName_stop name (40 :: r) hal (by intro c hc; cases hc; unfold NameChar Alnum; omega)
  have reach : operandM k depth (name ++ 40 :: r) st = parseName k (name ++ 40 :: r) st := by
    unfold operandM
    rw [hcr, if_neg (by simp; omega)]
    unfold parseSingle
    simp only [List.cons_append, hd_cons]
    rw [if_neg, if_neg, if_neg, if_neg, if_neg, if_pos]
    · unfold isAlpha isUpper isLower; simp; omega
    all_goals simp; omega
  rw [reach]
  unfold parseName
  rw [htw.1, htw.2]
  have hloc : searchLocal name st = none := by rw [searchLocal_eq]; exact hname.noArgument
  have hlab : searchLabels name st = none := by
    have := searchLabels_eq st name
    rw [hname.noLabel] at this
    exact Option.map_eq_none_iff.1 this
  have hsd := searchDefines_calm name st (by rw [keyOf_eq]; exact refreshed_none st name hname.fixed)
  have hfd : (findDefine (keyOf st name) st).map (·.2) = some df := by
    rw [keyOf_eq, findDefine_eq, hname.noArgument, hname.defined]
  have hne' : (name == [95]) = false := by simpa using hname.proper.2
  have hev : eqCase name (b! "eval") = false := by
    cases he : eqCase name (b! "eval") with
    | false => rfl
    | true => exact absurd (by rw [eqCase_upper _ _ he]; decide) hname.notBuiltIn
  have hgc : eqCase name (b! "getc") = false := by
    cases he : eqCase name (b! "getc") with
    | false => rfl
    | true => exact absurd (by rw [eqCase_upper _ _ he]; decide) hname.notBuiltIn
  simp only [M.get_bind, hloc, Option.isSome_none, Bool.false_eq_true, if_false, hlab]
  rw [M.bind_ok hsd]
  simp only [M.pure_bind, hne', hfd, hev, hgc, Bool.false_and, Bool.false_eq_true, if_false]

theorem eval_call (s : S) (D : Nat) (t : Str) (v : Int) (h : Call s D t v) (hs : Settled s) (n : Nat) (depth p : Int) (rest : Str)
    (hn : D + 2 ≤ n) (hD : D ≤ 18) :
    operandM (knot n) depth (t ++ rest) (evalState s p) = .ok (some (rest, v)) (evalState s 0) := by
  cases h with
  | call name df args t vs b e b' d v hname hcont hb hb' hp hj hvs hden hd =>
    generalize hst : evalState s p = st
    have hss : Settled st := by rw [← hst]; exact hs
    have hvs' : InOrder (fun done => ArgValue st done (min 20 n)) [] df.args args (vs.map some) := by
      refine hvs.imp_all ?_
      intro done a v hv
      rw [← hst]
      cases v with
      | none => exact hv
      | some v =>
        obtain ⟨d, h1, h2, h3⟩ := hv
        exact ⟨d, by omega, h2, h3⟩
    obtain ⟨set, pd, fw, hpa, h0, hbind⟩ := parseArgs_binds n st df args t (vs.map some) rest (by rw [← hst]; exact ⟨hp.different, hp.plain, hp.fixed⟩) hj hss hvs' (by omega)
      st.session (by omega)
    obtain ⟨rfl, rfl⟩ := h0 (by simp)
    have hname' : FunctionName st name df := by
      rw [← hst]
      exact ⟨hname.proper, hname.defined, hname.noArgument, hname.noLabel, hname.fixed, hname.notBuiltIn⟩
    have et : name ++ [40] ++ t ++ [41] ++ rest = name ++ 40 :: (t ++ 41 :: rest) := by simp
    rw [et, function_reach _ _ _ _ df _ hname']
    rw [List.cons_append] at hpa
    unfold parseMacro
    rw [M.bind_ok hpa]
    dsimp only
    simp only [M.get_bind, M.modify_bind]
    -- the state in which the text is evaluated
    let s2 : S := { s with argSets := set :: s.argSets }
    have hs2 : Settled s2 := hs
    have hbind' : Bindings s df.args args (vs.map some) set := by
      refine ⟨?_, ?_⟩
      · intro p a v hv
        have := hbind.bound p a v hv
        rw [← hst] at this
        exact this
      · intro w hw
        have := hbind.others w (by rw [← hst]; exact hw)
        rw [← hst] at this
        exact this
    obtain ⟨v1, v2⟩ := body_visible s s2 df.args args (vs.map some) set D hbind' hp hvs rfl rfl rfl rfl hs hs2
    obtain ⟨d', hd', hden'⟩ := Denotes_deepen (v1 _) v2 hden
    have hev := eval_text s2 d' b e b' v hb hb' hden' (eval_denotes s2 hden') { s2 with lineNum := df.line, session := s.session + 1 }
      ⟨df.line, s.session + 1, by show s.session ≤ _; omega, rfl⟩ hs.1 df hcont n 0 (by omega) (by omega)
    have hst1 : startSession { calling st st.session set 0 false with lineNum := df.line } =
        .ok (s.session + 1) (evalState { s2 with lineNum := df.line, session := s.session + 1 } 0) := by
      rw [← hst]; rfl
    rw [M.bind_ok hst1, M.bind_ok hev.1]
    dsimp only
    rw [M.bind_ok hev.2]
    simp only [M.modify_bind, M.get_bind]
    have hpre : sessPrefix (s.session + 1) s.errors = [] := by
      unfold sessPrefix
      cases hE : s.errors with
      | nil => rfl
      | cons x xs =>
        have := hs.2 x (by rw [hE]; simp)
        rw [List.takeWhile_cons_of_neg]
        simp; omega
    have hcount : ∀ x : S, x.errors = s.errors → sessionCount (s.session + 1) x = 0 := by
      intro x hx
      unfold sessionCount
      rw [hx, hpre]; rfl
    have hwhen : ∀ (x : S) (m : M Unit), x.errors = s.errors → M.when (decide (sessionCount (s.session + 1) x > 0)) m = pure () := by
      intro x m hx
      rw [hcount x hx]; rfl
    rw [hwhen, M.pure_bind, M.bind_ok (endSession_clean _ _ ?_)]
    · have hrem : ∀ x : S, removeArgSet true x = .ok () { x with argSets := x.argSets.tail } := fun _ => rfl
      rw [M.bind_ok (hrem _), hcount]
      · simp only [gt_iff_lt, Nat.lt_irrefl, Bool.false_eq_true, if_false, decide_false]
        rw [M.pure_apply]
        congr 1
        rw [← hst]
        have e1 : s.session + 1 - 1 = s.session := by omega
        show ({ evalState s 0 with session := s.session + 1 - 1 } : S) = evalState s 0
        rw [e1]
        rfl
      · rfl
    · intro e he
      have := hs.2 e he
      omega
    · rfl

theorem Call_start {s : S} {D : Nat} {t : Str} {v : Int} (h : Call s D t v) :
    (∃ c r, t = c :: r ∧ Starter c ∧ (c = 95 → ∃ c' r', r = c' :: r' ∧ NameChar c')) ∧ t.getLast? = some 41 := by
  cases h with
  | call name df args t vs b e b' d v hname _ _ _ _ _ _ _ _ =>
    refine ⟨?_, by rw [List.getLast?_append]; rfl⟩
    obtain ⟨⟨c, r, rfl, hc, hx⟩, hne⟩ := hname.proper
    refine ⟨c, r ++ [40] ++ t ++ [41], by simp, ?_, ?_⟩
    · unfold Starter Alnum; omega
    · rintro rfl
      cases r with
      | nil => exact absurd rfl hne
      | cons x r => exact ⟨x, r ++ [40] ++ t ++ [41], by simp, hx x (by simp)⟩

/-- A call means the same on another line and in a deeper session of messages. -/
theorem Call_inner {s : S} {D : Nat} {t : Str} {v : Int} (h : Call s D t v) (hs : Settled s) (l q : Int) (hq : s.session ≤ q) :
    Call { s with lineNum := l, session := q } D t v := by
  have htxt : visibleText { s with lineNum := l, session := q } = visibleText s := visibleText_session s q hq hs.2
  have hout : ∀ ps, outerText { s with lineNum := l, session := q } ps = outerText s ps := by
    intro ps; funext w; unfold outerText; rw [htxt]; rfl
  cases h with
  | call name df args t vs b e b' d v hname hcont hb hb' hp hj hvs hden hd =>
    refine .call name df args t vs b e b' d v ⟨hname.proper, hname.defined, hname.noArgument, hname.noLabel, hname.fixed, hname.notBuiltIn⟩
      hcont hb hb' ⟨hp.different, hp.plain, hp.fixed⟩ hj (hvs.imp_all ?_) ?_ hd
    · intro done a v hv
      cases v with
      | none => exact hv
      | some v =>
        obtain ⟨d, h1, h2, h3⟩ := hv
        exact ⟨d, h1, by rw [hout]; exact h2, h3⟩
    · rw [hout]; exact hden

theorem Settled_inner {s : S} (hs : Settled s) (l q : Int) (hq : s.session ≤ q) : Settled { s with lineNum := l, session := q } :=
  ⟨hs.1, fun e he => Int.le_trans (hs.2 e he) hq⟩

theorem joined_inside {args : List Str} {t : Str} (h : Joined args t) : ∀ d, Commas d → Balanced d true t := by
  intro d hd
  induction h with
  | one b a b' hb hb' ha _ =>
    exact balanced_append (balanced_append (balanced_tokens hd true b (token_blank hb)) (balanced_inside ha.balanced d))
      (balanced_tokens hd true b' (token_blank hb'))
  | more b a b' as t hb hb' ha _ _ ih =>
    refine balanced_append (balanced_append (balanced_append (balanced_append (balanced_tokens hd true b (token_blank hb)) (balanced_inside ha.balanced d))
      (balanced_tokens hd true b' (token_blank hb'))) (.char true 44 [] (by decide) (by simp) (.nil true))) ih

theorem piece_call {s : S} {D : Nat} {t : Str} {v : Int} (h : Call s D t v) : Piece t := by
  refine ⟨?_, ?_, ?_⟩
  · intro d hd i
    cases h with
    | call name df args t vs b e b' d' v hname _ _ _ _ hj _ _ _ =>
      have := balanced_append ((piece_name hname.proper).1 d hd i) (Balanced.paren i t [] (joined_inside hj d hd) (.nil i))
      simpa using this
  · obtain ⟨⟨c, r, hct, -⟩, -⟩ := Call_start h
    rw [hct]; simp
  · rw [(Call_start h).2]
    intro c hc; simp at hc; subst hc; decide

theorem Term_start {s : S} {D : Nat} {t : Str} {v : Int} (h : Term s D t v) : ∃ c r, t = c :: r ∧ Starter' c := by
  cases h with
  | plain _ d t v h hd => exact Prefixed_start h
  | call _ t v h =>
    obtain ⟨⟨c, r, hct, hst, -⟩, -⟩ := Call_start h
    exact ⟨c, r, hct, Or.inl hst⟩
  | plus _ b t v hb h => exact ⟨43, b ++ t, by simp, by unfold Starter'; omega⟩
  | minus _ b t v hb h hv => exact ⟨45, b ++ t, by simp, by unfold Starter'; omega⟩
  | invert _ b t v hb h => exact ⟨126, b ++ t, by simp, by unfold Starter'; omega⟩
  | named _ t b e b' v hn _ _ _ _ =>
    obtain ⟨⟨c, r, rfl, hc, hx⟩, hne⟩ := hn
    exact ⟨c, r, rfl, .inl (by unfold Starter Alnum; omega)⟩

theorem WithCalls_start {s : S} {D : Nat} {t : Str} {v : Int} (h : WithCalls s D t v) : ∃ c r, t = c :: r ∧ Starter' c := by
  refine WithCalls.rec (motive_1 := fun _ _ _ _ => True) (motive_2 := fun _ t _ _ => ∃ c r, t = c :: r ∧ Starter' c)
    (fun _ _ _ _ _ _ => trivial) (fun _ _ _ _ => trivial) (fun _ _ _ _ _ _ => trivial) (fun _ _ _ _ _ _ _ => trivial) (fun _ _ _ _ _ _ => trivial)
    (fun _ _ _ _ _ _ _ _ _ _ _ _ => trivial) ?_ ?_ h
  · intro depth t v h _; exact Term_start h
  · rintro depth t₁ v₁ b op optext b' t₂ v₂ v _ _ _ _ _ _ _ ⟨c, r, rfl, hc⟩ _
    exact ⟨c, r ++ b ++ optext ++ b' ++ t₂, by simp, hc⟩

theorem piece_term {s : S} {D : Nat} {t : Str} {v : Int} (h : Term s D t v) : Piece t := by
  have tok : ∀ (x : Nat) (b : Str), Blanks b → (x = 43 ∨ x = 45 ∨ x = 126) → ∀ c ∈ [x] ++ b, Token c := by
    intro x b hb hx c hc
    rcases List.mem_append.1 hc with hc | hc
    · simp at hc; subst hc; unfold Token Ordinary; omega
    · exact token_blank hb c hc
  cases h with
  | plain _ d t v h hd => exact piece_denotes (.one _ _ _ h)
  | call _ t v h => exact piece_call h
  | plus _ b t v hb h => exact (piece_call h).after (tok 43 b hb (by omega))
  | minus _ b t v hb h hv => exact (piece_call h).after (tok 45 b hb (by omega))
  | invert _ b t v hb h => exact (piece_call h).after (tok 126 b hb (by omega))
  | named _ t b e b' v hn _ _ _ _ => exact piece_name hn

theorem piece_withCalls {s : S} {D : Nat} {t : Str} {v : Int} (h : WithCalls s D t v) : Piece t := by
  refine WithCalls.rec (motive_1 := fun _ _ _ _ => True) (motive_2 := fun _ t _ _ => Piece t)
    (fun _ _ _ _ _ _ => trivial) (fun _ _ _ _ => trivial) (fun _ _ _ _ _ _ => trivial) (fun _ _ _ _ _ _ _ => trivial) (fun _ _ _ _ _ _ => trivial)
    (fun _ _ _ _ _ _ _ _ _ _ _ _ => trivial) ?_ ?_ h
  · intro depth t v h _; exact piece_term h
  · intro depth t₁ v₁ b op optext b' t₂ v₂ v _ hb hb' hop _ h₂ _ ih _
    have h2 := (piece_term h₂).after (a := b ++ optext ++ b') (fun c hc => by
      rcases List.mem_append.1 hc with hc | hc
      · rcases List.mem_append.1 hc with hc | hc
        · exact token_blank hb c hc
        · exact spelled_tokens hop c hc
      · exact token_blank hb' c hc)
    refine ⟨fun dl hd i => ?_, by simp [(piece_term h₂).2.1], ?_⟩
    · have := balanced_append (ih.1 dl hd i) (h2.1 dl hd i)
      simpa using this
    · rw [getLast?_append_ne (piece_term h₂).2.1]; exact (piece_term h₂).2.2

/-- An operand with calls, evaluated and combined with what came before. -/
def EvalTerm (s : S) (D : Nat) (t : Str) (v : Int) : Prop :=
  ∀ (l q : Int), s.session ≤ q → ∀ (n : Nat) (depth p : Int) (rest : Str), D + 2 ≤ n → D ≤ 18 → p + D ≤ 19 → 0 ≤ depth → Rest t rest →
    ∃ p', (p' ≤ p ∨ p' ≤ 0) ∧ ∀ f total op, numLoop (knot n) depth (f + 1) total op (t ++ rest) (evalState { s with lineNum := l, session := q } p) =
      (match applyOp op total v with
       | .err c => (do setError c; pure none : M (Option (Str × Int)))
       | .ub u => M.ub u
       | .val w => afterOperand (knot n) depth f w rest) (evalState { s with lineNum := l, session := q } p')

/-- An expression with calls, evaluated. -/
def EvalCalls (s : S) (D : Nat) (t : Str) (v : Int) : Prop :=
  ∀ (l q : Int), s.session ≤ q → ∀ (n : Nat) (depth p : Int) (rest : Str), D + 2 ≤ n → D ≤ 18 → p + D ≤ 19 → 0 ≤ depth → Rest t rest →
    ∃ m p', m ≤ t.length ∧ (p' ≤ p ∨ p' ≤ 0) ∧ ∀ f, numLoop (knot n) depth (f + m) 0 none (t ++ rest) (evalState { s with lineNum := l, session := q } p) =
      afterOperand (knot n) depth f v rest (evalState { s with lineNum := l, session := q } p')

theorem eval_calls (s : S) (D : Nat) (t : Str) (v : Int) (h : WithCalls s D t v) (hs : Settled s) : EvalCalls s D t v := by
  refine WithCalls.rec (motive_1 := fun D t v _ => EvalTerm s D t v) (motive_2 := fun D t v _ => EvalCalls s D t v)
    ?_ ?_ ?_ ?_ ?_ ?_ ?_ ?_ h
  · intro D d t v h hd l q hq n depth p rest hn hD hp hdep hr
    exact ⟨p, .inl (by omega), fun f total op => eval_prefixed s h _ ⟨l, q, hq, rfl⟩ n depth p rest f total op (by omega) (by omega) hdep hr⟩
  · intro D t v h l q hq n depth p rest hn hD hp hdep hr
    obtain ⟨⟨c, r, hct, hst, -⟩, -⟩ := Call_start h
    have h2 := eval_call _ D t v (Call_inner h hs l q hq) (Settled_inner hs l q hq) n depth p rest hn hD
    refine ⟨0, by omega, ?_⟩
    intro f total op
    rw [numLoop_step (knot n) depth f total op (t ++ rest) (t ++ rest) rest _ _ false false v
      (unary_plain _ c (r ++ rest) (by rw [hct]; rfl) hst) h2 (by simp) (by simp)]
    rfl
  · intro D b t v hb h l q hq n depth p rest hn hD hp hdep hr
    obtain ⟨⟨c, r, hct, hst, h95⟩, -⟩ := Call_start h
    have h2 := eval_call _ D t v (Call_inner h hs l q hq) (Settled_inner hs l q hq) n depth p rest hn hD
    refine ⟨0, by omega, ?_⟩
    intro f total op
    have e : [43] ++ b ++ t ++ rest = [43] ++ b ++ (t ++ rest) := by simp
    rw [e, numLoop_step (knot n) depth f total op _ (t ++ rest) rest _ _ false false v
      (unary_sign 43 (Or.inr rfl) b (t ++ rest) hb c (r ++ rest) (by rw [hct]; rfl) hst
        (fun h => by obtain ⟨c', r', rfl, hn⟩ := h95 h; exact ⟨c', r' ++ rest, rfl, hn⟩)) h2 (by simp) (by simp)]
    rfl
  · intro D b t v hb h hv l q hq n depth p rest hn hD hp hdep hr
    obtain ⟨⟨c, r, hct, hst, h95⟩, -⟩ := Call_start h
    have h2 := eval_call _ D t v (Call_inner h hs l q hq) (Settled_inner hs l q hq) n depth p rest hn hD
    refine ⟨0, by omega, ?_⟩
    intro f total op
    have e : [45] ++ b ++ t ++ rest = [45] ++ b ++ (t ++ rest) := by simp
    rw [e, numLoop_step (knot n) depth f total op _ (t ++ rest) rest _ _ false true v
      (unary_sign 45 (Or.inl rfl) b (t ++ rest) hb c (r ++ rest) (by rw [hct]; rfl) hst
        (fun h => by obtain ⟨c', r', rfl, hn⟩ := h95 h; exact ⟨c', r' ++ rest, rfl, hn⟩)) h2 (fun _ => hv) (by simp)]
    rfl
  · intro D b t v hb h l q hq n depth p rest hn hD hp hdep hr
    obtain ⟨⟨c, r, hct, hst, h95⟩, -⟩ := Call_start h
    have h2 := eval_call _ D t v (Call_inner h hs l q hq) (Settled_inner hs l q hq) n depth p rest hn hD
    refine ⟨0, by omega, ?_⟩
    intro f total op
    have e : [126] ++ b ++ t ++ rest = [126] ++ b ++ (t ++ rest) := by simp
    rw [e, numLoop_step (knot n) depth f total op _ (t ++ rest) rest _ _ true false v
      (unary_invert b (t ++ rest) hb c (r ++ rest) (by rw [hct]; rfl) hst) h2 (by simp) (by simp)]
    rfl
  · intro D t b e b' v hname htext hb hb' h ih l q hq n depth p rest hn hD hp hdep hr
    obtain ⟨n, rfl⟩ : ∃ m, n = m + 1 := ⟨n - 1, by omega⟩
    have hst : ∃ c r, t = c :: r ∧ Starter c := by
      obtain ⟨⟨c, r, rfl, hc, hx⟩, hne⟩ := hname
      exact ⟨c, r, rfl, by unfold Starter Alnum; omega⟩
    obtain ⟨c, r, hct, hst⟩ := hst
    have hrb : Rest e b' := .inl (by
      intro x hx
      have := hb' x (List.mem_of_mem_head? hx)
      unfold NameChar Alnum; omega)
    -- the depth after the text does not depend on the line
    obtain ⟨p1, hp1, hop⟩ : ∃ p1, (p1 ≤ p ∨ p1 ≤ 0) ∧ operandM (knot (n + 1)) depth (t ++ rest) (evalState { s with lineNum := l, session := q } p) =
        .ok (some (rest, v)) (evalState { s with lineNum := l, session := q } p1) := by
      refine named_text s t _ v hname htext (n + 1) depth p rest hr l q hq (fun p1 => p1 ≤ p ∨ p1 ≤ 0) ?_
      intro df hcont
      obtain ⟨m, p', hm, h1, hloop⟩ := ih df.line (q + 1) (by omega) n 0 (p + 1) b' (by omega) (by omega) (by push_cast at hp; omega) (by omega) hrb
      have e1 : p' = (p' - 1) + 1 := by omega
      rw [e1] at hloop
      have h2 := text_value b e b' v hb hb' (WithCalls_start h) (codeLine_piece (piece_withCalls h) (WithCalls_start h) hb')
        { s with lineNum := df.line, session := q + 1 } hs.1 df hcont n m p (p' - 1) (by omega) hm hloop
      exact ⟨p' - 1, _, _, by omega, h2.1, h2.2⟩
    refine ⟨p1, hp1, ?_⟩
    intro f total op
    rw [numLoop_step (knot (n + 1)) depth f total op (t ++ rest) (t ++ rest) rest _ _ false false v
      (unary_plain _ c (r ++ rest) (by rw [hct]; rfl) hst) hop (by simp) (by simp)]
    rfl
  · intro D t v h ih l q hq n depth p rest hn hD hp hdep hr
    obtain ⟨c, r, hct, _⟩ := Term_start h
    obtain ⟨p', h1, h3⟩ := ih l q hq n depth p rest hn hD hp hdep hr
    refine ⟨1, p', by rw [hct]; simp, h1, ?_⟩
    intro f
    rw [h3]
    rfl
  · intro D t₁ v₁ b op optext b' t₂ v₂ v h₁ hb hb' hop hne h₂ hbin ih ih₂ l q hq n depth p rest hn hD hp hdep hr
    obtain ⟨c₂, r₂, hc₂, hst₂⟩ := Term_start h₂
    have hr₁ : Rest t₁ (b ++ (optext ++ (b' ++ (t₂ ++ rest)))) := rest_op t₁ b optext _ op hb hop hne
    obtain ⟨m, p', hm, h1, hloop⟩ := ih l q hq n depth p _ hn hD hp hdep hr₁
    have hr₂ : Rest t₂ rest := by
      rcases hr with hr | hr
      · exact Or.inl hr
      · right
        rw [getLast?_append_ne] at hr
        · exact hr
        · rw [hc₂]; simp
    obtain ⟨p'', h1', h3⟩ := ih₂ l q hq n depth p' rest hn hD (by omega) hdep hr₂
    refine ⟨m + 1, p'', by simp only [List.length_append, hc₂, List.length_cons]; omega, by omega, ?_⟩
    intro f
    have e : t₁ ++ b ++ optext ++ b' ++ t₂ ++ rest = t₁ ++ (b ++ (optext ++ (b' ++ (t₂ ++ rest)))) := by simp
    have e2 : f + (m + 1) = (f + 1) + m := by omega
    rw [e, e2, hloop]
    unfold afterOperand
    have hg := getOp_op depth b optext b' t₂ rest op (evalState { s with lineNum := l, session := q } p') c₂ r₂ hb hb' hop hc₂ hst₂
    rw [M.bind_ok hg]
    simp only
    rw [h3, applyOp_binary op v₁ v₂ v hbin]
    rfl

/-- The value on another line and in a deeper session of messages. -/
theorem calls_value (s : S) (depth n : Nat) (b t b' rest : Str) (v : Int) (h : WithCalls s depth t v) (hs : Settled s)
    (hD : depth ≤ 18) (hn : depth + 2 < n) (hb : Blanks b) (hb' : Blanks b') (hrest : AtEnd rest) (l q : Int) (hq : s.session ≤ q) :
    ∃ p, parseNum (knot n) (b ++ t ++ b' ++ rest) { s with lineNum := l, session := q } =
      .ok (some v) { s with lineNum := l, session := q, parseDepth := p, fwdRef := false } := by
  obtain ⟨n, rfl⟩ : ∃ m, n = m + 1 := ⟨n - 1, by omega⟩
  obtain ⟨c, r, hct, hst⟩ := WithCalls_start h
  have e : b ++ t ++ b' ++ rest = b ++ (t ++ (b' ++ rest)) := by simp
  obtain ⟨m, p', hm, h1, hloop⟩ := eval_calls s depth t v h hs l q hq n 0 1 (b' ++ rest) (by omega) hD (by omega) (by omega)
    (Or.inl (hrest.follows hb'))
  refine ⟨p' - 1, ?_⟩
  rw [e, parseNum_start n _ b (t ++ (b' ++ rest)) c (r ++ (b' ++ rest)) hb (by rw [hct]; rfl) hst]
  have hlen : (b ++ (t ++ (b' ++ rest))).length + 1 = ((b ++ (t ++ (b' ++ rest))).length + 1 - m) + m := by
    simp only [List.length_append]; omega
  rw [hlen]
  have hg : getOp 0 ((b' ++ rest).length + 1) (b' ++ rest) (evalState { s with lineNum := l, session := q } p') =
      .ok (.done rest) { s with lineNum := l, session := q, parseDepth := p' - 1, fwdRef := false } := by
    rw [getOp, hrest.skipWs hb']
    simp only [hrest.isEnd, if_true]
    rfl
  rw [M.bind_ok (a := some (rest, v)) (s' := { s with lineNum := l, session := q, parseDepth := p' - 1, fwdRef := false })]
  · rfl
  · rw [hloop]
    unfold afterOperand
    rw [M.bind_ok hg]
    rfl

/-- C56: an expression with function calls has the value that the specification gives it: that of the text of each function
with the values of the arguments for its parameters, combined with the other operands from left to right. Nothing else in the
state changes, except the counter of nested evaluations, which each evaluation sets anew. -/
theorem C56_value (s : S) (depth n : Nat) (b t b' rest : Str) (v : Int) (h : WithCalls s depth t v) (hs : Settled s)
    (hD : depth ≤ 18) (hn : depth + 2 < n) (hb : Blanks b) (hb' : Blanks b') (hrest : AtEnd rest) :
    ∃ p, parseNum (knot n) (b ++ t ++ b' ++ rest) s = .ok (some v) { s with parseDepth := p, fwdRef := false } :=
  calls_value s depth n b t b' rest v h hs hD hn hb hb' hrest s.lineNum s.session (Int.le_refl _)

/-- A call means the same in a state with the same names. -/
theorem Call_move {s s' : S} (hpc : s'.pc = s.pc) (ht : visibleText s' = visibleText s) (hk : nameKey s' = nameKey s)
    (hA : argumentOf s' = argumentOf s) (hL : labelOf s' = labelOf s) (hD : defineOf s' = defineOf s) {D : Nat} {t : Str} {v : Int}
    (h : Call s D t v) : Call s' D t v := by
  have hl : visibleLabel s' = visibleLabel s := by funext w; unfold visibleLabel; rw [hA, hL]
  have hM : ∀ w, Maintained s' w ↔ Maintained s w := by intro w; unfold Maintained; rw [hk]
  have hP : ∀ ps w, IsParam s' ps w ↔ IsParam s ps w := by intro ps w; unfold IsParam; rw [hk]
  have ho : ∀ ps, outerText s' ps = outerText s ps := by intro ps; funext w; unfold outerText; simp only [hP, ht]
  have ho' : ∀ ps, outerLabel s' ps = outerLabel s ps := by intro ps; funext w; unfold outerLabel; simp only [hP, hl]
  have hb : ∀ ps vs, bodyLabel s' ps vs = bodyLabel s ps vs := by intro ps vs; funext w; unfold bodyLabel; simp only [hP, hl, hk]
  cases h with
  | call name df args t vs b e b' d v hname hcont hb1 hb2 hp hj hvs hden hd =>
    refine .call name df args t vs b e b' d v ⟨hname.proper, by rw [hD]; exact hname.defined, by rw [hA]; exact hname.noArgument,
      by rw [hL]; exact hname.noLabel, fun h => hname.fixed ((hM _).1 h), hname.notBuiltIn⟩ hcont hb1 hb2
      ⟨by rw [hk]; exact hp.different, hp.plain, fun p hp' h => hp.fixed p hp' ((hM _).1 h)⟩ hj (hvs.imp_all ?_) ?_ hd
    · intro done a v hv
      cases v with
      | none =>
        obtain ⟨h1, h2, h3, h4, h5⟩ := hv
        exact ⟨h1, fun h => h2 ((hP _ _).1 h), by rw [hA]; exact h3, by rw [hL]; exact h4, by rw [hD]; exact h5⟩
      | some v =>
        obtain ⟨d, h1, h2, h3⟩ := hv
        exact ⟨d, h1, by rw [ho, ho', hpc]; exact h2, h3⟩
    · rw [ho, hb, hpc]; exact hden

theorem WithCalls_move {s s' : S} (hpc : s'.pc = s.pc) (ht : visibleText s' = visibleText s) (hk : nameKey s' = nameKey s)
    (hA : argumentOf s' = argumentOf s) (hL : labelOf s' = labelOf s) (hD : defineOf s' = defineOf s) {D : Nat} {t : Str} {v : Int}
    (h : WithCalls s D t v) : WithCalls s' D t v := by
  have hl : visibleLabel s' = visibleLabel s := by funext w; unfold visibleLabel; rw [hA, hL]
  have hc : ∀ {D t v}, Call s D t v → Call s' D t v := fun h => Call_move hpc ht hk hA hL hD h
  exact WithCalls.rec (motive_1 := fun D t v _ => Term s' D t v) (motive_2 := fun D t v _ => WithCalls s' D t v)
    (fun D d t v h hd => .plain D d t v (by rw [hpc, hl, ht]; exact h) hd) (fun D t v h => .call D t v (hc h))
    (fun D b t v hb h => .plus D b t v hb (hc h)) (fun D b t v hb h hv => .minus D b t v hb (hc h) hv)
    (fun D b t v hb h => .invert D b t v hb (hc h))
    (fun D t b e b' v h1 h2 h3 h4 _ ih => .named D t b e b' v h1 (by rw [ht]; exact h2) h3 h4 ih)
    (fun D t v _ ih => .one D t v ih)
    (fun D t₁ v₁ b op optext b' t₂ v₂ v _ hb hb' hop hne _ hbin ih ih₂ => .join D t₁ v₁ b op optext b' t₂ v₂ v ih hb hb' hop hne ih₂ hbin) h

/-! ### A function with two parameters -/

/-- A state in which `z` is 3 and `f(x,y)` is `x*2+y+z`. -/
def withFunction : S :=
  { (asm (b! "z = 3\n#define f(x,y) x*2+y+z\n") [b! "a.asm"]).state with
    session := 1, errors := [], pc := 0x9D95, argSets := [], errOccurred := false }

theorem withFunction_call : Call withFunction 2 (b! "f(z+1,1)") 12 := by
  have h : (defineOf withFunction (b! "f")).map (fun d => (d.contents, d.args)) = some (some (b! " x*2+y+z"), [b! "x", b! "y"]) := by decide +kernel
  obtain ⟨df, h1, h2⟩ := Option.map_eq_some_iff.1 h
  obtain ⟨h2, h3⟩ := Prod.mk.inj h2
  refine .call (b! "f") df [b! "z+1", b! "1"] (b! "z+1,1") [4, 1] [32] (b! "x*2+y+z") [] 0 12
    ⟨⟨⟨102, [], rfl, by omega, by simp⟩, by decide⟩, h1, by decide +kernel, by decide +kernel, by decide +kernel, by decide⟩ h2
    (by intro c hc; simp at hc; subst hc; exact .inl rfl) spec_nb ?_ ?_
    ?_ ?_ (by omega)
  · rw [h3]
    exact ⟨by decide +kernel, by decide, by decide +kernel⟩
  · exact spec_two (b! "z+1") (b! "1") (spec_argument _ (by decide) (by decide)) (spec_argument _ (by decide) (by decide)) (by decide)
  · rw [h3]
    refine .cons _ _ _ _ _ _ _ ⟨0, by omega, ?_, by omega, by omega⟩ (.cons _ _ _ _ _ _ _ ⟨0, by omega, ?_, by omega, by omega⟩ (.nil _))
    · exact .join 0 (b! "z") 3 [] .add [43] [] 0 [49] 1 4 (.one _ _ _ (.plain _ _ _ (spec_label 122 3 (by omega) (by decide +kernel)))) spec_nb spec_nb
        (by decide) (by simp) (.plain _ _ _ (spec_digit 49 (by omega))) (by decide)
    · exact .one _ _ _ (.plain _ _ _ (spec_digit 49 (by omega)))
  · rw [h3]
    have hx : bodyLabel withFunction [b! "x", b! "y"] [some 4, some 1] (b! "x") = some 4 := by decide +kernel
    have hy : bodyLabel withFunction [b! "x", b! "y"] [some 4, some 1] (b! "y") = some 1 := by decide +kernel
    have hz : bodyLabel withFunction [b! "x", b! "y"] [some 4, some 1] (b! "z") = some 3 := by decide +kernel
    exact .join 0 (b! "x*2+y") 9 [] .add [43] [] 0 (b! "z") 3 12
      (.join 0 (b! "x*2") 8 [] .add [43] [] 0 (b! "y") 1 9
        (.join 0 (b! "x") 4 [] .mul [42] [] 0 (b! "2") 2 8 (.one _ _ _ (.plain _ _ _ (spec_label 120 4 (by omega) hx))) spec_nb spec_nb
          (by decide) (by simp) (.plain _ _ _ (spec_digit 50 (by omega))) (by decide)) spec_nb spec_nb
        (by decide) (by simp) (.plain _ _ _ (spec_label 121 1 (by omega) hy)) (by decide)) spec_nb spec_nb
      (by decide) (by simp) (.plain _ _ _ (spec_label 122 3 (by omega) hz)) (by decide)

example : ∃ p, parseNum (knot 5) (b! " 5-f(z+1,1)*-f(z+1,1) ; comment") withFunction =
    .ok (some 84) { withFunction with parseDepth := p, fwdRef := false } :=
  C56_value withFunction 2 5 [32] (b! "5-f(z+1,1)*-f(z+1,1)") [32] (b! "; comment") 84
    (.join _ (b! "5-f(z+1,1)") (-7) [] .mul [42] [] (b! "-f(z+1,1)") (-12) 84
      (.join _ (b! "5") 5 [] .sub [45] [] (b! "f(z+1,1)") 12 (-7)
        (.one _ _ _ (.plain _ 0 _ _ (.plain _ _ _ (spec_digit 53 (by omega))) (by omega))) spec_nb spec_nb (by decide) (by simp)
        (.call _ _ _ withFunction_call) (by decide)) spec_nb spec_nb (by decide) (by simp)
      (.minus _ [] _ 12 spec_nb withFunction_call (by decide)) (by decide))
    (by decide +kernel) (by omega) (by omega) (by intro c hc; simp at hc; subst hc; exact .inl rfl)
    (by intro c hc; simp at hc; subst hc; exact .inl rfl) (.inr ⟨59, _, rfl, by simp⟩)

/-- The same in a whole program, with calls inside arguments and inside the text of another function. -/
example : (asm (b! "#define f(x,y) x*2+y\n#define g(x) f(x,1)\n .db f(3,1)+1,f(2,2)*2, -f(1,f(1,1)),g(4)\n") [b! "a.asm"]).state.log =
    [.wrote (b! "a.bin") [8, 12, 251, 9]] := by decide +kernel

/-! ### Where function calls do something else -/

/-- C56 is violated by functions named `eval`: the built-in one is taken. -/
theorem C56_built_in_name :
    (asm (b! "#define eval(x) 7\n .db eval(3)\n") [b! "a.asm"]).state.log = [.wrote (b! "a.bin") [3]] ∧
    (asm (b! "#define eval1(x) 7\n .db eval1(3)\n") [b! "a.asm"]).state.log = [.wrote (b! "a.bin") [7]] := by
  decide +kernel

/-- C56 is violated when an argument has the same name as an earlier parameter: `f(1,x)` with a symbol `x` sees the
parameter. -/
theorem C56_arguments_see_parameters :
    (asm (b! "x = 7\n#define f(x,y) x*16+y\n .db f(1,x)\n") [b! "a.asm"]).state.log = [.wrote (b! "a.bin") [17]] ∧
    (asm (b! "x = 7\n#define f(z,y) z*16+y\n .db f(1,x)\n") [b! "a.asm"]).state.log = [.wrote (b! "a.bin") [23]] := by
  decide +kernel

/-! ### C06: recursion that is not detected -/

/-- The evaluation of `f(1)`, where `f` is a text with one parameter and the contents ` f(1)`, uses up every recursion budget. -/
theorem calls_itself (n : Nat) : ∀ (s : S) (df : Define), FunctionName s (b! "f") df → df.contents = some (b! " f(1)") →
    Parameters s df.args → ¬ IsParam s df.args (b! "f") → df.args.length = 1 → Settled s →
    ∃ s', (knot n).numFull (b! "f(1)") 0 (evalState s 0) = .stop .fuel s' := by
  induction n with
  | zero => intro s df _ _ _ _ _ _; exact ⟨_, rfl⟩
  | succ n ih =>
    intro s df hname hcont hp hnp hlen hs
    have hname' : FunctionName (evalState s 1) (b! "f") df :=
      ⟨hname.proper, hname.defined, hname.noArgument, hname.noLabel, hname.fixed, hname.notBuiltIn⟩
    have start : (knot (n + 1)).numFull (b! "f(1)") 0 (evalState s 0) = numLoop (knot n) 0 5 0 none (b! "f(1)") (evalState s 1) := rfl
    have key : ∃ s', operandM (knot n) 0 (b! "f(1)") (evalState s 1) = .stop .fuel s' := by
      rw [show b! "f(1)" = b! "f" ++ 40 :: [49, 41] from rfl, function_reach _ _ _ _ df _ hname']
      unfold parseMacro
      cases n with
      | zero =>
        obtain ⟨p, hdf⟩ := List.length_eq_one_iff.1 hlen
        have hp64 : hd p ≠ 64 := by
          have := hp.plain p (by rw [hdf]; simp)
          cases p with
          | nil => simp
          | cons c p => simpa using this
        have hx : ∀ st : S, extractArg true [49, 41] st = .ok (some [49], false, [41]) st := fun _ => rfl
        have ha : addArgSet (evalState s 1) = .ok () (calling (evalState s 1) s.session [] 1 false) := rfl
        have hev : ∃ s', evalStr (knot 0) [49] (calling (evalState s 1) s.session [] 1 false) = .stop .fuel s' := ⟨_, rfl⟩
        obtain ⟨s', hev⟩ := hev
        refine ⟨s', M.bind_stop ?_⟩
        unfold parseArgs
        rw [if_neg (by simp), M.bind_ok ha]
        refine M.bind_stop ?_
        rw [hdf]
        show argLoop (knot 0) 4 true [p] [49, 41] _ = _
        rw [argLoop, M.bind_ok (hx _)]
        dsimp only
        rw [if_neg (by simpa using hp64)]
        exact M.bind_stop hev
      | succ n =>
        obtain ⟨set, pd, fw, hpa, h0, hbind⟩ := parseArgs_binds (n + 1) (evalState s 1) df [[49]] [49] [some 1] []
          ⟨hp.different, hp.plain, hp.fixed⟩ (.one [] [49] [] spec_nb spec_nb (spec_argument _ (by decide) (by decide)) (by decide)) hs
          (by
            obtain ⟨p, hdf⟩ := List.length_eq_one_iff.1 hlen
            rw [hdf]
            exact .cons _ _ _ _ _ _ _ ⟨0, by omega, .one _ _ _ (.plain _ _ _ (spec_digit 49 (by omega))), by omega, by omega⟩ (.nil _)) (by omega) s.session (by show s.session ≤ s.session; omega)
        obtain ⟨rfl, rfl⟩ := h0 (by simp)
        let s2 : S := { s with argSets := set :: s.argSets, lineNum := df.line, session := s.session + 1 }
        have hname2 : FunctionName s2 (b! "f") df := by
          refine ⟨hname.proper, hname.defined, ?_, hname.noLabel, hname.fixed, hname.notBuiltIn⟩
          have ho := hbind.others (b! "f") hnp
          rw [← lookup_eq] at ho
          rw [argumentOf_push s s2 set _ rfl rfl]
          have ho' : set.lookup (nameKey s (b! "f")) = none := ho
          rw [ho']
          exact hname.noArgument
        obtain ⟨s', hrec⟩ := ih s2 df hname2 hcont ⟨hp.different, hp.plain, hp.fixed⟩ hnp hlen ⟨hs.1, fun e he => by have := hs.2 e he; show e.sess ≤ s.session + 1; omega⟩
        refine ⟨s', ?_⟩
        have hpa' : parseArgs (knot (n + 1)) (40 :: [49, 41]) df (evalState s 1) = .ok ([], true) (calling (evalState s 1) s.session set 0 false) := hpa
        rw [M.bind_ok hpa']
        dsimp only
        simp only [M.get_bind, M.modify_bind]
        have hst1 : startSession { calling (evalState s 1) s.session set 0 false with lineNum := df.line } = .ok (s.session + 1) (evalState s2 0) := rfl
        rw [M.bind_ok hst1]
        have hdef : parseDefine (knot (n + 1)) df (evalState s2 0) = .ok (some (b! "f(1)")) (evalState s2 0) := by
          unfold parseDefine
          rw [hcont]
          show parseDefineLoop _ 6 _ _ = _
          rw [parseDefineLoop]
          simp only [M.get_bind]
          rw [if_neg (by simp [evalState, s2, hs.1])]
          rfl
        rw [M.bind_ok hdef]
        exact M.bind_stop hrec
    obtain ⟨s', key⟩ := key
    refine ⟨s', ?_⟩
    rw [start, numLoop]
    exact M.bind_stop key

/-- C06 is violated: the limit for nested evaluations does not stop a function that calls itself. With `#define f(x) f(1)`
the evaluation of `f(1)` uses up every recursion budget, so the program recurses until its stack is exhausted. -/
theorem C06_fails_function_recursion (n : Nat) (s : S) (df : Define) (hname : FunctionName s (b! "f") df)
    (hcont : df.contents = some (b! " f(1)")) (hp : Parameters s df.args) (hnp : ¬ IsParam s df.args (b! "f")) (hlen : df.args.length = 1)
    (hs : Settled s) : ∃ s', parseNum (knot n) (b! "f(1)") s = .stop .fuel s' := by
  cases n with
  | zero => exact ⟨_, rfl⟩
  | succ n =>
    obtain ⟨s', h⟩ := calls_itself (n + 1) s df hname hcont hp hnp hlen hs
    have e : (knot (n + 1)).numFull (b! "f(1)") 0 { s with parseDepth := 0 } = .stop .fuel s' := h
    refine ⟨s', ?_⟩
    unfold parseNum
    rw [M.modify_bind]
    exact M.bind_stop e

/-- The program `#define f(x) f(1)` defines such a function. -/
example (n : Nat) : ∃ s', parseNum (knot n) (b! "f(1)") { (asm (b! "#define f(x) f(1)\n") [b! "a.asm"]).state with session := 1, errors := [] } = .stop .fuel s' := by
  generalize hs : { (asm (b! "#define f(x) f(1)\n") [b! "a.asm"]).state with session := 1, errors := [] } = s
  have h : (defineOf s (b! "f")).map (fun d => (d.contents, d.args)) = some (some (b! " f(1)"), [b! "x"]) := by rw [← hs]; decide +kernel
  obtain ⟨df, h1, h2⟩ := Option.map_eq_some_iff.1 h
  obtain ⟨h2, h3⟩ := Prod.mk.inj h2
  exact C06_fails_function_recursion n s df ⟨⟨⟨102, [], rfl, by omega, by simp⟩, by decide⟩, h1, by rw [← hs]; decide +kernel,
    by rw [← hs]; decide +kernel, by rw [← hs]; decide +kernel, by decide⟩ h2 (by rw [h3, ← hs]; exact ⟨by decide +kernel, by decide, by decide +kernel⟩)
    (by rw [h3, ← hs]; decide +kernel) (by rw [h3]; rfl) (by rw [← hs]; decide +kernel)

end Spasm.Props
