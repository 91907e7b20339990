import Verif.Props.Data
import Verif.Spec.Named

/-
Names that stand for operands of data directives.
-/

namespace Spasm
open Spec Props

/-- A name with a text: what the program finds under it. -/
theorem named_define (st : S) (t text : Str) (hname : Name t) (htext : visibleText st t = some text) :
    ∃ df : Define, df.args = [] ∧ df.contents = some text ∧
      (∀ n rest, Follows rest → parseSingle (knot n) (t ++ rest) st = parseMacro (knot n) df rest st) ∧
      ∃ r, searchDefines t true st = .ok (some (r, df)) st := by
  have htxt : Settled st ∧ ¬ Maintained st t ∧ nameText st t = some text := by
    unfold visibleText at htext
    split at htext
    · rename_i hc; exact ⟨hc.1, hc.2, htext⟩
    · simp at htext
  obtain ⟨-, hmaint, htext'⟩ := htxt
  obtain ⟨⟨c, r, rfl, hc, hx⟩, hne⟩ := hname
  have hal : ∀ x ∈ c :: r, NameChar x := by
    intro x hx'
    rcases List.mem_cons.1 hx' with rfl | hx'
    · unfold NameChar Alnum; omega
    · exact hx x hx'
  have reach : ∀ n rest, parseSingle (knot n) (c :: r ++ rest) st = parseName (knot n) (c :: r ++ rest) st := by
    intro n rest
    unfold parseSingle
    simp only [List.cons_append, hd_cons]
    rw [if_neg, if_neg, if_neg, if_neg, if_neg, if_pos]
    · unfold isAlpha isUpper isLower; simp; omega
    all_goals simp; omega
  have hne' : (c :: r == [95]) = false := by simpa using hne
  have hloc : searchLocal (c :: r) st = argumentOf st (c :: r) := searchLocal_eq _ _
  have hlab : (searchLabels (c :: r) st).map Label.value = labelOf st (c :: r) := searchLabels_eq _ _
  have hsd := searchDefines_calm (c :: r) st (by rw [keyOf_eq]; exact refreshed_none st (c :: r) hmaint)
  have fin : ∀ df : Define, (findDefine (keyOf st (c :: r)) st).map (·.2) = some df → ∃ r0, searchDefines (c :: r) true st = .ok (some (r0, df)) st := by
    intro df h
    cases hf : findDefine (keyOf st (c :: r)) st with
    | none => rw [hf] at h; simp at h
    | some p =>
      obtain ⟨r0, d0⟩ := p
      rw [hf] at h
      simp at h
      subst h
      exact ⟨r0, by rw [hsd, hf]⟩
  unfold nameText at htext'
  cases ha : argumentOf st (c :: r) with
  | some df =>
    rw [ha] at htext'
    unfold Define.text at htext'
    simp only at htext'
    split at htext'
    · rename_i hargs
      refine ⟨df, hargs, htext', ?_, fin df ?_⟩
      · intro n rest hf
        have htw := takeName_append (c :: r) rest hal hf
        have h40 : (Spasm.hd rest == 40) = false := by simpa using hf.not40
        rw [reach]
        unfold parseName
        rw [htw.1, htw.2]
        simp [M.get_bind, hloc, ha, hne', h40]
      · rw [keyOf_eq, findDefine_eq, ha]
    · simp at htext'
  | none =>
    rw [ha] at htext'
    simp only at htext'
    split at htext'
    · rename_i hl
      rw [hl] at hlab
      have hlab' : searchLabels (c :: r) st = none := Option.map_eq_none_iff.1 hlab
      cases hdf : defineOf st (c :: r) with
      | none => rw [hdf] at htext'; simp at htext'
      | some df =>
        rw [hdf] at htext'
        unfold Define.text at htext'
        simp only [Option.bind_some] at htext'
        split at htext'
        · rename_i hargs
          have hfd : (findDefine (keyOf st (c :: r)) st).map (·.2) = some df := by
            rw [keyOf_eq, findDefine_eq, ha, hdf]
          refine ⟨df, hargs, htext', ?_, fin df hfd⟩
          intro n rest hf
          have htw := takeName_append (c :: r) rest hal hf
          have h40 : (Spasm.hd rest == 40) = false := by simpa using hf.not40
          rw [reach]
          unfold parseName
          rw [htw.1, htw.2]
          simp only [M.get_bind, hloc, ha, Option.isSome_none, Bool.false_eq_true, if_false, hlab']
          rw [M.bind_ok hsd]
          simp only [M.pure_bind, hne', hfd, h40, Bool.and_false, Bool.false_eq_true, if_false]
        · simp at htext'
    · simp at htext'

/-- A balanced text remains so without delimiters. -/
theorem balanced_free {d : Str} {i : Bool} {u : Str} (h : Balanced d i u) : Balanced [] i u := by
  induction h with
  | nil => exact .nil _
  | char i c t h1 _ _ ih => exact .char _ c t h1 (fun _ => by simp) ih
  | quoted i c t h1 _ ih => exact .quoted _ c t h1 ih
  | escaped i c t _ ih => exact .escaped _ c t ih
  | string i b t h1 _ ih => exact .string _ b t h1 ih
  | paren i u t _ _ ih1 ih2 => exact .paren _ u t ih1 ih2

theorem balanced_joined {args : List Str} {t : Str} (h : Joined args t) : Balanced [] false t := by
  have bl : ∀ {b : Str}, Blanks b → Balanced [] false b := fun hb => balanced_tokens (fun c hc => by simp at hc) false _ (token_blank hb)
  induction h with
  | one b a b' hb hb' ha _ => exact balanced_append (balanced_append (bl hb) (balanced_free ha.balanced)) (bl hb')
  | more b a b' as t hb hb' ha _ _ ih =>
    exact balanced_append (balanced_append (balanced_append (balanced_append (bl hb) (balanced_free ha.balanced)) (bl hb'))
      (.char _ _ _ (by decide) (by simp) (.nil _))) ih

/-- A balanced text is one code line. -/
theorem codeLine_balanced {t : Str} (h : Balanced [] false t) (hst : ∃ c r, t = c :: r ∧ isBlank c = false) :
    codeLine t = (t, []) := by
  obtain ⟨c, r, hc, hs⟩ := hst
  obtain ⟨c', r', hc', h41, h92, h10, h13, h59⟩ := balanced_start h (by rw [hc]; simp)
  have : c' = c := by rw [hc] at hc'; cases hc'; rfl
  subst this
  have hne : nextExpr [92, 59, 13, 10] t = [] := by
    unfold nextExpr
    have hsk : skipWs t = t := by rw [hc]; exact skipWs_cons c' _ hs
    simp only [hsk]
    rw [if_neg]
    · have := next_balanced [92, 59, 13, 10] (by intro c hc; simpa using hc) h (3 * t.length + 3) [] [] 0 (by omega)
      rw [List.append_nil] at this
      rw [show ({ con := [], rest := t } : Scan) = ⟨[], t, false, false, 0, 0⟩ from rfl, this]
      obtain ⟨f, hf⟩ : ∃ f, 3 * t.length + 3 - t.length = f + 1 := ⟨2 * t.length + 2, by omega⟩
      rw [hf, next_stop _ f _ [] 0 (.inl rfl)]
    · rw [hc]
      simp [isEnd]
      omega
  unfold codeLine nextCodeLine
  rw [hne]
  rfl

theorem listed_start {ez : Bool} {label : Str → Option Int} {text : Str → Option Str} {depth n nest pc : Nat} {args : List Str} {bs ws : List Nat}
    (h : Listed ez label text depth n nest pc args bs ws) : ∀ a as, args = a :: as →
      ∃ c r, a = c :: r ∧ isBlank c = false ∧ c ≠ 35 ∧ isEnd a = false := by
  intro a as ha
  have starter : ∀ (c : Nat) (r : Str), Starter' c → isBlank c = false ∧ c ≠ 35 ∧ isEnd (c :: r) = false := by
    intro c r hs
    have h1 := Starter.nonblank hs
    unfold Starter' Starter Alnum at hs
    exact ⟨h1, by omega, by simp [isEnd]; omega⟩
  cases h with
  | nil => cases ha
  | number _ _ d t v args bs ws hden _ _ =>
    cases ha
    obtain ⟨c, r, hc, hs⟩ := Denotes_start hden
    exact ⟨c, r, hc, (starter c r hs).1, (starter c r hs).2.1, by rw [hc]; exact (starter c r hs).2.2⟩
  | string _ _ body cs args bs ws hch _ =>
    cases ha
    exact ⟨34, _, rfl, by decide, by decide, rfl⟩
  | named _ _ t written inner bs' ws' args bs ws hname _ _ _ _ _ =>
    cases ha
    obtain ⟨⟨c, r, hc, h1, -⟩, -⟩ := hname
    have hs : Starter' c := by unfold Starter' Starter Alnum; omega
    exact ⟨c, r, hc, (starter c r hs).1, (starter c r hs).2.1, by rw [hc]; exact (starter c r hs).2.2⟩

/-- A joined list is its first operand and something behind it. -/
theorem joined_first {a : Str} {as : List Str} {t : Str} (h : Joined (a :: as) t) :
    ∃ b b' u, t = b ++ (a ++ (b' ++ u)) ∧ Blanks b ∧ Blanks b' ∧ ((as = [] ∧ u = []) ∨ ∃ v, as ≠ [] ∧ u = 44 :: v) := by
  cases h with
  | one b a b' hb hb' ha hl => exact ⟨b, b', [], by simp, hb, hb', .inl ⟨rfl, rfl⟩⟩
  | more b a b' as t hb hb' ha hl hj => exact ⟨b, b', 44 :: t, by simp, hb, hb', .inr ⟨t, by cases hj <;> simp, rfl⟩⟩

theorem parseDefine_joined {inner : List Str} {written : Str} (hj : Joined inner written) {ez : Bool} {label : Str → Option Int} {text : Str → Option Str}
    {depth n nest pc : Nat} {bs ws : List Nat} (h : Listed ez label text depth n nest pc inner bs ws) :
    ∃ w, Joined inner w ∧ skipWs w = w ∧ ∀ (k : Rec) (df : Define) (s : S), df.contents = some written → s.errOccurred = false →
      parseDefine k df s = .ok (some w) s := by
  obtain ⟨w, hw, hsk⟩ := joined_skip hj
  have hs0 := hsk []
  rw [List.append_nil, List.append_nil] at hs0
  cases hi : inner with
  | nil => rw [hi] at hj; cases hj
  | cons a as =>
    rw [hi] at hw
    have hw' := hw
    obtain ⟨c, r, hc, hb, h35, hend⟩ := listed_start h a as hi
    obtain ⟨b, b', u, hwt, hbb, -⟩ := joined_first hw
    have hww : skipWs w = w := by rw [← hs0]; exact skipWs_idem _
    obtain ⟨x, y, hwx, hx, hx35, hxe⟩ : ∃ x y, w = x :: y ∧ isBlank x = false ∧ x ≠ 35 ∧ isEnd w = false := by
      have : skipWs w = a ++ (b' ++ u) := by
        rw [hwt, skipWs_blanks b _ hbb, hc]; exact skipWs_cons c _ hb
      rw [hww] at this
      rw [this, hc]
      refine ⟨c, _, rfl, hb, h35, ?_⟩
      rw [hc] at hend
      exact hend
    refine ⟨w, hw, hww, ?_⟩
    intro k df s hcont herr
    unfold parseDefine
    rw [hcont]
    show parseDefineLoop k (written.length + 1) written s = _
    rw [parseDefineLoop]
    simp only [M.get_bind]
    rw [if_neg, hs0]
    · have e1 : (hd w == 35) = false := by rw [hwx]; simpa using hx35
      simp only [e1, hxe, Bool.not_false, if_true, Bool.false_eq_true, if_false]
      rw [codeLine_balanced (balanced_joined hw) ⟨x, y, hwx, hx⟩]
      rfl
    · intro hcontra
      simp only [herr, Bool.or_false] at hcontra
      have : written = [] := by simpa using hcontra
      rw [this] at hs0
      rw [← hs0] at hwx
      cases hwx

/-- A text is no number: its evaluation fails with one problem on record. -/
def NoNumber (k : Nat) (w : Str) (s : S) (p : Int) : Prop :=
  ∃ e p', e.sess = s.session ∧ isFatal e.code = true ∧ e.code ≠ 0 ∧ e.code ≠ E.EXCEEDED_RECURSION_LIMIT ∧
    (knot k).numFull w 0 (evalState s p) = .ok none { evalState s p' with errors := e :: s.errors }

theorem numFull_enter (w : Str) (s : S) (k : Nat) (p : Int) (hne : w ≠ []) (hsk : skipWs w = w) (hp : p < 20) :
    (knot (k + 1)).numFull w 0 (evalState s p) = numLoop (knot k) 0 (w.length + 1) 0 none w (evalState s (p + 1)) := by
  show numFullBody (knot k) w 0 (evalState s p) = _
  unfold numFullBody
  simp only [M.modify_bind, M.get_bind]
  have hp1 : ¬ (evalState s p).parseDepth + 1 > 20 := by show ¬ (p + 1 > 20); omega
  rw [if_neg hp1, hsk, if_neg (by simpa using hne)]
  rfl

/-- A name whose text is no number. -/
theorem noNumber_name (t u written w' : Str) (s : S) (k : Nat) (p : Int) (hname : Name t) (htext : visibleText s t = some written)
    (hf : Follows u) (hs : InSession s) (hp : p < 20)
    (hpd : ∀ (k : Rec) (df : Define) (s : S), df.contents = some written → s.errOccurred = false → parseDefine k df s = .ok (some w') s)
    (hin : ∀ l, NoNumber k w' { s with lineNum := l, session := s.session + 1 } (p + 1)) : NoNumber (k + 1) (t ++ u) s p := by
  have herr : s.errOccurred = false := by
    unfold visibleText at htext
    split at htext
    · rename_i hc; exact hc.1.1
    · simp at htext
  obtain ⟨⟨c, r, hc, hc1, -⟩, -⟩ := id hname
  have hst : Starter' c := by unfold Starter' Starter Alnum; omega
  have hsk : skipWs (t ++ u) = t ++ u := by rw [hc]; exact skipWs_cons c _ (Starter.nonblank hst)
  have hvis : visibleText (evalState s (p + 1)) t = some written := htext
  obtain ⟨df, hargs, hcont, hps, -⟩ := named_define _ t written hname hvis
  obtain ⟨e, p', he1, he2, he3, he4, he5⟩ := hin df.line
  refine ⟨{ e with sess := s.session }, p', rfl, he2, he3, he4, ?_⟩
  rw [numFull_enter (t ++ u) s k p (by rw [hc]; simp) hsk hp, numLoop]
  have hun : unary (t ++ u) = (false, false, t ++ u) := by
    rw [hc]
    unfold unary
    simp only [List.cons_append, hd_cons]
    rw [if_neg (by simp; omega), if_neg (by simp; omega)]
  have h40 : (hd (t ++ u) == 40) = false := by rw [hc]; simp; omega
  rw [hun]
  simp only [h40, Bool.false_eq_true, if_false]
  have main : parseSingle (knot k) (t ++ u) (evalState s (p + 1)) =
      .ok none { evalState s p' with errors := { e with sess := s.session } :: s.errors } := by
    rw [hps k _ hf]
    unfold parseMacro
    have hpa : parseArgs (knot k) u df (evalState s (p + 1)) = .ok (u, false) (evalState s (p + 1)) := by
      unfold parseArgs
      rw [if_pos (by rw [hargs]; simpa using hf.not40)]
      rfl
    rw [M.bind_ok hpa]
    dsimp only
    simp only [M.get_bind, M.modify_bind]
    have hss : startSession { evalState s (p + 1) with lineNum := df.line } =
        .ok (s.session + 1) (evalState { s with lineNum := df.line, session := s.session + 1 } (p + 1)) := rfl
    rw [M.bind_ok hss, M.bind_ok (hpd (knot k) df (evalState { s with lineNum := df.line, session := s.session + 1 } (p + 1)) hcont herr)]
    dsimp only
    rw [M.bind_ok he5]
    simp only [M.modify_bind, M.get_bind]
    have he1' : e.sess = s.session + 1 := he1
    have hlow : lowerPrefix (s.session + 1) s.errors = s.errors := by
      cases hE : s.errors with
      | nil => rfl
      | cons x xs =>
        have := hs.2 x (by rw [hE]; simp)
        unfold lowerPrefix
        rw [if_neg (by simp; omega)]
    have hcount : ∀ x : S, x.errors = e :: s.errors → sessionCount (s.session + 1) x > 0 := by
      intro x hx
      unfold sessionCount sessPrefix
      rw [hx, List.takeWhile_cons_of_pos (by simp [he1']), List.filter_cons_of_pos (by simpa using he3)]
      simp
    rw [show ∀ n : Nat, (decide (n > 0)) = decide (n > 0) from fun _ => rfl, decide_eq_true (hcount _ rfl), M.when_true]
    have hrep : (do annotate (s.session + 1); replaySession (s.session + 1) : M Unit)
        { evalState { s with lineNum := df.line, session := s.session + 1 } p' with errors := e :: s.errors, lineNum := (evalState s (p + 1)).lineNum } =
        .ok () { evalState { s with session := s.session + 1 } p' with errors := { e with sess := s.session } :: s.errors } := by
      unfold annotate
      rw [M.pure_bind]
      unfold replaySession
      have h1 := hs.1
      rw [if_neg (by omega)]
      congr 1
      unfold lowerPrefix
      simp only [he1', beq_self_eq_true, if_true, hlow, Int.add_sub_cancel]
      rfl
    rw [M.bind_ok hrep]
    have hend : endSession (s.session + 1) { evalState { s with session := s.session + 1 } p' with errors := { e with sess := s.session } :: s.errors } =
        .ok () { evalState s p' with errors := { e with sess := s.session } :: s.errors } := by
      unfold endSession
      have h1 := hs.1
      have : (decide (s.session + 1 = 1)) = false := by simp; omega
      simp only [this, Bool.false_and, Bool.false_eq_true, if_false]
      congr 1
      rw [List.dropWhile_cons_of_neg (by simp)]
      unfold evalState
      simp
    rw [M.bind_ok hend, M.bind_ok (show removeArgSet false _ = .ok () _ from rfl), if_pos (hcount _ rfl)]
    rfl
  rw [M.bind_ok main]
  rfl


/-- The text of a list of operands is no number. -/
theorem numFull_listed {ez : Bool} {label : Str → Option Int} {text : Str → Option Str} {depth n nest pc : Nat} {args : List Str} {bs ws : List Nat}
    (h : Listed ez label text depth n nest pc args bs ws) : ∀ (w : Str) (s : S) (k : Nat) (p : Int), Joined args w → skipWs w = w →
      (∀ a d v, args = [a] → ¬ Denotes (asInt32 pc) label text d a v) → visibleLabel s = label → (∀ x e, text x = some e → visibleText s x = some e) →
      toI32 s.pc = asInt32 pc → InSession s → s.errOccurred = false → nest + depth < k → 0 ≤ p → p + nest + depth < 20 →
      NoNumber k w s p := by
  induction h with
  | nil => intro w s k p hj; cases hj
  | number nest pc d t v args bs ws hden hdep _ _ =>
    intro w s k p hj hsk hnot hl htx hpc hs herr hk hp0 hp
    obtain ⟨k, rfl⟩ : ∃ m, k = m + 1 := ⟨k - 1, by omega⟩
    obtain ⟨b, b', u, hw, hb, hb', hu⟩ := joined_first hj
    have hden' : Denotes (toI32 s.pc) (visibleLabel s) (visibleText s) d t v := by
      rw [hl, hpc]; exact Denotes_mono (fun _ _ h => h) htx hden
    obtain ⟨c, r, hc, hst⟩ := Denotes_start hden
    have hwt : w = t ++ (b' ++ u) := by
      rw [← hsk, hw, skipWs_blanks b _ hb, hc]; exact skipWs_cons c _ (Starter.nonblank hst)
    rcases hu with ⟨rfl, -⟩ | ⟨u, -, rfl⟩
    · exact absurd hden (hnot t d v rfl)
    · have hf : Follows (b' ++ 44 :: u) := by
        intro x hx
        cases b' with
        | nil => simp at hx; subst hx; unfold NameChar Alnum; omega
        | cons y b' =>
          simp at hx; subst hx
          have := hb' y (by simp)
          unfold NameChar Alnum; omega
      obtain ⟨m, hm, hloop⟩ := eval_denotes s hden' s (Inner.refl s) k 0 (p + 1) (b' ++ 44 :: u) (by omega) (by omega) (by omega) (.inl hf)
      refine ⟨⟨E.OPERATOR_EXPECTED, s.session, false, s.lineNum, s.currFile⟩, p + 1, rfl, rfl, by simp [E.OPERATOR_EXPECTED, E.BAD_VALUE_PREFIX], by simp [E.OPERATOR_EXPECTED, E.BAD_VALUE_PREFIX, E.EXCEEDED_RECURSION_LIMIT], ?_⟩
      rw [numFull_enter w s k p (by rw [hwt, hc]; simp) hsk (by omega), hwt,
        show (t ++ (b' ++ 44 :: u)).length + 1 = ((t ++ (b' ++ 44 :: u)).length + 1 - m) + m by simp only [List.length_append]; omega, hloop]
      unfold afterOperand
      have hg : getOp 0 ((b' ++ 44 :: u).length + 1) (b' ++ 44 :: u) (evalState s (p + 1)) =
          .ok .fail { evalState s (p + 1) with errors := ⟨E.OPERATOR_EXPECTED, s.session, false, s.lineNum, s.currFile⟩ :: s.errors } := by
        rw [getOp, skipWs_blanks b' _ hb', skipWs_cons 44 _ (by decide)]
        have hm : matchOp (44 :: u) = none := by simp [matchOp, mathDefs, List.find?, List.isPrefixOf]
        have hend : isEnd (44 :: u) = false := rfl
        simp only [hend, Bool.false_eq_true, if_false, hm, hd_cons, Nat.reduceBEq]
        rfl
      rw [M.bind_ok hg]
      rfl
  | string nest pc body cs args bs ws hch _ _ =>
    intro w s k p hj hsk hnot hl htx hpc hs herr hk hp0 hp
    obtain ⟨k, rfl⟩ : ∃ m, k = m + 1 := ⟨k - 1, by omega⟩
    obtain ⟨b, b', u, hw, hb, -, -⟩ := joined_first hj
    have hwt : ∃ y, w = 34 :: y := by
      refine ⟨body ++ [34] ++ (b' ++ u), ?_⟩
      rw [← hsk, hw, skipWs_blanks b _ hb]; exact skipWs_cons 34 _ (by decide)
    obtain ⟨y, rfl⟩ := hwt
    refine ⟨⟨E.BAD_VALUE_PREFIX, s.session, false, s.lineNum, s.currFile⟩, p + 1, rfl, rfl, by simp [E.OPERATOR_EXPECTED, E.BAD_VALUE_PREFIX], by simp [E.OPERATOR_EXPECTED, E.BAD_VALUE_PREFIX, E.EXCEEDED_RECURSION_LIMIT], ?_⟩
    rw [numFull_enter _ s k p (by simp) hsk (by omega), numLoop]
    rfl
  | named nest pc t written inner bs' ws' args bs ws hname htext hjoin hnum hin _ ih _ =>
    intro w s k p hj hsk hnot hl htx hpc hs herr hk hp0 hp
    obtain ⟨k, rfl⟩ : ∃ m, k = m + 1 := ⟨k - 1, by omega⟩
    obtain ⟨b, b', u, hw, hb, hb', hu⟩ := joined_first hj
    obtain ⟨⟨c, r, hc, hc1, -⟩, -⟩ := id hname
    have hst : Starter' c := by unfold Starter' Starter Alnum; omega
    have hwt : w = t ++ (b' ++ u) := by
      rw [← hsk, hw, skipWs_blanks b _ hb, hc]; exact skipWs_cons c _ (Starter.nonblank hst)
    have hf : Follows (b' ++ u) := by
      intro x hx
      cases b' with
      | nil =>
        rcases hu with ⟨-, rfl⟩ | ⟨v, -, rfl⟩
        · simp at hx
        · simp at hx; subst hx; unfold NameChar Alnum; omega
      | cons y b' =>
        simp at hx; subst hx
        have := hb' y (by simp)
        unfold NameChar Alnum; omega
    obtain ⟨w', hw', hsk', hpd⟩ := parseDefine_joined hjoin hin
    rw [hwt]
    refine noNumber_name t (b' ++ u) written w' s k p hname (htx _ _ htext) hf hs (by omega) hpd fun l => ?_
    exact ih w' { s with lineNum := l, session := s.session + 1 } k (p + 1) hw' hsk' hnum
      hl (fun x e hx => (congrFun (visibleText_session { s with lineNum := l } _ (by show s.session ≤ _; omega) hs.2) x).trans (htx x e hx)) hpc
      ⟨by have := hs.1; show 1 ≤ s.session + 1; omega, fun x hx => by have := hs.2 x hx; show _ ≤ s.session + 1; omega⟩ herr (by omega) (by omega) (by omega)

/-! ### Emission -/

theorem listed_single {ez : Bool} {label : Str → Option Int} {text : Str → Option Str} {depth n nest pc : Nat} {args : List Str} {bs ws : List Nat}
    (h : Listed ez label text depth n nest pc args bs ws) (a : Str) (ha : args = [a]) (hnum : ∀ a d v, args = [a] → ¬ Denotes (asInt32 pc) label text d a v) : ws = [] := by
  cases h with
  | nil => rfl
  | number _ _ d t v args bs ws hden _ _ => cases ha; exact absurd hden (hnum _ d v rfl)
  | string _ _ body cs args bs ws _ hl => cases ha; cases hl; rfl
  | named _ _ t written inner bs' ws' args bs ws _ _ _ _ _ hl => cases ha; cases hl; rfl

theorem readExpr_nil (delims : Str) (b : Bool) (s : S) : readExpr delims [] b s = .ok (false, [], []) s := rfl

theorem argument_name {t : Str} (h : Name t) (delims : Str) (hd : ∀ c ∈ delims, ¬ NameChar c) : Balanced delims false t ∧ Trimmed t := by
  obtain ⟨⟨c, r, rfl, hc, hx⟩, hne⟩ := h
  have hal : ∀ x ∈ c :: r, NameChar x := by
    intro x hx'
    rcases List.mem_cons.1 hx' with rfl | hx'
    · unfold NameChar Alnum; omega
    · exact hx x hx'
  have hbal : ∀ u : Str, (∀ x ∈ u, NameChar x) → Balanced delims false u := by
    intro u
    induction u with
    | nil => intro _; exact .nil _
    | cons y u ih =>
      intro hu
      have hy := hu y (by simp)
      refine .char _ y u ?_ (fun _ hm => hd y hm hy) (ih fun x hx => hu x (by simp [hx]))
      unfold NameChar Alnum at hy; unfold Ordinary; omega
  refine ⟨hbal _ hal, by simp, ?_, ?_⟩
  · intro x hx'; simp at hx'; subst hx'; unfold White; omega
  · intro x hx'
    have := hal x (List.mem_of_getLast? hx')
    unfold NameChar Alnum at this; unfold White; omega

theorem readExpr_aword {t : Str} (delims : Str) (hord : ∀ c ∈ t, Ordinary c ∧ c ∉ delims) (ht : Trimmed t) (hl : t.length ≤ 254) (s : S) :
    readExpr delims t true s = .ok (true, t, []) s := by
  have loop : ∀ (u con : Str) (f : Nat), (∀ c ∈ u, Ordinary c ∧ c ∉ delims) → con.length + u.length ≤ 254 →
      readLoop true delims (f + 1 + u.length) ⟨con, u, false, false, 0, 0⟩ = .word (u.reverse ++ con) [] := by
    intro u
    induction u with
    | nil => intro con f _ _; exact read_stop true delims f con [] (.inl rfl)
    | cons c u ih =>
      intro con f hu hlen
      simp at hlen
      rw [show f + 1 + (c :: u).length = (f + 1 + u.length) + 1 by simp; omega,
        read_char true delims _ con u 0 c (hu c (by simp)).1 (fun _ => (hu c (by simp)).2) (fun _ => by omega),
        ih (c :: con) f (fun x hx => hu x (by simp [hx])) (by simp; omega)]
      simp
  obtain ⟨c, r, hc⟩ : ∃ c r, t = c :: r := by
    cases t with
    | nil => exact absurd rfl ht.1
    | cons c r => exact ⟨c, r, rfl⟩
  have ho := (hord c (by rw [hc]; simp)).1
  have hblank : isBlank c = false := by
    have := ht.2.1 c (by rw [hc]; simp)
    rw [← isSpace_iff] at this
    unfold isBlank; simp [this]
  have hsk : skipWs t = t := by rw [hc]; exact skipWs_cons c _ hblank
  unfold readExpr
  simp only [hsk]
  have h1 : (isEnd t || hd t == 41) = false := by
    unfold Ordinary at ho
    rw [hc]; unfold isEnd hd; simp; omega
  simp only [h1, Bool.false_eq_true, if_false]
  have := loop t [] (2 * t.length + 2) hord (by simpa using hl)
  rw [show 3 * t.length + 3 = 2 * t.length + 2 + 1 + t.length by omega, this]
  simp only
  rw [List.append_nil]
  have := dropWhile_trim t [] ht (by intro c hc; simp at hc)
  rw [List.append_nil] at this
  rw [this]

/-- The first two operands of a list. -/
theorem extract_two {a : Str} {as : List Str} {w : Str} (h : Joined (a :: as) w) (s : S) :
    ∃ e rest w2 e2 r2, extractArg true w s = .ok (some a, e, rest) s ∧ extractArg e rest s = .ok (w2, e2, r2) s ∧ w2.isSome = !as.isEmpty := by
  cases h with
  | one b a b' hb hb' ha hl =>
    have h1 := C42_last_argument b a b' [] true s hb hb' ha hl (.inl rfl)
    rw [List.append_nil] at h1
    exact ⟨_, _, _, _, _, h1, extractArg_end (.inl rfl) s, rfl⟩
  | more b a b' as t hb hb' ha hl hj =>
    have h1 := C42_argument b a b' t true s hb hb' ha hl
    cases hj with
    | one b2 a2 b2' hb2 hb2' ha2 hl2 =>
      have h2 := C42_last_argument b2 a2 b2' [] true s hb2 hb2' ha2 hl2 (.inl rfl)
      rw [List.append_nil] at h2
      exact ⟨_, _, _, _, _, h1, h2, rfl⟩
    | more b2 a2 b2' as2 t2 hb2 hb2' ha2 hl2 hj2 =>
      exact ⟨_, _, _, _, _, h1, C42_argument b2 a2 b2' t2 true s hb2 hb2' ha2 hl2, rfl⟩

/-- A name as operand. -/
theorem emitNum_name (ty : Es) (hty : 0 < ty.width) (s : S) (k : Nat) (t written w : Str) (inner : List Str) (bs ws : List Nat)
    (hs : InSession s) (hname : Name t) (hlen : t.length ≤ 254) (htext : visibleText s t = some written) (hj : Joined inner w)
    (hpd : ∀ (k : Rec) (df : Define) (s : S), df.contents = some written → s.errOccurred = false → parseDefine k df s = .ok (some w) s)
    (hno : NoNumber k t { s with session := s.session + 1 } 0) (hws : ∀ a, inner = [a] → ws = [])
    (hrun : ∀ (q p : Int) (sp : Bool) (errs : List Err), s.session ≤ q → (∀ e ∈ errs, e.sess ≤ q) →
      ∃ d f sp', (knot k).emitString w ty { s with session := q, parseDepth := p, fwdRef := false, errors := errs, spread := sp } =
        .ok ([], []) (afterListed bs ws d f sp' { s with session := q, parseDepth := p, fwdRef := false, errors := errs, spread := sp })) :
    ∃ d f sp, emitNum (knot k) ty t (s.session + 1) { s with session := s.session + 1 } = .ok [] (afterListed bs [] d f sp s) := by
  have hset : Settled s := by
    unfold visibleText at htext
    split at htext
    · rename_i hc; exact hc.1
    · simp at htext
  obtain ⟨e, p', he1, he2, he3, he4, he5⟩ := hno
  have he1' : e.sess = s.session + 1 := he1
  have hfc : (ty != .fcreate) = true := by cases ty <;> first | rfl | simp [Es.width] at hty
  unfold emitNum
  have hpn : parseNum (knot k) t { s with session := s.session + 1 } =
      .ok none { s with session := s.session + 1, parseDepth := p', fwdRef := false, errors := e :: s.errors } := by
    unfold parseNum
    rw [M.modify_bind]
    have : (knot k).numFull t 0 { s with session := s.session + 1, parseDepth := 0 } = (knot k).numFull t 0 (evalState { s with session := s.session + 1 } 0) := by
      cases k with
      | zero => cases he5
      | succ k => rfl
    rw [M.bind_ok (this.trans he5)]
    rfl
  rw [M.bind_ok hpn, M.get_bind]
  dsimp only
  have hpre : ∀ q, s.session < q → sessPrefix q s.errors = [] := by
    intro q hq
    unfold sessPrefix
    cases hE : s.errors with
    | nil => rfl
    | cons x xs =>
      have := hs.2 x (by rw [hE]; simp)
      rw [List.takeWhile_cons_of_neg]
      simp; omega
  have hdrop : s.errors.dropWhile (fun e => e.sess == s.session + 1) = s.errors := by
    cases hE : s.errors with
    | nil => rfl
    | cons x xs =>
      have := hs.2 x (by rw [hE]; simp)
      rw [List.dropWhile_cons_of_neg]
      simp; omega
  have hpre1 : sessPrefix (s.session + 1) (e :: s.errors) = [e] := by
    have := hpre (s.session + 1) (by omega)
    unfold sessPrefix at this ⊢
    rw [List.takeWhile_cons_of_pos (by simp [he1']), this]
  have hfat : sessionFatal (s.session + 1) { s with session := s.session + 1, parseDepth := p', fwdRef := false, errors := e :: s.errors } = true := by
    unfold sessionFatal
    rw [show ({ s with session := s.session + 1, parseDepth := p', fwdRef := false, errors := e :: s.errors } : S).errors = e :: s.errors from rfl, hpre1]
    simp [he2]
  rw [hfat]
  simp only [Bool.not_true, Bool.false_and, Bool.false_eq_true, if_false]
  have hb := argument_name hname [40] (by intro c hc; simp at hc; subst hc; unfold NameChar Alnum; omega)
  have nb : Blanks [] := by intro c hc; simp at hc
  generalize hs1 : ({ s with session := s.session + 1, parseDepth := p', fwdRef := false, errors := e :: s.errors } : S) = s1
  have hr1 : readExpr [40] t true s1 = .ok (true, t, []) s1 := by
    refine readExpr_aword [40] (fun c hc => ?_) hb.2 hlen s1
    obtain ⟨⟨x, y, rfl, hx, hy⟩, -⟩ := hname
    have : NameChar c := by
      rcases List.mem_cons.1 hc with rfl | hc
      · unfold NameChar Alnum; omega
      · exact hy c hc
    unfold NameChar Alnum at this
    unfold Ordinary
    simp
    omega
  rw [M.bind_ok hr1]
  dsimp only
  rw [M.bind_ok (readExpr_nil [41] false s1)]
  dsimp only
  simp only [List.isEmpty_nil, Bool.not_true, Bool.false_eq_true, if_false]
  have hvis : visibleText s1 t = some written := by
    rw [← htext, ← hs1]
    have : Settled { s with session := s.session + 1, parseDepth := p', fwdRef := false, errors := e :: s.errors } := by
      refine ⟨hset.1, fun x hx => ?_⟩
      show x.sess ≤ s.session + 1
      rcases List.mem_cons.1 hx with rfl | hx
      · omega
      · have := hs.2 x hx; omega
    unfold visibleText
    simp only [this, hset, true_and]
    rfl
  obtain ⟨df, hargs, hcont, -, r0, hsd⟩ := named_define s1 t written hname hvis
  rw [M.bind_ok hsd]
  dsimp only
  have herr1 : s1.errOccurred = false := by rw [← hs1]; exact hset.1
  unfold emitDefine
  rw [hcont, show (some written).isNone = false from rfl, M.when_false]
  simp only [M.pure_bind, M.bind_assoc]
  have hpa : parseArgs (knot k) [] df s1 = .ok ([], false) s1 := by
    unfold parseArgs
    rw [if_pos (by rw [hargs]; decide)]
    rfl
  rw [M.bind_ok hpa]
  dsimp only
  rw [M.bind_ok (hpd (knot k) df s1 hcont herr1)]
  dsimp only
  cases hi : inner with
  | nil => rw [hi] at hj; cases hj
  | cons a as =>
    rw [hi] at hj
    obtain ⟨e1, rest, w2, e2, r2, hx1, hx2, hw2⟩ := extract_two hj s1
    simp only [M.bind_assoc]
    rw [M.bind_ok hx1]
    dsimp only
    rw [M.bind_ok hx2]
    dsimp only
    have hend1 : ∀ (ws : List Nat) (d : Int) (f sp : Bool) (sp' : Bool), endSession (s.session + 1) (afterListed bs ws d f sp { s with session := s.session + 1, parseDepth := p', fwdRef := false, errors := e :: s.errors, spread := sp' }) =
        .ok () (afterListed bs [] d f sp s) := by
      intro ws d f sp sp'
      have h1 := hs.1
      unfold endSession
      have : (decide (s.session + 1 = 1)) = false := by simp; omega
      simp only [this, Bool.false_and, Bool.false_eq_true, if_false]
      congr 1
      have hd2 : (ws.reverse.map (fun c => (⟨c, s.session + 1, true, s.lineNum, s.currFile⟩ : Err)) ++ e :: s.errors).dropWhile (fun e => e.sess == s.session + 1) = s.errors := by
        rw [List.dropWhile_append_of_pos (by intro x hx; obtain ⟨c, -, rfl⟩ := List.mem_map.1 hx; simp), List.dropWhile_cons_of_pos (by simp [he1']), hdrop]
      unfold afterListed afterData emitted
      simp only [hd2, Int.add_sub_cancel, List.reverse_nil, List.map_nil, List.nil_append]
    cases has : as with
    | cons a2 as2 =>
      rw [hw2, has]
      simp only [List.isEmpty_cons, Bool.not_false, if_true, M.modify_bind, M.bind_assoc]
      obtain ⟨d, f, sp, hr⟩ := hrun (s.session + 1) p' true (e :: s.errors) (by omega) (by
        intro x hx
        rcases List.mem_cons.1 hx with rfl | hx
        · omega
        · have := hs.2 x hx; omega)
      have hr' : (knot k).emitString w ty { s1 with spread := true } = .ok ([], []) (afterListed bs ws d f sp { s with session := s.session + 1, parseDepth := p', fwdRef := false, errors := e :: s.errors, spread := true }) := by
        rw [← hs1]; exact hr
      refine ⟨d, f, sp, ?_⟩
      rw [M.bind_ok hr']
      simp only [M.pure_bind]
      rw [M.bind_ok (show removeArgSet false _ = .ok () _ from rfl), M.bind_ok (hend1 ws d f sp true)]
      rfl
    | nil =>
      rw [hw2, has]
      have hws' : ws = [] := hws a (by rw [hi, has])
      subst hws'
      simp only [List.isEmpty_nil, Bool.not_true, Bool.false_eq_true, if_false, M.bind_assoc, M.get_bind]
      have hexc : errorInSession (s.session + 1) E.EXCEEDED_RECURSION_LIMIT s1 = false := by
        unfold errorInSession
        rw [← hs1, show ({ s with session := s.session + 1, parseDepth := p', fwdRef := false, errors := e :: s.errors } : S).errors = e :: s.errors from rfl, hpre1]
        simpa using he4
      rw [hexc]
      simp only [Bool.false_eq_true, if_false, M.bind_assoc]
      have hst : startSession s1 = .ok (s.session + 1 + 1) { s1 with session := s.session + 1 + 1 } := by rw [← hs1]; rfl
      obtain ⟨d, f, sp, hr⟩ := hrun (s.session + 1 + 1) p' s.spread (e :: s.errors) (by omega) (by
        intro x hx
        rcases List.mem_cons.1 hx with rfl | hx
        · omega
        · have := hs.2 x hx; omega)
      have hr' : (knot k).emitString w ty { s1 with session := s.session + 1 + 1 } = .ok ([], []) (afterListed bs [] d f sp { s with session := s.session + 1 + 1, parseDepth := p', fwdRef := false, errors := e :: s.errors }) := by
        rw [← hs1]; exact hr
      refine ⟨d, f, sp, ?_⟩
      rw [M.bind_ok hst, M.bind_ok hr']
      simp only [M.pure_bind, M.get_bind]
      have hpre2 : sessPrefix (s.session + 1 + 1) (e :: s.errors) = [] := by
        unfold sessPrefix
        rw [List.takeWhile_cons_of_neg]
        simp; omega
      have hE : (afterListed bs [] d f sp { s with session := s.session + 1 + 1, parseDepth := p', fwdRef := false, errors := e :: s.errors }).errors = e :: s.errors := rfl
      have hend2 : endSession (s.session + 1 + 1) (afterListed bs [] d f sp { s with session := s.session + 1 + 1, parseDepth := p', fwdRef := false, errors := e :: s.errors }) =
          .ok () (afterListed bs [] d f sp { s with session := s.session + 1, parseDepth := p', fwdRef := false, errors := e :: s.errors, spread := s.spread }) := by
        have h1 := hs.1
        unfold endSession
        have : (decide (s.session + 1 + 1 = 1)) = false := by simp; omega
        simp only [this, Bool.false_and, Bool.false_eq_true, if_false]
        congr 1
        have hd2 : (e :: s.errors).dropWhile (fun e => e.sess == s.session + 1 + 1) = e :: s.errors := by
          rw [List.dropWhile_cons_of_neg]; simp; omega
        unfold afterListed afterData emitted
        simp only [hd2, Int.add_sub_cancel, List.reverse_nil, List.map_nil, List.nil_append]
      have hnf : sessionFatal (s.session + 1 + 1) (afterListed bs [] d f sp { s with session := s.session + 1 + 1, parseDepth := p', fwdRef := false, errors := e :: s.errors }) = false := by
        unfold sessionFatal
        rw [hE, hpre2]; rfl
      rw [M.bind_ok hend2, hnf, M.when_false]
      simp only [M.pure_bind]
      rw [M.bind_ok (show removeArgSet false _ = .ok () _ from rfl), M.bind_ok (hend1 [] d f sp s.spread)]
      rfl

theorem afterListed_data (bs ws : List Nat) (d : Int) (f : Bool) (s : S) : afterData bs ws d f s = afterListed bs ws d f s.spread s := rfl

theorem afterListed_afterListed (bs ws bs' ws' : List Nat) (d d' : Int) (f f' sp sp' : Bool) (s : S) (h : 0 ≤ s.outPtr) :
    afterListed bs' ws' d' f' sp' (afterListed bs ws d f sp s) = afterListed (bs ++ bs') (ws ++ ws') d' f' sp' s := by
  have e := afterData_afterData bs ws bs' ws' d d' f f' s h
  unfold afterListed
  rw [← e]
  rfl

theorem Ready.afterListed {n : Nat} {s : S} (bs ws : List Nat) (d : Int) (f sp : Bool) (h : Ready (bs.length + n) s) :
    Ready n (afterListed bs ws d f sp s) :=
  ⟨inSession_afterData bs ws d f s h.inSession, hasRoom_afterData n bs ws d f s h.room, h.writes, (h.afterData bs ws d f).pc⟩

theorem emitStringBody_of_loop (ty : Es) (hty : 0 < ty.width) (k : Rec) (w r : Str) (bs ws : List Nat) (d : Int) (f sp : Bool) (s : S)
    (e : emitLoop k ty (w.length + 2) true none [] w { s with emitLevel := s.emitLevel + 1 } =
      .ok (r, []) (afterListed bs ws d f sp { s with emitLevel := s.emitLevel + 1 })) :
    emitStringBody k w ty s = .ok (r, []) (afterListed bs ws d f sp s) := by
  unfold emitStringBody
  rw [M.modify_bind, M.bind_ok e]
  dsimp only
  rw [M.get_bind, M.modify_bind]
  have hty' : (ty == .echoOut) = false := by cases ty <;> first | rfl | simp [Es.width] at hty
  rw [hty', Bool.and_false, if_neg (by decide)]
  have e2 : ({ afterListed bs ws d f sp { s with emitLevel := s.emitLevel + 1 } with
      emitLevel := (afterListed bs ws d f sp { s with emitLevel := s.emitLevel + 1 }).emitLevel - 1 } : S) = afterListed bs ws d f sp s := by
    have : s.emitLevel + 1 - 1 = s.emitLevel := by omega
    unfold afterListed afterData emitted
    simp only [this]
  rw [e2]
  rfl

/-- The emission of operands in the state `s`. -/
def ListRuns (ty : Es) (ez : Bool) (label : Str → Option Int) (text : Str → Option Str) (depth nest pc : Nat) (args : List Str) (bs ws : List Nat) : Prop :=
  ∀ (t r : Str) (s : S) (k g : Nat) (e : Bool) (se : Option Int), Joined args t → EndsList r → args.length < g → Ready bs.length s →
      s.mode.ez80 = ez → visibleLabel s = label → (∀ x e, text x = some e → visibleText s x = some e) → toI32 s.pc = asInt32 pc → nest + depth + 1 < k → nest + depth < 20 →
      ∃ d f sp, emitLoop (knot k) ty g e se [] (t ++ r) s = .ok (r, []) (afterListed bs ws d f sp s)

/-- A name as operand. -/
theorem emitNum_listed (ty : Es) (hty : 0 < ty.width) (depth : Nat) {ez : Bool} {label : Str → Option Int} {text : Str → Option Str} {nest pc : Nat}
    {nm written : Str} {inner : List Str} {bs' ws' : List Nat} (hname : Name nm) (htext : text nm = some written) (hjoin : Joined inner written)
    (hnum : ∀ a d v, inner = [a] → ¬ Denotes (asInt32 pc) label text d a v) (hin : Listed ez label text depth ty.width nest pc inner bs' ws')
    (ih1 : ListRuns ty ez label text depth nest pc inner bs' ws') (s : S) (k : Nat) (hs : Ready bs'.length s) (hez : s.mode.ez80 = ez)
    (hl : visibleLabel s = label) (htx : ∀ x e, text x = some e → visibleText s x = some e) (hpc0 : toI32 s.pc = asInt32 pc) (hk : nest + depth + 1 < k) (hd : nest + 1 + depth < 20) (hlen : nm.length ≤ 254) :
    ∃ d f sp, emitNum (knot (k + 1)) ty nm (s.session + 1) { s with session := s.session + 1 } = .ok [] (afterListed bs' [] d f sp s) := by
  obtain ⟨w, hw, hsk, hpd⟩ := parseDefine_joined hjoin hin
  have hvis : visibleText s nm = some written := htx _ _ htext
  have herr : s.errOccurred = false := by
    unfold visibleText at hvis
    split at hvis
    · rename_i hc; exact hc.1.1
    · simp at hvis
  have hroom : HasRoom bs'.length s := hs.room
  have hin1 : InSession { s with session := s.session + 1 } :=
    ⟨by have := hs.inSession.1; show 1 ≤ s.session + 1; omega, fun x hx => by have := hs.inSession.2 x hx; show _ ≤ s.session + 1; omega⟩
  have hv1 : visibleText { s with session := s.session + 1 } = visibleText s := visibleText_session s _ (by omega) hs.inSession.2
  have hno : NoNumber (k + 1) nm { s with session := s.session + 1 } 0 := by
    have := noNumber_name nm [] written w { s with session := s.session + 1 } k 0 hname (by rw [hv1]; exact hvis) (by intro c hc; simp at hc) hin1 (by omega) hpd
      (fun l => by
        refine numFull_listed hin w { s with session := s.session + 1 + 1, lineNum := l } k (0 + 1) hw hsk hnum hl ?_ hpc0 ?_ herr (by omega) (by omega) (by omega)
        · exact fun x e hx => (congrFun (visibleText_session { s with lineNum := l } (s.session + 1 + 1) (by show s.session ≤ _; omega) hs.inSession.2) x).trans (htx x e hx)
        · exact ⟨by have := hs.inSession.1; show 1 ≤ s.session + 1 + 1; omega, fun x hx => by have := hs.inSession.2 x hx; show _ ≤ s.session + 1 + 1; omega⟩)
    rwa [List.append_nil] at this
  obtain ⟨d, f, sp, he⟩ := emitNum_name ty hty s (k + 1) nm written w inner bs' ws' hs.inSession hname hlen hvis hw hpd hno
    (fun a ha => listed_single hin a ha hnum) (by
      intro q p sp errs hq herrs
      have hsett : Settled { s with session := q, parseDepth := p, fwdRef := false, errors := errs, spread := sp } := ⟨herr, herrs⟩
      have hset0 : Settled s := ⟨herr, hs.inSession.2⟩
      obtain ⟨d, f, sp', e1⟩ := ih1 w [] { s with session := q, parseDepth := p, fwdRef := false, errors := errs, spread := sp, emitLevel := s.emitLevel + 1 } k (w.length + 2) true none
        hw (.inl rfl) (by have := joined_length hw; omega) ⟨⟨by have := hs.inSession.1; show 1 ≤ q; omega, herrs⟩, hroom, hs.writes, hs.pc⟩ hez hl
        (by
          intro nm' e' hx
          rw [← htx nm' e' hx]
          have hsett' : Settled { s with session := q, parseDepth := p, fwdRef := false, errors := errs, spread := sp, emitLevel := s.emitLevel + 1 } := ⟨herr, herrs⟩
          unfold visibleText
          simp only [hsett', hset0, true_and]
          rfl)
        hpc0 (by omega) (by omega)
      rw [List.append_nil] at e1
      exact ⟨d, f, sp', emitStringBody_of_loop ty hty (knot k) w [] bs' ws' d f sp' _ e1⟩)
  exact ⟨d, f, sp, he⟩

theorem emitLoop_listed (ty : Es) (hty : 0 < ty.width) (depth : Nat)
    {ez : Bool} {label : Str → Option Int} {text : Str → Option Str} {nest pc : Nat} {args : List Str} {bs ws : List Nat}
    (h : Listed ez label text depth ty.width nest pc args bs ws) :
    ∀ (t r : Str) (s : S) (k g : Nat) (e : Bool) (se : Option Int), Joined args t → EndsList r → args.length < g → Ready bs.length s →
      s.mode.ez80 = ez → visibleLabel s = label → (∀ x e, text x = some e → visibleText s x = some e) → toI32 s.pc = asInt32 pc → nest + depth + 1 < k → nest + depth < 20 →
      ∃ d f sp, emitLoop (knot k) ty g e se [] (t ++ r) s = .ok (r, []) (afterListed bs ws d f sp s) := by
  have hpc : ∀ (s : S) (pc : Nat) (bs ws : List Nat) (d : Int) (f sp : Bool), toI32 s.pc = asInt32 pc →
      toI32 (afterListed bs ws d f sp s).pc = asInt32 (pc + bs.length) := by
    intro s pc bs ws d f sp h
    rw [← toI32_eq_asInt32] at h ⊢
    show toI32 ((s.pc + bs.length) % 4294967296) = _
    unfold toI32 at *
    omega
  induction h with
  | nil nest pc => intro t r s k g e se hj; cases hj
  | number nest pc d t' v args bs ws hden hdep hdat ih =>
    intro t r s k g e se hj hr hg hs hez hl htx hpc0 hk hd
    have hlen := littleEndian_length ty.width v
    have hs1 : Ready ty.width s := ⟨hs.inSession, ⟨hs.room.1, by have := hs.room.2; simp [hlen] at this; omega⟩, hs.writes, hs.pc⟩
    have hden' : Denotes (toI32 s.pc) (visibleLabel s) (visibleText s) d t' v := by
      rw [hl, hpc0]; exact Denotes_mono (fun _ _ h => h) htx hden
    obtain ⟨g, rfl⟩ : ∃ m, g = m + 1 := ⟨g - 1, by omega⟩
    cases hj with
    | one b a b' hb hb' ha hle =>
      cases hdat
      refine ⟨0, false, s.spread, ?_⟩
      rw [emitLoop_number ty hty k d g e false se _ t' r v s (C42_last_argument b t' b' r e s hb hb' ha hle hr) hs1 hden' (by omega) (by omega)]
      obtain ⟨g, rfl⟩ : ∃ m, g = m + 1 := ⟨g - 1, by simp at hg; omega⟩
      rw [emitLoop_end ty _ g _ r hr, hez, afterListed_data]
      simp
    | more b a b' as t2 hb hb' ha hle hj =>
      have hx := C42_argument b t' b' (t2 ++ r) e s hb hb' ha hle
      obtain ⟨d2, f2, sp2, e2⟩ := ih t2 r (afterListed (littleEndian ty.width v) (truncation s.mode.ez80 ty.width v) 0 false s.spread s) k g true
        (some (s.session + 1)) hj hr (by simp at hg; omega) (Ready.afterListed _ _ _ _ _ (by simpa using hs)) hez hl
        (fun x e hx => (congrFun (visibleText_afterData _ _ _ _ _ hs.inSession) x).trans (htx x e hx))
        (by rw [hpc _ _ _ _ _ _ _ hpc0, hlen]) hk hd
      refine ⟨d2, f2, sp2, ?_⟩
      rw [show b ++ t' ++ b' ++ [44] ++ t2 ++ r = b ++ t' ++ b' ++ [44] ++ (t2 ++ r) by simp,
        emitLoop_number ty hty k d g e true se _ t' _ v s hx hs1 hden' (by omega) (by omega), afterListed_data, e2,
        afterListed_afterListed _ _ _ _ _ _ _ _ _ _ _ hs.room.1, hez]
  | string nest pc body cs args bs ws hch hdat ih =>
    intro t r s k g e se hj hr hg hs hez hl htx hpc0 hk hd
    have hs1 : Ready cs.length s := ⟨hs.inSession, ⟨hs.room.1, by have := hs.room.2; simp at this; omega⟩, hs.writes, hs.pc⟩
    obtain ⟨g, rfl⟩ : ∃ m, g = m + 1 := ⟨g - 1, by omega⟩
    obtain ⟨k, rfl⟩ : ∃ m, k = m + 1 := ⟨k - 1, by omega⟩
    cases hj with
    | one b a b' hb hb' ha hle =>
      cases hdat
      obtain ⟨d, f, e1⟩ := emitLoop_text ty hty k g e false se _ r body cs s (C42_last_argument b _ b' r e s hb hb' ha hle hr) hs1 hch
      refine ⟨d, f, s.spread, ?_⟩
      rw [e1]
      obtain ⟨g, rfl⟩ : ∃ m, g = m + 1 := ⟨g - 1, by simp at hg; omega⟩
      rw [emitLoop_end ty _ g _ r hr, afterListed_data]
      simp
    | more b a b' as t2 hb hb' ha hle hj =>
      obtain ⟨d, f, e1⟩ := emitLoop_text ty hty k g e true se _ (t2 ++ r) body cs s (C42_argument b _ b' (t2 ++ r) e s hb hb' ha hle) hs1 hch
      obtain ⟨d2, f2, sp2, e2⟩ := ih t2 r (afterListed cs [] d f s.spread s) (k + 1) g true
        se hj hr (by simp at hg; omega) (Ready.afterListed _ _ _ _ _ (by simpa using hs)) hez hl
        (fun x e hx => (congrFun (visibleText_afterData _ _ _ _ _ hs.inSession) x).trans (htx x e hx))
        (by rw [hpc _ _ _ _ _ _ _ hpc0]) hk hd
      refine ⟨d2, f2, sp2, ?_⟩
      rw [show ∀ x : Str, b ++ x ++ b' ++ [44] ++ t2 ++ r = b ++ x ++ b' ++ [44] ++ (t2 ++ r) by simp, e1, afterListed_data, e2,
        afterListed_afterListed _ _ _ _ _ _ _ _ _ _ _ hs.room.1]
      rfl
  | named nest pc nm written inner bs' ws' args bs ws hname htext hjoin hnum hin hrest ih1 ih2 =>
    intro t r s k g e se hj hr hg hs hez hl htx hpc0 hk hd
    obtain ⟨k, rfl⟩ : ∃ m, k = m + 1 := ⟨k - 1, by omega⟩
    obtain ⟨g, rfl⟩ : ∃ m, g = m + 1 := ⟨g - 1, by omega⟩
    have hroom : HasRoom bs'.length s := ⟨hs.room.1, by have := hs.room.2; simp at this; omega⟩
    -- the name as operand
    have step : ∀ tt e' rr, nm.length ≤ 254 → extractArg e tt s = .ok (some nm, e', rr) s →
        ∃ d f sp, emitLoop (knot (k + 1)) ty (g + 1) e se [] tt s =
          emitLoop (knot (k + 1)) ty g e' (some (s.session + 1)) [] rr (afterListed bs' [] d f sp s) := by
      intro tt e' rr hlen hx
      obtain ⟨d, f, sp, he⟩ := emitNum_listed ty hty depth hname htext hjoin hnum hin ih1 s k ⟨hs.inSession, hroom, hs.writes, hs.pc⟩ hez hl htx hpc0
        (by omega) (by omega) hlen
      refine ⟨d, f, sp, ?_⟩
      rw [emitLoop, M.bind_ok hx]
      dsimp only
      have h34 : (Spasm.hd nm == 34) = false := by
        obtain ⟨⟨c, r, rfl, hc, -⟩, -⟩ := hname
        simp only [Spasm.hd, beq_eq_false_iff_ne]
        omega
      rw [h34, if_neg (by decide)]
      have hst : startSession s = .ok (s.session + 1) { s with session := s.session + 1 } := rfl
      rw [M.bind_ok hst, M.bind_ok he]
      simp
    cases hj with
    | one b a b' hb hb' ha hle =>
      cases hrest
      obtain ⟨d, f, sp, e1⟩ := step _ false r (by simp at hle; omega) (C42_last_argument b nm b' r e s hb hb' ha hle hr)
      refine ⟨d, f, sp, ?_⟩
      rw [e1]
      obtain ⟨g, rfl⟩ : ∃ m, g = m + 1 := ⟨g - 1, by simp at hg; omega⟩
      rw [emitLoop_end ty _ g _ r hr]
      simp
    | more b a b' as t2 hb hb' ha hle hj =>
      obtain ⟨d, f, sp, e1⟩ := step _ true (t2 ++ r) (by simp at hle; omega) (C42_argument b nm b' (t2 ++ r) e s hb hb' ha hle)
      obtain ⟨d2, f2, sp2, e2⟩ := ih2 t2 r (afterListed bs' [] d f sp s) (k + 1) g true
        (some (s.session + 1)) hj hr (by simp at hg; omega) (Ready.afterListed _ _ _ _ _ (by simpa using hs)) hez hl
        (fun x e hx => (congrFun (visibleText_afterData bs' [] d f s hs.inSession) x).trans (htx x e hx))
        (by rw [hpc _ _ _ _ _ _ _ hpc0]) hk hd
      refine ⟨d2, f2, sp2, ?_⟩
      rw [show b ++ nm ++ b' ++ [44] ++ t2 ++ r = b ++ nm ++ b' ++ [44] ++ (t2 ++ r) by simp, e1, e2,
        afterListed_afterListed _ _ _ _ _ _ _ _ _ _ _ hs.room.1]
      rfl

end Spasm
