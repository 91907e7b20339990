import Verif.Lemmas.Balance

/-! Balanced runs, continued: the functions from text substitution to the directives. -/

namespace Spasm

variable {k : Rec} (hk : RecBal k)
include hk

theorem bal_expandLoop (d : Nat) (l : Bool) (f : Nat) (t o : Str) : Bal (expandLoop k d l f t o) := by
  induction f generalizing t o with
  | zero => unfold expandLoop; bal
  | succ f ih =>
    have tail : ∀ (p : Bool) (c o : Str) (fin : Str → M Str) {s s1 s' : S} {a : Str}, BalP p s s1 →
        (∀ a, Bal (fin a)) → ((do
          let e ← k.expandFull c (d + 1) l
          removeArgSet p
          let st ← M.get
          if st.errOccurred then pure (o ++ e) else fin e : M Str) s1 = .ok a s') → BalR s s' := by
      intro p c o fin s s1 s' a h1 hfin e
      obtain ⟨x, s2, e2, e⟩ := M.bind_eq_ok.mp e
      obtain ⟨_, s3, e3, e⟩ := M.bind_eq_ok.mp e
      refine ((h1.trans' ((hk.expandFull _ _ _).bal _ _ _ e2)).pop e3).trans ?_
      rw [M.get_bind] at e
      split at e
      · cases e; exact .refl _
      · exact (hfin _).bal _ _ _ e
    unfold expandLoop
    split
    · exact .pure _
    · dsimp only
      generalize (if hd t == 34 then skipQuoted t.tail else t) = q
      split
      · apply Bal.bind bal_get
        intro st
        apply Bal.bind (bal_searchDefines _ _)
        intro r
        split
        · constructor
          intro s a s' e
          split at e
          · obtain ⟨x, s1, e1, e⟩ := M.bind_eq_ok.mp e
            exact tail _ _ _ _ (push_parseArgs hk _ _ e1) (fun _ => ih _ _) e
          · rw [M.pure_bind] at e
            exact tail _ _ _ _ (.refl s) (fun _ => ih _ _) e
        · split
          · exact ih _ _
          · exact ih _ _
      · split
        · exact ih _ _
        · exact ih _ _

theorem bal_expandFullBody (s : Str) (d : Nat) (l : Bool) : Bal (expandFullBody k s d l) := by
  unfold expandFullBody; bal

theorem bal_setDefine (r : DRef) (s : Str) (b : Bool) : Bal (setDefine k r s b) := by
  unfold setDefine; bal

omit hk in
theorem bal_writeOut (v : Int) : Bal (writeOut v) := by
  constructor
  intro s a s' e
  unfold writeOut at e
  split at e
  · cases e
  · cases e; exact .of_eq rfl rfl rfl rfl

omit hk in
theorem bal_advance (n : Int) : Bal (advance n) := by
  unfold advance; bal

omit hk in
theorem bal_writeArg (v : Int) (t : ArgTy) (i o : Int) : Bal (writeArg v t i o) := by
  unfold writeArg; bal

theorem bal_addPassTwoExpr (e : Str) (t : ArgTy) (i o : Int) : Bal (addPassTwoExpr k e t i o) := by
  constructor
  intro st a st' h
  unfold addPassTwoExpr at h
  obtain ⟨n, s1, e1, h⟩ := M.bind_eq_ok.mp h
  obtain ⟨hn, h1⟩ := inside_start e1
  obtain ⟨r, s2, e2, h⟩ := M.bind_eq_ok.mp h
  have h2 := h1.bal ((bal_parseNum hk _).bal _ _ _ e2)
  rw [M.get_bind] at h
  cases r with
  | none =>
    dsimp only at h
    split at h
    · obtain ⟨_, s3, e3, h⟩ := M.bind_eq_ok.mp h
      exact (h2.replay hn e3).close hn h
    · obtain ⟨x, s3, e3, h⟩ := M.bind_eq_ok.mp h
      have h3 := h2.bal ((bal_expandExpr hk _ _).bal _ _ _ e3)
      obtain ⟨_, s4, e4, h⟩ := M.bind_eq_ok.mp h
      have h4 := h3.bal (Bal.bal (by bal) _ _ _ e4)
      obtain ⟨_, s5, e5, h⟩ := M.bind_eq_ok.mp h
      exact (h4.bal ((bal_writeArg _ _ _ _).bal _ _ _ e5)).close hn h
  | some v =>
    dsimp only at h
    obtain ⟨_, s3, e3, h⟩ := M.bind_eq_ok.mp h
    obtain ⟨_, s4, e4, h⟩ := M.bind_eq_ok.mp h
    exact ((h2.bal ((bal_writeArg _ _ _ _).bal _ _ _ e3)).replay hn e4).close hn h

theorem bal_addPassTwoOutput (e : Str) (b : Bool) : Bal (addPassTwoOutput k e b) := by
  unfold addPassTwoOutput; bal

omit hk in
theorem bal_showDefine (d : Define) : Bal (showDefine d) := by
  unfold showDefine; bal

theorem bal_runExpr (e : PExpr) : Bal (runExpr k e) := by
  unfold runExpr; bal

theorem bal_runExprs (l : List PExpr) : Bal (runExprs k l) := by
  induction l with
  | nil => unfold runExprs; bal
  | cons e l ih => unfold runExprs; bal

theorem bal_runOutput (o : POut) : Bal (runOutput k o) := by
  unfold runOutput
  apply Bal.bind
  · bal
  intro _
  apply Bal.bind
  · bal
  intro _
  split
  · bal
  · constructor
    intro st a st' h
    obtain ⟨n, s1, e1, h⟩ := M.bind_eq_ok.mp h
    obtain ⟨hn, h1⟩ := inside_start e1
    obtain ⟨r, s2, e2, h⟩ := M.bind_eq_ok.mp h
    have h2 := h1.bal ((hk.emitString _ _).bal _ _ _ e2)
    obtain ⟨_, s3, e3, h⟩ := M.bind_eq_ok.mp h
    obtain ⟨_, s4, e4, h⟩ := M.bind_eq_ok.mp h
    exact ((h2.bal (Bal.bal (by bal) _ _ _ e3)).replay hn e4).close hn h

theorem bal_runOutputs (l : List POut) : Bal (runOutputs k l) := by
  induction l with
  | nil => unfold runOutputs; bal
  | cons e l ih => unfold runOutputs; bal

theorem bal_runSecondPass  : Bal (runSecondPass k) := by
  unfold runSecondPass; bal

omit hk in
theorem bal_countData (n : Int) : Bal (countData n) := by
  unfold countData; bal

omit hk in
theorem bal_emitChars (s : Str) : Bal (emitChars s) := by
  induction s with
  | nil => unfold emitChars; bal
  | cons c t ih => unfold emitChars; bal

omit hk in
theorem inside_echoError (t : Es) {s0 s s' : S} {n : Int} {b : Bool} {a : Str} (h : Inside b s0 s)
    (hn : n = s0.session + 1) (e : echoError t n s = .ok a s') : Inside b s0 s' := by
  unfold echoError at e
  obtain ⟨_, s1, e1, e⟩ := M.bind_eq_ok.mp e
  obtain ⟨_, s2, e2, e⟩ := M.bind_eq_ok.mp e
  cases e
  refine (h.bal ?_).replay hn e2
  refine Bal.bal (m := _) ?_ _ _ _ e1
  bal

/-- The text of a define as operand, after its arguments. -/
theorem inside_emitDefine (t : Es) (d : Define) (r : Str) {s0 s s' : S} {n : Int} {a : Str}
    (h : Inside false s0 s) (hn : n = s0.session + 1) (e : emitDefine k t n d r s = .ok a s') :
    Inside false s0 s' := by
  unfold emitDefine at e
  obtain ⟨_, s1, e1, e⟩ := M.bind_eq_ok.mp e
  have h1 := h.bal (Bal.bal (by bal) _ _ _ e1)
  obtain ⟨⟨t', p⟩, s2, e2, e⟩ := M.bind_eq_ok.mp e
  have h2 := h1.push (push_parseArgs hk _ _ e2)
  dsimp only at e h2
  obtain ⟨c, s3, e3, e⟩ := M.bind_eq_ok.mp e
  have h3 := h2.bal ((bal_parseDefine hk d).bal _ _ _ e3)
  cases c with
  | none =>
    dsimp only at e
    rw [M.pure_bind] at e
    obtain ⟨_, s4, e4, e⟩ := M.bind_eq_ok.mp e
    cases e
    exact h3.pop e4
  | some x =>
    dsimp only at e
    obtain ⟨⟨w1, exp, rest⟩, s4, e4, e⟩ := M.bind_eq_ok.mp e
    have h4 := h3.bal ((bal_extractArg _ _).bal _ _ _ e4)
    dsimp only at e
    obtain ⟨⟨w2, exp2, rest2⟩, s5, e5, e⟩ := M.bind_eq_ok.mp e
    have h5 := h4.bal ((bal_extractArg _ _).bal _ _ _ e5)
    dsimp only at e
    split at e
    · rw [M.modify_bind] at e
      obtain ⟨⟨y, z⟩, s6, e6, e⟩ := M.bind_eq_ok.mp e
      have h5' : Inside p s0 { s5 with spread := true } := h5.bal (.of_eq rfl rfl rfl rfl)
      have h6 := h5'.bal ((hk.emitString _ _).bal _ _ _ e6)
      dsimp only at e
      rw [M.pure_bind] at e
      obtain ⟨_, s7, e7, e⟩ := M.bind_eq_ok.mp e
      cases e
      exact h6.pop e7
    · rw [M.get_bind] at e
      split at e
      · obtain ⟨_, s6, e6, e⟩ := M.bind_eq_ok.mp e
        rw [M.pure_bind] at e
        obtain ⟨_, s7, e7, e⟩ := M.bind_eq_ok.mp e
        cases e
        exact (h5.replay hn e6).pop e7
      · obtain ⟨m, s6, e6, e⟩ := M.bind_eq_ok.mp e
        obtain ⟨hm, g6⟩ := inside_start e6
        obtain ⟨⟨y, z⟩, s7, e7, e⟩ := M.bind_eq_ok.mp e
        have g7 := g6.bal ((hk.emitString _ _).bal _ _ _ e7)
        dsimp only at e
        rw [M.get_bind] at e
        obtain ⟨_, s8, e8, e⟩ := M.bind_eq_ok.mp e
        have h8 := h5.bal (g7.close hm e8)
        obtain ⟨_, s9, e9, e⟩ := M.bind_eq_ok.mp e
        have h9 : Inside p s0 s9 := by
          unfold M.when at e9
          split at e9
          · unfold annotate at e9
            rw [M.pure_bind] at e9
            exact h8.replay hn e9
          · cases e9; exact h8
        rw [M.pure_bind] at e
        obtain ⟨_, s10, e10, e⟩ := M.bind_eq_ok.mp e
        cases e
        exact h9.pop e10

theorem close_emitNum (t : Es) (w : Str) {s0 s s' : S} {n : Int} {a : Str}
    (h : Inside false s0 s) (hn : n = s0.session + 1) (e : emitNum k t w n s = .ok a s') : BalR s0 s' := by
  unfold emitNum at e
  obtain ⟨r, s1, e1, e⟩ := M.bind_eq_ok.mp e
  have h1 := h.bal ((bal_parseNum hk _).bal _ _ _ e1)
  rw [M.get_bind] at e
  have fin : ∀ {s2 : S} {x : Str}, Inside false s0 s2 →
      (endSession n >>= fun _ => pure x : M Str) s2 = .ok a s' → BalR s0 s' := by
    intro s2 x h2 e2
    obtain ⟨_, s3, e3, e2⟩ := M.bind_eq_ok.mp e2
    cases e2
    exact h2.close hn e3
  cases r with
  | some v =>
    dsimp only at e
    cases hd : t.data with
    | none =>
      rw [hd] at e
      dsimp only at e
      simp only [M.bind_assoc, M.pure_bind] at e
      obtain ⟨_, s3, e3, e⟩ := M.bind_eq_ok.mp e
      exact fin (h1.replay hn e3) e
    | some p =>
      obtain ⟨aty, m⟩ := p
      rw [hd] at e
      dsimp only at e
      simp only [M.bind_assoc, M.pure_bind] at e
      obtain ⟨_, s2, e2, e⟩ := M.bind_eq_ok.mp e
      have h2 := h1.bal ((bal_writeArg _ _ _ _).bal _ _ _ e2)
      obtain ⟨_, s3, e3, e⟩ := M.bind_eq_ok.mp e
      have h3 := h2.bal ((bal_countData _).bal _ _ _ e3)
      obtain ⟨_, s4, e4, e⟩ := M.bind_eq_ok.mp e
      exact fin (h3.replay hn e4) e
  | none =>
    dsimp only at e
    split at e
    · cases hd : t.data with
      | none =>
        rw [hd] at e
        dsimp only at e
        simp only [M.bind_assoc, M.pure_bind] at e
        obtain ⟨_, s3, e3, e⟩ := M.bind_eq_ok.mp e
        exact fin (h1.replay hn e3) e
      | some p =>
        obtain ⟨aty, m⟩ := p
        rw [hd] at e
        dsimp only at e
        simp only [M.bind_assoc, M.pure_bind] at e
        obtain ⟨_, s2, e2, e⟩ := M.bind_eq_ok.mp e
        have h2 := h1.bal ((bal_addPassTwoExpr hk _ _ _ _).bal _ _ _ e2)
        obtain ⟨_, s3, e3, e⟩ := M.bind_eq_ok.mp e
        have h3 := h2.bal ((bal_countData _).bal _ _ _ e3)
        obtain ⟨_, s4, e4, e⟩ := M.bind_eq_ok.mp e
        exact fin (h3.replay hn e4) e
    · obtain ⟨⟨x1, name, nend⟩, s2, e2, e⟩ := M.bind_eq_ok.mp e
      have h2 := h1.bal ((bal_readExpr _ _ _).bal _ _ _ e2)
      dsimp only at e
      obtain ⟨⟨x2, x3, next⟩, s3, e3, e⟩ := M.bind_eq_ok.mp e
      have h3 := h2.bal ((bal_readExpr _ _ _).bal _ _ _ e3)
      dsimp only at e
      split at e
      · obtain ⟨_, s4, e4, e⟩ := M.bind_eq_ok.mp e
        exact fin (inside_echoError t h3 hn e4) e
      · obtain ⟨q, s4, e4, e⟩ := M.bind_eq_ok.mp e
        have h4 := h3.bal ((bal_searchDefines _ _).bal _ _ _ e4)
        cases q with
        | none =>
          dsimp only at e
          obtain ⟨_, s5, e5, e⟩ := M.bind_eq_ok.mp e
          exact fin (inside_echoError t h4 hn e5) e
        | some q =>
          dsimp only at e
          obtain ⟨_, s5, e5, e⟩ := M.bind_eq_ok.mp e
          exact fin (inside_emitDefine hk t _ _ h4 hn e5) e

omit hk in
/-- The ghost variable is never reset. -/
theorem stale_stays {α : Type} {m : M α} (h : Bal m) {s s' : S} {a : α} (e : m s = .ok a s')
    (hs : s.stale = true) : s'.stale = true := by
  cases hb : s'.stale with
  | true => rfl
  | false => have := (h.bal _ _ _ e hb).1; rw [hs] at this; cases this

theorem bal_emitLoop (t : Es) (f : Nat) (x : Bool) (n : Option Int) (o w : Str) :
    Bal (emitLoop k t f x n o w) := by
  induction f generalizing x n o w with
  | zero => unfold emitLoop; bal
  | succ f ih =>
    unfold emitLoop
    apply Bal.bind (bal_extractArg _ _)
    intro p
    obtain ⟨w1, x1, r1⟩ := p
    dsimp only
    cases w1 with
    | none => exact .pure _
    | some w1 =>
      dsimp only
      split
      · split
        · cases n with
          | none => exact .ub _
          | some n =>
            dsimp only
            constructor
            intro s a s' e hs
            rw [M.modify_bind] at e
            obtain ⟨y, s1, e1, e⟩ := M.bind_eq_ok.mp e
            obtain ⟨_, s2, e2, e⟩ := M.bind_eq_ok.mp e
            have g1 : s1.stale = true := by
              unfold echoError at e1
              obtain ⟨_, s3, e3, e1⟩ := M.bind_eq_ok.mp e1
              obtain ⟨_, s4, e4, e1⟩ := M.bind_eq_ok.mp e1
              cases e1
              have g3 : s3.stale = true := stale_stays (m := M.when _ (setError _)) (by bal) e3 rfl
              unfold replaySession at e4
              split at e4 <;> cases e4 <;> exact g3
            have g2 : s2.stale = true := by
              unfold endSession at e2
              dsimp only at e2
              split at e2
              · cases e2
              · cases e2; exact g1
            have := stale_stays (ih _ _ _ _) e g2
            rw [hs] at this; cases this
        · apply Bal.bind (bal_reduceString hk _)
          intro v
          split
          · exact Bal.bind (bal_emitChars _) fun _ => ih _ _ _ _
          · exact Bal.bind (bal_pure _) fun _ => ih _ _ _ _
      · constructor
        intro s a s' e
        obtain ⟨m, s1, e1, e⟩ := M.bind_eq_ok.mp e
        obtain ⟨hm, h1⟩ := inside_start e1
        obtain ⟨y, s2, e2, e⟩ := M.bind_eq_ok.mp e
        exact (close_emitNum hk t _ h1 hm e2).trans ((ih _ _ _ _).bal _ _ _ e)

theorem bal_emitStringBody (s : Str) (t : Es) : Bal (emitStringBody k s t) := by
  unfold emitStringBody; bal

omit hk in
theorem bal_matchLoop (p : Str) (m : Match) : Bal (matchLoop p m) := by
  induction p generalizing m with
  | nil => unfold matchLoop; bal
  | cons c t ih => unfold matchLoop; bal; all_goals exact ih _

omit hk in
theorem bal_matchInstr (i : Instr) (c s : Str) : Bal (matchInstr i c s) := by
  unfold matchInstr; bal

omit hk in
theorem bal_matchInstrs (c s : Str) (l : List Instr) (x : Str) : Bal (matchInstrs c s l x) := by
  induction l generalizing x with
  | nil => unfold matchInstrs; bal
  | cons i l ih => unfold matchInstrs; bal; all_goals exact ih _

omit hk in
theorem bal_matchArgs (c s : Str) (l : List Opcode) : Bal (matchArgs c s l) := by
  induction l with
  | nil => unfold matchArgs; bal
  | cons i l ih => unfold matchArgs; bal

theorem bal_writeOperands (il : Bool) (p : Str) (c : List (Str × Str)) (n : Int) (b : Option Str) : Bal (writeOperands k il p c n b) := by
  induction p generalizing c n b with
  | nil => unfold writeOperands; bal
  | cons x p ih => unfold writeOperands; bal; all_goals exact ih _ _ _

omit hk in
theorem bal_writeBytes (l : List Nat) : Bal (writeBytes l) := by
  induction l with
  | nil => unfold writeBytes; bal
  | cons i l ih => unfold writeBytes; bal

theorem bal_writeInstr (i : Instr) (c : List (Str × Str)) (x : Option Nat) : Bal (writeInstr k i c x) := by
  unfold writeInstr; bal

theorem bal_doInstr (o : List Opcode) (n r : Str) (x : Option Nat) : Bal (doInstr k o n r x) := by
  unfold doInstr; bal

theorem bal_dirOrg (s : Str) : Bal (dirOrg k s) := by
  unfold dirOrg; bal

omit hk in
theorem bal_writeFill (v : Int) (n : Nat) : Bal (writeFill v n) := by
  induction n with
  | zero => unfold writeFill; bal
  | succ n ih => unfold writeFill; bal

theorem bal_dirFill (s : Str) : Bal (dirFill k s) := by
  unfold dirFill; bal

omit hk in
theorem bal_addinstrFail (s : Str) : Bal (addinstrFail s) := by
  unfold addinstrFail; bal

theorem bal_dirAddinstr (s : Str) : Bal (dirAddinstr k s) := by
  unfold dirAddinstr; bal

theorem bal_dirEchoFile (s : Str) : Bal (dirEchoFile k s) := by
  unfold dirEchoFile; bal

theorem bal_dirEcho (w : Str) : Bal (dirEcho k w) := by
  unfold dirEcho
  split
  · bal
  · apply Bal.bind (bal_readExpr _ _ _)
    intro p
    obtain ⟨x, expr, r⟩ := p
    dsimp only
    constructor
    intro s a s' e
    obtain ⟨n, s1, e1, e⟩ := M.bind_eq_ok.mp e
    obtain ⟨hn, h1⟩ := inside_start e1
    obtain ⟨y, s2, e2, e⟩ := M.bind_eq_ok.mp e
    have h2 := h1.bal ((hk.emitString _ _).bal _ _ _ e2)
    rw [M.get_bind] at e
    have fin : ∀ {s3 : S}, Inside false s s3 →
        (endSession n >>= fun _ => pure (some r) : M (Option Str)) s3 = .ok a s' → BalR s s' := by
      intro s3 h3 e3
      obtain ⟨_, s4, e4, e3⟩ := M.bind_eq_ok.mp e3
      cases e3
      exact h3.close hn e4
    split at e
    · obtain ⟨_, s3, e3, e⟩ := M.bind_eq_ok.mp e
      exact fin (h2.bal ((bal_addPassTwoOutput hk _ _).bal _ _ _ e3)) e
    · split at e
      · obtain ⟨m, s3, e3, e⟩ := M.bind_eq_ok.mp e
        obtain ⟨hm, g3⟩ := inside_start e3
        obtain ⟨z, s4, e4, e⟩ := M.bind_eq_ok.mp e
        have g4 := g3.bal ((hk.emitString _ _).bal _ _ _ e4)
        obtain ⟨_, t4, f4, e⟩ := M.bind_eq_ok.mp e
        obtain ⟨_, s5, e5, e⟩ := M.bind_eq_ok.mp e
        have h5 := h2.bal ((g4.bal (Bal.bal (by bal) _ _ _ f4)).close hm e5)
        obtain ⟨_, s6, e6, e⟩ := M.bind_eq_ok.mp e
        exact fin (h5.replay hn e6) e
      · obtain ⟨z, s3, e3, e⟩ := M.bind_eq_ok.mp e
        have h3 := h2.bal ((hk.emitString _ _).bal _ _ _ e3)
        obtain ⟨_, s4, e4, e⟩ := M.bind_eq_ok.mp e
        exact fin (h3.bal ((bal_addPassTwoOutput hk _ _).bal _ _ _ e4)) e

theorem bal_dirError (s : Str) : Bal (dirError k s) := by
  unfold dirError; bal

omit hk in
theorem bal_setLastLabel (v : Int) : Bal (setLastLabel v) := by
  unfold setLastLabel; bal

theorem bal_dirEqu (s : Str) : Bal (dirEqu k s) := by
  unfold dirEqu; bal

theorem bal_dirShow (s : Str) : Bal (dirShow k s) := by
  unfold dirShow; bal

theorem bal_dirOption (f : Nat) (e : Bool) (s : Str) : Bal (dirOption k f e s) := by
  induction f generalizing e s with
  | zero => unfold dirOption; bal
  | succ f ih => unfold dirOption; bal; all_goals exact ih _ _

theorem bal_dirSeek (s : Str) : Bal (dirSeek k s) := by
  unfold dirSeek; bal

theorem bal_dirAssume (s : Str) : Bal (dirAssume k s) := by
  unfold dirAssume; bal

theorem bal_runDir (d : Dir) (s : Str) : Bal (runDir k d s) := by
  unfold runDir; bal

omit hk in
theorem bal_skipLine (w : List Str) (e f l : Nat) (s : Str) : Bal (skipLine w e f l s) := by
  induction f generalizing l s with
  | zero => unfold skipLine; bal
  | succ f ih => unfold skipLine; bal; all_goals exact ih _ _

omit hk in
theorem bal_skipLoop (u : Nat) (w : List Str) (f l : Nat) (n : Int) (s : Str) : Bal (skipLoop u w f l n s) := by
  induction f generalizing l n s with
  | zero => unfold skipLoop; bal
  | succ f ih => unfold skipLoop; bal; all_goals exact ih _ _ _

omit hk in
theorem bal_skipUntil (w : List Str) (b : Bool) (s : Str) : Bal (skipUntil k w b s) := by
  unfold skipUntil; bal

theorem bal_doIf (s : Str) (c : Bool) : Bal (doIf k s c) := by
  unfold doIf; bal

theorem bal_preopIfBody (s : Str) : Bal (preopIfBody k s) := by
  unfold preopIfBody; bal

theorem bal_preIfdef (w : Bool) (s : Str) : Bal (preIfdef k w s) := by
  unfold preIfdef; bal

omit hk in
theorem bal_skipQuietly (ws : List Str) (w : Str) : Bal (skipQuietly k ws w) := by
  constructor
  intro s a s' e
  unfold skipQuietly at e
  obtain ⟨n, s1, e1, e⟩ := M.bind_eq_ok.mp e
  obtain ⟨hn, h1⟩ := inside_start e1
  obtain ⟨y, s2, e2, e⟩ := M.bind_eq_ok.mp e
  obtain ⟨_, s3, e3, e⟩ := M.bind_eq_ok.mp e
  cases e
  exact (h1.bal ((bal_skipUntil _ _ _).bal _ _ _ e2)).close hn e3

omit hk in
theorem bal_argDefLoop (f : Nat) (e : Bool) (a : List Str) (s : Str) : Bal (argDefLoop f e a s) := by
  induction f generalizing e a s with
  | zero => unfold argDefLoop; bal
  | succ f ih => unfold argDefLoop; bal; all_goals exact ih _ _ _

omit hk in
theorem bal_parseArgDefs (r : DRef) (s : Str) : Bal (parseArgDefs r s) := by
  unfold parseArgDefs; bal

theorem bal_defineMacro (r : DRef) (b : Bool) (s : Str) : Bal (defineMacro k r b s) := by
  unfold defineMacro; bal

theorem bal_concatLoop (f : Nat) (e : Bool) (o s : Str) : Bal (concatLoop k f e o s) := by
  induction f generalizing e o s with
  | zero => unfold concatLoop; bal
  | succ f ih => unfold concatLoop; bal; all_goals exact ih _ _ _

theorem bal_definePlain (r : DRef) (b : Bool) (s : Str) : Bal (definePlain k r b s) := by
  unfold definePlain; bal

theorem bal_preDefine (s : Str) : Bal (preDefine k s) := by
  unfold preDefine; bal

theorem bal_preMacro (s : Str) : Bal (preMacro k s) := by
  unfold preMacro; bal

theorem bal_preDefcont (s : Str) : Bal (preDefcont k s) := by
  unfold preDefcont; bal

omit hk in
theorem bal_firstPassLoop {line : Str → M (Option Str)} (hl : ∀ s, Bal (line s)) (f : Nat) (s : Str) : Bal (firstPassLoop line f s) := by
  induction f generalizing s with
  | zero => unfold firstPassLoop; bal
  | succ f ih => unfold firstPassLoop; bal; all_goals first | exact hl _ | exact ih _

theorem bal_lineLoop (f : Nat) (s : Str) : Bal (lineLoop k f s) := by
  induction f generalizing s with
  | zero => unfold lineLoop; bal
  | succ f ih => unfold lineLoop; bal; all_goals exact ih _

theorem bal_runLine (s : Str) : Bal (runLine k s) := by
  unfold runLine; bal

theorem bal_runFirstPass (s : Str) : Bal (runFirstPass k s) := by
  unfold runFirstPass; bal

theorem bal_preInclude {b : List Nat → M Unit} (hb : ∀ l, Bal (b l)) (s : Str) : Bal (preInclude k b s) := by
  unfold preInclude; bal; all_goals exact hb _

omit hk in
theorem bal_importBytes (l : List Nat) : Bal (importBytes l) := by
  induction l with
  | nil => unfold importBytes; bal
  | cons i l ih => unfold importBytes; bal

omit hk in
theorem bal_preImport (s : Str) : Bal (preImport s) := by
  unfold preImport; bal

theorem bal_handlePreopBody {b : List Nat → M Unit} (hb : ∀ l, Bal (b l)) (s : Str) : Bal (handlePreopBody k b s) := by
  unfold handlePreopBody; bal

omit hk in
theorem bal_setBuf (i : Nat) (v : Option Str) : Bal (setBuf i v) := by
  unfold setBuf; bal

theorem bal_fcBuf (s : Str) : Bal (fcBuf k s) := by
  unfold fcBuf; bal

omit hk in
theorem bal_fcClr (s : Str) : Bal (fcClr s) := by
  unfold fcClr; bal

theorem bal_fcWr (s : Str) : Bal (fcWr k s) := by
  unfold fcWr; bal

theorem bal_fcRun (w : Str) : Bal (fcRun k w) := by
  unfold fcRun
  apply Bal.bind bal_get
  intro st
  split
  · bal
  · split
    · bal
    · apply Bal.bind
      · bal
      intro _
      constructor
      intro s a s' e
      obtain ⟨n, s1, e1, e⟩ := M.bind_eq_ok.mp e
      obtain ⟨hn, h1⟩ := inside_start e1
      obtain ⟨_, s2, e2, e⟩ := M.bind_eq_ok.mp e
      have h2 := h1.bal ((bal_runFirstPass hk _).bal _ _ _ e2)
      rw [M.modify_bind, M.get_bind] at e
      replace h2 := h2.bal (.of_eq rfl rfl rfl rfl :
        BalR s2 { s2 with currFile := st.currFile, lineNum := st.lineNum, inMacro := st.inMacro })
      cases hb : bufIndex { s2 with currFile := st.currFile, lineNum := st.lineNum, inMacro := st.inMacro } with
      | none => rw [hb] at e; cases e
      | some j =>
        rw [hb] at e
        dsimp only at e
        split at e
        · cases e
        · obtain ⟨_, s3, e3, e⟩ := M.bind_eq_ok.mp e
          have h3 := h2.bal ((bal_setBuf _ _).bal _ _ _ e3)
          rw [M.get_bind] at e
          obtain ⟨_, s4, e4, e⟩ := M.bind_eq_ok.mp e
          have h4 : Inside false s s4 := by
            unfold M.when at e4
            split at e4
            · unfold annotate at e4
              rw [M.pure_bind] at e4
              exact h3.replay hn e4
            · cases e4; exact h3
          obtain ⟨_, s5, e5, e⟩ := M.bind_eq_ok.mp e
          cases e
          exact h4.close hn e5

theorem bal_macroLoop (f : Nat) (s : Str) : Bal (macroLoop k f s) := by
  induction f generalizing s with
  | zero => unfold macroLoop; bal
  | succ f ih => unfold macroLoop; bal; all_goals exact ih _

theorem bal_runMacro (d : Define) (s : Str) : Bal (runMacro k d s) := by
  unfold runMacro; bal

theorem bal_callMacro (d : Define) (w : Str) : Bal (callMacro k d w) := by
  constructor
  intro s a s' e
  unfold callMacro at e
  obtain ⟨n, s1, e1, e⟩ := M.bind_eq_ok.mp e
  obtain ⟨hn, h1⟩ := inside_start e1
  obtain ⟨⟨r, p⟩, s2, e2, e⟩ := M.bind_eq_ok.mp e
  have h2 := h1.push (push_parseArgs hk _ _ e2)
  dsimp only at e h2
  rw [M.get_bind] at e
  have fin : ∀ {s3 : S}, Inside p s s3 →
      (do
        removeArgSet p
        annotate n
        replayFatal n
        endSession n
        pure r : M Str) s3 = .ok a s' → BalR s s' := by
    intro s3 h3 e3
    obtain ⟨_, s4, e4, e3⟩ := M.bind_eq_ok.mp e3
    unfold annotate at e3
    rw [M.pure_bind] at e3
    obtain ⟨_, s5, e5, e3⟩ := M.bind_eq_ok.mp e3
    obtain ⟨_, s6, e6, e3⟩ := M.bind_eq_ok.mp e3
    cases e3
    exact ((h3.pop e4).replay hn e5).close hn e6
  split at e
  · obtain ⟨_, s3, e3, e⟩ := M.bind_eq_ok.mp e
    exact fin (h2.bal ((bal_runMacro hk _ _).bal _ _ _ e3)) e
  · exact fin h2 e

theorem bal_opcodeOrMacro (s : Str) : Bal (opcodeOrMacro k s) := by
  unfold opcodeOrMacro; bal

theorem bal_handleDirective (s : Str) : Bal (handleDirective k s) := by
  unfold handleDirective; bal

theorem bal_assign (s : Str) : Bal (assign k s) := by
  unfold assign; bal

theorem bal_lineSecLoop (f : Nat) (s : Str) : Bal (lineSecLoop k f s) := by
  induction f generalizing s with
  | zero => unfold lineSecLoop; bal
  | succ f ih => unfold lineSecLoop; bal; all_goals exact ih _

theorem bal_lineSecBody (s : Str) : Bal (lineSecBody k s) := by
  unfold lineSecBody; bal

theorem bal_defineIs (n : Str) (v : Int) : Bal (defineIs k n v) := by
  unfold defineIs; bal

theorem bal_writeMask (l : List Nat) : Bal (writeMask k l) := by
  induction l with
  | nil => unfold writeMask; bal
  | cons b l ih => unfold writeMask; bal

theorem bal_maskPart (g : List (List (Nat × Nat))) : Bal (maskPart k g) := by
  unfold maskPart; bal

theorem bal_bitmapPart (b : Bmp) (r : Rect) : Bal (bitmapPart k b r) := by
  unfold bitmapPart; bal

theorem bal_bitmapStrips (b : Bmp) (r : Rect) (m : Int) (f : Nat) (l w : Int) : Bal (bitmapStrips k b r m f l w) := by
  induction f generalizing l w with
  | zero => unfold bitmapStrips; bal
  | succ f ih => unfold bitmapStrips; bal; all_goals exact ih _ _

theorem bal_bitmapAll (b : Bmp) (r : Rect) (m w : Int) : Bal (bitmapAll k b r m w) := by
  unfold bitmapAll; bal

omit hk in
theorem bal_writePair (v : Int) : Bal (writePair v) := by
  unfold writePair; bal

omit hk in
theorem bal_writeSmall (v : Int) (m : Msg) : Bal (writeSmall v m) := by
  unfold writeSmall; bal

theorem bal_bitmapSize (w h : Int) : Bal (bitmapSize k w h) := by
  unfold bitmapSize; bal

theorem bal_headerToken (w h : Int) (p : Str) : Bal (headerToken k w h p) := by
  unfold headerToken; bal

theorem bal_headerTokens (w h : Int) (l : List Str) : Bal (headerTokens k w h l) := by
  induction l with
  | nil => unfold headerTokens; bal
  | cons p l ih => unfold headerTokens; bal

theorem bal_bitmapHeader (r : Rect) : Bal (bitmapHeader k r) := by
  unfold bitmapHeader; bal

omit hk in
theorem bal_imageLabel (b : Option Str) (x : Str) (v : Int) : Bal (imageLabel b x v) := by
  unfold imageLabel; bal

theorem bal_mapNumbers (l : List Str) (i : Nat) (v : Int × Int × Int) : Bal (mapNumbers k l i v) := by
  induction l generalizing i v with
  | nil => unfold mapNumbers; bal
  | cons p l ih => unfold mapNumbers; bal; all_goals exact ih _ _

theorem bal_mapLoop (b : Bmp) (base : Option Str) (w h p : Int) (f : Nat) (l t c n : Int) : Bal (mapLoop k b base w h p f l t c n) := by
  induction f generalizing l t c n with
  | zero => unfold mapLoop; bal
  | succ f ih => unfold mapLoop; bal; all_goals exact ih _ _ _ _

theorem bal_bitmapMap (b : Bmp) (base : Option Str) (p : Int) (r : DRef) (c : Str) : Bal (bitmapMap k b base p r c) := by
  unfold bitmapMap; bal

theorem bal_bitmapSingle (b : Bmp) (base : Option Str) (m : Int) : Bal (bitmapSingle k b base m) := by
  unfold bitmapSingle; bal

theorem bal_handleBitmap (l : List Nat) : Bal (handleBitmap k l) := by
  unfold handleBitmap; bal


end Spasm
