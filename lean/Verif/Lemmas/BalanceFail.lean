import Verif.Lemmas.BalanceRun

/-! Balanced runs, concluded: failing evaluation, and the whole program. -/

namespace Spasm

variable {k : Rec} (hk : RecBal k)
include hk

/-! ### Failing evaluation puts a problem on record -/

section
omit hk

/-- A result `none` comes with a new problem. -/
def Loud {β : Type} (m : M (Option β)) : Prop := ∀ s s', m s = .ok none s' → Grew s s'

theorem Loud.some {β : Type} (b : β) : Loud (pure (some b) : M (Option β)) := by
  intro s s' e; cases e

theorem Loud.ub {β : Type} (u : UB) : Loud (M.ub u : M (Option β)) := by
  intro s s' e; cases e

theorem Loud.fuel {β : Type} : Loud (M.halt .fuel : M (Option β)) := by
  intro s s' e; cases e

theorem Loud.bind {α β : Type} {m : M α} {f : α → M (Option β)} (h : Bal m) (hf : ∀ a, Loud (f a))
    (hb : ∀ a, Bal (f a)) : Loud (m >>= f) := by
  intro s s'' e
  obtain ⟨a, s', e1, e2⟩ := M.bind_eq_ok.mp e
  exact Grew.trans_bal (h.bal _ _ _ e1) (hf a _ _ e2) ((hb a).bal _ _ _ e2)

theorem Loud.error {β : Type} {c : Nat} (hc : c ≠ 0) {f : Unit → M (Option β)} (hf : ∀ a, Bal (f a)) :
    Loud (setError c >>= f) := by
  intro s s'' e
  obtain ⟨a, s', e1, e2⟩ := M.bind_eq_ok.mp e
  exact Grew.bal_trans (grew_setError hc e1) ((hf a).bal _ _ _ e2) ((bal_setError c).bal _ _ _ e1)

theorem Loud.map {β γ : Type} {m : M (Option β)} (h : Loud m) (f : β → γ) :
    Loud (m >>= fun v => pure (v.map f)) := by
  intro s s'' e
  obtain ⟨a, s', e1, e2⟩ := M.bind_eq_ok.mp e
  cases a with
  | none => cases e2; exact h _ _ e1
  | some b => cases e2

theorem loud_convGeneric (b e : Nat) (he : e ≠ 0) (s : Str) (n : Nat) : Loud (convGeneric b e s n) := by
  unfold convGeneric
  dsimp only
  split
  · exact .error he fun _ => .pure _
  · split
    · exact .error (by decide) fun _ => .pure _
    · exact .some _

theorem loud_getOp (d : Int) (f : Nat) (t : Str) {s s' : S} (e : getOp d f t s = .ok .fail s') : Grew s s' := by
  induction f generalizing t s with
  | zero => unfold getOp at e; cases e
  | succ f ih =>
    unfold getOp at e
    dsimp only at e
    split at e
    · obtain ⟨_, s1, e1, e⟩ := M.bind_eq_ok.mp e
      rw [M.modify_bind] at e
      cases e
    · cases hm : matchOp (skipWs t) with
      | some q =>
        rw [hm] at e
        obtain ⟨o, r⟩ := q
        dsimp only at e
        split at e
        · obtain ⟨_, s1, e1, e⟩ := M.bind_eq_ok.mp e
          cases e
          exact grew_setError (by decide) e1
        · cases e
      | none =>
        rw [hm] at e
        dsimp only at e
        split at e
        · split at e
          · rw [M.modify_bind] at e; cases e
          · obtain ⟨_, s1, e1, e⟩ := M.bind_eq_ok.mp e
            exact Grew.trans_bal ((bal_showWarning _).bal _ _ _ e1) (ih _ e) ((bal_getOp _ _ _).bal _ _ _ e)
        · obtain ⟨_, s1, e1, e⟩ := M.bind_eq_ok.mp e
          cases e
          exact grew_setError (by decide) e1

theorem loud_closeQuote (s : Str) (v : Int) : Loud (closeQuote s v) := by
  unfold closeQuote
  split
  · exact .bind (bal_showWarning _) (fun _ => .some _) (fun _ => .pure _)
  · exact .some _

theorem loud_parseChar (s : Str) : Loud (parseChar s) := by
  unfold parseChar
  split
  · exact .ub _
  · split
    · exact .ub _
    · exact loud_closeQuote _ _
  · split
    · exact .bind (bal_escapeVal _) (fun _ => loud_closeQuote _ _) (fun _ => bal_closeQuote _ _)
    · exact loud_closeQuote _ _

theorem loud_parsePlus (s : Str) : Loud (parsePlus s) := by
  unfold parsePlus
  refine .bind bal_get (fun st => ?_) (fun st => by bal)
  dsimp only
  split
  · exact .error (by decide) fun _ => .pure _
  · split
    · exact .error (by decide) fun _ => .pure _
    · exact .bind (bal_searchReusables _) (fun _ => .some _) (fun _ => .pure _)

theorem loud_parseMinus (s : Str) : Loud (parseMinus s) := by
  unfold parseMinus
  refine .bind bal_get (fun st => ?_) (fun st => by bal)
  dsimp only
  split
  · exact .error (by decide) fun _ => .pure _
  · exact .bind (bal_searchReusables _) (fun _ => .some _) (fun _ => .pure _)

theorem loud_parseDigits (s : Str) : Loud (parseDigits s) := by
  unfold parseDigits
  dsimp only
  split
  · exact Loud.map (loud_convGeneric 16 _ (by decide) _ _) _
  · split
    · exact Loud.map (loud_convGeneric 2 _ (by decide) _ _) _
    · split
      · exact Loud.map (loud_convGeneric 10 _ (by decide) _ _) _
      · exact Loud.map (loud_convGeneric 10 _ (by decide) _ _) _

end

omit hk in
theorem loud_parseGetc (s : Str) : Loud (parseGetc k s) := by
  intro st st' e
  unfold parseGetc at e
  obtain ⟨p, s1, e1, e⟩ := M.bind_eq_ok.mp e
  obtain ⟨x, fname, s'⟩ := p
  dsimp only at e
  obtain ⟨q, s2, e2, e⟩ := M.bind_eq_ok.mp e
  have fin : ∀ (fname : Str) (s2 : S), (do
      let (_, buf, s) ← readExpr [44] s'
      let idx ← parseF k buf
      let rfn ← reduceString k fname
      let st ← M.get
      match st.fs (fixFilename rfn) with
      | none => do
        setError E.FILE_NOT_FOUND
        M.ub .uninitialised
      | some bytes =>
        let pos := if idx < 0 then 0 else idx.toNat
        let v : Int := match bytes[pos]? with | some b => b | none => -1
        pure (some (dropChar 41 s, v)) : M (Option (Str × Int))) s2 = .ok none st' → False := by
    intro fname s2 e
    obtain ⟨p, s3, e3, e⟩ := M.bind_eq_ok.mp e
    dsimp only at e
    obtain ⟨p, s4, e4, e⟩ := M.bind_eq_ok.mp e
    obtain ⟨p, s5, e5, e⟩ := M.bind_eq_ok.mp e
    rw [M.get_bind] at e
    cases hf : s5.fs (fixFilename p) with
    | none =>
      rw [hf] at e
      dsimp only at e
      obtain ⟨p, s6, e6, e⟩ := M.bind_eq_ok.mp e
      cases e
    | some b => rw [hf] at e; cases e
  cases q with
  | none =>
    dsimp only at e
    exact (fin _ _ e).elim
  | some q =>
    obtain ⟨ref, d⟩ := q
    dsimp only at e
    cases hc : d.contents with
    | none => rw [hc] at e; cases e
    | some c => rw [hc] at e; exact (fin _ _ e).elim

theorem loud_parseName (s : Str) : Loud (parseName k s) := by
  have main : ∀ (st : S) (def_ : Option Define) (m : M (Option (Str × Int))), m = (
      if takeName s == [95] then
        if getCurrReusable st + 1 < st.totalReusables then do
          let v ← searchReusables (getCurrReusable st + 1)
          pure (some (skipNameEnd s, v))
        else do
          setError E.LOCAL_LABEL_FORWARD_REF
          pure none
      else
        match (if (searchLocal (takeName s) st).isSome then none else searchLabels (takeName s) st) with
        | some l => pure (some (skipNameEnd s, l.value))
        | none =>
          if eqCase (takeName s) (b! "eval") && hd (skipNameEnd s) == 40 then k.numFull (skipNameEnd s) 0
          else if eqCase (takeName s) (b! "getc") && hd (skipNameEnd s) == 40 then parseGetc k (skipNameEnd s).tail
          else
            match def_ with
            | some d => parseMacro k d (skipNameEnd s)
            | none => do
              setError E.LABEL_NOT_FOUND
              M.modify fun st => { st with fwdRef := true }
              pure none) → Loud m ∧ Bal m := by
    intro st def_ m hm
    subst hm
    constructor
    · split
      · split
        · exact .bind (bal_searchReusables _) (fun _ => .some _) (fun _ => .pure _)
        · exact .error (by decide) fun _ => .pure _
      · split
        · exact .some _
        · split
          · exact hk.numFail _ _
          · split
            · exact loud_parseGetc _
            · split
              · intro s1 s2 e
                exact (parseMacro_both hk _ _ e).2 rfl
              · exact .error (by decide) fun _ => by bal
    · bal
      all_goals first
        | exact .pure _
        | exact hk.numFull _ _
        | exact bal_parseGetc hk _
        | exact bal_parseMacro hk _ _
  have main2 : ∀ (st : S) (m : M (Option (Str × Int))) (f : Option Define → M (Option (Str × Int))),
      (∀ d, Loud (f d) ∧ Bal (f d)) →
      m = (searchDefines (takeName s) >>= fun d => f (d.map (·.2))) → Loud m ∧ Bal m := by
    intro st m f hf hm
    subst hm
    exact ⟨.bind (bal_searchDefines _ _) (fun d => (hf _).1) (fun d => (hf _).2),
      .bind (bal_searchDefines _ _) (fun d => (hf _).2)⟩
  intro s1 s2 e
  unfold parseName at e
  dsimp only at e
  rw [M.get_bind] at e
  cases hl : searchLocal (takeName s) s1 with
  | some d =>
    have hm := main s1 (some d) _ rfl
    rw [hl] at hm e
    exact hm.1 _ _ e
  | none =>
    have hm := fun d => main s1 d _ rfl
    simp only [hl, Option.isSome_none, Bool.false_eq_true, if_false, M.pure_bind] at hm e
    by_cases hx : (searchLabels (takeName s) s1).isSome = true
    · rw [if_pos hx] at e
      exact (hm none).1 _ _ e
    · rw [if_neg hx] at e
      exact (main2 s1 _ _ hm rfl).1 _ _ e

theorem loud_parseSingle (s : Str) : Loud (parseSingle k s) := by
  unfold parseSingle
  dsimp only
  split
  · exact loud_parsePlus s
  · split
    · exact loud_parseMinus s
    · split
      · split
        · exact Loud.map (loud_convGeneric 16 _ (by decide) _ _) _
        · exact .bind bal_get (fun _ => .some _) (fun _ => .pure _)
      · split
        · exact Loud.map (loud_convGeneric 2 _ (by decide) _ _) _
        · split
          · exact loud_parseChar _
          · split
            · exact loud_parseName hk s
            · split
              · exact loud_parseDigits s
              · exact .error (by decide) fun _ => .pure _

omit hk in
theorem ofInt_err (v : Int) (c : Nat) : OpRes.ofInt v ≠ .err c := by
  unfold OpRes.ofInt
  split <;> simp

omit hk in
theorem applyOp_err {o : Option Op} {t v : Int} {c : Nat} (h : applyOp o t v = .err c) : c ≠ 0 := by
  unfold applyOp at h
  split at h
  · cases h; decide
  · split at h
    · cases h; decide
    · split at h
      all_goals first
        | exact absurd h (ofInt_err _ _)
        | (split at h <;> cases h)
        | cases h

theorem loud_numLoop (d : Int) (f : Nat) (t : Int) (o : Option Op) (w : Str) : Loud (numLoop k d f t o w) := by
  induction f generalizing t o w with
  | zero => unfold numLoop; exact .fuel
  | succ f ih =>
    intro s s' e
    unfold numLoop at e
    dsimp only at e
    have fin : ∀ (r : Option (Str × Int)) (s1 : S), (r = none → Grew s s1) → BalR s s1 →
        ((match r with
        | none => pure none
        | some (x, v) =>
          let v := if (unary w).1 then icpl v else v
          if (unary w).2.1 && v == intMin then M.ub .signedOverflow
          else
            let v := if (unary w).2.1 then -v else v
            match applyOp o t v with
            | .err c => do
              setError c
              pure none
            | .ub u => M.ub u
            | .val total => do
              match ← getOp d (x.length + 1) x with
              | .fail => pure none
              | .done s => pure (some (s, total))
              | .op o s => numLoop k d f total (some o) s) : M (Option (Str × Int))) s1 = .ok none s' →
        Grew s s' := by
      intro r s1 hr hb e
      cases r with
      | none => cases e; exact hr rfl
      | some p =>
        obtain ⟨x, v⟩ := p
        dsimp only at e
        generalize (if (unary w).1 = true then icpl v else v) = v at e
        split at e
        · cases e
        · cases ha : applyOp o t (if (unary w).2.1 = true then -v else v) with
          | err c =>
            rw [ha] at e
            dsimp only at e
            obtain ⟨_, s2, e2, e⟩ := M.bind_eq_ok.mp e
            cases e
            have hc := applyOp_err ha
            exact Grew.trans_bal hb (grew_setError hc e2) ((bal_setError c).bal _ _ _ e2)
          | ub u => rw [ha] at e; cases e
          | val total =>
            rw [ha] at e
            dsimp only at e
            obtain ⟨nx, s2, e2, e⟩ := M.bind_eq_ok.mp e
            have hb2 := hb.trans ((bal_getOp _ _ _).bal _ _ _ e2)
            cases nx with
            | done s => cases e
            | fail =>
              cases e
              exact Grew.trans_bal hb (loud_getOp _ _ _ e2) ((bal_getOp _ _ _).bal _ _ _ e2)
            | op o' r' => exact Grew.trans_bal hb2 (ih _ _ _ _ _ e) ((bal_numLoop hk _ _ _ _ _).bal _ _ _ e)
    split at e
    · obtain ⟨r, s1, e1, e⟩ := M.bind_eq_ok.mp e
      refine fin r s1 ?_ ((hk.numFull _ _).bal _ _ _ e1) e
      rintro rfl
      exact hk.numFail _ _ _ _ e1
    · obtain ⟨r, s1, e1, e⟩ := M.bind_eq_ok.mp e
      refine fin r s1 ?_ ((bal_parseSingle hk _).bal _ _ _ e1) e
      rintro rfl
      exact loud_parseSingle hk _ _ _ e1

theorem loud_numFullBody (s : Str) (d : Int) : Loud (numFullBody k s d) := by
  unfold numFullBody
  refine .bind (by bal) (fun _ => ?_) (fun _ => by bal)
  refine .bind bal_get (fun st => ?_) (fun _ => by bal)
  split
  · exact .error (by decide) fun _ => .pure _
  · dsimp only
    split
    · exact .error (by decide) fun _ => .pure _
    · exact loud_numLoop hk _ _ _ _ _

omit hk in
/-- Every function of the program is balanced. -/
theorem bal_knot (n : Nat) : RecBal (knot n) := by
  induction n with
  | zero =>
    constructor <;> intros
    all_goals first | exact Bal.halt _ | exact Loud.fuel _ _ (by assumption)
  | succ n ih =>
    exact {
      numFull := bal_numFullBody ih
      numFail := loud_numFullBody ih
      expandFull := bal_expandFullBody ih
      handlePreop := bal_handlePreopBody ih (bal_handleBitmap ih)
      preopIf := bal_preopIfBody ih
      lineSec := bal_lineSecBody ih
      emitString := bal_emitStringBody ih }

end Spasm
