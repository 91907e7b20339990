import Verif.Spec.Calls
import Verif.Props.Function

/-
Evaluation of expressions with calls of functions anywhere, by induction over the specification.
-/

namespace Spasm
open Spec Props

/-! ### Scopes and states -/

/-- In this state, names mean (at least) what the scope says. A label may be given as a parameter with a number. -/
structure Shows (s : S) (E : Scope) : Prop where
  pc : E.pc = toI32 s.pc
  key : E.key = nameKey s
  label : ∀ w v, E.label w = some v → visibleLabel s w = some v ∨
    (visibleText s w = some (numberText v) ∧ -2147483648 < v ∧ v ≤ 2147483647)
  text : ∀ w x, E.text w = some x → visibleText s w = some x
  func : ∀ w ps x, E.func w = some (ps, x) → ∃ df, defineOf s w = some df ∧ df.args = ps ∧ df.contents = some x ∧ argumentOf s w = none ∧
    labelOf s w = none ∧ ¬ Maintained s w

theorem shows_scopeOf (s : S) : Shows s (scopeOf s) := by
  refine ⟨rfl, rfl, fun w v h => .inl h, fun w x h => h, ?_⟩
  intro w ps x h
  have h' : visibleFunc s w = some (ps, x) := h
  unfold visibleFunc at h'
  split at h'
  · rename_i hc
    obtain ⟨df, h1, h2⟩ := Option.bind_eq_some_iff.1 h'
    obtain ⟨c, h3, h4⟩ := Option.map_eq_some_iff.1 h2
    obtain ⟨h5, h6⟩ := Prod.mk.inj h4
    exact ⟨df, h1, h5, by rw [h3, h6], hc.1, hc.2.1, hc.2.2⟩
  · cases h'

theorem shows_inner {s : S} {E : Scope} (h : Shows s E) (hs : Settled s) (l q : Int) (hq : s.session ≤ q) :
    Shows { s with lineNum := l, session := q } E := by
  have htxt : visibleText { s with lineNum := l, session := q } = visibleText s := visibleText_session s q hq hs.2
  exact ⟨h.pc, h.key, fun w v hv => by rw [htxt]; exact h.label w v hv, fun w x hx => by rw [htxt]; exact h.text w x hx, h.func⟩

/-- With parameters bound, the other names keep their meaning. -/
theorem shows_without {s st : S} {E : Scope} (h : Shows s E) (done : List Str) (set : Table Define) (hset : OnlyParams s done set)
    (hpc : st.pc = s.pc) (hc : st.caseSens = s.caseSens) (ha : st.argSets = set :: s.argSets) (hl : st.labels = s.labels) (hd : st.defines = s.defines)
    (hs : Settled s) (hs' : Settled st) : Shows st (E.without done) := by
  have hk : ∀ w, nameKey st w = nameKey s w := by intro w; unfold nameKey; rw [hc]
  obtain ⟨v1, v2⟩ := visible_push s st done set hset hc ha hl hd hs hs'
  refine ⟨h.pc.trans (by rw [hpc]), h.key.trans (by funext w; exact (hk w).symm), ?_, ?_, ?_⟩
  · intro w v hv
    simp only [Scope.without] at hv
    split at hv
    · cases hv
    · rename_i hw
      rw [h.key] at hw
      rcases h.label w v hv with h1 | ⟨h1, h2⟩
      · exact .inl (v1 w v (by unfold outerLabel; rw [if_neg (show ¬ IsParam s done w from hw)]; exact h1))
      · exact .inr ⟨v2 w _ (by unfold outerText; rw [if_neg (show ¬ IsParam s done w from hw)]; exact h1), h2⟩
  · intro w x hx
    simp only [Scope.without] at hx
    split at hx
    · cases hx
    · rename_i hw
      rw [h.key] at hw
      exact v2 w _ (by unfold outerText; rw [if_neg (show ¬ IsParam s done w from hw)]; exact h.text w x hx)
  · intro w ps x hx
    simp only [Scope.without] at hx
    split at hx
    · cases hx
    · rename_i hw
      rw [h.key] at hw
      obtain ⟨df, f1, f2, f3, f4, f5, f6⟩ := h.func w ps x hx
      refine ⟨df, ?_, f2, f3, ?_, ?_, ?_⟩
      · unfold defineOf at f1 ⊢; rw [hd, hk]; exact f1
      · rw [argumentOf_push s st set w hc ha, hset w hw]; exact f4
      · unfold labelOf at f5 ⊢; rw [hl, hk]; exact f5
      · unfold Maintained at f6 ⊢; rw [hk]; exact f6

/-- In the text of a function. -/
theorem shows_bind {s st : S} {E : Scope} (h : Shows s E) (params args : List Str) (vs : List Int) (set : Table Define)
    (hb : Bindings s params args (vs.map some) set) (hp : E.Parameters params) (hlen : args.length = params.length) (hlen' : vs.length = params.length)
    (hr : ∀ v ∈ vs, -2147483648 < v ∧ v ≤ 2147483647)
    (hpc : st.pc = s.pc) (hc : st.caseSens = s.caseSens) (ha : st.argSets = set :: s.argSets) (hl : st.labels = s.labels) (hd : st.defines = s.defines)
    (hs : Settled s) (hs' : Settled st) : Shows st (E.bind params vs) := by
  have only : OnlyParams s params set := by
    intro w hw
    have := hb.others w hw
    rwa [← lookup_eq] at this
  have hw := shows_without h params set only hpc hc ha hl hd hs hs'
  refine ⟨hw.pc, hw.key, ?_, hw.text, hw.func⟩
  intro w v hv
  simp only [Scope.bind] at hv
  split at hv
  · rename_i hin
    right
    obtain ⟨q, hq, hqv⟩ := Option.map_eq_some_iff.1 hv
    have hmem := List.mem_of_find?_eq_some hq
    have hkey := List.find?_some hq
    simp only [decide_eq_true_eq] at hkey
    obtain ⟨p, v'⟩ := q
    cases hqv
    rw [h.key] at hkey
    obtain ⟨i, hi, hget⟩ := List.getElem_of_mem hmem
    rw [List.getElem_zip] at hget
    simp only [List.length_zip] at hi
    have hia : i < args.length := by omega
    have hm3 : (p, args[i], some v') ∈ params.zip (args.zip (vs.map some)) := by
      refine List.mem_iff_getElem.2 ⟨i, by simp only [List.length_zip, List.length_map]; omega, ?_⟩
      rw [List.getElem_zip, List.getElem_zip, List.getElem_map]
      simp only [Prod.mk.injEq] at hget ⊢
      exact ⟨hget.1, trivial, by rw [hget.2]⟩
    obtain ⟨df, x, h1, h2, h3, h4⟩ := hb.bound p args[i] (some v') hm3
    have hpm : p ∈ params := (List.of_mem_zip hmem).1
    have hm : ¬ Maintained st w := by
      have := hp.fixed p hpm
      rw [h.key] at this
      unfold Maintained
      have hk : nameKey st w = nameKey s p := by rw [show nameKey s p = nameKey s w from hkey]; unfold nameKey; rw [hc]
      rw [hk]
      rintro (h | h)
      · exact this.1 h
      · exact this.2 h
    refine ⟨?_, hr v' (List.of_mem_zip hmem).2⟩
    have h4' : x = numberText v' := h4
    rw [← h4']
    exact visibleText_bound s st set s.argSets hc ha hs' w df x hm (by rw [show nameKey s w = nameKey s p from hkey.symm]; exact h1) h2 h3
  · rename_i hin
    refine hw.label w v ?_
    simp only [Scope.without]
    rw [if_neg hin]
    exact hv

/-- A number as text is an expression with this value. -/
theorem numberText_denotes (v : Int) (hr : -2147483648 < v ∧ v ≤ 2147483647) (pc : Int) (label : Str → Option Int) (text : Str → Option Str) :
    Denotes pc label text 0 (numberText v) v := by
  obtain ⟨ds, hne, hds, hval, he⟩ := NumberText.digits (v := v) (x := numberText v) rfl
  rw [he]
  have hlit : Atom pc label (36 :: ds) (asInt32 (value 16 ds)) := by
    refine .literal 16 ds _ ⟨hne, fun c hc => ?_, .inl ⟨rfl, rfl, ?_⟩⟩ hds (by rw [hval]; omega)
    · obtain ⟨d, hd, -⟩ := hds c hc
      unfold digit at hd
      unfold Alnum
      split at hd
      · omega
      · split at hd
        · omega
        · split at hd
          · omega
          · cases hd
    · cases ds with
      | nil => exact absurd rfl hne
      | cons c u => exact hds c (by simp)
  have hnb : Blanks [] := by intro c hc; cases hc
  rw [hval] at hlit
  by_cases hneg : v < 0
  · have := Denotes.one (text := text) _ _ _ (.minus _ [] _ _ hnb (.atom _ _ hlit) (by unfold asInt32; split <;> omega))
    rw [if_pos hneg]
    have hv : -asInt32 v.natAbs = v := by unfold asInt32; split <;> omega
    rw [hv] at this
    exact this
  · have := Denotes.one (text := text) _ _ _ (.plain _ _ _ (.atom _ _ hlit))
    rw [if_neg hneg]
    have hv : asInt32 v.natAbs = v := by unfold asInt32; split <;> omega
    rw [hv] at this
    exact this

/-! ### The shape of expressions -/

theorem FunOperand_start {E : Scope} {d : Nat} {t : Str} {v : Int} (h : FunOperand E d t v) :
    ∃ c r, t = c :: r ∧ Starter c ∧ (c = 95 → ∃ c' r', r = c' :: r' ∧ NameChar c') := by
  cases h with
  | atom E d t v h => obtain ⟨c, r, h1, h2, _, h4⟩ := Atom_start h; exact ⟨c, r, h1, h2, h4⟩
  | paren E d b t b' v => exact ⟨40, b ++ t ++ b' ++ [41], by simp, by unfold Starter; omega, by omega⟩
  | named E d t b e b' v hn => obtain ⟨c, r, h1, h2, _, h4⟩ := Name_start hn; exact ⟨c, r, h1, h2, h4⟩
  | call E d name params args t vs b e b' v hn =>
    obtain ⟨c, r, h1, h2, _, h4⟩ := Name_start hn
    refine ⟨c, r ++ [40] ++ t ++ [41], by rw [h1]; simp, h2, ?_⟩
    intro hc
    obtain ⟨c', r', hr, hn⟩ := h4 hc
    exact ⟨c', r' ++ [40] ++ t ++ [41], by rw [hr]; simp, hn⟩

theorem FunPrefixed_start {E : Scope} {d : Nat} {t : Str} {v : Int} (h : FunPrefixed E d t v) : ∃ c r, t = c :: r ∧ Starter' c := by
  cases h with
  | plain E d t v h => obtain ⟨c, r, h1, h2, _⟩ := FunOperand_start h; exact ⟨c, r, h1, Or.inl h2⟩
  | plus E d b t v => exact ⟨43, b ++ t, by simp, by unfold Starter'; simp⟩
  | minus E d b t v => exact ⟨45, b ++ t, by simp, by unfold Starter'; simp⟩
  | invert E d b t v => exact ⟨126, b ++ t, by simp, by unfold Starter'; simp⟩

theorem FunDenotes_start {E : Scope} {d : Nat} {t : Str} {v : Int} (h : FunDenotes E d t v) : ∃ c r, t = c :: r ∧ Starter' c := by
  refine FunDenotes.rec (motive_1 := fun _ _ _ _ _ => True) (motive_2 := fun _ _ _ _ _ => True)
    (motive_3 := fun _ _ t _ _ => ∃ c r, t = c :: r ∧ Starter' c) (motive_4 := fun _ _ _ _ _ _ _ => True)
    ?_ ?_ ?_ ?_ ?_ ?_ ?_ ?_ ?_ ?_ ?_ ?_ h
  all_goals try (intros; trivial)
  · intro E d t v h _; exact FunPrefixed_start h
  · intro E d t₁ v₁ b op optext b' t₂ v₂ v h1 _ _ _ _ _ _ ih _
    obtain ⟨c, r, h1, h2⟩ := ih
    exact ⟨c, r ++ b ++ optext ++ b' ++ t₂, by simp [h1], h2⟩

theorem piece_fun {E : Scope} {d : Nat} {t : Str} {v : Int} (h : FunDenotes E d t v) : Piece t := by
  have tok : ∀ (x : Nat) (b : Str), Blanks b → (x = 43 ∨ x = 45 ∨ x = 126) → ∀ c ∈ [x] ++ b, Token c := by
    intro x b hb hx c hc
    rcases List.mem_append.1 hc with hc | hc
    · simp at hc; subst hc; unfold Token Ordinary; omega
    · exact token_blank hb c hc
  refine FunDenotes.rec (motive_1 := fun _ _ t _ _ => Piece t) (motive_2 := fun _ _ t _ _ => Piece t)
    (motive_3 := fun _ _ t _ _ => Piece t) (motive_4 := fun _ _ _ _ _ _ _ => True)
    ?_ ?_ ?_ ?_ ?_ ?_ ?_ ?_ ?_ ?_ ?_ ?_ h
  · intro E d t v h; exact piece_atom h
  · intro E d b t b' v hb hb' _ ih
    refine ⟨fun dl hd i => ?_, by simp, ?_⟩
    · have := Balanced.paren i (b ++ t ++ b') [] (balanced_append (balanced_append (balanced_tokens hd true b (token_blank hb))
        (ih.1 dl hd true)) (balanced_tokens hd true b' (token_blank hb'))) (.nil i)
      simpa using this
    · rw [List.getLast?_append]
      intro c hc; simp at hc; subst hc; decide
  · intro E d t b e b' v hn _ _ _ _ _; exact piece_name hn
  · intro E d name params args t vs b e b' v hn _ _ _ _ _ hj _ _ _ _
    refine ⟨fun dl hd i => ?_, by simp, ?_⟩
    · have := balanced_append ((piece_name hn).1 dl hd i) (Balanced.paren i t [] (joined_inside hj dl hd) (.nil i))
      simpa using this
    · rw [List.getLast?_append]
      intro c hc; simp at hc; subst hc; decide
  · intro E d t v _ ih; exact ih
  · intro E d b t v hb _ ih; exact ih.after (tok 43 b hb (by omega))
  · intro E d b t v hb _ _ ih; exact ih.after (tok 45 b hb (by omega))
  · intro E d b t v hb _ ih; exact ih.after (tok 126 b hb (by omega))
  · intro E d t v _ ih; exact ih
  · intro E d t₁ v₁ b op optext b' t₂ v₂ v _ hb hb' hop _ _ _ ih ih₂
    have h2 := ih₂.after (a := b ++ optext ++ b') (fun c hc => by
      rcases List.mem_append.1 hc with hc | hc
      · rcases List.mem_append.1 hc with hc | hc
        · exact token_blank hb c hc
        · exact spelled_tokens hop c hc
      · exact token_blank hb' c hc)
    refine ⟨fun dl hd i => ?_, by simp [ih₂.2.1], ?_⟩
    · have := balanced_append (ih.1 dl hd i) (h2.1 dl hd i)
      simpa using this
    · rw [getLast?_append_ne ih₂.2.1]; exact ih₂.2.2
  · intros; trivial
  · intros; trivial

/-- Such an expression is an argument. -/
theorem argument_fun {E : Scope} {d : Nat} {t : Str} {v : Int} (h : FunDenotes E d t v) : Argument t := by
  have hp := piece_fun h
  obtain ⟨c, r, hc, hs⟩ := FunDenotes_start h
  exact ⟨hp.1 [44] (fun c hc => by simpa using hc) false, hp.2.1, by rw [hc]; intro x hx; simp at hx; subst hx; exact starter_notWhite hs,
    hp.2.2⟩

/-! ### Evaluation -/

/-- Evaluation of an operand (without prefix). -/
def EvalFunOperand (E : Scope) (D : Nat) (t : Str) (v : Int) : Prop :=
  ∀ s : S, Shows s E → Settled s → ∀ (n : Nat) (depth p : Int) (rest : Str), D + 2 ≤ n → D ≤ 18 → p + D ≤ 19 → 0 ≤ depth → Rest t rest →
    ∃ r' p', skipWs r' = skipWs rest ∧ (p' ≤ p ∨ p' ≤ 0) ∧
      operandM (knot n) depth (t ++ rest) (evalState s p) = .ok (some (r', v)) (evalState s p')

/-- Evaluation of an operand with its prefix, combined with what came before. -/
def EvalFunPrefixed (E : Scope) (D : Nat) (t : Str) (v : Int) : Prop :=
  ∀ s : S, Shows s E → Settled s → ∀ (n : Nat) (depth p : Int) (rest : Str), D + 2 ≤ n → D ≤ 18 → p + D ≤ 19 → 0 ≤ depth → Rest t rest →
    ∃ p', (p' ≤ p ∨ p' ≤ 0) ∧ ∀ f total op, numLoop (knot n) depth (f + 1) total op (t ++ rest) (evalState s p) =
      (match applyOp op total v with
       | .err c => (do setError c; pure none : M (Option (Str × Int)))
       | .ub u => M.ub u
       | .val w => afterOperand (knot n) depth f w rest) (evalState s p')

/-- Evaluation of an expression up to what follows it. -/
def EvalFunDenotes (E : Scope) (D : Nat) (t : Str) (v : Int) : Prop :=
  ∀ s : S, Shows s E → Settled s → ∀ (n : Nat) (depth p : Int) (rest : Str), D + 2 ≤ n → D ≤ 18 → p + D ≤ 19 → 0 ≤ depth → Rest t rest →
    ∃ m p', m ≤ t.length ∧ (p' ≤ p ∨ p' ≤ 0) ∧ ∀ f, numLoop (knot n) depth (f + m) 0 none (t ++ rest) (evalState s p) =
      afterOperand (knot n) depth f v rest (evalState s p')

/-- The arguments can be read. -/
def EvalFunArgs (E : Scope) (D : Nat) (done params args : List Str) (vs : List Int) : Prop :=
  (args.length = params.length ∧ vs.length = params.length ∧ ∀ v ∈ vs, -2147483648 < v ∧ v ≤ 2147483647) ∧
  ∀ s : S, Shows s E → Settled s → ∀ n : Nat, D + 3 ≤ n → D ≤ 18 → ArgsRead (· ≤ 0) n s done params args (vs.map some)

theorem evalFun_atom (E : Scope) (D : Nat) (t : Str) (v : Int) (h : Atom E.pc E.label t v) : EvalFunOperand E D t v := by
  intro s hsh hs n depth p rest hn hD hp hdep hr
  have plain : Atom (toI32 s.pc) (visibleLabel s) t v → ∃ r' p', skipWs r' = skipWs rest ∧ (p' ≤ p ∨ p' ≤ 0) ∧
      operandM (knot n) depth (t ++ rest) (evalState s p) = .ok (some (r', v)) (evalState s p') := by
    intro h
    obtain ⟨r', h1, h2⟩ := eval_atom s t v h s (Inner.refl s) n depth p rest (by omega) (by omega) hdep hr
    exact ⟨r', p, h1, .inl (Int.le_refl _), h2⟩
  have hpc := hsh.pc
  cases h with
  | literal base ds text h1 h2 h3 => exact plain (.literal base ds _ h1 h2 h3)
  | here => rw [hpc]; rw [hpc] at plain; exact plain .here
  | char c h1 h2 h3 => exact plain (.char c h1 h2 h3)
  | escape c v h => exact plain (.escape c v h)
  | label t v h1 h2 =>
    rcases hsh.label t v h2 with h3 | ⟨h3, h4⟩
    · exact plain (.label t v h1 h3)
    · have hnb : Blanks [] := by intro c hc; cases hc
      have hden := numberText_denotes v h4 (toI32 s.pc) (visibleLabel s) (visibleText s)
      obtain ⟨r', h5, h6⟩ := eval_named s 0 t [] (numberText v) [] v h1 (by simpa using h3) hnb hnb hden (eval_denotes s hden)
        s (Inner.refl s) n depth p rest (by omega) (by push_cast; omega) hdep hr
      exact ⟨r', p, h5, .inl (Int.le_refl _), h6⟩

theorem evalFun_paren (E : Scope) (D : Nat) (b t b' : Str) (v : Int) (hb : Blanks b) (hb' : Blanks b') (h : FunDenotes E D t v)
    (ih : EvalFunDenotes E D t v) : EvalFunOperand E (D + 1) ([40] ++ b ++ t ++ b' ++ [41]) v := by
  intro s hsh hs n depth p rest hn hD hp hdep _
  obtain ⟨n, rfl⟩ : ∃ m, n = m + 1 := ⟨n - 1, by omega⟩
  obtain ⟨c, r, hct, hst⟩ := FunDenotes_start h
  obtain ⟨m, p', hm, h1, hloop⟩ := ih s hsh hs n (depth + 1) (p + 1) (b' ++ 41 :: rest) (by omega) (by omega) (by push_cast at hp; omega) (by omega)
    (Or.inl (blanks_follow b' 41 rest hb' (fun _ => by unfold NameChar Alnum; omega)))
  refine ⟨skipWs rest, p' - 1, ?_, by omega, ?_⟩
  · exact skipWs_idem rest
  have e : [40] ++ b ++ t ++ b' ++ [41] ++ rest = 40 :: (b ++ (t ++ (b' ++ 41 :: rest))) := by simp
  rw [e]
  unfold operandM
  rw [if_pos (by simp)]
  show numFullBody (knot n) (b ++ (t ++ (b' ++ 41 :: rest))) (depth + 1) (evalState s p) = _
  unfold numFullBody
  simp only [M.modify_bind, M.get_bind]
  have hp1 : ¬ (evalState s p).parseDepth + 1 > 20 := by show ¬ (p + 1 > 20); push_cast at hp; omega
  rw [if_neg hp1]
  have hsk : skipWs (b ++ (t ++ (b' ++ 41 :: rest))) = t ++ (b' ++ 41 :: rest) := by
    rw [skipWs_blanks b _ hb, hct, List.cons_append, skipWs_cons c _ (Starter.nonblank hst)]
  rw [hsk, if_neg (by rw [hct]; simp)]
  have hlen : (b ++ (t ++ (b' ++ 41 :: rest))).length + 1 =
      ((b ++ (t ++ (b' ++ 41 :: rest))).length + 1 - m) + m := by
    simp only [List.length_append, List.length_cons]; omega
  rw [hlen]
  have hst' : ({ evalState s p with fwdRef := false, parseDepth := (evalState s p).parseDepth + 1 } : S) =
      evalState s (p + 1) := rfl
  rw [hst', hloop]
  unfold afterOperand
  have hg : getOp (depth + 1) ((b' ++ 41 :: rest).length + 1) (b' ++ 41 :: rest) (evalState s p') =
      .ok (.done (skipWs rest)) (evalState s (p' - 1)) := by
    rw [getOp, skipWs_blanks b' _ hb', skipWs_cons 41 rest (by decide)]
    have hm : matchOp (41 :: rest) = none := by
      simp [matchOp, mathDefs, List.find?, List.isPrefixOf]
    have hend : isEnd (41 :: rest) = false := rfl
    simp only [hend, Bool.false_eq_true, if_false, hm, hd_cons, Nat.reduceBEq, if_true, List.tail_cons]
    rw [if_pos (by omega)]
    simp only [M.modify_bind, M.pure_apply]
    congr 1
  rw [M.bind_ok hg]
  rfl

theorem evalFun_named (E : Scope) (D : Nat) (t b e b' : Str) (v : Int) (hname : Name t) (htext : E.text t = some (b ++ e ++ b')) (hb : Blanks b)
    (hb' : Blanks b') (h : FunDenotes E D e v) (ih : EvalFunDenotes E D e v) : EvalFunOperand E (D + 1) t v := by
  intro s hsh hs n depth p rest hn hD hp hdep hr
  obtain ⟨n, rfl⟩ : ∃ m, n = m + 1 := ⟨n - 1, by omega⟩
  have hrb : Rest e b' := .inl (by
    intro x hx
    have := hb' x (List.mem_of_mem_head? hx)
    unfold NameChar Alnum; omega)
  obtain ⟨p1, hp1, hop⟩ : ∃ p1, (p1 ≤ p ∨ p1 ≤ 0) ∧ operandM (knot (n + 1)) depth (t ++ rest) (evalState s p) =
      .ok (some (rest, v)) (evalState s p1) := by
    refine named_text s t _ v hname (hsh.text t _ htext) (n + 1) depth p rest hr s.lineNum s.session (Int.le_refl _) (fun p1 => p1 ≤ p ∨ p1 ≤ 0) ?_
    intro df hcont
    obtain ⟨m, p', hm, h1, hloop⟩ := ih { s with lineNum := df.line, session := s.session + 1 } (shows_inner hsh hs _ _ (by omega))
      (Settled_inner hs _ _ (by omega)) n 0 (p + 1) b' (by omega) (by omega) (by push_cast at hp; omega) (by omega) hrb
    have e1 : p' = (p' - 1) + 1 := by omega
    rw [e1] at hloop
    have h2 := text_value b e b' v hb hb' (FunDenotes_start h) (codeLine_piece (piece_fun h) (FunDenotes_start h) hb')
      { s with lineNum := df.line, session := s.session + 1 } hs.1 df hcont n m p (p' - 1) (by push_cast at hp; omega) hm hloop
    exact ⟨p' - 1, _, _, by omega, h2.1, h2.2⟩
  exact ⟨rest, p1, rfl, hp1, hop⟩

/-- The value of an expression. -/
theorem evalFun_value {E : Scope} {D : Nat} {t : Str} {v : Int} (h : FunDenotes E D t v) (ih : EvalFunDenotes E D t v) (s : S) (hsh : Shows s E)
    (hs : Settled s) (n : Nat) (b b' rest : Str) (hD : D ≤ 18) (hn : D + 2 < n) (hb : Blanks b) (hb' : Blanks b') (hrest : AtEnd rest) :
    ∃ p, p ≤ 0 ∧ parseNum (knot n) (b ++ t ++ b' ++ rest) s = .ok (some v) { s with parseDepth := p, fwdRef := false } := by
  obtain ⟨n, rfl⟩ : ∃ m, n = m + 1 := ⟨n - 1, by omega⟩
  obtain ⟨c, r, hct, hst⟩ := FunDenotes_start h
  have e : b ++ t ++ b' ++ rest = b ++ (t ++ (b' ++ rest)) := by simp
  obtain ⟨m, p', hm, h1, hloop⟩ := ih s hsh hs n 0 1 (b' ++ rest) (by omega) hD (by omega) (by omega) (Or.inl (hrest.follows hb'))
  refine ⟨p' - 1, by omega, ?_⟩
  rw [e, parseNum_start n _ b (t ++ (b' ++ rest)) c (r ++ (b' ++ rest)) hb (by rw [hct]; rfl) hst]
  have hlen : (b ++ (t ++ (b' ++ rest))).length + 1 = ((b ++ (t ++ (b' ++ rest))).length + 1 - m) + m := by
    simp only [List.length_append]; omega
  rw [hlen]
  have hg : getOp 0 ((b' ++ rest).length + 1) (b' ++ rest) (evalState s p') = .ok (.done rest) { s with parseDepth := p' - 1, fwdRef := false } := by
    rw [getOp, hrest.skipWs hb']
    simp only [hrest.isEnd, if_true]
    rfl
  rw [M.bind_ok (a := some (rest, v)) (s' := { s with parseDepth := p' - 1, fwdRef := false })]
  · rfl
  · rw [hloop]
    unfold afterOperand
    rw [M.bind_ok hg]
    rfl

/-- An argument with calls of functions. -/
theorem evaluates_calls {E : Scope} {D : Nat} {done : List Str} {a : Str} {v : Int} (h : FunDenotes (E.without done) D a v)
    (ih : EvalFunDenotes (E.without done) D a v) (hv1 : -2147483648 < v) (s : S) (hsh : Shows s E) (hs : Settled s) (n : Nat) (hD : D ≤ 18) (hn : D + 2 < n) :
    Evaluates (· ≤ 0) n s done a (fmtEval v) true := by
  intro q set pd fw hq hset
  unfold evalStr
  have hss : startSession (calling s q set pd fw) = .ok (q + 1) { calling s q set pd fw with session := q + 1 } := rfl
  rw [M.bind_ok hss]
  have hs' : Settled ({ calling s q set pd fw with session := q + 1 } : S) := ⟨hs.1, fun e he => by
    have := hs.2 e he
    show e.sess ≤ q + 1
    omega⟩
  have nb : Blanks [] := by intro c hc; simp at hc
  obtain ⟨p', hp', hval⟩ := evalFun_value h ih ({ calling s q set pd fw with session := q + 1 } : S)
    (shows_without hsh done set hset rfl rfl rfl rfl rfl hs hs') hs' n [] [] [] hD (by omega) nb nb (.inl rfl)
  simp only [List.nil_append, List.append_nil] at hval
  refine ⟨p', false, ?_, fun _ => ⟨hp', rfl⟩⟩
  rw [M.bind_ok hval]
  rw [M.bind_ok (endSession_clean _ _ (fun e he => by
    have := hs.2 e he
    omega))]
  dsimp only
  rw [if_neg (by unfold intMin; omega), M.pure_apply]
  show Res.ok _ _ = _
  congr 1
  unfold calling
  simp

theorem evalFun_cons (E : Scope) (D : Nat) (done : List Str) (p : Str) (ps : List Str) (a : Str) (as : List Str) (v : Int) (vs : List Int)
    (h : FunDenotes (E.without done) D a v) (hv1 : -2147483648 < v) (hv2 : v ≤ 2147483647) (ih : EvalFunDenotes (E.without done) D a v)
    (ihs : EvalFunArgs E D (p :: done) ps as vs) : EvalFunArgs E D done (p :: ps) (a :: as) (v :: vs) := by
  obtain ⟨⟨l1, l2, l3⟩, ihs⟩ := ihs
  refine ⟨⟨by simp [l1], by simp [l2], ?_⟩, ?_⟩
  · intro x hx
    rcases List.mem_cons.1 hx with rfl | hx
    · exact ⟨hv1, hv2⟩
    · exact l3 x hx
  intro s hsh hs n hn hD
  exact .cons done p ps a as (some v) (vs.map some) ⟨fmtEval v, fmtEval_number v ⟨by omega, hv2⟩, evaluates_calls h ih hv1 s hsh hs n hD (by omega)⟩
    (ihs s hsh hs n hn hD)

theorem evalFun_call (E : Scope) (D : Nat) (name : Str) (params args : List Str) (t : Str) (vs : List Int) (b e b' : Str) (v : Int)
    (hn : Name name) (hbi : name.map upperCase ∉ [b! "EVAL", b! "GETC"]) (hf : E.func name = some (params, b ++ e ++ b')) (hb : Blanks b) (hb' : Blanks b')
    (hp : E.Parameters params) (hj : Joined args t) (hden : FunDenotes (E.bind params vs) D e v) (ihs : EvalFunArgs E D [] params args vs)
    (ih : EvalFunDenotes (E.bind params vs) D e v) : EvalFunOperand E (D + 1) (name ++ [40] ++ t ++ [41]) v := by
  intro s hsh hs n depth p rest hn' hD hp' hdep hr
  obtain ⟨df, f1, rfl, hcont, f4, f5, f6⟩ := hsh.func name params _ hf
  obtain ⟨⟨l1, l2, l3⟩, ihs⟩ := ihs
  generalize hst : evalState s p = st
  have hss : Settled st := by rw [← hst]; exact hs
  have hsh' : Shows st E := by rw [← hst]; exact ⟨hsh.pc, hsh.key, hsh.label, hsh.text, hsh.func⟩
  have hparams : Parameters st df.args := by
    refine ⟨?_, hp.plain, ?_⟩
    · rw [← hsh'.key]; exact hp.different
    · intro p hp0
      have := hp.fixed p hp0
      rw [hsh'.key] at this
      rintro (h | h)
      · exact this.1 h
      · exact this.2 h
  obtain ⟨set, pd, fw, hpa, h0, hbind⟩ := parseArgs_bound (· ≤ 0) n st df args t (vs.map some) rest hparams hj
    (ihs st hsh' hss n (by omega) (by omega)) st.session (by omega)
  obtain ⟨hpd, rfl⟩ := h0 (by simp)
  have hname' : FunctionName st name df := by
    rw [← hst]
    exact ⟨hn, f1, f4, f5, f6, hbi⟩
  have et : name ++ [40] ++ t ++ [41] ++ rest = name ++ 40 :: (t ++ 41 :: rest) := by simp
  have hbind' : Bindings s df.args args (vs.map some) set := by
    refine ⟨?_, ?_⟩
    · intro p a v hv
      have := hbind.bound p a v hv
      rw [← hst] at this
      exact this
    · intro w hw
      have := hbind.others w (by rw [← hst]; exact hw)
      rw [← hst] at this
      exact this
  -- the state in which the text is evaluated
  let s2 : S := { s with argSets := set :: s.argSets, lineNum := df.line, session := s.session + 1 }
  have hs2 : Settled s2 := ⟨hs.1, fun e he => by have := hs.2 e he; show e.sess ≤ s.session + 1; omega⟩
  have hsh2 : Shows s2 (E.bind df.args vs) := shows_bind hsh df.args args vs set hbind' hp l1 l2 l3 rfl rfl rfl rfl rfl hs hs2
  obtain ⟨n, rfl⟩ : ∃ m, n = m + 1 := ⟨n - 1, by omega⟩
  have hrb : Rest e b' := .inl (by
    intro x hx
    have := hb' x (List.mem_of_mem_head? hx)
    unfold NameChar Alnum; omega)
  obtain ⟨m, p', hm, h1, hloop⟩ := ih s2 hsh2 hs2 n 0 (pd + 1) b' (by omega) (by omega) (by omega) (by omega) hrb
  have e1 : p' = (p' - 1) + 1 := by omega
  rw [e1] at hloop
  have hev := text_value b e b' v hb hb' (FunDenotes_start hden) (codeLine_piece (piece_fun hden) (FunDenotes_start hden) hb')
    s2 hs.1 df hcont n m pd (p' - 1) (by omega) hm hloop
  refine ⟨rest, p' - 1, rfl, by omega, ?_⟩
  rw [et, function_reach _ _ _ _ df _ hname']
  rw [List.cons_append] at hpa
  unfold parseMacro
  rw [M.bind_ok hpa]
  dsimp only
  simp only [M.get_bind, M.modify_bind]
  have hst1 : startSession { calling st st.session set pd false with lineNum := df.line } = .ok (s.session + 1) (evalState s2 pd) := by
    rw [← hst]; rfl
  rw [M.bind_ok hst1, M.bind_ok hev.1]
  dsimp only
  rw [M.bind_ok hev.2]
  simp only [M.modify_bind, M.get_bind]
  have hpre : sessPrefix (s.session + 1) s.errors = [] := by
    unfold sessPrefix
    cases hE : s.errors with
    | nil => rfl
    | cons x xs =>
      have := hs.2 x (by rw [hE]; simp)
      rw [List.takeWhile_cons_of_neg]
      simp; omega
  have hcount : ∀ x : S, x.errors = s.errors → sessionCount (s.session + 1) x = 0 := by
    intro x hx
    unfold sessionCount
    rw [hx, hpre]; rfl
  have hwhen : ∀ (x : S) (m : M Unit), x.errors = s.errors → M.when (decide (sessionCount (s.session + 1) x > 0)) m = pure () := by
    intro x m hx
    rw [hcount x hx]; rfl
  rw [hwhen, M.pure_bind, M.bind_ok (endSession_clean _ _ ?_)]
  · have hrem : ∀ x : S, removeArgSet true x = .ok () { x with argSets := x.argSets.tail } := fun _ => rfl
    rw [M.bind_ok (hrem _), hcount]
    · simp only [gt_iff_lt, Nat.lt_irrefl, Bool.false_eq_true, if_false, decide_false]
      rw [M.pure_apply]
      congr 1
      rw [← hst]
      have e1 : s.session + 1 - 1 = s.session := by omega
      show ({ evalState s (p' - 1) with session := s.session + 1 - 1 } : S) = evalState s (p' - 1)
      rw [e1]
      rfl
    · rfl
  · intro e he
    have := hs.2 e he
    omega
  · rfl

theorem evalFun_plain (E : Scope) (D : Nat) (t : Str) (v : Int) (h : FunOperand E D t v) (ih : EvalFunOperand E D t v) : EvalFunPrefixed E D t v := by
  intro s hsh hs n depth p rest hn hD hp hdep hr
  obtain ⟨r', p', h1, hp', h2⟩ := ih s hsh hs n depth p rest hn hD hp hdep hr
  obtain ⟨c, r, rfl, hst, _⟩ := FunOperand_start h
  refine ⟨p', hp', ?_⟩
  intro f total op
  rw [numLoop_step (knot n) depth f total op (c :: r ++ rest) (c :: r ++ rest) r' _ _ false false v
    (unary_plain _ c (r ++ rest) rfl hst) h2 (by simp) (by simp)]
  simp only [Bool.false_eq_true, if_false]
  cases applyOp op total v with
  | val w => exact congrFun (afterOperand_skipWs _ _ _ _ _ _ h1) _
  | err c => rfl
  | ub u => rfl

theorem rest_prefix {x : Nat} {b t rest : Str} (hne : t ≠ []) (hr : Rest ([x] ++ b ++ t) rest) : Rest t rest := by
  rcases hr with hr | hr
  · exact Or.inl hr
  · right
    rw [getLast?_append_ne hne] at hr
    exact hr

theorem evalFun_plus (E : Scope) (D : Nat) (b t : Str) (v : Int) (hb : Blanks b) (h : FunOperand E D t v) (ih : EvalFunOperand E D t v) :
    EvalFunPrefixed E D ([43] ++ b ++ t) v := by
  intro s hsh hs n depth p rest hn hD hp hdep hr
  obtain ⟨c, r, hct, hst, h95⟩ := FunOperand_start h
  obtain ⟨r', p', h1, hp', h2⟩ := ih s hsh hs n depth p rest hn hD hp hdep (rest_prefix (by rw [hct]; simp) hr)
  refine ⟨p', hp', ?_⟩
  intro f total op
  have e : [43] ++ b ++ t ++ rest = [43] ++ b ++ (t ++ rest) := by simp
  rw [e, numLoop_step (knot n) depth f total op _ (t ++ rest) r' _ _ false false v
    (unary_sign 43 (Or.inr rfl) b (t ++ rest) hb c (r ++ rest) (by rw [hct]; rfl) hst
      (fun h => by obtain ⟨c', r', rfl, hn⟩ := h95 h; exact ⟨c', r' ++ rest, rfl, hn⟩)) h2 (by simp) (by simp)]
  simp only [Bool.false_eq_true, if_false]
  cases applyOp op total v with
  | val w => exact congrFun (afterOperand_skipWs _ _ _ _ _ _ h1) _
  | err c => rfl
  | ub u => rfl

theorem evalFun_minus (E : Scope) (D : Nat) (b t : Str) (v : Int) (hb : Blanks b) (h : FunOperand E D t v) (hv : v ≠ -2147483648)
    (ih : EvalFunOperand E D t v) : EvalFunPrefixed E D ([45] ++ b ++ t) (-v) := by
  intro s hsh hs n depth p rest hn hD hp hdep hr
  obtain ⟨c, r, hct, hst, h95⟩ := FunOperand_start h
  obtain ⟨r', p', h1, hp', h2⟩ := ih s hsh hs n depth p rest hn hD hp hdep (rest_prefix (by rw [hct]; simp) hr)
  refine ⟨p', hp', ?_⟩
  intro f total op
  have e : [45] ++ b ++ t ++ rest = [45] ++ b ++ (t ++ rest) := by simp
  rw [e, numLoop_step (knot n) depth f total op _ (t ++ rest) r' _ _ false true v
    (unary_sign 45 (Or.inl rfl) b (t ++ rest) hb c (r ++ rest) (by rw [hct]; rfl) hst
      (fun h => by obtain ⟨c', r', rfl, hn⟩ := h95 h; exact ⟨c', r' ++ rest, rfl, hn⟩)) h2 (fun _ => hv) (by simp)]
  simp only [Bool.false_eq_true, if_false, if_true]
  cases applyOp op total (-v) with
  | val w => exact congrFun (afterOperand_skipWs _ _ _ _ _ _ h1) _
  | err c => rfl
  | ub u => rfl

theorem evalFun_invert (E : Scope) (D : Nat) (b t : Str) (v : Int) (hb : Blanks b) (h : FunOperand E D t v) (ih : EvalFunOperand E D t v) :
    EvalFunPrefixed E D ([126] ++ b ++ t) (-v - 1) := by
  intro s hsh hs n depth p rest hn hD hp hdep hr
  obtain ⟨c, r, hct, hst, h95⟩ := FunOperand_start h
  obtain ⟨r', p', h1, hp', h2⟩ := ih s hsh hs n depth p rest hn hD hp hdep (rest_prefix (by rw [hct]; simp) hr)
  refine ⟨p', hp', ?_⟩
  intro f total op
  have e : [126] ++ b ++ t ++ rest = [126] ++ b ++ (t ++ rest) := by simp
  rw [e, numLoop_step (knot n) depth f total op _ (t ++ rest) r' _ _ true false v
    (unary_invert b (t ++ rest) hb c (r ++ rest) (by rw [hct]; rfl) hst) h2 (by simp) (by simp)]
  simp only [if_true]
  have : icpl v = -v - 1 := rfl
  rw [this]
  cases applyOp op total (-v - 1) with
  | val w => exact congrFun (afterOperand_skipWs _ _ _ _ _ _ h1) _
  | err c => rfl
  | ub u => rfl

theorem evalFun_one (E : Scope) (D : Nat) (t : Str) (v : Int) (h : FunPrefixed E D t v) (ih : EvalFunPrefixed E D t v) : EvalFunDenotes E D t v := by
  intro s hsh hs n depth p rest hn hD hp hdep hr
  obtain ⟨c, r, hct, _⟩ := FunPrefixed_start h
  obtain ⟨p', h1, h3⟩ := ih s hsh hs n depth p rest hn hD hp hdep hr
  refine ⟨1, p', by rw [hct]; simp, h1, ?_⟩
  intro f
  rw [h3]
  rfl

theorem evalFun_join (E : Scope) (D : Nat) (t₁ : Str) (v₁ : Int) (b : Str) (op : BinOp) (optext b' t₂ : Str) (v₂ v : Int)
    (hb : Blanks b) (hb' : Blanks b') (hop : optext ∈ BinOp.spelled op) (hne : op = .ne → b ≠ [] ∨ t₁.getLast? = some 41)
    (h₂ : FunPrefixed E D t₂ v₂) (hbin : binary op v₁ v₂ = some v) (ih : EvalFunDenotes E D t₁ v₁) (ih₂ : EvalFunPrefixed E D t₂ v₂) :
    EvalFunDenotes E D (t₁ ++ b ++ optext ++ b' ++ t₂) v := by
  intro s hsh hs n depth p rest hn hD hp hdep hr
  obtain ⟨c₂, r₂, hc₂, hst₂⟩ := FunPrefixed_start h₂
  have hr₁ : Rest t₁ (b ++ (optext ++ (b' ++ (t₂ ++ rest)))) := rest_op t₁ b optext _ op hb hop hne
  obtain ⟨m, p', hm, h1, hloop⟩ := ih s hsh hs n depth p _ hn hD hp hdep hr₁
  have hr₂ : Rest t₂ rest := by
    rcases hr with hr | hr
    · exact Or.inl hr
    · right
      rw [getLast?_append_ne] at hr
      · exact hr
      · rw [hc₂]; simp
  obtain ⟨p'', h1', h3⟩ := ih₂ s hsh hs n depth p' rest hn hD (by omega) hdep hr₂
  refine ⟨m + 1, p'', by simp only [List.length_append, hc₂, List.length_cons]; omega, by omega, ?_⟩
  intro f
  have e : t₁ ++ b ++ optext ++ b' ++ t₂ ++ rest = t₁ ++ (b ++ (optext ++ (b' ++ (t₂ ++ rest)))) := by simp
  have e2 : f + (m + 1) = (f + 1) + m := by omega
  rw [e, e2, hloop]
  unfold afterOperand
  have hg := getOp_op depth b optext b' t₂ rest op (evalState s p') c₂ r₂ hb hb' hop hc₂ hst₂
  rw [M.bind_ok hg]
  simp only
  rw [h3, applyOp_binary op v₁ v₂ v hbin]
  rfl

/-- Evaluation of expressions with calls, by induction over the specification. -/
theorem evalFun {E : Scope} {D : Nat} {t : Str} {v : Int} (h : FunDenotes E D t v) : EvalFunDenotes E D t v := by
  refine FunDenotes.rec (motive_1 := fun E D t v _ => EvalFunOperand E D t v) (motive_2 := fun E D t v _ => EvalFunPrefixed E D t v)
    (motive_3 := fun E D t v _ => EvalFunDenotes E D t v) (motive_4 := fun E D done ps as vs _ => EvalFunArgs E D done ps as vs)
    evalFun_atom evalFun_paren evalFun_named ?_ evalFun_plain evalFun_plus evalFun_minus evalFun_invert evalFun_one ?_ ?_ ?_ h
  · intro E d name params args t vs b e b' v h1 h2 h3 h4 h5 h6 h7 _ h9 ihs ih
    exact evalFun_call E d name params args t vs b e b' v h1 h2 h3 h4 h5 h6 h7 h9 ihs ih
  · intro E d t₁ v₁ b op optext b' t₂ v₂ v _ hb hb' hop hne h₂ hbin ih ih₂
    exact evalFun_join E d t₁ v₁ b op optext b' t₂ v₂ v hb hb' hop hne h₂ hbin ih ih₂
  · intro E d done
    exact ⟨⟨rfl, rfl, by simp⟩, fun s _ _ n _ _ => .nil done⟩
  · intro E d done p ps a as v vs h hv1 hv2 _ ih ihs
    exact evalFun_cons E d done p ps a as v vs h hv1 hv2 ih ihs

end Spasm
