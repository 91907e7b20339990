import Verif.Lemmas.Advance

/-
Data directives: the address advances by the number of bytes that are appended.
-/

namespace Spasm
open Spec

/-- Output is produced: neither the code counter nor another special mode. -/
def Emitting (s : S) : Prop := (s.mode.normal || s.mode.list) = true

theorem Fixed.emitting {s s' : S} (h : Fixed s s') (he : Emitting s) : Emitting s' := by
  unfold Emitting; rw [h.mode]; exact he

/-- The data type of a directive and the number it adds to the address. -/
theorem data_width {t : Es} {ty : ArgTy} {m : Int} (h : t.data = some (ty, m)) : m = width ty := by
  cases t <;> simp only [Es.data] at h <;> cases h <;> rfl

theorem not_rst {t : Es} {ty : ArgTy} {m : Int} (h : t.data = some (ty, m)) : ty ≠ .rst := by
  cases t <;> simp only [Es.data] at h <;> cases h <;> decide

theorem adv_emitChars {x : Str} {s s' : S} (e : emitChars x s = .ok () s') (he : Emitting s) : Adv x.length s s' := by
  induction x generalizing s with
  | nil => unfold emitChars at e; cases e; exact .refl _
  | cons c t ih =>
    unfold emitChars at e
    rw [M.get_bind] at e
    have hd : (s.mode.normal || s.mode.list) = true := he
    rw [hd, M.when_true] at e
    obtain ⟨_, s1, e1, e⟩ := M.bind_eq_ok.mp e
    obtain ⟨_, s2, e2, e⟩ := M.bind_eq_ok.mp e
    have a := (grow_writeOut e1).counted e2
    have b := a.trans (ih e (a.fixed.emitting he))
    rw [List.length_cons, Nat.add_comm]
    exact b

/-- The callback for data directives advances the address as it appends bytes. -/
def EmitsAdv (k : Rec) : Prop := ∀ x t s r s', k.emitString x t s = .ok r s' → Wf s → Calm s s' → Emitting s →
  ∃ m, Adv m s s'

variable {n : Nat} (hk : EmitsAdv (knot n))
include hk

theorem adv_emitDefine {t : Es} {d : Define} {r : Str} {s0 s s' s'' : S} {sess : Int} {a : Str}
    (e : emitDefine (knot n) t sess d r s = .ok a s') (h : Inside false s0 s) (hn : sess = s0.session + 1)
    (w : Wf s0) (hf : sessionFatal sess s = true) (ec : endSession sess s' = .ok () s'') (hc : Calm s0 s'')
    (he : Emitting s) : ∃ m, Adv m s s' := by
  have rb := bal_knot n
  have q' := hc.quiet.endSession ec
  unfold emitDefine at e
  obtain ⟨_, s1, e1, e⟩ := M.bind_eq_ok.mp e
  have h1 := h.bal (Bal.bal (by bal) _ _ _ e1)
  obtain ⟨⟨t', p⟩, s2, e2, e⟩ := M.bind_eq_ok.mp e
  have h2 := h1.push (push_parseArgs rb _ _ e2)
  dsimp only at e h2
  obtain ⟨c, s3, e3, e⟩ := M.bind_eq_ok.mp e
  have h3 := h2.bal ((bal_parseDefine rb d).bal _ _ _ e3)
  have kp : ∀ {x y : S}, removeArgSet p x = .ok () y → Kept x y ∧ y.errors = x.errors ∧ (Quiet y → Quiet x) := by
    intro x y exy
    cases p <;> cases exy <;>
      exact ⟨by constructor <;> first | rfl | (intros; rfl), rfl, fun q => ⟨q.stale, q.ranPreop, q.spread⟩⟩
  have k3of : Quiet s3 → Kept s s3 ∧ Quiet s2 ∧ Quiet s1 := by
    intro q3
    have k3 := (still_parseDefine (still_knot n) d).kept e3 q3.ranPreop
    have q2 := q3.before (bal_parseDefine rb d) (runs_parseDefine (runs_knot n) d) e3
    have k2 := (still_parseArgs (still_knot n) r d).kept e2 q2.ranPreop
    have q1 : Quiet s1 := ⟨((push_parseArgs rb _ _ e2) q2.stale).1,
      ranPreop_before (runs_parseArgs (runs_knot n) r d) e2 q2.ranPreop,
      spread_before (runs_parseArgs (runs_knot n) r d) e2 q2.spread⟩
    have k1 := Still.kept (m := M.when d.contents.isNone (setError E.ARG_USED_WITHOUT_VALUE)) (by stills) e1 q1.ranPreop
    exact ⟨(k1.trans k2).trans k3, q2, q1⟩
  cases c with
  | none =>
    dsimp only at e
    rw [M.pure_bind] at e
    obtain ⟨_, s4, e4, e⟩ := M.bind_eq_ok.mp e
    cases e
    obtain ⟨kk, _, qq⟩ := kp e4
    exact ⟨0, ((k3of (qq q')).1.trans kk).adv⟩
  | some x =>
    dsimp only at e
    obtain ⟨⟨w1, exp, rest⟩, s4, e4, e⟩ := M.bind_eq_ok.mp e
    have h4 := h3.bal ((bal_extractArg _ _).bal _ _ _ e4)
    dsimp only at e
    obtain ⟨⟨w2, exp2, rest2⟩, s5, e5, e⟩ := M.bind_eq_ok.mp e
    have h5 := h4.bal ((bal_extractArg _ _).bal _ _ _ e5)
    have k5of : Quiet s5 → Kept s s5 ∧ sessionFatal sess s5 = true := by
      intro q5
      have q4 := q5.before (bal_extractArg _ _) (runs_extractArg _ _) e5
      have q3 := q4.before (bal_extractArg _ _) (runs_extractArg _ _) e4
      obtain ⟨k3, q2, q1⟩ := k3of q3
      have k4 := (still_extractArg _ _).kept e4 q4.ranPreop
      have k5 := (still_extractArg _ _).kept e5 q5.ranPreop
      refine ⟨(k3.trans k4).trans k5, ?_⟩
      have f1 := sessionFatal_bal h w hn (Bal.bal (by bal) _ _ _ e1) q1.stale hf
      have f2 := sessionFatal_bal h1 w hn (push_parseArgs rb _ _ e2) q2.stale f1
      have f3 := sessionFatal_bal h2 w hn ((bal_parseDefine rb d).bal _ _ _ e3) q3.stale f2
      have f4 := sessionFatal_bal h3 w hn ((bal_extractArg _ _).bal _ _ _ e4) q4.stale f3
      exact sessionFatal_bal h4 w hn ((bal_extractArg _ _).bal _ _ _ e5) q5.stale f4
    dsimp only at e
    split at e
    · exfalso
      rw [M.modify_bind] at e
      obtain ⟨⟨y, z⟩, s6, e6, e⟩ := M.bind_eq_ok.mp e
      dsimp only at e
      rw [M.pure_bind] at e
      obtain ⟨_, s7, e7, e⟩ := M.bind_eq_ok.mp e
      cases e
      have q6 := (kp e7).2.2 q'
      have := spread_before ((runs_knot n).emitString x t) e6 q6.spread
      cases this
    · rw [M.get_bind] at e
      split at e
      · obtain ⟨_, s6, e6, e⟩ := M.bind_eq_ok.mp e
        rw [M.pure_bind] at e
        obtain ⟨_, s7, e7, e⟩ := M.bind_eq_ok.mp e
        cases e
        obtain ⟨kk, _, qq⟩ := kp e7
        have q5 := (qq q').replay e6
        exact ⟨0, (((k5of q5).1.trans (kept_replaySession e6).1).trans kk).adv⟩
      · obtain ⟨m, s6, e6, e⟩ := M.bind_eq_ok.mp e
        obtain ⟨hm, g6⟩ := inside_start e6
        obtain ⟨⟨y, z⟩, s7, e7, e⟩ := M.bind_eq_ok.mp e
        have b7 := (rb.emitString x t).bal _ _ _ e7
        have g7 := g6.bal b7
        dsimp only at e
        rw [M.get_bind] at e
        obtain ⟨_, s8, e8, e⟩ := M.bind_eq_ok.mp e
        have h8 := h5.bal (g7.close hm e8)
        obtain ⟨_, s9, e9, e⟩ := M.bind_eq_ok.mp e
        rw [M.pure_bind] at e
        obtain ⟨_, s10, e10, e⟩ := M.bind_eq_ok.mp e
        cases e
        obtain ⟨kk, ke, qq⟩ := kp e10
        have q9 := qq q'
        -- back to the start of the inner session, once the state before the replay is known to be quiet
        have back : Quiet s8 → Quiet s7 ∧ Quiet s6 ∧ Quiet s5 := by
          intro q8
          have q7 := q8.endSession e8
          have q6 := q7.before (rb.emitString x t) ((runs_knot n).emitString x t) e7
          have k6 := kept_startSession e6
          refine ⟨q7, q6, ⟨(g6 q6.stale).1, by rw [← k6.2]; exact q6.ranPreop, by rw [← spread_start e6]; exact q6.spread⟩⟩
        cases hi : sessionFatal m s7 with
        | true =>
          exfalso
          rw [hi, M.when_true] at e9
          unfold annotate at e9
          rw [M.pure_bind] at e9
          have q8 := q9.replay e9
          obtain ⟨q7, q6, q5⟩ := back q8
          have f5 := (k5of q5).2
          have f8 := sessionFatal_bal h5 w hn (g7.close hm e8) q8.stale f5
          have := fatals_replayed h8 w q8.stale hn f8 e9 ke ec
          have := hc.fatals
          omega
        | false =>
          rw [hi, M.when_false] at e9
          cases e9
          obtain ⟨q7, q6, q5⟩ := back q9
          obtain ⟨k5, _⟩ := k5of q5
          have w5 := h5.wf q5.stale w
          have w6 := g6.wf q6.stale w5
          have c67 : Calm s6 s7 := by
            refine ⟨q7, ?_⟩
            obtain ⟨_, gg⟩ := b7 q7.stale
            obtain ⟨_, _, new, gn, go⟩ := gg w6
            obtain ⟨_, gs⟩ := g6 q6.stale
            obtain ⟨i1, _, A, B, i3, i4, i5⟩ := gs w5
            have hA : A = [] ∧ B = [] := by
              have : s6.errors = s5.errors := by unfold startSession at e6; cases e6; rfl
              rw [this] at i3
              have hl := congrArg List.length i3
              simp only [List.length_append] at hl
              constructor
              · exact List.length_eq_zero_iff.mp (by omega)
              · exact List.length_eq_zero_iff.mp (by omega)
            unfold sessionFatal sessPrefix at hi
            rw [i1] at go
            rw [gn, i3, hA.1, hA.2, List.nil_append, hm,
              takeWhile_inside go (lt_inside (B := []) w5 (OfSess.nil _))] at hi
            unfold fatals
            rw [gn, List.countP_append]
            have : new.countP (fun e => isFatal e.code) = 0 := by
              rw [List.countP_eq_zero]
              intro x hx
              rw [List.any_eq_false] at hi
              exact hi x hx
            omega
          have k6 := k5.trans (kept_startSession e6).1
          obtain ⟨j, aj⟩ := hk x t s6 _ s7 e7 w6 c67 (k6.fixed.emitting he)
          exact ⟨j, ((Adv.of_kept k6 aj).after (kept_endSession e8).1).after kk⟩

theorem adv_emitNum {t : Es} {x : Str} {s0 s s' : S} {sess : Int} {a : Str}
    (e0 : startSession s0 = .ok sess s) (e : emitNum (knot n) t x sess s = .ok a s')
    (w : Wf s0) (hc : Calm s0 s') (he : Emitting s0) : ∃ m, Adv m s0 s' := by
  have rb := bal_knot n
  obtain ⟨hn, h⟩ := inside_start e0
  have k0 := (kept_startSession e0).1
  unfold emitNum at e
  obtain ⟨r, s1, e1, e⟩ := M.bind_eq_ok.mp e
  have h1 := h.bal ((bal_parseNum rb _).bal _ _ _ e1)
  rw [M.get_bind] at e
  have kof : Quiet s1 → Kept s0 s1 ∧ Wf s1 ∧ fatals s1 ≥ fatals s0 := by
    intro q1
    have q := q1.before (bal_parseNum rb x) (runs_parseNum (runs_knot n) x) e1
    have k1 := (still_parseNum (still_knot n) x).kept e1 q1.ranPreop
    have f := ((bal_parseNum rb _).bal _ _ _ e1).fatals q1.stale (h.wf q.stale w)
    rw [fatals_start e0] at f
    exact ⟨k0.trans k1, h1.wf q1.stale w, f⟩
  cases r with
  | some v =>
    dsimp only at e
    cases hd : t.data with
    | none =>
      rw [hd] at e
      dsimp only at e
      simp only [M.bind_assoc, M.pure_bind] at e
      obtain ⟨_, s3, e3, e⟩ := M.bind_eq_ok.mp e
      obtain ⟨_, s4, e4, e⟩ := M.bind_eq_ok.mp e
      cases e
      have c := Calm.inside h1 w hn e3 e4 hc
      exact ⟨0, (((kof c.quiet).1.trans (kept_replaySession e3).1).trans (kept_endSession e4).1).adv⟩
    | some p =>
      obtain ⟨aty, m⟩ := p
      rw [hd] at e
      dsimp only at e
      simp only [M.bind_assoc, M.pure_bind] at e
      obtain ⟨_, s2, e2, e⟩ := M.bind_eq_ok.mp e
      have h2 := h1.bal ((bal_writeArg _ _ _ _).bal _ _ _ e2)
      obtain ⟨_, s3, e3, e⟩ := M.bind_eq_ok.mp e
      have h3 := h2.bal ((bal_countData _).bal _ _ _ e3)
      obtain ⟨_, s4, e4, e⟩ := M.bind_eq_ok.mp e
      obtain ⟨_, s5, e5, e⟩ := M.bind_eq_ok.mp e
      cases e
      have c := Calm.inside h3 w hn e4 e5 hc
      have q2 := c.quiet.before (bal_countData m) (runs_countData m) e3
      have q1 := q2.before (bal_writeArg v aty 0 0) (runs_writeArg v aty 0 0) e2
      rw [data_width hd] at e3
      rcases grow_writeArg e2 with g | ⟨h', _⟩
      · have a := Adv.of_kept (kof q1).1 (g.counted e3)
        exact ⟨_, (a.after (kept_replaySession e4).1).after (kept_endSession e5).1⟩
      · exact absurd h' (not_rst hd)
  | none =>
    dsimp only at e
    split at e
    · cases hd : t.data with
      | none =>
        rw [hd] at e
        dsimp only at e
        simp only [M.bind_assoc, M.pure_bind] at e
        obtain ⟨_, s3, e3, e⟩ := M.bind_eq_ok.mp e
        obtain ⟨_, s4, e4, e⟩ := M.bind_eq_ok.mp e
        cases e
        have c := Calm.inside h1 w hn e3 e4 hc
        exact ⟨0, (((kof c.quiet).1.trans (kept_replaySession e3).1).trans (kept_endSession e4).1).adv⟩
      | some p =>
        obtain ⟨aty, m⟩ := p
        rw [hd] at e
        dsimp only at e
        simp only [M.bind_assoc, M.pure_bind] at e
        obtain ⟨_, s2, e2, e⟩ := M.bind_eq_ok.mp e
        have h2 := h1.bal ((bal_addPassTwoExpr rb _ _ _ _).bal _ _ _ e2)
        obtain ⟨_, s3, e3, e⟩ := M.bind_eq_ok.mp e
        have h3 := h2.bal ((bal_countData _).bal _ _ _ e3)
        obtain ⟨_, s4, e4, e⟩ := M.bind_eq_ok.mp e
        obtain ⟨_, s5, e5, e⟩ := M.bind_eq_ok.mp e
        cases e
        have c := Calm.inside h3 w hn e4 e5 hc
        have q2 := c.quiet.before (bal_countData m) (runs_countData m) e3
        have q1 := q2.before (bal_addPassTwoExpr rb x aty 0 0) (runs_addPassTwoExpr (runs_knot n) x aty 0 0) e2
        obtain ⟨kk, w1, f1⟩ := kof q1
        have f3 : fatals s3 = fatals s2 := by unfold countData advance M.modify at e3; cases e3; rfl
        have c2 : Calm s1 s2 := ⟨q2, by have := c.fatals; omega⟩
        rw [data_width hd] at e3
        have a := Adv.of_kept kk ((grow_operand e2 w1 c2).counted e3)
        exact ⟨_, (a.after (kept_replaySession e4).1).after (kept_endSession e5).1⟩
    · rename_i hcond
      obtain ⟨⟨x1, name, nend⟩, s2, e2, e⟩ := M.bind_eq_ok.mp e
      have h2 := h1.bal ((bal_readExpr _ _ _).bal _ _ _ e2)
      dsimp only at e
      obtain ⟨⟨x2, x3, next⟩, s3, e3, e⟩ := M.bind_eq_ok.mp e
      have h3 := h2.bal ((bal_readExpr _ _ _).bal _ _ _ e3)
      dsimp only at e
      have k3of : Quiet s3 → Kept s0 s3 ∧ Quiet s2 ∧ Quiet s1 := by
        intro q3
        have q2 := q3.before (bal_readExpr _ _ _) (runs_readExpr _ _ _) e3
        have q1 := q2.before (bal_readExpr _ _ _) (runs_readExpr _ _ _) e2
        exact ⟨((kof q1).1.trans ((still_readExpr _ _ _).kept e2 q2.ranPreop)).trans
          ((still_readExpr _ _ _).kept e3 q3.ranPreop), q2, q1⟩
      have errs : ∀ {s3' : S}, (Quiet s3' → Kept s0 s3') →
          (echoError t sess >>= fun t => endSession sess >>= fun _ => pure t : M Str) s3' = .ok a s' →
          ∃ m, Adv m s0 s' := by
        intro s3' hq ee
        obtain ⟨_, s4, e4, ee⟩ := M.bind_eq_ok.mp ee
        obtain ⟨_, s5, e5, ee⟩ := M.bind_eq_ok.mp ee
        cases ee
        have q4 := hc.quiet.endSession e5
        have ks := (still_echoError t sess).kept e4 q4.ranPreop
        have q3 : Quiet s3' := by
          unfold echoError at e4
          obtain ⟨_, s6, e6, e4⟩ := M.bind_eq_ok.mp e4
          obtain ⟨_, s7, e7, e4⟩ := M.bind_eq_ok.mp e4
          cases e4
          exact (q4.replay e7).before (m := M.when (t == .fcreate) (setError E.LABEL_NOT_FOUND)) (by bal) (by runs) e6
        exact ⟨0, (((hq q3).trans ks).trans (kept_endSession e5).1).adv⟩
      split at e
      · exact errs (fun q => (k3of q).1) e
      · obtain ⟨q, s4, e4, e⟩ := M.bind_eq_ok.mp e
        have h4 := h3.bal ((bal_searchDefines _ _).bal _ _ _ e4)
        have k4of : Quiet s4 → Kept s0 s4 ∧ Quiet s3 := by
          intro q4
          have q3 := q4.before (bal_searchDefines _ _) (runs_searchDefines _ _) e4
          exact ⟨(k3of q3).1.trans ((still_searchDefines _ _).kept e4 q4.ranPreop), q3⟩
        cases q with
        | none => exact errs (fun q => (k4of q).1) e
        | some q =>
          dsimp only at e
          obtain ⟨_, s5, e5, e⟩ := M.bind_eq_ok.mp e
          obtain ⟨_, s6, e6, e⟩ := M.bind_eq_ok.mp e
          cases e
          have q5 := hc.quiet.endSession e6
          have q4 : Quiet s4 := by
            exact q5.runs (runs_emitDefine (runs_knot n) t _ _ _) e5
          obtain ⟨k4, q3⟩ := k4of q4
          obtain ⟨k3, q2, q1⟩ := k3of q3
          by_cases hsf : sessionFatal sess s1 = true
          · have f2 := sessionFatal_bal h1 w hn ((bal_readExpr _ _ _).bal _ _ _ e2) q2.stale hsf
            have f3 := sessionFatal_bal h2 w hn ((bal_readExpr _ _ _).bal _ _ _ e3) q3.stale f2
            have f4 := sessionFatal_bal h3 w hn ((bal_searchDefines _ _).bal _ _ _ e4) q4.stale f3
            obtain ⟨m, am⟩ := adv_emitDefine hk e5 h4 hn w f4 e6 hc (k4.fixed.emitting he)
            exact ⟨m, (Adv.of_kept k4 am).after (kept_endSession e6).1⟩
          · -- only for the fcreate functions, which emit nothing
            have ht : t.data = none := by
              cases t <;> simp_all [Es.data]
            have k5 := (still_emitDefine (still_knot n) t sess q.2 nend ht).kept e5 q5.ranPreop
            exact ⟨0, ((k4.trans k5).trans (kept_endSession e6).1).adv⟩

theorem adv_emitLoop {t : Es} (f : Nat) {exp : Bool} {sess : Option Int} {o x : Str} {s s' : S} {a : Str × Str}
    (e : emitLoop (knot n) t f exp sess o x s = .ok a s') (w : Wf s) (hc : Calm s s') (he : Emitting s) :
    ∃ m, Adv m s s' := by
  have rb := bal_knot n
  have rr := runs_knot n
  induction f generalizing exp sess o x s with
  | zero => cases e
  | succ f ih =>
    unfold emitLoop at e
    obtain ⟨⟨w1, x1, r1⟩, s1, e1, e⟩ := M.bind_eq_ok.mp e
    dsimp only at e
    have b1 := (bal_extractArg exp x).bal _ _ _ e1
    cases w1 with
    | none =>
      cases e
      exact ⟨0, ((still_extractArg exp x).kept e1 hc.quiet.ranPreop).adv⟩
    | some w1 =>
      dsimp only at e
      split at e
      · split at e
        · exfalso
          cases sess with
          | none => cases e
          | some m =>
            dsimp only at e
            rw [M.modify_bind] at e
            have := stale_before (m := echoError t m >>= fun r => endSession m >>= fun _ =>
              emitLoop (knot n) t f x1 (some m) (o ++ r) r1) ?_ e hc.quiet.stale
            · cases this
            · have := runs_emitLoop rr t f
              runs
        · obtain ⟨w2, s2, e2, e⟩ := M.bind_eq_ok.mp e
          have b2 := (bal_reduceString rb w1).bal _ _ _ e2
          have tailR : ∀ o', Runs (emitLoop (knot n) t f x1 sess o' r1) := fun o' => runs_emitLoop rr t f _ _ _ _
          have tailB : ∀ o', Bal (emitLoop (knot n) t f x1 sess o' r1) := fun o' => bal_emitLoop rb t f _ _ _ _
          split at e
          · obtain ⟨_, s3, e3, e⟩ := M.bind_eq_ok.mp e
            have b3 := (bal_emitChars w2).bal _ _ _ e3
            have q3 := hc.quiet.runs (tailR _) e
            have q2 := q3.runs (runs_emitChars _) e3
            have q1 := q2.runs (runs_reduceString rr _) e2
            have k1 := (still_extractArg exp x).kept e1 q1.ranPreop
            have k2 := (still_reduceString (still_knot n) w1).kept e2 q2.ranPreop
            have w2' := b2.wf q2.stale (b1.wf q1.stale w)
            have w3 := b3.wf q3.stale w2'
            have f1 := b1.fatals q1.stale w
            have f2 := b2.fatals q2.stale (b1.wf q1.stale w)
            have f3 := b3.fatals q3.stale w2'
            have a3 := Adv.of_kept (k1.trans k2) (adv_emitChars e3 ((k1.trans k2).fixed.emitting he))
            obtain ⟨j, aj⟩ := ih e w3 ⟨hc.quiet, by have := hc.fatals; omega⟩ (a3.fixed.emitting he)
            exact ⟨_, a3.trans aj⟩
          · have q2 := hc.quiet.runs (tailR _) e
            have q1 := q2.runs (runs_reduceString rr _) e2
            have k1 := (still_extractArg exp x).kept e1 q1.ranPreop
            have k2 := (still_reduceString (still_knot n) w1).kept e2 q2.ranPreop
            have w2' := b2.wf q2.stale (b1.wf q1.stale w)
            have f1 := b1.fatals q1.stale w
            have f2 := b2.fatals q2.stale (b1.wf q1.stale w)
            obtain ⟨j, aj⟩ := ih e w2' ⟨hc.quiet, by have := hc.fatals; omega⟩ ((k1.trans k2).fixed.emitting he)
            exact ⟨_, Adv.of_kept (k1.trans k2) aj⟩
      · obtain ⟨m, s2, e2, e⟩ := M.bind_eq_ok.mp e
        obtain ⟨hm, h2⟩ := inside_start e2
        obtain ⟨y, s3, e3, e⟩ := M.bind_eq_ok.mp e
        have b3 := close_emitNum rb t _ h2 hm e3
        have q3 := hc.quiet.runs (runs_emitLoop rr t f _ _ _ _) e
        have q2 := q3.runs (runs_emitNum rr t _ _) e3
        have q1 : Quiet s1 := ⟨(h2 q2.stale).1, by rw [← (kept_startSession e2).2]; exact q2.ranPreop,
          by rw [← spread_start e2]; exact q2.spread⟩
        have k1 := (still_extractArg exp x).kept e1 q1.ranPreop
        have w1 := b1.wf q1.stale w
        have w3 := b3.wf q3.stale w1
        have f1 := b1.fatals q1.stale w
        have f3 := b3.fatals q3.stale w1
        have f4 := ((bal_emitLoop rb t f _ _ _ _).bal _ _ _ e).fatals hc.quiet.stale w3
        have fc := hc.fatals
        obtain ⟨i, ai⟩ := adv_emitNum hk e2 e3 w1 ⟨q3, by omega⟩ (k1.fixed.emitting he)
        have a3 := Adv.of_kept k1 ai
        obtain ⟨j, aj⟩ := ih e w3 ⟨hc.quiet, by omega⟩ (a3.fixed.emitting he)
        exact ⟨_, a3.trans aj⟩

theorem adv_emitStringBody {x : Str} {t : Es} {s s' : S} {r : Str × Str}
    (e : emitStringBody (knot n) x t s = .ok r s') (w : Wf s) (hc : Calm s s') (he : Emitting s) :
    ∃ m, Adv m s s' := by
  unfold emitStringBody at e
  rw [M.modify_bind] at e
  obtain ⟨⟨r1, o⟩, s1, e1, e⟩ := M.bind_eq_ok.mp e
  dsimp only at e
  rw [M.get_bind, M.modify_bind] at e
  cases e
  have k0 : Kept s { s with emitLevel := s.emitLevel + 1 } := by constructor <;> first | rfl | (intros; rfl)
  have k1 : Kept s1 { s1 with emitLevel := s1.emitLevel - 1 } := by constructor <;> first | rfl | (intros; rfl)
  have w0 : Wf { s with emitLevel := s.emitLevel + 1 } := ⟨w.pos, w.le⟩
  have q1 : Quiet s1 := ⟨hc.quiet.stale, hc.quiet.ranPreop, hc.quiet.spread⟩
  obtain ⟨m, am⟩ := adv_emitLoop hk _ e1 w0 ⟨q1, hc.fatals⟩ (k0.fixed.emitting he)
  exact ⟨m, (Adv.of_kept k0 am).after k1⟩

omit hk in
/-- Data directives, at every recursion budget. -/
theorem emits_knot (n : Nat) : EmitsAdv (knot n) := by
  induction n with
  | zero => intro x t s r s' e; cases e
  | succ n ih => intro x t s r s' e w hc he; exact adv_emitStringBody ih e w hc he

end Spasm
