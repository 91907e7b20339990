import Verif.Lemmas.Emits

/-
Instructions: the size that is added to the address is the number of bytes that are appended.
-/

namespace Spasm
open Spec

theorem calm_of_accepted {s s' : S} (h : Accepted s s') : Calm s s' := by
  refine ⟨⟨h.noStale, h.noPreop, h.noSpread⟩, ?_⟩
  have : ∀ s : S, fatals s = fatalCount s := by
    intro s
    unfold fatals fatalCount
    congr 1
    funext e
    show (!(e.code == 0x100 || e.code == 0x106 || e.code == 0 || e.code == 0x129)) =
      (!(e.code == 0x100 || e.code == 0x106 || e.code == 0x129 || e.code == 0))
    rw [Bool.or_assoc (e.code == 0x100 || e.code == 0x106), Bool.or_assoc (e.code == 0x100 || e.code == 0x106),
      Bool.or_comm (e.code == 0)]
  rw [this, this]
  exact h.noFatal

theorem wf_of_inSession {s : S} (h : InSession s) : Wf s := ⟨h.1, h.2⟩

theorem grow_writeBytes {l : List Nat} {s s' : S} (e : writeBytes l s = .ok () s') : Grow l.length s s' := by
  induction l generalizing s with
  | nil => unfold writeBytes at e; cases e; exact .refl _
  | cons b t ih =>
    unfold writeBytes at e
    obtain ⟨_, s1, e1, e⟩ := M.bind_eq_ok.mp e
    exact ((grow_writeOut e1).trans (ih e)).cast (by rw [List.length_cons]; omega)

theorem fatals_eq {α : Type} {m : M α} (hb : Bal m) {s s' : S} {a : α} (e : m s = .ok a s') (w : Wf s)
    (hc : s'.stale = false) : fatals s ≤ fatals s' := (hb.bal _ _ _ e).fatals hc w

/-- A fatal error cannot have been set. -/
theorem not_calm_setError {c : Nat} (hc0 : c ≠ 0) (hf : isFatal c = true) {s s' : S} (e : setError c s = .ok () s') :
    fatals s' = fatals s + 1 := by
  unfold setError setProblem at e
  rw [if_neg (by simpa using hc0)] at e
  cases e
  unfold fatals
  simp only [List.countP_cons, hf, if_true]

theorem operandBytes_isArg {il : Bool} {c : Nat} (h : isArg c = false) : operandBytes il c = 0 := by
  unfold isArg at h
  unfold operandBytes
  simp only [Bool.or_eq_false_iff, beq_eq_false_iff_ne] at h
  obtain ⟨⟨⟨⟨⟨h1, h2⟩, h3⟩, h4⟩, h5⟩, h6⟩ := h
  rw [if_neg h1, if_neg (by omega)]

theorem argTy_width {il : Bool} {c : Nat} {ty : ArgTy} (h : argTyOf il c = some ty) :
    width ty = operandBytes il c := by
  unfold argTyOf at h
  unfold operandBytes
  by_cases h1 : c = 42
  · subst h1
    cases il <;> cases h <;> rfl
  by_cases h2 : c = 38
  · subst h2; cases h; rfl
  by_cases h3 : c = 37
  · subst h3; cases h; rfl
  by_cases h4 : c = 64
  · subst h4; cases h; rfl
  by_cases h5 : c = 35
  · subst h5; cases h; rfl
  simp [h1, h2, h3, h4, h5] at h

theorem argTy_none {il : Bool} {c : Nat} (h : argTyOf il c = none) : operandBytes il c = 0 ∧ c ≠ 42 := by
  unfold argTyOf at h
  unfold operandBytes
  by_cases h1 : c = 42
  · subst h1; cases h
  by_cases h2 : c = 38
  · subst h2; cases h
  by_cases h3 : c = 37
  · subst h3; cases h
  by_cases h4 : c = 64
  · subst h4; cases h
  by_cases h5 : c = 35
  · subst h5; cases h
  rw [if_neg h1, if_neg (by omega)]
  exact ⟨rfl, h1⟩

/-- The number of 16-bit immediates of a pattern that are one byte longer. -/
def longs (il : Bool) (pat : Str) : Nat := if il then pat.count 42 else 0

theorem longs_cons (il : Bool) (c : Nat) (pat : Str) :
    longs il (c :: pat) = longs il pat + (if c = 42 ∧ il = true then 1 else 0) := by
  unfold longs
  cases il
  · simp
  · simp only [if_true, and_true]
    rw [List.count_cons]
    simp

theorem operandBytes_long (c : Nat) :
    operandBytes true c = operandBytes false c + (if c = 42 then 1 else 0) := by
  unfold operandBytes
  by_cases h1 : c = 42
  · simp [h1]
  · simp [h1]

theorem sum_operandBytes (il : Bool) (pat : Str) :
    (pat.map (operandBytes il)).sum = (pat.map (operandBytes false)).sum + longs il pat := by
  cases il
  · simp [longs]
  · induction pat with
    | nil => rfl
    | cons c t ih =>
      rw [List.map_cons, List.map_cons, List.sum_cons, List.sum_cons, ih, longs_cons, operandBytes_long]
      simp only [and_true]
      omega

theorem grow_writeOperands {n : Nat} {il : Bool} {pat : Str} {caps : List (Str × Str)} {size size' : Int}
    {bit bit' : Option Str} {s s' : S} (e : writeOperands (knot n) il pat caps size bit s = .ok (size', bit') s')
    (w : Wf s) (hc : Calm s s') :
    Grow (pat.map (operandBytes il)).sum s s' ∧ size' = size + longs il pat := by
  have rb := bal_knot n
  have rr := runs_knot n
  induction pat generalizing caps size bit s with
  | nil =>
    unfold writeOperands at e
    cases e
    refine ⟨.refl _, ?_⟩
    unfold longs; cases il <;> simp
  | cons c pat ih =>
    rw [List.map_cons, List.sum_cons, longs_cons]
    unfold writeOperands at e
    split at e
    · rename_i harg
      cases caps with
      | nil => cases e
      | cons cap caps =>
        dsimp only at e
        obtain ⟨_, s1, e1, e⟩ := M.bind_eq_ok.mp e
        have hb1 : Bal (M.when (extraParens (capText cap)) (showWarning .parenAdvice)) := by bal
        have hr1 : Runs (M.when (extraParens (capText cap)) (showWarning .parenAdvice)) := by runs
        have hs1 : Still (M.when (extraParens (capText cap)) (showWarning .parenAdvice)) := by stills
        split at e
        · rename_i h94
          obtain ⟨w1, c1, c2⟩ := Calm.split (bal_writeOperands rb il pat _ _ _) (runs_writeOperands rr il pat _ _ _) e
            (hb1.bal _ _ _ e1) w hc
          obtain ⟨g, h⟩ := ih e w1 c2
          have k := hs1.kept e1 c1.quiet.ranPreop
          rw [beq_iff_eq] at h94
          subst h94
          refine ⟨(k.grow.trans g).cast (by simp [operandBytes]), ?_⟩
          rw [h]; simp
        · split at e
          · exfalso
            obtain ⟨_, s2, e2, e⟩ := M.bind_eq_ok.mp e
            have q2 := hc.quiet.runs (runs_writeOperands rr il pat _ _ _) e
            have q1 := q2.runs (runs_setError _) e2
            have b1 := hb1.bal _ _ _ e1
            have w1 := b1.wf q1.stale w
            have f1 := b1.fatals q1.stale w
            have b2 := (bal_setError E.INVALID_INDEX_OFFSET).bal _ _ _ e2
            have f2 := not_calm_setError (by decide) (by decide) e2
            have f3 := fatals_eq (bal_writeOperands rb il pat _ _ _) e (b2.wf q2.stale w1) hc.quiet.stale
            have := hc.fatals
            omega
          · rename_i h94 _
            cases hty : argTyOf il c with
            | none =>
              rw [hty] at e
              dsimp only at e
              obtain ⟨w1, c1, c2⟩ := Calm.split (bal_writeOperands rb il pat _ _ _)
                (runs_writeOperands rr il pat _ _ _) e (hb1.bal _ _ _ e1) w hc
              obtain ⟨g, h⟩ := ih e w1 c2
              have k := hs1.kept e1 c1.quiet.ranPreop
              obtain ⟨h0, h42⟩ := argTy_none hty
              refine ⟨(k.grow.trans g).cast (by rw [h0]), ?_⟩
              rw [h]
              simp [h42]
            | some ty =>
              rw [hty] at e
              dsimp only at e
              obtain ⟨_, s2, e2, e⟩ := M.bind_eq_ok.mp e
              have b1 := hb1.bal _ _ _ e1
              have hb2 := bal_addPassTwoExpr rb (if c == 64 then 48 :: capText cap else capText cap) ty
                (if (c == 42 && il) = true then size + 1 else size) 0
              have hr2 := runs_addPassTwoExpr rr (if c == 64 then 48 :: capText cap else capText cap) ty
                (if (c == 42 && il) = true then size + 1 else size) 0
              obtain ⟨w2, c2, c3⟩ := Calm.split (bal_writeOperands rb il pat _ _ _)
                (runs_writeOperands rr il pat _ _ _) e (b1.trans (hb2.bal _ _ _ e2)) w hc
              obtain ⟨w1, c1, c2'⟩ := Calm.split hb2 hr2 e2 b1 w c2
              have k := hs1.kept e1 c1.quiet.ranPreop
              have g2 := grow_operand e2 w1 c2'
              obtain ⟨g, h⟩ := ih e w2 c3
              refine ⟨((k.grow.trans g2).trans g).cast (by rw [argTy_width hty]; omega), ?_⟩
              rw [h]
              by_cases h42 : c = 42
              · subst h42
                cases il <;> simp
                omega
              · simp [h42]
    · rename_i harg
      obtain ⟨g, h⟩ := ih e w hc
      have harg' : isArg c = false := by simpa using harg
      refine ⟨g.cast (by rw [operandBytes_isArg harg']; simp), ?_⟩
      rw [h]
      have : c ≠ 42 := by rintro rfl; cases harg'
      simp [this]

theorem grow_writeInstr {n : Nat} {i : Instr} {caps : List (Str × Str)} {suffix : Option Nat} {size : Int} {s s' : S}
    (e : writeInstr (knot n) i caps suffix s = .ok size s') (hi : i.size = encodedLength false i)
    (w : Wf s) (hc : Calm s s') (he : Emitting s) :
    Grow (encodedLength (longImmediate suffix s) i + (if suffix.isSome then 1 else 0)) s s' ∧
      size = encodedLength (longImmediate suffix s) i + (if suffix.isSome then 1 else 0) := by
  have rb := bal_knot n
  have rr := runs_knot n
  -- the part after the prefix
  have fin : ∀ (il : Bool) (s1 : S) (sz : Int), Wf s1 → Emitting s1 → fatals s ≤ fatals s1 →
      (do
        M.when (s.mode.normal || s.mode.list) (writeBytes i.data)
        let (size, bit) ← writeOperands (knot n) il i.args caps sz none
        if i.hasEnd && (s.mode.normal || s.mode.list) then
          match bit with
          | some t => addPassTwoExpr (knot n) t .bitNum size i.endData
          | none => writeOut i.endData
        else pure ()
        pure size : M Int) s1 = .ok size s' →
      Grow (encodedLength il i) s1 s' ∧ size = sz + longs il i.args := by
    intro il s1 sz w1 em1 f1 e1
    have hd : (s.mode.normal || s.mode.list) = true := he
    rw [hd, M.when_true] at e1
    obtain ⟨_, s2, e2, e1⟩ := M.bind_eq_ok.mp e1
    obtain ⟨⟨size2, bit⟩, s3, e3, e1⟩ := M.bind_eq_ok.mp e1
    dsimp only at e1
    have b2 := (bal_writeBytes i.data).bal _ _ _ e2
    have b3 := (bal_writeOperands rb il i.args caps sz none).bal _ _ _ e3
    have tail : (Grow (if i.hasEnd then 1 else 0) s3 s' ∧ size = size2) ∧ Quiet s3 ∧ fatals s3 ≤ fatals s1 := by
      rw [Bool.and_true] at e1
      cases hh : i.hasEnd with
      | false =>
        rw [hh] at e1
        simp only [Bool.false_eq_true, if_false] at e1
        cases e1
        exact ⟨⟨.refl _, rfl⟩, hc.quiet, by have := hc.fatals; omega⟩
      | true =>
        rw [hh] at e1
        simp only [if_true] at e1
        cases bit with
        | none =>
          dsimp only at e1
          obtain ⟨_, s4, e4, e1⟩ := M.bind_eq_ok.mp e1
          cases e1
          have q3 := hc.quiet.runs (runs_writeOut _) e4
          have q2 := q3.runs (runs_writeOperands rr il i.args caps sz none) e3
          have w3 := b3.wf q3.stale (b2.wf q2.stale w1)
          have := fatals_eq (bal_writeOut _) e4 w3 hc.quiet.stale
          exact ⟨⟨grow_writeOut e4, rfl⟩, q3, by have := hc.fatals; omega⟩
        | some t =>
          dsimp only at e1
          obtain ⟨_, s4, e4, e1⟩ := M.bind_eq_ok.mp e1
          cases e1
          have q3 := hc.quiet.runs (runs_addPassTwoExpr rr _ _ _ _) e4
          have q2 := q3.runs (runs_writeOperands rr il i.args caps sz none) e3
          have q1 := q2.runs (runs_writeBytes _) e2
          have w2 := b2.wf q2.stale w1
          have w3 := b3.wf q3.stale w2
          have h4 := fatals_eq (bal_addPassTwoExpr rb _ _ _ _) e4 w3 hc.quiet.stale
          have h3 := b3.fatals q3.stale w2
          have h2 := b2.fatals q2.stale w1
          have h0 := hc.fatals
          exact ⟨⟨grow_operand e4 w3 ⟨hc.quiet, by omega⟩, rfl⟩, q3, by omega⟩
    obtain ⟨⟨g4, hsz⟩, q3, f3⟩ := tail
    have q2 := q3.runs (runs_writeOperands rr il i.args caps sz none) e3
    have w2 := b2.wf q2.stale w1
    have h2 := b2.fatals q2.stale w1
    obtain ⟨g3, h3⟩ := grow_writeOperands e3 w2 ⟨q3, by omega⟩
    refine ⟨(((grow_writeBytes e2).trans g3).trans g4).cast ?_, by rw [hsz]; exact h3⟩
    unfold encodedLength
    rfl
  have hlen : ∀ il : Bool, (encodedLength il i : Int) = encodedLength false i + longs il i.args := by
    intro il
    unfold encodedLength
    have := sum_operandBytes il i.args
    omega
  unfold writeInstr at e
  rw [M.get_bind] at e
  dsimp only at e
  cases suffix with
  | none =>
    dsimp only at e
    simp only [Option.isSome_none, Bool.false_eq_true, if_false] at e
    obtain ⟨g, h⟩ := fin _ s i.size w he (by omega) e
    refine ⟨g.cast (by simp [longImmediate]), ?_⟩
    rw [h, hi]
    have := hlen (longImmediate none s)
    simp only [Option.isSome_none, Bool.false_eq_true, if_false]
    unfold longImmediate at this ⊢
    dsimp only at this ⊢
    omega
  | some x =>
    dsimp only at e
    simp only [Option.isSome_some, if_true] at e
    obtain ⟨_, s1, e1, e⟩ := M.bind_eq_ok.mp e
    have g1 := grow_writeOut e1
    have b1 := (bal_writeOut _).bal _ _ _ e1
    have st1 : s1.stale = s.stale := by
      unfold writeOut at e1
      split at e1 <;> cases e1; rfl
    have ss : s.stale = false := stale_before (runs_writeInstr rr i caps (some x)) (s := s) (s' := s') (a := size) (by
      unfold writeInstr
      rw [M.get_bind]
      dsimp only
      simp only [Option.isSome_some, if_true]
      rw [M.bind_ok e1]; exact e) hc.quiet.stale
    have q1 : s1.stale = false := by rw [st1]; exact ss
    obtain ⟨g, h⟩ := fin _ s1 (i.size + 1) (b1.wf q1 w) (g1.fixed.emitting he) (b1.fatals q1 w) e
    refine ⟨(g1.trans g).cast (by simp [longImmediate]; omega), ?_⟩
    rw [h, hi]
    have := hlen (longImmediate (some x) s)
    simp only [Option.isSome_some, if_true]
    unfold longImmediate at this ⊢
    dsimp only at this ⊢
    omega

/-! ### Matching -/

theorem still_matchLoop (p : Str) (m : Match) : Still (matchLoop p m) := by
  induction p generalizing m with
  | nil => unfold matchLoop; stills
  | cons c p ih => unfold matchLoop; stills <;> exact ih _

theorem still_matchInstr (i : Instr) (c s : Str) : Still (matchInstr i c s) := by
  unfold matchInstr
  refine Still.bind (still_matchLoop _ _) fun _ => ?_
  stills

theorem still_matchInstrs (c s : Str) (l : List Instr) (x : Str) : Still (matchInstrs c s l x) := by
  induction l generalizing x with
  | nil => unfold matchInstrs; stills
  | cons i l ih =>
    unfold matchInstrs
    refine Still.bind (still_matchInstr _ _ _) fun p => ?_
    stills
    all_goals exact ih _

theorem still_matchArgs (c s : Str) (l : List Opcode) : Still (matchArgs c s l) := by
  induction l with
  | nil => unfold matchArgs; stills
  | cons o l ih =>
    unfold matchArgs
    refine Still.bind (still_matchInstrs _ _ _ _) fun p => ?_
    stills

/-- An entry that matches is in the list. -/
theorem matchInstrs_mem {c x : Str} {l : List Instr} {last last' : Str} {i : Instr} {caps : List (Str × Str)} {s s' : S}
    (e : matchInstrs c x l last s = .ok (some (i, caps), last') s') : i ∈ l := by
  induction l generalizing last s with
  | nil => unfold matchInstrs at e; cases e
  | cons j l ih =>
    unfold matchInstrs at e
    obtain ⟨⟨r, last1⟩, s1, e1, e⟩ := M.bind_eq_ok.mp e
    dsimp only at e
    cases r with
    | some caps' => cases e; simp
    | none => exact List.mem_cons_of_mem _ (ih e)

theorem matchArgs_mem {c x : Str} {l : List Opcode} {last' : Str} {i : Instr} {caps : List (Str × Str)} {s s' : S}
    (e : matchArgs c x l s = .ok (some (i, caps), last') s') : ∃ o ∈ l, i ∈ o.instrs := by
  induction l generalizing s with
  | nil => unfold matchArgs at e; cases e
  | cons o l ih =>
    unfold matchArgs at e
    obtain ⟨⟨r, last1⟩, s1, e1, e⟩ := M.bind_eq_ok.mp e
    dsimp only at e
    cases r with
    | some p => cases e; exact ⟨o, by simp, matchInstrs_mem e1⟩
    | none =>
      dsimp only at e
      cases l with
      | nil =>
        dsimp only at e
        obtain ⟨_, _, _, e⟩ := M.bind_eq_ok.mp e
        cases e
      | cons o' l =>
        dsimp only at e
        split at e
        · obtain ⟨p, hp, hi⟩ := ih e
          exact ⟨p, List.mem_cons_of_mem _ hp, hi⟩
        · obtain ⟨_, _, _, e⟩ := M.bind_eq_ok.mp e
          cases e

theorem findOpcode_mem {x : Str} {m : Nat} {l : List Opcode} {o : Opcode} (h : o ∈ findOpcode x m l) : o ∈ l := by
  induction l with
  | nil => exact h
  | cons p l ih =>
    unfold findOpcode at h
    split at h
    · exact h
    · exact List.mem_cons_of_mem _ (ih h)

/-- What an instruction statement does. -/
theorem doInstr_cases {n : Nat} {ops : List Opcode} {name r r' : Str} {suffix : Option Nat} {s s' : S}
    (e : doInstr (knot n) ops name r suffix s = .ok r' s') :
    (∃ s1, matchArgs ((between r (skipWs r)).reverse ++ name.reverse) (skipWs r) ops s = .ok (none, r') s1 ∧ s' = s1) ∨
    (∃ i caps s1 size s2, matchArgs ((between r (skipWs r)).reverse ++ name.reverse) (skipWs r) ops s =
        .ok (some (i, caps), r') s1 ∧ writeInstr (knot n) i caps suffix s1 = .ok size s2 ∧
        s' = { s2 with pc := toU32 (s2.pc + size), statsCode := s2.statsCode + size, statsMin := s2.statsMin + (i.minTime + timePenalty suffix s2.adl i), statsMax := s2.statsMax + (i.maxTime + timePenalty suffix s2.adl i) }) := by
  unfold doInstr at e
  dsimp only at e
  obtain ⟨⟨m, r1⟩, s1, e1, e⟩ := M.bind_eq_ok.mp e
  dsimp only at e
  cases m with
  | none => cases e; exact .inl ⟨_, e1, rfl⟩
  | some p =>
    obtain ⟨i, caps⟩ := p
    dsimp only at e
    obtain ⟨size, s2, e2, e⟩ := M.bind_eq_ok.mp e
    unfold advance at e
    rw [M.modify_bind, M.modify_bind] at e
    cases e
    exact .inr ⟨i, caps, s1, size, s2, e1, e2, rfl⟩

theorem longImmediate_fixed {suffix : Option Nat} {s s' : S} (h : Fixed s s') : longImmediate suffix s' = longImmediate suffix s := by
  unfold longImmediate
  cases suffix with
  | some x => rfl
  | none => dsimp only; rw [h.mode, h.adl]

theorem adv_doInstr {n : Nat} {ops : List Opcode} {name r r' : Str} {suffix : Option Nat} {s s' : S}
    (e : doInstr (knot n) ops name r suffix s = .ok r' s')
    (ho : ∀ o ∈ ops, ∀ i ∈ o.instrs, i.size = encodedLength false i)
    (w : Wf s) (hc : Calm s s') (he : Emitting s) :
    ∃ s1, (matchArgs ((between r (skipWs r)).reverse ++ name.reverse) (skipWs r) ops s = .ok (none, r') s1 ∧ s' = s1 ∧
        Adv 0 s s') ∨
      ∃ i caps, matchArgs ((between r (skipWs r)).reverse ++ name.reverse) (skipWs r) ops s =
        .ok (some (i, caps), r') s1 ∧ Adv (encodedLength (longImmediate suffix s) i + (if suffix.isSome then 1 else 0)) s s' := by
  rcases doInstr_cases e with ⟨s1, e1, h1⟩ | ⟨i, caps, s1, size, s2, e1, e2, rfl⟩
  · subst h1
    exact ⟨_, .inl ⟨e1, rfl, ((still_matchArgs _ _ _).kept e1 hc.quiet.ranPreop).adv⟩⟩
  · obtain ⟨o, hm, hi⟩ := matchArgs_mem e1
    have q2 : Quiet s2 := ⟨hc.quiet.stale, hc.quiet.ranPreop, hc.quiet.spread⟩
    have q1 := q2.runs (runs_writeInstr (runs_knot n) i caps suffix) e2
    have b1 := (bal_matchArgs _ _ _).bal _ _ _ e1
    have k1 := (still_matchArgs _ _ _).kept e1 q1.ranPreop
    have f1 := b1.fatals q1.stale w
    have fc : fatals s2 ≤ fatals s := hc.fatals
    obtain ⟨g, hsz⟩ := grow_writeInstr e2 (ho o hm i hi) (b1.wf q1.stale w) ⟨q2, by omega⟩ (k1.fixed.emitting he)
    rw [longImmediate_fixed k1.fixed] at g hsz
    refine ⟨s1, .inr ⟨i, caps, e1, ?_⟩⟩
    have g' := (k1.grow.trans g).cast (Nat.zero_add _)
    refine ⟨g'.fixed.trans (by constructor <;> first | rfl | (intros; rfl)), ?_, g'.out, g'.mem, g'.exprs⟩
    show toU32 (s2.pc + size) % _ = _
    unfold toU32
    rw [g'.pc, hsz]
    push_cast
    omega

/-! ### .fill -/

theorem grow_writeFill {v : Int} (m : Nat) {s s' : S} (e : writeFill v m s = .ok () s') : Grow m s s' := by
  induction m generalizing s with
  | zero => unfold writeFill at e; cases e; exact .refl _
  | succ m ih =>
    unfold writeFill at e
    obtain ⟨_, s1, e1, e⟩ := M.bind_eq_ok.mp e
    exact ((grow_writeOut e1).trans (ih e)).cast (by omega)

theorem adv_dirFill {n : Nat} {x : Str} {s s' : S} {r : Option Str} (e : dirFill (knot n) x s = .ok r s')
    (hp : s'.ranPreop = false) : ∃ m, Adv m s s' := by
  have rr := runs_knot n
  have rs := still_knot n
  unfold dirFill at e
  obtain ⟨⟨_, w1, r1⟩, s1, e1, e⟩ := M.bind_eq_ok.mp e
  dsimp only at e
  obtain ⟨size, s2, e2, e⟩ := M.bind_eq_ok.mp e
  obtain ⟨⟨found, w2, r2⟩, s3, e3, e⟩ := M.bind_eq_ok.mp e
  dsimp only at e
  have fin : ∀ (v : Int) (s4 : S), (s4.ranPreop = false → Kept s s4) →
      (if size.getD 0 < 0 then do
        setError E.SIZE_MUST_BE_POSITIVE
        pure (some r2)
      else do
        M.when (decide (v < -128 ∨ v > 255)) (setWarning E.WARN_TRUNCATING_8)
        countData (size.getD 0)
        writeFill v (size.getD 0).toNat
        pure (some r2) : M (Option Str)) s4 = .ok r s' → ∃ m, Adv m s s' := by
    intro v s4 hk e
    split at e
    · obtain ⟨_, s5, e5, e⟩ := M.bind_eq_ok.mp e
      cases e
      have k5 := kept_setError e5
      exact ⟨0, ((hk (ranPreop_before (runs_setError _) e5 hp)).trans k5).adv⟩
    · rename_i hneg
      obtain ⟨_, s5, e5, e⟩ := M.bind_eq_ok.mp e
      obtain ⟨_, s6, e6, e⟩ := M.bind_eq_ok.mp e
      obtain ⟨_, s7, e7, e⟩ := M.bind_eq_ok.mp e
      cases e
      have p6 := ranPreop_before (runs_writeFill v _) e7 hp
      have p5 := ranPreop_before (runs_countData _) e6 p6
      have p4 := ranPreop_before (m := M.when (decide (v < -128 ∨ v > 255)) (setWarning E.WARN_TRUNCATING_8)) (by runs)
        e5 p5
      have k := (hk p4).trans (kept_whenWarning e5)
      have g := grow_writeFill _ e7
      have hm : ((size.getD 0).toNat : Int) = size.getD 0 := by omega
      rw [← hm] at e6
      unfold countData advance M.modify at e6
      cases e6
      refine ⟨(size.getD 0).toNat, ?_, ?_, ?_, ?_, ?_⟩
      · exact k.fixed.trans (Fixed.trans (by constructor <;> first | rfl | (intros; rfl)) g.fixed)
      · have : s'.pc = toU32 (s5.pc + ((size.getD 0).toNat : Int)) := g.pc
        rw [this, k.pc]; unfold toU32; omega
      · have := g.out; rw [this]; show s5.outPtr + _ = _; rw [k.outPtr]
      · intro i hi
        rw [g.mem i (by show _ < s5.outPtr ∨ s5.outPtr + _ ≤ _; rw [k.outPtr]; exact hi)]
        show s5.mem i = _
        rw [k.mem]
      · obtain ⟨new, h1, h2⟩ := g.exprs
        refine ⟨new, ?_, ?_⟩
        · rw [h1]; show s5.exprs ++ _ = _; rw [k.exprs]
        · intro x hx
          have : s5.outPtr ≤ x.out ∧ _ ≤ s5.outPtr + _ := h2 x hx
          rw [k.outPtr] at this; exact this
  have k3 : s3.ranPreop = false → Kept s s3 := by
    intro p3
    have p2 := ranPreop_before (runs_readExpr _ _ _) e3 p3
    have p1 := ranPreop_before (runs_parseNum rr _) e2 p2
    exact (((still_readExpr _ _ _).kept e1 p1).trans ((still_parseNum rs _).kept e2 p2)).trans
      ((still_readExpr _ _ _).kept e3 p3)
  cases found with
  | false =>
    simp only [Bool.false_eq_true, if_false] at e
    exact fin 0 s3 k3 e
  | true =>
    simp only [if_true] at e
    obtain ⟨v, s4, e4, e⟩ := M.bind_eq_ok.mp e
    exact fin (v.getD 0) s4 (fun p4 => (k3 (ranPreop_before (runs_parseNum rr _) e4 p4)).trans
      ((still_parseNum rs _).kept e4 p4)) e

/-- The data directives. -/
def Dir.isData : Dir → Bool
  | .db | .dw | .byte | .word | .fill | .block | .dl | .long => true
  | _ => false

theorem adv_runDir {n : Nat} {d : Dir} {x : Str} {s s' : S} {r : Option Str} (hd : d.isData = true)
    (e : runDir (knot n) d x s = .ok r s') (w : Wf s) (hc : Calm s s') (he : Emitting s) : ∃ m, Adv m s s' := by
  have str : ∀ t : Es, (do pure (some (← (knot n).emitString x t).1) : M (Option Str)) s = .ok r s' → ∃ m, Adv m s s' := by
    intro t e
    obtain ⟨r1, s1, e1, e⟩ := M.bind_eq_ok.mp e
    cases e
    exact emits_knot n x t s r1 s' e1 w hc he
  cases d <;> first | (exfalso; exact absurd hd (by decide)) | skip
  all_goals unfold runDir at e; dsimp only at e
  all_goals first | exact str _ e | exact adv_dirFill e hc.quiet.ranPreop

end Spasm
