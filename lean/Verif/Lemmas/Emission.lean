import Verif.Lemmas.Still
import Verif.Lemmas.BalanceMain
import Verif.Spec.Emit

/-
What emitting operands and instructions does to the output, the address and the queue of deferred operands.
-/

namespace Spasm
open Spec

/-- Everything but the output, the address, the queues, the statistics and bookkeeping is the same. -/
structure Fixed (s s' : S) : Prop where
  mode : s'.mode = s.mode
  fs : s'.fs = s.fs
  includeDirs : s'.includeDirs = s.includeDirs
  caseSens : s'.caseSens = s.caseSens
  adl : s'.adl = s.adl
  currFile : s'.currFile = s.currFile
  tempPath : s'.tempPath = s.tempPath
  labels : s'.labels = s.labels
  reusables : s'.reusables = s.reusables
  totalReusables : s'.totalReusables = s.totalReusables
  currReusable : s'.currReusable = s.currReusable
  lastLabel : s'.lastLabel = s.lastLabel
  lastDefine : s'.lastDefine = s.lastDefine
  ifLevel : s'.ifLevel = s.ifLevel
  inMacro : s'.inMacro = s.inMacro
  opcodes : s'.opcodes = s.opcodes
  bufs : s'.bufs = s.bufs
  curBuf : s'.curBuf = s.curBuf
  rand : s'.rand = s.rand
  outputs : s'.outputs = s.outputs
  defines : ∀ key, key ≠ b! "__LINE" → key ≠ b! "__FILE" → s'.defines.lookup key = s.defines.lookup key

theorem Fixed.refl (s : S) : Fixed s s := by
  constructor <;> first | rfl | (intros; rfl)

theorem Fixed.trans {a b c : S} (h : Fixed a b) (h' : Fixed b c) : Fixed a c where
  mode := h'.mode.trans h.mode
  fs := h'.fs.trans h.fs
  includeDirs := h'.includeDirs.trans h.includeDirs
  caseSens := h'.caseSens.trans h.caseSens
  adl := h'.adl.trans h.adl
  currFile := h'.currFile.trans h.currFile
  tempPath := h'.tempPath.trans h.tempPath
  labels := h'.labels.trans h.labels
  reusables := h'.reusables.trans h.reusables
  totalReusables := h'.totalReusables.trans h.totalReusables
  currReusable := h'.currReusable.trans h.currReusable
  lastLabel := h'.lastLabel.trans h.lastLabel
  lastDefine := h'.lastDefine.trans h.lastDefine
  ifLevel := h'.ifLevel.trans h.ifLevel
  inMacro := h'.inMacro.trans h.inMacro
  opcodes := h'.opcodes.trans h.opcodes
  bufs := h'.bufs.trans h.bufs
  curBuf := h'.curBuf.trans h.curBuf
  rand := h'.rand.trans h.rand
  outputs := h'.outputs.trans h.outputs
  defines := fun k h1 h2 => (h'.defines k h1 h2).trans (h.defines k h1 h2)

theorem Kept.fixed {s s' : S} (h : Kept s s') : Fixed s s' where
  mode := h.mode
  fs := h.fs
  includeDirs := h.includeDirs
  caseSens := h.caseSens
  adl := h.adl
  currFile := h.currFile
  tempPath := h.tempPath
  labels := h.labels
  reusables := h.reusables
  totalReusables := h.totalReusables
  currReusable := h.currReusable
  lastLabel := h.lastLabel
  lastDefine := h.lastDefine
  ifLevel := h.ifLevel
  inMacro := h.inMacro
  opcodes := h.opcodes
  bufs := h.bufs
  curBuf := h.curBuf
  rand := h.rand
  outputs := h.outputs
  defines := h.defines

/-- `n` bytes were appended, and operands were deferred only with places among them. -/
structure Grow (n : Nat) (s s' : S) : Prop where
  fixed : Fixed s s'
  pc : s'.pc = s.pc
  out : s'.outPtr = s.outPtr + n
  mem : ∀ i : Nat, (i : Int) < s.outPtr ∨ s.outPtr + n ≤ i → s'.mem i = s.mem i
  exprs : ∃ new, s'.exprs = s.exprs ++ new ∧ ∀ e ∈ new, s.outPtr ≤ e.out ∧ e.out + width e.ty ≤ s.outPtr + n

theorem Kept.grow {s s' : S} (h : Kept s s') : Grow 0 s s' where
  fixed := h.fixed
  pc := h.pc
  out := by rw [h.outPtr]; simp
  mem := fun i _ => by rw [h.mem]
  exprs := ⟨[], by rw [h.exprs]; simp, fun e he => by cases he⟩

theorem Grow.refl (s : S) : Grow 0 s s := (Kept.refl s).grow

theorem Grow.trans {n m : Nat} {a b c : S} (h : Grow n a b) (h' : Grow m b c) : Grow (n + m) a c where
  fixed := h.fixed.trans h'.fixed
  pc := h'.pc.trans h.pc
  out := by rw [h'.out, h.out]; omega
  mem := by
    intro i hi
    rw [h'.mem i (by rw [h.out]; omega), h.mem i (by omega)]
  exprs := by
    obtain ⟨x, hx, px⟩ := h.exprs
    obtain ⟨y, hy, py⟩ := h'.exprs
    refine ⟨x ++ y, by rw [hy, hx, List.append_assoc], fun e he => ?_⟩
    rcases List.mem_append.mp he with he | he
    · have := px e he; omega
    · have := py e he
      rw [h.out] at this; omega

/-- The same relation up to a change of the bound. -/
theorem Grow.cast {n m : Nat} {s s' : S} (h : Grow n s s') (e : n = m) : Grow m s s' := e ▸ h

/-! ### Without running a preprocessor line -/

/-- Still, for a run that returned without running a preprocessor line. -/
theorem Still.kept {α : Type} {m : M α} (h : Still m) {s s' : S} {a : α} (e : m s = .ok a s')
    (hp : s'.ranPreop = false) : Kept s s' := (h.ok e hp).2

theorem ranPreop_before {α : Type} {m : M α} (h : Runs m) {s s' : S} {a : α} (e : m s = .ok a s')
    (hp : s'.ranPreop = false) : s.ranPreop = false := by
  cases hs : s.ranPreop with
  | false => rfl
  | true =>
    have := ranPreop_stays h s hs
    rw [e] at this
    exact absurd (this.symm.trans hp) (by decide)

/-! ### write_arg -/

theorem grow_writeOut {v : Int} {s s' : S} (e : writeOut v s = .ok () s') : Grow 1 s s' := by
  unfold writeOut at e
  split at e
  · cases e
  · cases e
    refine ⟨by constructor <;> first | rfl | (intros; rfl), rfl, rfl, ?_, ⟨[], by simp, fun e he => by cases he⟩⟩
    intro i hi
    dsimp only
    rw [if_neg]
    omega

theorem kept_setProblem {c : Nat} {w : Bool} {s s' : S} (e : setProblem c w s = .ok () s') : Kept s s' := by
  unfold setProblem at e
  split at e
  · cases e; exact .refl s
  · cases e; constructor <;> first | rfl | (intros; rfl)

theorem kept_setError {c : Nat} {s s' : S} (e : setError c s = .ok () s') : Kept s s' := kept_setProblem e
theorem kept_setWarning {c : Nat} {s s' : S} (e : setWarning c s = .ok () s') : Kept s s' := kept_setProblem e

theorem kept_showError {m : Msg} {s s' : S} (e : showError m s = .ok () s') : Kept s s' := by
  cases e; constructor <;> first | rfl | (intros; rfl)

theorem kept_whenWarning {b : Bool} {c : Nat} {s s' : S} (e : M.when b (setWarning c) s = .ok () s') : Kept s s' := by
  cases b
  · cases e; exact .refl s
  · exact kept_setWarning e

/-- An operand takes its width, except that an illegal RST vector is put on record and writes nothing. -/
theorem grow_writeArg {v : Int} {ty : ArgTy} {i o : Int} {s s' : S} (e : writeArg v ty i o s = .ok () s') :
    Grow (width ty) s s' ∨
      (ty = .rst ∧ isRst v = false ∧ setError E.INVALID_RST_OPERANDS s = .ok () s') := by
  unfold writeArg at e
  cases ty with
  | num8 =>
    obtain ⟨_, s1, e1, e2⟩ := M.bind_eq_ok.mp e
    exact .inl (((kept_whenWarning e1).grow.trans (grow_writeOut e2)).cast rfl)
  | rst =>
    dsimp only at e
    split at e
    · exact .inl (grow_writeOut e)
    · rename_i h
      exact .inr ⟨rfl, by simpa using h, e⟩
  | num16 =>
    dsimp only at e
    rw [M.get_bind] at e
    obtain ⟨_, s1, e1, e⟩ := M.bind_eq_ok.mp e
    obtain ⟨_, s2, e2, e3⟩ := M.bind_eq_ok.mp e
    exact .inl ((((kept_whenWarning e1).grow.trans (grow_writeOut e2)).trans (grow_writeOut e3)).cast rfl)
  | num24 =>
    obtain ⟨_, s1, e1, e⟩ := M.bind_eq_ok.mp e
    obtain ⟨_, s2, e2, e3⟩ := M.bind_eq_ok.mp e
    exact .inl (((grow_writeOut e1).trans ((grow_writeOut e2).trans (grow_writeOut e3))).cast rfl)
  | addrOffset =>
    dsimp only at e
    rw [M.get_bind] at e
    split at e
    · obtain ⟨_, s1, e1, e2⟩ := M.bind_eq_ok.mp e
      exact .inl (((kept_setError e1).grow.trans (grow_writeOut e2)).cast rfl)
    · exact .inl (grow_writeOut e)
  | ixIyOffset =>
    dsimp only at e
    split at e
    · obtain ⟨_, s1, e1, e2⟩ := M.bind_eq_ok.mp e
      exact .inl (((kept_setError e1).grow.trans (grow_writeOut e2)).cast rfl)
    · exact .inl (grow_writeOut e)
  | bitNum =>
    dsimp only at e
    split at e
    · obtain ⟨_, s1, e1, e2⟩ := M.bind_eq_ok.mp e
      exact .inl (((kept_showError e1).grow.trans (grow_writeOut e2)).cast rfl)
    · exact .inl (grow_writeOut e)

/-- write_arg does not touch the queue. -/
theorem grow_exprs {v : Int} {ty : ArgTy} {i o : Int} {s s' : S} (e : writeArg v ty i o s = .ok () s') :
    s'.exprs = s.exprs := by
  have hw : ∀ {v s s'}, writeOut v s = .ok () s' → s'.exprs = s.exprs := by
    intro v s s' e
    unfold writeOut at e
    split at e <;> cases e
    rfl
  unfold writeArg at e
  cases ty with
  | num8 =>
    obtain ⟨_, s1, e1, e2⟩ := M.bind_eq_ok.mp e
    rw [hw e2, (kept_whenWarning e1).exprs]
  | rst =>
    dsimp only at e
    split at e
    · exact hw e
    · exact (kept_setError e).exprs
  | num16 =>
    dsimp only at e
    rw [M.get_bind] at e
    obtain ⟨_, s1, e1, e⟩ := M.bind_eq_ok.mp e
    obtain ⟨_, s2, e2, e3⟩ := M.bind_eq_ok.mp e
    rw [hw e3, hw e2, (kept_whenWarning e1).exprs]
  | num24 =>
    obtain ⟨_, s1, e1, e⟩ := M.bind_eq_ok.mp e
    obtain ⟨_, s2, e2, e3⟩ := M.bind_eq_ok.mp e
    rw [hw e3, hw e2, hw e1]
  | addrOffset =>
    dsimp only at e
    rw [M.get_bind] at e
    split at e
    · obtain ⟨_, s1, e1, e2⟩ := M.bind_eq_ok.mp e
      rw [hw e2, (kept_setError e1).exprs]
    · exact hw e
  | ixIyOffset =>
    dsimp only at e
    split at e
    · obtain ⟨_, s1, e1, e2⟩ := M.bind_eq_ok.mp e
      rw [hw e2, (kept_setError e1).exprs]
    · exact hw e
  | bitNum =>
    dsimp only at e
    split at e
    · obtain ⟨_, s1, e1, e2⟩ := M.bind_eq_ok.mp e
      rw [hw e2, (kept_showError e1).exprs]
    · exact hw e

/-- The placeholder of a deferred operand takes the width of the operand. -/
theorem grow_placeholder {ty : ArgTy} {i : Int} {s s' : S}
    (e : writeArg 0 (if ty = .addrOffset then .num8 else ty) i 0 s = .ok () s') : Grow (width ty) s s' := by
  rcases grow_writeArg e with h | ⟨h1, h2, _⟩
  · refine h.cast ?_
    by_cases hty : ty = .addrOffset
    · rw [if_pos hty, hty]; rfl
    · rw [if_neg hty]
  · exact absurd h2 (by decide)

/-! ### Deferred operands -/

theorem kept_startSession {n : Int} {s s' : S} (e : startSession s = .ok n s') : Kept s s' ∧ s'.ranPreop = s.ranPreop := by
  cases e
  exact ⟨by constructor <;> first | rfl | (intros; rfl), rfl⟩

theorem kept_endSession {n : Int} {s s' : S} (e : endSession n s = .ok () s') :
    Kept s s' ∧ s'.ranPreop = s.ranPreop ∧ s'.stale = s.stale := by
  unfold endSession at e
  dsimp only at e
  split at e
  · cases e
  · cases e
    exact ⟨by constructor <;> first | rfl | (intros; rfl), rfl, rfl⟩

theorem kept_replaySession {n : Int} {b : Bool} {s s' : S} (e : replaySession n b s = .ok () s') :
    Kept s s' ∧ s'.ranPreop = s.ranPreop ∧ s'.stale = s.stale := by
  unfold replaySession at e
  split at e <;> cases e <;> exact ⟨by constructor <;> first | rfl | (intros; rfl), rfl, rfl⟩

/-- No fatal problem is on record, and no exceptional path was taken. -/
structure Clean (s : S) : Prop where
  stale : s.stale = false
  ranPreop : s.ranPreop = false
  errors : ∀ e ∈ s.errors, isFatal e.code = false

/-- Clean afterwards, clean before. -/
theorem Clean.before {α : Type} {m : M α} (hb : Bal m) (hr : Runs m) {s s' : S} {a : α} (e : m s = .ok a s')
    (w : Wf s) (hc : Clean s') : Clean s := by
  obtain ⟨h1, h2⟩ := hb.bal _ _ _ e hc.stale
  obtain ⟨_, _, new, h3, _⟩ := h2 w
  refine ⟨h1, ranPreop_before hr e hc.ranPreop, fun x hx => hc.errors x ?_⟩
  rw [h3]
  exact List.mem_append_right _ hx

/-- Closing a session after replaying it keeps the codes of its problems on record. -/
theorem codes_replay_close {b fo : Bool} {s0 s s1 s2 : S} {n : Int} (h : Inside b s0 s) (w : Wf s0)
    (hn : n = s0.session + 1) (e1 : replaySession n fo s = .ok () s1) (e2 : endSession n s1 = .ok () s2)
    (hs : s.stale = false) : s2.errors.map (·.code) = s.errors.map (·.code) := by
  obtain ⟨g1, g2⟩ := h hs
  obtain ⟨i1, i2, A, B, i3, i4, i5⟩ := g2 w
  have hp := w.pos
  unfold replaySession at e1
  rw [if_neg (by omega)] at e1
  cases e1
  unfold endSession at e2
  dsimp only at e2
  split at e2
  · cases e2
  cases e2
  dsimp only
  have h1 : lowerPrefix n s.errors = A.map (fun e => { e with sess := e.sess - 1 }) ++ (B ++ s0.errors) := by
    rw [i3, hn]; exact lowerPrefix_inside i4 (lt_inside w i5)
  have h2 : ∀ e ∈ A.map (fun e => { e with sess := e.sess - 1 }) ++ (B ++ s0.errors), e.sess < n := by
    intro x hx
    rcases List.mem_append.mp hx with hx | hx
    · obtain ⟨y, hy, rfl⟩ := List.mem_map.mp hx
      have := (i4 y hy).1
      dsimp only; omega
    · have := lt_inside w i5 x hx; omega
  rw [h1]
  have h3 := dropWhile_inside (n := n) (A := []) (OfSess.nil _) h2
  rw [List.nil_append] at h3
  rw [h3, i3]
  simp [Function.comp_def]

/-- Inside a session: clean after replaying and closing it, clean before. -/
theorem Clean.inside {b fo : Bool} {s0 s s1 s2 : S} {n : Int} (h : Inside b s0 s) (w : Wf s0)
    (hn : n = s0.session + 1) (e1 : replaySession n fo s = .ok () s1) (e2 : endSession n s1 = .ok () s2)
    (hc : Clean s2) : Clean s := by
  have k1 := kept_replaySession e1
  have k2 := kept_endSession e2
  have hst : s.stale = false := by rw [← k1.2.2, ← k2.2.2]; exact hc.stale
  have hm := codes_replay_close h w hn e1 e2 hst
  refine ⟨hst, by rw [← k1.2.1, ← k2.2.1]; exact hc.ranPreop, fun x hx => ?_⟩
  have : x.code ∈ s2.errors.map (·.code) := by rw [hm]; exact List.mem_map_of_mem hx
  obtain ⟨y, hy, hxy⟩ := List.mem_map.mp this
  rw [← hxy]
  exact hc.errors y hy

theorem sessPrefix_sub {n : Int} {l : List Err} {e : Err} (h : e ∈ sessPrefix n l) : e ∈ l :=
  List.takeWhile_subset _ h

/-- A fatal problem in a session that is replayed and closed stays on record. -/
theorem not_fatal {s : S} {n : Int} (h : Clean s) : sessionFatal n s = false := by
  unfold sessionFatal
  rw [List.any_eq_false]
  intro e he
  rw [h.errors e (sessPrefix_sub he)]
  decide

/-- The three ways add_pass_two_expr can go. -/
theorem addPassTwoExpr_cases {n : Nat} {x : Str} {ty : ArgTy} {i o : Int} {s s' : S}
    (e : addPassTwoExpr (knot n) x ty i o s = .ok () s') :
    ∃ s1 s2, startSession s = .ok (s.session + 1) s1 ∧
      ((∃ t s3 s5, parseNum (knot n) x s1 = .ok none s2 ∧ sessionFatal (s.session + 1) s2 = false ∧
          expandExpr (knot n) x true s2 = .ok t s3 ∧
          writeArg 0 (if ty = .addrOffset then .num8 else ty) i 0 { s3 with exprs := s3.exprs ++ [⟨toI32 s2.pc,
            s2.lineNum, getCurrReusable s2, s2.outPtr, t, ty, s2.currFile, i, o⟩] } = .ok () s5 ∧
          endSession (s.session + 1) s5 = .ok () s') ∨
       (∃ v s3 s4, parseNum (knot n) x s1 = .ok (some v) s2 ∧ writeArg v ty i o s2 = .ok () s3 ∧
          replaySession (s.session + 1) false s3 = .ok () s4 ∧ endSession (s.session + 1) s4 = .ok () s') ∨
       (∃ s3, parseNum (knot n) x s1 = .ok none s2 ∧ sessionFatal (s.session + 1) s2 = true ∧
          replaySession (s.session + 1) false s2 = .ok () s3 ∧ endSession (s.session + 1) s3 = .ok () s')) := by
  unfold addPassTwoExpr at e
  obtain ⟨sess, s1, e1, e⟩ := M.bind_eq_ok.mp e
  obtain ⟨r, s2, e2, e⟩ := M.bind_eq_ok.mp e
  rw [M.get_bind] at e
  have hsess : sess = s.session + 1 := (inside_start e1).1
  subst hsess
  refine ⟨s1, s2, e1, ?_⟩
  cases r with
  | some v =>
    obtain ⟨_, s3, e3, e⟩ := M.bind_eq_ok.mp e
    obtain ⟨_, s4, e4, e5⟩ := M.bind_eq_ok.mp e
    exact .inr (.inl ⟨v, s3, s4, e2, e3, e4, e5⟩)
  | none =>
    dsimp only at e
    cases hf : sessionFatal (s.session + 1) s2 with
    | true =>
      rw [hf, if_pos rfl] at e
      obtain ⟨_, s3, e3, e4⟩ := M.bind_eq_ok.mp e
      exact .inr (.inr ⟨s3, e2, rfl, e3, e4⟩)
    | false =>
      rw [hf, if_neg (by decide)] at e
      obtain ⟨t, s3, e3, e⟩ := M.bind_eq_ok.mp e
      rw [M.modify_bind] at e
      obtain ⟨_, s5, e5, e6⟩ := M.bind_eq_ok.mp e
      exact .inl ⟨t, s3, s5, e2, rfl, e3, e5, e6⟩

/-- A deferred operand gets a place of its width. -/
theorem grow_deferred {n : Nat} {x t : Str} {ty : ArgTy} {i o : Int} {s s1 s2 s3 s5 s' : S}
    (e1 : startSession s = .ok (s.session + 1) s1)
    (e2 : parseNum (knot n) x s1 = .ok none s2) (e3 : expandExpr (knot n) x true s2 = .ok t s3)
    (e5 : writeArg 0 (if ty = .addrOffset then .num8 else ty) i 0 { s3 with exprs := s3.exprs ++ [⟨toI32 s2.pc,
            s2.lineNum, getCurrReusable s2, s2.outPtr, t, ty, s2.currFile, i, o⟩] } = .ok () s5)
    (e6 : endSession (s.session + 1) s5 = .ok () s') (hp : s'.ranPreop = false) :
    Grow (width ty) s s' ∧ Kept s s2 ∧ s'.exprs = s.exprs ++ [⟨toI32 s.pc,
            s2.lineNum, getCurrReusable s, s.outPtr, t, ty, s.currFile, i, o⟩] := by
  have k6 := kept_endSession e6
  have hp5 : s5.ranPreop = false := by rw [← k6.2.1]; exact hp
  have hp3 : s3.ranPreop = false := by
    have := ranPreop_before (runs_writeArg _ _ _ _) e5 hp5
    exact this
  have k3 := (still_expandExpr (still_knot n) x true).kept e3 hp3
  have hp2 : s2.ranPreop = false := ranPreop_before (runs_expandExpr (runs_knot n) x true) e3 hp3
  have k2 := (still_parseNum (still_knot n) x).kept e2 hp2
  have k1 := (kept_startSession e1).1
  have k12 := k1.trans k2
  have k13 := k12.trans k3
  have g5 := grow_placeholder e5
  have hentry : (⟨toI32 s2.pc, s2.lineNum, getCurrReusable s2, s2.outPtr, t, ty, s2.currFile, i, o⟩ : PExpr) =
      ⟨toI32 s.pc, s2.lineNum, getCurrReusable s, s.outPtr, t, ty, s.currFile, i, o⟩ := by
    have : getCurrReusable s2 = getCurrReusable s := by unfold getCurrReusable; rw [k12.currReusable]
    rw [this, k12.pc, k12.outPtr, k12.currFile]
  rw [hentry] at g5
  have h5 : s5.exprs = s.exprs ++ [⟨toI32 s.pc, s2.lineNum, getCurrReusable s, s.outPtr, t, ty, s.currFile, i, o⟩] := by
    have := grow_exprs e5
    rw [this]
    show s3.exprs ++ _ = _
    rw [k13.exprs, hentry]
  refine ⟨?_, k12, by rw [k6.1.exprs]; exact h5⟩
  refine ⟨?_, ?_, ?_, ?_, ?_⟩
  · exact (k13.fixed.trans (Fixed.trans (by constructor <;> first | rfl | (intros; rfl)) g5.fixed)).trans k6.1.fixed
  · rw [k6.1.pc, g5.pc]; exact k13.pc
  · rw [k6.1.outPtr, g5.out]; show s3.outPtr + _ = _; rw [k13.outPtr]
  · intro a ha
    rw [k6.1.mem, g5.mem a (by show _ < s3.outPtr ∨ s3.outPtr + _ ≤ _; rw [k13.outPtr]; exact ha)]
    show s3.mem a = _
    rw [k13.mem]
  · refine ⟨[_], by rw [k6.1.exprs]; exact h5, fun x hx => ?_⟩
    rw [List.mem_singleton] at hx
    subst hx
    exact ⟨Int.le_refl _, Int.le_refl _⟩

/-- add_pass_two_expr appends the operand, or a place for it, unless a fatal problem was put on record. -/
theorem grow_addPassTwoExpr {n : Nat} {x : Str} {ty : ArgTy} {i o : Int} {s s' : S}
    (e : addPassTwoExpr (knot n) x ty i o s = .ok () s') (w : Wf s) (hc : Clean s') : Grow (width ty) s s' := by
  obtain ⟨s1, s2, e1, h⟩ := addPassTwoExpr_cases e
  have i1 := (inside_start e1).2
  rcases h with ⟨t, s3, s5, e2, _, e3, e5, e6⟩ | ⟨v, s3, s4, e2, e3, e4, e5⟩ | ⟨s3, e2, hf, e3, e4⟩
  · exact (grow_deferred e1 e2 e3 e5 e6 hc.ranPreop).1
  · have i2 := i1.bal ((bal_parseNum (bal_knot n) x).bal _ _ _ e2)
    have i3 := i2.bal ((bal_writeArg v ty i o).bal _ _ _ e3)
    have c3 := Clean.inside i3 w rfl e4 e5 hc
    have hp2 : s2.ranPreop = false := ranPreop_before (runs_writeArg _ _ _ _) e3 c3.ranPreop
    have k2 := (still_parseNum (still_knot n) x).kept e2 hp2
    have k4 := (kept_replaySession e4).1
    have k5 := (kept_endSession e5).1
    rcases grow_writeArg e3 with g | ⟨_, _, h3⟩
    · exact ((((kept_startSession e1).1.trans k2).grow.trans g).trans (k4.trans k5).grow).cast (by omega)
    · exfalso
      unfold setError setProblem at h3
      rw [if_neg (by decide)] at h3
      cases h3
      have := c3.errors _ (List.mem_cons_self ..)
      exact absurd this (show ¬ isFatal E.INVALID_RST_OPERANDS = false by decide)
  · exfalso
    have i2 := i1.bal ((bal_parseNum (bal_knot n) x).bal _ _ _ e2)
    have c2 := Clean.inside i2 w rfl e3 e4 hc
    rw [not_fatal c2] at hf
    cases hf

end Spasm
