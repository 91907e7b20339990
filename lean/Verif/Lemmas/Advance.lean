import Verif.Lemmas.Emission

/-
The address advances by the number of bytes that are appended, unless a fatal problem is put on record.
-/

namespace Spasm
open Spec

/-- The number of fatal problems on record. -/
def fatals (s : S) : Nat := s.errors.countP (fun e => isFatal e.code)

/-- None of the ghost variables is set. -/
structure Quiet (s : S) : Prop where
  stale : s.stale = false
  ranPreop : s.ranPreop = false
  spread : s.spread = false

/-- No exceptional path was taken, and no fatal problem was put on record. -/
structure Calm (s s' : S) : Prop where
  quiet : Quiet s'
  fatals : fatals s' ≤ fatals s

theorem spread_before {α : Type} {m : M α} (h : Runs m) {s s' : S} {a : α} (e : m s = .ok a s')
    (hp : s'.spread = false) : s.spread = false := by
  have hi : Invar (fun s s' => s.spread = true → s'.spread = true) := by
    refine ⟨fun _ h => h, fun _ _ _ h1 h2 h => h2 (h1 h), ?_⟩
    intro a b st
    cases st with
    | free h => intro ha; rw [h.spread]; exact ha
    | spread => intro _; rfl
    | _ => exact fun h => h
  cases hs : s.spread with
  | false => rfl
  | true =>
    have := (Keeps.ofRuns hi h).keep s hs
    rw [e] at this
    have h2 : s'.spread = true := this
    rw [hp] at h2; cases h2

theorem stale_before {α : Type} {m : M α} (h : Runs m) {s s' : S} {a : α} (e : m s = .ok a s')
    (hp : s'.stale = false) : s.stale = false := by
  have hi : Invar (fun s s' => s.stale = true → s'.stale = true) := by
    refine ⟨fun _ h => h, fun _ _ _ h1 h2 h => h2 (h1 h), ?_⟩
    intro a b st
    cases st with
    | free h => intro ha; rw [h.stale]; exact ha
    | stale => intro _; rfl
    | _ => exact fun h => h
  cases hs : s.stale with
  | false => rfl
  | true =>
    have := (Keeps.ofRuns hi h).keep s hs
    rw [e] at this
    have h2 : s'.stale = true := this
    rw [hp] at h2; cases h2

theorem Quiet.runs {α : Type} {m : M α} (hr : Runs m) {s s' : S} {a : α} (e : m s = .ok a s')
    (hc : Quiet s') : Quiet s :=
  ⟨stale_before hr e hc.stale, ranPreop_before hr e hc.ranPreop, spread_before hr e hc.spread⟩

theorem Quiet.before {α : Type} {m : M α} (hb : Bal m) (hr : Runs m) {s s' : S} {a : α} (e : m s = .ok a s')
    (hc : Quiet s') : Quiet s :=
  ⟨(hb.bal _ _ _ e hc.stale).1, ranPreop_before hr e hc.ranPreop, spread_before hr e hc.spread⟩

theorem BalP.fatals {b : Bool} {s s' : S} (h : BalP b s s') (hs : s'.stale = false) (w : Wf s) :
    fatals s ≤ fatals s' := by
  obtain ⟨_, h2⟩ := h hs
  obtain ⟨_, _, new, h3, _⟩ := h2 w
  unfold Spasm.fatals
  rw [h3, List.countP_append]
  omega

/-- Calm over two steps is calm over each. -/
theorem Calm.split {α : Type} {m : M α} (hb : Bal m) (hr : Runs m) {a b c : S} {x : α} (e : m b = .ok x c)
    (h1 : BalR a b) (w : Wf a) (h : Calm a c) : Wf b ∧ Calm a b ∧ Calm b c := by
  have q := h.quiet.before hb hr e
  have wb := h1.wf q.stale w
  have f1 := h1.fatals q.stale w
  have f2 := (hb.bal _ _ _ e).fatals h.quiet.stale wb
  have := h.fatals
  exact ⟨wb, ⟨q, by omega⟩, ⟨h.quiet, by omega⟩⟩

/-- `n` bytes were appended, the address advanced by `n`, and operands were deferred only with places among them. -/
structure Adv (n : Nat) (s s' : S) : Prop where
  fixed : Fixed s s'
  pc : s'.pc % 4294967296 = (s.pc + n) % 4294967296
  out : s'.outPtr = s.outPtr + n
  mem : ∀ i : Nat, (i : Int) < s.outPtr ∨ s.outPtr + n ≤ i → s'.mem i = s.mem i
  exprs : ∃ new, s'.exprs = s.exprs ++ new ∧ ∀ e ∈ new, s.outPtr ≤ e.out ∧ e.out + width e.ty ≤ s.outPtr + n

theorem Kept.adv {s s' : S} (h : Kept s s') : Adv 0 s s' where
  fixed := h.fixed
  pc := by rw [h.pc]; simp
  out := h.grow.out
  mem := h.grow.mem
  exprs := h.grow.exprs

theorem Adv.refl (s : S) : Adv 0 s s := (Kept.refl s).adv

theorem Adv.trans {n m : Nat} {a b c : S} (h : Adv n a b) (h' : Adv m b c) : Adv (n + m) a c where
  fixed := h.fixed.trans h'.fixed
  pc := by have h1 := h.pc; have h2 := h'.pc; push_cast; omega
  out := by rw [h'.out, h.out]; omega
  mem := by
    intro i hi
    rw [h'.mem i (by rw [h.out]; omega), h.mem i (by omega)]
  exprs := by
    obtain ⟨x, hx, px⟩ := h.exprs
    obtain ⟨y, hy, py⟩ := h'.exprs
    refine ⟨x ++ y, by rw [hy, hx, List.append_assoc], fun e he => ?_⟩
    rcases List.mem_append.mp he with he | he
    · have := px e he; omega
    · have := py e he
      rw [h.out] at this; omega

theorem Adv.after {n : Nat} {a b c : S} (h : Adv n a b) (k : Kept b c) : Adv n a c := by
  have := h.trans k.adv; rw [Nat.add_zero] at this; exact this

theorem Adv.of_kept {n : Nat} {a b c : S} (k : Kept a b) (h : Adv n b c) : Adv n a c := by
  have := k.adv.trans h; rw [Nat.zero_add] at this; exact this

/-- Bytes were appended and then the address was advanced by their number. -/
theorem Grow.counted {n : Nat} {a b c : S} (h : Grow n a b) (e : countData n b = .ok () c) : Adv n a c := by
  unfold countData advance M.modify at e
  cases e
  refine ⟨h.fixed.trans (by constructor <;> first | rfl | (intros; rfl)), ?_, h.out, h.mem, h.exprs⟩
  show toU32 (b.pc + n) % _ = _
  unfold toU32
  rw [h.pc]; omega

/-! ### Sessions -/

theorem fatals_start {n : Int} {s s' : S} (e : startSession s = .ok n s') : fatals s' = fatals s := by
  unfold startSession at e; cases e; rfl

theorem spread_start {n : Int} {s s' : S} (e : startSession s = .ok n s') : s'.spread = s.spread := by
  unfold startSession at e; cases e; rfl

theorem spread_endSession {n : Int} {s s' : S} (e : endSession n s = .ok () s') : s'.spread = s.spread := by
  unfold endSession at e
  dsimp only at e
  split at e <;> cases e; rfl

theorem spread_replay {n : Int} {b : Bool} {s s' : S} (e : replaySession n b s = .ok () s') :
    s'.spread = s.spread := by
  unfold replaySession at e
  split at e <;> cases e <;> rfl

theorem Quiet.endSession {n : Int} {s s' : S} (e : endSession n s = .ok () s') (h : Quiet s') : Quiet s := by
  have k := kept_endSession e
  exact ⟨by rw [← k.2.2]; exact h.stale, by rw [← k.2.1]; exact h.ranPreop,
    by rw [← spread_endSession e]; exact h.spread⟩

theorem Quiet.replay {n : Int} {b : Bool} {s s' : S} (e : replaySession n b s = .ok () s') (h : Quiet s') :
    Quiet s := by
  have k := kept_replaySession e
  exact ⟨by rw [← k.2.2]; exact h.stale, by rw [← k.2.1]; exact h.ranPreop,
    by rw [← spread_replay e]; exact h.spread⟩

theorem fatals_of_codes {s s' : S} (h : s'.errors.map (·.code) = s.errors.map (·.code)) : fatals s' = fatals s := by
  unfold fatals
  have : ∀ l : List Err, l.countP (fun e => isFatal e.code) = (l.map (·.code)).countP isFatal := by
    intro l; rw [List.countP_map]; rfl
  rw [this, this, h]

/-- A session that is passed on: calm when it is over, calm so far. -/
theorem Calm.inside {b fo : Bool} {s0 s s1 s2 : S} {n : Int} (h : Inside b s0 s) (w : Wf s0)
    (hn : n = s0.session + 1) (e1 : replaySession n fo s = .ok () s1) (e2 : endSession n s1 = .ok () s2)
    (hc : Calm s0 s2) : Calm s0 s := by
  have q := (hc.quiet.endSession e2).replay e1
  refine ⟨q, ?_⟩
  rw [← fatals_of_codes (codes_replay_close h w hn e1 e2 q.stale)]
  exact hc.fatals

/-- A fatal problem in the open session. -/
theorem Inside.fatals {b : Bool} {s0 s : S} {n : Int} (h : Inside b s0 s) (w : Wf s0) (hs : s.stale = false)
    (hn : n = s0.session + 1) (hf : sessionFatal n s = true) : Spasm.fatals s0 < Spasm.fatals s := by
  obtain ⟨_, g2⟩ := h hs
  obtain ⟨_, _, A, B, i3, i4, i5⟩ := g2 w
  unfold sessionFatal sessPrefix at hf
  rw [i3, hn, takeWhile_inside i4 (lt_inside w i5)] at hf
  unfold Spasm.fatals
  rw [i3, List.countP_append, List.countP_append]
  have : 0 < A.countP (fun e => isFatal e.code) := by
    rw [List.countP_pos_iff]
    obtain ⟨x, hx, h2⟩ := List.any_eq_true.mp hf
    exact ⟨x, hx, h2⟩
  omega

/-- A session stays fatal. -/
theorem sessionFatal_bal {b b' : Bool} {s0 s s' : S} {n : Int} (h : Inside b s0 s) (w : Wf s0)
    (hn : n = s0.session + 1) (h' : BalP b' s s') (hs : s'.stale = false) (hf : sessionFatal n s = true) :
    sessionFatal n s' = true := by
  obtain ⟨g0, g1⟩ := h' hs
  have ws := h.wf g0 w
  obtain ⟨_, _, new, g2, g3⟩ := g1 ws
  obtain ⟨_, g4⟩ := h g0
  obtain ⟨i1, _, A, B, i3, i4, i5⟩ := g4 w
  rw [i1] at g3
  unfold sessionFatal sessPrefix at hf ⊢
  rw [g2, i3, ← List.append_assoc, hn, takeWhile_inside (g3.append i4) (lt_inside w i5), List.any_append]
  rw [i3, hn, takeWhile_inside i4 (lt_inside w i5)] at hf
  rw [hf]; simp

/-- What a session does not pass on is forgotten with it. -/
theorem fatals_close {n : Int} {s s' : S} (e : endSession n s = .ok () s') (h : ∀ x ∈ s.errors, x.sess < n) :
    fatals s' = fatals s := by
  unfold endSession at e
  dsimp only at e
  split at e
  · cases e
  cases e
  unfold fatals
  dsimp only
  have h3 := dropWhile_inside (n := n) (A := []) (OfSess.nil _) h
  rw [List.nil_append] at h3
  rw [h3]

/-- After the replay of a fatal session one more fatal problem is on record for good. -/
theorem fatals_replayed {b fo : Bool} {s0 s s1 s2 s3 : S} {n : Int} (h : Inside b s0 s) (w : Wf s0)
    (hs : s.stale = false) (hn : n = s0.session + 1) (hf : sessionFatal n s = true)
    (e1 : replaySession n fo s = .ok () s1) (he : s2.errors = s1.errors) (e2 : endSession n s2 = .ok () s3) :
    fatals s0 < fatals s3 := by
  have hlt := h.fatals w hs hn hf
  have hi := h.replay hn e1
  obtain ⟨_, g2⟩ := h hs
  obtain ⟨i1, i2, A, B, i3, i4, i5⟩ := g2 w
  have hp := w.pos
  unfold replaySession at e1
  rw [if_neg (by omega)] at e1
  cases e1
  have h1 : lowerPrefix n s.errors = A.map (fun e => { e with sess := e.sess - 1 }) ++ (B ++ s0.errors) := by
    rw [i3, hn]; exact lowerPrefix_inside i4 (lt_inside w i5)
  have he' : s2.errors = A.map (fun e => { e with sess := e.sess - 1 }) ++ (B ++ s0.errors) := he.trans h1
  have h2 : ∀ e ∈ s2.errors, e.sess < n := by
    rw [he']
    intro x hx
    rcases List.mem_append.mp hx with hx | hx
    · obtain ⟨y, hy, rfl⟩ := List.mem_map.mp hx
      have := (i4 y hy).1
      dsimp only; omega
    · have := lt_inside w i5 x hx; omega
  rw [fatals_close e2 h2]
  have : fatals s2 = fatals s := by
    apply fatals_of_codes
    rw [he', i3]; simp [Function.comp_def]
  omega

/-! ### Operands -/

/-- add_pass_two_expr appends the operand, or a place for it. -/
theorem grow_operand {n : Nat} {x : Str} {ty : ArgTy} {i o : Int} {s s' : S}
    (e : addPassTwoExpr (knot n) x ty i o s = .ok () s') (w : Wf s) (hc : Calm s s') : Grow (width ty) s s' := by
  obtain ⟨s1, s2, e1, h⟩ := addPassTwoExpr_cases e
  have i1 := (inside_start e1).2
  rcases h with ⟨t, s3, s5, e2, _, e3, e5, e6⟩ | ⟨v, s3, s4, e2, e3, e4, e5⟩ | ⟨s3, e2, hf, e3, e4⟩
  · exact (grow_deferred e1 e2 e3 e5 e6 hc.quiet.ranPreop).1
  · have i2 := i1.bal ((bal_parseNum (bal_knot n) x).bal _ _ _ e2)
    have i3 := i2.bal ((bal_writeArg v ty i o).bal _ _ _ e3)
    have c3 := Calm.inside i3 w rfl e4 e5 hc
    have q2 := c3.quiet.before (bal_writeArg v ty i o) (runs_writeArg _ _ _ _) e3
    have k2 := (still_parseNum (still_knot n) x).kept e2 q2.ranPreop
    have k4 := (kept_replaySession e4).1
    have k5 := (kept_endSession e5).1
    rcases grow_writeArg e3 with g | ⟨_, _, h3⟩
    · exact ((((kept_startSession e1).1.trans k2).grow.trans g).trans (k4.trans k5).grow).cast (by omega)
    · exfalso
      have q1 := q2.before (bal_parseNum (bal_knot n) x) (runs_parseNum (runs_knot n) x) e2
      have w1 := i1.wf q1.stale w
      have f2 := ((bal_parseNum (bal_knot n) x).bal _ _ _ e2).fatals q2.stale w1
      have f1 := fatals_start e1
      have f3 := c3.fatals
      unfold setError setProblem at h3
      rw [if_neg (by decide)] at h3
      cases h3
      unfold fatals at f1 f2 f3
      dsimp only at f3
      have hd : isFatal E.INVALID_RST_OPERANDS = true := by decide
      simp only [List.countP_cons, hd, if_true] at f3
      omega
  · exfalso
    have i2 := i1.bal ((bal_parseNum (bal_knot n) x).bal _ _ _ e2)
    have c2 := Calm.inside i2 w rfl e3 e4 hc
    have := i2.fatals w c2.quiet.stale rfl hf
    have := c2.fatals
    omega

end Spasm
