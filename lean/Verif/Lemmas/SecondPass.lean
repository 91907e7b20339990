import Verif.Lemmas.Emission
import Verif.Lemmas.Lined
import Verif.Lemmas.Output

/-
The second pass: what it changes, and what it writes for each deferred operand.
-/

namespace Spasm
open Spec

theorem Spec.SameSymbols.refl (s : S) : SameSymbols s s := by
  constructor <;> first | rfl | (intros; rfl)

theorem Spec.SameSymbols.trans {a b c : S} (h : SameSymbols a b) (h' : SameSymbols b c) : SameSymbols a c where
  labels := h'.labels.trans h.labels
  defines := fun k h1 h2 => (h'.defines k h1 h2).trans (h.defines k h1 h2)
  anonymous := h'.anonymous.trans h.anonymous
  anonymousCount := h'.anonymousCount.trans h.anonymousCount
  caseSens := h'.caseSens.trans h.caseSens
  mode := h'.mode.trans h.mode
  files := h'.files.trans h.files

theorem find_of_lookup {α : Type} {t t' : Table α} {k : Str} (h : t'.lookup k = t.lookup k) :
    t'.find? (·.1 == k) = t.find? (·.1 == k) := by
  unfold Table.lookup at h
  have hk : ∀ (u : Table α) p, u.find? (·.1 == k) = some p → p.1 = k := by
    intro u p hp
    have := List.find?_some hp
    exact beq_iff_eq.mp this
  cases h1 : t'.find? (·.1 == k) with
  | none =>
    rw [h1] at h
    cases h2 : t.find? (·.1 == k) with
    | none => rfl
    | some p => rw [h2] at h; cases h
  | some q =>
    rw [h1] at h
    cases h2 : t.find? (·.1 == k) with
    | none => rw [h2] at h; cases h
    | some p =>
      rw [h2] at h
      have a := hk _ _ h1
      have b := hk _ _ h2
      cases p; cases q
      simp at h a b
      subst h; subst a; subst b; rfl

theorem Fixed.symbols {s s' : S} (h : Fixed s s') : SameSymbols s s' where
  labels := h.labels
  defines := fun k h1 h2 => find_of_lookup (h.defines k h1 h2)
  anonymous := h.reusables
  anonymousCount := h.totalReusables
  caseSens := h.caseSens
  mode := h.mode
  files := h.fs

/-! ### write_arg and the encoding of operands -/

theorem writeOut_eq {v : Int} {s s' : S} (e : writeOut v s = .ok () s') :
    s' = emitted [(v % 256).toNat] s ∧ 0 ≤ s.outPtr := by
  by_cases h : HasRoom 1 s
  · rw [writeOut_ok v s h] at e
    cases e
    exact ⟨rfl, h.1⟩
  · unfold writeOut at e
    unfold HasRoom at h
    rw [if_pos (by unfold outputBufSize; omega)] at e
    cases e

theorem whenWarning_eq {b : Bool} {c : Nat} {s s' : S} (e : M.when b (setWarning c) s = .ok () s') :
    s'.mem = s.mem ∧ s'.outPtr = s.outPtr := by
  have := kept_whenWarning e
  exact ⟨this.mem, this.outPtr⟩

theorem emitted_mem {bs : List Nat} {s t : S} (h1 : t.mem = s.mem) (h2 : t.outPtr = s.outPtr) :
    (emitted bs t).mem = (emitted bs s).mem := by
  unfold emitted; rw [h1, h2]

/-- A value in range is written as its encoding. -/
theorem writeArg_encode {v : Int} {ty : ArgTy} {i o : Int} {s s' : S} {bs : List Nat}
    (e : writeArg v ty i o s = .ok () s') (hi : 0 ≤ i ∧ i ≤ 65535)
    (hb : encode s.mode.ez80 s.pc ty i o v = some bs) :
    s'.mem = (emitted bs s).mem ∧ 0 ≤ s.outPtr ∧ bs.length = width ty := by
  unfold writeArg at e
  unfold encode at hb
  cases ty with
  | num8 =>
    cases hb
    obtain ⟨_, s1, e1, e2⟩ := M.bind_eq_ok.mp e
    obtain ⟨k1, k2⟩ := whenWarning_eq e1
    obtain ⟨h1, h2⟩ := writeOut_eq e2
    exact ⟨by rw [h1, emitted_mem k1 k2], by rw [← k2]; exact h2, rfl⟩
  | num16 =>
    cases hb
    dsimp only at e
    rw [M.get_bind] at e
    obtain ⟨_, s1, e1, e⟩ := M.bind_eq_ok.mp e
    obtain ⟨_, s2, e2, e3⟩ := M.bind_eq_ok.mp e
    obtain ⟨k1, k2⟩ := whenWarning_eq e1
    obtain ⟨h1, h2⟩ := writeOut_eq e2
    obtain ⟨h3, h4⟩ := writeOut_eq e3
    refine ⟨?_, by rw [← k2]; exact h2, rfl⟩
    rw [h3, h1, emitted_append _ _ _ h2, emitted_mem k1 k2]; rfl
  | num24 =>
    cases hb
    obtain ⟨_, s1, e1, e⟩ := M.bind_eq_ok.mp e
    obtain ⟨_, s2, e2, e3⟩ := M.bind_eq_ok.mp e
    obtain ⟨h1, h2⟩ := writeOut_eq e1
    obtain ⟨h3, h4⟩ := writeOut_eq e2
    obtain ⟨h5, h6⟩ := writeOut_eq e3
    refine ⟨?_, h2, rfl⟩
    rw [h5, h3, h1, emitted_append _ _ _ h2, emitted_append _ _ _ h2]; rfl
  | rst =>
    dsimp only at e hb
    split at hb
    · cases hb
      rename_i hv
      have hr : isRst v = true := by
        unfold isRst
        have : v = 0 ∨ v = 8 ∨ v = 16 ∨ v = 24 ∨ v = 32 ∨ v = 40 ∨ v = 48 ∨ v = 56 := by omega
        rcases this with h | h | h | h | h | h | h | h <;> rw [h] <;> decide
      rw [if_pos hr] at e
      obtain ⟨h1, h2⟩ := writeOut_eq e
      refine ⟨by rw [h1, Int.add_comm], h2, rfl⟩
    · cases hb
  | addrOffset =>
    dsimp only at e hb
    rw [M.get_bind] at e
    have hd : displacement s.mode.ez80 v s.pc i =
        v % (if s.mode.ez80 = true then 16777216 else 65536) - (s.pc % (if s.mode.ez80 = true then 16777216 else 65536) + i) := by
      unfold displacement toI32
      cases s.mode.ez80
      · simp only [Bool.false_eq_true, if_false]; omega
      · simp only [if_true]; omega
    rw [hd] at e
    generalize v % (if s.mode.ez80 = true then 16777216 else 65536) -
      (s.pc % (if s.mode.ez80 = true then 16777216 else 65536) + i) = D at e hb
    split at hb
    · rename_i hv
      cases hb
      rw [if_neg (by omega)] at e
      obtain ⟨h1, h2⟩ := writeOut_eq e
      exact ⟨by rw [h1], h2, rfl⟩
    · cases hb
  | ixIyOffset =>
    dsimp only at e hb
    split at hb
    · rename_i hv
      cases hb
      rw [if_neg (by omega)] at e
      obtain ⟨h1, h2⟩ := writeOut_eq e
      exact ⟨by rw [h1], h2, rfl⟩
    · cases hb
  | bitNum =>
    dsimp only at e hb
    split at hb
    · rename_i hv
      cases hb
      rw [if_neg (by omega)] at e
      obtain ⟨h1, h2⟩ := writeOut_eq e
      exact ⟨by rw [h1], h2, rfl⟩
    · cases hb

/-! ### Deferred operands -/

/-- What one deferred operand changes. -/
structure Pass (P : Nat → Prop) (s s' : S) : Prop where
  symbols : SameSymbols s s'
  exprs : s'.exprs = s.exprs
  outputs : s'.outputs = s.outputs
  mem : ∀ i, ¬ P i → s'.mem i = s.mem i

theorem Pass.refl (P : Nat → Prop) (s : S) : Pass P s s := ⟨.refl s, rfl, rfl, fun _ _ => rfl⟩

theorem Pass.trans {P Q : Nat → Prop} {a b c : S} (h : Pass P a b) (h' : Pass Q b c) :
    Pass (fun i => P i ∨ Q i) a c where
  symbols := h.symbols.trans h'.symbols
  exprs := h'.exprs.trans h.exprs
  outputs := h'.outputs.trans h.outputs
  mem := fun i hi => by rw [h'.mem i (fun x => hi (.inr x)), h.mem i (fun x => hi (.inl x))]

theorem Kept.pass {s s' : S} (h : Kept s s') (P : Nat → Prop) : Pass P s s' :=
  ⟨h.fixed.symbols, h.exprs, h.outputs, fun i _ => by rw [h.mem]⟩

theorem pass_place (P : Nat → Prop) (e : PExpr) (s : S) : Pass P s (atPlaceOf e s) :=
  ⟨⟨rfl, fun _ _ _ => rfl, rfl, rfl, rfl, rfl, rfl⟩, rfl, rfl, fun _ _ => rfl⟩

/-- How a deferred operand is processed. -/
theorem runExpr_cases {n : Nat} {e : PExpr} {s s' : S} (h : runExpr (knot n) e s = .ok () s') :
    ∃ r s2, parseNum (knot n) e.expr (atPlaceOf e s) = .ok r s2 ∧
      (r = none → s' = s2) ∧
      (∀ v, r = some v → e.ty = .rst → setError E.INVALID_RST_OPERANDS s2 = .ok () s') ∧
      (∀ v, r = some v → e.ty ≠ .rst →
        writeArg v e.ty e.instSize e.orValue { s2 with outPtr := e.out } = .ok () s') := by
  unfold runExpr setCurrReusable at h
  rw [M.modify_bind, M.modify_bind] at h
  obtain ⟨r, s2, e1, h⟩ := M.bind_eq_ok.mp h
  refine ⟨r, s2, e1, ?_, ?_, ?_⟩
  · intro hr; subst hr; cases h; rfl
  · intro v hr hty
    subst hr
    dsimp only at h
    rw [if_pos hty, hty] at h
    split at h
    · rename_i hv
      unfold writeArg at h
      dsimp only at h
      have hv' : isRst (v + 0xC7) = false := by
        unfold isRst at hv ⊢
        simp only [Bool.or_eq_true, beq_iff_eq] at hv
        simp only [Bool.or_eq_false_iff, beq_eq_false_iff_ne]
        omega
      rw [hv', if_neg (by decide)] at h
      exact h
    · exact h
  · intro v hr hty
    subst hr
    dsimp only at h
    rw [if_neg hty, M.modify_bind] at h
    exact h

theorem pass_runExpr {n : Nat} {e : PExpr} {s s' : S} (h : runExpr (knot n) e s = .ok () s')
    (hp : s'.ranPreop = false) : Pass (Reserved e) s s' := by
  obtain ⟨r, s2, e1, h1, h2, h3⟩ := runExpr_cases h
  have k2 : s2.ranPreop = false → Pass (Reserved e) s s2 := fun hp2 => by
    have a := (pass_place (fun _ => False) e s).trans
      (((still_parseNum (still_knot n) e.expr).kept e1 hp2).pass (fun _ => False))
    exact ⟨a.symbols, a.exprs, a.outputs, fun i _ => a.mem i (by simp)⟩
  cases r with
  | none => rw [h1 rfl] at hp ⊢; exact k2 hp
  | some v =>
    by_cases hty : e.ty = .rst
    · have e4 := h2 v rfl hty
      have a := (k2 (ranPreop_before (runs_setError _) e4 hp)).trans ((kept_setError e4).pass (fun _ => False))
      exact ⟨a.symbols, a.exprs, a.outputs, fun i hi => a.mem i (by simpa using hi)⟩
    · have e4 := h3 v rfl hty
      have hp2 := ranPreop_before (runs_writeArg _ _ _ _) e4 hp
      have a := k2 hp2
      rcases grow_writeArg e4 with g | ⟨g, _, _⟩
      · refine ⟨a.symbols.trans (SameSymbols.trans (b := { s2 with outPtr := e.out }) ⟨rfl, fun _ _ _ => rfl, rfl, rfl, rfl, rfl, rfl⟩ g.fixed.symbols), ?_, ?_, ?_⟩
        · rw [grow_exprs e4]; exact a.exprs
        · rw [g.fixed.outputs]; exact a.outputs
        · intro i hi
          rw [g.mem i ?_]
          · exact a.mem i hi
          · unfold Reserved at hi
            show (i : Int) < e.out ∨ e.out + _ ≤ _
            omega
      · exact absurd g hty

theorem pass_runExprs {n : Nat} {l : List PExpr} {s s' : S} (h : runExprs (knot n) l s = .ok () s')
    (hp : s'.ranPreop = false) : Pass (fun i => ∃ e ∈ l, Reserved e i) s s' := by
  induction l generalizing s with
  | nil => cases h; exact .refl _ _
  | cons e l ih =>
    unfold runExprs at h
    obtain ⟨_, s1, e1, e2⟩ := M.bind_eq_ok.mp h
    have a := ih e2
    have b := pass_runExpr e1 (ranPreop_before (runs_runExprs (runs_knot n) l) e2 hp)
    have c := b.trans a
    refine ⟨c.symbols, c.exprs, c.outputs, fun i hi => c.mem i ?_⟩
    rintro (h | ⟨x, hx, h⟩)
    · exact hi ⟨e, by simp, h⟩
    · exact hi ⟨x, by simp [hx], h⟩

theorem runExprs_append {n : Nat} {l1 l2 : List PExpr} {s s' : S} (h : runExprs (knot n) (l1 ++ l2) s = .ok () s') :
    ∃ s1, runExprs (knot n) l1 s = .ok () s1 ∧ runExprs (knot n) l2 s1 = .ok () s' := by
  induction l1 generalizing s with
  | nil => exact ⟨s, rfl, h⟩
  | cons e l ih =>
    rw [List.cons_append] at h
    unfold runExprs at h
    obtain ⟨_, s1, e1, e2⟩ := M.bind_eq_ok.mp h
    obtain ⟨s2, e3, e4⟩ := ih e2
    exact ⟨s2, by unfold runExprs; rw [M.bind_ok e1]; exact e3, e4⟩

/-! ### Deferred messages -/

theorem pass_runOutput {n : Nat} {o : POut} {s s' : S} (h : runOutput (knot n) o s = .ok () s')
    (hp : s'.ranPreop = false) : Pass (fun _ => False) s s' ∧ s'.outPtr = s.outPtr := by
  unfold runOutput setCurrReusable at h
  rw [M.modify_bind, M.modify_bind] at h
  have key : ∀ s0, Kept s0 s' → SameSymbols s s0 → s0.exprs = s.exprs → s0.outputs = s.outputs → s0.mem = s.mem →
      s0.outPtr = s.outPtr → Pass (fun _ => False) s s' ∧ s'.outPtr = s.outPtr := by
    intro s0 k h1 h2 h3 h4 h5
    exact ⟨⟨h1.trans k.fixed.symbols, by rw [k.exprs, h2], by rw [k.outputs, h3], fun i _ => by rw [k.mem, h4]⟩,
      by rw [k.outPtr, h5]⟩
  have hd : ∀ d, Still (showDefine d) := fun d => by unfold showDefine; stills
  split at h
  · refine key _ (Still.kept ?_ h hp) ⟨rfl, fun _ _ _ => rfl, rfl, rfl, rfl, rfl, rfl⟩ rfl rfl rfl rfl
    stills
    exact hd _
  · refine key _ (Still.kept ?_ h hp) ⟨rfl, fun _ _ _ => rfl, rfl, rfl, rfl, rfl, rfl⟩ rfl rfl rfl rfl
    refine Still.bind still_startSession fun _ => ?_
    refine Still.bind (still_emitString (still_knot n) _ _ rfl) fun _ => ?_
    stills

theorem pass_runOutputs {n : Nat} {l : List POut} {s s' : S} (h : runOutputs (knot n) l s = .ok () s')
    (hp : s'.ranPreop = false) : Pass (fun _ => False) s s' ∧ s'.outPtr = s.outPtr := by
  induction l generalizing s with
  | nil => cases h; exact ⟨.refl _ _, rfl⟩
  | cons e l ih =>
    unfold runOutputs at h
    obtain ⟨_, s1, e1, e2⟩ := M.bind_eq_ok.mp h
    obtain ⟨a, a'⟩ := ih e2
    obtain ⟨b, b'⟩ := pass_runOutput e1 (ranPreop_before (runs_runOutputs (runs_knot n) l) e2 hp)
    have c := b.trans a
    exact ⟨⟨c.symbols, c.exprs, c.outputs, fun i _ => c.mem i (by simp)⟩, a'.trans b'⟩

/-- The parts of the second pass. -/
theorem runSecondPass_cases {n : Nat} {s s' : S} (h : runSecondPass (knot n) s = .ok () s') :
    ∃ s1 s2, runExprs (knot n) s.exprs s = .ok () s1 ∧
      runOutputs (knot n) s.outputs { s1 with outPtr := s.outPtr, exprs := [] } = .ok () s2 ∧
      s' = { s2 with currFile := s.currFile, outputs := [] } := by
  unfold runSecondPass at h
  rw [M.get_bind] at h
  obtain ⟨_, s1, e1, h⟩ := M.bind_eq_ok.mp h
  rw [M.modify_bind] at h
  obtain ⟨_, s2, e2, h⟩ := M.bind_eq_ok.mp h
  cases h
  exact ⟨s1, s2, e1, e2, rfl⟩

theorem pass_runSecondPass {n : Nat} {s s' : S} (h : runSecondPass (knot n) s = .ok () s')
    (hp : s'.ranPreop = false) :
    SameSymbols s s' ∧ s'.outPtr = s.outPtr ∧
      ∀ i, (¬ ∃ e ∈ s.exprs, Reserved e i) → s'.mem i = s.mem i := by
  obtain ⟨s1, s2, e1, e2, rfl⟩ := runSecondPass_cases h
  have hp2 : s2.ranPreop = false := hp
  have hp1 : s1.ranPreop = false := by
    have := ranPreop_before (runs_runOutputs (runs_knot n) _) e2 hp2
    exact this
  have a := pass_runExprs e1 hp1
  obtain ⟨b, b'⟩ := pass_runOutputs e2 hp2
  refine ⟨?_, b', fun i hi => ?_⟩
  · refine (a.symbols.trans (SameSymbols.trans (b := { s1 with outPtr := s.outPtr, exprs := [] }) ⟨rfl, fun _ _ _ => rfl, rfl, rfl, rfl, rfl, rfl⟩ b.symbols)).trans ?_
    exact ⟨rfl, fun _ _ _ => rfl, rfl, rfl, rfl, rfl, rfl⟩
  · exact (b.mem i (by simp)).trans (a.mem i hi)

end Spasm
