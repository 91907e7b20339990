import Verif.Lemmas.Forward
import Verif.Lemmas.WriteInstr

/-
Operands that are known now or are put off: in both cases the bytes are right in the end.
-/

namespace Spasm
open Spec Props

/-- Only the output, the queue of deferred operands and two variables of the expression parser changed. -/
def Frame0 (s s' : S) : Prop :=
  s' = { s with mem := s'.mem, outPtr := s'.outPtr, exprs := s'.exprs, parseDepth := s'.parseDepth, fwdRef := s'.fwdRef }

theorem Frame0.refl (s : S) : Frame0 s s := rfl

theorem Frame0.trans {s s1 s2 : S} (h : Frame0 s s1) (h' : Frame0 s1 s2) : Frame0 s s2 := by
  unfold Frame0 at *
  exact h'.trans (congrArg (fun x : S =>
    { x with mem := s2.mem, outPtr := s2.outPtr, exprs := s2.exprs, parseDepth := s2.parseDepth, fwdRef := s2.fwdRef }) h)

/-- The deferred operand `e` will get its part of the bytes `bs`, which start at `start`. -/
def Due (final : Str → Option Int) (ez : Bool) (D : Nat) (start : Int) (bs : List Nat) (e : PExpr) : Prop :=
  ∃ d t bl v x pre post, e.expr = t ++ bl ∧ Blanks bl ∧ Denotes (toI32 (toU32 e.pc)) final (fun _ => none) d t v ∧ d < D ∧
    encode ez (toU32 e.pc) e.ty e.instSize e.orValue v = some x ∧ argWarnings ez e.ty v = [] ∧ e.ty ≠ .rst ∧
    (e.ty = .addrOffset → 0 ≤ e.instSize ∧ e.instSize ≤ 65535) ∧ bs = pre ++ x ++ post ∧ e.out = start + pre.length

/-- The bytes `bs` were appended to the output, but for those that deferred operands will supply. -/
structure Fills (final : Str → Option Int) (D : Nat) (bs : List Nat) (s s' : S) : Prop where
  out : s'.outPtr = s.outPtr + bs.length
  outside : ∀ i : Nat, (i : Int) < s.outPtr ∨ s.outPtr + bs.length ≤ i → s'.mem i = s.mem i
  inside : ∃ es, s'.exprs = s.exprs ++ es ∧ (∀ e ∈ es, Due final s.mode.ez80 D s.outPtr bs e) ∧
    ∀ (i : Nat) (b : Nat), bs[i]? = some b → s'.mem (s.outPtr + i).toNat = b ∨ ∃ e ∈ es, Reserved e (s.outPtr + i).toNat

theorem Fills.congr {final : Str → Option Int} {D : Nat} {bs : List Nat} {s s' t t' : S} (h : Fills final D bs s s')
    (h1 : t.outPtr = s.outPtr) (h2 : t.mem = s.mem) (h3 : t.exprs = s.exprs) (h4 : t.mode = s.mode) (h5 : t'.outPtr = s'.outPtr)
    (h6 : t'.mem = s'.mem) (h7 : t'.exprs = s'.exprs) : Fills final D bs t t' :=
  ⟨by rw [h1, h5]; exact h.out, by rw [h1, h2, h6]; exact h.outside, by rw [h1, h3, h4, h6, h7]; exact h.inside⟩

theorem Fills.nil (final : Str → Option Int) (D : Nat) (s : S) : Fills final D [] s s :=
  ⟨by simp, fun _ _ => rfl, [], by simp, by simp, by simp⟩

/-- Known bytes. -/
theorem Fills.emitted (final : Str → Option Int) (D : Nat) (bs : List Nat) (s : S) (h : 0 ≤ s.outPtr) : Fills final D bs s (emitted bs s) := by
  refine ⟨rfl, ?_, [], by simp [Spec.emitted], by simp, ?_⟩
  · intro i hi
    show (if _ then _ else _) = _
    rw [if_neg (by omega)]
  · intro i b hb
    left
    have hi : i < bs.length := by
      rcases Nat.lt_or_ge i bs.length with h | h
      · exact h
      · rw [List.getElem?_eq_none h] at hb; cases hb
    show (if _ then _ else _) = _
    rw [if_pos (by omega)]
    have : ((s.outPtr + (i : Int)).toNat - s.outPtr.toNat) = i := by omega
    simp [this, hb]

theorem Due.append_right {final : Str → Option Int} {ez : Bool} {D : Nat} {start : Int} {bs : List Nat} {e : PExpr} (bs' : List Nat)
    (h : Due final ez D start bs e) : Due final ez D start (bs ++ bs') e := by
  obtain ⟨d, t, bl, v, x, pre, post, h1, h2, h3, h4, h5, h6, h7, h8, h9, h10⟩ := h
  exact ⟨d, t, bl, v, x, pre, post ++ bs', h1, h2, h3, h4, h5, h6, h7, h8, by rw [h9]; simp, h10⟩

theorem Due.append_left {final : Str → Option Int} {ez : Bool} {D : Nat} {start : Int} {bs : List Nat} {e : PExpr} (bs' : List Nat)
    (h : Due final ez D (start + bs'.length) bs e) : Due final ez D start (bs' ++ bs) e := by
  obtain ⟨d, t, bl, v, x, pre, post, h1, h2, h3, h4, h5, h6, h7, h8, h9, h10⟩ := h
  exact ⟨d, t, bl, v, x, bs' ++ pre, post, h1, h2, h3, h4, h5, h6, h7, h8, by rw [h9]; simp, by rw [h10]; simp; omega⟩

theorem Due.reserved {final : Str → Option Int} {ez : Bool} {D : Nat} {start : Int} {bs : List Nat} {e : PExpr} (h : Due final ez D start bs e) :
    start ≤ e.out ∧ e.out + width e.ty ≤ start + bs.length := by
  obtain ⟨d, t, bl, v, x, pre, post, h1, h2, h3, h4, h5, h6, h7, h8, h9, h10⟩ := h
  have := encode_length h5
  rw [h9, h10, ← this]
  simp
  omega

theorem Fills.append {final : Str → Option Int} {D : Nat} {bs bs' : List Nat} {s s1 s2 : S} (h0 : 0 ≤ s.outPtr) (hm : s1.mode = s.mode)
    (h : Fills final D bs s s1) (h' : Fills final D bs' s1 s2) : Fills final D (bs ++ bs') s s2 := by
  obtain ⟨o1, u1, es1, q1, d1, i1⟩ := h
  obtain ⟨o2, u2, es2, q2, d2, i2⟩ := h'
  refine ⟨by rw [o2, o1]; simp; omega, ?_, es1 ++ es2, by rw [q2, q1]; simp, ?_, ?_⟩
  · intro i hi
    rw [List.length_append] at hi
    rw [u2 i (by omega), u1 i (by omega)]
  · intro e he
    rcases List.mem_append.1 he with he | he
    · exact (d1 e he).append_right bs'
    · have := d2 e he
      rw [hm, o1] at this
      exact this.append_left bs
  · intro i b hb
    rcases Nat.lt_or_ge i bs.length with hi | hi
    · rw [List.getElem?_append_left hi] at hb
      rcases i1 i b hb with hx | ⟨e, he, hx⟩
      · left
        rw [u2 _ (by omega)]
        exact hx
      · exact .inr ⟨e, List.mem_append_left _ he, hx⟩
    · rw [List.getElem?_append_right hi] at hb
      have : (s1.outPtr + (i - bs.length : Nat)).toNat = (s.outPtr + i).toNat := by omega
      rcases i2 _ b hb with hx | ⟨e, he, hx⟩
      · left; rw [← this]; exact hx
      · right; exact ⟨e, List.mem_append_right _ he, by rw [← this]; exact hx⟩

/-! ### An operand whose value is not known yet -/

theorem parseNum_waits (s : S) (d n : Nat) (t bl : Str) (c : Nat) (r : Str) (hct : t = c :: r) (hst : Starter' c) (h : WaitDenotes s d t)
    (hd : d < 20) (hn : d < n) (hbl : Blanks bl) : ∃ q, parseNum (knot n) (t ++ bl) s = .ok none (waiting s q) := by
  obtain ⟨n, rfl⟩ : ∃ m, n = m + 1 := ⟨n - 1, by omega⟩
  have e0 := parseNum_start n s [] (t ++ bl) c (r ++ bl) (by intro x hx; simp at hx) (by rw [hct]; rfl) hst
  rw [List.nil_append] at e0
  obtain ⟨q, e⟩ := h n 0 1 bl ((t ++ bl).length + 1) (by omega) (by omega) (by omega)
    (Or.inl (by have := AtEnd.follows (rest := []) hbl (.inl rfl); simpa using this)) (by simp; omega)
  refine ⟨q, ?_⟩
  rw [e0, M.bind_ok e]
  rfl

/-- The operand of a type while its value is unknown. -/
theorem placeholder (ty : ArgTy) (size : Int) (s : S) (hr : ty ≠ .rst) (room : HasRoom (width ty) s) :
    writeArg 0 (if ty = .addrOffset then .num8 else ty) size 0 s = .ok () (emitted (List.replicate (width ty) 0) s) := by
  have key : ∀ ty', ty' ≠ .addrOffset → ty' ≠ .rst → HasRoom (width ty') s →
      writeArg 0 ty' size 0 s = .ok () (emitted (List.replicate (width ty') 0) s) := by
    intro ty' h1 h2 room
    have hw : argWarnings s.mode.ez80 ty' 0 = [] := by
      cases ty' <;> simp [argWarnings, truncation]
    rw [writeArg_full (bs := List.replicate (width ty') 0) (by cases ty' <;> first | rfl | (exact absurd rfl h1) | (exact absurd rfl h2))
      (fun h => absurd h h1) (by simpa using room), hw]
    simp [asErrs, emitted]
  by_cases h : ty = .addrOffset
  · rw [if_pos h]
    have e : width ty = width .num8 := by rw [h]; rfl
    rw [e] at room ⊢
    exact key .num8 (by simp) (by simp) room
  · rw [if_neg h]
    exact key ty h hr room

theorem toU32_toI32 (p : Int) (h : 0 ≤ p ∧ p < 4294967296) : toU32 (toI32 p) = p := by
  unfold toU32 toI32
  omega

/-- An operand that has a value in the end. -/
theorem operand_final (s : S) (final : Str → Option Int) (k d D : Nat) (t bl : Str) (v : Int) (ty : ArgTy) (size base : Int) (bs : List Nat)
    (hs : InSession s) (hE : Env s final) (hpc : 0 ≤ s.pc ∧ s.pc < 4294967296)
    (h : Denotes (toI32 s.pc) final (fun _ => none) d t v) (hd : d < D) (hD : D ≤ 20) (hk : D ≤ k) (hbl : Blanks bl) (hq : 34 ∉ t)
    (hnc : NoClash s t) (henc : encode s.mode.ez80 s.pc ty size base v = some bs) (hw : argWarnings s.mode.ez80 ty v = [])
    (hsize : ty = .addrOffset → 0 ≤ size ∧ size ≤ 65535) (hr : ty = .rst → Denotes (toI32 s.pc) (fun _ => none) (fun _ => none) d t v)
    (room : HasRoom bs.length s) :
    ∃ s', addPassTwoExpr (knot k) (t ++ bl) ty size base s = .ok () s' ∧ Frame0 s s' ∧ Fills final D bs s s' := by
  have hcases : Denotes (toI32 s.pc) (visibleLabel s) (fun _ => none) d t v ∨ (ty ≠ .rst ∧ WaitDenotes s d t) := by
    by_cases hty : ty = .rst
    · exact .inl (Denotes_mono (fun _ _ h => by simp at h) (fun _ _ h => h) (hr hty))
    · rcases wait_denotes s final hE.awaits h with h | h
      · exact .inl h
      · exact .inr ⟨hty, h⟩
  rcases hcases with h' | ⟨hty, h'⟩
  · have e := addPassTwoExpr_denotes s k d t bl v ty size base bs hs (Denotes_mono (fun _ _ h => h) (fun _ _ h => by simp at h) h')
      (by omega) (by omega) hbl henc hsize room
    rw [hw] at e
    refine ⟨_, e, ?_, ?_⟩
    · unfold Frame0 ops asErrs
      simp [emitted]
    · exact (Fills.emitted final D bs s room.1).congr rfl rfl rfl rfl rfl rfl rfl
  · obtain ⟨k, rfl⟩ : ∃ m, k = m + 1 := ⟨k - 1, by omega⟩
    obtain ⟨c, r, hct, hst⟩ := Denotes_start h
    have hlen := encode_length henc
    unfold addPassTwoExpr
    have hst0 : startSession s = .ok (s.session + 1) { s with session := s.session + 1 } := rfl
    have h'' : WaitDenotes { s with session := s.session + 1 } d t := by
      have hE' : Env { s with session := s.session + 1 } final := ⟨hE.labels, hE.names, hE.others⟩
      rcases wait_denotes { s with session := s.session + 1 } final hE'.awaits h with hx | hx
      · exfalso
        obtain ⟨q, e⟩ := parseNum_waits s d (k + 1) t bl c r hct hst h' (by omega) (by omega) hbl
        have e' := C03_value s d (k + 1) [] t bl [] v (Denotes_mono (fun _ _ h => h) (fun _ _ h => by simp at h) hx) (by omega) (by omega)
          (by intro c hc; simp at hc) hbl (.inl rfl)
        simp only [List.nil_append, List.append_nil] at e'
        rw [e] at e'
        cases e'
      · exact hx
    obtain ⟨q, e⟩ := parseNum_waits { s with session := s.session + 1 } d (k + 1) t bl c r hct hst h'' (by omega) (by omega) hbl
    rw [M.bind_ok hst0, M.bind_ok e, M.get_bind]
    dsimp only
    generalize hs1 : waiting { s with session := s.session + 1 } q = s1
    have hdrop : s.errors.dropWhile (fun e => e.sess == s.session + 1) = s.errors := by
      cases he : s.errors with
      | nil => rfl
      | cons a l =>
        have := hs.2 a (by simp [he])
        rw [List.dropWhile_cons, if_neg (by simp; omega)]
    have htake : s.errors.takeWhile (fun e => e.sess == s.session + 1) = [] := by
      cases he : s.errors with
      | nil => rfl
      | cons a l =>
        have := hs.2 a (by simp [he])
        rw [List.takeWhile_cons, if_neg (by simp; omega)]
    have hf : sessionFatal (s.session + 1) s1 = false := by
      rw [← hs1]
      unfold sessionFatal sessPrefix waiting errorAt evalState
      simp [htake, isFatal, E.LABEL_NOT_FOUND]
    rw [hf]
    simp only [Bool.false_eq_true, if_false]
    have hE1 : Env s1 final := by rw [← hs1]; exact ⟨hE.labels, hE.names, hE.others⟩
    have hnc1 : NoClash s1 t := by rw [← hs1]; exact hnc
    obtain ⟨t', hst', hden, -⟩ := stored_denotes hE1 h hnc1
    have hstb : Stored s1 (t ++ bl) (t' ++ bl) := by
      refine hst'.append (Stored.chars bl (blanks_not_name hbl)) ?_
      cases bl with
      | nil => exact .inl (by simp)
      | cons x bl => exact .inl (by intro y hy; exact blanks_not_name hbl y (by cases hy; simp))
    have hx : expandExpr (knot (k + 1)) (t ++ bl) true s1 = .ok (t' ++ bl) s1 := by
      show expandFullBody (knot k) (t ++ bl) 0 true s1 = _
      unfold expandFullBody
      rw [if_neg (by omega), expandLoop_stored (knot k) 0 s1 _ (t ++ bl) (t' ++ bl) [] (by omega) hstb]
      · rfl
      · intro hm
        rcases List.mem_append.1 hm with hm | hm
        · exact hq hm
        · have := hbl 34 hm
          omega
    rw [M.bind_ok hx]
    generalize hx0 : (⟨toI32 s1.pc, s1.lineNum, getCurrReusable s1, s1.outPtr, t' ++ bl, ty, s1.currFile, size, base⟩ : PExpr) = x
    have hmod : (M.modify fun s' => { s' with exprs := s'.exprs ++ [x] }) s1 = .ok () { s1 with exprs := s1.exprs ++ [x] } := rfl
    rw [M.bind_ok hmod]
    have room1 : HasRoom (width ty) { s1 with exprs := s1.exprs ++ [x] } := by rw [← hlen, ← hs1]; exact room
    rw [M.bind_ok (placeholder ty size _ hty room1)]
    subst hs1
    have hn : s.session + 1 ≠ 1 := by have := hs.1; omega
    refine ⟨{ emitted (List.replicate (width ty) 0) s with exprs := s.exprs ++ [x], parseDepth := q, fwdRef := true }, ?_, rfl, ?_⟩
    · unfold endSession waiting errorAt evalState
      simp [hn, hdrop, emitted, List.dropWhile_cons]
    · have hF := Fills.emitted final D (List.replicate (width ty) 0) s room.1
      have hpc' : toU32 x.pc = s.pc := by rw [← hx0]; exact toU32_toI32 s.pc hpc
      have hout : x.out = s.outPtr := by rw [← hx0]; rfl
      have hxt : x.ty = ty := by rw [← hx0]
      refine ⟨?_, ?_, [x], rfl, ?_, ?_⟩
      · have := hF.out
        rw [List.length_replicate] at this
        rw [hlen]
        exact this
      · have := hF.outside
        rw [List.length_replicate] at this
        rw [hlen]
        exact this
      · intro e he
        obtain rfl : e = x := by simpa using he
        refine ⟨d, t', bl, v, bs, [], [], by rw [← hx0], hbl, by rw [hpc']; exact hden, hd, ?_, by rw [hxt]; exact hw, by rw [hxt]; exact hty, ?_, by simp,
          by rw [hout]; simp⟩
        · rw [hpc', ← hx0]; exact henc
        · rw [← hx0]; exact hsize
      · intro i b hb
        have hi : i < bs.length := by
          rcases Nat.lt_or_ge i bs.length with h | h
          · exact h
          · rw [List.getElem?_eq_none h] at hb; cases hb
        refine .inr ⟨x, by simp, ?_, ?_⟩
        · rw [hout]; have := room.1; omega
        · rw [hout, hxt, ← hlen]; have := room.1; omega

/-! ### The operands of an instruction -/

theorem Frame0.session {s s' : S} (h : Frame0 s s') (hs : InSession s) : InSession s' := by
  rw [h]; exact hs

theorem Frame0.env {s s' : S} {final : Str → Option Int} (h : Frame0 s s') (hE : Env s final) : Env s' final := by
  rw [h]; exact ⟨hE.labels, hE.names, hE.others⟩

theorem Frame0.noClash {s s' : S} (h : Frame0 s s') {t : Str} (hc : NoClash s t) : NoClash s' t := by
  rw [h]; exact hc

theorem Frame0.pc {s s' : S} (h : Frame0 s s') : s'.pc = s.pc := by rw [h]
theorem Frame0.mode {s s' : S} (h : Frame0 s s') : s'.mode = s.mode := by rw [h]

theorem Fills.room {final : Str → Option Int} {D n : Nat} {bs : List Nat} {s s' : S} (h : Fills final D bs s s') (hr : HasRoom (bs.length + n) s) :
    HasRoom n s' := by
  obtain ⟨h1, h2⟩ := hr
  have := h.out
  push_cast at h2
  exact ⟨by omega, by omega⟩

/-- The operand texts can be stored: no string quotes, no names behind the characters that begin other constants, and no
parentheses around them. -/
def Storable (s : S) (o : Str) : Prop := 34 ∉ o ∧ NoClash s o ∧ Wrapped o = false

theorem NoClash.zero {s : S} {o : Str} (h : NoClash s o) : NoClash s (48 :: o) := by
  intro a c w b e hc hw hn hb
  cases a with
  | nil =>
    simp only [List.nil_append, List.cons.injEq] at e
    omega
  | cons x a =>
    simp only [List.cons_append, List.cons.injEq] at e
    exact h a c w b e.2 hc hw hn hb

theorem advice_none (o bl : Str) (s : S) (hx : extraParens (o ++ bl) = Wrapped o) (h : Wrapped o = false) :
    M.when (extraParens (o ++ bl)) (showWarning .parenAdvice) s = .ok () s := by
  rw [hx, h]
  rfl

theorem writeOperands_final (k D : Nat) (long : Bool) (total : Int) (hk : D ≤ k) (h20 : D ≤ 20) {pc : Int} {label final : Str → Option Int}
    (hle : ∀ t v, label t = some v → final t = some v)
    {pat : Str} {os : List Str} {vs : List Int} (h : Values pc label (fun _ => none) D pat os vs) :
    ∀ (caps : List (Str × Str)) (size : Int) (bit : Option Str) (m : List Nat) (s : S), Captured caps os → pc = toI32 s.pc →
      0 ≤ s.pc ∧ s.pc < 4294967296 → Env s final → InSession s → (∀ o ∈ os, Storable s o) → (35 ∈ pat → label = fun _ => none) →
      operandCode s.mode.ez80 long s.pc total pat vs = some m → operandWarnings s.mode.ez80 long pat vs = [] → HasRoom m.length s →
      (37 ∈ pat → size = total ∧ 0 ≤ size ∧ size ≤ 65535 ∧ 42 ∉ pat) → pat.count 94 ≤ 1 →
      ∃ bit' s', writeOperands (knot k) long pat caps size bit s =
          .ok (size + (if long then (pat.count 42 : Int) else 0), bit') s' ∧ Frame0 s s' ∧ Fills final D m s s' ∧
        (bitNumber pat vs = none → bit' = bit) ∧
        (∀ b, bitNumber pat vs = some b → ∃ t bl e, bit' = some (t ++ bl) ∧ Blanks bl ∧ Storable s t ∧
          Denotes pc final (fun _ => none) e t b ∧ e < D) := by
  have up : ∀ {d t v}, Denotes pc label (fun _ => none) d t v → Denotes pc final (fun _ => none) d t v :=
    fun h => Denotes_mono hle (fun _ _ h => h) h
  induction h with
  | nil =>
    intro caps size bit m s _ _ _ _ _ _ _ hm _ _ _ _
    simp only [operandCode, Option.some.injEq] at hm
    subst hm
    refine ⟨bit, s, ?_, .refl s, .nil final D s, fun _ => rfl, by intro b hb; simp [bitNumber] at hb⟩
    unfold writeOperands
    simp [M.pure_apply]
  | literal c pat os vs hc _ ih =>
    intro caps size bit m s hcap hpc h32 hE hs hst hrst hm hw room hj hb
    have hlt := (longType_none long c).2 hc
    unfold operandCode at hm
    rw [hlt] at hm
    unfold operandWarnings at hw
    rw [hlt] at hw
    have h42 : c ≠ 42 := by rintro rfl; simp [operandType] at hc
    have h94 : c ≠ 94 := by rintro rfl; simp [operandType] at hc
    obtain ⟨bit', s', e, h1, h2, h3, h4⟩ := ih caps size bit m s hcap hpc h32 hE hs hst (fun h => hrst (List.mem_cons_of_mem _ h)) hm hw room
      (fun h => by have := hj (List.mem_cons_of_mem _ h); simp at this; exact ⟨this.1, this.2.1, this.2.2.1, this.2.2.2.2⟩)
      (by rw [List.count_cons_of_ne h94] at hb; exact hb)
    refine ⟨bit', s', ?_, h1, h2, ?_, ?_⟩
    · unfold writeOperands
      rw [if_neg (by rw [isArg_iff]; simp [hc]), e, List.count_cons_of_ne h42]
    · unfold bitNumber; rw [hc]; exact h3
    · unfold bitNumber; rw [hc]; exact h4
  | operand c o dd v pat os vs hc h64 hden hd _ ih =>
    intro caps size bit m s hcap hpc h32 hE hs hst hrst hm hw room hj hb
    subst hpc
    cases hcap with
    | cons hcapt hcaps =>
    rename_i cap caps
    obtain ⟨bl, hbl, hct, hoe⟩ := hcapt
    obtain ⟨ho1, ho2, ho3⟩ := hst o (by simp)
    have hst' : ∀ o ∈ os, Storable s o := fun o' h' => hst o' (List.mem_cons_of_mem _ h')
    have hrst' : 35 ∈ pat → label = fun _ => none := fun h' => hrst (List.mem_cons_of_mem _ h')
    unfold writeOperands
    rw [if_pos ((isArg_iff c).2 hc)]
    dsimp only
    rw [hct, M.bind_ok (advice_none o bl s (extraParens_end o bl hbl (Denotes_end hden)) ho3)]
    by_cases h94 : c = 94
    · subst h94
      have hm' : operandCode s.mode.ez80 long s.pc total pat vs = some m := by
        unfold operandCode at hm
        rw [(longType_bit long 94).2 rfl] at hm
        exact hm
      have hw' : operandWarnings s.mode.ez80 long pat vs = [] := by
        rw [operandWarnings_cons _ _ _ _ _ _ _ ((longType_bit long 94).2 rfl)] at hw
        exact hw
      obtain ⟨bit', s', e, h1, h2, h3, h4⟩ := ih caps size (some (o ++ bl)) m s hcaps rfl h32 hE hs hst' hrst' hm' hw' room
        (fun h => by have := hj (List.mem_cons_of_mem _ h); simp at this; exact ⟨this.1, this.2.1, this.2.2.1, this.2.2.2⟩)
        (by rw [List.count_cons_self] at hb; omega)
      have hnb : bitNumber pat vs = none := by
        cases hbn : bitNumber pat vs with
        | none => rfl
        | some b => exact absurd hbn (bitNumber_none pat (by rw [List.count_cons_self] at hb; exact List.count_eq_zero.1 (by omega)) vs b)
      refine ⟨bit', s', ?_, h1, h2, ?_, ?_⟩
      · simp only [beq_self_eq_true, if_true]
        rw [e, List.count_cons_of_ne (by decide)]
      · intro hn; simp [bitNumber, operandType] at hn
      · intro b hbb
        simp only [bitNumber, operandType] at hbb
        cases hbb
        exact ⟨o, bl, dd, h3 hnb, hbl, ⟨ho1, ho2, ho3⟩, up hden, hd⟩
    · obtain ⟨ty, hty⟩ : ∃ ty, longType long c = some ty := by
        cases h : longType long c with
        | none => exact absurd ((longType_none long c).1 h) hc
        | some ty => exact ⟨ty, rfl⟩
      have hnbit : ty ≠ .bitNum := fun h => h94 ((longType_bit long c).1 (h ▸ hty))
      obtain ⟨bs, r, henc, hr, rfl⟩ := operandCode_cons _ _ _ _ _ _ _ _ ty hty hnbit _ hm
      rw [operandWarnings_cons _ _ _ _ _ _ _ hty, List.append_eq_nil_iff] at hw
      rw [List.length_append] at room
      generalize hsz : (if (c == 42 && long) = true then size + 1 else size) = size'
      have hsz' : size' + (if long then (pat.count 42 : Int) else 0) = size + (if long then ((c :: pat).count 42 : Int) else 0) := by
        rw [← hsz]
        by_cases h42 : c = 42
        · subst h42; rw [List.count_cons_self]; cases long <;> simp; omega
        · rw [List.count_cons_of_ne h42]; simp [h42]
      have henc' : encode s.mode.ez80 s.pc ty size' 0 v = some bs := by
        by_cases h37 : c = 37
        · subst h37
          have := (hj (by simp)).1
          rw [← hsz, if_neg (by simp), this]
          exact henc
        · have hna : ty ≠ .addrOffset := fun h => h37 ((longType_addr long c).1 (h ▸ hty))
          cases ty <;> first | exact henc | exact absurd rfl hna
      have hsize : ty = .addrOffset → 0 ≤ size' ∧ size' ≤ 65535 := by
        rintro rfl
        have h37 := (longType_addr long c).1 hty
        subst h37
        have := hj (by simp)
        rw [← hsz, if_neg (by simp)]
        exact ⟨this.2.1, this.2.2.1⟩
      have h35 : ty = .rst → c = 35 := by
        rintro rfl
        revert hty
        unfold longType operandType
        repeat' split
        all_goals simp_all
      obtain ⟨s1, e1, f1, g1⟩ := operand_final s final k dd D o bl v ty size' 0 bs hs hE h32 (up hden) hd h20 hk hbl ho1 ho2 henc' hw.1 hsize
        (fun h => by have := hrst (by rw [h35 h]; simp); rw [this] at hden; exact hden)
        ⟨room.1, by have := room.2; push_cast at this; omega⟩
      obtain ⟨bit', s', e, h1, h2, h3, h4⟩ := ih caps size' bit r s1 hcaps (by rw [f1.pc]) (by rw [f1.pc]; exact h32) (f1.env hE) (f1.session hs)
        (fun o' h' => ⟨(hst' o' h').1, f1.noClash (hst' o' h').2.1, (hst' o' h').2.2⟩) hrst' (by rw [f1.pc, f1.mode]; exact hr)
        (by rw [f1.mode]; exact hw.2) (g1.room room)
        (fun h => by
          have := hj (List.mem_cons_of_mem _ h); simp at this
          rw [← hsz, if_neg (by simp; intro hh; exact absurd hh (fun hh => this.2.2.2.1 hh.symm))]
          exact ⟨this.1, this.2.1, this.2.2.1, this.2.2.2.2⟩)
        (by rw [List.count_cons_of_ne h94] at hb; exact hb)
      refine ⟨bit', s', ?_, f1.trans h1, g1.append room.1 f1.mode h2, ?_, ?_⟩
      · rw [if_neg (by simpa using h94), if_neg (by simp [h64]), argTyOf_eq long c h94, hty]
        dsimp only
        rw [if_neg (by simpa using h64), M.bind_ok e1, e, hsz']
      · intro hn; apply h3; rw [← hn]; exact (bitNumber_cons c pat v vs hc h94).symm
      · intro b hbb
        obtain ⟨t, bl', e', x1, x2, x3, x4⟩ := h4 b (by rw [← hbb]; exact (bitNumber_cons c pat v vs hc h94).symm)
        exact ⟨t, bl', e', x1, x2, by rw [f1] at x3; exact x3, x4⟩
  | displacement o dd v pat os vs ho hden hd _ ih =>
    intro caps size bit m s hcap hpc h32 hE hs hst hrst hm hw room hj hb
    subst hpc
    cases hcap with
    | cons hcapt hcaps =>
    rename_i cap caps
    obtain ⟨bl, hbl, hct, hoe⟩ := hcapt
    obtain ⟨ho1, ho2, ho3⟩ := hst o (by simp)
    have hst' : ∀ o ∈ os, Storable s o := fun o' h' => hst o' (List.mem_cons_of_mem _ h')
    have hrst' : 35 ∈ pat → label = fun _ => none := fun h' => hrst (List.mem_cons_of_mem _ h')
    unfold writeOperands
    rw [if_pos (by rfl)]
    dsimp only
    rw [hct, M.bind_ok (advice_none o bl s (extraParens_sign o bl ho hoe) ho3)]
    have hty : longType long 64 = some .ixIyOffset := by simp [longType, operandType]
    obtain ⟨bs, r, henc, hr, rfl⟩ := operandCode_cons _ _ _ _ _ _ _ _ _ hty (by simp) _ hm
    rw [operandWarnings_cons _ _ _ _ _ _ _ hty, List.append_eq_nil_iff] at hw
    rw [List.length_append] at room
    have hsign : ((o ++ bl).isEmpty || Spasm.hd (o ++ bl) == 43 || Spasm.hd (o ++ bl) == 45) = true := by
      rcases ho with rfl | ⟨r, rfl | rfl⟩
      · rw [hoe rfl]; rfl
      · rfl
      · rfl
    obtain ⟨s1, e1, f1, g1⟩ := operand_final s final k dd D (48 :: o) bl v .ixIyOffset size 0 bs hs hE h32 (up hden) hd h20 hk hbl (by simpa using ho1)
      ho2.zero henc hw.1 (by simp) (by simp) ⟨room.1, by have := room.2; push_cast at this; omega⟩
    obtain ⟨bit', s', e, h1, h2, h3, h4⟩ := ih caps size bit r s1 hcaps (by rw [f1.pc]) (by rw [f1.pc]; exact h32) (f1.env hE) (f1.session hs)
        (fun o' h' => ⟨(hst' o' h').1, f1.noClash (hst' o' h').2.1, (hst' o' h').2.2⟩) hrst' (by rw [f1.pc, f1.mode]; exact hr)
        (by rw [f1.mode]; exact hw.2) (g1.room room)
        (fun h => by
          have := hj (List.mem_cons_of_mem _ h); simp at this
          exact ⟨this.1, this.2.1, this.2.2.1, this.2.2.2⟩)
        (by rw [List.count_cons_of_ne (by decide)] at hb; exact hb)
    refine ⟨bit', s', ?_, f1.trans h1, g1.append room.1 f1.mode h2, ?_, ?_⟩
    · rw [if_neg (by decide), hsign]
      simp only [Bool.not_true, Bool.and_false, Bool.false_eq_true, if_false]
      have : argTyOf long 64 = some .ixIyOffset := rfl
      rw [this]
      dsimp only
      simp only [show ((64 : Nat) == 42) = false from rfl, Bool.false_and, Bool.false_eq_true, if_false, beq_self_eq_true, if_true]
      rw [← List.cons_append, M.bind_ok e1, e, List.count_cons_of_ne (by decide)]
    · intro hn; apply h3; rw [← hn]; exact (bitNumber_cons 64 pat v vs (by decide) (by decide)).symm
    · intro b hbb
      obtain ⟨t, bl', e', x1, x2, x3, x4⟩ := h4 b (by rw [← hbb]; exact (bitNumber_cons 64 pat v vs (by decide) (by decide)).symm)
      exact ⟨t, bl', e', x1, x2, by rw [f1] at x3; exact x3, x4⟩

theorem writeInstr_final (k D : Nat) (i : Instr) (os : List Str) (vs : List Int) (caps : List (Str × Str)) (suffix : Option Nat) (bs : List Nat) (s : S)
    {label final : Str → Option Int} (hle : ∀ t v, label t = some v → final t = some v)
    (hw : Writable i) (hk : D ≤ k) (h20 : D ≤ 20) (hv : Values (toI32 s.pc) label (fun _ => none) D i.args os vs)
    (h32 : 0 ≤ s.pc ∧ s.pc < 4294967296) (hE : Env s final) (hst : ∀ o ∈ os, Storable s o) (hrst : 35 ∈ i.args → label = fun _ => none)
    (hcap : Captured caps os) (hs : InSession s) (hn : s.mode.normal = true) (hsuf : ∀ x ∈ suffix, x < 4)
    (hc : codeBytes s.mode.ez80 (longImmediate suffix s) s.pc ((prefixByte suffix).length + encodedLength (longImmediate suffix s) i : Nat) i vs = some bs)
    (hwarn : operandWarnings s.mode.ez80 (longImmediate suffix s) i.args vs = [])
    (room : HasRoom ((prefixByte suffix).length + bs.length) s) :
    ∃ s', writeInstr (knot k) i caps suffix s = .ok ((prefixByte suffix ++ bs).length : Nat) s' ∧ Frame0 s s' ∧ Fills final D (prefixByte suffix ++ bs) s s' := by
  have hlen := codeBytes_length hc
  have hpre : (prefixByte suffix).length = if suffix.isSome then 1 else 0 := by cases suffix <;> rfl
  have hil := encodedLength_long (longImmediate suffix s) i
  generalize hL : longImmediate suffix s = long at *
  rw [writeInstr_eq, hL]
  -- the prefix
  have e1 : prefixPart suffix s = .ok () (emitted (prefixByte suffix) s) := by
    cases suffix with
    | none => unfold prefixByte; rw [emitted_nil]; rfl
    | some x =>
      have := hsuf x rfl
      unfold prefixByte prefixPart
      dsimp only
      rw [writeOut_ok _ _ ⟨room.1, by have := room.2; simp [prefixByte] at this ⊢; omega⟩]
      congr 3
      omega
  -- the opcode bytes and operands
  unfold codeBytes at hc
  cases hm : operandCode s.mode.ez80 long s.pc ((prefixByte suffix).length + encodedLength long i : Nat) i.args vs with
  | none => rw [hm] at hc; cases hc
  | some m =>
  rw [hm] at hc
  dsimp only at hc
  have hend : i.data.length + m.length + (if i.hasEnd then 1 else 0) = bs.length := by
    rw [operandCode_length _ _ _ _ _ _ _ hm, hlen]; rfl
  have e2 : writeBytes i.data (emitted (prefixByte suffix) s) = .ok () (emitted (prefixByte suffix ++ i.data) s) := by
    rw [writeBytes_ok _ _ hw.bytes.1 ⟨by have := room.1; simp [emitted]; omega, by have := room.2; simp [emitted] at this ⊢; omega⟩, emitted_append _ _ _ room.1]
  have F2 : Frame0 s (emitted (prefixByte suffix ++ i.data) s) := rfl
  have G2 := Fills.emitted final D (prefixByte suffix ++ i.data) s room.1
  generalize hs2 : emitted (prefixByte suffix ++ i.data) s = s2 at *
  have hsize : (if suffix.isSome then (i.size : Int) + 1 else i.size) = ((prefixByte suffix).length + encodedLength false i : Nat) := by
    rw [hpre, hw.size]
    split <;> push_cast <;> omega
  have room2 : HasRoom (m.length + (if i.hasEnd then 1 else 0)) s2 := G2.room ⟨room.1, by
    have := room.2; simp only [List.length_append]; push_cast at this ⊢; rw [← hend] at this; push_cast at this; omega⟩
  obtain ⟨bit', s3, e3, F3, G3, h2, h3⟩ := writeOperands_final k D long ((prefixByte suffix).length + encodedLength long i : Nat) hk h20 hle hv caps
    ((prefixByte suffix).length + encodedLength false i : Nat) none m s2 hcap (by rw [F2.pc]) (by rw [F2.pc]; exact h32) (F2.env hE) (F2.session hs)
    (fun o' h' => ⟨(hst o' h').1, F2.noClash (hst o' h').2.1, (hst o' h').2.2⟩) hrst (by rw [F2.mode, F2.pc]; exact hm) (by rw [F2.mode]; exact hwarn)
    ⟨room2.1, by have := room2.2; push_cast at this; split at this <;> omega⟩
    (by
      intro h37
      have h42 := hw.jump h37
      have h0 : i.args.count 42 = 0 := List.count_eq_zero.2 h42
      rw [hil, h0]
      refine ⟨by simp, by omega, ?_, h42⟩
      have := hw.short
      rw [hpre]
      split <;> omega) hw.oneBit
  have htot : (((prefixByte suffix).length + encodedLength false i : Nat) : Int) + (if long then (i.args.count 42 : Int) else 0)
      = ((prefixByte suffix ++ bs).length : Nat) := by
    rw [List.length_append, hlen, hil]
    split <;> push_cast <;> omega
  rw [htot] at e3
  rw [hsize, M.bind_ok e1, hn, Bool.true_or, M.when_true, M.bind_ok e2, M.bind_ok e3]
  dsimp only
  unfold endPart
  rw [Bool.and_true]
  have F := F2.trans F3
  have G := G2.append room.1 F2.mode G3
  by_cases hEnd : i.hasEnd = true
  · rw [if_pos hEnd] at hc room2 ⊢
    have room3 := G3.room room2
    cases hb : bitNumber i.args vs with
    | none =>
      rw [hb] at hc
      cases hc
      rw [h2 hb]
      dsimp only
      have hlt := hw.bytes.2
      refine ⟨emitted [((i.endData : Int) % 256).toNat] s3, by rw [M.bind_ok (writeOut_ok _ _ room3)]; rfl,
        F.trans (show Frame0 s3 (emitted [((i.endData : Int) % 256).toNat] s3) from rfl), ?_⟩
      have : ((i.endData : Int) % 256).toNat = i.endData := by omega
      rw [this]
      have := G.append room.1 F.mode (Fills.emitted final D [i.endData] s3 room3.1)
      simpa only [List.append_assoc] using this
    | some b =>
      rw [hb] at hc
      simp only [Option.map_eq_some_iff] at hc
      obtain ⟨e, he, rfl⟩ := hc
      obtain ⟨t, bl, dd, rfl, hbl, hsto, hden, hd⟩ := h3 b hb
      have hel := encode_length he
      simp only [width] at hel
      dsimp only
      obtain ⟨s4, e4, F4, G4⟩ := operand_final s3 final k dd D t bl b .bitNum ((prefixByte suffix ++ (i.data ++ m ++ e)).length : Nat) i.endData e
        (F.session hs) (F.env hE) (by rw [F.pc]; exact h32) (by rw [F.pc]; exact hden) hd h20 hk hbl hsto.1 (F3.noClash hsto.2.1)
        (by rw [F.mode, F.pc]; exact he) rfl (by simp) (by simp) (by rw [hel]; exact room3)
      refine ⟨s4, by rw [M.bind_ok e4]; rfl, F.trans F4, ?_⟩
      have := G.append room.1 F.mode G4
      simpa only [List.append_assoc] using this
  · rw [if_neg hEnd] at hc ⊢
    cases hc
    exact ⟨s3, rfl, F, by simpa only [List.append_assoc] using G⟩

end Spasm
