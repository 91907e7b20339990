import Verif.Lemmas.SecondPass
import Verif.Props.Operands
import Verif.Props.Run

/-
C15 (second pass), C16 and C17: operands that are deferred to the second pass.

`ranPreop` is a ghost variable: it is set when the evaluation of a define runs a preprocessor line that is part of
the contents of the define. Such a line can do anything (`C16_preprocessor_moves_code`).
-/

namespace Spasm.Props
open Spasm Spec

/-! ### C15, second pass -/

/-- C15 does not hold for a vector that is not known on the first pass: whatever its value, the second pass rejects
it with the RST error (0x127) and writes nothing. -/
theorem C15_deferred_rejected (n : Nat) (e : PExpr) (s s1 : S) (v : Int) (hty : e.ty = .rst)
    (hv : parseNum (knot n) e.expr (atPlaceOf e s) = .ok (some v) s1) :
    runExpr (knot n) e s = .ok () (errorAt 0x127 s1) := by
  have hs : setError E.INVALID_RST_OPERANDS s1 = .ok () (errorAt 0x127 s1) := setError_apply _ s1 (by decide)
  unfold runExpr setCurrReusable
  rw [M.modify_bind, M.modify_bind]
  show (parseNum (knot n) e.expr >>= _) (atPlaceOf e s) = _
  rw [M.bind_ok hv]
  dsimp only
  rw [if_pos hty, hty]
  split
  · rename_i hr
    unfold writeArg
    dsimp only
    have hv' : isRst (v + 0xC7) = false := by
      unfold isRst at hr ⊢
      simp only [Bool.or_eq_true, beq_iff_eq] at hr
      simp only [Bool.or_eq_false_iff, beq_eq_false_iff_ne]
      omega
    rw [hv', if_neg (by decide)]
    exact hs
  · exact hs

/-- A legal vector known on the first pass is assembled, the same vector defined on the next line is an error. -/
theorem C15_forward_vector :
    exitStatus (asm (b! "x .equ 8\n rst x\n") [b! "a.asm"]) = some 0 ∧
    (asm (b! "x .equ 8\n rst x\n") [b! "a.asm"]).state.log = [.wrote (b! "a.bin") [0xCF]] ∧
    exitStatus (asm (b! " rst x\nx .equ 8\n") [b! "a.asm"]) = some 3 ∧
    (asm (b! " rst x\nx .equ 8\n") [b! "a.asm"]).state.log = [.printed 0x127 false] := by
  decide +kernel

/-! ### C16 -/

/-- C16, first pass: an operand that is deferred gets a place of exactly the size of the operand, at the end of the
output. -/
theorem C16_place_reserved (n : Nat) (text : Str) (ty : ArgTy) (size base : Int) (s s' : S)
    (h : addPassTwoExpr (knot n) text ty size base s = .ok () s') (hp : s'.ranPreop = false)
    (hd : s'.exprs ≠ s.exprs) :
    ∃ e, s'.exprs = s.exprs ++ [e] ∧ e.out = s.outPtr ∧ e.ty = ty ∧ Appended (width ty) s s' := by
  obtain ⟨s1, s2, e1, hc⟩ := addPassTwoExpr_cases h
  rcases hc with ⟨t, s3, s5, e2, _, e3, e5, e6⟩ | ⟨v, s3, s4, e2, e3, e4, e5⟩ | ⟨s3, e2, hf, e3, e4⟩
  · obtain ⟨g, _, hx⟩ := grow_deferred e1 e2 e3 e5 e6 hp
    exact ⟨_, hx, rfl, rfl, g.out, g.mem⟩
  · exfalso
    apply hd
    have k5 := kept_endSession e5
    have k4 := kept_replaySession e4
    have hp3 : s3.ranPreop = false := by rw [← k4.2.1, ← k5.2.1]; exact hp
    have hp2 := ranPreop_before (runs_writeArg _ _ _ _) e3 hp3
    have k2 := (still_parseNum (still_knot n) text).kept e2 hp2
    rw [k5.1.exprs, k4.1.exprs, grow_exprs e3, k2.exprs, (kept_startSession e1).1.exprs]
  · exfalso
    apply hd
    have k4 := kept_endSession e4
    have k3 := kept_replaySession e3
    have hp2 : s2.ranPreop = false := by rw [← k3.2.1, ← k4.2.1]; exact hp
    have k2 := (still_parseNum (still_knot n) text).kept e2 hp2
    rw [k4.1.exprs, k3.1.exprs, k2.exprs, (kept_startSession e1).1.exprs]

/-- C16, second pass: it changes neither the length of the output nor any label nor any byte outside the reserved
places. Missing: runs in which the evaluation of a define runs a preprocessor line (`hp`). -/
theorem C16_second_pass_partial (n : Nat) (s s' : S) (h : runSecondPass (knot n) s = .ok () s')
    (hp : s'.ranPreop = false) :
    s'.outPtr = s.outPtr ∧ s'.labels = s.labels ∧
      ∀ i, (∀ e ∈ s.exprs, ¬ Reserved e i) → s'.mem i = s.mem i := by
  obtain ⟨h1, h2, h3⟩ := pass_runSecondPass h hp
  exact ⟨h2, h1.labels, fun i hi => h3 i (by rintro ⟨e, he, hr⟩; exact hi e he hr)⟩

/-- A state with two deferred operands whose labels are known now. -/
def twoDeferred : S :=
  { outPtr := 5, mem := fun _ => 7,
    labels := [(b! "X", ⟨b! "X", 0x1234, 1, []⟩)],
    exprs := [⟨0, 1, -1, 1, b! "x", .num16, [], 0, 0⟩, ⟨3, 2, -1, 4, b! "x-1200h", .num8, [], 0, 0⟩] }

example : returns (runSecondPass (knot 5) twoDeferred) (fun _ s' => s'.ranPreop == false && s'.outPtr == 5 &&
    (List.range 6).map s'.mem == [7, 0x34, 0x12, 7, 0x34, 7]) = true := by decide +kernel

example : returns (addPassTwoExpr (knot 5) (b! "later+2") .num16 3 0 ({ outPtr := 9 } : S)) (fun _ s' =>
    s'.ranPreop == false && s'.exprs.map (fun e => (e.out, e.expr)) == [(9, b! "later+2")] && s'.outPtr == 11) = true := by
  decide +kernel

/-- A run with a second file `d`, for examples. -/
def asm2 (src d : Str) : Res Nat :=
  spasm 9 (fun _ => []) (fun p => if p = b! "a.asm" then some src else if p = b! "/d" then some d else none)
    (fun _ => 0) (fun _ => 0) [] [b! "a.asm"]

/-- Without `hp` the second pass can change other bytes: `m` is a macro that is defined after its use, and its first
line imports a file. The bytes 7, 8, 9 are overwritten by those of the file, and the exit status is 0. -/
theorem C16_preprocessor_moves_code :
    exitStatus (asm2 (b! " .db m+1,7,8,9,m+1\n#macro m\n#import \"/d\"\n5\n#endmacro\n") [1, 2, 3]) = some 0 ∧
    (asm2 (b! " .db m+1,7,8,9,m+1\n#macro m\n#import \"/d\"\n5\n#endmacro\n") [1, 2, 3]).state.log =
      [.wrote (b! "a.bin") [6, 1, 2, 3, 6]] := by
  decide +kernel

/-! ### C17 -/

/-- C17, first pass: a deferred operand is stored with the address, line, file, anonymous-label position and output
position it has, and with its text after expansion of the defines known at this point. -/
theorem C17_recorded (n : Nat) (text : Str) (ty : ArgTy) (size base : Int) (s s' : S)
    (h : addPassTwoExpr (knot n) text ty size base s = .ok () s') (hp : s'.ranPreop = false)
    (hd : s'.exprs ≠ s.exprs) (hpc : 0 ≤ s.pc ∧ s.pc < 4294967296) :
    ∃ e, s'.exprs = s.exprs ++ [e] ∧ atPlaceOf e s = s ∧ e.out = s.outPtr ∧ e.ty = ty ∧ e.instSize = size ∧
      e.orValue = base ∧
      ∃ s2 s3, SameSymbols s s2 ∧ expandExpr (knot n) text true s2 = .ok e.expr s3 := by
  obtain ⟨s1, s2, e1, hc⟩ := addPassTwoExpr_cases h
  have notdef : ∀ (hx : s'.exprs = s.exprs), False := fun hx => hd hx
  rcases hc with ⟨t, s3, s5, e2, _, e3, e5, e6⟩ | ⟨v, s3, s4, e2, e3, e4, e5⟩ | ⟨s3, e2, hf, e3, e4⟩
  · obtain ⟨_, k, hx⟩ := grow_deferred e1 e2 e3 e5 e6 hp
    have hl : s2.lineNum = s.lineNum := by
      rw [(lined_parseNum (lined_knot n) text).line _ _ _ e2, lined_startSession.line _ _ _ e1]
    refine ⟨_, hx, ?_, rfl, rfl, rfl, rfl, s2, s3, k.fixed.symbols, e3⟩
    unfold atPlaceOf getCurrReusable toI32
    dsimp only
    have h1 : (s.currReusable - 1 + 1 : Int) = s.currReusable := by omega
    have h2 : ((s.pc + 2147483648) % 4294967296 - 2147483648) % 4294967296 = s.pc := by omega
    rw [hl, h1, h2]
  · exfalso
    apply notdef
    have k5 := kept_endSession e5
    have k4 := kept_replaySession e4
    have hp3 : s3.ranPreop = false := by rw [← k4.2.1, ← k5.2.1]; exact hp
    have hp2 := ranPreop_before (runs_writeArg _ _ _ _) e3 hp3
    have k2 := (still_parseNum (still_knot n) text).kept e2 hp2
    rw [k5.1.exprs, k4.1.exprs, grow_exprs e3, k2.exprs, (kept_startSession e1).1.exprs]
  · exfalso
    apply notdef
    have k4 := kept_endSession e4
    have k3 := kept_replaySession e3
    have hp2 : s2.ranPreop = false := by rw [← k3.2.1, ← k4.2.1]; exact hp
    have k2 := (still_parseNum (still_knot n) text).kept e2 hp2
    rw [k4.1.exprs, k3.1.exprs, k2.exprs, (kept_startSession e1).1.exprs]

/-- C17, second pass: the stored text of a deferred operand is evaluated at its own place with the symbols as they
are at the end of the first pass, and the encoding of its value is what the reserved place holds in the end.
Missing: the stored text is the one after expansion, which may have another value than the operand
(`C17_expansion_changes_value`, `C17_expansion_cuts_labels`), RST operands (`C15_deferred_rejected`), and runs in
which the evaluation of a define runs a preprocessor line (`hp`). -/
theorem C17_second_pass_partial (n : Nat) (s s' : S) (before after : List PExpr) (e : PExpr)
    (h : runSecondPass (knot n) s = .ok () s') (hp : s'.ranPreop = false)
    (he : s.exprs = before ++ e :: after)
    (hsep : ∀ e' ∈ after, ∀ i, Reserved e i → ¬ Reserved e' i) :
    ∃ s1 r s2, SameSymbols s s1 ∧ parseNum (knot n) e.expr (atPlaceOf e s1) = .ok r s2 ∧
      ∀ v bs, r = some v → e.ty ≠ .rst → 0 ≤ e.instSize ∧ e.instSize ≤ 65535 →
        encode s.mode.ez80 (e.pc % 4294967296) e.ty e.instSize e.orValue v = some bs →
        bs.length = width e.ty ∧ ∀ i : Nat, i < bs.length → some (s'.mem (e.out.toNat + i)) = bs[i]? := by
  obtain ⟨sa, sb, h1, h2, rfl⟩ := runSecondPass_cases h
  have hpb : sb.ranPreop = false := hp
  have hpa : sa.ranPreop = false := by
    have := ranPreop_before (runs_runOutputs (runs_knot n) _) h2 hpb
    exact this
  rw [he] at h1
  obtain ⟨s1, g1, g2⟩ := runExprs_append h1
  have g2' := g2
  unfold runExprs at g2'
  obtain ⟨_, s3, g3, g4⟩ := M.bind_eq_ok.mp g2'
  have hp3 := ranPreop_before (runs_runExprs (runs_knot n) after) g4 hpa
  have hp1 := ranPreop_before (runs_runExpr (runs_knot n) e) g3 hp3
  have p1 := pass_runExprs g1 hp1
  have p4 := pass_runExprs g4 hpa
  have p5 := (pass_runOutputs h2 hpb).1
  obtain ⟨r, s2, c1, _, _, c3⟩ := runExpr_cases g3
  refine ⟨s1, r, s2, p1.symbols, c1, ?_⟩
  intro v bs hr hty hsz hbs
  have c4 := c3 v hr hty
  have hp2 : s2.ranPreop = false := by
    have := ranPreop_before (runs_writeArg _ _ _ _) c4 hp3
    exact this
  have k2 := (still_parseNum (still_knot n) e.expr).kept c1 hp2
  have hm : s2.mode = s.mode := by rw [k2.mode]; exact p1.symbols.mode
  have hpc : s2.pc = e.pc % 4294967296 := k2.pc
  have henc : encode ({ s2 with outPtr := e.out } : S).mode.ez80 ({ s2 with outPtr := e.out } : S).pc e.ty e.instSize
      e.orValue v = some bs := by
    show encode s2.mode.ez80 s2.pc _ _ _ _ = _
    rw [hm, hpc]; exact hbs
  obtain ⟨w1, w2, w3⟩ := writeArg_encode c4 hsz henc
  have w2' : 0 ≤ e.out := w2
  refine ⟨w3, fun i hi => ?_⟩
  have hres : Reserved e (e.out.toNat + i) := by
    unfold Reserved; rw [← w3]; omega
  have m5 : sb.mem (e.out.toNat + i) = sa.mem (e.out.toNat + i) := p5.mem _ (by simp)
  have m4 : sa.mem (e.out.toNat + i) = s3.mem (e.out.toNat + i) :=
    p4.mem _ (by rintro ⟨e', he', hr'⟩; exact hsep e' he' _ hres hr')
  show some (sb.mem _) = _
  rw [m5, m4, w1]
  unfold emitted
  dsimp only
  rw [if_pos (by omega)]
  have : e.out.toNat + i - e.out.toNat = i := by omega
  rw [this, List.getD_eq_getElem?_getD]
  rw [List.getElem?_eq_getElem hi]; rfl

/-- The hypotheses of the two theorems are met by `twoDeferred` and by the deferral shown above. -/
example : ∀ e' ∈ [(⟨3, 2, -1, 4, b! "x-1200h", .num8, [], 0, 0⟩ : PExpr)], ∀ i,
    Reserved ⟨0, 1, -1, 1, b! "x", .num16, [], 0, 0⟩ i → ¬ Reserved e' i := by
  intro e' he' i h
  rw [List.mem_singleton] at he'
  subst he'
  unfold Reserved width at *
  dsimp only at *
  omega

/-- C17 is violated by the expansion of defines in the stored text: with `a` defined as `1+2`, the operand `2*a` is 6,
but `2*a+x` with `x` defined later as 1 is stored as `2*1+2+x`, which is 5. -/
theorem C17_expansion_changes_value :
    (asm (b! "#define a 1+2\n .db 2*a\n .db 2*a+x\nx .equ 1\n") [b! "a.asm"]).state.log =
      [.wrote (b! "a.bin") [6, 5]] ∧
    (asm (b! "#define a 1+2\nx .equ 1\n .db 2*a\n .db 2*a+x\n") [b! "a.asm"]).state.log =
      [.wrote (b! "a.bin") [6, 7]] := by
  decide +kernel

/-- C17 is violated by the expansion of labels in the stored text: of the value of a label only nine characters are
kept, so that 1000000001 becomes 100000000. -/
theorem C17_expansion_cuts_labels :
    (asm (b! "y .equ 1000000001\n .dl y+x\nx .equ 0\n") [b! "a.asm"]).state.log =
      [.wrote (b! "a.bin") [0x00, 0xE1, 0xF5]] ∧
    (asm (b! "y .equ 1000000001\nx .equ 0\n .dl y+x\n") [b! "a.asm"]).state.log =
      [.wrote (b! "a.bin") [0x01, 0xCA, 0x9A]] := by
  decide +kernel

/-- C17 is violated by the expansion of text that is no name: the digits of `$A` are replaced by the value of a label
`a`, so that `$A+x` with a later `x` becomes `$5+x`. -/
theorem C17_expansion_rewrites_digits :
    (asm (b! "a .equ 5\n .db $A+x\nx .equ 0\n") [b! "a.asm"]).state.log = [.wrote (b! "a.bin") [5]] ∧
    (asm (b! "a .equ 5\nx .equ 0\n .db $A+x\n") [b! "a.asm"]).state.log = [.wrote (b! "a.bin") [10]] := by
  decide +kernel

/-- Likewise the character of a character constant. -/
theorem C17_expansion_rewrites_characters :
    (asm (b! "a .equ 5\n .db 'a'+x\nx .equ 0\n") [b! "a.asm"]).state.log = [.wrote (b! "a.bin") [53]] ∧
    (asm (b! "a .equ 5\nx .equ 0\n .db 'a'+x\n") [b! "a.asm"]).state.log = [.wrote (b! "a.bin") [97]] := by
  decide +kernel

/-- C17 is violated by labels with negative values: `-y+x` is stored as `--1+x`, which is a reference to an anonymous
label, and the assembly fails. -/
theorem C17_expansion_doubles_signs :
    (asm (b! "y .equ -1\n .db -y+x\nx .equ 0\n") [b! "a.asm"]).state.log = [.printed E.LOCAL_LABEL_SYNTAX false] ∧
    (asm (b! "y .equ -1\nx .equ 0\n .db -y+x\n") [b! "a.asm"]).state.log = [.wrote (b! "a.bin") [1]] := by
  decide +kernel

end Spasm.Props
