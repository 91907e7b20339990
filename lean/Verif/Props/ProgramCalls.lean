import Verif.Props.Program
import Verif.Props.Calls

/-
C54: a whole program that defines a function and calls it.
-/

namespace Spasm.Props
open Spasm Spec

/-- A function and a call of it, whose argument is an expression of a label. -/
theorem sample_function (fs : Str → Option (List Nat)) (cwd : Str) : Assembles (settingFor [.file (b! "a.asm")] fs [cwd]
    (fun w => ([(b! "x", 0)].find? (fun p : Str × Int => decide (p.1.map upperCase = w.map upperCase))).map (·.2)) [b! "TWICE"] [] 4)
    (b! "#define twice(n) n*2+1\nx: .db 1+twice(x+3)\n") [8] := by
  refine ⟨[(b! "x", 0)], 1, [(b! "twice", some ([b! "n"], b! " n*2+1"))], ?_, rfl, ?_, ?_, (by intro w hw; cases hw), (by intro p hp; cases hp)⟩
  rotate_left
  · show (([(b! "x", 0)] : Defs).map (fun p => p.1.map upperCase)).Nodup
    decide
  · show ∀ p ∈ ([(b! "x", 0)] : Defs), p.1.map upperCase ∉ predefinedNames ∧ p.1.map upperCase ∉ ([b! "TWICE"] : List Str) ∧ 0 ≤ p.2 ∧ p.2 ≤ 999999999
    decide
  show Program _ [] [] _ _ _ _ _ _
  generalize hg : (settingFor [.file (b! "a.asm")] fs [cwd]
    (fun w => ([(b! "x", 0)].find? (fun p : Str × Int => decide (p.1.map upperCase = w.map upperCase))).map (·.2)) [b! "TWICE"] [] 4) = g
  have hkey : ∀ w, g.key w = w.map upperCase := by intro w; rw [← hg]; rfl
  have hkey' : g.key = fun w => w.map upperCase := funext hkey
  have hdepth : g.depth = 4 := by rw [← hg]; rfl
  have hez : g.ez80 = false := by rw [← hg]; rfl
  have hdef : g.defined = [b! "TWICE"] := by rw [← hg]; rfl
  have hpar : g.params = [] := by rw [← hg]; rfl
  have hx : Name (b! "x") := ⟨⟨_, _, rfl, by decide, by simp [NameChar, Alnum]⟩, by decide⟩
  have htw : Name (b! "twice") := ⟨⟨116, b! "wice", rfl, by decide, by
    intro x hx; simp at hx; unfold NameChar; rcases hx with rfl | rfl | rfl | rfl <;> decide⟩, by decide⟩
  have nb : Blanks [32] := by intro c hc; simp at hc; subst hc; simp
  have nn : Blanks [] := by intro c hc; simp at hc
  have an : Argument (b! "n") := spec_argument _ (by decide) (by decide)
  have ax : Argument (b! "x+3") := spec_argument _ (by decide) (by decide)
  have f1 : DefinesFunction g [] [] (b! "twice") [b! "n"] (b! " n*2+1") := by
    refine ⟨htw, ?_, ?_, ?_, by simp, by decide, by decide, lineText_of_plain _ (by decide), fun h => absurd rfl h⟩
    · rw [hkey]; decide
    · rw [hpar]; simp
    · rw [hkey, hdef]; decide
  have f2 : FunctionWritten (b! "twice") [b! "n"] (b! " n*2+1") [] (b! "#define twice(n) n*2+1") :=
    ⟨[], b! "define", 32, [], b! "n", rfl, nn, by decide, .inl rfl, nn, .inl (.one [] (b! "n") [] nn nn an (by decide))⟩
  generalize htx : ([(b! "twice", some ([b! "n"], b! " n*2+1"))] : Texts) = tx
  -- the operand
  have hfun : (g.scope [(b! "x", 0)] tx 0).func (b! "twice") = some ([b! "n"], [32] ++ b! "n*2+1" ++ []) := by
    rw [← htx, ← hg]; rfl
  have hbody : FunDenotes ((g.scope [(b! "x", 0)] tx 0).bind [b! "n"] [3]) 0 (b! "n*2+1") 7 :=
    .join _ 0 (b! "n*2") 6 [] .add [43] [] (b! "1") 1 7
      (.join _ 0 (b! "n") 3 [] .mul [42] [] (b! "2") 2 6 (.one _ _ _ _ (.plain _ _ _ _ (fun_label _ 0 110 3 (by omega) (by rw [← hg]; rfl)))) nn nn
        (by decide) (by simp) (.plain _ _ _ _ (fun_digit _ 0 50 (by omega))) (by decide)) nn nn
      (by decide) (by simp) (.plain _ _ _ _ (fun_digit _ 0 49 (by omega))) (by decide)
  have hargs : FunArgs (g.scope [(b! "x", 0)] tx 0) 0 [] [b! "n"] [b! "x+3"] [3] := by
    refine .cons _ _ _ _ _ _ _ 3 _ ?_ (by omega) (by omega) (.nil _ _ _)
    exact .join _ 0 (b! "x") 0 [] .add [43] [] (b! "3") 3 3 (.one _ _ _ _ (.plain _ _ _ _ (fun_label _ 0 120 0 (by omega) (by rw [← hg]; rfl)))) nn nn
      (by decide) (by simp) (.plain _ _ _ _ (fun_digit _ 0 51 (by omega))) (by decide)
  have hcall : FunOperand (g.scope [(b! "x", 0)] tx 0) 1 (b! "twice(x+3)") 7 :=
    .call _ 0 (b! "twice") [b! "n"] [b! "x+3"] (b! "x+3") [3] [32] (b! "n*2+1") [] 7 htw (by decide) hfun nb nn
      ⟨by simp, by decide, by
        intro p hp
        show g.key p ≠ _ ∧ g.key p ≠ _
        rw [hkey]
        revert p
        decide⟩ (.one [] (b! "x+3") [] nn nn ax (by decide)) hargs hbody
  have hden : FunDenotes (g.scope [(b! "x", 0)] tx 0) 1 (b! "1+twice(x+3)") 8 :=
    .join _ 1 (b! "1") 1 [] .add [43] [] (b! "twice(x+3)") 7 8 (.one _ _ _ _ (.plain _ _ _ _ (fun_digit _ 1 49 (by omega)))) nn nn
      (by decide) (by simp) (.plain _ _ _ _ hcall) (by decide)
  have l1 : Stmt g [] tx 0 (b! "x: .db 1+twice(x+3)") [(b! "x", 0)] [8] 1 :=
    .label (b! "x") [58] (b! " .db 1+twice(x+3)") _ _ hx (.inl rfl)
      (.data [32] (b! ".db") 1 32 [b! "1+twice(x+3)"] (b! "1+twice(x+3)") [8] nb (by decide) (.inl rfl)
        (.one [] (b! "1+twice(x+3)") [] nn nn (argument_fun hden) (by decide))
        (.now 0 _ 8 _ [] (.calls 1 hden (by omega)) (by rw [hez]; decide) (.nil _)))
  refine .whole _ _ _ _ _ _ _ _ (.func [] [] 0 (b! "twice") [b! "n"] (b! " n*2+1") (b! "#define twice(n) n*2+1") [] [10] (b! "x: .db 1+twice(x+3)\n") _ _ _ _ f1 f2
    (.inl rfl) (.inl rfl) ?_)
  rw [htx]
  exact .stmts _ _ _ (b! "x: .db 1+twice(x+3)") [] [10] _ _ _ [] [] [] _ _ (.one _ _ _ _ _ _ l1 (by decide)) (.inl rfl) (.inl rfl) (.nil _ _ _)

example (md5 : List Nat → List Nat) (fs : Str → Option (List Nat)) (mem rand : Nat → Nat) (cwd : Str)
    (h : fs (b! "a.asm") = some (b! "#define twice(n) n*2+1\nx: .db 1+twice(x+3)\n")) :
    ∃ K, ∀ fuel, K ≤ fuel → ∃ s, spasm fuel md5 fs mem rand cwd [b! "a.asm"] = .ok 0 s ∧ s.log = [.wrote (b! "a.bin") [8]] :=
  C54_assembles_partial md5 fs mem rand cwd [b! "a.asm"] [.file (b! "a.asm")] (.file _ _ _ _ (by decide) .nil)
    (by intro c hc; simp at hc) (b! "a.asm") rfl _ (.inr ⟨rfl, _, h, by decide, .inl ⟨rfl, by decide, by decide⟩⟩) [cwd] (current_a cwd) _ _ _ 4 (by decide) _
    (sample_function fs cwd) (by decide) ⟨b! "a", b! "bin", by decide, by decide, by decide, by decide⟩

/-- The value of a call, in the setting of the following samples. -/
theorem twice_worth (fs : Str → Option (List Nat)) (cwd : Str) (label : Str → Option Int) (known : Defs) (pc c : Nat) (v : Int) (hc : 48 ≤ c ∧ c ≤ 51)
    (hv : v = 2 * ((c : Int) - 48) + 1) :
    Worth (settingFor [.file (b! "a.asm")] fs [cwd] label [b! "TWICE"] [] 4) known [(b! "twice", some ([b! "n"], b! " n*2+1"))] pc (b! "twice(" ++ [c] ++ [41]) v := by
  generalize hg : settingFor [.file (b! "a.asm")] fs [cwd] label [b! "TWICE"] [] 4 = g
  have hkey : ∀ w, g.key w = w.map upperCase := by intro w; rw [← hg]; rfl
  have hdepth : g.depth = 4 := by rw [← hg]; rfl
  have htw : Name (b! "twice") := ⟨⟨116, b! "wice", rfl, by decide, by
    intro x hx; simp at hx; unfold NameChar; rcases hx with rfl | rfl | rfl | rfl <;> decide⟩, by decide⟩
  have nb : Blanks [32] := by intro c hc; simp at hc; subst hc; simp
  have nn : Blanks [] := by intro c hc; simp at hc
  generalize htx : ([(b! "twice", some ([b! "n"], b! " n*2+1"))] : Texts) = tx
  subst hv
  have hfun : (g.scope known tx pc).func (b! "twice") = some ([b! "n"], [32] ++ b! "n*2+1" ++ []) := by
    rw [← htx, ← hg]; rfl
  have hbody : FunDenotes ((g.scope known tx pc).bind [b! "n"] [(c : Int) - 48]) 0 (b! "n*2+1") (2 * ((c : Int) - 48) + 1) := by
    refine .join _ 0 (b! "n*2") (2 * ((c : Int) - 48)) [] .add [43] [] (b! "1") 1 _
      (.join _ 0 (b! "n") ((c : Int) - 48) [] .mul [42] [] (b! "2") 2 _ (.one _ _ _ _ (.plain _ _ _ _ (fun_label _ 0 110 _ (by omega) (by rw [← hg]; rfl)))) nn nn
        (by decide) (by simp) (.plain _ _ _ _ (fun_digit _ 0 50 (by omega))) ?_) nn nn
      (by decide) (by simp) (.plain _ _ _ _ (fun_digit _ 0 49 (by omega))) ?_
    · obtain ⟨h1, h2⟩ := hc
      interval_cases c <;> decide
    · obtain ⟨h1, h2⟩ := hc
      interval_cases c <;> decide
  have hargs : FunArgs (g.scope known tx pc) 0 [] [b! "n"] [[c]] [(c : Int) - 48] := by
    have hd := fun_digit ((g.scope known tx pc).without []) 0 c (by omega)
    rw [show ((c - 48 : Nat) : Int) = (c : Int) - 48 by omega] at hd
    exact .cons _ _ _ _ _ _ _ _ _ (.one _ _ _ _ (.plain _ _ _ _ hd)) (by omega) (by omega) (.nil _ _ _)
  refine .calls 1 (.one _ _ _ _ (.plain _ _ _ _ (.call _ 0 (b! "twice") [b! "n"] [[c]] [c] [(c : Int) - 48] [32] (b! "n*2+1") [] _ htw (by decide) hfun nb nn
    ⟨by simp, by simp, ?_⟩ (.one [] [c] [] nn nn ?_ (by simp)) hargs hbody))) (by omega)
  · intro p hp
    show g.key p ≠ _ ∧ g.key p ≠ _
    rw [hkey]
    revert p
    decide
  · obtain ⟨h1, h2⟩ := hc
    interval_cases c <;> exact spec_argument _ (by decide) (by decide)

/-- Calls in an equate, in the operands of a fill and in a condition. -/
theorem sample_function_uses (fs : Str → Option (List Nat)) (cwd : Str) : Assembles (settingFor [.file (b! "a.asm")] fs [cwd]
    (fun w => ([(b! "x", 7)].find? (fun p : Str × Int => decide (p.1.map upperCase = w.map upperCase))).map (·.2)) [b! "TWICE"] [] 4)
    (b! "#define twice(n) n*2+1\nx = twice(3)\n#if twice(0)\n .fill twice(0),twice(3)\n#endif\n") [7] := by
  refine ⟨[(b! "x", 7)], 1, [(b! "twice", some ([b! "n"], b! " n*2+1"))], ?_, rfl, ?_, ?_, (by intro w hw; cases hw), (by intro p hp; cases hp)⟩
  rotate_left
  · show (([(b! "x", 7)] : Defs).map (fun p => p.1.map upperCase)).Nodup
    decide
  · show ∀ p ∈ ([(b! "x", 7)] : Defs), p.1.map upperCase ∉ predefinedNames ∧ p.1.map upperCase ∉ ([b! "TWICE"] : List Str) ∧ 0 ≤ p.2 ∧ p.2 ≤ 999999999
    decide
  show Program _ [] [] _ _ _ _ _ _
  generalize hg : (settingFor [.file (b! "a.asm")] fs [cwd]
    (fun w => ([(b! "x", 7)].find? (fun p : Str × Int => decide (p.1.map upperCase = w.map upperCase))).map (·.2)) [b! "TWICE"] [] 4) = g
  have hkey : ∀ w, g.key w = w.map upperCase := by intro w; rw [← hg]; rfl
  have hdepth : g.depth = 4 := by rw [← hg]; rfl
  have hdef : g.defined = [b! "TWICE"] := by rw [← hg]; rfl
  have hpar : g.params = [] := by rw [← hg]; rfl
  have hx : Name (b! "x") := ⟨⟨_, _, rfl, by decide, by simp [NameChar, Alnum]⟩, by decide⟩
  have htw : Name (b! "twice") := ⟨⟨116, b! "wice", rfl, by decide, by
    intro x hx; simp at hx; unfold NameChar; rcases hx with rfl | rfl | rfl | rfl <;> decide⟩, by decide⟩
  have nb : Blanks [32] := by intro c hc; simp at hc; subst hc; simp
  have nn : Blanks [] := by intro c hc; simp at hc
  have an : Argument (b! "n") := spec_argument _ (by decide) (by decide)
  have f1 : DefinesFunction g [] [] (b! "twice") [b! "n"] (b! " n*2+1") := by
    refine ⟨htw, ?_, ?_, ?_, by simp, by decide, by decide, lineText_of_plain _ (by decide), fun h => absurd rfl h⟩
    · rw [hkey]; decide
    · rw [hpar]; simp
    · rw [hkey, hdef]; decide
  have f2 : FunctionWritten (b! "twice") [b! "n"] (b! " n*2+1") [] (b! "#define twice(n) n*2+1") :=
    ⟨[], b! "define", 32, [], b! "n", rfl, nn, by decide, .inl rfl, nn, .inl (.one [] (b! "n") [] nn nn an (by decide))⟩
  generalize htx : ([(b! "twice", some ([b! "n"], b! " n*2+1"))] : Texts) = tx
  have call : ∀ (known : Defs) (c : Nat) (v : Int), 48 ≤ c ∧ c ≤ 51 → v = 2 * ((c : Int) - 48) + 1 → Worth g known tx 0 (b! "twice(" ++ [c] ++ [41]) v := by
    intro known c v hc hv
    rw [← hg, ← htx]
    exact twice_worth fs cwd _ known 0 c v hc hv
  have c0 : ∀ known, Worth g known tx 0 (b! "twice(0)") 1 := fun known => call known 48 1 (by omega) (by omega)
  have c3 : ∀ known, Worth g known tx 0 (b! "twice(3)") 7 := fun known => call known 51 7 (by omega) (by omega)
  have l1 : Stmt g [] tx 0 (b! "x = twice(3)") [(b! "x", 7)] [] 0 :=
    .assign (b! "x") [] [32] [32] (b! "twice(3)") [] 7 hx (.inr ⟨rfl, by intro c hc; simp at hc; subst hc; unfold NameChar Alnum; omega⟩) nb nb nn (by decide) (c3 _)
  have l2 : Stmt g [(b! "x", 7)] tx 0 (b! " .fill twice(0),twice(3)") [] [7] 1 :=
    .plain _ _ _ (.fill [32] (b! ".fill") 32 [] (b! "twice(0)") [] (b! ",twice(3)") 1 7 nb (by decide) (.inl rfl) nn nn (by decide) (c0 _)
      (.inr ⟨[], b! "twice(3)", [], rfl, nn, nn, by decide, c3 _⟩) (by decide))
  have plain : ∀ t : Str, (∀ c ∈ t, c ∉ [10, 13, 34, 39, 59, 92]) → CodeText t := by
    intro t ht
    induction t with
    | nil => exact .nil
    | cons c t ih =>
      have := ht c (by simp)
      simp at this
      exact .char c t (by omega) (ih fun x hx => ht x (by simp [hx]))
  have g1 : Group (Condition g [(b! "x", 7)] tx 0) (b! "#if") (b! "#if twice(0)\n .fill twice(0),twice(3)\n#endif\n") (b! " .fill twice(0),twice(3)\n") :=
    .yes _ _ _ _ _ (clauseLine_plain (b! "#if") (b! "twice(0)") (by decide) (plain _ (by decide)) (by decide))
      (.value (b! "#if") (b! "twice(0)") [] 1 (by decide) (c0 _) nn)
      (branch_plain [(b! " .fill twice(0),twice(3)", [])] (by decide) (by decide))
      (.endif _ (wordLine_plain (b! "#endif")))
  refine .whole _ _ _ _ _ _ _ _ (.func [] [] 0 (b! "twice") [b! "n"] (b! " n*2+1") (b! "#define twice(n) n*2+1") [] [10]
    (b! "x = twice(3)\n#if twice(0)\n .fill twice(0),twice(3)\n#endif\n") _ _ _ _ f1 f2 (.inl rfl) (.inl rfl) ?_)
  rw [htx]
  refine .stmts _ _ _ (b! "x = twice(3)") [] [10] _ _ _ (b! "#if twice(0)\n .fill twice(0),twice(3)\n#endif\n") [] [7] _ _ (.one _ _ _ _ _ _ l1 (by decide)) (.inl rfl) (.inl rfl) ?_
  exact .group _ _ _ _ _ _ _ _ _ _ [] _ _ _ _ g1 (by decide)
    (.stmts _ _ _ (b! " .fill twice(0),twice(3)") [] [10] _ _ _ [] [] [] _ _ (.one _ _ _ _ _ _ l2 (by decide)) (.inl rfl) (.inl rfl) (.nil _ _ _)) (.nil _ _ _)

example (md5 : List Nat → List Nat) (fs : Str → Option (List Nat)) (mem rand : Nat → Nat) (cwd : Str)
    (h : fs (b! "a.asm") = some (b! "#define twice(n) n*2+1\nx = twice(3)\n#if twice(0)\n .fill twice(0),twice(3)\n#endif\n")) :
    ∃ K, ∀ fuel, K ≤ fuel → ∃ s, spasm fuel md5 fs mem rand cwd [b! "a.asm"] = .ok 0 s ∧ s.log = [.wrote (b! "a.bin") [7]] :=
  C54_assembles_partial md5 fs mem rand cwd [b! "a.asm"] [.file (b! "a.asm")] (.file _ _ _ _ (by decide) .nil)
    (by intro c hc; simp at hc) (b! "a.asm") rfl _ (.inr ⟨rfl, _, h, by decide, .inl ⟨rfl, by decide, by decide⟩⟩) [cwd] (current_a cwd) _ _ _ 4 (by decide) _
    (sample_function_uses fs cwd) (by decide) ⟨b! "a", b! "bin", by decide, by decide, by decide, by decide⟩

/-- A call in the operand of an instruction. -/
theorem sample_function_code (fs : Str → Option (List Nat)) (cwd : Str) : Assembles (settingFor [.file (b! "a.asm")] fs [cwd] (fun _ => none) [b! "TWICE"] [] 4)
    (b! "#define twice(n) n*2+1\n djnz twice(3)\n") [0x10, 5] := by
  refine ⟨[], 2, [(b! "twice", some ([b! "n"], b! " n*2+1"))], ?_, rfl, (by simp), (by intro p hp; cases hp), (by intro w hw; cases hw), (by intro p hp; cases hp)⟩
  show Program _ [] [] _ _ _ _ _ _
  have c3 := twice_worth fs cwd (fun _ => none) [] 0 51 7 (by omega) (by omega)
  generalize hg : (settingFor [.file (b! "a.asm")] fs [cwd] (fun _ => none) [b! "TWICE"] [] 4) = g at *
  have hkey : ∀ w, g.key w = w.map upperCase := by intro w; rw [← hg]; rfl
  have hez : g.ez80 = false := by rw [← hg]; rfl
  have hdef : g.defined = [b! "TWICE"] := by rw [← hg]; rfl
  have hpar : g.params = [] := by rw [← hg]; rfl
  have htw : Name (b! "twice") := ⟨⟨116, b! "wice", rfl, by decide, by
    intro x hx; simp at hx; unfold NameChar; rcases hx with rfl | rfl | rfl | rfl <;> decide⟩, by decide⟩
  have nb : Blanks [32] := by intro c hc; simp at hc; subst hc; simp
  have nn : Blanks [] := by intro c hc; simp at hc
  have an : Argument (b! "n") := spec_argument _ (by decide) (by decide)
  have f1 : DefinesFunction g [] [] (b! "twice") [b! "n"] (b! " n*2+1") := by
    refine ⟨htw, ?_, ?_, ?_, by simp, by decide, by decide, lineText_of_plain _ (by decide), fun h => absurd rfl h⟩
    · rw [hkey]; decide
    · rw [hpar]; simp
    · rw [hkey, hdef]; decide
  have f2 : FunctionWritten (b! "twice") [b! "n"] (b! " n*2+1") [] (b! "#define twice(n) n*2+1") :=
    ⟨[], b! "define", 32, [], b! "n", rfl, nn, by decide, .inl rfl, nn, .inl (.one [] (b! "n") [] nn nn an (by decide))⟩
  have bal : ∀ dl i, (∀ c ∈ dl, c = 44) → Balanced dl i (b! "twice(3)") := by
    intro dl i hdl
    have : ∀ t : Str, (∀ c ∈ t, Ordinary c ∧ c ≠ 44) → ∀ i, Balanced dl i t := by
      intro t
      induction t with
      | nil => intro _ i; exact .nil _
      | cons c t ih =>
        intro h i
        exact .char _ c t (h c (by simp)).1 (fun _ hc => (h c (by simp)).2 (hdl c hc)) (ih (fun x hx => h x (by simp [hx])) i)
    exact balanced_append (a := b! "twice") (this _ (by unfold Ordinary; decide) _) (.paren _ (b! "3") [] (this _ (by unfold Ordinary; decide) _) (.nil _))
  have acall : Argument (b! "twice(3)") := ⟨bal _ _ (by simp), by decide, by decide, by decide⟩
  have scan : Scannable (b! "twice(3)") := by
    refine ⟨bal _ _ (by simp), fun a b => ⟨fun h => ?_, fun h => ?_⟩, by decide⟩
    · have : 44 ∈ b! "twice(3)" := by rw [h]; simp
      revert this; decide
    · have : 44 ∈ b! "twice(3)" := by rw [h]; simp
      revert this; decide
  have hfit : Spec.Fits [37] (b! "twice(3)") [b! "twice(3)"] :=
    .operand 37 (b! "twice(3)") [] [] [] [] (by decide) acall.1 acall.2 nn (.inl rfl) (by intro h; cases h) .done
  have entries : entriesOf (b! "djnz") g.opcodes = [⟨[37], [0x10], false, 0, 2, 8, 13, 0⟩] := by
    have : g.opcodes = z80Table := by rw [← hg]; rfl
    rw [this]
    decide +kernel
  have l1 : Stmt g [] [(b! "twice", some ([b! "n"], b! " n*2+1"))] 0 (b! " djnz twice(3)") [] [0x10, 5] 2 := by
    refine (.plain _ _ _ (.code [32] (b! "djnz") [] [32] (b! "twice(3)") [] false ⟨[37], [0x10], false, 0, 2, 8, 13, 0⟩ [b! "twice(3)"] [7] [0x10, 5]
      (by decide) nb ⟨⟨_, _, rfl, by decide⟩, by decide⟩ (.inl ⟨rfl, rfl, hez.symm⟩) nb ?_ ?_ ?_ ?_ ?_ (by decide)
      (.inl (.operand _ _ _ _ _ _ (by decide) (by decide) c3 .nil)) (by rw [hez]; decide +kernel) (by rw [hez]; decide)))
    · intro c hc; cases hc; unfold NameChar Alnum; omega
    · intro c hc; cases hc; decide
    · rw [entries]
      intro j hj
      simp only [List.mem_singleton] at hj
      subst hj
      exact ⟨⟨by decide, by decide⟩, .inl ⟨scan, by decide, by decide⟩⟩
    · exact ⟨[], [], by rw [entries]; rfl, hfit, by simp⟩
    · exact ⟨⟨by decide, by decide⟩, by decide, by decide, by decide, by decide, by decide⟩
  refine .whole _ _ _ _ _ _ _ _ (.func [] [] 0 (b! "twice") [b! "n"] (b! " n*2+1") (b! "#define twice(n) n*2+1") [] [10]
    (b! " djnz twice(3)\n") _ _ _ _ f1 f2 (.inl rfl) (.inl rfl) ?_)
  exact .stmts _ _ _ (b! " djnz twice(3)") [] [10] _ _ _ [] [] [] _ _ (.one _ _ _ _ _ _ l1 (by decide)) (.inl rfl) (.inl rfl) (.nil _ _ _)

example (md5 : List Nat → List Nat) (fs : Str → Option (List Nat)) (mem rand : Nat → Nat) (cwd : Str)
    (h : fs (b! "a.asm") = some (b! "#define twice(n) n*2+1\n djnz twice(3)\n")) :
    ∃ K, ∀ fuel, K ≤ fuel → ∃ s, spasm fuel md5 fs mem rand cwd [b! "a.asm"] = .ok 0 s ∧ s.log = [.wrote (b! "a.bin") [0x10, 5]] :=
  C54_assembles_partial md5 fs mem rand cwd [b! "a.asm"] [.file (b! "a.asm")] (.file _ _ _ _ (by decide) .nil)
    (by intro c hc; simp at hc) (b! "a.asm") rfl _ (.inr ⟨rfl, _, h, by decide, .inl ⟨rfl, by decide, by decide⟩⟩) [cwd] (current_a cwd) _ _ _ 4 (by decide) _
    (sample_function_code fs cwd) (by decide) ⟨b! "a", b! "bin", by decide, by decide, by decide, by decide⟩

/-- A call in the argument of a macro. -/
theorem sample_function_passed (fs : Str → Option (List Nat)) (cwd : Str) : Assembles (settingFor [.file (b! "a.asm")] fs [cwd] (fun _ => none) [b! "TWICE", b! "PUT", b! "M"] [b! "M"] 4)
    (b! "#define twice(n) n*2+1\n#macro put(m)\n .db m\n#endmacro\n put(twice(3))\n") [7] := by
  refine ⟨[], 1, [(b! "put", some ([b! "m"], b! " .db m\n")), (b! "twice", some ([b! "n"], b! " n*2+1"))], ?_, rfl, (by simp), (by intro p hp; cases hp), ?_, (by intro p hp; cases hp)⟩
  rotate_left
  · show ∀ w ∈ ([b! "M"] : List Str), w ∈ ([b! "TWICE", b! "PUT", b! "M"] : List Str) ∧ w ∉ predefinedNames
    decide
  show Program _ [] [] _ _ _ _ _ _
  generalize hg : (settingFor [.file (b! "a.asm")] fs [cwd] (fun _ => none) [b! "TWICE", b! "PUT", b! "M"] [b! "M"] 4) = g
  have hkey : ∀ w, g.key w = w.map upperCase := by intro w; rw [← hg]; rfl
  have hdepth : g.depth = 4 := by rw [← hg]; rfl
  have hez : g.ez80 = false := by rw [← hg]; rfl
  have hdef : g.defined = [b! "TWICE", b! "PUT", b! "M"] := by rw [← hg]; rfl
  have hpar : g.params = [b! "M"] := by rw [← hg]; rfl
  have hop : g.opcodes = z80Table := by rw [← hg]; rfl
  have hm : Name (b! "m") := ⟨⟨_, _, rfl, by decide, by simp [NameChar, Alnum]⟩, by decide⟩
  have htw : Name (b! "twice") := ⟨⟨116, b! "wice", rfl, by decide, by
    intro x hx; simp at hx; unfold NameChar; rcases hx with rfl | rfl | rfl | rfl <;> decide⟩, by decide⟩
  have hput : Name (b! "put") := ⟨⟨112, b! "ut", rfl, by decide, by
    intro x hx; simp at hx; unfold NameChar; rcases hx with rfl | rfl <;> decide⟩, by decide⟩
  have nb : Blanks [32] := by intro c hc; simp at hc; subst hc; simp
  have nb2 : Blanks [32, 32] := by intro c hc; simp at hc; subst hc; simp
  have nn : Blanks [] := by intro c hc; simp at hc
  have an : Argument (b! "n") := spec_argument _ (by decide) (by decide)
  have am : Argument (b! "m") := spec_argument _ (by decide) (by decide)
  have a3 : Argument (b! "3") := spec_argument _ (by decide) (by decide)
  -- the definitions
  have f1 : DefinesFunction g [] [] (b! "twice") [b! "n"] (b! " n*2+1") := by
    refine ⟨htw, ?_, ?_, ?_, by simp, by decide, by decide, lineText_of_plain _ (by decide), fun h => absurd rfl h⟩
    · rw [hkey]; decide
    · rw [hkey, hpar]; decide
    · rw [hkey, hdef]; decide
  have f2 : FunctionWritten (b! "twice") [b! "n"] (b! " n*2+1") [] (b! "#define twice(n) n*2+1") :=
    ⟨[], b! "define", 32, [], b! "n", rfl, nn, by decide, .inl rfl, nn, .inl (.one [] (b! "n") [] nn nn an (by decide))⟩
  have m1 : MakesMacro g (b! "put") [b! "m"] := by
    refine ⟨hput, ?_, ?_, ?_, by simp, by decide⟩
    · rw [hkey]; decide
    · rw [hkey, hpar]; decide
    · rw [hkey, hdef]; decide
  have m2 : MacroLine (b! "put") [b! "m"] (b! "#macro put(m)\n") :=
    ⟨[], b! "macro", 32, [], b! "(m)", [10], rfl, nn, by decide, .inl rfl, nn, .list [] _ (b! "m") [] nn (.one [] (b! "m") [] nn nn am (by decide)), by decide, .inl rfl⟩
  have m3 : MacroBody (b! " .db m\n") := ⟨_, lines_plain [(b! " .db m", [])] (by decide), nesting_depth _ (by decide) _ _ _ (by decide)⟩
  have m4 : EndMacro (b! "#endmacro") := ⟨[], _, [], rfl, nn, rfl, nn⟩
  generalize htx : ([(b! "put", some ([b! "m"], b! " .db m\n")), (b! "twice", some ([b! "n"], b! " n*2+1"))] : Texts) = tx
  -- the argument
  have hfun : ((g.scope [] tx 0).without []).func (b! "twice") = some ([b! "n"], [32] ++ b! "n*2+1" ++ []) := by
    rw [← htx, ← hg]; rfl
  have hbody : FunDenotes (((g.scope [] tx 0).without []).bind [b! "n"] [3]) 0 (b! "n*2+1") 7 :=
    .join _ 0 (b! "n*2") 6 [] .add [43] [] (b! "1") 1 7
      (.join _ 0 (b! "n") 3 [] .mul [42] [] (b! "2") 2 6 (.one _ _ _ _ (.plain _ _ _ _ (fun_label _ 0 110 3 (by omega) (by rw [← hg]; rfl)))) nn nn
        (by decide) (by simp) (.plain _ _ _ _ (fun_digit _ 0 50 (by omega))) (by decide)) nn nn
      (by decide) (by simp) (.plain _ _ _ _ (fun_digit _ 0 49 (by omega))) (by decide)
  have hargs : FunArgs ((g.scope [] tx 0).without []) 0 [] [b! "n"] [b! "3"] [3] :=
    .cons _ _ _ _ _ _ _ 3 _ (.one _ _ _ _ (.plain _ _ _ _ (fun_digit _ 0 51 (by omega)))) (by omega) (by omega) (.nil _ _ _)
  have hcall : FunDenotes ((g.scope [] tx 0).without []) 1 (b! "twice(3)") 7 :=
    .one _ _ _ _ (.plain _ _ _ _ (.call _ 0 (b! "twice") [b! "n"] [b! "3"] (b! "3") [3] [32] (b! "n*2+1") [] 7 htw (by decide) hfun nb nn
      ⟨by simp, by decide, by
        intro p hp
        show g.key p ≠ _ ∧ g.key p ≠ _
        rw [hkey]
        revert p
        decide⟩ (.one [] (b! "3") [] nn nn a3 (by decide)) hargs hbody))
  -- the call
  have c1 : Callable g (b! "put") [b! "m"] := by
    refine ⟨hput, ?_, ?_, ?_, ?_, by decide, by simp, ?_⟩
    · rw [hkey]; decide
    · rw [hkey, hpar]; decide
    · rw [hop]; decide +kernel
    · rw [hez]; intro h; cases h
    · intro p hp
      rw [hkey, hpar]
      simp at hp
      subst hp
      exact ⟨hm, by decide⟩
  have c2 : CallText (b! "put") [b! "twice(3)"] (b! " put(twice(3))") :=
    .args [32] _ (b! "twice(3)") nb (.one [] (b! "twice(3)") [] nn nn (argument_fun hcall) (by decide))
  have c3 : InOrder (CallArg g [] tx 0) [] [b! "m"] [b! "twice(3)"] [some 7] :=
    .cons _ _ _ _ _ _ _ (.calls 1 _ 7 hcall (by omega) (by omega)) (.nil _)
  -- the lines of the macro
  have hps : passedTexts [b! "m"] [b! "twice(3)"] [some 7] = [(b! "m", some ([], b! "$7"))] := by
    have e : numberText 7 = b! "$7" := by unfold numberText; rw [hexDigits]; rfl
    show [(b! "m", some ([], numberText 7))] = _
    rw [e]
  have h7 : ∀ labels, Atom (asInt32 0) labels (b! "$7") 7 := by
    intro labels
    exact Atom.literal (pc := asInt32 0) (label := labels) 16 [55] [36, 55] ⟨by simp, by intro x hx; simp at hx; subst hx; unfold Alnum; omega, .inl ⟨rfl, rfl, ⟨7, rfl, by omega⟩⟩⟩
      (by intro x hx; simp at hx; subst hx; exact ⟨7, rfl, by omega⟩) (by decide)
  have tm : g.text (passedTexts [b! "m"] [b! "twice(3)"] [some 7] ++ tx) (b! "m") = some (b! "$7") := by rw [hps, ← hg]; rfl
  have l2 : Stmt g [] (passedTexts [b! "m"] [b! "twice(3)"] [some 7] ++ tx) 0 (b! "  .db m") [] [7] 1 :=
    .plain _ _ _ (.data [32, 32] (b! ".db") 1 32 [b! "m"] (b! "m") [7] nb2 (by decide) (.inl rfl) (.one [] (b! "m") [] nn nn am (by decide))
      (.now 0 _ 7 _ [] (.plain 1 (.one 1 _ _ (.plain 1 _ _ (.named 0 _ [] (b! "$7") [] _ hm (by simpa using tm) nn nn (.one 0 _ _ (.plain 0 _ _ (.atom _ _ (h7 _)))))))
        (by omega)) (by rw [hez]; decide) (.nil _)))
  have p2 : Program g [] (passedTexts [b! "m"] [b! "twice(3)"] [some 7] ++ tx) 0 (b! "  .db m\n") [] [7] 1
      ([] ++ (passedTexts [b! "m"] [b! "twice(3)"] [some 7] ++ tx)) :=
    .whole _ _ _ _ _ _ _ _ (.stmts _ _ _ (b! "  .db m") [] [10] _ _ _ [] _ _ _ _ (.one _ _ _ _ _ _ l2 (by decide)) (.inl rfl) (.inl rfl) (.nil _ _ _))
  have r1 : Clause g [] tx 0 (b! " put(twice(3))") [] [7] 1 tx :=
    .call _ _ _ (b! "put") _ _ _ (b! " put(twice(3))") _ [] [] _ _ [] (by rw [← htx, ← hg]; rfl) c1 c2 c3 nn p2
  refine .whole _ _ _ _ _ _ _ _ (.func [] [] 0 (b! "twice") [b! "n"] (b! " n*2+1") (b! "#define twice(n) n*2+1") [] [10]
    (b! "#macro put(m)\n .db m\n#endmacro\n put(twice(3))\n") _ _ _ _ f1 f2 (.inl rfl) (.inl rfl) ?_)
  refine .macro _ _ _ (b! "put") _ _ (b! " .db m\n") (b! "#endmacro") [] [10] (b! " put(twice(3))\n") _ _ _ _ m1 m2 m3 m4 (.inl rfl) (.inl rfl) ?_
  rw [htx]
  exact .line _ _ _ (b! " put(twice(3))") [] [10] _ _ _ _ [] [] [] _ _ (.one _ _ _ _ _ _ _ _ r1) (.inl rfl) (.inl rfl) (.nil _ _ _)

example (md5 : List Nat → List Nat) (fs : Str → Option (List Nat)) (mem rand : Nat → Nat) (cwd : Str)
    (h : fs (b! "a.asm") = some (b! "#define twice(n) n*2+1\n#macro put(m)\n .db m\n#endmacro\n put(twice(3))\n")) :
    ∃ K, ∀ fuel, K ≤ fuel → ∃ s, spasm fuel md5 fs mem rand cwd [b! "a.asm"] = .ok 0 s ∧ s.log = [.wrote (b! "a.bin") [7]] :=
  C54_assembles_partial md5 fs mem rand cwd [b! "a.asm"] [.file (b! "a.asm")] (.file _ _ _ _ (by decide) .nil)
    (by intro c hc; simp at hc) (b! "a.asm") rfl _ (.inr ⟨rfl, _, h, by decide, .inl ⟨rfl, by decide, by decide⟩⟩) [cwd] (current_a cwd) _ _ _ 4 (by decide) _
    (sample_function_passed fs cwd) (by decide) ⟨b! "a", b! "bin", by decide, by decide, by decide, by decide⟩

end Spasm.Props
