import Verif.Lemmas.Calls

/-
C56: calls of functions anywhere in an expression.
-/

namespace Spasm.Props

open Spasm.Spec

/-- C56: an expression with calls of functions anywhere (as operands, in parentheses, in the arguments and in the texts of other
functions, and in the texts of names) has the value that the specification gives it: that of the text of each function with the
values of the arguments for its parameters. Nothing else in the state changes, except the counter of nested evaluations, which
each evaluation sets anew.
Missing: functions named like built-in ones and arguments that mention earlier parameters, for which the property is false
(`C56_built_in_name`, `C56_arguments_see_parameters`), arguments without value, and expressions nested more than 18 deep. -/
theorem C56_nested_partial (s : S) (depth n : Nat) (b t b' rest : Str) (v : Int) (h : FunDenotes (scopeOf s) depth t v) (hs : Settled s)
    (hD : depth ≤ 18) (hn : depth + 2 < n) (hb : Blanks b) (hb' : Blanks b') (hrest : AtEnd rest) :
    ∃ p, parseNum (knot n) (b ++ t ++ b' ++ rest) s = .ok (some v) { s with parseDepth := p, fwdRef := false } := by
  obtain ⟨p, -, h⟩ := evalFun_value h (evalFun h) s (shows_scopeOf s) hs n b b' rest hD hn hb hb' hrest
  exact ⟨p, h⟩

/-! ### Functions that call each other -/

/-- A state in which `z` is 3, `f(x,y)` is `x*2+y` and `g(x)` is `(f(x,1)+z)*2`. -/
def withFunctions : S :=
  { (asm (b! "z = 3\n#define f(x,y) x*2+y\n#define g(x) (f(x,1)+z)*2\n") [b! "a.asm"]).state with
    session := 1, errors := [], pc := 0x9D95, argSets := [], errOccurred := false }

theorem fun_digit (E : Scope) (d c : Nat) (h : 48 ≤ c ∧ c ≤ 57) : FunOperand E d [c] ((c - 48 : Nat) : Int) := by
  have := spec_digit (pc := E.pc) (label := E.label) (text := E.text) c h
  cases this with
  | atom t v h => exact .atom E d _ _ h

theorem fun_label (E : Scope) (d c : Nat) (v : Int) (hc : 97 ≤ c ∧ c ≤ 122) (h : E.label [c] = some v) : FunOperand E d [c] v :=
  .atom E d _ _ (.label [c] v ⟨⟨c, [], rfl, by omega, by simp⟩, by simp; omega⟩ h)

/-- `x*2+y` where `x` and `y` have values. -/
theorem fun_twice (E : Scope) (d : Nat) (x y w z : Int) (hx : E.label (b! "x") = some x) (hy : E.label (b! "y") = some y)
    (h1 : binary .mul x 2 = some w) (h2 : binary .add w y = some z) : FunDenotes E d (b! "x*2+y") z :=
  .join E d (b! "x*2") w [] .add [43] [] (b! "y") y z
    (.join E d (b! "x") x [] .mul [42] [] (b! "2") 2 w (.one _ _ _ _ (.plain _ _ _ _ (fun_label E d 120 x (by omega) hx))) spec_nb spec_nb
      (by decide) (by simp) (.plain _ _ _ _ (fun_digit E d 50 (by omega))) h1) spec_nb spec_nb
    (by decide) (by simp) (.plain _ _ _ _ (fun_label E d 121 y (by omega) hy)) h2

theorem spec_one32 : Blanks [32] := by intro c hc; simp at hc; subst hc; exact .inl rfl

/-- `f(1,2)` is 4. -/
theorem withFunctions_f (d : Nat) : FunOperand (scopeOf withFunctions) (d + 1) (b! "f(1,2)") 4 := by
  refine .call _ d (b! "f") [b! "x", b! "y"] [b! "1", b! "2"] (b! "1,2") [1, 2] [32] (b! "x*2+y") [] 4
    ⟨⟨102, [], rfl, by omega, by simp⟩, by decide⟩ (by decide) (by decide +kernel) spec_one32 spec_nb
    ⟨by decide +kernel, by decide, by decide +kernel⟩
    (spec_two (b! "1") (b! "2") (spec_argument _ (by decide) (by decide)) (spec_argument _ (by decide) (by decide)) (by decide)) ?_ ?_
  · exact .cons _ _ _ _ _ _ _ 1 _ (.one _ _ _ _ (.plain _ _ _ _ (fun_digit _ d 49 (by omega)))) (by omega) (by omega)
      (.cons _ _ _ _ _ _ _ 2 _ (.one _ _ _ _ (.plain _ _ _ _ (fun_digit _ d 50 (by omega)))) (by omega) (by omega) (.nil _ _ _))
  · exact fun_twice _ d 1 2 2 4 (by decide +kernel) (by decide +kernel) (by decide) (by decide)

/-- The text of `g` calls `f` and passes its own `x`. -/
theorem withFunctions_text (d : Nat) :
    FunDenotes ((scopeOf withFunctions).bind [b! "x"] [4]) (d + 2) (b! "(f(x,1)+z)*2") 24 := by
  have hf : FunOperand ((scopeOf withFunctions).bind [b! "x"] [4]) (d + 1) (b! "f(x,1)") 9 := by
    refine .call _ d (b! "f") [b! "x", b! "y"] [b! "x", b! "1"] (b! "x,1") [4, 1] [32] (b! "x*2+y") [] 9
      ⟨⟨102, [], rfl, by omega, by simp⟩, by decide⟩ (by decide) (by decide +kernel) spec_one32 spec_nb
      ⟨by decide +kernel, by decide, by decide +kernel⟩
      (spec_two (b! "x") (b! "1") (spec_argument _ (by decide) (by decide)) (spec_argument _ (by decide) (by decide)) (by decide)) ?_ ?_
    · exact .cons _ _ _ _ _ _ _ 4 _ (.one _ _ _ _ (.plain _ _ _ _ (fun_label _ d 120 4 (by omega) (by decide +kernel)))) (by omega) (by omega)
        (.cons _ _ _ _ _ _ _ 1 _ (.one _ _ _ _ (.plain _ _ _ _ (fun_digit _ d 49 (by omega)))) (by omega) (by omega) (.nil _ _ _))
    · exact fun_twice _ d 4 1 8 9 (by decide +kernel) (by decide +kernel) (by decide) (by decide)
  refine .join _ _ (b! "(f(x,1)+z)") 12 [] .mul [42] [] (b! "2") 2 24 ?_ spec_nb spec_nb (by decide) (by simp)
    (.plain _ _ _ _ (fun_digit _ _ 50 (by omega))) (by decide)
  refine .one _ _ _ _ (.plain _ _ _ _ (.paren _ (d + 1) [] (b! "f(x,1)+z") [] 12 spec_nb spec_nb ?_))
  exact .join _ _ (b! "f(x,1)") 9 [] .add [43] [] (b! "z") 3 12 (.one _ _ _ _ (.plain _ _ _ _ hf)) spec_nb spec_nb (by decide) (by simp)
    (.plain _ _ _ _ (fun_label _ _ 122 3 (by omega) (by decide +kernel))) (by decide)

/-- `g(f(1,2))` is 24: the argument is a call, and so is part of the text of `g`. -/
theorem withFunctions_g : FunOperand (scopeOf withFunctions) 3 (b! "g(f(1,2))") 24 := by
  refine .call _ 2 (b! "g") [b! "x"] [b! "f(1,2)"] (b! "f(1,2)") [4] [32] (b! "(f(x,1)+z)*2") [] 24
    ⟨⟨103, [], rfl, by omega, by simp⟩, by decide⟩ (by decide) (by decide +kernel) spec_one32 spec_nb
    ⟨by decide +kernel, by decide, by decide +kernel⟩
    (.one [] _ [] spec_nb spec_nb ?_ (by decide)) ?_ (withFunctions_text 0)
  · exact argument_fun (.one _ _ _ _ (.plain _ _ _ _ (withFunctions_f 0)))
  · refine .cons _ _ _ _ _ _ _ 4 _ ?_ (by omega) (by omega) (.nil _ _ _)
    have e : (scopeOf withFunctions).without [] = scopeOf withFunctions := by
      unfold Scope.without; simp
    rw [e]
    exact .one _ _ _ _ (.plain _ _ _ _ (withFunctions_f 1))

example : ∃ p, parseNum (knot 9) (b! " -g(f(1,2)) ; comment") withFunctions =
    .ok (some (-24)) { withFunctions with parseDepth := p, fwdRef := false } :=
  C56_nested_partial withFunctions 3 9 [32] (b! "-g(f(1,2))") [32] (b! "; comment") (-24)
    (.one _ _ _ _ (.minus _ _ [] _ 24 spec_nb withFunctions_g (by decide)))
    (by decide +kernel) (by omega) (by omega) spec_one32 spec_one32 (.inr ⟨59, _, rfl, by simp⟩)

end Spasm.Props
