import Verif.Spec.Macro

/-
Specification vocabulary: calls of texts with parameters in expressions.
-/

namespace Spasm.Spec

/-- The name of a text with parameters in an expression: not `eval` or `getc`, no label, and defined as `df`. -/
structure FunctionName (s : S) (name : List Nat) (df : Define) : Prop where
  proper : Name name
  defined : defineOf s name = some df
  noArgument : argumentOf s name = none
  noLabel : labelOf s name = none
  fixed : ¬ Maintained s name
  notBuiltIn : name.map upperCase ∉ [b! "EVAL", b! "GETC"]

/-- A function call: the name of a text with parameters and, in parentheses, expressions for the parameters. Its value
is that of the text, where the parameters are labels with the values of the arguments. Arguments and text are nested less than
`depth` deep. -/
inductive Call (s : S) (depth : Nat) : List Nat → Int → Prop
  | call (name df args t) (vs : List Int) (b e b' d v) : FunctionName s name df → df.contents = some (b ++ e ++ b') → Blanks b → Blanks b' →
      Parameters s df.args → Joined args t → InOrder (fun done => ArgValue s done depth) [] df.args args (vs.map some) →
      Denotes (toI32 s.pc) (bodyLabel s df.args (vs.map some)) (outerText s df.args) d e v → d < depth →
      Call s depth (name ++ [40] ++ t ++ [41]) v

mutual

/-- An operand of an expression with function calls: one without a call, a call with or without prefix, or a name whose text
is again an expression with function calls. -/
inductive Term (s : S) : Nat → List Nat → Int → Prop
  | plain (depth d t v) : Prefixed (toI32 s.pc) (visibleLabel s) (visibleText s) d t v → d < depth → Term s depth t v
  | call (depth t v) : Call s depth t v → Term s depth t v
  | plus (depth b t v) : Blanks b → Call s depth t v → Term s depth ([43] ++ b ++ t) v
  | minus (depth b t v) : Blanks b → Call s depth t v → v ≠ -2147483648 → Term s depth ([45] ++ b ++ t) (-v)
  | invert (depth b t v) : Blanks b → Call s depth t v → Term s depth ([126] ++ b ++ t) (-v - 1)
  | named (depth t b e b' v) : Name t → visibleText s t = some (b ++ e ++ b') → Blanks b → Blanks b' → WithCalls s depth e v →
      Term s (depth + 1) t v

/-- Expressions with function calls as operands, evaluated strictly from left to right. -/
inductive WithCalls (s : S) : Nat → List Nat → Int → Prop
  | one (depth t v) : Term s depth t v → WithCalls s depth t v
  | join (depth t₁ v₁ b op optext b' t₂ v₂ v) : WithCalls s depth t₁ v₁ → Blanks b → Blanks b' → optext ∈ BinOp.spelled op →
      (op = .ne → b ≠ [] ∨ t₁.getLast? = some 41) → Term s depth t₂ v₂ → binary op v₁ v₂ = some v →
      WithCalls s depth (t₁ ++ b ++ optext ++ b' ++ t₂) v

end

end Spasm.Spec
