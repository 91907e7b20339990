import Verif.Spec.Define

/-
Specification vocabulary: definitions of functions, which are texts with parameters.
-/

namespace Spasm.Spec

/-- The spelling `#define name(params)text`, followed by `rest`. Without parameters there are empty parentheses. -/
def FunctionWritten (name : List Nat) (params : List (List Nat)) (text rest t : List Nat) : Prop :=
  ∃ b w c b1 u, t = b ++ 35 :: (w ++ c :: (b1 ++ name ++ [40] ++ u ++ [41] ++ text ++ rest)) ∧ Blanks b ∧ w.map upperCase = b! "DEFINE" ∧
    (c = 32 ∨ c = 9) ∧ Blanks b1 ∧ (Joined params u ∨ (params = [] ∧ Blanks u))

/-- The name can become a function with these parameters and this text: it is a name, not that of a label, a macro argument or a
define that the assembler maintains; there are at most 16 parameters, which are different. If the name has a text
already, the new one does not mention it, nor any label. -/
structure FunctionDefinable (s : S) (name : List Nat) (params : List (List Nat)) (text : List Nat) : Prop where
  nonempty : name ≠ []
  chars : ∀ c ∈ name, NameChar c
  noLabel : labelOf s name = none
  noArgument : argumentOf s name = none
  ours : ¬ Maintained s name
  different : (params.map (nameKey s)).Nodup
  few : params.length ≤ 16
  line : LineText text
  again : (defineOf s name).bind (fun d => d.contents) ≠ none →
    ∀ w, Word text w → labelOf s w = none ∧ nameKey s w ≠ nameKey s name

/-- From `s` to `s'` the name became a function with these parameters and this text; nothing else was changed. -/
structure NowFunction (name : List Nat) (params : List (List Nat)) (text : List Nat) (s s' : S) : Prop where
  this : ∃ d, defineOf s' name = some d ∧ d.contents = some text ∧ d.args = params
  others : ∀ other, nameKey s other ≠ nameKey s name → defineOf s' other = defineOf s other
  rest : s' = { s with defines := s'.defines, lastDefine := s'.lastDefine }

end Spasm.Spec
