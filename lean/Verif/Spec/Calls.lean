import Verif.Spec.Function

/-
Specification vocabulary: expressions in which calls of functions stand anywhere, also in the arguments and texts of other
functions and in parentheses.
-/

namespace Spasm.Spec

/-- What the names in an expression stand for: labels, texts, and texts with parameters (functions). Names with the same key
are the same name. -/
structure Scope where
  pc : Int
  key : List Nat → List Nat
  label : List Nat → Option Int
  text : List Nat → Option (List Nat)
  func : List Nat → Option (List (List Nat) × List Nat)

namespace Scope

/-- The scope without some names. -/
def without (E : Scope) (names : List (List Nat)) : Scope :=
  { E with
    label := fun w => if E.key w ∈ names.map E.key then none else E.label w
    text := fun w => if E.key w ∈ names.map E.key then none else E.text w
    func := fun w => if E.key w ∈ names.map E.key then none else E.func w }

/-- The scope of a function's text: the parameters are labels with the values of the arguments. All other names mean what they
mean at the call. -/
def bind (E : Scope) (params : List (List Nat)) (vs : List Int) : Scope :=
  { E with
    label := fun w => if E.key w ∈ params.map E.key then ((params.zip vs).find? (fun p => decide (E.key p.1 = E.key w))).map (·.2) else E.label w
    text := fun w => if E.key w ∈ params.map E.key then none else E.text w
    func := fun w => if E.key w ∈ params.map E.key then none else E.func w }

/-- A list of parameters: different names, none of them starting with `@` or maintained by the program. -/
structure Parameters (E : Scope) (params : List (List Nat)) : Prop where
  different : (params.map E.key).Nodup
  plain : ∀ p ∈ params, p.head? ≠ some 64
  fixed : ∀ p ∈ params, E.key p ≠ b! "__LINE" ∧ E.key p ≠ b! "__FILE"

end Scope

mutual

/-- An operand: an atom, an expression in parentheses, the name of a text that is an expression, or a call. The depth bounds
the nesting of parentheses, texts and calls. -/
inductive FunOperand : Scope → Nat → List Nat → Int → Prop
  | atom (E d t v) : Atom E.pc E.label t v → FunOperand E d t v
  | paren (E d b t b' v) : Blanks b → Blanks b' → FunDenotes E d t v → FunOperand E (d + 1) ([40] ++ b ++ t ++ b' ++ [41]) v
  | named (E d t b e b' v) : Name t → E.text t = some (b ++ e ++ b') → Blanks b → Blanks b' → FunDenotes E d e v → FunOperand E (d + 1) t v
  | call (E d name params args t vs b e b' v) : Name name → name.map upperCase ∉ [b! "EVAL", b! "GETC"] →
      E.func name = some (params, b ++ e ++ b') → Blanks b → Blanks b' → E.Parameters params → Joined args t →
      FunArgs E d [] params args vs → FunDenotes (E.bind params vs) d e v → FunOperand E (d + 1) (name ++ [40] ++ t ++ [41]) v

/-- An operand with at most one of the prefixes `-`, `+`, `~`. -/
inductive FunPrefixed : Scope → Nat → List Nat → Int → Prop
  | plain (E d t v) : FunOperand E d t v → FunPrefixed E d t v
  | plus (E d b t v) : Blanks b → FunOperand E d t v → FunPrefixed E d ([43] ++ b ++ t) v
  | minus (E d b t v) : Blanks b → FunOperand E d t v → v ≠ -2147483648 → FunPrefixed E d ([45] ++ b ++ t) (-v)
  | invert (E d b t v) : Blanks b → FunOperand E d t v → FunPrefixed E d ([126] ++ b ++ t) (-v - 1)

/-- Operands joined by operators, evaluated strictly from left to right. -/
inductive FunDenotes : Scope → Nat → List Nat → Int → Prop
  | one (E d t v) : FunPrefixed E d t v → FunDenotes E d t v
  | join (E d t₁ v₁ b op optext b' t₂ v₂ v) : FunDenotes E d t₁ v₁ → Blanks b → Blanks b' → optext ∈ BinOp.spelled op →
      (op = .ne → b ≠ [] ∨ t₁.getLast? = some 41) → FunPrefixed E d t₂ v₂ → binary op v₁ v₂ = some v →
      FunDenotes E d (t₁ ++ b ++ optext ++ b' ++ t₂) v

/-- The arguments for the parameters and their values: expressions of the place of the call, whose values are not the smallest
32-bit number. An argument must not mention a parameter that stands before its own (`done`; `C56_arguments_see_parameters`
shows what happens then). -/
inductive FunArgs : Scope → Nat → List (List Nat) → List (List Nat) → List (List Nat) → List Int → Prop
  | nil (E d done) : FunArgs E d done [] [] []
  | cons (E d done p ps a as v vs) : FunDenotes (E.without done) d a v → -2147483648 < v → v ≤ 2147483647 →
      FunArgs E d (p :: done) ps as vs → FunArgs E d done (p :: ps) (a :: as) (v :: vs)

end

/-- The function an expression means by this name. -/
def visibleFunc (s : S) (w : List Nat) : Option (List (List Nat) × List Nat) :=
  if argumentOf s w = none ∧ labelOf s w = none ∧ ¬ Maintained s w then
    (defineOf s w).bind (fun df => df.contents.map (fun c => (df.args, c)))
  else none

/-- What names stand for in a state. -/
def scopeOf (s : S) : Scope :=
  { pc := toI32 s.pc, key := nameKey s, label := visibleLabel s, text := visibleText s, func := visibleFunc s }

end Spasm.Spec
