import Verif.Model.State

/-
Specification vocabulary for names: labels, defines and macro arguments, and what a name in an expression stands for.
-/

namespace Spasm.Spec

/-- The capital letter for a small letter. -/
def upperCase (c : Nat) : Nat := if 97 ≤ c ∧ c ≤ 122 then c - 32 else c

/-- The form of a name that decides which symbol it means: the case of letters matters only with case sensitivity. -/
def nameKey (s : S) (name : List Nat) : List Nat := if s.caseSens then name else name.map upperCase

/-- The value of the label of this name. -/
def labelOf (s : S) (name : List Nat) : Option Int :=
  (s.labels.find? (fun p => decide (p.1 = nameKey s name))).map (fun p => p.2.value)

/-- The define of this name. -/
def defineOf (s : S) (name : List Nat) : Option Define :=
  (s.defines.find? (fun p => decide (p.1 = nameKey s name))).map (fun p => p.2)

/-- The macro argument of this name, in the innermost macro call that has one. -/
def argumentOf (s : S) (name : List Nat) : Option Define :=
  s.argSets.findSome? (fun set => (set.find? (fun p => decide (p.1 = nameKey s name))).map (fun p => p.2))

/-- The names whose contents the assembler maintains: `__LINE` and `__FILE`. -/
def Maintained (s : S) (name : List Nat) : Prop := nameKey s name = b! "__LINE" ∨ nameKey s name = b! "__FILE"

instance instDecidableMaintained (s : S) (name : List Nat) : Decidable (Maintained s name) := by
  unfold Maintained; infer_instance

/-- The label an expression means by this name: not one hidden by a macro argument. -/
def visibleLabel (s : S) (name : List Nat) : Option Int :=
  if argumentOf s name = none then labelOf s name else none

/-- No fatal error has stopped the assembly, and no problem on record is newer than the current session. -/
def Settled (s : S) : Prop := s.errOccurred = false ∧ ∀ e ∈ s.errors, e.sess ≤ s.session

instance instDecidableSettled (s : S) : Decidable (Settled s) := by unfold Settled; infer_instance

/-- The text of a define or macro argument without parameters. -/
def Define.text (d : Define) : Option (List Nat) := if d.args = [] then d.contents else none

/-- The text an expression means by this name: that of the innermost macro argument, or else, unless it is a label,
that of the define. -/
def nameText (s : S) (name : List Nat) : Option (List Nat) :=
  match argumentOf s name with
  | some d => Define.text d
  | none => if labelOf s name = none then (defineOf s name).bind Define.text else none

/-- `nameText`, in states where texts can be evaluated and for names whose text does not change by itself. -/
def visibleText (s : S) (name : List Nat) : Option (List Nat) :=
  if Settled s ∧ ¬ Maintained s name then nameText s name else none

end Spasm.Spec
