import Verif.Spec.Names
import Verif.Lemmas.Table
import Verif.Lemmas.Output

/-
The tables of the model in terms of the specification.
-/

namespace Spasm
open Spec

theorem toUpper_eq (c : Nat) : toUpper c = upperCase c := by
  unfold toUpper upperCase isLower
  simp

theorem keyOf_eq (s : S) (name : Str) : keyOf s name = nameKey s name := by
  unfold keyOf nameKey strup
  split
  · rfl
  · congr 1; funext c; exact toUpper_eq c

theorem upperCase_idem (c : Nat) : upperCase (upperCase c) = upperCase c := by
  unfold upperCase
  split <;> (try split) <;> omega

theorem nameKey_idem (s : S) (name : Str) : nameKey s (nameKey s name) = nameKey s name := by
  unfold nameKey
  split
  · rfl
  · rw [List.map_map]
    apply List.map_congr_left
    intro c _
    exact upperCase_idem c

theorem lookup_eq {α : Type} (t : Table α) (k : Str) : t.lookup k = (t.find? (fun p => decide (p.1 = k))).map (fun p => p.2) := by
  unfold Table.lookup
  congr 2
  funext p
  by_cases h : p.1 = k <;> simp [h]

theorem labelOf_eq (s : S) (name : Str) : labelOf s name = (s.labels.lookup (nameKey s name)).map Label.value := by
  unfold labelOf
  rw [lookup_eq, Option.map_map]
  rfl

theorem defineOf_eq (s : S) (name : Str) : defineOf s name = s.defines.lookup (nameKey s name) := by
  unfold defineOf
  rw [lookup_eq]

theorem searchLabels_eq (s : S) (name : Str) : (searchLabels name s).map Label.value = labelOf s name := by
  unfold searchLabels
  rw [labelOf_eq, keyOf_eq]

theorem findArg_eq (k : Str) : ∀ (sets : List (Table Define)) (i : Nat),
    (findArg k sets i).map (·.2) = sets.findSome? (fun set => (set.find? (fun p => decide (p.1 = k))).map (fun p => p.2))
  | [], i => rfl
  | t :: ts, i => by
    rw [findArg, List.findSome?_cons, ← lookup_eq]
    cases t.lookup k with
    | none => exact findArg_eq k ts (i + 1)
    | some d => rfl

theorem searchLocal_eq (s : S) (name : Str) : searchLocal name s = argumentOf s name := by
  unfold searchLocal argumentOf
  rw [keyOf_eq, findArg_eq]

theorem refreshed_none (s : S) (name : Str) (h : ¬ Maintained s name) : refreshed (nameKey s name) s = none := by
  unfold refreshed
  unfold Maintained at h
  rw [if_neg (by simpa using fun e => h (Or.inl e)), if_neg (by simpa using fun e => h (Or.inr e))]

/-- What the table of defines gives for a key, arguments of macros first. -/
def findDefine (key : Str) (s : S) : Option (DRef × Define) :=
  match findArg key s.argSets 0 with
  | some p => some p
  | none => (s.defines.lookup key).map (fun d => (DRef.glob key, d))

theorem findDefine_eq (s : S) (name : Str) :
    (findDefine (nameKey s name) s).map (·.2) =
      match argumentOf s name with
      | some d => some d
      | none => defineOf s name := by
  unfold findDefine
  have h := searchLocal_eq s name
  unfold searchLocal at h
  rw [keyOf_eq] at h
  rw [← h, defineOf_eq]
  cases findArg (nameKey s name) s.argSets 0 with
  | none => cases s.defines.lookup (nameKey s name) <;> rfl
  | some p => rfl

theorem searchDefines_calm (name : Str) (s : S) (h : refreshed (keyOf s name) s = none) :
    searchDefines name true s = .ok (findDefine (keyOf s name) s) s := by
  have e : searchDefines name true s = (match findDefine (keyOf s name) s with
      | none => .ok none s
      | some (r, d) =>
        match refreshed (keyOf s name) s with
        | none => .ok (some (r, d)) s
        | some c => .ok (some (r, { d with contents := some c }))
            (writeDef r (fun d => { d with contents := some c }) s)) := rfl
  rw [e, h]
  cases findDefine (keyOf s name) s with
  | none => rfl
  | some p => rfl

/-- A name that is neither an argument nor a define is not found, maintained or not. -/
theorem searchDefines_none (name : Str) (s : S) (h1 : argumentOf s name = none) (h2 : defineOf s name = none) :
    searchDefines name true s = .ok none s := by
  have hf : findDefine (keyOf s name) s = none := by
    rw [keyOf_eq]
    have := findDefine_eq s name
    rw [h1, h2] at this
    exact Option.map_eq_none_iff.1 this
  have e : searchDefines name true s = (match findDefine (keyOf s name) s with
      | none => .ok none s
      | some (r, d) =>
        match refreshed (keyOf s name) s with
        | none => .ok (some (r, d)) s
        | some c => .ok (some (r, { d with contents := some c }))
            (writeDef r (fun d => { d with contents := some c }) s)) := rfl
  rw [e, hf]

/-- A deeper session leaves the visible texts as they are. -/
theorem visibleText_session (s : S) (q : Int) (hq : s.session ≤ q) (h : ∀ e ∈ s.errors, e.sess ≤ s.session) :
    visibleText { s with session := q } = visibleText s := by
  have h1 : Settled { s with session := q } ↔ Settled s :=
    ⟨fun h' => ⟨h'.1, h⟩, fun h' => ⟨h'.1, fun e he => Int.le_trans (h e he) hq⟩⟩
  funext name
  unfold visibleText
  simp only [h1]
  rfl

end Spasm
