import Verif.Lemmas.Ends
import Verif.Props.Run

/-
C06, termination: evaluation ends when no text with parameters is involved.
-/

namespace Spasm.Props

open Spasm.Spec

/-- Evaluating any expression comes to an end, with a value, an error or undefined behaviour, provided neither the expression
nor the texts it may refer to contain the excluded names `out`, which include all names of texts with parameters. The texts may
refer to each other or to themselves in any way: twenty-one levels of recursion suffice whatever they are. What is missing from
the full property: texts with parameters, for which it is false (`C06_fails_function_recursion`), `getc`, and texts with `#`. -/
theorem C06_terminates_partial (out : List Nat → Prop) (s : S) (t : List Nat) (n : Nat) (h : PlainTexts out s) (ht : Free out t)
    (hn : 21 ≤ n) : ∀ s', parseNum (knot n) t s ≠ .stop .fuel s' := by
  intro s' he
  have hp : PlainTexts out { s with parseDepth := 0 } := ⟨h.getc, h.file, h.numbers, h.defines, h.arguments⟩
  have key : Ends (parseNum (knot n) t) s (fun _ _ => True) := by
    unfold parseNum
    refine .bind (Q := fun _ s1 => s1 = { s with parseDepth := 0 }) rfl ?_
    rintro _ s1 rfl
    exact .bind (endsAt n (by omega) t 0 _ hp ht (by show (20 : Int) < n + 0; omega)) fun _ _ _ => .pure trivial
  unfold Ends at key
  rw [he] at key
  exact key rfl

/-! The case of a program with two texts that refer to each other. -/

/-- Without parameters of its own, this program excludes only what is built in. -/
def excluded : List Str := [b! "GETC", b! "__FILE", b! "RGB", b! "__BM_MSK_RGB"]

theorem free_of {l : List Str} {t : Str} (h : (t.tails.all fun u => u.inits.all fun g => !l.contains g && !l.contains (g.map upperCase)) = true) :
    Free (fun k => k ∈ l) t := by
  rintro a g c rfl
  have h1 := List.all_eq_true.1 h (g ++ c) (by rw [List.mem_tails]; exact ⟨a, by simp⟩)
  have h2 := List.all_eq_true.1 h1 g (by rw [List.mem_inits]; exact ⟨c, rfl⟩)
  simpa using h2

def cyclic : S := (asm (b! "#define a b+1\n#define b a*2\n") [b! "a.asm"]).state

theorem cyclic_plain : PlainTexts (fun k => k ∈ excluded) cyclic := by
  have h1 : (cyclic.defines.all fun p => excluded.contains p.1 || (p.2.args.isEmpty && (p.2.contents.all fun t => !t.contains 35 &&
      (t.tails.all fun u => u.inits.all fun g => !excluded.contains g && !excluded.contains (g.map upperCase))))) = true := by decide +kernel
  have h2 : cyclic.argSets = [] := by decide +kernel
  refine ⟨by decide, by decide, by decide, ?_, by simp [h2]⟩
  intro p hp hno
  have := List.all_eq_true.1 h1 p hp
  simp only [Bool.or_eq_true, Bool.and_eq_true, List.isEmpty_iff] at this
  rcases this with h | ⟨h3, h4⟩
  · exact absurd (by simpa using h) hno
  · refine ⟨h3, ?_⟩
    intro c hc
    rw [hc] at h4
    simp only [Option.all_some, Bool.and_eq_true] at h4
    exact ⟨by simpa using h4.1, free_of h4.2⟩

/-- Evaluating `a` ends although `a` stands for `b+1` and `b` for `a*2`. -/
example (n : Nat) (hn : 21 ≤ n) (s' : S) : parseNum (knot n) (b! "a") cyclic ≠ .stop .fuel s' :=
  C06_terminates_partial _ cyclic _ n cyclic_plain (free_of (by decide)) hn s'

/-- The texts of that program do refer to each other. -/
example : (cyclic.defines.filterMap fun p => p.2.contents.map fun c => (p.1, c)).filter (fun x => x.1 == b! "A" || x.1 == b! "B") =
    [(b! "A", b! " b+1"), (b! "B", b! " a*2")] := by
  decide +kernel

end Spasm.Props
