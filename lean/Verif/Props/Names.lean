import Verif.Props.Anon
import Verif.Props.Labels
import Verif.Lemmas.Preop

/-
C09: what a name in an expression stands for.
-/

namespace Spasm.Props
open Spasm Spec

/-- C09, macro arguments: a name that is an argument of a macro stands for the value of the argument's text, in the
innermost macro that has an argument of this name, whatever labels and defines there are. -/
theorem C09_argument (s : S) (n d : Nat) (b t b' rest b1 e b2 : Str) (v : Int) (arg : Define) (hs : Settled s)
    (hname : Name t) (hm : ¬ Maintained s t) (harg : argumentOf s t = some arg) (hnone : arg.args = [])
    (htext : arg.contents = some (b1 ++ e ++ b2)) (he : Denotes (toI32 s.pc) (visibleLabel s) (visibleText s) d e v)
    (hd : d < 19) (hn : d + 1 < n) (hb : Blanks b) (hb' : Blanks b') (hb1 : Blanks b1) (hb2 : Blanks b2) (hrest : AtEnd rest) :
    parseNum (knot n) (b ++ t ++ b' ++ rest) s = .ok (some v) { s with parseDepth := 0, fwdRef := false } := by
  refine C03_value s (d + 1) n b t b' rest v ?_ (by omega) hn hb hb' hrest
  refine .one _ _ _ (.plain _ _ _ (.named d t b1 e b2 v hname ?_ hb1 hb2 he))
  unfold visibleText
  rw [if_pos ⟨hs, hm⟩]
  unfold nameText
  rw [harg]
  show (if arg.args = [] then arg.contents else none) = _
  rw [if_pos hnone, htext]

/-- C09, labels: a name that is no argument of a macro stands for the value of the label of this name, whether or not
there is a define of this name. -/
theorem C09_label (s : S) (n : Nat) (b t b' rest : Str) (v : Int) (hname : Name t) (harg : argumentOf s t = none)
    (hlab : labelOf s t = some v) (hb : Blanks b) (hb' : Blanks b') (hrest : AtEnd rest) (hn : 0 < n) :
    parseNum (knot n) (b ++ t ++ b' ++ rest) s = .ok (some v) { s with parseDepth := 0, fwdRef := false } := by
  refine C03_value s 0 n b t b' rest v ?_ (by omega) hn hb hb' hrest
  refine .one _ _ _ (.plain _ _ _ (.atom _ _ (.label t v hname ?_)))
  unfold visibleLabel
  rw [if_pos harg, hlab]

/-- C09, defines: a name that is neither an argument of a macro nor a label stands for the value of the text of the
define of this name. -/
theorem C09_define (s : S) (n d : Nat) (b t b' rest b1 e b2 : Str) (v : Int) (df : Define) (hs : Settled s)
    (hname : Name t) (hm : ¬ Maintained s t) (harg : argumentOf s t = none) (hlab : labelOf s t = none)
    (hdef : defineOf s t = some df) (hnone : df.args = [])
    (htext : df.contents = some (b1 ++ e ++ b2)) (he : Denotes (toI32 s.pc) (visibleLabel s) (visibleText s) d e v)
    (hd : d < 19) (hn : d + 1 < n) (hb : Blanks b) (hb' : Blanks b') (hb1 : Blanks b1) (hb2 : Blanks b2) (hrest : AtEnd rest) :
    parseNum (knot n) (b ++ t ++ b' ++ rest) s = .ok (some v) { s with parseDepth := 0, fwdRef := false } := by
  refine C03_value s (d + 1) n b t b' rest v ?_ (by omega) hn hb hb' hrest
  refine .one _ _ _ (.plain _ _ _ (.named d t b1 e b2 v hname ?_ hb1 hb2 he))
  unfold visibleText
  rw [if_pos ⟨hs, hm⟩]
  unfold nameText
  rw [harg, hdef]
  show (if labelOf s t = none then (if df.args = [] then df.contents else none) else none) = _
  rw [if_pos hlab, if_pos hnone, htext]

theorem name_parse (k : Rec) (t rest : Str) (ht : Name t) (s : S) : parseSingle k (t ++ rest) s = parseName k (t ++ rest) s := by
  obtain ⟨⟨c, r, rfl, hc, hx⟩, hne⟩ := ht
  unfold parseSingle
  simp only [List.cons_append, hd_cons]
  rw [if_neg, if_neg, if_neg, if_neg, if_neg, if_pos]
  · unfold isAlpha isUpper isLower; simp; omega
  all_goals simp; omega

theorem name_chars {t : Str} (ht : Name t) : ∀ x ∈ t, NameChar x := by
  obtain ⟨⟨c, r, rfl, hc, hx⟩, -⟩ := ht
  intro x hx'
  rcases List.mem_cons.1 hx' with rfl | hx'
  · unfold NameChar Alnum; omega
  · exact hx x hx'

/-- C09, unknown names: if there is no argument, label or define of this name, the expression has no value and the
unknown-label error is on record. Nothing else happens, except that the name counts as a forward reference. -/
theorem C09_unknown (s : S) (n : Nat) (b t rest : Str) (hname : Name t) (harg : argumentOf s t = none)
    (hlab : labelOf s t = none) (hdef : defineOf s t = none) (hb : Blanks b) (hn : 0 < n)
    (hrest : ∀ c ∈ rest.head?, ¬ NameChar c ∧ c ≠ 40) :
    parseNum (knot n) (b ++ (t ++ rest)) s = .ok none (errorAt 0x106 { s with parseDepth := 1, fwdRef := true }) := by
  obtain ⟨n, rfl⟩ : ∃ m, n = m + 1 := ⟨n - 1, by omega⟩
  have hn := hname
  have hp : parseSingle (knot n) (t ++ rest) (evalState s 1) =
      .ok none (errorAt 0x106 { s with parseDepth := 1, fwdRef := true }) := by
    rw [name_parse _ _ _ hname]
    have htw := takeName_append t rest (name_chars hname) hrest
    unfold parseName
    rw [htw.1, htw.2, M.get_bind]
    have hloc : searchLocal t (evalState s 1) = none := by rw [searchLocal_eq]; exact harg
    have hl : searchLabels t (evalState s 1) = none :=
      Option.map_eq_none_iff.1 ((searchLabels_eq (evalState s 1) t).trans hlab)
    have hsd := searchDefines_none t (evalState s 1) harg hdef
    have h95 : (t == [95]) = false := by simpa using hname.2
    have h40 : (Spasm.hd rest == 40) = false := by simpa using Follows.not40 hrest
    simp only [hloc, hl, Option.isSome_none, Bool.false_eq_true, if_false]
    rw [M.bind_ok hsd]
    simp only [M.pure_bind, Option.map_none, h95, h40, Bool.and_false, Bool.false_eq_true, if_false]
    rfl
  obtain ⟨⟨c, r, rfl, hc, hx⟩, hne⟩ := hname
  exact parseNum_fails n s _ b c (r ++ rest) hb (by unfold Starter' Starter Alnum; omega) (by omega)
    (unary_plain _ c (r ++ rest) rfl (by unfold Starter Alnum; omega)) hp

/-- C09, case: unless names are case sensitive, two names that differ in the case of letters only are
interchangeable at the start of any expression, in every state and whatever they stand for. -/
theorem C09_case (s : S) (n : Nat) (b t t' rest : Str) (hs : s.caseSens = false) (ht : Name t) (ht' : Name t')
    (h : t.map upperCase = t'.map upperCase) (hb : Blanks b) (hrest : ∀ c ∈ rest.head?, ¬ NameChar c) (hn : 0 < n) :
    parseNum (knot n) (b ++ (t ++ rest)) s = parseNum (knot n) (b ++ (t' ++ rest)) s := by
  obtain ⟨n, rfl⟩ : ∃ m, n = m + 1 := ⟨n - 1, by omega⟩
  have htw : ∀ u, Name u → takeName (u ++ rest) = u ∧ skipNameEnd (u ++ rest) = rest := by
    intro u hu
    have h1 : ∀ c ∈ u, isNameChar c = true := fun c hc => (isNameChar_iff c).2 (name_chars hu c hc)
    have h2 : rest.takeWhile isNameChar = [] ∧ rest.dropWhile isNameChar = rest := by
      cases rest with
      | nil => simp
      | cons c r =>
        have : isNameChar c = false := by
          have := hrest c (by simp)
          rw [← isNameChar_iff] at this
          simpa using this
        simp [this]
    unfold takeName skipNameEnd
    exact ⟨by rw [List.takeWhile_append_of_pos h1, h2.1]; simp, by rw [List.dropWhile_append_of_pos h1, h2.2]⟩
  have hp : parseSingle (knot n) (t ++ rest) (evalState s 1) = parseSingle (knot n) (t' ++ rest) (evalState s 1) := by
    rw [name_parse _ _ _ ht, name_parse _ _ _ ht']
    unfold parseName
    rw [(htw t ht).1, (htw t ht).2, (htw t' ht').1, (htw t' ht').2, M.get_bind, M.get_bind]
    have hkey : keyOf (evalState s 1) t = keyOf (evalState s 1) t' := by
      rw [keyOf_eq, keyOf_eq]
      unfold nameKey
      have : (evalState s 1).caseSens = false := hs
      rw [this]
      exact h
    have e1 : searchLocal t (evalState s 1) = searchLocal t' (evalState s 1) := by unfold searchLocal; rw [hkey]
    have e2 : searchLabels t (evalState s 1) = searchLabels t' (evalState s 1) := by unfold searchLabels; rw [hkey]
    have e3 : searchDefines t true (evalState s 1) = searchDefines t' true (evalState s 1) := by
      unfold searchDefines; dsimp only; rw [hkey]
    have h95 : (t == [95]) = false := by simpa using ht.2
    have h95' : (t' == [95]) = false := by simpa using ht'.2
    rw [e1, e2]
    simp only [h95, h95', eqCase_of_upper h, Bool.false_eq_true, if_false]
    cases searchLocal t' (evalState s 1) with
    | some d => rfl
    | none =>
      cases searchLabels t' (evalState s 1) with
      | some l => rfl
      | none =>
        simp only [Option.isSome_none, Bool.false_eq_true, if_false]
        rw [M.bind_apply, M.bind_apply, e3]
  have step : ∀ u, Name u → parseNum (knot (n + 1)) (b ++ (u ++ rest)) s =
      (do let r ← numLoop (knot n) 0 ((b ++ (u ++ rest)).length + 1) 0 none (u ++ rest)
          pure (r.map (·.2)) : M (Option Int)) (evalState s 1) := by
    intro u hu
    obtain ⟨⟨c, r, rfl, hc, hx⟩, hne⟩ := hu
    exact parseNum_start n s b _ c (r ++ rest) hb rfl (by unfold Starter' Starter Alnum; omega)
  have hun : ∀ u, Name u → unary (u ++ rest) = (false, false, u ++ rest) ∧ (Spasm.hd (u ++ rest) == 40) = false := by
    intro u hu
    obtain ⟨⟨c, r, rfl, hc, hx⟩, hne⟩ := hu
    refine ⟨unary_plain _ c (r ++ rest) rfl (by unfold Starter Alnum; omega), ?_⟩
    simp; omega
  have hlen : t.length = t'.length := by have := congrArg List.length h; simpa using this
  rw [step t ht, step t' ht', show (b ++ (t' ++ rest)).length = (b ++ (t ++ rest)).length by simp [hlen]]
  rw [M.bind_apply, M.bind_apply]
  congr 1
  rw [numLoop, numLoop, (hun t ht).1, (hun t' ht').1]
  dsimp only
  simp only [(hun t ht).2, (hun t' ht').2, Bool.false_eq_true, if_false]
  rw [M.bind_apply, M.bind_apply, hp]

/-! ### Concrete cases -/

/-- A macro argument `x` hides the label `x`, which hides the define `x`. -/
example : (asm (b! "x = 3\n#define y 7\n#macro m(x)\n .db x*2,y\n#endmacro\n m(5)\n .db x,X,Y,y+x\n") [b! "a.asm"]).state.log =
    [.wrote (b! "a.bin") [10, 7, 3, 3, 7, 10]] := by decide +kernel

/-- A state with a label `X` = 1, a define `Y` = `(X + 2)` and an argument `X` = `40`. -/
def namesExample : S :=
  { (asm (b! "x = 1\n#define Y (X + 2) \n") [b! "a.asm"]).state with
    argSets := [[(b! "X", { name := b! "X", contents := some (b! "40"), args := [], line := 1, file := [] })]], session := 1 }

/-- It satisfies the hypotheses of `C09_argument`, with the text of the argument in place of the label. -/
example : Settled namesExample ∧ Name (b! "x") ∧ ¬ Maintained namesExample (b! "x") ∧
    (argumentOf namesExample (b! "x")).bind (·.contents) = some ([] ++ b! "40" ++ []) ∧ labelOf namesExample (b! "x") = some 1 := by
  refine ⟨by decide +kernel, ⟨⟨120, [], rfl, by decide, by simp⟩, by decide⟩, by decide +kernel, by decide +kernel, by decide +kernel⟩

/-- It satisfies the hypotheses of `C09_define` as well. -/
example : (¬ Maintained namesExample (b! "y")) ∧ argumentOf namesExample (b! "y") = none ∧ labelOf namesExample (b! "y") = none ∧
    (defineOf namesExample (b! "y")).bind (·.contents) = some (b! " " ++ b! "(X + 2)" ++ b! " ") ∧
    (defineOf namesExample (b! "y")).map (·.args) = some [] := by decide +kernel

/-- And of `C09_unknown`. -/
example : argumentOf namesExample (b! "zz") = none ∧ labelOf namesExample (b! "zz") = none ∧ defineOf namesExample (b! "zz") = none := by
  decide +kernel

end Spasm.Props
