import Verif.Lemmas.Expr

/-
C03, C04, C06 (first part), C07: the value of expressions, against Spec/Expr.lean.
-/

namespace Spasm.Props
open Spasm Spec

/-- The end of a text handed to the evaluator: nothing, or the end of the statement. -/
def AtEnd (rest : Str) : Prop := rest = [] ∨ ∃ c r, rest = c :: r ∧ (c = 10 ∨ c = 13 ∨ c = 59 ∨ c = 92)

theorem AtEnd.isEnd {rest : Str} (h : AtEnd rest) : isEnd rest = true := by
  rcases h with rfl | ⟨c, r, rfl, h⟩
  · rfl
  · rcases h with rfl | rfl | rfl | rfl <;> rfl

theorem AtEnd.follows {b rest : Str} (hb : Blanks b) (h : AtEnd rest) : Follows (b ++ rest) := by
  rcases h with rfl | ⟨c, r, rfl, h⟩
  · intro x hx
    cases b with
    | nil => simp at hx
    | cons y b =>
      simp at hx; subst hx
      have := hb y (by simp)
      unfold NameChar Alnum; omega
  · exact blanks_follow b c r hb (fun _ => by unfold NameChar Alnum; omega)

theorem AtEnd.skipWs {b rest : Str} (hb : Blanks b) (h : AtEnd rest) : skipWs (b ++ rest) = rest := by
  rw [skipWs_blanks b rest hb]
  rcases h with rfl | ⟨c, r, rfl, h⟩
  · rfl
  · apply skipWs_cons
    rcases h with rfl | rfl | rfl | rfl <;> decide

/-- The evaluator up to its loop. -/
theorem parseNum_start (n : Nat) (s : S) (b t : Str) (c : Nat) (r : Str) (hb : Blanks b) (ht : t = c :: r)
    (hc : Starter' c) :
    parseNum (knot (n + 1)) (b ++ t) s =
      (do let r ← numLoop (knot n) 0 ((b ++ t).length + 1) 0 none t
          pure (r.map (·.2)) : M (Option Int)) (evalState s 1) := by
  have hsk : skipWs (b ++ t) = t := by
    rw [skipWs_blanks b _ hb, ht, skipWs_cons c _ (Starter.nonblank hc)]
  unfold parseNum
  simp only [M.modify_bind]
  show (do let r ← numFullBody (knot n) (b ++ t) 0; pure (r.map (·.2)) : M _) _ = _
  unfold numFullBody
  simp only [M.bind_assoc, M.modify_bind, M.get_bind]
  rw [hsk]
  simp only [ht, List.isEmpty_cons, Bool.false_eq_true, if_false]
  rfl

/-- C03: every expression evaluates to the value the specification gives it: operators strictly from left
to right, parentheses first, any white space between the tokens. Nesting may be up to 19 deep; the recursion
budget of the model only has to exceed the nesting. Nothing else in the state changes. -/
theorem C03_value (s : S) (d n : Nat) (b t b' rest : Str) (v : Int)
    (h : Denotes (toI32 s.pc) (visibleLabel s) (visibleText s) d t v) (hd : d < 20) (hn : d < n)
    (hb : Blanks b) (hb' : Blanks b') (hrest : AtEnd rest) :
    parseNum (knot n) (b ++ t ++ b' ++ rest) s =
      .ok (some v) { s with parseDepth := 0, fwdRef := false } := by
  obtain ⟨n, rfl⟩ : ∃ m, n = m + 1 := ⟨n - 1, by omega⟩
  obtain ⟨c, r, hct, hst⟩ := Denotes_start h
  have e : b ++ t ++ b' ++ rest = b ++ (t ++ (b' ++ rest)) := by simp
  rw [e, parseNum_start n s b (t ++ (b' ++ rest)) c (r ++ (b' ++ rest)) hb (by rw [hct]; rfl) hst]
  obtain ⟨m, hm, hloop⟩ := eval_denotes s h s (Inner.refl s) n 0 1 (b' ++ rest) (by omega) (by omega) (by omega)
    (Or.inl (hrest.follows hb'))
  have hlen : (b ++ (t ++ (b' ++ rest))).length + 1 = ((b ++ (t ++ (b' ++ rest))).length + 1 - m) + m := by
    simp only [List.length_append]; omega
  rw [hlen]
  have hg : getOp 0 ((b' ++ rest).length + 1) (b' ++ rest) (evalState s 1) =
      .ok (.done rest) { s with parseDepth := 0, fwdRef := false } := by
    rw [getOp, hrest.skipWs hb']
    simp only [hrest.isEnd, if_true]
    rfl
  rw [M.bind_ok (a := some (rest, v)) (s' := { s with parseDepth := 0, fwdRef := false })]
  · rfl
  · rw [hloop]
    unfold afterOperand
    rw [M.bind_ok hg]
    rfl

/-! ### C04 -/

/-- C04: whatever the (32-bit) operands, division and remainder give a value or an error, never the
trapping operation. -/
theorem C04_never_traps (op : Op) (hop : op = .div ∨ op = .mod) (a b : Int)
    (ha : -2147483648 ≤ a ∧ a ≤ 2147483647) (hb : -2147483648 ≤ b ∧ b ≤ 2147483647) :
    ∀ u, applyOp (some op) a b ≠ .ub u := by
  intro u
  have key : ∀ v : Int, -2147483648 ≤ v → v ≤ 2147483647 → OpRes.ofInt v ≠ .ub u := by
    intro v h1 h2
    unfold OpRes.ofInt inI32 intMin intMax
    rw [if_pos (by simp; omega)]
    simp
  have hdiv : b ≠ 0 → ¬ (a = -2147483648 ∧ b = -1) →
      -2147483648 ≤ a.tdiv b ∧ a.tdiv b ≤ 2147483647 := by
    intro h0 h1
    have habs : (a.tdiv b).natAbs = a.natAbs / b.natAbs := Int.natAbs_tdiv a b
    by_cases hb1 : b.natAbs = 1
    · have : b = 1 ∨ b = -1 := by omega
      rcases this with rfl | rfl
      · simp only [Int.tdiv_one]; omega
      · rw [Int.tdiv_neg, Int.tdiv_one]; omega
    · have h2 : 2 ≤ b.natAbs := by omega
      have h3 : a.natAbs / b.natAbs ≤ a.natAbs / 2 := Nat.div_le_div_left h2 (by omega)
      omega
  have hmod : -2147483648 ≤ a.tmod b ∧ a.tmod b ≤ 2147483647 := by
    have habs : (a.tmod b).natAbs = a.natAbs % b.natAbs := Int.natAbs_tmod a b
    have hle : a.natAbs % b.natAbs ≤ a.natAbs := Nat.mod_le _ _
    by_cases h0 : 0 ≤ a
    · have := Int.tmod_nonneg b h0
      omega
    · have : a.tmod b ≤ 0 := by
        have h := Int.tmod_nonneg b (show 0 ≤ -a by omega)
        rw [Int.neg_tmod] at h
        omega
      omega
  unfold applyOp
  rcases hop with rfl | rfl <;> simp only [reduceCtorEq, Option.some.injEq, true_or, or_true, true_and]
  · split
    · simp
    · split
      · simp
      · rename_i h1 h2
        exact key _ (hdiv h1 h2).1 (hdiv h1 h2).2
  · split
    · simp
    · split
      · simp
      · exact key _ hmod.1 hmod.2

/-- C04: dividing (or taking the remainder) by zero, or INT_MIN by -1, after any left-hand side: no value,
and exactly the corresponding error is recorded; the rest of the text is not looked at. -/
theorem C04_division_errors (s : S) (d₁ d₂ n : Nat) (b t₁ b₁ b₂ t₂ rest : Str) (op : BinOp) (optext : Str)
    (v₁ v₂ : Int) (code : Nat)
    (h₁ : Denotes (toI32 s.pc) (visibleLabel s) (visibleText s) d₁ t₁ v₁) (h₂ : Prefixed (toI32 s.pc) (visibleLabel s) (visibleText s) d₂ t₂ v₂)
    (hop : op = .div ∨ op = .mod) (hot : optext ∈ BinOp.spelled op)
    (hcode : (v₂ = 0 ∧ code = 0x203) ∨ (v₁ = -2147483648 ∧ v₂ = -1 ∧ code = 0x205))
    (hd : d₁ < 20 ∧ d₂ < 20) (hn : d₁ < n ∧ d₂ < n)
    (hb : Blanks b) (hb₁ : Blanks b₁) (hb₂ : Blanks b₂) (hrest : Follows rest) :
    parseNum (knot n) (b ++ (t₁ ++ b₁ ++ optext ++ b₂ ++ t₂ ++ rest)) s =
      .ok none (errorAt code { s with parseDepth := 1, fwdRef := false }) := by
  obtain ⟨n, rfl⟩ : ∃ m, n = m + 1 := ⟨n - 1, by omega⟩
  obtain ⟨c, r, hct, hst⟩ := Denotes_start h₁
  obtain ⟨c₂, r₂, hct₂, hst₂⟩ := Prefixed_start h₂
  obtain ⟨oc, or_, hoc, hocm, hocne⟩ := spelled_head op optext hot
  have hoc' : oc = 47 ∨ oc = 37 := by
    rcases hop with rfl | rfl <;> simp only [BinOp.spelled, List.mem_cons, List.not_mem_nil, or_false] at hot <;>
      rw [hot] at hoc <;> simp at hoc <;> omega
  have e : t₁ ++ b₁ ++ optext ++ b₂ ++ t₂ ++ rest = t₁ ++ (b₁ ++ (optext ++ (b₂ ++ (t₂ ++ rest)))) := by simp
  rw [parseNum_start n s b _ c (r ++ b₁ ++ optext ++ b₂ ++ t₂ ++ rest) hb (by rw [hct]; simp) hst, e]
  have hfol : Follows (b₁ ++ (optext ++ (b₂ ++ (t₂ ++ rest)))) := by
    rw [hoc]; exact blanks_follow b₁ oc _ hb₁ (fun _ => by unfold NameChar Alnum; omega)
  obtain ⟨m, hm, hloop⟩ := eval_denotes s h₁ s (Inner.refl s) n 0 1 _ (by omega) (by omega) (by omega) (Or.inl hfol)
  have hlen : (b ++ (t₁ ++ (b₁ ++ (optext ++ (b₂ ++ (t₂ ++ rest)))))).length + 1 =
      ((b ++ (t₁ ++ (b₁ ++ (optext ++ (b₂ ++ (t₂ ++ rest)))))).length - m + 1) + m := by
    simp only [List.length_append]; omega
  rw [hlen, M.bind_apply, hloop]
  unfold afterOperand
  have hg := getOp_op 0 b₁ optext b₂ t₂ rest op (evalState s 1) c₂ r₂ hb₁ hb₂ hot hct₂ hst₂
  rw [M.bind_ok hg]
  dsimp only
  rw [eval_prefixed s h₂ s (Inner.refl s) n 0 1 rest _ v₁ (some (opOf op)) (by omega) (by omega) (by omega) (Or.inl hrest)]
  have happ : applyOp (some (opOf op)) v₁ v₂ = .err code := by
    unfold applyOp
    rcases hop with rfl | rfl <;> simp only [opOf, reduceCtorEq, Option.some.injEq, true_or, or_true, true_and]
    all_goals
      rcases hcode with ⟨rfl, rfl⟩ | ⟨rfl, rfl, rfl⟩
      · rfl
      · rfl
  rw [happ]
  have hcode0 : code ≠ 0 := by rcases hcode with ⟨_, rfl⟩ | ⟨_, _, rfl⟩ <;> decide
  dsimp only
  rw [M.bind_ok (setError_apply code _ hcode0)]
  rfl

/-! ### C06 -/

/-- C06: an expression that has a value but nests parentheses 20 deep or deeper is rejected with the
recursion error, however many levels the program could still recurse. (Names of texts are excluded: the error is then recorded while the text is
evaluated.) -/
theorem C06_too_deep (s : S) (d n : Nat) (b t rest : Str) (v : Int)
    (h : Denotes (toI32 s.pc) (visibleLabel s) (fun _ => none) d t v) (hd : 20 ≤ d) (hn : d < n) (hb : Blanks b) (hrest : Follows rest) :
    parseNum (knot n) (b ++ (t ++ rest)) s =
      .ok none (errorAt 0x115 { s with parseDepth := 21, fwdRef := false }) := by
  obtain ⟨n, rfl⟩ : ∃ m, n = m + 1 := ⟨n - 1, by omega⟩
  obtain ⟨c, r, hct, hst⟩ := Denotes_start h
  rw [parseNum_start n s b (t ++ rest) c (r ++ rest) hb (by rw [hct]; rfl) hst]
  have hlen : t.length ≤ (b ++ (t ++ rest)).length + 1 := by simp only [List.length_append]; omega
  rw [M.bind_ok (eval_too_deep s h n 0 1 rest _ (by omega) (by omega) (by omega) (by omega) (Or.inl hrest) hlen)]
  rfl

/-! ### The specification is not empty -/

/-- A decimal digit is a number. -/
theorem atom_digit (pc : Int) (label : Str → Option Int) : ∀ c : Nat, 48 ≤ c → c ≤ 57 → Atom pc label [c] ((c : Int) - 48) := by
  intro c h1 h2
  have hl : Literal 10 [c] [c] := by
    refine ⟨by simp, ?_, Or.inr (Or.inr ⟨⟨c - 48, ?_, by omega⟩, Or.inr (Or.inr (Or.inr ⟨rfl, rfl, ?_⟩))⟩)⟩
    · intro x hx; simp at hx; subst hx; unfold Alnum; omega
    · show digit c = _
      unfold digit; rw [if_pos ⟨h1, h2⟩]
    · simp only [List.getLastD_cons, List.getLastD_nil, List.mem_cons, List.not_mem_nil, or_false]; omega
  have hv : value 10 [c] = c - 48 := by simp only [value, digit]; rw [if_pos ⟨h1, h2⟩]; simp
  have := Atom.literal (pc := pc) (label := label) 10 [c] [c] hl (by
    intro x hx; simp at hx; subst hx
    exact ⟨x - 48, by unfold digit; rw [if_pos ⟨h1, h2⟩], by omega⟩) (by rw [hv]; omega)
  rw [hv] at this
  have e : asInt32 (c - 48) = (c : Int) - 48 := by unfold asInt32; split <;> omega
  rw [e] at this
  exact this

/-- `1 + 2*3` is 9, not 7. -/
theorem spec_left_to_right (s : S) : Denotes (toI32 s.pc) (visibleLabel s) (visibleText s) 0 (b! "1 + 2*3") 9 := by
  have lit := atom_digit (toI32 s.pc) (visibleLabel s)
  have d1 := Denotes.one (text := visibleText s) 0 _ _ (.plain 0 _ _ (.atom _ _ (lit 49 (by omega) (by omega))))
  have d2 := Prefixed.plain (text := visibleText s) 0 _ _ (.atom _ _ (lit 50 (by omega) (by omega)))
  have d3 := Prefixed.plain (text := visibleText s) 0 _ _ (.atom _ _ (lit 51 (by omega) (by omega)))
  have hsp : Blanks [32] := by intro c hc; simp at hc; omega
  have hnil : Blanks [] := by intro c hc; simp at hc
  have j1 := Denotes.join 0 _ _ [32] .add [43] [32] 0 _ _ 3 d1 hsp hsp (by decide) (by simp) d2 (by decide)
  exact Denotes.join 0 _ _ [] .mul [42] [] 0 _ _ 9 j1 hnil hnil (by decide) (by simp) d3 (by decide)

/-- and the evaluator agrees -/
example (s : S) : parseNum (knot 1) (b! "1 + 2*3") s = .ok (some 9) { s with parseDepth := 0, fwdRef := false } :=
  C03_value s 0 1 [] _ [] [] 9 (spec_left_to_right s) (by omega) (by omega) (by intro c hc; simp at hc)
    (by intro c hc; simp at hc) (Or.inl rfl)

example (s : S) : parseNum (knot 1) (b! "7/0") s = .ok none (errorAt 0x203 { s with parseDepth := 1, fwdRef := false }) := rfl

/-! ### C07 -/

/-- C07: a character constant stands for its character code, an escape for the code of the character it
names. -/
theorem C07_characters (s : S) (n : Nat) (t : Str) (v : Int)
    (h : (∃ c : Nat, c ≠ 92 ∧ 0 < c ∧ c < 128 ∧ t = [39, c, 39] ∧ v = c) ∨
      (∃ c, (c, v) ∈ escapes ∧ t = [39, 92, c, 39])) :
    parseNum (knot (n + 1)) t s = .ok (some v) { s with parseDepth := 0, fwdRef := false } := by
  have ha : Atom (toI32 s.pc) (visibleLabel s) t v := by
    rcases h with ⟨c, h1, h2, h3, rfl, rfl⟩ | ⟨c, h1, rfl⟩
    · exact .char c h1 h2 h3
    · exact .escape c v h1
  have := C03_value s 0 (n + 1) [] t [] [] v (.one 0 t v (.plain 0 t v (.atom t v ha))) (by omega) (by omega)
    (by intro c hc; simp at hc) (by intro c hc; simp at hc) (Or.inl rfl)
  simpa using this

example : (110, 10) ∈ escapes := by decide
example (s : S) : parseNum (knot 1) (b! "'\\n'") s = .ok (some 10) { s with parseDepth := 0, fwdRef := false } := rfl

end Spasm.Props
