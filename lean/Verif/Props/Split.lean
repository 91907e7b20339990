import Verif.Lemmas.Split

/-
C42: argument lists are split at their commas, against Spec/Split.lean.
-/

namespace Spasm.Props
open Spasm Spec

theorem EndsList.stops {r : Str} (h : EndsList r) : Stops [44] r := by
  rcases h with rfl | ⟨c, t, rfl, h⟩
  · exact .inl rfl
  · rcases h with rfl | rfl | rfl | rfl | rfl
    · exact .inl rfl
    · exact .inl rfl
    · exact .inl rfl
    · exact .inl rfl
    · exact .inr (.inr rfl)

theorem comma_delims : (34 ∉ [44] ∧ 39 ∉ [44] ∧ 40 ∉ [44]) ∧ ∀ c ∈ [44], ¬ White c := by
  refine ⟨by decide, ?_⟩
  intro c hc
  simp at hc; subst hc
  unfold White; omega

/-- Read one argument after the other until there is none, as the program does for macro calls, parameter lists
and the operands of data directives. -/
def splitAll : Nat → Bool → Str → M (List Str × Str)
  | 0, _, _ => M.halt .fuel
  | f + 1, expecting, s => do
    let (w, expecting, s) ← extractArg expecting s
    match w with
    | none => pure ([], s)
    | some w => do
      let (ws, s) ← splitAll f expecting s
      pure (w :: ws, s)

/-- C42, one argument: it is returned without the blanks around it, and the position is behind the comma that ends
it; `true` tells that another argument must follow. -/
theorem C42_argument (b a b' r : Str) (e : Bool) (s : S) (hb : Blanks b) (hb' : Blanks b') (ha : Argument a)
    (hl : (a ++ b').length ≤ 254) : extractArg e (b ++ a ++ b' ++ [44] ++ r) s = .ok (some a, true, r) s := by
  unfold extractArg
  rw [show b ++ a ++ b' ++ [44] ++ r = b ++ a ++ b' ++ (44 :: r) by simp,
    M.bind_ok (readExpr_balanced true [44] comma_delims.1 comma_delims.2 b a b' (44 :: r) s hb hb' ha.balanced ha.trimmed
      (fun _ => hl) (.inr (.inl (by simp [hd]))))]
  rfl

/-- C42, the last argument. -/
theorem C42_last_argument (b a b' r : Str) (e : Bool) (s : S) (hb : Blanks b) (hb' : Blanks b') (ha : Argument a)
    (hl : (a ++ b').length ≤ 254) (hr : EndsList r) : extractArg e (b ++ a ++ b' ++ r) s = .ok (some a, false, r) s := by
  unfold extractArg
  rw [M.bind_ok (readExpr_balanced true [44] comma_delims.1 comma_delims.2 b a b' r s hb hb' ha.balanced ha.trimmed
      (fun _ => hl) (EndsList.stops hr))]
  have : (hd r == 44) = false := by
    rcases hr with rfl | ⟨c, t, rfl, h⟩
    · rfl
    · rcases h with rfl | rfl | rfl | rfl | rfl <;> rfl
  simp only [this, if_true, Bool.false_eq_true, if_false]
  rfl

/-- At the end of the list there is no further argument. -/
theorem extractArg_end {r : Str} (hr : EndsList r) (s : S) : extractArg false r s = .ok (none, false, r) s := by
  have hsk : skipWs r = r := by
    rcases hr with rfl | ⟨c, t, rfl, h⟩
    · rfl
    · rcases h with rfl | rfl | rfl | rfl | rfl <;> rfl
  have : (isEnd r || hd r == 41) = true := by
    rcases hr with rfl | ⟨c, t, rfl, h⟩
    · rfl
    · rcases h with rfl | rfl | rfl | rfl | rfl <;> rfl
  unfold extractArg
  rw [M.bind_ok (a := (false, [], r)) (s' := s)]
  · rfl
  · unfold readExpr; simp only [hsk, this, if_true]

/-- C42: a list of balanced arguments, joined by commas and with any blanks around them, is split into exactly these
arguments; commas inside parentheses, strings and character constants do not split, and nothing is reported. -/
theorem C42_split {args : List Str} {t : Str} (h : Joined args t) : ∀ (r : Str) (e : Bool) (s : S) (f : Nat), EndsList r →
    args.length < f → splitAll f e (t ++ r) s = .ok (args, r) s := by
  induction h with
  | one b a b' hb hb' ha hl =>
    intro r e s f hr hf
    obtain ⟨f, rfl⟩ : ∃ m, f = m + 2 := ⟨f - 2, by simp at hf; omega⟩
    rw [splitAll, M.bind_ok (C42_last_argument b a b' r e s hb hb' ha hl hr)]
    have h0 := extractArg_end hr s
    dsimp only
    rw [splitAll]
    simp only [M.bind_assoc]
    rw [M.bind_ok h0]
    rfl
  | more b a b' as t hb hb' ha hl hj ih =>
    intro r e s f hr hf
    obtain ⟨f, rfl⟩ : ∃ m, f = m + 1 := ⟨f - 1, by simp at hf; omega⟩
    rw [show b ++ a ++ b' ++ [44] ++ t ++ r = b ++ a ++ b' ++ [44] ++ (t ++ r) by simp, splitAll,
      M.bind_ok (C42_argument b a b' (t ++ r) e s hb hb' ha hl)]
    dsimp only
    rw [M.bind_ok (ih r true s f hr (by simp at hf; omega))]
    rfl

/-- `f(1,2), "a,b;" ,','` is three arguments. -/
theorem spec_joined : Joined [b! "f(1,2)", b! "\"a,b;\"", b! "','"] (b! "f(1,2), \"a,b;\" ,','") := by
  have hw : ∀ (a : Str), a ≠ [] → (∀ c ∈ a.head?, ¬ White c) → (∀ c ∈ a.getLast?, ¬ White c) → Trimmed a := fun _ h1 h2 h3 => ⟨h1, h2, h3⟩
  have h1 : Argument (b! "f(1,2)") := by
    refine ⟨.char _ 102 _ (by decide) (by decide) (.paren _ (b! "1,2") [] ?_ (.nil _)), hw _ (by decide) ?_ ?_⟩
    · exact .char _ _ _ (by decide) (by simp) (.char _ _ _ (by decide) (by simp) (.char _ _ _ (by decide) (by simp) (.nil _)))
    · intro c hc; simp at hc; subst hc; unfold White; omega
    · intro c hc; simp at hc; subst hc; unfold White; omega
  have h2 : Argument (b! "\"a,b;\"") := by
    refine ⟨.string _ (b! "a,b;") [] ?_ (.nil _), hw _ (by decide) ?_ ?_⟩
    · exact .char _ _ (by decide) (by decide) (.char _ _ (by decide) (by decide) (.char _ _ (by decide) (by decide)
        (.char _ _ (by decide) (by decide) .nil)))
    · intro c hc; simp at hc; subst hc; unfold White; omega
    · intro c hc; simp at hc; subst hc; unfold White; omega
  have h3 : Argument (b! "','") := by
    refine ⟨.quoted _ 44 [] (by decide) (.nil _), hw _ (by decide) ?_ ?_⟩
    · intro c hc; simp at hc; subst hc; unfold White; omega
    · intro c hc; simp at hc; subst hc; unfold White; omega
  have hb : Blanks [] := by intro c hc; simp at hc
  have hb1 : Blanks [32] := by intro c hc; simp at hc; subst hc; exact .inl rfl
  exact .more [] _ [] _ _ hb hb h1 (by decide) (.more [32] _ [32] _ _ hb1 hb1 h2 (by decide) (.one [] _ [] hb hb h3 (by decide)))

example (s : S) : splitAll 4 true (b! "f(1,2), \"a,b;\" ,','" ++ b! ")+1") s =
    .ok ([b! "f(1,2)", b! "\"a,b;\"", b! "','"], b! ")+1") s :=
  C42_split spec_joined _ _ _ _ (.inr ⟨41, b! "+1", rfl, by simp⟩) (by decide)

end Spasm.Props
