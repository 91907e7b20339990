import Verif.Lemmas.Split
import Verif.Lemmas.Names
import Verif.Lemmas.Preop
import Verif.Lemmas.Define
import Verif.Spec.Instr
import Verif.Props.Expr
import Verif.Model.Instr

/-
Matching of operand patterns.
-/

namespace Spasm
open Spec Props

/-! ### Texts with unmatched closing parentheses -/

/-- What is left of a balanced text behind some of its characters. -/
inductive Remnant : Str → Prop
  | nil : Remnant []
  | char (c t) : Ordinary c → Remnant t → Remnant (c :: t)
  | quoted (c t) : c ≠ 92 → Remnant t → Remnant (39 :: c :: 39 :: t)
  | escaped (c t) : Remnant t → Remnant (39 :: 92 :: c :: 39 :: t)
  | string (b t) : StringBody b → Remnant t → Remnant (34 :: b ++ 34 :: t)
  | paren (u t) : Balanced [] true u → Remnant t → Remnant (40 :: u ++ 41 :: t)
  | close (t) : Remnant t → Remnant (41 :: t)

theorem remnant_append {i : Bool} {u t : Str} (h : Balanced [] i u) (ht : Remnant t) : Remnant (u ++ t) := by
  induction h with
  | nil => exact ht
  | char i c u h1 _ _ ih => exact .char c _ h1 ih
  | quoted i c u h1 _ ih => exact .quoted c _ h1 ih
  | escaped i c u _ ih => exact .escaped c _ ih
  | string i b u h1 _ ih => simpa using Remnant.string b _ h1 ih
  | paren i v u hv _ _ ih => simpa using Remnant.paren v _ hv ih

theorem remnant_tail {c : Nat} {t : Str} (h : Remnant (c :: t)) (h1 : c ≠ 34) (h2 : c ≠ 39) : Remnant t := by
  cases h with
  | char _ _ _ h => exact h
  | quoted => exact absurd rfl h2
  | escaped => exact absurd rfl h2
  | string => exact absurd rfl h1
  | paren u t hu ht => exact remnant_append hu (.close _ ht)
  | close _ h => exact h

theorem remnant_start {t : Str} (h : Remnant t) (hne : t ≠ []) : ∃ c r, t = c :: r ∧ c ≠ 10 ∧ c ≠ 13 ∧ c ≠ 59 ∧ c ≠ 92 := by
  cases h with
  | nil => exact absurd rfl hne
  | char c t h => unfold Ordinary at h; exact ⟨c, t, rfl, by omega⟩
  | quoted => exact ⟨_, _, rfl, by omega⟩
  | escaped => exact ⟨_, _, rfl, by omega⟩
  | string => exact ⟨_, _, rfl, by omega⟩
  | paren => exact ⟨_, _, rfl, by omega⟩
  | close => exact ⟨_, _, rfl, by omega⟩

theorem balanced_inside {d : Str} {i : Bool} {u : Str} (h : Balanced d i u) : ∀ d', Balanced d' true u := by
  intro d'
  induction h with
  | nil => exact .nil _
  | char i c t h1 _ _ ih => exact .char _ c t h1 (fun h => by cases h) ih
  | quoted i c t h1 _ ih => exact .quoted _ c t h1 ih
  | escaped i c t _ ih => exact .escaped _ c t ih
  | string i b t h1 _ ih => exact .string _ b t h1 ih
  | paren i u t _ _ ihu ih => exact .paren _ u t ihu ih

theorem remnant_operand {t : Str} (h : Remnant t) : ∃ a r, t = a ++ r ∧ Balanced [44] false a ∧ OperandEnds r ∧ Remnant r := by
  induction h with
  | nil => exact ⟨[], [], rfl, .nil _, .inl rfl, .nil⟩
  | char c t hc ht ih =>
    by_cases h : c = 44
    · exact ⟨[], c :: t, rfl, .nil _, .inr ⟨t, .inl (by rw [h])⟩, .char c t hc ht⟩
    · obtain ⟨a, r, e, ha, hr⟩ := ih
      exact ⟨c :: a, r, by rw [e]; rfl, .char _ c a hc (fun _ => by simpa using h) ha, hr⟩
  | quoted c t hc ht ih =>
    obtain ⟨a, r, e, ha, hr⟩ := ih
    exact ⟨39 :: c :: 39 :: a, r, by rw [e]; rfl, .quoted _ c a hc ha, hr⟩
  | escaped c t ht ih =>
    obtain ⟨a, r, e, ha, hr⟩ := ih
    exact ⟨39 :: 92 :: c :: 39 :: a, r, by rw [e]; rfl, .escaped _ c a ha, hr⟩
  | string b t hb ht ih =>
    obtain ⟨a, r, e, ha, hr⟩ := ih
    exact ⟨34 :: b ++ 34 :: a, r, by rw [e]; simp, .string _ b a hb ha, hr⟩
  | paren u t hu ht ih =>
    obtain ⟨a, r, e, ha, hr⟩ := ih
    exact ⟨40 :: u ++ 41 :: a, r, by rw [e]; simp, .paren _ u a (balanced_inside hu _) ha, hr⟩
  | close t ht ih => exact ⟨[], 41 :: t, rfl, .nil _, .inr ⟨t, .inr rfl⟩, .close t ht⟩

theorem balanced_trim {d : Str} {i : Bool} {a : Str} (h : Balanced d i a) :
    ∃ o bl, a = o ++ bl ∧ Blanks bl ∧ Balanced d i o ∧ ∀ c ∈ o.getLast?, ¬ White c := by
  have pre : ∀ (p o : Str) (c : Nat), ¬ White c → (∀ c ∈ o.getLast?, ¬ White c) → ∀ x ∈ (p ++ c :: o).getLast?, ¬ White x := by
    intro p o c hc ho x hx
    rw [List.getLast?_append] at hx
    cases o with
    | nil => simp at hx; rw [← hx]; exact hc
    | cons y o =>
      have h1 : (c :: y :: o).getLast? = (y :: o).getLast? := by simp [List.getLast?_cons]
      rw [h1] at hx
      refine ho x ?_
      cases hg : (y :: o).getLast? with
      | none => simp at hg
      | some z => rw [hg] at hx; simpa using hx
  induction h with
  | nil => exact ⟨[], [], rfl, by intro c hc; simp at hc, .nil _, by simp⟩
  | char i c t h1 h2 _ ih =>
    obtain ⟨o, bl, e, hbl, ho, hl⟩ := ih
    by_cases hc : o = [] ∧ White c
    · obtain ⟨rfl, hc⟩ := hc
      refine ⟨[], c :: bl, by rw [e]; rfl, ?_, .nil _, by simp⟩
      intro x hx
      rcases List.mem_cons.1 hx with rfl | hx
      · unfold Ordinary at h1; unfold White at hc; omega
      · exact hbl x hx
    · refine ⟨c :: o, bl, by rw [e]; rfl, hbl, .char _ c o h1 h2 ho, ?_⟩
      cases o with
      | nil => intro x hx; simp at hx; subst hx; intro hw; exact hc ⟨rfl, hw⟩
      | cons y o => intro x hx; exact hl x (by simpa [List.getLast?_cons] using hx)
  | quoted i c t h1 _ ih =>
    obtain ⟨o, bl, e, hbl, ho, hl⟩ := ih
    exact ⟨39 :: c :: 39 :: o, bl, by rw [e]; rfl, hbl, .quoted _ c o h1 ho, pre [39, c] o 39 (by decide) hl⟩
  | escaped i c t _ ih =>
    obtain ⟨o, bl, e, hbl, ho, hl⟩ := ih
    exact ⟨39 :: 92 :: c :: 39 :: o, bl, by rw [e]; rfl, hbl, .escaped _ c o ho, pre [39, 92, c] o 39 (by decide) hl⟩
  | string i b t h1 _ ih =>
    obtain ⟨o, bl, e, hbl, ho, hl⟩ := ih
    exact ⟨34 :: b ++ 34 :: o, bl, by rw [e]; simp, hbl, .string _ b o h1 ho, pre (34 :: b) o 34 (by decide) hl⟩
  | paren i u t hu _ _ ih =>
    obtain ⟨o, bl, e, hbl, ho, hl⟩ := ih
    exact ⟨40 :: u ++ 41 :: o, bl, by rw [e]; simp, hbl, .paren _ u o hu ho, pre (40 :: u) o 41 (by decide) hl⟩

/-- The last character of an operand is no comma. -/
theorem balanced_last {o : Str} {i : Bool} (h : Balanced [44] i o) (hi : i = false) : ∀ c ∈ o.getLast?, c ≠ 44 := by
  have pre : ∀ (p o : Str) (c : Nat), c ≠ 44 → (∀ c ∈ o.getLast?, c ≠ 44) → ∀ x ∈ (p ++ c :: o).getLast?, x ≠ 44 := by
    intro p o c hc ho x hx
    rw [List.getLast?_append] at hx
    cases o with
    | nil => simp at hx; rw [← hx]; exact hc
    | cons y o =>
      have h1 : (c :: y :: o).getLast? = (y :: o).getLast? := by simp [List.getLast?_cons]
      rw [h1] at hx
      refine ho x ?_
      cases hg : (y :: o).getLast? with
      | none => simp at hg
      | some z => rw [hg] at hx; simpa using hx
  induction h with
  | nil => simp
  | char i c t h1 h2 _ ih => exact pre [] t c (by simpa using h2 hi) (ih hi)
  | quoted i c t h1 _ ih => exact pre [39, c] t 39 (by decide) (ih hi)
  | escaped i c t _ ih => exact pre [39, 92, c] t 39 (by decide) (ih hi)
  | string i b t h1 _ ih => exact pre (34 :: b) t 34 (by decide) (ih hi)
  | paren i u t hu _ _ ih => exact pre (40 :: u) t 41 (by decide) (ih hi)

/-! ### One step of the scan -/

theorem isArg_iff (c : Nat) : isArg c = true ↔ operandType c ≠ none := by
  unfold isArg operandType
  repeat' split
  all_goals simp_all

/-- The next character is not a blank. -/
def NoBlank (t : Str) : Prop := ∀ c ∈ t.head?, ¬ White c

theorem noBlank_skip {t : Str} (h : NoBlank t) : skipWs t = t := by
  cases t with
  | nil => rfl
  | cons c t =>
    have := h c rfl
    rw [← isSpace_iff] at this
    exact skipWs_cons _ _ (by unfold isBlank; simp [this])

theorem isBlank_iff (c : Nat) : isBlank c = true ↔ c = 32 ∨ c = 9 ∨ c = 11 ∨ c = 12 := by
  unfold isBlank
  rw [Bool.and_eq_true, Bool.and_eq_true, isSpace_iff]
  unfold White
  simp
  omega

theorem skipWs_split (t : Str) : ∃ bl, t = bl ++ skipWs t ∧ Blanks bl ∧ ∀ c ∈ (skipWs t).head?, isBlank c = false := by
  refine ⟨t.takeWhile isBlank, (List.takeWhile_append_dropWhile).symm, fun c hc => ?_, fun c hc => ?_⟩
  · rw [← isBlank_iff]
    exact List.all_eq_true.1 List.all_takeWhile c hc
  · unfold skipWs at hc
    have := List.head?_dropWhile_not isBlank t
    cases h : (t.dropWhile isBlank).head? with
    | none => rw [h] at hc; simp at hc
    | some x => rw [h] at hc this; simp at hc; subst hc; simpa using this

theorem skipWs_append (t rest : Str) (h : AtEnd rest) : skipWs (t ++ rest) = skipWs t ++ rest := by
  induction t with
  | nil =>
    rcases h with rfl | ⟨c, r, rfl, h⟩
    · rfl
    · rcases h with rfl | rfl | rfl | rfl <;> rfl
  | cons c t ih =>
    unfold skipWs at *
    rw [List.cons_append, List.dropWhile_cons, List.dropWhile_cons]
    split
    · exact ih
    · rfl

theorem operandEnds_noBlank {r : Str} (h : OperandEnds r) : NoBlank r := by
  intro c hc
  rcases h with rfl | ⟨r, rfl | rfl⟩
  · simp at hc
  · simp at hc; subst hc; decide
  · simp at hc; subst hc; decide

/-- Reading an empty operand. -/
theorem readExpr_empty {t : Str} (rest : Str) (h : OperandEnds t) (hne : t ≠ []) (s : S) :
    ∃ f, readExpr [44] (t ++ rest) true s = .ok (f, [], t ++ rest) s := by
  rcases h with rfl | ⟨q, rfl | rfl⟩
  · exact absurd rfl hne
  · refine ⟨true, ?_⟩
    unfold readExpr
    have h1 : skipWs (44 :: q ++ rest) = 44 :: (q ++ rest) := skipWs_cons _ _ (by decide)
    simp only [h1]
    rw [if_neg (by unfold isEnd hd; simp)]
    rw [show 3 * (44 :: (q ++ rest)).length + 3 = (3 * (44 :: (q ++ rest)).length + 2) + 1 from rfl,
      read_stop true [44] _ [] _ (.inr (.inl (by simp [hd])))]
    rfl
  · refine ⟨false, ?_⟩
    unfold readExpr
    have h1 : skipWs (41 :: q ++ rest) = 41 :: (q ++ rest) := skipWs_cons _ _ (by decide)
    simp only [h1]
    rw [if_pos (by simp [hd])]
    rfl

/-- Reading an operand that is there. -/
theorem readExpr_some {o bl r : Str} (rest : Str) (ho : Balanced [44] false o) (ht : Trimmed o) (hbl : Blanks bl) (hr : OperandEnds r)
    (hl : (o ++ bl).length ≤ 254) (hrest : AtEnd rest) (s : S) :
    readExpr [44] (o ++ bl ++ r ++ rest) true s = .ok (true, o, r ++ rest) s := by
  have hst : Stops [44] (r ++ rest) := by
    rcases hr with rfl | ⟨r, rfl | rfl⟩
    · exact .inl hrest.isEnd
    · exact .inr (.inl (by simp [hd]))
    · exact .inr (.inr rfl)
  have := readExpr_balanced true [44] (by decide) (by decide) [] o bl (r ++ rest) s (by intro c hc; simp at hc) hbl ho ht
    (fun _ => hl) hst
  simpa using this

/-- Reading one operand. -/
theorem readExpr_operand {t rest : Str} (h : Remnant t) (hl : t.length ≤ 254) (hb : NoBlank t) (hne : t ≠ []) (hr : AtEnd rest) (s : S) :
    ∃ o bl r f, t = o ++ bl ++ r ∧ Balanced [44] false o ∧ Blanks bl ∧ OperandEnds r ∧ Remnant r ∧ (o = [] ∨ Trimmed o) ∧
      (o = [] → bl = [] ∧ r ≠ []) ∧ readExpr [44] (t ++ rest) true s = .ok (f, o, r ++ rest) s := by
  obtain ⟨a, r, e, ha, hre, hrr⟩ := remnant_operand h
  obtain ⟨o, bl, e2, hbl, ho, hlast⟩ := balanced_trim ha
  by_cases hoe : o = []
  · subst hoe
    have hbe : bl = [] := by
      cases bl with
      | nil => rfl
      | cons c bl =>
        have h1 := hb c (by rw [e, e2]; rfl)
        have h2 := hbl c (by simp)
        unfold White at h1; omega
    subst hbe
    have ht : t = r := by rw [e, e2]; rfl
    obtain ⟨f, hf⟩ := readExpr_empty rest hre (ht ▸ hne) s
    exact ⟨[], [], r, f, ht, .nil _, hbl, hre, hrr, .inl rfl, fun _ => ⟨rfl, ht ▸ hne⟩, by rw [ht]; exact hf⟩
  · have htr : Trimmed o := by
      refine ⟨hoe, fun c hc => hb c ?_, hlast⟩
      rw [e, e2]
      cases o with
      | nil => exact absurd rfl hoe
      | cons x o => simpa using hc
    refine ⟨o, bl, r, true, by rw [e, e2], ho, hbl, hre, hrr, .inr htr, fun h => absurd h hoe, ?_⟩
    rw [e, e2]
    exact readExpr_some rest ho htr hbl hre (by rw [e, e2] at hl; simp at hl ⊢; omega) hr s

theorem settle_eq (m : Match) : m.settle = { m.moveTo (skipWs m.cur) with pat := m.pat.tail } := by
  unfold Match.settle
  by_cases h : (!isAlpha (hd m.con) || !isAlpha (hd m.cur)) = true
  · rw [if_pos h]
  · rw [if_neg h]
    have h2 : isAlpha (hd m.cur) = true := by
      simp at h; exact h.2
    have h3 : skipWs m.cur = m.cur := by
      cases hc : m.cur with
      | nil => rfl
      | cons c t =>
        rw [hc] at h2
        refine skipWs_cons _ _ ?_
        have : isAlpha c = true := h2
        unfold isAlpha isUpper isLower at this
        unfold isBlank isSpace
        simp at this ⊢
        omega
    unfold Match.moveTo
    rw [h3]
    simp [between]

/-! ### Uniqueness of the reading -/

theorem fits_noBlank {pat t : Str} {ops : List Str} (h : Fits pat t ops) : NoBlank t := by
  cases h with
  | done => intro c hc; simp at hc
  | literal c x bl pat t ops h1 h2 h3 =>
    intro y hy
    simp at hy
    subst hy
    intro hw
    apply h2
    unfold upperCase at h3
    unfold White at *
    split at h3 <;> split at h3 <;> omega
  | operand c o bl pat t ops h1 h2 h3 =>
    obtain ⟨h3, h4, -⟩ := h3
    intro y hy
    cases o with
    | nil => exact absurd rfl h3
    | cons z o => exact h4 y (by simpa using hy)
  | empty c pat t ops h1 h2 h3 => exact operandEnds_noBlank h3
  | missing => intro c hc; simp at hc

/-! ### The loop over a pattern -/

/-- What is done behind the loop. -/
def finish (m : Match) : M (Option (List (Str × Str)) × Str) :=
  if hd m.pat == 64 && m.caps.length ≥ 3 then M.ub .outOfBounds
  else
    let m := if hd m.pat == 64 then
        { m with caps := m.caps ++ [(m.cur, m.cur)], pat := m.pat.tail } else m
    if m.pat.isEmpty && argEnd m.cur then pure (some m.caps, m.cur) else pure (none, m.cur)

theorem matchInstr_eq (i : Instr) (con t : Str) :
    matchInstr i con t = (matchLoop i.args { pat := i.args, con := con, cur := t, caps := [] } >>= finish) := rfl

/-- Captured operands with the texts they stand for. -/
def Captured (cs : List (Str × Str)) (ops : List Str) : Prop :=
  List.Forall₂ (fun c o => ∃ bl, Blanks bl ∧ capText c = o ++ bl ∧ (o = [] → bl = [])) cs ops

/-- The conditions under which the loop works as it should. -/
def Sound (pat con t : Str) : Prop :=
  (Remnant t ∧ t.length ≤ 254 ∧ (∀ p q, t = p ++ q → ∀ c ∈ (p.reverse ++ con).head?, c = 44 → ∀ d ∈ q.head?, d ≠ 44 ∧ d ≠ 41) ∧ 34 ∉ pat ∧ 39 ∉ pat) ∨
  (NoOperands pat ∧ ∀ c ∈ t, c ≠ 10 ∧ c ≠ 13 ∧ c ≠ 59 ∧ c ≠ 92)

theorem Sound.notEnd {pat con t : Str} (h : Sound pat con t) (hne : t ≠ []) (rest : Str) : isEnd (t ++ rest) = false := by
  obtain ⟨c, r, e, h1⟩ : ∃ c r, t = c :: r ∧ c ≠ 10 ∧ c ≠ 13 ∧ c ≠ 59 ∧ c ≠ 92 := by
    rcases h with h | h
    · exact remnant_start h.1 hne
    · cases t with
      | nil => exact absurd rfl hne
      | cons c r => exact ⟨c, r, rfl, h.2 c (by simp)⟩
  subst e
  unfold isEnd
  simp
  omega

/-- Going on behind some characters that are not quotes. -/
theorem Sound.skip {c0 : Nat} {pat con p q : Str} (h : Sound (c0 :: pat) con (p ++ q)) (hp : Remnant (p ++ q) → 34 ∉ c0 :: pat → 39 ∉ c0 :: pat → Remnant q) :
    Sound pat (p.reverse ++ con) q := by
  rcases h with ⟨h1, h2, h3, h4, h5⟩ | ⟨h1, h2⟩
  · refine .inl ⟨hp h1 h4 h5, by simp at h2; omega, ?_, fun h => h4 (by simp [h]), fun h => h5 (by simp [h])⟩
    intro p' q' e c hc
    exact h3 (p ++ p') q' (by rw [e]; simp) c (by simpa using hc)
  · exact .inr ⟨fun c hc => h1 c (by simp [hc]), fun c hc => h2 c (by simp [hc])⟩

theorem remnant_blanks {bl t : Str} (hb : Blanks bl) (h : Remnant (bl ++ t)) : Remnant t := by
  induction bl with
  | nil => exact h
  | cons c bl ih =>
    have := hb c (by simp)
    exact ih (fun x hx => hb x (by simp [hx])) (remnant_tail h (by omega) (by omega))

theorem toLower_upper (a b : Nat) : (toLower a != toLower b) = false ↔ upperCase a = upperCase b := by
  rw [bne_eq_false_iff_eq]
  exact ⟨upper_of_toLower, toLower_of_upper⟩

theorem matchLoop_spec (rest : Str) (hrest : AtEnd rest) (s : S) : ∀ (pat con t : Str) (caps : List (Str × Str)), Sound pat con t → NoBlank t →
    caps.length + (pat.filter (fun c => (operandType c).isSome)).length ≤ 3 → (∀ c ∈ pat, ¬ White c) →
    (∀ ops, Fits pat t ops → ∃ cs, Captured cs ops ∧
      (matchLoop pat ⟨pat, con, t ++ rest, caps⟩ >>= finish) s = .ok (some (caps ++ cs), rest) s) ∧
    ((∀ ops, ¬ Fits pat t ops) → ∃ t', (matchLoop pat ⟨pat, con, t ++ rest, caps⟩ >>= finish) s = .ok (none, t' ++ rest) s)
  | [], con, t, caps, hs, hb, hc, hw => by
    constructor
    · intro ops h
      cases h
      refine ⟨[], .nil, ?_⟩
      rw [matchLoop, M.pure_bind]
      unfold finish argEnd
      simp [hd, hrest.isEnd]
    · intro h
      have hne : t ≠ [] := by rintro rfl; exact h [] .done
      refine ⟨t, ?_⟩
      rw [matchLoop, M.pure_bind]
      unfold finish argEnd
      simp [hd, hs.notEnd hne rest]
  | c :: pat, con, t, caps, hs, hb, hc, hw => by
    rw [matchLoop]
    by_cases hne : t = []
    · subst hne
      have h1 : argEnd ([] ++ rest) = true := hrest.isEnd
      simp only [h1, if_true]
      rw [M.pure_bind]
      by_cases h64 : c = 64
      · subst h64
        have hlt : caps.length < 3 := by
          rw [List.filter_cons_of_pos (by decide)] at hc
          simp at hc; omega
        have hfin : finish ⟨64 :: pat, con, [] ++ rest, caps⟩ =
            if pat.isEmpty && argEnd ([] ++ rest) then pure (some (caps ++ [(rest, rest)]), rest) else pure (none, rest) := by
          unfold finish
          have : ¬ (3 ≤ caps.length) := by omega
          simp [hd, this]
        rw [hfin, h1, Bool.and_true]
        cases pat with
        | nil =>
          constructor
          · intro ops h
            refine ⟨[(rest, rest)], ?_, rfl⟩
            generalize hp : ([64] : Str) = p at h
            generalize ht : ([] : Str) = u at h
            cases h with
            | done => cases hp
            | literal => cases ht
            | operand c o bl p t ops _ _ htr =>
              obtain ⟨h, -⟩ := htr
              cases o with
              | nil => exact absurd rfl h
              | cons => cases ht
            | empty _ _ _ _ _ h => exact absurd ht.symm h
            | missing => exact .cons ⟨[], by intro c hc; simp at hc, by simp [capText], fun _ => rfl⟩ .nil
          · intro h
            exact absurd .missing (h _)
        | cons d pat =>
          refine ⟨fun ops h => ?_, fun _ => ⟨[], rfl⟩⟩
          exfalso
          generalize hp : (64 :: d :: pat : Str) = p at h
          generalize ht : ([] : Str) = u at h
          cases h with
          | done => cases hp
          | literal => cases ht
          | operand c o bl p t ops _ _ htr =>
            obtain ⟨h, -⟩ := htr
            cases o with
            | nil => exact absurd rfl h
            | cons => cases ht
          | empty _ _ _ _ _ h => exact absurd ht.symm h
          | missing => cases hp
      · refine ⟨fun ops h => ?_, fun _ => ⟨[], ?_⟩⟩
        · exfalso
          generalize hp : (c :: pat : Str) = p at h
          generalize ht : ([] : Str) = u at h
          cases h with
          | done => cases hp
          | literal => cases ht
          | operand c o bl p t ops _ _ htr =>
            obtain ⟨h, -⟩ := htr
            cases o with
            | nil => exact absurd rfl h
            | cons => cases ht
          | empty _ _ _ _ _ h => exact absurd ht.symm h
          | missing => cases hp; exact h64 rfl
        · unfold finish
          simp [hd, h64]
    · have h1 : argEnd (t ++ rest) = false := hs.notEnd hne rest
      simp only [h1, Bool.false_eq_true, if_false]
      obtain ⟨x, t0, rfl⟩ : ∃ x t0, t = x :: t0 := by
        cases t with
        | nil => exact absurd rfl hne
        | cons x t0 => exact ⟨x, t0, rfl⟩
      by_cases harg : isArg c = true
      · rw [if_pos harg]
        have hty := (isArg_iff c).1 harg
        have hlt : caps.length < 3 := by
          rw [List.filter_cons_of_pos (by cases h : operandType c <;> simp_all)] at hc
          simp at hc; omega
        have hs1 : Remnant (x :: t0) ∧ (x :: t0).length ≤ 254 := by
          rcases hs with h | h
          · exact ⟨h.1, h.2.1⟩
          · exact absurd (h.1 c (by simp)) hty
        by_cases hidx : (c == 64 && isNameChar x) = true
        · have h2 : (c == 64 && isNameChar (hd (x :: t0 ++ rest))) = true := hidx
          rw [if_pos h2, M.pure_bind]
          simp at hidx
          obtain ⟨rfl, hnc⟩ := hidx
          rw [isNameChar_iff] at hnc
          refine ⟨fun ops h => ?_, fun _ => ⟨x :: t0, ?_⟩⟩
          · exfalso
            generalize hp : (64 :: pat : Str) = p at h
            generalize ht : (x :: t0 : Str) = u at h
            cases h with
            | done => cases hp
            | literal c x bl p t ops h => cases hp; exact absurd h hty
            | operand c o bl p t ops _ _ htr _ _ hn =>
              cases hp
              obtain ⟨h, -⟩ := htr
              cases o with
              | nil => exact absurd rfl h
              | cons y o => cases ht; exact hn rfl x rfl hnc
            | empty c p t ops _ _ he =>
              rcases he with rfl | ⟨r, rfl | rfl⟩
              · cases ht
              · cases ht; unfold NameChar Alnum at hnc; omega
              · cases ht; unfold NameChar Alnum at hnc; omega
            | missing => cases ht
          · unfold finish
            have : ¬ (3 ≤ caps.length) := by omega
            simp [hd, this]
            rw [if_neg (by rintro ⟨-, h⟩; rw [show x :: (t0 ++ rest) = x :: t0 ++ rest from rfl, h1] at h; cases h)]
            rfl
        · have h2 : ¬ (c == 64 && isNameChar (hd (x :: t0 ++ rest))) = true := hidx
          rw [if_neg h2, if_neg (show ¬ caps.length ≥ 3 by omega)]
          obtain ⟨o, bl, r, f, e, ho, hbl, hre, hrr, htr, hoe, hread⟩ := readExpr_operand hs1.1 hs1.2 hb (by simp) hrest s
          rw [M.bind_assoc, M.bind_ok hread]
          dsimp only
          have hmv : (Match.moveTo ⟨c :: pat, con, x :: t0 ++ rest, caps⟩ (r ++ rest)) = ⟨c :: pat, (o ++ bl).reverse ++ con, r ++ rest, caps⟩ := by
            unfold Match.moveTo
            dsimp only
            rw [e, List.append_assoc, between_append]
          have hlast : ∀ con', (o ++ bl).reverse ++ con ≠ 44 :: con' := by
            intro con' h
            by_cases hnil : o ++ bl = []
            · rw [hnil] at h
              have hr0 : x :: t0 = r := by rw [e, hnil]; rfl
              rcases hs with ⟨-, -, h3, -⟩ | ⟨h3, -⟩
              · have := h3 [] r (by rw [hr0]; rfl) 44 (by simpa using congrArg List.head? h) rfl
                rcases hre with rfl | ⟨q, rfl | rfl⟩
                · cases hr0
                · exact absurd rfl (this 44 rfl).1
                · exact absurd rfl (this 41 rfl).2
              · exact hty (h3 c (by simp))
            · have hg : (o ++ bl).getLast? = some 44 := by
                rw [← List.head?_reverse]
                have := congrArg List.head? h
                rw [List.head?_append] at this
                cases hh : (o ++ bl).reverse.head? with
                | none => rw [List.head?_eq_none_iff, List.reverse_eq_nil_iff] at hh; exact absurd hh hnil
                | some z => rw [hh] at this; simpa using this
              rw [List.getLast?_append] at hg
              cases hbl0 : bl.getLast? with
              | none => rw [hbl0] at hg; exact balanced_last ho rfl 44 (by simpa using hg) rfl
              | some z =>
                rw [hbl0] at hg
                simp at hg
                have := hbl z (List.mem_of_getLast? hbl0)
                omega
          have hm : ∀ m : Match, m.con = (o ++ bl).reverse ++ con → m.stepBack = m := by
            intro m h
            unfold Match.stepBack
            split
            · rename_i con' h'
              exact absurd (h.symm.trans h') (hlast con')
            · rfl
          rw [hm _ (by rw [hmv]), hmv, settle_eq]
          have hsk : skipWs (r ++ rest) = r ++ rest := by
            rw [skipWs_append r rest hrest, noBlank_skip (operandEnds_noBlank hre)]
          have hmv2 : ∀ cs, (Match.moveTo ⟨c :: pat, (o ++ bl).reverse ++ con, r ++ rest, cs⟩ (r ++ rest)) = ⟨c :: pat, (o ++ bl).reverse ++ con, r ++ rest, cs⟩ := by
            intro cs
            unfold Match.moveTo
            simp [between]
          dsimp only
          rw [hsk, hmv2]
          dsimp only [List.tail_cons]
          have hs' : Sound pat ((o ++ bl).reverse ++ con) r := Sound.skip (c0 := c) (by rw [← e]; exact hs) (fun _ _ _ => hrr)
          have hcap : capText (x :: t0 ++ rest, r ++ rest) = o ++ bl := by
            unfold capText
            rw [e]
            rw [if_neg (by simp; omega)]
            dsimp only
            rw [List.append_assoc (o ++ bl), List.take_left' (by simp; omega)]
          have ih := matchLoop_spec rest hrest s pat ((o ++ bl).reverse ++ con) r (caps ++ [(x :: t0 ++ rest, r ++ rest)]) hs'
            (operandEnds_noBlank hre) (by
              rw [List.filter_cons_of_pos (by cases h : operandType c <;> simp_all)] at hc
              simp at hc ⊢; omega) (fun y hy => hw y (by simp [hy]))
          have hcapd : ∀ {cs ops}, Captured cs ops → Captured ((x :: t0 ++ rest, r ++ rest) :: cs) (o :: ops) :=
            fun h => .cons ⟨bl, hbl, hcap, fun h => (hoe h).1⟩ h
          constructor
          · intro ops h
            have key : ∃ ops', ops = o :: ops' ∧ Fits pat r ops' := by
              generalize hp : (c :: pat : Str) = p at h
              generalize ht : (x :: t0 : Str) = u at h
              cases h with
              | done => cases hp
              | literal c x bl p t ops h => cases hp; exact absurd h hty
              | operand c' o' bl' p r' ops h1 h2 h3 h4 h5 h6 h7 =>
                cases hp
                have h8 := readExpr_some rest h2 h3 h4 h5 (by have := hs1.2; rw [ht] at this; simp at this ⊢; omega) hrest s
                rw [← ht, hread] at h8
                simp only [Res.ok.injEq, Prod.mk.injEq, and_true] at h8
                obtain ⟨-, h8, h9⟩ := h8
                have : r = r' := List.append_cancel_right h9
                exact ⟨ops, by rw [h8], this ▸ h7⟩
              | empty c' p r' ops h1 h2 h3 h4 =>
                cases hp
                obtain ⟨f', h8⟩ := readExpr_empty rest h3 h2 s
                rw [← ht, hread] at h8
                simp only [Res.ok.injEq, Prod.mk.injEq, and_true] at h8
                obtain ⟨-, h8, h9⟩ := h8
                have : r = x :: t0 := List.append_cancel_right h9
                exact ⟨ops, by rw [h8], by rw [this, ht]; exact h4⟩
              | missing => cases ht
            obtain ⟨ops', rfl, hf⟩ := key
            obtain ⟨cs, hcs, he⟩ := ih.1 ops' hf
            refine ⟨_, hcapd hcs, ?_⟩
            rw [he]
            simp
          · intro h
            refine ih.2 fun ops' hf => ?_
            by_cases hoz : o = []
            · obtain ⟨hblz, hrz⟩ := hoe hoz
              refine h ([] :: ops') ?_
              rw [e, hoz, hblz]
              exact .empty c pat r ops' hty hrz hre hf
            · refine h (o :: ops') ?_
              rw [e]
              refine .operand c o bl pat r ops' hty ho (htr.resolve_left hoz) hbl hre ?_ hf
              intro h64 y hy hn
              apply hidx
              have : y = x := by
                cases o with
                | nil => exact absurd rfl hoz
                | cons z o => cases e; simpa using hy.symm
              subst this
              rw [h64, (isNameChar_iff y).2 hn]
              rfl
      · rw [if_neg harg]
        have hty : operandType c = none := by
          by_cases h : operandType c = none
          · exact h
          · exact absurd ((isArg_iff c).2 h) harg
        have h64 : c ≠ 64 := by rintro rfl; exact harg rfl
        by_cases heq : upperCase x = upperCase c
        · have h2 : (toLower (hd (x :: t0 ++ rest)) != toLower c) = false := (toLower_upper x c).2 heq
          rw [h2, if_neg (by decide), settle_eq]
          obtain ⟨bl, e0, hbl, hnb⟩ := skipWs_split t0
          have hmv : (Match.moveTo ⟨c :: pat, con, x :: t0 ++ rest, caps⟩ (x :: t0 ++ rest).tail) = ⟨c :: pat, x :: con, t0 ++ rest, caps⟩ := by
            unfold Match.moveTo
            have := between_append [x] (t0 ++ rest)
            simp only [List.cons_append, List.tail_cons, List.nil_append] at this ⊢
            rw [this]
            rfl
          have hmv2 : (Match.moveTo ⟨c :: pat, x :: con, t0 ++ rest, caps⟩ (skipWs (t0 ++ rest))) = ⟨c :: pat, (x :: bl).reverse ++ con, skipWs t0 ++ rest, caps⟩ := by
            unfold Match.moveTo
            dsimp only
            have : t0 ++ rest = bl ++ (skipWs t0 ++ rest) := by rw [← List.append_assoc, ← e0]
            rw [skipWs_append t0 rest hrest]
            conv_lhs => rw [this]
            rw [between_append]
            simp
          rw [hmv, hmv2]
          dsimp only [List.tail_cons]
          have hx : x ≠ 34 ∧ x ≠ 39 ∨ ¬ (34 ∉ c :: pat ∧ 39 ∉ c :: pat) := by
            by_cases h : 34 ∉ c :: pat ∧ 39 ∉ c :: pat
            · left
              have h3 : c ≠ 34 := fun h' => h.1 (by simp [h'])
              have h4 : c ≠ 39 := fun h' => h.2 (by simp [h'])
              unfold upperCase at heq
              split at heq <;> split at heq <;> omega
            · exact .inr h
          have hs' : Sound pat ((x :: bl).reverse ++ con) (skipWs t0) := by
            refine Sound.skip (c0 := c) (p := x :: bl) (by rw [List.cons_append, ← e0]; exact hs) (fun h h3 h4 => ?_)
            rcases hx with hx | hx
            · exact remnant_blanks hbl (remnant_tail h hx.1 hx.2)
            · exact absurd ⟨h3, h4⟩ hx
          have hnb' : NoBlank (skipWs t0) := by
            intro y hy hyw
            have h3 := hnb y hy
            have h4 : skipWs t0 ≠ [] := by rintro h; rw [h] at hy; simp at hy
            have h5 := hs'.notEnd h4 []
            have h6 : ¬ (y = 32 ∨ y = 9 ∨ y = 11 ∨ y = 12) := by rw [← isBlank_iff]; simp [h3]
            cases h7 : skipWs t0 with
            | nil => exact h4 h7
            | cons z q =>
              rw [h7] at hy h5
              simp at hy
              subst hy
              unfold isEnd at h5
              simp at h5
              unfold White at hyw
              omega
          have ih := matchLoop_spec rest hrest s pat ((x :: bl).reverse ++ con) (skipWs t0) caps hs' hnb' (by
              rw [List.filter_cons_of_neg (by rw [hty]; decide)] at hc
              exact hc) (fun y hy => hw y (by simp [hy]))
          constructor
          · intro ops h
            refine ih.1 ops ?_
            generalize hp : (c :: pat : Str) = p at h
            generalize ht : (x :: t0 : Str) = u at h
            cases h with
            | done => cases hp
            | literal c' x' bl' p t' ops h1 h2 h3 h4 h5 =>
              cases hp
              have e9 : t0 = bl' ++ t' := (List.cons.inj ht).2
              rw [e9, skipWs_blanks _ _ h4, noBlank_skip (fits_noBlank h5)]
              exact h5
            | operand c' o' bl' p r' ops h1 => cases hp; exact absurd hty h1
            | empty c' p r' ops h1 => cases hp; exact absurd hty h1
            | missing => cases ht
          · intro h
            refine ih.2 fun ops hf => h ops ?_
            have := Fits.literal c x bl pat (skipWs t0) ops hty (hw c (by simp)) heq hbl hf
            rw [List.cons_append, ← e0] at this
            exact this
        · have h2 : (toLower (hd (x :: t0 ++ rest)) != toLower c) = true := by
            rw [← Bool.not_eq_false]
            exact fun h => heq ((toLower_upper x c).1 h)
          rw [if_pos h2, M.pure_bind]
          refine ⟨fun ops h => ?_, fun _ => ⟨x :: t0, ?_⟩⟩
          · exfalso
            generalize hp : (c :: pat : Str) = p at h
            generalize ht : (x :: t0 : Str) = u at h
            cases h with
            | done => cases hp
            | literal c' x' bl' p t' ops h1 h2 h3 h4 h5 =>
              cases hp
              cases ht
              exact heq h3
            | operand c' o' bl' p r' ops h1 => cases hp; exact absurd hty h1
            | empty c' p r' ops h1 => cases hp; exact absurd hty h1
            | missing => cases ht
          · unfold finish
            simp [hd, h64]

/-! ### The patterns of one mnemonic -/

theorem sound_of_readable {pat con text : Str} (h : Readable pat text) (hcon : ∀ c ∈ con.head?, c ≠ 44) : Sound pat con text := by
  rcases h with ⟨⟨h1, h2, h3⟩, h4, h5⟩ | h
  · refine .inl ⟨by simpa using remnant_append h1 .nil, h3, ?_, h4, h5⟩
    intro p q e c hc h44 d hd
    subst h44
    cases q with
    | nil => simp at hd
    | cons y q =>
      simp at hd
      subst hd
      rcases List.eq_nil_or_concat p with rfl | ⟨p', z, rfl⟩
      · exact absurd rfl (hcon 44 (by simpa using hc))
      · have hz : z = 44 := by simpa using hc
        subst hz
        have := h2 p' q
        rw [e] at this
        refine ⟨fun h => this.1 (by rw [h]; simp), fun h => this.2 (by rw [h]; simp)⟩
  · exact .inr h

theorem matchInstr_spec (i : Instr) (con text rest : Str) (hrest : AtEnd rest) (s : S) (hreg : Regular i.args) (hr : Readable i.args text)
    (hb : NoBlank text) (hcon : ∀ c ∈ con.head?, c ≠ 44) :
    (∀ ops, Fits i.args text ops → ∃ cs, Captured cs ops ∧ matchInstr i con (text ++ rest) s = .ok (some cs, rest) s) ∧
    ((∀ ops, ¬ Fits i.args text ops) → ∃ t', matchInstr i con (text ++ rest) s = .ok (none, t' ++ rest) s) := by
  rw [matchInstr_eq]
  exact matchLoop_spec rest hrest s i.args con text [] (sound_of_readable hr hcon) hb (by simpa using hreg.few) hreg.blanks

theorem matchInstrs_spec (con text rest : Str) (hrest : AtEnd rest) (s : S) (hb : NoBlank text) (hcon : ∀ c ∈ con.head?, c ≠ 44) :
    ∀ (is : List Instr) (last : Str), (∀ i ∈ is, Regular i.args ∧ Readable i.args text) → (∃ t', last = t' ++ rest) →
    (∀ i ops, FirstFit is text i ops → ∃ cs, Captured cs ops ∧ matchInstrs con (text ++ rest) is last s = .ok (some (i, cs), rest) s) ∧
    ((∀ i ∈ is, ∀ ops, ¬ Fits i.args text ops) → ∃ t', matchInstrs con (text ++ rest) is last s = .ok (none, t' ++ rest) s)
  | [], last, _, hl => by
    refine ⟨fun i ops ⟨b, a, e, _⟩ => ?_, fun _ => ?_⟩
    · cases b <;> cases e
    · obtain ⟨t', rfl⟩ := hl
      exact ⟨t', rfl⟩
  | j :: is, last, h, hl => by
    obtain ⟨h1, h2⟩ := matchInstr_spec j con text rest hrest s (h j (by simp)).1 (h j (by simp)).2 hb hcon
    rw [matchInstrs]
    constructor
    · rintro i ops ⟨b, a, e, hf, hn⟩
      cases b with
      | nil =>
        cases e
        obtain ⟨cs, hcs, he⟩ := h1 ops hf
        exact ⟨cs, hcs, by rw [M.bind_ok he]; rfl⟩
      | cons j' b =>
        cases e
        obtain ⟨t', he⟩ := h2 (hn j (by simp))
        obtain ⟨h3, -⟩ := matchInstrs_spec con text rest hrest s hb hcon (b ++ i :: a) (t' ++ rest) (fun x hx => h x (by simp [hx])) ⟨t', rfl⟩
        obtain ⟨cs, hcs, he'⟩ := h3 i ops ⟨b, a, rfl, hf, fun x hx => hn x (by simp [hx])⟩
        refine ⟨cs, hcs, ?_⟩
        rw [M.bind_ok he]
        exact he'
    · intro hn
      obtain ⟨t', he⟩ := h2 (hn j (by simp))
      obtain ⟨-, h3⟩ := matchInstrs_spec con text rest hrest s hb hcon is (t' ++ rest) (fun x hx => h x (by simp [hx])) ⟨t', rfl⟩
      obtain ⟨t'', he'⟩ := h3 fun x hx => hn x (by simp [hx])
      refine ⟨t'', ?_⟩
      rw [M.bind_ok he]
      exact he'

/-- The entries of the opcodes at the front of a list that have the same name. -/
def group (name : Str) (os : List Opcode) : List Instr := (os.takeWhile (fun o => decide (SameText o.name name))).flatMap (·.instrs)

theorem eqCase_sameText (a b : Str) : eqCase a b = true ↔ SameText a b := by
  constructor
  · exact upper_of_eqCase
  · intro h
    rw [eqCase_of_upper h]
    unfold eqCase
    simp

theorem matchArgs_spec (con text rest : Str) (hrest : AtEnd rest) (s : S) (hb : NoBlank text) (hcon : ∀ c ∈ con.head?, c ≠ 44) (name : Str) :
    ∀ (os : List Opcode) (o : Opcode), SameText o.name name → (∀ i ∈ group name (o :: os), Regular i.args ∧ Readable i.args text) →
    (∀ i ops, FirstFit (group name (o :: os)) text i ops → ∃ cs, Captured cs ops ∧
      matchArgs con (text ++ rest) (o :: os) s = .ok (some (i, cs), rest) s) ∧
    ((∀ i ∈ group name (o :: os), ∀ ops, ¬ Fits i.args text ops) → ∃ t', matchArgs con (text ++ rest) (o :: os) s =
      .ok (none, t' ++ rest) (errorAt 0x110 s)) := by
  intro os
  induction os with
  | nil =>
    intro o ho h
    have hg : group name [o] = o.instrs := by unfold group; simp [ho]
    rw [hg] at h ⊢
    obtain ⟨h1, h2⟩ := matchInstrs_spec con text rest hrest s hb hcon o.instrs (text ++ rest) h ⟨text, rfl⟩
    rw [matchArgs]
    constructor
    · intro i ops hf
      obtain ⟨cs, hcs, he⟩ := h1 i ops hf
      exact ⟨cs, hcs, by rw [M.bind_ok he]; rfl⟩
    · intro hn
      obtain ⟨t', he⟩ := h2 hn
      exact ⟨t', by rw [M.bind_ok he]; dsimp only; rw [M.bind_ok (setError_apply _ _ (by decide))]; rfl⟩
  | cons o' os ih =>
    intro o ho h
    by_cases ho' : SameText o'.name name
    · have hg : group name (o :: o' :: os) = o.instrs ++ group name (o' :: os) := by unfold group; simp [ho]
      rw [hg] at h ⊢
      obtain ⟨h1, h2⟩ := matchInstrs_spec con text rest hrest s hb hcon o.instrs (text ++ rest) (fun i hi => h i (by simp [hi])) ⟨text, rfl⟩
      obtain ⟨h3, h4⟩ := ih o' ho' (fun i hi => h i (by simp [hi]))
      have heq : eqCase o.name o'.name = true := (eqCase_sameText _ _).2 (ho.trans ho'.symm)
      rw [matchArgs]
      constructor
      · intro i ops hf
        by_cases hex : ∀ i ∈ o.instrs, ∀ ops, ¬ Fits i.args text ops
        · obtain ⟨t', he⟩ := h2 hex
          obtain ⟨b, a, e, hf, hn⟩ := hf
          have : ∃ b', b = o.instrs ++ b' ∧ group name (o' :: os) = b' ++ i :: a := by
            rcases List.append_eq_append_iff.1 e with ⟨b', e1, e2⟩ | ⟨c, e1, e2⟩
            · exact ⟨b', e1, e2⟩
            · cases c with
              | nil => exact ⟨[], by simpa using e1.symm, by simpa using e2.symm⟩
              | cons z c =>
                cases e2
                exact absurd hf (hex i (by rw [e1]; simp) ops)
          obtain ⟨b', rfl, e2⟩ := this
          obtain ⟨cs, hcs, he'⟩ := h3 i ops ⟨b', a, e2, hf, fun x hx => hn x (by simp [hx])⟩
          refine ⟨cs, hcs, ?_⟩
          rw [M.bind_ok he]
          dsimp only
          rw [heq, if_pos rfl]
          exact he'
        · have : FirstFit o.instrs text i ops := by
            obtain ⟨b, a, e, hf, hn⟩ := hf
            rcases List.append_eq_append_iff.1 e with ⟨b', e1, e2⟩ | ⟨c, e1, e2⟩
            · exact absurd (fun j hj => hn j (by rw [e1]; simp [hj])) hex
            · cases c with
              | nil => exact absurd (fun j hj => hn j (by rw [e1] at hj; simpa using hj)) hex
              | cons z c =>
                cases e2
                exact ⟨b, c, e1, hf, hn⟩
          obtain ⟨cs, hcs, he⟩ := h1 i ops this
          exact ⟨cs, hcs, by rw [M.bind_ok he]; rfl⟩
      · intro hn
        obtain ⟨t', he⟩ := h2 fun i hi => hn i (by simp [hi])
        obtain ⟨t'', he'⟩ := h4 fun i hi => hn i (by simp [hi])
        refine ⟨t'', ?_⟩
        rw [M.bind_ok he]
        dsimp only
        rw [heq, if_pos rfl]
        exact he'
    · have hg : group name (o :: o' :: os) = o.instrs := by unfold group; simp [ho, ho']
      rw [hg] at h ⊢
      obtain ⟨h1, h2⟩ := matchInstrs_spec con text rest hrest s hb hcon o.instrs (text ++ rest) h ⟨text, rfl⟩
      have heq : eqCase o.name o'.name = false := by
        rw [← Bool.not_eq_true, eqCase_sameText]
        exact fun h => ho' (h.symm.trans ho)
      rw [matchArgs]
      constructor
      · intro i ops hf
        obtain ⟨cs, hcs, he⟩ := h1 i ops hf
        exact ⟨cs, hcs, by rw [M.bind_ok he]; rfl⟩
      · intro hn
        obtain ⟨t', he⟩ := h2 hn
        exact ⟨t', by rw [M.bind_ok he]; dsimp only; rw [heq, if_neg (by decide), M.bind_ok (setError_apply _ _ (by decide))]; rfl⟩

end Spasm
