import Verif.Lemmas.Ignored
import Verif.Lemmas.Cond
import Verif.Lemmas.Program
import Verif.Props.Names
import Verif.Props.Cond
import Verif.Props.Defines
import Verif.Lemmas.Include
import Verif.Props.Macro
import Verif.Props.FunctionDef
import Verif.Props.MacroDef
import Verif.Props.Import

/-
Running the lines and conditional groups of a program in the first pass.
-/

namespace Spasm
open Spec Props

theorem block_names {g : Setting} {known new : Defs} {tx tx' : Texts} {pc pc' : Nat} {t : Str} {bs : List Nat} (h : Block g known tx pc t new bs pc' tx') :
    ∀ p ∈ new, Name p.1 := by
  have join : ∀ {new new' : Defs}, (∀ p ∈ new, Name p.1) → (∀ p ∈ new', Name p.1) → ∀ p ∈ new' ++ new, Name p.1 := by
    intro new new' h h' p hp
    rcases List.mem_append.1 hp with hp | hp
    · exact h' p hp
    · exact h p hp
  refine Block.rec (motive_1 := fun _ _ _ _ new _ _ _ _ => ∀ p ∈ new, Name p.1) (motive_2 := fun _ _ _ _ new _ _ _ _ => ∀ p ∈ new, Name p.1) (motive_3 := fun _ _ _ _ new _ _ _ _ => ∀ p ∈ new, Name p.1) (motive_4 := fun _ _ _ _ new _ _ _ _ => ∀ p ∈ new, Name p.1)
    ?_ ?_ ?_ ?_ ?_ ?_ ?_ ?_ ?_ ?_ ?_ ?_ ?_ ?_ ?_ ?_ ?_ h
  · intro _ _ _ _ _ _ _ h _; exact stmt_names h
  · intro _ _ _ _ _ _ _ _ _ _ _ _ _ _ _ _ _ _ _ _ ih; exact ih
  · intro _ _ _ _ _ _ _ _ _ _ hn _ _ ih
    exact join (by simpa using hn) ih
  · intro _ _ _ _ _ _ _ _ _ ih; exact ih
  · intro _ _ _ _ _ _ _ _ _ _ _ _ _ _ _ ih1 ih2; exact join ih1 ih2
  · intro _ _ _ p hp; simp at hp
  · intro _ _ _ _ _ _ _ _ _ _ _ _ _ _ _ _ _ _ _ ih1 ih2; exact join ih1 ih2
  · intro _ _ _ _ _ _ _ _ _ _ _ ih; exact ih
  · intro _ _ _ _ _ _ _ _ _ _ _ _ _ _ _ _ _ _ ih; exact ih
  · intro _ _ _ _ _ _ _ _ _ _ _ _ _ _ _ _ _ _ _ ih; exact ih
  · intro _ _ _ _ _ _ _ _ _ _ _ _ _ _ _ _ _ _ _ _ _ _ _ ih; exact ih
  · intro _ _ _ _ _ _ _ _ _ _ _ _ _ _ _ _ _ _ _ _ _ _ _ _ _ _ ih1 ih2; exact join ih1 ih2
  · intro _ _ _ _ _ _ _ _ _ _ _ _ _ _ _ _ _ _ _ _ _ ih; exact ih
  · intro _ _ _ _ _ _ _ _ _ _ _ _ _ _ _ _ _ _ _ _ _ _ ih; exact ih
  · intro _ _ _ _ _ _ _ _ _ _ _ _ _ _ _ _ _ _ _ ih1 ih2; exact join ih1 ih2
  · intro _ _ _ _ _ _ _ _ _ ih; exact ih
  · intro _ _ _ _ _ _ _ _ _ _ _ _ _ _ _ _ _ ih1 ih2; exact join ih1 ih2

theorem program_names {g : Setting} {known new : Defs} {tx tx' : Texts} {pc pc' : Nat} {t : Str} {bs : List Nat} (h : Program g known tx pc t new bs pc' tx') :
    ∀ p ∈ new, Name p.1 := by
  cases h with
  | whole _ _ _ _ _ _ _ _ h => exact block_names h
  | ends _ _ _ _ _ _ _ _ l com _ _ _ _ h h' hc =>
    have := block_names (Block.line _ _ _ l com [10] _ _ _ _ _ _ _ _ _ h' hc (.inl rfl) (.nil _ _ _))
    intro p hp
    rcases List.mem_append.1 hp with hp | hp
    · exact this p (by simpa using hp)
    · exact block_names h p hp

/-- The texts that lines add, none of them for a parameter. -/
theorem program_texts {g : Setting} {known new : Defs} {tx tx' : Texts} {pc pc' : Nat} {t : Str} {bs : List Nat} (h : Program g known tx pc t new bs pc' tx') :
    ∃ added, tx' = added ++ tx ∧ ∀ p ∈ added, g.key p.1 ∉ g.params := by
  have join : ∀ {tx tx1 tx2 : Texts}, (∃ added, tx1 = added ++ tx ∧ ∀ p ∈ added, g.key p.1 ∉ g.params) →
      (∃ added, tx2 = added ++ tx1 ∧ ∀ p ∈ added, g.key p.1 ∉ g.params) → ∃ added, tx2 = added ++ tx ∧ ∀ p ∈ added, g.key p.1 ∉ g.params := by
    rintro tx _ _ ⟨a, rfl, h1⟩ ⟨b, rfl, h2⟩
    refine ⟨b ++ a, by simp, ?_⟩
    intro p hp
    rcases List.mem_append.1 hp with hp | hp
    · exact h2 p hp
    · exact h1 p hp
  have one : ∀ (tx : Texts) (name : Str) m, g.key name ∉ g.params → ∃ added, (name, m) :: tx = added ++ tx ∧ ∀ p ∈ added, g.key p.1 ∉ g.params :=
    fun tx name m h => ⟨[(name, m)], rfl, by simpa using h⟩
  refine Program.rec (motive_1 := fun _ tx _ _ _ _ _ tx' _ => ∃ added, tx' = added ++ tx ∧ ∀ p ∈ added, g.key p.1 ∉ g.params) (motive_2 := fun _ tx _ _ _ _ _ tx' _ => ∃ added, tx' = added ++ tx ∧ ∀ p ∈ added, g.key p.1 ∉ g.params)
    (motive_3 := fun _ tx _ _ _ _ _ tx' _ => ∃ added, tx' = added ++ tx ∧ ∀ p ∈ added, g.key p.1 ∉ g.params) (motive_4 := fun _ tx _ _ _ _ _ tx' _ => ∃ added, tx' = added ++ tx ∧ ∀ p ∈ added, g.key p.1 ∉ g.params)
    ?_ ?_ ?_ ?_ ?_ ?_ ?_ ?_ ?_ ?_ ?_ ?_ ?_ ?_ ?_ ?_ ?_ h
  · intro _ tx _ _ _ _ _ _ _; exact ⟨[], rfl, by simp⟩
  · intro _ _ _ _ _ _ _ _ _ _ _ _ _ added _ _ _ _ _ _ ih
    obtain ⟨a, ha, hp⟩ := ih
    exact ⟨added, rfl, by rw [List.append_cancel_right ha]; exact hp⟩
  · intro _ _ _ _ _ _ _ _ _ _ _ _ _ ih; exact ih
  · intro _ _ _ _ _ _ _ _ _ ih; exact ih
  · intro _ _ _ _ _ _ _ _ _ _ _ _ _ _ _ ih1 ih2; exact join ih1 ih2
  · intro _ tx _; exact ⟨[], rfl, by simp⟩
  · intro _ _ _ _ _ _ _ _ _ _ _ _ _ _ _ _ _ _ _ ih1 ih2; exact join ih1 ih2
  · intro _ _ _ _ _ _ _ _ _ _ _ ih; exact ih
  · intro _ tx _ name _ _ _ _ _ _ _ _ _ hd _ _ _ _ ih; exact join (one tx name _ hd.free) ih
  · intro _ tx _ name _ _ _ _ _ _ _ _ _ _ hd _ _ _ _ ih; exact join (one tx name _ hd.free) ih
  · intro _ tx _ _ name _ _ _ _ _ _ _ _ _ _ _ hp _ _ _ _ _ _ ih; exact join (one tx name _ hp) ih
  · intro _ _ _ _ _ _ _ _ _ _ _ _ _ _ _ _ _ _ _ _ _ _ _ _ _ _ ih1 ih2; exact join ih1 ih2
  · intro _ _ _ _ _ _ _ _ _ _ _ _ _ _ _ _ _ _ _ _ _ ih; exact ih
  · intro _ tx _ name _ _ _ _ _ _ _ _ _ _ _ hd _ _ _ _ _ _ ih; exact join (one tx name _ hd.free) ih
  · intro _ _ _ _ _ _ _ _ _ _ _ _ _ _ _ _ _ _ _ ih1 ih2; exact join ih1 ih2
  · intro _ _ _ _ _ _ _ _ _ ih; exact ih
  · intro _ _ _ _ _ _ _ _ _ _ _ _ _ _ _ _ _ ih1 ih2; exact join ih1 ih2

/-- The level of groups plays no role for the state in front of a statement. -/
theorem At.level {g : Setting} {known : Defs} {tx : Texts} {pc : Nat} {s : S} (h : At g known tx pc s) (n : Int) : At g known tx pc { s with ifLevel := n } :=
  ⟨⟨h.base.caseSens, h.base.args, h.base.named, ⟨h.base.session.1, h.base.session.2⟩, h.base.normal, h.base.ez80, h.base.counter, h.base.stats, h.base.adl,
    h.base.opcodes, h.base.going, h.base.fs, h.base.dirs⟩, h.addr, h.small, h.labels, h.texts, h.mine, h.free, h.kept, h.count⟩

theorem At.passed {g : Setting} {known : Defs} {tx : Texts} {pc : Nat} {s s' : S} (h : At g known tx pc s) (hp : Passed s s') : At g known tx pc s' := by
  have hp : s' = { s with ifLevel := s'.ifLevel, lineNum := s'.lineNum, parseDepth := s'.parseDepth, fwdRef := s'.fwdRef } := hp
  rw [hp]
  exact ⟨⟨h.base.caseSens, h.base.args, h.base.named, ⟨h.base.session.1, h.base.session.2⟩, h.base.normal, h.base.ez80, h.base.counter, h.base.stats, h.base.adl,
    h.base.opcodes, h.base.going, h.base.fs, h.base.dirs⟩, h.addr, h.small, h.labels, h.texts, h.mine, h.free, h.kept, h.count⟩

/-- The fields of `s'` that lines, defines, inclusions and groups change beside `Frame1`. -/
def outer (s s' : S) : S := { s with ifLevel := s'.ifLevel, defines := s'.defines, lastDefine := s'.lastDefine }

/-- What lines, defines, inclusions and groups change: `Frame1`, the defines and the level of groups, which does not fall. -/
structure FrameG (s s' : S) : Prop where
  frame : Frame1 (outer s s') s'
  level : s.ifLevel ≤ s'.ifLevel

theorem FrameG.refl (s : S) : FrameG s s := ⟨Frame1.refl s, Int.le_refl _⟩

theorem Frame1.outer {s s' : S} (h : Frame1 s s') (x : S) : Frame1 (outer s x) (outer s' x) :=
  ⟨congrArg (fun y : S => Spasm.outer y x) h.eq, ⟨h.counted.total, h.counted.code, h.counted.data⟩, h.errors⟩

theorem Frame1.groups {s s' : S} (h : Frame1 s s') : FrameG s s' := by
  have e : Spasm.outer s s' = s := by rw [h.eq]; rfl
  exact ⟨by rw [e]; exact h, by rw [h.eq]⟩

theorem FrameG.trans {s s1 s2 : S} (h : FrameG s s1) (h' : FrameG s1 s2) : FrameG s s2 :=
  ⟨Frame1.trans (s1 := outer s1 s2) (h.frame.outer s2) h'.frame, Int.le_trans h.level h'.level⟩

theorem passed_frame {s s' : S} (h : Passed s s') : Frame1 (outer s s') s' := by
  have h : s' = { s with ifLevel := s'.ifLevel, lineNum := s'.lineNum, parseDepth := s'.parseDepth, fwdRef := s'.fwdRef } := h
  refine ⟨?_, by rw [h]; exact .same rfl rfl rfl, [], by rw [h]; rfl, by simp⟩
  rw [h]
  rfl

theorem Fills.passed {final : Str → Option Int} {D : Nat} {s s' : S} (h : Passed s s') : Fills final D [] s s' := by
  have h : s' = { s with ifLevel := s'.ifLevel, lineNum := s'.lineNum, parseDepth := s'.parseDepth, fwdRef := s'.fwdRef } := h
  rw [h]
  exact (Fills.nil final D s).congr rfl rfl rfl rfl rfl rfl rfl

/-- The conditions of a program decide as the specification says. -/
theorem condition_opens {g : Setting} {known defs : Defs} {tx : Texts} {pc : Nat} {s : S} (hW : Whole g defs) (hsub : ∀ p ∈ known, p ∈ defs)
    (hA : At g known tx pc s) (h20 : g.depth ≤ 20) :
    Opens (Condition g known tx pc) g.depth s where
  going := hA.base.going
  value := by
    intro word c b hw h k hk b0 com hb0 hcom s' hs
    cases h with
    | value word t b v hmem hden hb =>
      obtain ⟨p, e⟩ := (hA.passed hs).worth hW hsub hden h20 k hk b0 b com hb0 hb (by
        rcases hcom with rfl | ⟨r, rfl⟩
        · exact .inl rfl
        · exact .inr ⟨59, r, rfl, by omega⟩)
      refine ⟨v, p, ?_, by by_cases hv : v = 0 <;> simp [hv]⟩
      rw [← e]
      simp
    | ifdef => rcases hw with hw | hw <;> simp at hw
    | ifndef => rcases hw with hw | hw <;> simp at hw
  words := by
    have key : ∀ (name b X : Str), Name name → g.key name ∉ predefinedNames → Blanks b → AtEnd X → ∀ (k : Rec) (s' : S), Passed s s' → ∀ wanted,
        preIfdef k wanted (name ++ b ++ X) s' = doIf k (b ++ X) ((g.meaning tx name).isSome == wanted) { s' with ifLevel := s'.ifLevel + 1 } := by
      intro name b X hn hm hb hX k s' hs wanted
      have hA' := (hA.passed hs).level (s'.ifLevel + 1)
      obtain ⟨t1, t2⟩ := takeName_append name (b ++ X) (name_chars hn) (hX.follows hb)
      have hend : isEnd (name ++ b ++ X) = false := by
        obtain ⟨⟨c, r, rfl, hc, -⟩, -⟩ := hn
        simp [isEnd]
        omega
      unfold preIfdef
      rw [hend]
      simp only [Bool.false_eq_true, if_false]
      rw [M.modify_bind, List.append_assoc, t1, t2]
      generalize hx : ({ s' with ifLevel := s'.ifLevel + 1 } : S) = x at hA' ⊢
      have hcalm := searchDefines_calm name x (by rw [keyOf_eq]; exact refreshed_none _ _ (maintained_key hA'.base hm))
      rw [keyOf_eq] at hcalm
      rw [M.bind_ok hcalm]
      have e : isDefined x name = (g.meaning tx name).isSome := by
        obtain ⟨h1, h2⟩ := hA'.texts name hm
        have key : isDefined x name = ((symbolOf x name).bind Define.meaning).isSome := by
          unfold isDefined symbolOf
          cases argumentOf x name with
          | some d => show d.contents.isSome = (d.contents.map _).isSome; simp
          | none =>
            cases defineOf x name with
            | some d => show d.contents.isSome = (d.contents.map _).isSome; simp
            | none => rfl
        rw [key, h1]
      exact congrArg (fun y => doIf k (b ++ X) (y == wanted) x) ((isDefined_eq x name).trans e)
    intro word c b hw h X hX
    cases h with
    | value word t b v hmem => rcases hw with rfl | rfl <;> simp at hmem
    | ifdef name b hn hm hb =>
      refine ⟨b, hb, fun k s' hs => ?_⟩
      rw [key name b X hn hm hb hX k s' hs]
      simp
    | ifndef name b hn hm hb =>
      refine ⟨b, hb, fun k s' hs => ?_⟩
      rw [key name b X hn hm hb hX k s' hs]
      simp

theorem unchosen_ne {u : Str} (h : Unchosen u) : u ≠ [] := by
  obtain ⟨sts, mid, e, rfl, -, -, h, -⟩ := closed_unchosen h
  intro hu
  have := stmt_count (wordLine_stmt (by decide) h)
  rw [(List.append_eq_nil_iff.1 hu).2] at this
  simp at this

/-- The text takes the pass from `s` to `s'`, with enough rounds left for what follows. -/
def Carries (line : Str → M (Option Str)) (f : Nat) (text R : Str) (s s' : S) : Prop :=
  ∃ f', R.length < f' ∧ firstPassLoop line f (text ++ R) s = firstPassLoop line f' R s'

theorem follows_nameChar {t : Str} (h : Follows t) : ∀ c ∈ t.head?, ¬NameChar c := fun c hc => (h c hc).1

/-- A line that runs is a step of the pass. -/
theorem step_line {line : Str → M (Option Str)} {k f : Nat} (hline : Answers line (k + 2)) {l com nl R : Str} {s s' : S} (hc : Comment com) (hnl : NewLine nl) (hf : (l ++ com ++ nl ++ R).length < f)
    (hg : s.errOccurred = false) (e : runLine (knot (k + 2)) (l ++ (com ++ (nl ++ R))) s = .ok (some (com ++ (nl ++ R))) s') :
    Carries line f (l ++ com ++ nl) R s { s' with lineNum := s'.lineNum + 1 } := by
  obtain ⟨f, rfl⟩ : ∃ m, f = m + 1 := ⟨f - 1, by omega⟩
  have hnl0 : 0 < nl.length := by rcases hnl with rfl | rfl <;> decide
  refine ⟨f, by simp at hf; omega, ?_⟩
  rw [firstPassLoop, M.get_bind, hg]
  have hne : (l ++ com ++ nl ++ R).isEmpty = false := by
    cases hx : l ++ com ++ nl ++ R with
    | nil => simp only [List.append_eq_nil_iff] at hx; rw [hx.1.2] at hnl0; simp at hnl0
    | cons => rfl
  rw [hne, if_neg (by decide), show l ++ com ++ nl ++ R = l ++ (com ++ (nl ++ R)) by simp, M.bind_ok (hline.same _ _ _ _ e)]
  dsimp only
  rw [M.modify_bind, show com ++ (nl ++ R) = com ++ nl ++ R by simp, skip_comment com R hc nl hnl]

theorem line_close {com nl : Str} (R : Str) (hc : Comment com) (hnl : NewLine nl) : LineEnd (com ++ (nl ++ R)) :=
  comment_lineEnd com (nl ++ R) hc (.inr (by rcases hnl with rfl | rfl <;> exact ⟨_, _, rfl, by decide⟩))

/-- A line with a single statement. -/
theorem section_line {k : Nat} {l rest b' : Str} {s s' : S} (hl : ∀ c ∈ l.head?, c ≠ 92) (hne : l ≠ []) (hb' : Blanks b') (hr : LineEnd rest)
    (e : (knot (k + 2)).lineSec (l ++ rest) s = .ok (some (b' ++ rest)) s') : runLine (knot (k + 2)) (l ++ rest) s = .ok (some rest) s' := by
  unfold runLine
  rw [lineLoop]
  have hd92 : dropChar 92 (l ++ rest) = l ++ rest := by
    cases l with
    | nil => exact absurd rfl hne
    | cons c l =>
      have := hl c rfl
      simp [dropChar, hd, this]
  rw [hd92, M.bind_ok e]
  dsimp only
  have h92 : (hd rest == 92) = false := by
    cases rest with
    | nil => rfl
    | cons c r =>
      have := hr.2
      simp only [List.head?_cons, ne_eq, Option.some.injEq] at this
      simpa [hd] using this
  rw [skipWs_blanks _ _ hb', atEnd_skip hr.1, M.get_bind, h92, Bool.and_false, if_neg (by decide)]
  rfl

/-- A line with a preprocessor statement. -/
theorem preop_line {k : Nat} {l rest b b' t : Str} {s s' : S} (hb : Blanks b) (hl : l = b ++ 35 :: t) (hb' : Blanks b') (hr : LineEnd rest)
    (e : (knot (k + 2)).lineSec (l ++ rest) s = .ok (some (b' ++ rest)) s') : runLine (knot (k + 2)) (l ++ rest) s = .ok (some rest) s' := by
  refine section_line ?_ (by rw [hl]; simp) hb' hr e
  intro c hc
  rw [hl] at hc
  cases b with
  | nil => simp at hc; omega
  | cons x b =>
    simp at hc
    have := hb x (by simp)
    omega

theorem meaning_cons {g : Setting} (tx : Texts) (name w : Str) (m : Option (List Str × Str)) :
    g.meaning ((name, m) :: tx) w = if g.key w = g.key name then m else g.meaning tx w := by
  unfold Setting.meaning
  rw [List.find?_cons]
  by_cases h : g.key w = g.key name
  · rw [if_pos h]; simp [h]
  · rw [if_neg h]
    have : decide (g.key name = g.key w) = false := by simp only [decide_eq_false_iff_not]; exact fun e => h e.symm
    simp only [this]

theorem key_pred {g : Setting} {w name : Str} (h : g.key w = g.key name) (hn : g.key name ∉ predefinedNames) : g.key w ∉ predefinedNames := by
  rw [h]; exact hn

/-- The state behind a statement that changes what a name stands for. -/
theorem At.redefine {g : Setting} {known : Defs} {tx : Texts} {pc : Nat} {s s' : S} (hA : At g known tx pc s) {name : Str} {m : Option (List Str × Str)}
    (hn : m ≠ none → Name name ∧ g.key name ∈ g.defined) (ho : g.key name ∉ predefinedNames) (hp : g.key name ∉ g.params)
    (h1 : (defineOf s' name).bind Define.meaning = m) (h2 : m = none → defineOf s' name = none)
    (h3 : ∀ other, nameKey s other ≠ nameKey s name → defineOf s' other = defineOf s other)
    (hs : s' = { s with defines := s'.defines, lastDefine := s'.lastDefine, lineNum := s'.lineNum }) (hw : WellNamed s') :
    At g known ((name, m) :: tx) pc s' := by
  have hk : ∀ u, nameKey s' u = g.key u := by intro u; rw [hs]; exact hA.base.nameKey u
  have ha : ∀ u, argumentOf s' u = argumentOf s u := by intro u; rw [hs]; rfl
  refine ⟨?_, by rw [hs]; exact hA.addr, hA.small, by rw [hs]; exact hA.labels, ?_, ?_, ?_, ?_, by rw [hs]; exact hA.count⟩
  · have hb := hA.base
    have hw' : WellNamed s' := hw
    rw [hs] at hw' ⊢
    exact ⟨hb.caseSens, hb.args, hw', ⟨hb.session.1, hb.session.2⟩, hb.normal, hb.ez80, hb.counter, hb.stats, hb.adl, hb.opcodes, hb.going, hb.fs, hb.dirs⟩
  · intro w hwp
    rw [meaning_cons]
    unfold symbolOf
    rw [ha]
    by_cases e : g.key w = g.key name
    · rw [if_pos e]
      have : defineOf s' w = defineOf s' name := by unfold defineOf; rw [hk, hk, e]
      rw [this, hA.base.noArgument (by rw [e]; exact hp)]
      exact ⟨h1, h2⟩
    · rw [if_neg e, h3 w (by rw [hA.base.nameKey, hA.base.nameKey]; exact e)]
      exact hA.texts w hwp
  · intro w t' ht
    rw [meaning_cons] at ht
    by_cases e : g.key w = g.key name
    · rw [if_pos e] at ht
      obtain ⟨i1, i2⟩ := hn (by rw [ht]; simp)
      exact ⟨name_key e.symm i1, key_pred e ho, by rw [e]; exact i2⟩
    · rw [if_neg e] at ht
      exact hA.mine w t' ht
  · intro w hw
    rw [h3 w (by rw [hA.base.nameKey, hA.base.nameKey]; intro e; exact hp (e ▸ hw))]
    exact hA.free w hw
  · intro w hw
    rw [h3 w (by rw [hA.base.nameKey, hA.base.nameKey]; intro e; exact ho (e ▸ hw))]
    exact hA.kept w hw

/-- The state behind `#define`. -/
theorem At.define {g : Setting} {known : Defs} {tx : Texts} {pc : Nat} {s s' : S} (hA : At g known tx pc s) {name t : Str} (hn : Name name)
    (ho : g.key name ∉ predefinedNames) (hp : g.key name ∉ g.params) (hl : g.key name ∈ g.defined) (h : NowMeans name t s s') (hw : WellNamed s') :
    At g known ((name, some ([], t)) :: tx) pc s' := by
  refine hA.redefine (fun _ => ⟨hn, hl⟩) ho hp ?_ (by simp) h.others (by rw [h.rest]) hw
  obtain ⟨d, hd1, hd2⟩ := Option.bind_eq_some_iff.1 h.this
  rw [hd1, Option.bind_some]
  unfold Define.text at hd2
  split at hd2
  · rename_i h0
    unfold Define.meaning
    rw [hd2, h0]
    rfl
  · cases hd2

/-- The state behind `#undef`. -/
theorem At.undef {g : Setting} {known : Defs} {tx : Texts} {pc : Nat} {s s' : S} (hA : At g known tx pc s) {name : Str}
    (ho : g.key name ∉ predefinedNames) (hp : g.key name ∉ g.params) (h : NowUndefined name s s') (hw : WellNamed s') :
    At g known ((name, none) :: tx) pc s' :=
  hA.redefine (by simp) ho hp (by rw [h.this]; rfl) (fun _ => h.this) h.others (by rw [h.rest]) hw

/-- From the end of a statement to the next line. -/
theorem At.lineNum {g : Setting} {known : Defs} {tx : Texts} {pc : Nat} {s : S} (h : At g known tx pc s) (n : Int) :
    At g known tx pc { s with lineNum := n } :=
  h.move ⟨rfl, .same rfl rfl rfl, [], rfl, by simp⟩ rfl h.addr h.small

theorem FrameG.lineNum {s s' : S} (h : FrameG s s') (n : Int) : FrameG s { s' with lineNum := n } :=
  h.trans (Frame1.groups ⟨rfl, .same rfl rfl rfl, [], rfl, by simp⟩)

theorem Fills.appended {final : Str → Option Int} {D : Nat} {bs bs' : List Nat} {s s1 s2 : S} (h : Fills final D bs s s1) (hr : HasRoom (bs.length + bs'.length) s)
    (hf : FrameG s s1) (h' : Fills final D bs' s1 s2) : Fills final D (bs ++ bs') s s2 :=
  h.append hr.1 (by rw [hf.frame.eq]; rfl) h'

theorem define_step {g : Setting} {known defs : Defs} (hW : Whole g defs) (hsub : ∀ p ∈ known, p ∈ defs) {tx : Texts} {pc : Nat} {name text l com nl : Str}
    (hd : Defines g known tx name text) (hl : Written (b! "DEFINE") name text [] l) (hc : Comment com) (hnl : NewLine nl)
    {line : Str → M (Option Str)} (k f : Nat) (hline : Answers line (k + 2)) (hk : 0 < k) (s : S)
    (R : Str) (hf : (l ++ com ++ nl ++ R).length < f) (hA : At g known tx pc s) :
    ∃ s', Carries line f (l ++ com ++ nl) R s s' ∧ At g known ((name, some ([], given text)) :: tx) pc s' ∧ FrameG s s' ∧ Fills g.label g.depth [] s s' := by
  obtain ⟨k, rfl⟩ : ∃ m, k = m + 1 := ⟨k - 1, by omega⟩
  have hend := line_close (com := com) (nl := nl) R hc hnl
  have hdef : Definable s name text := by
    refine ⟨?_, name_chars hd.named, ?_, ?_, maintained_key hA.base hd.ours, hd.apart, hd.line, hd.short, hd.plain, ?_⟩
    · obtain ⟨c, r, rfl, -⟩ := name_ne_nil hd.named
      simp
    · exact hA.unlabelled hW hsub hd.listed
    · exact hA.base.noArgument hd.free
    · intro hx w hw
      have ht : g.meaning tx name ≠ none := by
        intro h0
        rw [(hA.noDefine hd.ours h0).2] at hx
        exact hx rfl
      obtain ⟨h1, h2⟩ := hd.again ht w hw
      rw [hA.labels, hA.base.nameKey, hA.base.nameKey]
      exact ⟨h1, h2⟩
  obtain ⟨b, w, c, b1, e1, hb, hw, hcc, hb1⟩ := hl
  have hW' : Written (b! "DEFINE") name text (com ++ (nl ++ R)) (l ++ (com ++ (nl ++ R))) := ⟨b, w, c, b1, by rw [e1]; simp, hb, hw, hcc, hb1⟩
  obtain ⟨b', s1, e2, hb', hm, hw1⟩ := C28_define k s name text _ _ hA.base.named hdef hW' (by
    rcases hend with ⟨h | ⟨c, r, h, hx⟩, hne⟩
    · exact .inl h
    · refine .inr ⟨c, r, h, ?_⟩
      rw [h] at hne
      simp only [List.head?_cons, ne_eq, Option.some.injEq] at hne
      omega)
  have hA1 := hA.define hd.named hd.ours hd.free hd.listed hm hw1
  have hG : FrameG s s1 := by
    have := hm.rest
    refine ⟨⟨?_, by rw [this]; exact .same rfl rfl rfl, [], by rw [this]; rfl, by simp⟩, by rw [this]⟩
    rw [this]
    rfl
  refine ⟨_, step_line hline hc hnl hf hA.base.going (preop_line hb e1 hb' hend e2), hA1.lineNum _, hG.lineNum _, ?_⟩
  have := hm.rest
  rw [this]
  exact (Fills.nil g.label g.depth s).congr rfl rfl rfl rfl rfl rfl rfl

theorem func_step {g : Setting} {known defs : Defs} (hW : Whole g defs) (hsub : ∀ p ∈ known, p ∈ defs) {tx : Texts} {pc : Nat} {name text l com nl : Str}
    {params : List Str} (hd : DefinesFunction g known tx name params text) (hl : FunctionWritten name params text [] l) (hc : Comment com) (hnl : NewLine nl)
    {line : Str → M (Option Str)} (k f : Nat) (hline : Answers line (k + 2)) (hk : 0 < k) (s : S)
    (R : Str) (hf : (l ++ com ++ nl ++ R).length < f) (hA : At g known tx pc s) :
    ∃ s', Carries line f (l ++ com ++ nl) R s s' ∧ At g known ((name, some (params, text)) :: tx) pc s' ∧ FrameG s s' ∧ Fills g.label g.depth [] s s' := by
  obtain ⟨k, rfl⟩ : ∃ m, k = m + 1 := ⟨k - 1, by omega⟩
  have hend := line_close (com := com) (nl := nl) R hc hnl
  have hdef : FunctionDefinable s name params text := by
    refine ⟨?_, name_chars hd.named, ?_, ?_, maintained_key hA.base hd.ours, ?_, hd.few, hd.line, ?_⟩
    · obtain ⟨c, r, rfl, -⟩ := name_ne_nil hd.named
      simp
    · exact hA.unlabelled hW hsub hd.listed
    · exact hA.base.noArgument hd.free
    · rw [show nameKey s = g.key from funext hA.base.nameKey]; exact hd.different
    · intro hx w hw
      have ht : g.meaning tx name ≠ none := by
        intro h0
        rw [(hA.noDefine hd.ours h0).2] at hx
        exact hx rfl
      obtain ⟨h1, h2⟩ := hd.again ht w hw
      rw [hA.labels, hA.base.nameKey, hA.base.nameKey]
      exact ⟨h1, h2⟩
  obtain ⟨b, w, c, b1, u, e1, hb, hw, hcc, hb1, hu⟩ := hl
  have hW' : FunctionWritten name params text (com ++ (nl ++ R)) (l ++ (com ++ (nl ++ R))) := ⟨b, w, c, b1, u, by rw [e1]; simp, hb, hw, hcc, hb1, hu⟩
  obtain ⟨s1, e2, hm, hw1⟩ := C77_function k s name params text _ _ hA.base.named hdef hd.nonempty hW' (by
    rcases hend with ⟨h | ⟨c, r, h, hx⟩, hne⟩
    · exact .inl h
    · refine .inr ⟨c, r, h, ?_⟩
      rw [h] at hne
      simp only [List.head?_cons, ne_eq, Option.some.injEq] at hne
      omega)
  have hrest := hm.rest
  have hA1 : At g known ((name, some (params, text)) :: tx) pc s1 := by
    refine hA.redefine (fun _ => ⟨hd.named, hd.listed⟩) hd.ours hd.free ?_ (by simp) hm.others (by rw [hrest]) hw1
    obtain ⟨d, hd1, hd2, hd3⟩ := hm.this
    rw [hd1, Option.bind_some]
    unfold Define.meaning
    rw [hd2, hd3]
    rfl
  have hG : FrameG s s1 := by
    refine ⟨⟨?_, by rw [hrest]; exact .same rfl rfl rfl, [], by rw [hrest]; rfl, by simp⟩, by rw [hrest]⟩
    rw [hrest]
    rfl
  refine ⟨_, step_line hline hc hnl hf hA.base.going (preop_line hb e1 (b' := []) (by intro c hc; cases hc) hend (by simpa using e2)), hA1.lineNum _, hG.lineNum _, ?_⟩
  rw [hrest]
  exact (Fills.nil g.label g.depth s).congr rfl rfl rfl rfl rfl rfl rfl

theorem undef_step {g : Setting} {known : Defs} {tx : Texts} {pc : Nat} {name word l b com nl : Str} (hn : Name name)
    (ho : g.key name ∉ predefinedNames) (hp : g.key name ∉ g.params)
    (hword : word ∈ [b! "UNDEF", b! "UNDEFINE"]) (hl : Written word name [] [] l) (hb : Blanks b) (hc : Comment com) (hnl : NewLine nl)
    {line : Str → M (Option Str)} (k f : Nat) (hline : Answers line (k + 2)) (s : S)
    (R : Str) (hf : (l ++ b ++ com ++ nl ++ R).length < f) (hA : At g known tx pc s) :
    ∃ s', Carries line f (l ++ b ++ com ++ nl) R s s' ∧ At g known ((name, none) :: tx) pc s' ∧ FrameG s s' ∧ Fills g.label g.depth [] s s' := by
  have hend := line_close (com := com) (nl := nl) R hc hnl
  obtain ⟨b0, w, c, b1, e1, hb0, hw, hcc, hb1⟩ := hl
  have hW' : Written word name [] (b ++ (com ++ (nl ++ R))) (l ++ b ++ (com ++ (nl ++ R))) := ⟨b0, w, c, b1, by rw [e1]; simp, hb0, hw, hcc, hb1⟩
  obtain ⟨s1, e2, hm, hw1⟩ := C28_undef k s name _ _ word (by obtain ⟨c, r, rfl, -⟩ := name_ne_nil hn; simp) (name_chars hn) (by simpa using hword) hW'
    (follows_nameChar (hend.1.follows hb))
  have hA1 := hA.undef ho hp hm (hw1 hA.base.named)
  have hG : FrameG s s1 := by
    have := hm.rest
    refine ⟨⟨?_, by rw [this]; exact .same rfl rfl rfl, [], by rw [this]; rfl, by simp⟩, by rw [this]⟩
    rw [this]
    rfl
  refine ⟨_, step_line hline (l := l ++ b) hc hnl hf hA.base.going (preop_line hb0 (t := w ++ c :: (b1 ++ name ++ [] ++ [] ++ b)) (by rw [e1]; simp) hb hend e2),
    hA1.lineNum _, hG.lineNum _, ?_⟩
  have := hm.rest
  rw [this]
  exact (Fills.nil g.label g.depth s).congr rfl rfl rfl rfl rfl rfl rfl

/-- What a program does to the first pass. -/
def ProgramRuns (g : Setting) (defs : Defs) (known : Defs) (tx : Texts) (pc : Nat) (text : Str) (new : Defs) (bs : List Nat) (pc' : Nat) (tx' : Texts) : Prop :=
  ∃ K, ∀ k, K ≤ k → ∀ line, Answers line (k + 2) → (∀ p ∈ new ++ known, p ∈ defs) → ((new ++ known).map (fun p => g.key p.1)).Nodup →
    ∀ (f : Nat) (s : S), text.length < f → At g known tx pc s → HasRoom bs.length s → 0 ≤ s.ifLevel →
    ∃ s', firstPassLoop line f text s = .ok () s' ∧ At g (new ++ known) tx' pc' s' ∧ FrameG s s' ∧ Fills g.label g.depth bs s s'

/-- What lines do to the first pass. -/
def BlockRuns (g : Setting) (defs : Defs) (known : Defs) (tx : Texts) (pc : Nat) (text : Str) (new : Defs) (bs : List Nat) (pc' : Nat) (tx' : Texts) : Prop :=
  ∃ K, ∀ k, K ≤ k → ∀ line, Answers line (k + 2) → (∀ p ∈ new ++ known, p ∈ defs) → ((new ++ known).map (fun p => g.key p.1)).Nodup →
    ∀ (f : Nat) (s : S) (R : Str), (text ++ R).length < f → At g known tx pc s → HasRoom bs.length s → 0 ≤ s.ifLevel →
    ∃ s', Carries line f text R s s' ∧ At g (new ++ known) tx' pc' s' ∧ FrameG s s' ∧ Fills g.label g.depth bs s s'

theorem import_step {g : Setting} {known : Defs} {tx : Texts} {pc : Nat} {file l com nl bytes : Str} (hst : g.stats = false)
    (hl : Imports file l) (hc : Comment com) (hnl : NewLine nl) (hfile : Found g.fs g.dirs (slashes file) bytes) (hbytes : ∀ x ∈ bytes, x < 256)
    (hpc : pc + bytes.length < 16777216) {line : Str → M (Option Str)} (k f : Nat) (hline : Answers line (k + 2)) (s : S)
    (R : Str) (hf : (l ++ com ++ nl ++ R).length < f) (hA : At g known tx pc s) (room : HasRoom bytes.length s) :
    ∃ s', Carries line f (l ++ com ++ nl) R s s' ∧ At g ([] ++ known) tx (pc + bytes.length) s' ∧ FrameG s s' ∧ Fills g.label g.depth bytes s s' := by
  have hend := line_close (com := com) (nl := nl) R hc hnl
  have hfile' : Located s (slashes file) bytes := by unfold Located; rw [hA.base.fs, hA.base.dirs]; exact hfile
  obtain ⟨b, w, c, b1, b2, e1, hb, hw, hcc, hb1, hb2, hstr, hch, hlen⟩ := hl
  have haddr := hA.addr
  have e2 := Props.C47_import k w hw b b1 file b2 (com ++ (nl ++ R)) c s bytes hfile' hbytes hb hb1 hb2 hcc hstr
    (fun h => (hch 34 h).1 rfl) hlen hend.1 room (by rw [haddr]; omega)
  rw [show (s.pc + (bytes.length : Int)) % 4294967296 = ((pc + bytes.length : Nat) : Int) by rw [haddr]; omega] at e2
  have hF : Frame1 s { emitted bytes s with pc := ((pc + bytes.length : Nat) : Int) } := by
    refine ⟨rfl, ⟨?_, Int.le_refl _, Int.le_refl _⟩, [], rfl, by simp⟩
    intro h
    rw [hA.base.stats, hst] at h
    cases h
  have e4 : (knot (k + 2)).lineSec (l ++ (com ++ (nl ++ R))) s =
      .ok (some ([] ++ (com ++ (nl ++ R)))) { emitted bytes s with pc := ((pc + bytes.length : Nat) : Int) } := by
    rw [show l ++ (com ++ (nl ++ R)) = b ++ 35 :: (w ++ c :: (b1 ++ (34 :: file ++ [34]) ++ b2 ++ (com ++ (nl ++ R)))) by rw [e1]; simp, e2]
    rfl
  refine ⟨_, step_line hline hc hnl hf hA.base.going (preop_line hb (t := w ++ c :: (b1 ++ (34 :: file ++ [34]) ++ b2)) e1 (by intro c hc; simp at hc) hend e4), (hA.move hF rfl rfl hpc).lineNum _, hF.groups.lineNum _,
    (Fills.emitted g.label g.depth _ s room.1).congr rfl rfl rfl rfl rfl rfl rfl⟩

theorem include_step {g : Setting} {known defs new : Defs} {tx tx' : Texts} {pc pc' : Nat} {file l com nl bytes text : Str} {bs : List Nat}
    (hl : Includes file l) (hc : Comment com) (hnl : NewLine nl) (hfile : Found g.fs g.dirs (slashes file) bytes) (hbm : bytes.take 2 ≠ b! "BM")
    (ht : TextOf bytes text) (h : ProgramRuns g defs known tx pc text new bs pc' tx') :
    ∃ K, ∀ k, K ≤ k → ∀ line, Answers line (k + 2) → (∀ p ∈ new ++ known, p ∈ defs) → ((new ++ known).map (fun p => g.key p.1)).Nodup →
    ∀ (f : Nat) (s : S) (R : Str), (l ++ com ++ nl ++ R).length < f → At g known tx pc s → HasRoom bs.length s → 0 ≤ s.ifLevel →
    ∃ s', Carries line f (l ++ com ++ nl) R s s' ∧ At g (new ++ known) tx' pc' s' ∧ FrameG s s' ∧ Fills g.label g.depth bs s s' := by
  obtain ⟨K, h⟩ := h
  refine ⟨K + 2, ?_⟩
  intro k hk line hline hsub hN f s R hf hA room hi
  obtain ⟨k, rfl⟩ : ∃ m, k = m + 2 := ⟨k - 2, by omega⟩
  have hend := line_close (com := com) (nl := nl) R hc hnl
  have hfile' : Located s (slashes file) bytes := by unfold Located; rw [hA.base.fs, hA.base.dirs]; exact hfile
  obtain ⟨path, p1, p2⟩ := fullPath_located s (slashes file) bytes (slashes_no92 _) hfile'
  obtain ⟨b, w, c, b1, b2, e1, hb, hw, hcc, hb1, hb2, hstr, hch, hlen⟩ := hl
  have hbm' : isBitmap bytes = false := by unfold isBitmap; simpa using hbm
  have e2 := include_text (k + 2) w hw b b1 file b2 (com ++ (nl ++ R)) c s path text bytes p1 p2 hbm' (fileText_of ht.1 ht.2) hb hb1 hb2 hcc hstr
    (fun h => (hch 34 h).1 rfl) (fun c hc => (hch c hc).2) hlen hend.1
  have hadl : (if s.mode.ez80 then true else s.adl) = s.adl := by
    rw [hA.base.ez80]
    cases hz : g.ez80 with
    | false => rfl
    | true => rw [hA.base.adl hz]; rfl
  rw [hadl] at e2
  have hA1 : At g known tx pc { s with currFile := path, lineNum := 1 } := by
    have hb := hA.base
    exact ⟨⟨hb.caseSens, hb.args, hb.named, ⟨hb.session.1, hb.session.2⟩, hb.normal, hb.ez80, hb.counter, hb.stats, hb.adl, hb.opcodes, hb.going, hb.fs, hb.dirs⟩,
      hA.addr, hA.small, hA.labels, hA.texts, hA.mine, hA.free, hA.kept, hA.count⟩
  obtain ⟨s2, e3, a3, f3, g3⟩ := h k (by omega) _ (Answers.refl _) hsub hN (text.length + 1) { s with currFile := path, lineNum := 1 } (by omega) hA1 room hi
  have hs2 : s2.inMacro = s.inMacro := by rw [f3.frame.eq]; rfl
  have e4 : (knot (k + 2 + 2)).lineSec (l ++ (com ++ (nl ++ R))) s =
      .ok (some ([] ++ (com ++ (nl ++ R)))) { s2 with currFile := s.currFile, lineNum := s.lineNum, inMacro := s.inMacro } := by
    rw [show l ++ (com ++ (nl ++ R)) = b ++ 35 :: (w ++ c :: (b1 ++ (34 :: file ++ [34]) ++ b2 ++ (com ++ (nl ++ R)))) by rw [e1]; simp, e2, M.bind_ok e3]
    rfl
  have hA3 : At g (new ++ known) tx' pc' { s2 with currFile := s.currFile, lineNum := s.lineNum, inMacro := s.inMacro } := by
    have hb := a3.base
    exact ⟨⟨hb.caseSens, hb.args, hb.named, ⟨hb.session.1, hb.session.2⟩, hb.normal, hb.ez80, hb.counter, hb.stats, hb.adl, hb.opcodes, hb.going, hb.fs, hb.dirs⟩,
      a3.addr, a3.small, a3.labels, a3.texts, a3.mine, a3.free, a3.kept, a3.count⟩
  have hG : FrameG s { s2 with currFile := s.currFile, lineNum := s.lineNum, inMacro := s.inMacro } := by
    refine ⟨⟨?_, ⟨f3.frame.counted.total, f3.frame.counted.code, f3.frame.counted.data⟩, f3.frame.errors⟩, f3.level⟩
    exact congrArg (fun x : S => { x with currFile := s.currFile, lineNum := s.lineNum, inMacro := s.inMacro }) f3.frame.eq
  exact ⟨_, step_line hline hc hnl hf hA.base.going (preop_line hb (t := w ++ c :: (b1 ++ (34 :: file ++ [34]) ++ b2)) e1 (by intro c hc; simp at hc) hend e4),
    hA3.lineNum _, hG.lineNum _, g3.congr rfl rfl rfl rfl rfl rfl rfl⟩

/-! ### Macros -/

theorem macro_step {g : Setting} {known defs : Defs} (hW : Whole g defs) (hsub : ∀ p ∈ known, p ∈ defs) {tx : Texts} {pc : Nat}
    {name l body e com nl : Str} {params : List Str} (hm : MakesMacro g name params) (hl : MacroLine name params l) (hbody : MacroBody body) (he : EndMacro e)
    (hc : Comment com) (hnl : NewLine nl) {line : Str → M (Option Str)} (k f : Nat) (hline : Answers line (k + 2)) (hk : 0 < k) (s : S) (R : Str)
    (hf : (l ++ body ++ e ++ com ++ nl ++ R).length < f) (hA : At g known tx pc s) :
    ∃ s', Carries line f (l ++ body ++ e ++ com ++ nl) R s s' ∧ At g known ((name, some (params, body)) :: tx) pc s' ∧ FrameG s s' ∧
      Fills g.label g.depth [] s s' := by
  obtain ⟨k, rfl⟩ : ∃ m, k = m + 1 := ⟨k - 1, by omega⟩
  have hend := line_close (com := com) (nl := nl) R hc hnl
  obtain ⟨s1, e1, hnow, hw1⟩ := C62_macro k s hA.base.named hA.base.going name hm.named (hA.unlabelled hW hsub hm.listed) (hA.base.noArgument hm.free)
    (maintained_key hA.base hm.ours) params (by rw [show nameKey s = g.key from funext hA.base.nameKey]; exact hm.different) hm.few l body e
    (com ++ (nl ++ R)) hl hbody he (by rcases hc with rfl | ⟨t, rfl, -⟩ <;> rcases hnl with rfl | rfl <;> exact .inr ⟨_, _, rfl, by decide⟩)
  obtain ⟨d, hd1, hd2, hd3, -⟩ := hnow.this
  have hrest := hnow.rest
  have hA1 : At g known ((name, some (params, body)) :: tx) pc s1 := by
    refine hA.redefine (fun _ => ⟨hm.named, hm.listed⟩) hm.ours hm.free ?_ (by simp) hnow.others (by rw [hrest]) hw1
    rw [hd1, Option.bind_some]
    unfold Define.meaning
    rw [hd2, hd3]
    rfl
  have hG : FrameG s s1 := by
    refine ⟨⟨?_, by rw [hrest]; exact .same rfl rfl rfl, [], by rw [hrest]; rfl, by simp⟩, by rw [hrest]⟩
    rw [hrest]
    rfl
  obtain ⟨b, w, c, b1, t, nl', e2, hb, -⟩ := hl
  refine ⟨_, step_line hline (l := l ++ body ++ e) hc hnl hf hA.base.going (preop_line hb (t := w ++ c :: (b1 ++ name ++ t) ++ nl' ++ body ++ e)
    (by rw [e2]; simp) (b' := []) (by intro c hc; cases hc) hend (by simpa using e1)), hA1.lineNum _, hG.lineNum _, ?_⟩
  rw [hrest]
  exact (Fills.nil g.label g.depth s).congr rfl rfl rfl rfl rfl rfl rfl

/-- A line of a macro: it must go on. -/
def strictLine (k : Nat) (t : Str) : M (Option Str) := do
  match ← runLine (knot k) t with
  | none => M.ub .nullDeref
  | some r => pure (some r)

theorem strictLine_answers (k : Nat) : Answers (strictLine k) k where
  same t s r s' h := by
    unfold strictLine
    rw [M.bind_ok h]
    rfl

/-- The lines of a macro are read like those of a file. -/
theorem macroLoop_pass (k f : Nat) : ∀ (t : Str) (s : S), macroLoop (knot k) f t s = firstPassLoop (strictLine k) f t s := by
  induction f with
  | zero => intro t s; rfl
  | succ f ih =>
    intro t s
    rw [macroLoop, firstPassLoop, M.get_bind, M.get_bind, Bool.or_comm]
    split
    · rfl
    · unfold strictLine
      rw [M.bind_assoc]
      cases h : runLine (knot k) t s with
      | stop e s1 => rw [M.bind_stop h, M.bind_stop h]
      | ok o s1 =>
        rw [M.bind_ok h, M.bind_ok h]
        cases o with
        | none => rfl
        | some r =>
          exact ih _ _

theorem meaning_append {g : Setting} (a b : Texts) (w : Str) :
    g.meaning (a ++ b) w = if g.key w ∈ a.map (fun p => g.key p.1) then g.meaning a w else g.meaning b w := by
  induction a with
  | nil => rfl
  | cons q a ih =>
    obtain ⟨n, m⟩ := q
    rw [List.cons_append, meaning_cons, meaning_cons, ih]
    by_cases h : g.key w = g.key n
    · simp [h]
    · have e : g.key w ∈ ((n, m) :: a).map (fun p => g.key p.1) ↔ g.key w ∈ a.map (fun p => g.key p.1) := by
        rw [List.map_cons, List.mem_cons]
        exact or_iff_right h
      rw [if_neg h, if_neg h]
      by_cases h' : g.key w ∈ a.map (fun p => g.key p.1)
      · rw [if_pos h', if_pos (e.2 h')]
      · rw [if_neg h', if_neg (mt e.1 h')]

/-- What the parameters of a call stand for. -/
theorem meaning_passed {g : Setting} (params args : List Str) (vs : List (Option Int)) (tx : Texts) (w : Str) (hlen : args.length = params.length)
    (hlen' : vs.length = params.length) :
    (g.key w ∉ params.map g.key ∧ g.meaning (passedTexts params args vs ++ tx) w = g.meaning tx w) ∨
    ∃ p a v x, (p, a, v) ∈ params.zip (args.zip vs) ∧ g.key w = g.key p ∧ ArgText a v x ∧ g.meaning (passedTexts params args vs ++ tx) w = some ([], x) := by
  induction params generalizing args vs with
  | nil => exact .inl ⟨by simp, rfl⟩
  | cons p params ih =>
    cases args with
    | nil => simp at hlen
    | cons a args =>
      cases vs with
      | nil => simp at hlen'
      | cons v vs =>
        obtain ⟨x, hx, e⟩ : ∃ x, ArgText a v x ∧ passedTexts (p :: params) (a :: args) (v :: vs) ++ tx = (p, some ([], x)) ::
            (passedTexts params args vs ++ tx) := ⟨_, by cases v <;> rfl, rfl⟩
        rw [e, meaning_cons]
        by_cases h : g.key w = g.key p
        · rw [if_pos h]
          exact .inr ⟨p, a, v, x, by simp, h, hx, rfl⟩
        · rw [if_neg h]
          rcases ih args vs (by simpa using hlen) (by simpa using hlen') with ⟨h1, h2⟩ | ⟨p', a', v', x, h1, h2, h3, h4⟩
          · exact .inl ⟨by simp only [List.map_cons, List.mem_cons, not_or]; exact ⟨h, h1⟩, h2⟩
          · exact .inr ⟨p', a', v', x, by simp only [List.zip_cons_cons, List.mem_cons]; exact .inr h1, h2, h3, h4⟩

/-- The arguments of a call have their values. -/
theorem callArg_value {g : Setting} {known defs : Defs} (hW : Whole g defs) (hsub : ∀ p ∈ known, p ∈ defs) {tx : Texts} {pc : Nat} {s : S}
    (hA : At g known tx pc s) {params : List Str} (hp : ∀ p ∈ params, g.key p ∈ g.params) (h20 : g.depth ≤ 20) {k : Nat} (hk0 : g.depth < k) {a : Str} {v : Option Int}
    (h : CallArg g known tx pc params a v) : ∃ x, ArgText a v x ∧ Evaluates (fun _ => True) k s params a x v.isSome := by
  have hs : Settled s := ⟨hA.base.going, hA.base.session.2⟩
  have old : ArgValue s params (min 20 k) a v → ∃ x, ArgText a v x ∧ Evaluates (fun _ => True) k s params a x v.isSome := by
    intro h
    obtain ⟨x, h1, h2⟩ := argValue_reads hs (by omega) params a v h
    exact ⟨x, h1, h2.mono fun _ _ => trivial⟩
  have hk : nameKey s = g.key := funext hA.base.nameKey
  cases h with
  | value d a v hd hdd hv =>
    refine old ⟨d, by omega, ?_, hv⟩
    rw [hA.addr, toI32_eq_asInt32]
    refine Denotes_mono ?_ ?_ hd
    · intro w x hx
      unfold outerLabel
      rw [if_neg, hA.visible hW hsub]
      · exact hx
      · unfold IsParam
        rw [hk]
        intro hw
        obtain ⟨p, hpm, hpk⟩ := List.mem_map.1 hw
        obtain ⟨q, hq, hqk, -⟩ := find_some hx
        exact (hW.good q (hsub q hq)).1.2 (by rw [hqk, ← hpk]; exact (hW.params _ (hp p hpm)).1)
    · intro w x hx
      unfold outerText
      by_cases hw : g.key w ∈ params.map g.key
      · rw [if_pos hw] at hx
        cases hx
      · rw [if_neg hw] at hx
        rw [if_neg (by unfold IsParam; rw [hk]; exact hw)]
        exact hA.visibleText hW hsub hx
  | calls d a v hd hdd hv =>
    exact ⟨fmtEval v, fmtEval_number v ⟨by omega, hv.2⟩, (evaluates_calls hd (evalFun hd) hv.1 s (hA.shows hW hsub) hs k (by omega) (by omega)).mono fun _ _ => trivial⟩
  | name a hn hnp hpre hf hm =>
    obtain ⟨h1, h2⟩ := hA.noDefine hpre hm
    refine old ⟨hn, ?_, h1, by rw [hA.labels]; exact hf, h2⟩
    unfold IsParam
    rw [hk]
    exact hnp

/-- The state in which the lines of a macro are read. -/
theorem At.inside {g : Setting} {known defs : Defs} (hW : Whole g defs) {tx : Texts} {pc : Nat} {s : S} (hA : At g known tx pc s)
    {params args : List Str} {vs : List (Option Int)} {set : Table Define} (hp : ∀ p ∈ params, Name p ∧ g.key p ∈ g.params) (hlen : args.length = params.length)
    (hlen' : vs.length = params.length) (hb : Bindings s params args vs set) (df : Define) (pd : Int) (fw : Bool) :
    At g known (passedTexts params args vs ++ tx) pc (inside { s with parseDepth := pd, fwdRef := fw } df [set]) := by
  have hB := hA.base
  have hk : nameKey s = g.key := funext hB.nameKey
  have harg := fun w => argumentOf_push s (Spec.inside { s with parseDepth := pd, fwdRef := fw } df [set]) set w rfl rfl
  have hout : ∀ w, g.key w ∉ params.map g.key → argumentOf (Spec.inside { s with parseDepth := pd, fwdRef := fw } df [set]) w = argumentOf s w := by
    intro w hw
    rw [harg]
    have := hb.others w (by unfold IsParam; rw [hk]; exact hw)
    rw [← lookup_eq] at this
    rw [this]
  refine ⟨⟨hB.caseSens, ?_, hB.named, ⟨?_, ?_⟩, hB.normal, hB.ez80, hB.counter, hB.stats, hB.adl, hB.opcodes, hB.going, hB.fs, hB.dirs⟩, hA.addr, hA.small, hA.labels,
    ?_, ?_, hA.free, hA.kept, hA.count⟩
  · intro w hw
    by_cases h : g.key w ∈ params.map g.key
    · obtain ⟨p, hp1, hp2⟩ := List.mem_map.1 h
      rw [← hp2]
      exact (hp p hp1).2
    · rw [hout w h] at hw
      exact hB.args w hw
  · have := hB.session.1
    show 1 ≤ s.session + 1
    omega
  · intro e he
    have := hB.session.2 e he
    show e.sess ≤ s.session + 1
    omega
  · intro w hw
    rcases meaning_passed (g := g) params args vs tx w hlen hlen' with ⟨h1, h2⟩ | ⟨p, a, v, x, h1, h2, h3, h4⟩
    · rw [h2]
      unfold symbolOf
      rw [hout w h1]
      exact hA.texts w hw
    · obtain ⟨d, x', b1, b2, b3, b4⟩ := hb.bound p a v h1
      have hx : x' = x := by
        cases v with
        | none => exact b4.trans h3.symm
        | some v => exact Eq.trans b4 (Eq.symm h3)
      have hsym : symbolOf (Spec.inside { s with parseDepth := pd, fwdRef := fw } df [set]) w = some d := by
        unfold symbolOf
        rw [harg, lookup_eq, hk, h2, ← hk, b1]
        rfl
      rw [h4, hsym]
      refine ⟨?_, by simp⟩
      rw [Option.bind_some]
      unfold Define.meaning
      rw [b2, b3, hx]
      rfl
  · intro w m hm
    rcases meaning_passed (g := g) params args vs tx w hlen hlen' with ⟨h1, h2⟩ | ⟨p, a, v, x, h1, h2, h3, h4⟩
    · rw [h2] at hm
      exact hA.mine w m hm
    · have hpm := (List.of_mem_zip h1).1
      obtain ⟨i1, i2⟩ := hp p hpm
      obtain ⟨i3, i4⟩ := hW.params _ i2
      exact ⟨name_key h2.symm i1, by rw [h2]; exact i4, by rw [h2]; exact i3⟩

/-- Back from a macro: the parameters are gone, and messages belong to the call. -/
theorem At.returned {g : Setting} {known known' : Defs} {tx added ps : Texts} {pc pc' : Nat} {s s2 : S} (hA : At g known tx pc s) {df : Define} {pd : Int} {fw : Bool}
    {sets : List (Table Define)} {n : Nat} (hn : sets.length = n) (hadd : ∀ p ∈ added, g.key p.1 ∉ g.params) (hps : ∀ p ∈ ps, g.key p.1 ∈ g.params)
    (a3 : At g known' (added ++ (ps ++ tx)) pc' s2) (f3 : FrameG (Spec.inside { s with parseDepth := pd, fwdRef := fw } df sets) s2) :
    At g known' (added ++ tx) pc' (Spec.returned n s s2) ∧ FrameG s (Spec.returned n s s2) ∧ OwnMessages s s2 := by
  have h1 : s2.session = s.session + 1 := by rw [f3.frame.eq]; rfl
  have h2 : s2.inMacro = s.inMacro + 1 := by rw [f3.frame.eq]; rfl
  have h3 : s2.argSets = sets ++ s.argSets := by rw [f3.frame.eq]; rfl
  have h4 : s2.caseSens = s.caseSens := by rw [f3.frame.eq]; rfl
  obtain ⟨es, e1, e2⟩ := f3.frame.errors
  have e1 : s2.errors = es ++ s.errors := e1
  have e2 : ∀ e ∈ es, e.sess = s.session + 1 ∧ isFatal e.code = false := e2
  have hold : s.errors.map (fun e => if e.sess = s.session + 1 then { e with sess := e.sess - 1 } else e) = s.errors := by
    conv_rhs => rw [← List.map_id s.errors]
    refine List.map_congr_left ?_
    intro e he
    have := hA.base.session.2 e he
    rw [if_neg (by omega)]
    rfl
  obtain ⟨E, hE⟩ : ∃ E, E = es.map (fun e => if e.sess = s.session + 1 then { e with sess := e.sess - 1 } else e) := ⟨_, rfl⟩
  have hEs : ∀ e ∈ E, e.sess = s.session ∧ isFatal e.code = false := by
    intro e he
    rw [hE] at he
    obtain ⟨e', he', rfl⟩ := List.mem_map.1 he
    obtain ⟨i1, i2⟩ := e2 e' he'
    rw [if_pos i1]
    exact ⟨by show e'.sess - 1 = _; omega, i2⟩
  have hret : Spec.returned n s s2 = { s2 with session := s.session, inMacro := s.inMacro, argSets := s.argSets, currFile := s.currFile, lineNum := s.lineNum, errors := E ++ s.errors } := by
    unfold Spec.returned
    rw [h1, h2, h3, e1, List.map_append, hold, hE, List.drop_left' hn, Int.add_sub_cancel, Int.add_sub_cancel]
  rw [hret]
  have harg : ∀ w, argumentOf { s2 with session := s.session, inMacro := s.inMacro, argSets := s.argSets, currFile := s.currFile, lineNum := s.lineNum, errors := E ++ s.errors } w = argumentOf s w := by
    intro w
    unfold argumentOf nameKey
    show List.findSome? _ s.argSets = _
    rw [h4]
  have hmp : ∀ w, g.key w ∉ g.params → g.meaning (added ++ (ps ++ tx)) w = g.meaning (added ++ tx) w := by
    intro w hw
    rw [meaning_append, meaning_append, meaning_append]
    have : g.key w ∉ ps.map (fun p => g.key p.1) := by
      intro h
      obtain ⟨p, hp, hpk⟩ := List.mem_map.1 h
      exact hw (hpk ▸ hps p hp)
    rw [if_neg this]
  have hmq : ∀ w, g.key w ∈ g.params → g.meaning (added ++ tx) w = g.meaning tx w := by
    intro w hw
    rw [meaning_append, if_neg]
    intro h
    obtain ⟨p, hp, hpk⟩ := List.mem_map.1 h
    exact hadd p hp (hpk ▸ hw)
  have hb := a3.base
  refine ⟨⟨⟨hb.caseSens, ?_, hb.named, ⟨hA.base.session.1, ?_⟩, hb.normal, hb.ez80, hb.counter, hb.stats, hb.adl, hb.opcodes, hb.going, hb.fs, hb.dirs⟩,
      a3.addr, a3.small, a3.labels, ?_, ?_, a3.free, a3.kept, a3.count⟩, ⟨⟨?_, ⟨f3.frame.counted.total, f3.frame.counted.code, f3.frame.counted.data⟩, E, rfl, hEs⟩, f3.level⟩, h1, es, e1, fun e he => (e2 e he).1⟩
  · intro w hw
    rw [harg] at hw
    exact hA.base.args w hw
  · intro e he
    rcases List.mem_append.1 he with he | he
    · exact Int.le_of_eq (hEs e he).1
    · exact hA.base.session.2 e he
  · intro w hw
    unfold symbolOf
    rw [harg]
    by_cases hp : g.key w ∈ g.params
    · have i1 := a3.free w hp
      have i2 := hA.texts w hw
      unfold symbolOf at i2
      rw [hA.free w hp] at i2
      rw [hmq w hp]
      have i3 : defineOf { s2 with session := s.session, inMacro := s.inMacro, argSets := s.argSets, currFile := s.currFile, lineNum := s.lineNum, errors := E ++ s.errors } w = none := i1
      rw [i3]
      exact i2
    · rw [hA.base.noArgument hp, ← hmp w hp]
      have i2 := a3.texts w hw
      unfold symbolOf at i2
      rw [hb.noArgument hp] at i2
      exact i2
  · intro w m hm
    by_cases hp : g.key w ∈ g.params
    · rw [hmq w hp] at hm
      exact hA.mine w m hm
    · rw [← hmp w hp] at hm
      exact a3.mine w m hm
  · exact congrArg (fun x : S => { x with session := s.session, inMacro := s.inMacro, argSets := s.argSets, currFile := s.currFile, lineNum := s.lineNum, errors := E ++ s.errors }) f3.frame.eq

theorem nodup_right {g : Setting} {a b : Defs} (h : ((a ++ b).map (fun p => g.key p.1)).Nodup) : (b.map (fun p => g.key p.1)).Nodup := by
  rw [List.map_append] at h
  exact (List.nodup_append.1 h).2.1

/-- What a statement or a call does to the first pass. -/
def PartRuns (g : Setting) (defs : Defs) (known : Defs) (tx : Texts) (pc : Nat) (text : Str) (new : Defs) (bs : List Nat) (pc' : Nat) (tx' : Texts) : Prop :=
  ∃ K, ∀ k, K ≤ k → (∀ p ∈ new ++ known, p ∈ defs) → ((new ++ known).map (fun p => g.key p.1)).Nodup →
    ∀ (s : S) (rest : Str), AtEnd rest → At g known tx pc s → HasRoom bs.length s → 0 ≤ s.ifLevel →
    ∃ s' b, Blanks b ∧ (knot (k + 2)).lineSec (text ++ rest) s = .ok (some (b ++ rest)) s' ∧ At g (new ++ known) tx' pc' s' ∧ FrameG s s' ∧ Fills g.label g.depth bs s s'

/-- What the statements and calls of a line do to the first pass. -/
def RowRuns (g : Setting) (defs : Defs) (known : Defs) (tx : Texts) (pc : Nat) (text : Str) (new : Defs) (bs : List Nat) (pc' : Nat) (tx' : Texts) : Prop :=
  ∃ K, ∀ k, K ≤ k → (∀ p ∈ new ++ known, p ∈ defs) → ((new ++ known).map (fun p => g.key p.1)).Nodup →
    ∀ (f : Nat) (s : S) (rest : Str), LineEnd rest → text.length < f → At g known tx pc s → HasRoom bs.length s → 0 ≤ s.ifLevel →
    ∃ s', lineLoop (knot (k + 2)) f (92 :: (text ++ rest)) s = .ok (some rest) s' ∧ At g (new ++ known) tx' pc' s' ∧ FrameG s s' ∧ Fills g.label g.depth bs s s'

/-- A label in front of a statement. -/
theorem label_step {g : Setting} {defs : Defs} (hW : Whole g defs) (k : Nat) {known : Defs} {tx : Texts} {pc : Nat} {name sep t rest : Str} (hname : Name name)
    (hsep : LabelSep sep t) (hr : AtEnd rest) (hsub : ∀ p ∈ [(name, (pc : Int))] ++ known, p ∈ defs)
    (hN : (([(name, (pc : Int))] ++ known).map (fun p => g.key p.1)).Nodup) (s : S) (hA : At g known tx pc s) :
    ∃ s', (knot (k + 2)).lineSec (name ++ sep ++ t ++ rest) s = (knot (k + 2)).lineSec (t ++ rest) s' ∧ At g ((name, (pc : Int)) :: known) tx pc s' ∧
      Frame1 s s' ∧ Fills g.label g.depth [] s s' := by
  obtain ⟨ha, hd, hl, hnew⟩ := hA.fresh hW name pc hsub hN
  obtain ⟨s1, h1, h2, ⟨tab, ec, log, h3⟩, hlen, h4, -, h6⟩ := label_runs (k + 1) name _ _ hname (labelSep_end hsep hr) s pc hA.addr hA.base.counter ha hd
  have h4 := h4 (.inl hl)
  rw [asInt32_small hA.small] at h1
  have hF : Frame1 s s1 := by
    rw [h3] at h4 ⊢
    obtain ⟨h4, h5⟩ := h4
    refine ⟨?_, .same rfl rfl rfl, [], rfl, by simp⟩
    rw [show ec = s.exitCode from h5, show log = s.log from h4]
  have hA1 : At g ((name, (pc : Int)) :: known) tx pc s1 :=
    ⟨hA.base.frame hF, by rw [h3]; exact hA.addr, hA.small, hnew s1 pc (by rw [h3]) h1 h2, by rw [h3]; exact hA.texts, hA.mine, by rw [h3]; exact hA.free, by rw [h3]; exact hA.kept, by rw [hlen hl, hA.count]; rfl⟩
  refine ⟨s1, ?_, hA1, hF, (Fills.nil g.label g.depth s).congr rfl rfl rfl rfl (by rw [h3]) (by rw [h3]) (by rw [h3])⟩
  rw [← h6]
  simp

theorem part_start {g : Setting} {known new : Defs} {tx tx' : Texts} {pc pc' : Nat} {t : Str} {bs : List Nat} (h : Clause g known tx pc t new bs pc' tx') :
    t.head? ≠ some 92 ∧ (t = [] → new = [] ∧ bs = [] ∧ pc' = pc ∧ tx' = tx) := by
  have hne : ∀ (b name u : Str), Blanks b → Name name → (b ++ name ++ u).head? ≠ some 92 ∧ b ++ name ++ u ≠ [] := by
    intro b name u hb hn
    obtain ⟨c0, r0, hc0, hc92⟩ := name_ne_nil hn
    cases b with
    | nil => rw [hc0]; simpa using hc92
    | cons x b =>
      have := hb x (by simp)
      refine ⟨?_, by simp⟩
      simp only [List.cons_append, List.head?_cons, ne_eq, Option.some.injEq]
      omega
  cases h with
  | stmt _ _ _ _ _ _ _ h =>
    refine ⟨(stmt_start h).1, ?_⟩
    intro ht
    obtain ⟨h1, h2, h3⟩ := (stmt_start h).2 ht
    exact ⟨h1, h2, h3, rfl⟩
  | call _ _ _ name _ _ _ l _ b _ _ _ _ _ hc hct =>
    cases hct with
    | args b1 _ u hb1 _ =>
      have := hne b1 name ([40] ++ u ++ [41] ++ b) hb1 hc.named
      simp only [List.append_assoc] at this ⊢
      exact ⟨this.1, fun h => absurd h this.2⟩
    | none b1 _ hb1 =>
      have := hne b1 name b hb1 hc.named
      exact ⟨this.1, fun h => absurd h this.2⟩
  | labelled _ _ _ name sep t _ _ _ _ hn =>
    have := hne [] name (sep ++ t) (by intro c hc; cases hc) hn
    simp only [List.append_assoc, List.nil_append] at this ⊢
    exact ⟨this.1, fun h => absurd h this.2⟩

theorem empty_row {g : Setting} {known new : Defs} {tx tx' : Texts} {pc pc' : Nat} {l : Str} {bs : List Nat} (h : Row g known tx pc l new bs pc' tx') (hl : l = []) :
    new = [] ∧ bs = [] ∧ pc' = pc ∧ tx' = tx := by
  cases h with
  | one _ _ _ _ _ _ _ _ h => exact (part_start h).2 hl
  | more => simp at hl

theorem stmt_part {g : Setting} {defs : Defs} (hW : Whole g defs) (h20 : g.depth ≤ 20) {known new : Defs} {tx : Texts} {pc pc' : Nat} {t : Str} {bs : List Nat}
    (h : Stmt g known tx pc t new bs pc') (hpc' : pc' < 16777216) : PartRuns g defs known tx pc t new bs pc' tx := by
  refine ⟨g.depth + 1, ?_⟩
  intro k hk hsub hN s rest hr hA room hi
  obtain ⟨s1, e1, a1, f1, g1⟩ := stmt_runs hW k h20 (by omega) (by omega) h hpc' hsub hN rest hr s hA room
  exact ⟨s1, [], (by intro c hc; cases hc), e1, a1, f1.groups, g1⟩

theorem labelled_part {g : Setting} {defs : Defs} (hW : Whole g defs) {known new : Defs} {tx tx' : Texts} {pc pc' : Nat} {name sep t : Str} {bs : List Nat}
    (hname : Name name) (hsep : LabelSep sep t) (h : PartRuns g defs ((name, (pc : Int)) :: known) tx pc t new bs pc' tx') :
    PartRuns g defs known tx pc (name ++ sep ++ t) (new ++ [(name, (pc : Int))]) bs pc' tx' := by
  obtain ⟨K, h⟩ := h
  refine ⟨K, ?_⟩
  intro k hk hsub hN s rest hr hA room hi
  rw [List.append_assoc] at hsub hN
  obtain ⟨s1, e1, a1, f1, g1⟩ := label_step hW k hname hsep hr (fun p hp => hsub p (List.mem_append_right _ hp)) (nodup_right hN) s hA
  have room1 : HasRoom bs.length s1 := g1.room (by simpa using room)
  obtain ⟨s2, b, hb, e2, a2, f2, g2⟩ := h k hk hsub hN s1 rest hr a1 room1 (Int.le_trans hi f1.groups.level)
  refine ⟨s2, b, hb, ?_, by rw [List.append_assoc]; exact a2, f1.groups.trans f2, ?_⟩
  · rw [← e2, ← e1]
  · simpa using g1.appended (by simpa using room) f1.groups g2

theorem row_runs {g : Setting} {defs : Defs} {known new new' : Defs} {tx tx' tx'' : Texts} {pc pc' pc'' : Nat} {t l : Str} {bs bs' : List Nat}
    (h : PartRuns g defs known tx pc t new bs pc' tx') (h' : RowRuns g defs (new ++ known) tx' pc' l new' bs' pc'' tx'') :
    RowRuns g defs known tx pc (t ++ 92 :: l) (new' ++ new) (bs ++ bs') pc'' tx'' := by
  obtain ⟨K, h⟩ := h
  obtain ⟨K', h'⟩ := h'
  refine ⟨max K K', ?_⟩
  intro k hk hsub hN f s rest hr hf hA room hi
  rw [List.length_append] at room
  rw [List.append_assoc] at hsub hN
  have hend : AtEnd (92 :: (l ++ rest)) := .inr ⟨92, _, rfl, by omega⟩
  obtain ⟨s1, b, hb, e1, a1, f1, g1⟩ := h k (by omega) (fun p hp => hsub p (List.mem_append_right _ hp)) (nodup_right hN) s (92 :: (l ++ rest)) hend hA
    (hasRoom_left room) hi
  obtain ⟨f, rfl⟩ : ∃ m, f = m + 1 := ⟨f - 1, by omega⟩
  obtain ⟨s2, e2, a2, f2, g2⟩ := h' k (by omega) hsub hN f s1 rest hr (by simp at hf; omega) a1 (g1.room room) (Int.le_trans hi f1.level)
  refine ⟨s2, ?_, by rw [List.append_assoc]; exact a2, f1.trans f2, g1.appended room f1 g2⟩
  rw [lineLoop]
  have hd92 : dropChar 92 (92 :: (t ++ 92 :: l ++ rest)) = t ++ 92 :: (l ++ rest) := by simp [dropChar, hd]
  rw [hd92, M.bind_ok e1]
  dsimp only
  rw [skipWs_blanks _ _ hb, atEnd_skip hend, M.get_bind, a1.base.going]
  rw [if_pos (by simp [hd])]
  exact e2

theorem row_one {g : Setting} {defs : Defs} {known new : Defs} {tx tx' : Texts} {pc pc' : Nat} {t : Str} {bs : List Nat}
    (h : PartRuns g defs known tx pc t new bs pc' tx') : RowRuns g defs known tx pc t new bs pc' tx' := by
  obtain ⟨K, h⟩ := h
  refine ⟨K, ?_⟩
  intro k hk hsub hN f s rest hr hf hA room hi
  obtain ⟨s1, b, hb, e1, a1, f1, g1⟩ := h k hk hsub hN s rest hr.1 hA room hi
  obtain ⟨f, rfl⟩ : ∃ m, f = m + 1 := ⟨f - 1, by omega⟩
  refine ⟨s1, ?_, a1, f1, g1⟩
  rw [lineLoop]
  have hd92 : dropChar 92 (92 :: (t ++ rest)) = t ++ rest := rfl
  rw [hd92, M.bind_ok e1]
  dsimp only
  have h92 : (hd rest == 92) = false := by
    cases rest with
    | nil => rfl
    | cons c r =>
      have := hr.2
      simp only [List.head?_cons, ne_eq, Option.some.injEq] at this
      simpa [hd] using this
  rw [skipWs_blanks _ _ hb, atEnd_skip hr.1, M.get_bind, h92, Bool.and_false, if_neg (by decide)]
  rfl

/-- The line as the pass runs it. `hq` is what the rest of the line does if the first statement is empty. -/
theorem row_line {g : Setting} {defs : Defs} {known new : Defs} {tx tx' : Texts} {pc pc' : Nat} {l : Str} {bs : List Nat}
    (hrow : Row g known tx pc l new bs pc' tx') (h : RowRuns g defs known tx pc l new bs pc' tx')
    (hq : ∀ q, l = 92 :: q → RowRuns g defs known tx pc q new bs pc' tx') :
    ∃ K, ∀ k, K ≤ k → (∀ p ∈ new ++ known, p ∈ defs) → ((new ++ known).map (fun p => g.key p.1)).Nodup →
    ∀ (s : S) (rest : Str), LineEnd rest → At g known tx pc s → HasRoom bs.length s → 0 ≤ s.ifLevel →
    ∃ s', runLine (knot (k + 2)) (l ++ rest) s = .ok (some rest) s' ∧ At g (new ++ known) tx' pc' s' ∧ FrameG s s' ∧ Fills g.label g.depth bs s s' := by
  by_cases h92 : ∃ q, l = 92 :: q
  · obtain ⟨q, rfl⟩ := h92
    obtain ⟨K, h⟩ := hq q rfl
    refine ⟨K, ?_⟩
    intro k hk hsub hN s rest hr hA room hi
    exact h k hk hsub hN _ s rest hr (by simp; omega) hA room hi
  · obtain ⟨K, h⟩ := h
    refine ⟨K, ?_⟩
    intro k hk hsub hN s rest hr hA room hi
    have hne : (l ++ rest).head? ≠ some 92 := by
      cases l with
      | nil => exact hr.2
      | cons c l =>
        simp only [List.cons_append, List.head?_cons, ne_eq, Option.some.injEq]
        intro hc
        exact h92 ⟨l, by rw [hc]⟩
    have hd92 : dropChar 92 (l ++ rest) = l ++ rest := by
      generalize l ++ rest = x at hne
      cases x with
      | nil => rfl
      | cons c r =>
        simp only [List.head?_cons, ne_eq, Option.some.injEq] at hne
        simp [dropChar, hd, hne]
    obtain ⟨s', e, a, fr, fi⟩ := h k hk hsub hN ((l ++ rest).length + 1) s rest hr (by simp) hA room hi
    refine ⟨s', ?_, a, fr, fi⟩
    rw [← e]
    unfold runLine
    rw [lineLoop, lineLoop, hd92]
    rfl

theorem call_part {g : Setting} {known defs new : Defs} (hW : Whole g defs) (h20 : g.depth ≤ 20) {tx added : Texts} {pc pc' : Nat}
    {name body l b : Str} {params args : List Str} {vs : List (Option Int)} {bs : List Nat} (hm : g.meaning tx name = some (params, body))
    (hcall : Callable g name params) (hct : CallText name args l)
    (hargs : InOrder (CallArg g known tx pc) [] params args vs) (hb : Blanks b)
    (hadd : ∀ p ∈ added, g.key p.1 ∉ g.params)
    (h : ProgramRuns g defs known (passedTexts params args vs ++ tx) pc (32 :: body) new bs pc' (added ++ (passedTexts params args vs ++ tx))) :
    PartRuns g defs known tx pc (l ++ b) new bs pc' (added ++ tx) := by
  obtain ⟨K, h⟩ := h
  refine ⟨K + g.depth + 1, ?_⟩
  intro k hk hsub hN s rest hend hA room hi
  obtain ⟨k, rfl⟩ : ∃ m, k = m + 1 := ⟨k - 1, by omega⟩
  have hk : nameKey s = g.key := funext hA.base.nameKey
  have hsub' : ∀ p ∈ known, p ∈ defs := fun p hp => hsub p (List.mem_append_right _ hp)
  obtain ⟨hlen, hlen'⟩ := hargs.length
  have hps : ∀ p ∈ passedTexts params args vs, g.key p.1 ∈ g.params := by
    intro p hp
    obtain ⟨q, hq, rfl⟩ := List.mem_map.1 hp
    exact (hcall.params q.1 (List.of_mem_zip (a := q.1) (b := q.2) hq).1).2
  obtain ⟨df, hdf, hdm⟩ : ∃ df, defineOf s name = some df ∧ df.meaning = some (params, body) := by
    have := (hA.texts name hcall.ours).1
    unfold symbolOf at this
    rw [hA.base.noArgument hcall.free, hm] at this
    cases hd : defineOf s name with
    | none => rw [hd] at this; cases this
    | some d => rw [hd] at this; exact ⟨d, rfl, this⟩
  obtain ⟨rfl, hbody⟩ : df.args = params ∧ df.contents = some body := by
    unfold Define.meaning at hdm
    cases hcd : df.contents with
    | none => rw [hcd] at hdm; cases hdm
    | some c => rw [hcd] at hdm; cases hdm; exact ⟨rfl, rfl⟩
  have hname : MacroName s name df := ⟨hcall.named, hdf, hA.base.noArgument hcall.free, maintained_key hA.base hcall.ours, by rw [hA.base.opcodes]; exact hW.table,
    by rw [hA.base.opcodes]; exact hcall.noMnemonic, by rw [hA.base.ez80]; exact hcall.noSuffix, hcall.notBuiltIn⟩
  have hpar : Parameters s df.args := by
    refine ⟨by rw [hk]; exact hcall.different, ?_, ?_⟩
    · intro p hp
      obtain ⟨⟨c, r, rfl, hc, -⟩, -⟩ := (hcall.params p hp).1
      rw [List.head?_cons]
      intro h
      cases h
      omega
    · intro p hp
      exact maintained_key hA.base (hW.params _ (hcall.params p hp).2).2
  have finish : ∀ (sets : List (Table Define)) pd fw, sets.length ≤ 1 →
      At g known (passedTexts df.args args vs ++ tx) pc (Spec.inside { s with parseDepth := pd, fwdRef := fw } df sets) →
      (∀ s', macroLoop (knot (k + 2)) (body.length + 2) (32 :: body) (Spec.inside { s with parseDepth := pd, fwdRef := fw } df sets) = .ok () s' → OwnMessages s s' →
        (knot (k + 3)).lineSec (l ++ b ++ rest) s = .ok (some (b ++ rest)) (Spec.returned sets.length s s')) →
      ∃ s' b', Blanks b' ∧ (knot (k + 3)).lineSec (l ++ b ++ rest) s = .ok (some (b' ++ rest)) s' ∧ At g (new ++ known) (added ++ tx) pc' s' ∧ FrameG s s' ∧
        Fills g.label g.depth bs s s' := by
    intro sets pd fw _ hin hrun
    obtain ⟨s2, e3, a3, f3, g3⟩ := h k (by omega) (strictLine (k + 2)) (strictLine_answers _) hsub hN (body.length + 2) _ (by simp) hin room hi
    obtain ⟨a4, f4, ho⟩ := hA.returned rfl hadd hps a3 f3
    exact ⟨_, b, hb, hrun s2 (by rw [macroLoop_pass]; exact e3) ho, a4, f4, g3.congr rfl rfl rfl rfl rfl rfl rfl⟩
  cases hct with
  | args b1 _ u hb1 hj =>
    have hvs : ArgsRead (fun _ => True) (k + 2) s [] df.args args vs :=
      hargs.imp (params := df.args) (by simp) (fun _ h => h)
        (fun done hd a v hav => callArg_value hW hsub' hA (fun p hp => (hcall.params p (hd p hp)).2) h20 (by omega) hav)
    obtain ⟨set, pd, fw, hbind, hrun⟩ := call_reads (fun _ => True) (k + 2) s b1 name u b rest body df args vs hb1 hname hbody hpar hj hvs hb hend
      ⟨hA.base.going, hA.base.session.2⟩ hA.base.session.1
    refine finish [set] pd fw (by simp) (hA.inside hW hcall.params hlen hlen' hbind df pd fw) hrun
  | none b1 hne hb1 =>
    have hargs0 : df.args = [] := by
      cases hd : df.args with
      | nil => rfl
      | cons p r => rw [hd] at hlen; simp at hlen
    refine finish [] s.parseDepth s.fwdRef (by simp) ?_ ?_
    · rw [hargs0]
      have hB := hA.base
      refine ⟨⟨hB.caseSens, hB.args, hB.named, ⟨?_, ?_⟩, hB.normal, hB.ez80, hB.counter, hB.stats, hB.adl, hB.opcodes, hB.going, hB.fs, hB.dirs⟩, hA.addr, hA.small, hA.labels,
        hA.texts, hA.mine, hA.free, hA.kept, hA.count⟩
      · have := hB.session.1
        show 1 ≤ s.session + 1
        omega
      · intro e he
        have := hB.session.2 e he
        show e.sess ≤ s.session + 1
        omega
    · intro s' hl ho
      exact plain_call_runs (k + 2) s s' b1 name b rest body df ⟨hne, hb1⟩ hname hbody hargs0 hb hend hA.base.session hl ho

/-- Two texts, one after the other. -/
theorem Carries.trans {line : Str → M (Option Str)} {f : Nat} {t t' R : Str} {s s1 s2 : S} (h : Carries line f t (t' ++ R) s s1)
    (h' : ∀ f', (t' ++ R).length < f' → Carries line f' t' R s1 s2) : Carries line f (t ++ t') R s s2 := by
  obtain ⟨f1, hf1, e1⟩ := h
  obtain ⟨f2, hf2, e2⟩ := h' f1 hf1
  exact ⟨f2, hf2, by rw [List.append_assoc, e1, e2]⟩

theorem block_seq {g : Setting} {defs known new new' : Defs} {tx tx' tx'' : Texts} {pc pc' pc'' : Nat} {t t' : Str} {bs bs' : List Nat}
    (h : BlockRuns g defs known tx pc t new bs pc' tx') (h' : BlockRuns g defs (new ++ known) tx' pc' t' new' bs' pc'' tx'') :
    BlockRuns g defs known tx pc (t ++ t') (new' ++ new) (bs ++ bs') pc'' tx'' := by
  obtain ⟨K, h⟩ := h
  obtain ⟨K', h'⟩ := h'
  refine ⟨max K K', ?_⟩
  intro k hk line hline hsub hN f s R hf hA room hi
  rw [List.append_assoc] at hsub hN
  rw [List.length_append] at room
  obtain ⟨s1, ⟨f1, hf1, e1⟩, a1, r1, g1⟩ := h k (by omega) line hline (fun p hp => hsub p (List.mem_append_right _ hp)) (nodup_right hN) f s (t' ++ R)
    (by rw [← List.append_assoc]; exact hf) hA (hasRoom_left room) hi
  obtain ⟨s2, ⟨f2, hf2, e2⟩, a2, r2, g2⟩ := h' k (by omega) line hline hsub hN f1 s1 R hf1 a1 (g1.room room) (Int.le_trans hi r1.level)
  refine ⟨s2, ⟨f2, hf2, ?_⟩, by rw [List.append_assoc]; exact a2, r1.trans r2, g1.appended room r1 g2⟩
  rw [List.append_assoc, e1, e2]

theorem group_runs {g : Setting} {defs : Defs} (hW : Whole g defs) (h20 : g.depth ≤ 20) {known new : Defs} {tx tx' : Texts} {pc pc' : Nat}
    {word c chosen : Str} {bs : List Nat} (hg : Group (Condition g known tx pc) word c chosen) (hw : word ∈ openings)
    (h : BlockRuns g defs known tx pc chosen new bs pc' tx') : BlockRuns g defs known tx pc c new bs pc' tx' := by
  obtain ⟨K, ih⟩ := h
  refine ⟨max K (g.depth + c.length + 1), ?_⟩
  intro k hk line hline hsub hN f s R hf hA room hi
  obtain ⟨before, after, hparts, hrun⟩ := group_enters (condition_opens hW (fun p hp => hsub p (List.mem_append_right _ hp)) hA h20) hg
    (by simpa [openings] using hw)
  obtain ⟨f, rfl⟩ : ∃ m, f = m + 1 := ⟨f - 1, by omega⟩
  obtain ⟨s1, e1, p1, -, l1⟩ := hrun k (by omega) line hline f R
  have hlen : c.length = before.length + chosen.length + after.length := by rw [hparts.eq]; simp; omega
  have hb0 : 0 < before.length := List.length_pos_iff.2 hparts.pos
  simp only [List.length_append] at hf
  have a1 := hA.passed p1
  have r1 : FrameG s s1 := ⟨passed_frame p1, by omega⟩
  have g1 := Fills.passed (final := g.label) (D := g.depth) p1
  obtain ⟨s2, ⟨f2, hf2, e2⟩, a2, r2, g2⟩ := ih k (by omega) line hline hsub hN f s1 (after ++ R) (by simp only [List.length_append]; omega) a1
    (g1.room (by simpa using room)) (Int.le_trans hi r1.level)
  have r12 := r1.trans r2
  have g12 : Fills g.label g.depth bs s s2 := by simpa using g1.appended (by simpa using room) r1 g2
  have leave : ∃ s3 f3, R.length < f3 ∧ firstPassLoop line f2 (after ++ R) s2 =
      firstPassLoop line f3 R s3 ∧ Passed s2 s3 ∧ s2.ifLevel ≤ s3.ifLevel + 1 := by
    rcases hparts.rest with ⟨ha, -⟩ | hu
    · rw [ha] at hf2 ⊢
      exact ⟨s2, f2, hf2, rfl, Passed.refl s2, by omega⟩
    · obtain ⟨f2, rfl⟩ : ∃ m, f2 = m + 1 := ⟨f2 - 1, by omega⟩
      have hl2 : 0 < s2.ifLevel := by have := r2.level; omega
      obtain ⟨s3, e3, p3, -, l3, -⟩ := unchosen_leaves hu s2 a2.base.going a2.base.session hl2 k f2 hline R
      have := List.length_pos_iff.2 (unchosen_ne hu)
      exact ⟨s3, f2, by simp only [List.length_append] at hf2 ⊢; omega, e3, p3, l3⟩
  obtain ⟨s3, f3, hf3, e3, p3, l3⟩ := leave
  have r3 : FrameG s s3 :=
    ⟨Frame1.trans (s1 := outer s2 s3) (r12.frame.outer s3) (passed_frame p3), by have := r2.level; omega⟩
  have g3 : Fills g.label g.depth bs s s3 := by
    have := g12.appended (bs' := []) (by simpa using room) r12 (Fills.passed p3)
    simpa using this
  refine ⟨s3, ⟨f3, hf3, ?_⟩, a2.passed p3, r3, g3⟩
  rw [e1, List.append_assoc, e2, e3]

theorem last_line {g : Setting} {defs : Defs} {known new new' : Defs} {tx tx' tx'' : Texts} {pc pc' pc'' : Nat}
    {t l com : Str} {bs bs' : List Nat} (h : BlockRuns g defs known tx pc t new bs pc' tx') (hl : Row g (new ++ known) tx' pc' l new' bs' pc'' tx'')
    (hl1 : RowRuns g defs (new ++ known) tx' pc' l new' bs' pc'' tx'') (hl2 : ∀ q, l = 92 :: q → RowRuns g defs (new ++ known) tx' pc' q new' bs' pc'' tx'')
    (hc : Comment com) : ProgramRuns g defs known tx pc (t ++ (l ++ com)) (new' ++ new) (bs ++ bs') pc'' tx'' := by
  obtain ⟨K, h⟩ := h
  obtain ⟨K', h'⟩ := row_line hl hl1 hl2
  refine ⟨max K K', ?_⟩
  intro k hk line hline hsub hN f s hf hA room hi
  rw [List.length_append] at room
  rw [List.append_assoc] at hsub hN
  simp only [List.length_append] at hf
  obtain ⟨s1, ⟨f1, hf1, e1⟩, a1, r1, g1⟩ := h k (by omega) line hline (fun p hp => hsub p (List.mem_append_right _ hp)) (nodup_right hN) f s (l ++ com)
    (by simp only [List.length_append]; omega) hA (hasRoom_left room) hi
  obtain ⟨f1, rfl⟩ : ∃ m, f1 = m + 1 := ⟨f1 - 1, by omega⟩
  by_cases he : l ++ com = []
  · obtain ⟨hl', hcom⟩ := List.append_eq_nil_iff.1 he
    obtain ⟨rfl, rfl, rfl, rfl⟩ := empty_row hl hl'
    refine ⟨s1, ?_, a1, r1, by simpa using g1⟩
    rw [e1, he, firstPassLoop, M.get_bind]
    simp
  · have hce := comment_lineEnd com [] hc (.inl rfl)
    rw [List.append_nil] at hce
    obtain ⟨s2, e2, a2, f2, g2⟩ := h' k (by omega) hsub hN s1 com hce a1 (g1.room room) (Int.le_trans hi r1.level)
    have g3 : Fills g.label g.depth bs' s1 { s2 with lineNum := s2.lineNum + 1 } := g2.congr rfl rfl rfl rfl rfl rfl rfl
    refine ⟨_, ?_, by rw [List.append_assoc]; exact a2.lineNum _, r1.trans (f2.lineNum _), g1.appended room r1 g3⟩
    rw [e1, firstPassLoop, M.get_bind, a1.base.going, if_neg (by simpa using he), M.bind_ok (hline.same _ _ _ _ e2)]
    dsimp only
    rw [M.modify_bind, skip_last_comment com hc]
    obtain ⟨f1, rfl⟩ : ∃ m, f1 = m + 1 := ⟨f1 - 1, by
      have : 0 < (l ++ com).length := List.length_pos_iff.2 he
      omega⟩
    rw [firstPassLoop, M.get_bind]
    simp

/-- Lines without effect and block comments. -/
theorem ignored_step {g : Setting} {known : Defs} {tx : Texts} {pc : Nat} {l : Str} (h : MarkerLine l ∨ BlockComment l) (k f : Nat)
    {line : Str → M (Option Str)} (hline : Answers line (k + 2)) (s : S) (R : Str) (hf : (l ++ R).length < f) (hA : At g known tx pc s) :
    ∃ s', Carries line f l R s s' ∧ At g ([] ++ known) tx pc s' ∧ FrameG s s' ∧ Fills g.label g.depth [] s s' := by
  obtain ⟨f, rfl⟩ : ∃ m, f = m + 1 := ⟨f - 1, by omega⟩
  have hl : 0 < l.length := by
    rcases h with h | h
    · obtain ⟨b, w, word, u, nl, rfl, -, -, -, -, -, hnl⟩ := h
      rcases hnl with rfl | rfl <;> simp
    · obtain ⟨b, w, b1, sts, text, b2, w2, u, nl, rfl, -, -, -, ⟨x, xs, rfl, -⟩, -⟩ := h
      simp
  have e : firstPassLoop line (f + 1) (l ++ R) s = firstPassLoop line f R { s with lineNum := s.lineNum + (l.count 10 : Nat) } := by
    rcases h with h | h
    · obtain ⟨e, hc⟩ := marker_passes h s hA.base.going k f hline R
      rw [e, hc]
      rfl
    · exact comment_passes h s hA.base.going hA.base.session k f hline R
  have hf1 : Frame1 s { s with lineNum := s.lineNum + (l.count 10 : Nat) } := ⟨rfl, .same rfl rfl rfl, [], by simp, by simp⟩
  refine ⟨_, ⟨f, ?_, e⟩, hA.lineNum _, hf1.groups, (Fills.nil _ _ s).congr rfl rfl rfl rfl rfl rfl rfl⟩
  simp only [List.length_append] at hf
  omega

theorem program_runs {g : Setting} {defs : Defs} (hW : Whole g defs) (h20 : g.depth ≤ 20) {known new : Defs} {tx tx' : Texts} {pc pc' : Nat} {text : Str}
    {bs : List Nat} (h : Program g known tx pc text new bs pc' tx') : ProgramRuns g defs known tx pc text new bs pc' tx' := by
  have row : ∀ {known new : Defs} {tx tx' : Texts} {pc pc' : Nat} {l com nl : Str} {bs : List Nat}, Row g known tx pc l new bs pc' tx' →
      (RowRuns g defs known tx pc l new bs pc' tx' ∧ ∀ q, l = 92 :: q → RowRuns g defs known tx pc q new bs pc' tx') → Comment com → NewLine nl →
      BlockRuns g defs known tx pc (l ++ com ++ nl) new bs pc' tx' := by
    intro known new tx tx' pc pc' l com nl bs hl h hc hnl
    obtain ⟨K, h⟩ := row_line hl h.1 h.2
    refine ⟨K, ?_⟩
    intro k hk line hline hsub hN f s R hf hA room hi
    obtain ⟨s1, e1, a1, f1, g1⟩ := h k hk hsub hN s (com ++ (nl ++ R)) (line_close R hc hnl) hA room hi
    exact ⟨_, step_line hline hc hnl hf hA.base.going e1, a1.lineNum _, f1.lineNum _, g1.congr rfl rfl rfl rfl rfl rfl rfl⟩
  refine Program.rec
    (motive_1 := fun known tx pc text new bs pc' tx' _ => PartRuns g defs known tx pc text new bs pc' tx')
    (motive_2 := fun known tx pc text new bs pc' tx' _ => RowRuns g defs known tx pc text new bs pc' tx' ∧
      ∀ q, text = 92 :: q → RowRuns g defs known tx pc q new bs pc' tx')
    (motive_3 := fun known tx pc text new bs pc' tx' _ => BlockRuns g defs known tx pc text new bs pc' tx')
    (motive_4 := fun known tx pc text new bs pc' tx' _ => ProgramRuns g defs known tx pc text new bs pc' tx') ?_ ?_ ?_ ?_ ?_ ?_ ?_ ?_ ?_ ?_ ?_ ?_ ?_ ?_ ?_ ?_ ?_ h
  · intro known tx pc t new bs pc' h hp
    exact stmt_part hW h20 h hp
  · intro known tx pc name params body args l vs b new bs pc' added hm hcall hct hargs hb hprog ih
    obtain ⟨a, ha, hp⟩ := program_texts hprog
    exact call_part hW h20 hm hcall hct hargs hb (by rw [List.append_cancel_right ha]; exact hp) ih
  · intro known tx pc name sep t new bs pc' tx' hname hsep _ ih
    exact labelled_part hW hname hsep ih
  · intro known tx pc t new bs pc' tx' h ih
    refine ⟨row_one ih, ?_⟩
    rintro q rfl
    exact absurd rfl (part_start h).1
  · intro known tx pc t new bs pc' tx' l new' bs' pc'' tx'' h _ ih1 ih2
    refine ⟨row_runs ih1 ih2.1, ?_⟩
    intro q hq
    cases t with
    | cons c t =>
      cases hq
      exact absurd rfl (part_start h).1
    | nil =>
      obtain ⟨rfl, rfl, rfl, rfl⟩ := (part_start h).2 rfl
      cases hq
      simpa using ih2.1
  · intro known tx pc
    refine ⟨0, ?_⟩
    intro k hk line hline hsub hN f s R hf hA room hi
    exact ⟨s, ⟨f, hf, rfl⟩, hA, FrameG.refl s, Fills.nil _ _ _⟩
  · intro known tx pc l com nl new bs pc' tx' t new' bs' pc'' tx'' h hc hnl _ ih1 ih2
    exact block_seq (t := l ++ com ++ nl) (row h ih1 hc hnl) ih2
  · intro known tx pc l t new bs pc' tx' h _ ih
    have := block_seq (new := []) (bs := []) (t := l) (known := known) (tx := tx) (pc := pc) ⟨0, ?_⟩ ih
    · simpa using this
    intro k hk line hline hsub hN f s R hf hA room hi
    exact ignored_step h k f hline s R hf hA
  · intro known tx pc name text l com nl t new bs pc' tx' hd hl hc hnl _ ih
    have := block_seq (new := []) (bs := []) (t := l ++ com ++ nl) (known := known) (tx := tx) (pc := pc) ⟨1, ?_⟩ ih
    · simpa using this
    intro k hk line hline hsub hN f s R hf hA room hi
    exact define_step hW hsub hd hl hc hnl k f hline (by omega) s R hf hA
  · intro known tx pc name params text l com nl t new bs pc' tx' hd hl hc hnl _ ih
    have := block_seq (new := []) (bs := []) (t := l ++ com ++ nl) (known := known) (tx := tx) (pc := pc) ⟨1, ?_⟩ ih
    · simpa using this
    intro k hk line hline hsub hN f s R hf hA room hi
    exact func_step hW hsub hd hl hc hnl k f hline (by omega) s R hf hA
  · intro known tx pc word name l b com nl t new bs pc' tx' hn ho hp hword hl hb hc hnl _ ih
    have := block_seq (new := []) (bs := []) (t := l ++ b ++ com ++ nl) (known := known) (tx := tx) (pc := pc) ⟨0, ?_⟩ ih
    · simpa using this
    intro k hk line hline hsub hN f s R hf hA room hi
    exact undef_step hn ho hp hword hl hb hc hnl k f hline s R hf hA
  · intro known tx pc file l com nl bytes text new bs pc' tx' t new' bs' pc'' tx'' hl hc hnl hfile hbm ht _ _ ih1 ih2
    exact block_seq (include_step hl hc hnl hfile hbm ht ih1) ih2
  · intro known tx pc file l com nl bytes t new bs pc' tx' hst hl hc hnl hfile hbytes hpc _ ih
    have := block_seq (new := []) (bs := bytes) (t := l ++ com ++ nl) (known := known) (tx := tx) (pc := pc) ⟨0, ?_⟩ ih
    · simpa using this
    intro k hk line hline hsub hN f s R hf hA room hi
    exact import_step hst hl hc hnl hfile hbytes hpc k f hline s R hf hA room
  · intro known tx pc name params l body e com nl t new bs pc' tx' hm hl hbody he hc hnl _ ih
    have := block_seq (new := []) (bs := []) (t := l ++ body ++ e ++ com ++ nl) (known := known) (tx := tx) (pc := pc) ⟨1, ?_⟩ ih
    · simpa using this
    intro k hk line hline hsub hN f s R hf hA room hi
    exact macro_step hW hsub hm hl hbody he hc hnl k f hline (by omega) s R hf hA
  · intro known tx pc word c chosen new bs pc' tx' t new' bs' pc'' tx'' hg hw _ _ ih1 ih2
    exact block_seq (group_runs hW h20 hg hw ih1) ih2
  · intro known tx pc t new bs pc' tx' _ ih
    obtain ⟨K, h⟩ := ih
    refine ⟨K, ?_⟩
    intro k hk line hline hsub hN f s hf hA room hi
    obtain ⟨s1, ⟨f1, hf1, e1⟩, a1, r1, g1⟩ := h k hk line hline hsub hN f s [] (by simpa using hf) hA room hi
    rw [List.append_nil] at e1
    obtain ⟨f1, rfl⟩ : ∃ m, f1 = m + 1 := ⟨f1 - 1, by simp at hf1; omega⟩
    refine ⟨s1, ?_, a1, r1, g1⟩
    rw [e1, firstPassLoop, M.get_bind]
    simp
  · intro known tx pc t new bs pc' tx' l com new' bs' pc'' tx'' _ hl hc ih1 ih2
    exact last_line ih1 hl ih2.1 ih2.2 hc

end Spasm
