import Verif.Lemmas.Unclosed
import Verif.Props.Sessions
import Verif.Props.Names
import Verif.Props.Run

/-
C27: conditional assembly. The specification is in Verif/Spec/Cond.lean: `Group holds word g chosen` says that the lines `g`
are a group that opens with `word` (`#if`, `#ifdef` or `#ifndef`), goes on with any number of `#elif` and possibly an
`#else`, and ends with its `#endif`, and that the truth values of the conditions choose the branch `chosen`. The branches
can contain further groups, nested to any depth.
-/

namespace Spasm.Props
open Spec

theorem isDefined_eq (s : S) (name : Str) :
    (match (findDefine (nameKey s name) s : Option (DRef × Define)) with
      | some (_, d) => d.contents.isSome
      | none => false) = isDefined s name := by
  have h := findDefine_eq s name
  unfold isDefined
  cases hx : findDefine (nameKey s name) s with
  | none =>
    rw [hx] at h
    cases ha : argumentOf s name with
    | none => rw [ha] at h; cases hd' : defineOf s name with
      | none => rfl
      | some d => rw [hd'] at h; simp at h
    | some d => rw [ha] at h; simp at h
  | some p =>
    obtain ⟨r, d⟩ := p
    rw [hx] at h
    cases ha : argumentOf s name with
    | none =>
      rw [ha] at h
      simp only [Option.map_some] at h
      rw [← h]
    | some d' =>
      rw [ha] at h
      simp only [Option.map_some, Option.some.injEq] at h
      rw [h]

/-- The conditions of a group decide as the specification says. -/
theorem holds_opens (s : S) (d : Nat) (hd : d < 20) (hg : s.errOccurred = false) : Opens (Holds s d) (d + 1) s where
  going := hg
  value := by
    intro word c b hw h k hk b0 com hb0 hcom s' hs
    cases h with
    | value word t b v hmem hden hb =>
      refine ⟨v, 0, ?_, by by_cases hv : v = 0 <;> simp [hv]⟩
      have hs : s' = { s with ifLevel := s'.ifLevel, lineNum := s'.lineNum, parseDepth := s'.parseDepth, fwdRef := s'.fwdRef } := hs
      have hden' : Denotes (toI32 s'.pc) (visibleLabel s') (visibleText s') d t v := by rw [hs]; exact hden
      have := C03_value s' d k b0 t b com v hden' hd (by omega) hb0 hb (by
        rcases hcom with rfl | ⟨r, rfl⟩
        · exact .inl rfl
        · exact .inr ⟨59, r, rfl, by omega⟩)
      rw [← this]
      simp
    | ifdef => rcases hw with hw | hw <;> simp at hw
    | ifndef => rcases hw with hw | hw <;> simp at hw
  words := by
    have key : ∀ (name b X : Str), Name name → ¬ Maintained s name → Blanks b → AtEnd X → ∀ (k : Rec) (s' : S), Passed s s' → ∀ wanted,
        preIfdef k wanted (name ++ b ++ X) s' = doIf k (b ++ X) (isDefined s name == wanted) { s' with ifLevel := s'.ifLevel + 1 } := by
      intro name b X hn hm hb hX k s' hs wanted
      have hs : s' = { s with ifLevel := s'.ifLevel, lineNum := s'.lineNum, parseDepth := s'.parseDepth, fwdRef := s'.fwdRef } := hs
      obtain ⟨t1, t2⟩ := takeName_append name (b ++ X) (name_chars hn) (hX.follows hb)
      have hend : isEnd (name ++ b ++ X) = false := by
        obtain ⟨⟨c, r, rfl, hc, -⟩, -⟩ := hn
        simp [isEnd]
        omega
      unfold preIfdef
      rw [hend]
      simp only [Bool.false_eq_true, if_false]
      rw [M.modify_bind, List.append_assoc, t1, t2]
      have hm' : ¬ Maintained { s' with ifLevel := s'.ifLevel + 1 } name := by rw [hs]; exact hm
      have hcalm := searchDefines_calm name { s' with ifLevel := s'.ifLevel + 1 } (by rw [keyOf_eq]; exact refreshed_none _ _ hm')
      rw [keyOf_eq] at hcalm
      rw [M.bind_ok hcalm]
      have e : isDefined { s' with ifLevel := s'.ifLevel + 1 } name = isDefined s name := by rw [hs]; rfl
      exact congrArg (fun x => doIf k (b ++ X) (x == wanted) { s' with ifLevel := s'.ifLevel + 1 })
        ((isDefined_eq { s' with ifLevel := s'.ifLevel + 1 } name).trans e)
    intro word c b hw h X hX
    cases h with
    | value word t b v hmem hden hb =>
      rcases hw with rfl | rfl <;> simp at hmem
    | ifdef name b hn hm hb =>
      refine ⟨b, hb, fun k s' hs => ?_⟩
      rw [key name b X hn hm hb hX k s' hs]
      simp
    | ifndef name b hn hm hb =>
      refine ⟨b, hb, fun k s' hs => ?_⟩
      rw [key name b X hn hm hb hX k s' hs]
      simp

/-- The first pass over the text `t`. -/
abbrev pass (k f : Nat) (t : Str) (s : S) : Res Unit := firstPassLoop (runLine (knot k)) f t s

/-- `s'` differs from `s` only in the bookkeeping of the assembler about lines and groups. -/
def OnlyLines (s s' : S) : Prop :=
  s' = { s with ifLevel := s'.ifLevel, lineNum := s'.lineNum, parseDepth := s'.parseDepth, fwdRef := s'.fwdRef }

/-- C27: a group that is reached on the first pass. `before` is the part of it in front of the chosen branch, `after` the
part behind it. From the group the assembler goes straight to the chosen lines, and when it has assembled these in any
way, it goes straight from the rest of the group to the text behind it. All other lines of the group do nothing but count.
If no branch is chosen, the next line is the one behind the group.

Missing: groups with a condition whose value is not known yet or that is not an expression; text in which a statement
starts with a closing parenthesis (`C27_parenthesis_hangs`) or in which there is a backslash at the end of a line or an
apostrophe in the last two characters in front of a backslash; directives that are followed by something else than blanks
or a comment; an `#endif` in the last line without a line end. -/
theorem C27_group_partial (s : S) (d k : Nat) (word g chosen : Str) (h : Group (Holds s d) word g chosen) (hw : word ∈ openings)
    (hd : d < 20) (hk : d + g.length + 4 ≤ k) (hg : s.errOccurred = false) :
    ∃ before after, g = before ++ chosen ++ after ∧
      (∀ (f : Nat) (rest : Str), ∃ s1, pass k (f + 1) (g ++ rest) s = pass k f (chosen ++ (after ++ rest)) s1 ∧ OnlyLines s s1 ∧
        s1.lineNum = s.lineNum + (before.count 10 : Nat) ∧ s1.ifLevel = s.ifLevel + 1) ∧
      ((chosen = [] ∧ after = []) ∨
        ∀ (s2 : S), s2.errOccurred = false → InSession s2 → 0 < s2.ifLevel → ∀ (f : Nat) (rest : Str),
          ∃ s3, pass k (f + 1) (after ++ rest) s2 = pass k f rest s3 ∧ OnlyLines s2 s3 ∧ s3.lineNum = s2.lineNum + (after.count 10 : Nat)) := by
  obtain ⟨before, after, hp, hrun⟩ := group_enters (holds_opens s d hd hg) h (by simpa [openings] using hw)
  obtain ⟨k, rfl⟩ : ∃ m, k = m + 2 := ⟨k - 2, by omega⟩
  refine ⟨before, after, hp.eq, ?_, ?_⟩
  · intro f rest
    obtain ⟨s1, h1, h2, h3, h4⟩ := hrun k (by omega) _ (Answers.refl _) f rest
    exact ⟨s1, by rw [List.append_assoc] at h1; exact h1, h2, h3, h4⟩
  · rcases hp.rest with hp | hp
    · exact .inl ⟨hp.2, hp.1⟩
    · refine .inr ?_
      intro s2 hg2 hs2 hl2 f rest
      obtain ⟨s3, h1, h2, h3, -, -⟩ := unchosen_leaves hp s2 hg2 hs2 hl2 k f (Answers.refl _) rest
      exact ⟨s3, h1, h2, h3⟩

/-! ### Examples -/

theorem begins_iff {w t : Str} (hw : Sought w) : Begins w t ↔ lineHasWord t w = true := by
  constructor
  · exact hasWord_of hw
  · intro h
    by_contra hn
    have := lineHasWord_false hw hn [] (.inl rfl)
    rw [List.append_nil, h] at this
    exact absurd this (by decide)

/-- A statement without quotes and a comment. -/
def plainLine (p : Str × Str) : Bool :=
  p.1.all (fun c => !([34, 39, 92, 10, 13, 59].contains c)) && !lineHasWord p.1 [41] &&
    (p.2.isEmpty || (hd p.2 == 59 && p.2.all (fun c => c != 10 && c != 13)))

theorem lines_plain (ls : List (Str × Str)) (h : ls.all plainLine = true) : Spec.Lines (ls.map (·.1)) (ls.flatMap (fun p => p.1 ++ p.2 ++ [10])) := by
  induction ls with
  | nil => exact .nil
  | cons p ls ih =>
    rw [List.all_cons, Bool.and_eq_true] at h
    obtain ⟨h1, h2⟩ := h
    unfold plainLine at h1
    simp only [Bool.and_eq_true, Bool.or_eq_true, Bool.not_eq_true', List.all_eq_true, bne_iff_ne, ne_eq, beq_iff_eq, List.isEmpty_iff] at h1
    obtain ⟨⟨a1, a2⟩, a3⟩ := h1
    have hcode : ∀ t : Str, (∀ c ∈ t, [34, 39, 92, 10, 13, 59].contains c = false) → CodeText t := by
      intro t ht
      induction t with
      | nil => exact .nil
      | cons c t ih =>
        have := ht c (by simp)
        simp at this
        exact .char c t (by omega) (ih fun x hx => ht x (by simp [hx]))
    have := Lines.newline p.1 p.2 [10] _ _ (hcode p.1 a1) (fun hb => by rw [(begins_iff (by decide)).1 hb] at a2; exact absurd a2 (by decide))
      (by
        rcases a3 with a3 | ⟨a3, a4⟩
        · exact .inl a3
        · cases hp : p.2 with
          | nil => exact .inl rfl
          | cons x r =>
            rw [hp] at a3 a4
            simp at a3
            exact .inr ⟨r, by rw [a3], fun c hc => a4 c (by simp [hc])⟩) (.inl rfl) (ih h2)
    simpa using this

/-- The depth behind statements, if it stays defined. -/
def depthOf (words : List Str) : Nat → List Str → Option Nat
  | n, [] => some n
  | n, t :: ts =>
    if lineHasWord t (b! "#if") then depthOf words (n + 1) ts
    else if lineHasWord t (b! "#endif") then (if n = 0 then none else depthOf words (n - 1) ts)
    else if n = 0 ∧ words.any (fun w => lineHasWord t w) then none
    else depthOf words n ts

theorem nesting_depth (words : List Str) (hW : ∀ w ∈ words, Sought w) : ∀ (ts : List Str) (n m : Nat), depthOf words n ts = some m → Nesting words n ts m := by
  intro ts
  induction ts with
  | nil => intro n m h; simp only [depthOf, Option.some.injEq] at h; subst h; exact .nil n
  | cons t ts ih =>
    intro n m h
    rw [depthOf] at h
    split at h
    · exact .opens _ _ _ _ ((begins_iff (by decide)).2 ‹_›) (ih _ _ h)
    · split at h
      · split at h
        · simp at h
        · obtain ⟨n, rfl⟩ : ∃ q, n = q + 1 := ⟨n - 1, by omega⟩
          exact .closes _ _ _ _ ((begins_iff (by decide)).2 ‹_›) (ih _ _ h)
      · split at h
        · simp at h
        · rename_i h1 h2 h3
          refine .other _ _ _ _ (fun hb => h1 ((begins_iff (by decide)).1 hb)) (fun hb => h2 ((begins_iff (by decide)).1 hb)) ?_ (ih _ _ h)
          intro hn w hw hb
          exact h3 ⟨hn, List.any_eq_true.2 ⟨w, hw, (begins_iff (hW w hw)).1 hb⟩⟩

theorem branch_plain (ls : List (Str × Str)) (h : ls.all plainLine = true) (h' : depthOf [b! "#else", b! "#elif", b! "#endif"] 0 (ls.map (·.1)) = some 0) :
    Branch (ls.flatMap (fun p => p.1 ++ p.2 ++ [10])) :=
  ⟨_, lines_plain ls h, nesting_depth _ (by decide) _ _ _ h'⟩

theorem wordLine_plain (word : Str) : WordLine word (word ++ [10]) :=
  ⟨[], word, [], [], [10], by simp, by simp [Blanks], rfl, by simp [Blanks], fun _ => rfl, .inl rfl, .inl rfl⟩

theorem clauseLine_plain (word text : Str) (hne : text ≠ []) (h : CodeText text) (hh : ∀ c ∈ text.head?, ¬ White c ∧ c ≠ 41 ∧ c ≠ 35) :
    ClauseLine word text (word ++ 32 :: text ++ [10]) :=
  ⟨[], word, 32, [], [], [10], by simp, by simp [Blanks], rfl, by simp [Blanks], hne, h, hh, .inl rfl, by simp, .inl rfl⟩

/-- The first condition is false, the second is true, and there is another group in the second branch. -/
def sampleGroup : Str := b! "#ifdef debug\n inc a\n#elif 1 + 2*3\n#if 0\n nop\n#endif\n inc b ; yes\n#else\n inc c\n#endif\n"

theorem sampleGroup_chosen (s : S) (h : isDefined s (b! "debug") = false) (hm : ¬ Maintained s (b! "debug")) :
    Group (Holds s 0) (b! "#ifdef") sampleGroup (b! "#if 0\n nop\n#endif\n inc b ; yes\n") := by
  have plain : ∀ t : Str, (∀ c ∈ t, [34, 39, 92, 10, 13, 59].contains c = false) → CodeText t := by
    intro t ht
    induction t with
    | nil => exact .nil
    | cons c t ih =>
      have := ht c (by simp)
      simp at this
      exact .char c t (by omega) (ih fun x hx => ht x (by simp [hx]))
  have hname : Name (b! "debug") := ⟨⟨100, b! "ebug", rfl, by decide, by
    intro x hx; simp at hx; unfold NameChar; rcases hx with rfl | rfl | rfl | rfl <;> decide⟩, by decide⟩
  have h1 := Holds.ifdef (s := s) (d := 0) (b! "debug") [] hname hm (by simp [Blanks])
  rw [h] at h1
  have h2 := Holds.value (s := s) (d := 0) (b! "#elif") (b! "1 + 2*3") [] 9 (by decide) (spec_left_to_right s) (by simp [Blanks])
  have g2 := Group.yes (holds := Holds s 0) (b! "#elif") _ _ _ _ (clauseLine_plain (b! "#elif") (b! "1 + 2*3") (by decide) (plain _ (by decide)) (by decide)) h2
    (branch_plain [(b! "#if 0", []), (b! " nop", []), (b! "#endif", []), (b! " inc b ", b! "; yes")] (by decide) (by decide))
    (.else_ _ _ _ (wordLine_plain (b! "#else")) (branch_plain [(b! " inc c", [])] (by decide) (by decide)) (wordLine_plain (b! "#endif")))
  exact Group.elif _ _ _ _ _ _ (clauseLine_plain (b! "#ifdef") (b! "debug") (by decide) (plain _ (by decide)) (by decide)) h1
    (branch_plain [(b! " inc a", [])] (by decide) (by decide)) g2

example (s : S) (hdef : isDefined s (b! "debug") = false) (hm : ¬ Maintained s (b! "debug")) (hg : s.errOccurred = false) :
    ∃ before after, sampleGroup = before ++ b! "#if 0\n nop\n#endif\n inc b ; yes\n" ++ after ∧
      ∀ (f : Nat) (rest : Str), ∃ s1, pass 200 (f + 1) (sampleGroup ++ rest) s = pass 200 f (b! "#if 0\n nop\n#endif\n inc b ; yes\n" ++ (after ++ rest)) s1 ∧
        OnlyLines s s1 := by
  obtain ⟨before, after, h1, h2, -⟩ := C27_group_partial s 0 200 _ _ _ (sampleGroup_chosen s hdef hm) (by decide) (by omega) (by decide) hg
  exact ⟨before, after, h1, fun f rest => by
    obtain ⟨s1, e1, e2, -⟩ := h2 f rest
    exact ⟨s1, e1, e2⟩⟩

/-- The whole run with this group: only `inc b` is assembled. -/
example : (asm sampleGroup [b! "a.asm"]).state.log = [.wrote (b! "a.bin") [4]] := by decide +kernel

/-! ### A group without `#endif` -/

theorem blank_lines {b com nl text : Str} {sts : List Str} {m : Nat} (hb : Blanks b) (hc : Comment com) (hnl : NewLine nl) (hl : Spec.Lines sts text)
    (hN : Nesting [wordEndif] 0 sts m) : Spec.Lines (b :: sts) (b ++ com ++ nl ++ text) ∧ Nesting [wordEndif] 0 (b :: sts) m :=
  ⟨.newline b com nl sts text (by simpa using blanks_code hb CodeText.nil) (not_begins_blank (by decide) hb) hc hnl hl,
    .other _ _ _ _ (not_begins_blank (by decide) hb) (not_begins_blank (by decide) hb) (fun _ w hw => not_begins_blank (endif_sought w hw) hb) hN⟩

/-- A text behind `#if`, or a name behind `#ifdef` or `#ifndef`. -/
def Guard (word c : Str) : Prop :=
  word = b! "#if" ∨ ((word = b! "#ifdef" ∨ word = b! "#ifndef") ∧ ∃ name b, c = name ++ b ∧ Name name ∧ Blanks b)

theorem balanced_wf {s s' : S} (h : BalR s s') (hst : s'.stale = false) (hw : Wf s) : Wf s' ∧ s'.session = s.session := by
  obtain ⟨h1, -, new, h2, h3⟩ := (h hst).2 hw
  refine ⟨⟨by rw [h1]; exact hw.1, ?_⟩, h1⟩
  intro e he
  rw [h2] at he
  rw [h1]
  rcases List.mem_append.1 he with he | he
  · rw [(h3 e he).1]
  · exact hw.2 e he

/-- What the first part of a computation records stays on record. -/
theorem balanced_first {α β : Type} {m : M α} {f : α → M β} {s s' : S} {b : β} {q : Int} (hm : Bal m) (hf : ∀ a, Bal (f a))
    (h : (m >>= f) s = .ok b s') (hst : s'.stale = false) (hw : Wf s) :
    ∃ a s1, m s = .ok a s1 ∧ s1.stale = false ∧ (Unmatched q s1 → Unmatched q s') := by
  obtain ⟨a, s1, h1, h2⟩ := M.bind_eq_ok.1 h
  have hb := (hf a).bal _ _ _ h2
  have hst1 := (hb hst).1
  refine ⟨a, s1, h1, hst1, ?_⟩
  rintro ⟨e, he, hx⟩
  obtain ⟨-, -, new, e2, -⟩ := (hb hst).2 (balanced_wf (hm.bal _ _ _ h1) hst1 hw).1
  exact ⟨e, by rw [e2]; simp [he], hx⟩

/-- C27, missing `#endif`: when the first pass comes to a line that opens a group, and there is no `#endif` for it in the rest
of the text, whatever the condition is, then at the end of the pass a fatal problem is on record for this, so that the run
ends with status 3 (`C26_first_pass_partial`). -/
theorem C27_missing_partial (s s' : S) (k f : Nat) (word c l text : Str) (sts : List Str) (m : Nat) (hl : ClauseLine word c l) (hw : Guard word c)
    (ht : Spec.Lines sts text) (hne : text ≠ []) (hN : Nesting [b! "#endif"] 0 sts m) (hs : InSession s) (hg : s.errOccurred = false)
    (hrun : pass (k + 3) f (l ++ text) s = .ok () s') (hst : s'.stale = false) :
    ∃ e ∈ s'.errors, e.code = 0x116 ∧ e.warn = false ∧ e.sess = s.session := by
  obtain ⟨b, w, c', b1, com, nl, rfl, hb, hw', hb1, hcne, hc, hh, hcom, h92, hnl⟩ := hl
  obtain ⟨W, rfl⟩ : ∃ W, word = 35 :: W := by
    rcases hw with rfl | ⟨rfl | rfl, -⟩ <;> exact ⟨_, rfl⟩
  obtain ⟨w1, rfl, hw1⟩ := sameText_hash hw'
  rw [show b ++ 35 :: w1 ++ c' :: (b1 ++ c ++ com) ++ nl ++ text = b ++ 35 :: (w1 ++ c' :: (b1 ++ c ++ (com ++ nl ++ text))) by simp] at hrun
  obtain ⟨f, rfl⟩ : ∃ n, f = n + 1 := by
    cases f with
    | zero => unfold pass firstPassLoop at hrun; exact absurd hrun (by simp [M.halt])
    | succ n => exact ⟨n, rfl⟩
  unfold pass at hrun
  rw [firstPassLoop, M.get_bind, hg, if_neg (by simp)] at hrun
  have hwf : Wf s := ⟨hs.1, hs.2⟩
  obtain ⟨a1, s1, e1, hst1, back1⟩ := balanced_first (q := s.session) (bal_runLine (bal_knot _) _) (fun a => by
    have := bal_firstPassLoop (bal_runLine (bal_knot (k + 3)))
    cases a with
    | none => exact .pure _
    | some r => bal) hrun hst hwf
  refine back1 ?_
  unfold runLine at e1
  rw [lineLoop] at e1
  have h92' : dropChar 92 (b ++ 35 :: (w1 ++ c' :: (b1 ++ c ++ (com ++ nl ++ text)))) = b ++ 35 :: (w1 ++ c' :: (b1 ++ c ++ (com ++ nl ++ text))) := by
    cases b with
    | nil => rfl
    | cons c b => have := hb c (by simp); simp [dropChar]; omega
  rw [h92'] at e1
  obtain ⟨a2, s2, e2, hst2, back2⟩ := balanced_first (q := s.session) (bal_lineSec (bal_knot _) _) (fun a => by
    have := bal_lineLoop (bal_knot (k + 3))
    cases a with
    | none => exact .pure _
    | some r => bal) e1 hst1 hwf
  refine back2 ?_
  rw [show k + 3 = (k + 1) + 2 from rfl, lineSec_preop (k + 1) b _ hb s] at e2
  unfold handlePreopBody at e2
  dsimp only at e2
  have hwf1 : Wf { s with ifLevel := s.ifLevel + 1 } := ⟨hwf.1, hwf.2⟩
  rcases hw with hw | ⟨hw, name, b2, rfl, hname, hb2⟩
  · cases hw
    obtain ⟨p1, p2⟩ := pre_clause (W' := b! "IF") (by decide) (by decide) hw1 hb1 hcne (fun x hx => (hh x hx).1) (com ++ nl ++ text)
    rw [p1, p2] at e2
    replace e2 : (M.modify (fun st => { st with ifLevel := st.ifLevel + 1 }) >>= fun _ => (knot (k + 1)).preopIf (c ++ (com ++ nl ++ text))) s = .ok a2 s2 := e2
    rw [M.modify_bind] at e2
    replace e2 : preopIfBody (knot k) (c ++ (com ++ nl ++ text)) { s with ifLevel := s.ifLevel + 1 } = .ok a2 s2 := e2
    obtain ⟨x, y, q1, hy, hx'⟩ := codeLine_clause (b0 := []) (by simp [Blanks]) hcne hc hh hcom h92 hnl hne
    have hend : isEnd (c ++ (com ++ nl ++ text)) = false := by
      cases c with
      | nil => exact absurd rfl hcne
      | cons d c => have := hc.start; simp [isEnd, this]
    unfold preopIfBody at e2
    rw [hend, if_neg (by decide), show c ++ (com ++ nl ++ text) = [] ++ c ++ com ++ nl ++ text by simp, q1] at e2
    dsimp only at e2
    obtain ⟨v, s3, e3, e4⟩ := M.bind_eq_ok.1 e2
    have hst3 := ((bal_doIf (bal_knot k) _ _).bal _ _ _ e4 hst2).1
    obtain ⟨w3, q3⟩ := balanced_wf ((bal_parseNum (bal_knot k) _).bal _ _ _ e3) hst3 hwf1
    obtain ⟨l1, l2⟩ := blank_lines (b := []) (by simp [Blanks]) hy hnl ht hN
    have := doIf_unmatched k _ _ l1 l2 _ _ _ e4 hst2 w3
    rw [q3] at this
    exact this
  · have key : ∀ wanted, preIfdef (knot (k + 1)) wanted (name ++ b2 ++ (com ++ nl ++ text)) s = .ok a2 s2 → Unmatched s.session s2 := by
      intro wanted e2
      obtain ⟨t1, t2⟩ := takeName_append name (b2 ++ (com ++ nl ++ text)) (name_chars hname) ((comment_end hcom hnl text).follows hb2)
      have hend : isEnd (name ++ b2 ++ (com ++ nl ++ text)) = false := by
        obtain ⟨⟨c, r, rfl, hc, -⟩, -⟩ := hname
        simp [isEnd]
        omega
      unfold preIfdef at e2
      rw [hend] at e2
      simp only [Bool.false_eq_true, if_false] at e2
      rw [M.modify_bind, List.append_assoc, t1, t2] at e2
      obtain ⟨v, s3, e3, e4⟩ := M.bind_eq_ok.1 e2
      have hst3 := ((bal_doIf (bal_knot (k + 1)) _ _).bal _ _ _ e4 hst2).1
      obtain ⟨w3, q3⟩ := balanced_wf ((bal_searchDefines _ _).bal _ _ _ e3) hst3 hwf1
      obtain ⟨l1, l2⟩ := blank_lines hb2 hcom hnl ht hN
      have := doIf_unmatched (k + 1) _ _ l1 l2 _ _ _ (by simpa using e4) hst2 w3
      rw [q3] at this
      exact this
    rcases hw with hw | hw
    · cases hw
      obtain ⟨p1, p2⟩ := pre_clause (W' := b! "IFDEF") (by decide) (by decide) hw1 hb1 hcne (fun x hx => (hh x hx).1) (com ++ nl ++ text)
      rw [p1, p2] at e2
      exact key true e2
    · cases hw
      obtain ⟨p1, p2⟩ := pre_clause (W' := b! "IFNDEF") (by decide) (by decide) hw1 hb1 hcne (fun x hx => (hh x hx).1) (com ++ nl ++ text)
      rw [p1, p2] at e2
      exact key false e2

/-- A group that is not closed, with a closed one in it, in a whole run. -/
def sampleUnclosed : Str := b! " nop\n#if 1\n#ifdef x\n#endif\n inc a\n"

example : Spec.Lines ([(b! "#ifdef x", []), (b! "#endif", []), (b! " inc a", ([] : Str))].map (·.1)) (b! "#ifdef x\n#endif\n inc a\n") ∧
    Nesting [b! "#endif"] 0 ([(b! "#ifdef x", []), (b! "#endif", []), (b! " inc a", ([] : Str))].map (·.1)) 0 :=
  ⟨lines_plain [(b! "#ifdef x", []), (b! "#endif", []), (b! " inc a", [])] (by decide), nesting_depth _ (by decide) _ _ _ (by decide)⟩

example : exitStatus (asm sampleUnclosed [b! "a.asm"]) = some 3 ∧ (asm sampleUnclosed [b! "a.asm"]).state.log = [.printed 0x116 false] := by decide +kernel

/-! ### What goes wrong -/

/-- C27 fails when a statement that is passed over starts with a closing parenthesis: the search for the end of the group
goes on forever, whatever number of rounds it is given. -/
theorem C27_parenthesis_hangs :
    (∀ (rounds level : Nat) (s : S), skipLine [b! "#endif"] 7 rounds level (b! ")\n#endif\n") s = .stop .fuel s) ∧
    (match asm (b! "#if 0\n)\n#endif\n") [b! "a.asm"] with
      | .stop .fuel _ => true
      | _ => false) = true := by
  refine ⟨?_, by decide +kernel⟩
  intro rounds
  induction rounds with
  | zero => intro level s; rfl
  | succ n ih =>
    intro level s
    have h1 : lineHasWord (b! ")\n#endif\n") (b! "#IF") = false := by decide
    have h2 : lineHasWord (b! ")\n#endif\n") (b! "#ENDIF") = false := by decide
    have h3 : [b! "#endif"].any (fun w => lineHasWord (b! ")\n#endif\n") w) = false := by decide
    have h4 : nextCodeLine (b! ")\n#endif\n") = b! ")\n#endif\n" := by decide
    rw [skipLine, h1, h2, h3, h4]
    simp only [Bool.and_false, Bool.false_eq_true, if_false]
    exact ih level s

/-- C27 fails when a condition names a label that is defined further on: it counts as false and nothing is reported, although
the label is 1. -/
theorem C27_forward_condition :
    (asm (b! "#if last\n nop\n#else\n inc b\n#endif\nlast:\n .db last\n") [b! "a.asm"]).state.log = [.wrote (b! "a.bin") [4, 1]] := by
  decide +kernel

/-- C27 fails when a lone apostrophe stands in front of a backslash: the `#endif` behind it is not found. -/
theorem C27_apostrophe_hides :
    exitStatus (asm (b! "#if 0\n ex af,af'\\ #endif\n inc a\n") [b! "a.asm"]) = some 3 ∧
    exitStatus (asm (b! "#if 0\n nop\\ #endif\n inc a\n") [b! "a.asm"]) = some 0 := by
  decide +kernel

/-- C27 fails when a comment follows directly behind the word `#endif` or `#else`. -/
theorem C27_comment_hides :
    exitStatus (asm (b! "#if 1\n nop\n#endif;end\n inc a\n") [b! "a.asm"]) = some 3 ∧
    exitStatus (asm (b! "#if 1\n nop\n#endif ;end\n inc a\n") [b! "a.asm"]) = some 0 := by
  decide +kernel

end Spasm.Props
