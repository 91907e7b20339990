import Verif.Lemmas.Expr

/-
Expressions that refer to labels defined later: their evaluation fails with one error that is not fatal.
-/

namespace Spasm
open Spec

/-- The name means nothing yet. -/
def Unknown (s : S) (t : Str) : Prop := argumentOf s t = none ∧ labelOf s t = none ∧ defineOf s t = none

/-- The state after an unknown name was met. -/
def waiting (s : S) (p : Int) : S := { errorAt 0x106 (evalState s p) with fwdRef := true }

def WaitOperand (s : S) (d : Nat) (t : Str) : Prop :=
  ∀ (n : Nat) (depth p : Int) (rest : Str), d ≤ n → p + d ≤ 20 → 0 ≤ depth → Rest t rest →
    ∃ q, operandM (knot n) depth (t ++ rest) (evalState s p) = .ok none (waiting s q)

def WaitPrefixed (s : S) (d : Nat) (t : Str) : Prop :=
  ∀ (n : Nat) (depth p : Int) (rest : Str) (f : Nat) (total : Int) (op : Option Op),
    d ≤ n → p + d ≤ 20 → 0 ≤ depth → Rest t rest →
    ∃ q, numLoop (knot n) depth (f + 1) total op (t ++ rest) (evalState s p) = .ok none (waiting s q)

def WaitDenotes (s : S) (d : Nat) (t : Str) : Prop :=
  ∀ (n : Nat) (depth p : Int) (rest : Str) (f : Nat), d ≤ n → p + d ≤ 20 → 0 ≤ depth → Rest t rest →
    t.length ≤ f → ∃ q, numLoop (knot n) depth f 0 none (t ++ rest) (evalState s p) = .ok none (waiting s q)

theorem wait_name (s : S) (t : Str) (hn : Name t) (hu : Unknown s t) : WaitOperand s 0 t := by
  intro n depth p rest _ _ _ hr
  have hf : Follows rest := by
    rcases hr with hr | hr
    · exact hr
    · exact absurd hr (Atom_last (pc := 0) (label := fun _ => some 0) (.label t 0 hn rfl))
  obtain ⟨⟨c, r, rfl, hc, hx⟩, hne⟩ := hn
  have hal : ∀ x ∈ c :: r, NameChar x := by
    intro x hx'
    rcases List.mem_cons.1 hx' with rfl | hx'
    · unfold NameChar Alnum; omega
    · exact hx x hx'
  refine ⟨p, ?_⟩
  have htw := takeName_append (c :: r) rest hal hf
  generalize hst : evalState s p = st
  have reach : operandM (knot n) depth (c :: r ++ rest) st = parseName (knot n) (c :: r ++ rest) st := by
    unfold operandM
    rw [if_neg (by simp; omega)]
    unfold parseSingle
    simp only [List.cons_append, hd_cons]
    rw [if_neg, if_neg, if_neg, if_neg, if_neg, if_pos]
    · unfold isAlpha isUpper isLower; simp; omega
    all_goals simp; omega
  rw [reach]
  have hne' : (c :: r == [95]) = false := by simpa using hne
  have h40 : (Spasm.hd rest == 40) = false := by simpa using hf.not40
  have ha : argumentOf st (c :: r) = none := by rw [← hst]; exact hu.1
  have hl : labelOf st (c :: r) = none := by rw [← hst]; exact hu.2.1
  have hd : defineOf st (c :: r) = none := by rw [← hst]; exact hu.2.2
  have hloc : searchLocal (c :: r) st = none := by rw [searchLocal_eq]; exact ha
  have hlab : searchLabels (c :: r) st = none := Option.map_eq_none_iff.1 ((searchLabels_eq st (c :: r)).trans hl)
  unfold parseName
  rw [htw.1, htw.2]
  simp only [M.get_bind, hloc, hlab, Option.isSome_none, Bool.false_eq_true, if_false]
  rw [M.bind_ok (searchDefines_none (c :: r) st ha hd)]
  simp only [Option.map_none, M.pure_bind, hne', h40, Bool.and_false, Bool.false_eq_true, if_false]
  rw [M.bind_ok (setError_apply _ st (by decide))]
  rw [← hst]
  rfl

theorem wait_paren (s : S) (d : Nat) (b t b' : Str) (hb : Blanks b) (hb' : Blanks b') (c : Nat) (r : Str) (hct : t = c :: r) (hst : Starter' c)
    (ih : WaitDenotes s d t) : WaitOperand s (d + 1) ([40] ++ b ++ t ++ b' ++ [41]) := by
  intro n depth p rest hn hp hdep _
  obtain ⟨n, rfl⟩ : ∃ m, n = m + 1 := ⟨n - 1, by omega⟩
  have e : [40] ++ b ++ t ++ b' ++ [41] ++ rest = 40 :: (b ++ (t ++ (b' ++ 41 :: rest))) := by simp
  rw [e]
  unfold operandM
  rw [if_pos (by simp)]
  show ∃ q, numFullBody (knot n) (b ++ (t ++ (b' ++ 41 :: rest))) (depth + 1) (evalState s p) = _
  unfold numFullBody
  simp only [M.modify_bind, M.get_bind]
  have hp1 : ¬ (evalState s p).parseDepth + 1 > 20 := by show ¬ (p + 1 > 20); push_cast at hp; omega
  rw [if_neg hp1]
  have hsk : skipWs (b ++ (t ++ (b' ++ 41 :: rest))) = t ++ (b' ++ 41 :: rest) := by
    rw [skipWs_blanks b _ hb, hct, List.cons_append, skipWs_cons c _ (Starter.nonblank hst)]
  rw [hsk, if_neg (by rw [hct]; simp)]
  have hst' : ({ evalState s p with fwdRef := false, parseDepth := (evalState s p).parseDepth + 1 } : S) =
      evalState s (p + 1) := rfl
  rw [hst']
  exact ih n (depth + 1) (p + 1) (b' ++ 41 :: rest) _ (by omega) (by push_cast at hp; omega) (by omega)
    (Or.inl (blanks_follow b' 41 rest hb' (fun _ => by unfold NameChar Alnum; omega)))
    (by simp only [List.length_append]; omega)

/-- The names of the final label table are either known with their final value, or mean nothing yet. -/
def Awaits (s : S) (final : Str → Option Int) : Prop := ∀ t v, final t = some v → visibleLabel s t = some v ∨ Unknown s t

/-- An expression over the final labels has its value already, or evaluation stops at a name that means nothing yet. -/
theorem wait_denotes (s : S) (final : Str → Option Int) (hf : Awaits s final) {d : Nat} {t : Str} {v : Int}
    (h : Denotes (toI32 s.pc) final (fun _ => none) d t v) :
    Denotes (toI32 s.pc) (visibleLabel s) (fun _ => none) d t v ∨ WaitDenotes s d t := by
  have up : ∀ {d t v}, Denotes (toI32 s.pc) (visibleLabel s) (fun _ => none) d t v → EvalDenotes s d t v :=
    fun h => eval_denotes s (Denotes_mono (fun _ _ h => h) (fun _ _ h => by simp at h) h)
  refine Denotes.rec (motive_1 := fun d t v _ => Operand (toI32 s.pc) (visibleLabel s) (fun _ => none) d t v ∨ WaitOperand s d t)
    (motive_2 := fun d t v _ => Prefixed (toI32 s.pc) (visibleLabel s) (fun _ => none) d t v ∨ WaitPrefixed s d t)
    (motive_3 := fun d t v _ => Denotes (toI32 s.pc) (visibleLabel s) (fun _ => none) d t v ∨ WaitDenotes s d t)
    ?_ ?_ (fun _ _ _ _ _ _ _ h => by simp at h) ?_ ?_ ?_ ?_ ?_ ?_ h
  · intro t v h
    cases h with
    | literal base ds text h1 h2 h3 => exact .inl (.atom _ _ (.literal base ds _ h1 h2 h3))
    | here => exact .inl (.atom _ _ .here)
    | char c h1 h2 h3 => exact .inl (.atom _ _ (.char c h1 h2 h3))
    | escape c v h => exact .inl (.atom _ _ (.escape c v h))
    | label t v hn hl =>
      rcases hf t v hl with h | h
      · exact .inl (.atom _ _ (.label t v hn h))
      · exact .inr (wait_name s t hn h)
  · intro d b t b' v hb hb' h ih
    rcases ih with ih | ih
    · exact .inl (.paren d b t b' v hb hb' ih)
    · obtain ⟨c, r, hct, hst⟩ := Denotes_start h
      exact .inr (wait_paren s d b t b' hb hb' c r hct hst ih)
  · intro d t v h ih
    rcases ih with ih | ih
    · exact .inl (.plain d t v ih)
    · right
      intro n depth p rest f total op hn hp hdep hr
      obtain ⟨c, r, rfl, hst, _⟩ := Operand_start h
      obtain ⟨q, hq⟩ := ih n depth p rest hn hp hdep hr
      exact ⟨q, numLoop_fail _ _ _ _ _ _ _ _ _ false false (unary_plain _ c (r ++ rest) rfl hst) hq⟩
  · intro d b t v hb h ih
    rcases ih with ih | ih
    · exact .inl (.plus d b t v hb ih)
    · right
      intro n depth p rest f total op hn hp hdep hr
      obtain ⟨c, r, hct, hst, h95⟩ := Operand_start h
      have hr' : Rest t rest := by
        rcases hr with hr | hr
        · exact Or.inl hr
        · right
          rw [List.append_assoc, getLast?_append_ne, getLast?_append_ne] at hr
          · exact hr
          all_goals (rw [hct]; simp)
      obtain ⟨q, hq⟩ := ih n depth p rest hn hp hdep hr'
      refine ⟨q, ?_⟩
      have e : [43] ++ b ++ t ++ rest = [43] ++ b ++ (t ++ rest) := by simp
      rw [e]
      exact numLoop_fail _ _ _ _ _ _ (t ++ rest) _ _ false false (unary_sign 43 (Or.inr rfl) b (t ++ rest) hb c (r ++ rest) (by rw [hct]; rfl) hst
        (fun h => by obtain ⟨c', r', rfl, hn⟩ := h95 h; exact ⟨c', r' ++ rest, rfl, hn⟩)) hq
  · intro d b t v hb h hv ih
    rcases ih with ih | ih
    · exact .inl (.minus d b t v hb ih hv)
    · right
      intro n depth p rest f total op hn hp hdep hr
      obtain ⟨c, r, hct, hst, h95⟩ := Operand_start h
      have hr' : Rest t rest := by
        rcases hr with hr | hr
        · exact Or.inl hr
        · right
          rw [List.append_assoc, getLast?_append_ne, getLast?_append_ne] at hr
          · exact hr
          all_goals (rw [hct]; simp)
      obtain ⟨q, hq⟩ := ih n depth p rest hn hp hdep hr'
      refine ⟨q, ?_⟩
      have e : [45] ++ b ++ t ++ rest = [45] ++ b ++ (t ++ rest) := by simp
      rw [e]
      exact numLoop_fail _ _ _ _ _ _ (t ++ rest) _ _ false true (unary_sign 45 (Or.inl rfl) b (t ++ rest) hb c (r ++ rest) (by rw [hct]; rfl) hst
        (fun h => by obtain ⟨c', r', rfl, hn⟩ := h95 h; exact ⟨c', r' ++ rest, rfl, hn⟩)) hq
  · intro d b t v hb h ih
    rcases ih with ih | ih
    · exact .inl (.invert d b t v hb ih)
    · right
      intro n depth p rest f total op hn hp hdep hr
      obtain ⟨c, r, hct, hst, h95⟩ := Operand_start h
      have hr' : Rest t rest := by
        rcases hr with hr | hr
        · exact Or.inl hr
        · right
          rw [List.append_assoc, getLast?_append_ne, getLast?_append_ne] at hr
          · exact hr
          all_goals (rw [hct]; simp)
      obtain ⟨q, hq⟩ := ih n depth p rest hn hp hdep hr'
      refine ⟨q, ?_⟩
      have e : [126] ++ b ++ t ++ rest = [126] ++ b ++ (t ++ rest) := by simp
      rw [e]
      exact numLoop_fail _ _ _ _ _ _ (t ++ rest) _ _ true false (unary_invert b (t ++ rest) hb c (r ++ rest) (by rw [hct]; rfl) hst) hq
  · intro d t v h ih
    rcases ih with ih | ih
    · exact .inl (.one d t v ih)
    · right
      intro n depth p rest f hn hp hdep hr hf
      obtain ⟨c, r, hct, _⟩ := Prefixed_start h
      obtain ⟨f, rfl⟩ : ∃ m, f = m + 1 := ⟨f - 1, by rw [hct] at hf; simp at hf; omega⟩
      exact ih n depth p rest f 0 none hn hp hdep hr
  · intro d₁ t₁ v₁ b op optext b' d₂ t₂ v₂ v h₁ hb hb' hop hne h₂ hbin ih₁ ih₂
    have hr₁ : ∀ rest, Rest t₁ (b ++ (optext ++ (b' ++ (t₂ ++ rest)))) := fun rest => rest_op t₁ b optext _ op hb hop hne
    have e : ∀ rest, t₁ ++ b ++ optext ++ b' ++ t₂ ++ rest = t₁ ++ (b ++ (optext ++ (b' ++ (t₂ ++ rest)))) := by intro rest; simp
    rcases ih₁ with ih₁ | ih₁
    · rcases ih₂ with ih₂ | ih₂
      · exact .inl (.join d₁ t₁ v₁ b op optext b' d₂ t₂ v₂ v ih₁ hb hb' hop hne ih₂ hbin)
      · right
        intro n depth p rest f hn hp hdep hr hf
        obtain ⟨c₂, r₂, hc₂, hst₂⟩ := Prefixed_start h₂
        simp only [List.length_append] at hf
        rw [e]
        have hmax := hp
        push_cast at hmax
        obtain ⟨m, hm, hloop⟩ := up ih₁ s (Inner.refl s) n depth p _ (by omega) (by omega) hdep (hr₁ rest)
        have hlen2 : 1 ≤ t₂.length := by rw [hc₂]; simp
        have e2 : f = (f - m - 1 + 1) + m := by omega
        rw [e2, hloop]
        unfold afterOperand
        rw [M.bind_ok (getOp_op depth b optext b' t₂ rest op (evalState s p) c₂ r₂ hb hb' hop hc₂ hst₂)]
        have hr₂ : Rest t₂ rest := by
          rcases hr with hr | hr
          · exact Or.inl hr
          · right
            rw [getLast?_append_ne] at hr
            · exact hr
            · rw [hc₂]; simp
        exact ih₂ n depth p rest _ v₁ _ (by omega) (by omega) hdep hr₂
    · right
      intro n depth p rest f hn hp hdep hr hf
      simp only [List.length_append] at hf
      rw [e]
      push_cast at hp
      exact ih₁ n depth p _ f (by omega) (by omega) hdep (hr₁ rest) (by omega)

/-! ### The text that is stored -/

/-- A word whose replacement does not depend on defines. -/
def NoDefine (s : S) (w : Str) : Prop := argumentOf s w = none ∧ defineOf s w = none

/-- The text of a known label in a stored expression. -/
def knownText (s : S) (w : Str) : Option Str := (labelOf s w).map (fun v => (fmtInt v).take 9)

/-- Every word that is a known label is replaced by its value, everything else stays. -/
inductive Stored (s : S) : Str → Str → Prop
  | nil : Stored s [] []
  | char (c t t') : ¬ NameChar c → Stored s t t' → Stored s (c :: t) (c :: t')
  | word (w t t') : w ≠ [] → NoDefine s w → (∀ c ∈ w, NameChar c) → (∀ c ∈ t.head?, ¬ NameChar c) → Stored s t t' →
      Stored s (w ++ t) ((knownText s w).getD w ++ t')

/-- Where two texts can be joined without joining words. -/
def Apart (a b : Str) : Prop := (∀ c ∈ b.head?, ¬ NameChar c) ∨ (∀ c ∈ a.getLast?, ¬ NameChar c)

theorem Stored.append {s : S} {a a' b b' : Str} (h : Stored s a a') (h' : Stored s b b') (hx : Apart a b) :
    Stored s (a ++ b) (a' ++ b') := by
  induction h with
  | nil => exact h'
  | char c t t' hc _ ih =>
    rw [List.cons_append, List.cons_append]
    refine .char c _ _ hc ?_
    rcases hx with hx | hx
    · exact ih (.inl hx)
    · cases t with
      | nil =>
        exact ih (.inr (by simp))
      | cons d t => exact ih (.inr (by simpa using hx))
  | word w t t' hw hd hn ht hs ih =>
    rw [List.append_assoc, List.append_assoc]
    cases t with
    | nil =>
      have hb : ∀ c ∈ b.head?, ¬ NameChar c := by
        rcases hx with hx | hx
        · exact hx
        · exfalso
          rw [List.append_nil] at hx
          cases hl : w.getLast? with
          | none => exact hw (List.getLast?_eq_none_iff.1 hl)
          | some c => exact hx c hl (hn c (List.mem_of_getLast? hl))
      exact .word w _ _ hw hd hn (by simpa using hb) (ih (.inl hb))
    | cons d t =>
      refine .word w _ _ hw hd hn (by simpa using ht) (ih ?_)
      rcases hx with hx | hx
      · exact .inl hx
      · right
        rw [getLast?_append_ne (by simp)] at hx
        exact hx

theorem Stored.chars {s : S} (t : Str) (h : ∀ c ∈ t, ¬ NameChar c) : Stored s t t := by
  induction t with
  | nil => exact .nil
  | cons c t ih => exact .char c t t (h c (by simp)) (ih fun x hx => h x (by simp [hx]))

theorem Stored.single {s : S} (w : Str) (hw : w ≠ []) (hd : NoDefine s w) (h : ∀ c ∈ w, NameChar c) : Stored s w ((knownText s w).getD w) := by
  have := Stored.word (s := s) w [] [] hw hd h (by simp) .nil
  simpa using this

theorem Stored.dropSeps {s : S} {t t' : Str} (h : Stored s t t') (p : Nat → Bool) (hp : ∀ c, p c = true → ¬ NameChar c) :
    ∃ t'', t' = between t (t.dropWhile p) ++ t'' ∧ Stored s (t.dropWhile p) t'' := by
  induction h with
  | nil => exact ⟨[], rfl, .nil⟩
  | char c t t' hc hs ih =>
    by_cases hpc : p c = true
    · obtain ⟨t'', e1, e2⟩ := ih
      refine ⟨t'', ?_, ?_⟩
      · rw [List.dropWhile_cons, if_pos hpc, e1]
        have hl : (t.dropWhile p).length ≤ t.length := (List.dropWhile_suffix p).length_le
        unfold between
        rw [List.length_cons, show t.length + 1 - (t.dropWhile p).length = (t.length - (t.dropWhile p).length) + 1 by omega, List.take_succ_cons]
        rfl
      · rw [List.dropWhile_cons, if_pos hpc]; exact e2
    · rw [List.dropWhile_cons, if_neg hpc]
      refine ⟨c :: t', ?_, .char c t t' hc hs⟩
      simp [between]
  | word w t t' hw hd hn ht hs ih =>
    have e : (w ++ t).dropWhile p = w ++ t := by
      cases w with
      | nil => exact absurd rfl hw
      | cons c w =>
        rw [List.cons_append, List.dropWhile_cons, if_neg (fun h => hp c h (hn c (by simp)))]
    rw [e]
    refine ⟨(knownText s w).getD w ++ t', ?_, .word w t t' hw hd hn ht hs⟩
    simp [between]

theorem separators_apart (c : Nat) (h : separators.contains c = true) : ¬ NameChar c := by
  rw [List.contains_iff_mem] at h
  simp only [separators, List.mem_cons, List.not_mem_nil, or_false] at h
  unfold NameChar Alnum
  omega

theorem expandLoop_stored (k : Rec) (depth : Nat) (s : S) : ∀ (f : Nat) (t t' out : Str), t.length < f →
    Stored s t t' → 34 ∉ t → expandLoop k depth true f t out s = .ok (out ++ t') s := by
  intro f
  induction f with
  | zero => intro t t' out h; omega
  | succ f ih =>
    intro t t' out hf h h34
    have fin : ∀ (u u' o : Str), u.length < f → Stored s u u' → 34 ∉ u →
        expandLoop k depth true f (u.dropWhile fun c => separators.contains c) (o ++ between u (u.dropWhile fun c => separators.contains c)) s =
          .ok (o ++ u') s := by
      intro u u' o hu hs hq
      obtain ⟨u'', e1, e2⟩ := hs.dropSeps (fun c => separators.contains c) separators_apart
      have hsuf := List.dropWhile_suffix (fun c => separators.contains c) (l := u)
      rw [ih _ u'' _ (by have := hsuf.length_le; omega) e2 (fun hm => hq (hsuf.subset hm)), e1]
      simp
    rw [expandLoop]
    cases h with
    | nil => simp [M.pure_apply]
    | char c t t' hc hs =>
      have hc34 : c ≠ 34 := by rintro rfl; exact h34 (by simp)
      have hnc : isNameChar c = false := by
        cases hb : isNameChar c with
        | false => rfl
        | true => exact absurd ((isNameChar_iff c).1 hb) hc
      have hq : (Spasm.hd (c :: t) == 34) = false := by simpa using hc34
      simp only [List.isEmpty_cons, Bool.false_eq_true, if_false, hq]
      have hname : takeName (c :: t) = [] := by unfold takeName; rw [List.takeWhile_cons, hnc]; rfl
      rw [hname]
      simp only [List.length_nil, Nat.lt_irrefl, if_false, gt_iff_lt]
      have hb : between (c :: t) (c :: t) = [] := by simp [between]
      rw [hb, List.append_nil, fin t t' (out ++ [c]) (by simp at hf; omega) hs (by simp at h34; exact h34.2)]
      simp
    | word w t t' hw hd hn ht hs =>
      obtain ⟨c, r, rfl⟩ := List.exists_cons_of_ne_nil hw
      have hc34 : c ≠ 34 := by rintro rfl; exact h34 (by simp)
      have hq : (Spasm.hd (c :: r ++ t) == 34) = false := by simpa using hc34
      have hnm : takeName (c :: r ++ t) = c :: r ∧ skipNameEnd (c :: r ++ t) = t := by
        have h1 : ∀ x ∈ c :: r, isNameChar x = true := fun x hx => (isNameChar_iff x).2 (hn x hx)
        have h2 : t.takeWhile isNameChar = [] ∧ t.dropWhile isNameChar = t := by
          cases t with
          | nil => exact ⟨rfl, rfl⟩
          | cons x r =>
            have := ht x rfl
            rw [← isNameChar_iff] at this
            simp [this]
        unfold takeName skipNameEnd
        rw [List.takeWhile_append_of_pos h1, List.dropWhile_append_of_pos h1, h2.1, h2.2]
        simp
      have hb : between (c :: r ++ t) (c :: r ++ t) = [] := by simp [between]
      have he : (c :: r ++ t).isEmpty = false := rfl
      simp only [he, Bool.false_eq_true, if_false, hq, hnm.1, hnm.2, hb, List.append_nil]
      have hlen : (c :: r).length > 0 := by simp
      simp only [hlen, if_true, M.get_bind]
      rw [M.bind_ok (searchDefines_none (c :: r) s hd.1 hd.2)]
      have hl := searchLabels_eq s (c :: r)
      have hf' : t.length < f := by simp at hf; omega
      have ht34 : 34 ∉ t := fun hm => h34 (by simp [hm])
      cases hlab : searchLabels (c :: r) s with
      | none =>
        rw [hlab] at hl
        have : knownText s (c :: r) = none := by unfold knownText; rw [← hl]; rfl
        rw [this]
        dsimp only
        rw [fin t t' (out ++ (c :: r)) hf' hs ht34]
        simp
      | some l =>
        rw [hlab] at hl
        have : knownText s (c :: r) = some ((fmtInt l.value).take 9) := by unfold knownText; rw [← hl]; rfl
        rw [this]
        dsimp only
        rw [fin t t' (out ++ (fmtInt l.value).take 9) hf' hs ht34]
        simp

/-! ### Decimal numbers -/

theorem decAux_spec : ∀ (f n : Nat) (acc : Str), 0 < f → n < 10 ^ f →
    ∃ ds, decAux f n acc = ds ++ acc ∧ ds ≠ [] ∧ (∀ c ∈ ds, 48 ≤ c ∧ c ≤ 57) ∧ value 10 ds = n ∧ (∀ m, 0 < m → n < 10 ^ m → ds.length ≤ m)
  | 0, _, _, h, _ => by omega
  | f + 1, n, acc, _, h => by
    rw [decAux]
    by_cases hn : n < 10
    · rw [if_pos hn]
      refine ⟨[48 + n], rfl, by simp, by simp; omega, ?_, ?_⟩
      · unfold value digit value
        simp only [List.length_nil, Nat.pow_zero]
        rw [if_pos (by omega)]
        simp
      · intro m hm _; simp; omega
    · rw [if_neg hn]
      have hf : 0 < f := by
        rcases Nat.eq_zero_or_pos f with rfl | hf
        · simp at h; omega
        · exact hf
      obtain ⟨ds, e1, e2, e3, e4, e5⟩ := decAux_spec f (n / 10) ((48 + n % 10) :: acc) hf (by
        rw [Nat.pow_succ] at h; omega)
      refine ⟨ds ++ [48 + n % 10], by rw [e1]; simp, by simp, ?_, ?_, ?_⟩
      · intro c hc
        rcases List.mem_append.1 hc with hc | hc
        · exact e3 c hc
        · simp at hc; omega
      · have hv : ∀ (l : Str) (d : Nat), d < 10 → value 10 (l ++ [48 + d]) = value 10 l * 10 + d := by
          intro l d hd
          induction l with
          | nil => 
            unfold value digit value
            simp only [List.length_nil, Nat.pow_zero, List.nil_append]
            rw [if_pos (by omega)]
            simp
          | cons c l ih =>
            rw [List.cons_append, value, value, ih, List.length_append, List.length_singleton, Nat.pow_succ]
            rw [Nat.add_mul, Nat.mul_assoc, Nat.add_assoc]
        rw [hv _ _ (by omega), e4]
        omega
      · intro m hm hlt
        obtain ⟨m, rfl⟩ : ∃ j, m = j + 1 := ⟨m - 1, by omega⟩
        rcases Nat.eq_zero_or_pos m with rfl | hm
        · simp at hlt; omega
        · have := e5 m hm (by rw [Nat.pow_succ] at hlt; omega)
          simp; omega

/-- The text of a value that has at most nine digits. -/
theorem decimal_text (v : Int) (h0 : 0 ≤ v) (h1 : v ≤ 999999999) : ∃ ds, (fmtInt v).take 9 = ds ∧ ds ≠ [] ∧ (∀ c ∈ ds, 48 ≤ c ∧ c ≤ 57) ∧
    value 10 ds = v.toNat := by
  obtain ⟨ds, e1, e2, e3, e4, e5⟩ := decAux_spec 11 v.natAbs [] (by omega) (by omega)
  refine ⟨ds, ?_, e2, e3, by omega⟩
  unfold fmtInt fmtNat
  rw [if_neg (by omega), e1, List.append_nil]
  exact List.take_of_length_le (e5 9 (by omega) (by omega))

/-! ### The stored text has the same value -/

/-- How the symbols of a state fit the final label table. -/
structure Env (s : S) (final : Str → Option Int) : Prop where
  labels : ∀ w v, labelOf s w = some v → Name w ∧ final w = some v ∧ 0 ≤ v ∧ v ≤ 999999999
  names : ∀ w v, final w = some v → NoDefine s w
  others : ∀ w, ¬ Name w → NoDefine s w

theorem Env.awaits {s : S} {final : Str → Option Int} (h : Env s final) : Awaits s final := by
  intro t v hv
  have hd := h.names t v hv
  cases hl : labelOf s t with
  | none => exact .inr ⟨hd.1, hl, hd.2⟩
  | some v' =>
    left
    unfold visibleLabel
    rw [if_pos hd.1, hl, ← hv, (h.labels t v' hl).2.1]

/-- The words behind `$`, `'` and the escape character mean nothing as names. -/
def NoClash (s : S) (t : Str) : Prop := ∀ a c w b, t = a ++ c :: (w ++ b) → (c = 36 ∨ c = 39 ∨ c = 92) → w ≠ [] → (∀ x ∈ w, NameChar x) →
    (∀ x ∈ b.head?, ¬ NameChar x) → labelOf s w = none ∧ NoDefine s w

theorem NoClash.sub {s : S} {p t q : Str} (h : NoClash s (p ++ t ++ q)) (ha : Apart t q) : NoClash s t := by
  intro a c w b e hc hw hn hb
  refine h (p ++ a) c w (b ++ q) (by rw [e]; simp) hc hw hn ?_
  cases b with
  | cons x b => simpa using hb
  | nil =>
    rcases ha with ha | ha
    · simpa using ha
    · exfalso
      obtain ⟨x, hx⟩ : ∃ x, w.getLast? = some x := by
        cases hl : w.getLast? with
        | none => exact absurd (List.getLast?_eq_none_iff.1 hl) hw
        | some x => exact ⟨x, rfl⟩
      refine ha x ?_ (hn x (List.mem_of_getLast? hx))
      rw [e, List.append_nil, getLast?_append_ne (by simp), ← List.singleton_append, getLast?_append_ne hw, hx]
      rfl

theorem Rest.apart {t rest : Str} (h : Rest t rest) : Apart t rest := by
  rcases h with h | h
  · exact .inl fun c hc => (h c hc).1
  · right
    rw [h]
    intro c hc
    cases hc
    unfold NameChar Alnum
    omega

theorem blanks_not_name {b : Str} (h : Blanks b) : ∀ c ∈ b, ¬ NameChar c := by
  intro c hc
  have := h c hc
  unfold NameChar Alnum
  omega

theorem apart_left {a : Str} (b : Str) (h : ∀ c ∈ a, ¬ NameChar c) : Apart a b := .inr fun c hc => h c (List.mem_of_getLast? hc)

theorem not_name_of_head {c : Nat} {r : Str} (h : ¬ (c = 95 ∨ (65 ≤ c ∧ c ≤ 90) ∨ (97 ≤ c ∧ c ≤ 122))) : ¬ Name (c :: r) := by
  rintro ⟨⟨c', r', e, hc, -⟩, -⟩
  cases e
  exact h hc

theorem Env.other {s : S} {final : Str → Option Int} (h : Env s final) {w : Str} (hw : ¬ Name w) : knownText s w = none ∧ NoDefine s w := by
  refine ⟨?_, h.others w hw⟩
  unfold knownText
  cases hl : labelOf s w with
  | none => rfl
  | some v => exact absurd (h.labels w v hl).1 hw

theorem Stored.same {s : S} {w : Str} (hw : w ≠ []) (hk : knownText s w = none) (hd : NoDefine s w) (h : ∀ c ∈ w, NameChar c) : Stored s w w := by
  have := Stored.single w hw hd h
  rw [hk] at this
  exact this

theorem digit_range {base c : Nat} (hb : base ≤ 16) (h : IsDigit base c) : (48 ≤ c ∧ c ≤ 57) ∨ (10 < base ∧ ((65 ≤ c ∧ c ≤ 70) ∨ (97 ≤ c ∧ c ≤ 102))) := by
  obtain ⟨d, h1, h2⟩ := h
  unfold digit at h1
  split at h1
  · left; assumption
  · split at h1
    · simp at h1; omega
    · split at h1
      · simp at h1; omega
      · cases h1

theorem stored_atom {s : S} {final : Str → Option Int} (hE : Env s final) (pc : Int) (t : Str) (v : Int) (h : Atom pc final t v)
    (hc : NoClash s t) : ∃ t', Stored s t t' ∧ Atom pc final t' v := by
  cases h with
  | literal base ds text hl hds hm =>
    refine ⟨t, ?_, .literal base ds t hl hds hm⟩
    obtain ⟨hne, hal, hf⟩ := hl
    have hnc : ∀ c ∈ ds, NameChar c := fun c h => .inl (hal c h)
    rcases hf with ⟨rfl, rfl, hx⟩ | ⟨rfl, rfl⟩ | ⟨hx, hf⟩
    · have := hc [] 36 ds [] (by simp) (.inl rfl) hne hnc (by simp)
      refine .char 36 _ _ (by unfold NameChar Alnum; omega) (.same hne ?_ this.2 hnc)
      unfold knownText; rw [this.1]; rfl
    · refine .char 37 _ _ (by unfold NameChar Alnum; omega) ?_
      have hn : ¬ Name ds := by
        obtain ⟨c, r, rfl⟩ := List.exists_cons_of_ne_nil hne
        have := digit_range (by omega) (hds c (by simp))
        exact not_name_of_head (by omega)
      exact .same hne (hE.other hn).1 (hE.other hn).2 hnc
    · have hn : ∀ r, ¬ Name (ds ++ r) := by
        intro r'
        obtain ⟨c, r, rfl⟩ := List.exists_cons_of_ne_nil hne
        have := digit_range (by omega) (show IsDigit 10 c from hx)
        exact not_name_of_head (by omega)
      have key : ∀ r : Str, (∀ c ∈ r, NameChar c) → Stored s (ds ++ r) (ds ++ r) := by
        intro r hr
        refine .same (by simp [hne]) (hE.other (hn r)).1 (hE.other (hn r)).2 ?_
        intro c hc
        rcases List.mem_append.1 hc with h | h
        · exact hnc c h
        · exact hr c h
      have nl : ∀ x, (65 ≤ x ∧ x ≤ 90) ∨ (97 ≤ x ∧ x ≤ 122) → ∀ c ∈ [x], NameChar c := by
        intro x hx c hc
        simp at hc
        unfold NameChar Alnum
        omega
      rcases hf with ⟨rfl, rfl | rfl⟩ | ⟨rfl, rfl | rfl⟩ | ⟨rfl, rfl | rfl⟩ | ⟨rfl, rfl, -⟩
      · exact key [104] (nl _ (by omega))
      · exact key [72] (nl _ (by omega))
      · exact key [98] (nl _ (by omega))
      · exact key [66] (nl _ (by omega))
      · exact key [100] (nl _ (by omega))
      · exact key [68] (nl _ (by omega))
      · simpa using key [] (by simp)
  | here => exact ⟨[36], .chars _ (by simp [NameChar, Alnum]), .here⟩
  | char c h1 h2 h3 =>
    refine ⟨[39, c, 39], ?_, .char c h1 h2 h3⟩
    have h39 : ¬ NameChar 39 := by unfold NameChar Alnum; omega
    refine .char 39 _ _ h39 ?_
    by_cases hn : NameChar c
    · have := hc [] 39 [c] [39] (by simp) (.inr (.inl rfl)) (by simp) (by simpa using hn) (by simpa using h39)
      have hs : Stored s [c] [c] := .same (by simp) (by unfold knownText; rw [this.1]; rfl) this.2 (by simpa using hn)
      exact hs.append (.chars [39] (by simpa using h39)) (.inl (by simpa using h39))
    · exact .chars _ (by simp [hn, h39])
  | escape c v hv =>
    refine ⟨[39, 92, c, 39], ?_, .escape c v hv⟩
    have h39 : ¬ NameChar 39 := by unfold NameChar Alnum; omega
    have h92 : ¬ NameChar 92 := by unfold NameChar Alnum; omega
    refine .char 39 _ _ h39 (.char 92 _ _ h92 ?_)
    by_cases hn : NameChar c
    · have := hc [39] 92 [c] [39] (by simp) (.inr (.inr rfl)) (by simp) (by simpa using hn) (by simpa using h39)
      have hs : Stored s [c] [c] := .same (by simp) (by unfold knownText; rw [this.1]; rfl) this.2 (by simpa using hn)
      exact hs.append (.chars [39] (by simpa using h39)) (.inl (by simpa using h39))
    · exact .chars _ (by simp [hn, h39])
  | label t v hn hl =>
    have hal : ∀ x ∈ t, NameChar x := by
      obtain ⟨⟨c, r, rfl, hc, hx⟩, -⟩ := hn
      intro x hx'
      rcases List.mem_cons.1 hx' with rfl | hx'
      · unfold NameChar Alnum; omega
      · exact hx x hx'
    have hne : t ≠ [] := by obtain ⟨⟨c, r, rfl, -⟩, -⟩ := hn; simp
    have hst := Stored.single (s := s) t hne (hE.names t v hl) hal
    cases hk : labelOf s t with
    | none =>
      refine ⟨t, ?_, .label t v hn hl⟩
      unfold knownText at hst
      rw [hk] at hst
      exact hst
    | some v' =>
      obtain ⟨-, hv', h0, h1⟩ := hE.labels t v' hk
      rw [hl] at hv'
      cases hv'
      obtain ⟨ds, e1, e2, e3, e4⟩ := decimal_text v h0 h1
      refine ⟨ds, ?_, ?_⟩
      · unfold knownText at hst
        rw [hk] at hst
        simpa [e1] using hst
      · have hdig : ∀ c ∈ ds, IsDigit 10 c := by
          intro c hc
          have := e3 c hc
          exact ⟨c - 48, by unfold digit; rw [if_pos this], by omega⟩
        have hlit : Literal 10 ds ds := by
          refine ⟨e2, fun c hc => .inl (e3 c hc), .inr (.inr ⟨?_, .inr (.inr (.inr ⟨rfl, rfl, ?_⟩))⟩)⟩
          · obtain ⟨c, r, rfl⟩ := List.exists_cons_of_ne_nil e2
            exact hdig c (by simp)
          · have : ds.getLastD 0 ∈ ds := by
              obtain ⟨c, r, rfl⟩ := List.exists_cons_of_ne_nil e2
              rw [List.getLastD_cons]
              simp [List.getLastD_eq_getLast?]
              cases hg : r.getLast? with
              | none => simp
              | some y => right; exact List.mem_of_getLast? hg
            have := e3 _ this
            generalize ds.getLastD 0 = x at this
            simp; omega
        have := Atom.literal (pc := pc) (label := final) 10 ds ds hlit hdig (by omega)
        have hv : asInt32 (value 10 ds) = v := by rw [e4]; unfold asInt32; split <;> omega
        rw [hv] at this
        exact this

theorem stored_denotes {s : S} {final : Str → Option Int} (hE : Env s final) {pc : Int} {d : Nat} {t : Str} {v : Int}
    (h : Denotes pc final (fun _ => none) d t v) : NoClash s t →
    ∃ t', Stored s t t' ∧ Denotes pc final (fun _ => none) d t' v ∧ (t.getLast? = some 41 → t'.getLast? = some 41) := by
  refine Denotes.rec
    (motive_1 := fun d t v _ => NoClash s t → ∃ t', Stored s t t' ∧ Operand pc final (fun _ => none) d t' v ∧ (t.getLast? = some 41 → t'.getLast? = some 41))
    (motive_2 := fun d t v _ => NoClash s t → ∃ t', Stored s t t' ∧ Prefixed pc final (fun _ => none) d t' v ∧ (t.getLast? = some 41 → t'.getLast? = some 41))
    (motive_3 := fun d t v _ => NoClash s t → ∃ t', Stored s t t' ∧ Denotes pc final (fun _ => none) d t' v ∧ (t.getLast? = some 41 → t'.getLast? = some 41))
    ?_ ?_ (fun _ _ _ _ _ _ _ h => by simp at h) ?_ ?_ ?_ ?_ ?_ ?_ h
  · intro t v h hc
    obtain ⟨t', h1, h2⟩ := stored_atom hE pc t v h hc
    exact ⟨t', h1, .atom t' v h2, fun h' => absurd h' (Atom_last h)⟩
  · intro d b t b' v hb hb' h ih hc
    have h40 : ∀ c ∈ [40], ¬ NameChar c := by simp [NameChar, Alnum]
    have h41 : ∀ c ∈ b' ++ [41], ¬ NameChar c := by
      intro c hc
      rcases List.mem_append.1 hc with h | h
      · exact blanks_not_name hb' c h
      · simp at h; subst h; unfold NameChar Alnum; omega
    have hap : Apart t (b' ++ [41]) := .inl fun c hc => h41 c (List.mem_of_mem_head? hc)
    obtain ⟨t', h1, h2, h3⟩ := ih (NoClash.sub (p := [40] ++ b) (q := b' ++ [41]) (by simpa using hc) hap)
    refine ⟨[40] ++ b ++ t' ++ b' ++ [41], ?_, .paren d b t' b' v hb hb' h2, fun _ => getLast?_append_ne (by simp)⟩
    have := ((Stored.chars (s := s) ([40] ++ b) (by
      intro c hc
      rcases List.mem_append.1 hc with h | h
      · exact h40 c h
      · exact blanks_not_name hb c h)).append (h1.append (.chars (b' ++ [41]) h41) hap) (apart_left _ (by
        intro c hc
        rcases List.mem_append.1 hc with h | h
        · exact h40 c h
        · exact blanks_not_name hb c h)))
    simpa using this
  · intro d t v h ih hc
    obtain ⟨t', h1, h2, h3⟩ := ih hc
    exact ⟨t', h1, .plain d t' v h2, h3⟩
  · intro d b t v hb h ih hc
    obtain ⟨t', h1, h2, h3⟩ := ih (NoClash.sub (p := [43] ++ b) (q := []) (by simpa using hc) (.inl (by simp)))
    have hch : ∀ c ∈ [43] ++ b, ¬ NameChar c := by
      intro c hc
      rcases List.mem_append.1 hc with h | h
      · simp at h; subst h; unfold NameChar Alnum; omega
      · exact blanks_not_name hb c h
    refine ⟨[43] ++ b ++ t', (Stored.chars _ hch).append h1 (apart_left _ hch), .plus d b t' v hb h2, ?_⟩
    obtain ⟨c, r, hct, -⟩ := Operand_start h
    obtain ⟨c', r', hct', -⟩ := Operand_start h2
    rw [getLast?_append_ne (by rw [hct]; simp), getLast?_append_ne (by rw [hct']; simp)]
    exact h3
  · intro d b t v hb h hv ih hc
    obtain ⟨t', h1, h2, h3⟩ := ih (NoClash.sub (p := [45] ++ b) (q := []) (by simpa using hc) (.inl (by simp)))
    have hch : ∀ c ∈ [45] ++ b, ¬ NameChar c := by
      intro c hc
      rcases List.mem_append.1 hc with h | h
      · simp at h; subst h; unfold NameChar Alnum; omega
      · exact blanks_not_name hb c h
    refine ⟨[45] ++ b ++ t', (Stored.chars _ hch).append h1 (apart_left _ hch), .minus d b t' v hb h2 hv, ?_⟩
    obtain ⟨c, r, hct, -⟩ := Operand_start h
    obtain ⟨c', r', hct', -⟩ := Operand_start h2
    rw [getLast?_append_ne (by rw [hct]; simp), getLast?_append_ne (by rw [hct']; simp)]
    exact h3
  · intro d b t v hb h ih hc
    obtain ⟨t', h1, h2, h3⟩ := ih (NoClash.sub (p := [126] ++ b) (q := []) (by simpa using hc) (.inl (by simp)))
    have hch : ∀ c ∈ [126] ++ b, ¬ NameChar c := by
      intro c hc
      rcases List.mem_append.1 hc with h | h
      · simp at h; subst h; unfold NameChar Alnum; omega
      · exact blanks_not_name hb c h
    refine ⟨[126] ++ b ++ t', (Stored.chars _ hch).append h1 (apart_left _ hch), .invert d b t' v hb h2, ?_⟩
    obtain ⟨c, r, hct, -⟩ := Operand_start h
    obtain ⟨c', r', hct', -⟩ := Operand_start h2
    rw [getLast?_append_ne (by rw [hct]; simp), getLast?_append_ne (by rw [hct']; simp)]
    exact h3
  · intro d t v h ih hc
    obtain ⟨t', h1, h2, h3⟩ := ih hc
    exact ⟨t', h1, .one d t' v h2, h3⟩
  · intro d₁ t₁ v₁ b op optext b' d₂ t₂ v₂ v h₁ hb hb' hop hne h₂ hbin ih₁ ih₂ hc
    have hr₁ : Rest t₁ (b ++ (optext ++ (b' ++ t₂))) := rest_op t₁ b optext _ op hb hop hne
    obtain ⟨t₁', a1, a2, a3⟩ := ih₁ (NoClash.sub (p := []) (q := b ++ (optext ++ (b' ++ t₂))) (by simpa using hc) hr₁.apart)
    obtain ⟨t₂', c1, c2, c3⟩ := ih₂ (NoClash.sub (p := t₁ ++ b ++ optext ++ b') (q := []) (by simpa using hc) (.inl (by simp)))
    have hos : Stored s optext optext ∧ ∀ c ∈ optext.getLast?, ¬ NameChar c := by
      have h33 : ¬ Name [33] := not_name_of_head (by omega)
      by_cases ho : op = .ne
      · subst ho
        simp [BinOp.spelled] at hop
        subst hop
        refine ⟨?_, by simp [NameChar, Alnum]⟩
        exact (Stored.same (s := s) (w := [33]) (by simp) (hE.other h33).1 (hE.other h33).2 (by simp [NameChar])).append
          (.chars [61] (by simp [NameChar, Alnum])) (.inl (by simp [NameChar, Alnum]))
      · have : ∀ c ∈ optext, ¬ NameChar c := by
          cases op <;> simp only [BinOp.spelled, List.mem_cons, List.not_mem_nil, or_false] at hop <;>
            first
            | exact absurd rfl ho
            | (subst hop; simp [NameChar, Alnum])
            | (rcases hop with rfl | rfl <;> simp [NameChar, Alnum])
        exact ⟨.chars _ this, fun c hc => this c (List.mem_of_getLast? hc)⟩
    refine ⟨t₁' ++ b ++ optext ++ b' ++ t₂', ?_, .join d₁ t₁' v₁ b op optext b' d₂ t₂' v₂ v a2 hb hb' hop ?_ c2 hbin, ?_⟩
    · have x1 := (Stored.chars (s := s) b' (blanks_not_name hb')).append c1 (apart_left _ (blanks_not_name hb'))
      have x2 := hos.1.append x1 (.inr hos.2)
      have x3 := (Stored.chars (s := s) b (blanks_not_name hb)).append x2 (apart_left _ (blanks_not_name hb))
      have x4 := a1.append x3 hr₁.apart
      simpa using x4
    · intro ho
      rcases hne ho with h | h
      · exact .inl h
      · exact .inr (a3 h)
    · obtain ⟨c, r, hct, -⟩ := Prefixed_start h₂
      obtain ⟨c', r', hct', -⟩ := Prefixed_start c2
      rw [getLast?_append_ne (by rw [hct]; simp), getLast?_append_ne (by rw [hct']; simp)]
      exact c3

end Spasm
