import Verif.Props.Anon

/-
C23: labels take the address at which they stand, or the value of an equate.
-/

namespace Spasm.Props
open Spec

theorem showWarning_run (m : Msg) (s : S) :
    showWarning m s = .ok () { s with exitCode := max s.exitCode 1, log := s.log ++ [.warning m] } := by
  unfold showWarning
  simp only [M.modify_apply, Res.ok.injEq, true_and, S.mk.injEq, and_true]
  split <;> omega

/-- Defining a label, when the name is free or a label already. -/
theorem addLabel_ok (t : Str) (v : Int) (s : S) (hm : s.mode.codeCounter = false) (ha : argumentOf s t = none)
    (hd : defineOf s t = none) :
    ∃ tab, (∀ k, (Table.lookup tab k).map Label.value = if k = nameKey s t then some v else (s.labels.lookup k).map Label.value) ∧
      (labelOf s t = none → tab.length = s.labels.length + 1) ∧
      addLabel t v s = .ok (some (nameKey s t))
        (if labelOf s t = none ∨ labelOf s t = some v then { s with labels := tab }
         else { s with labels := tab, exitCode := max s.exitCode 1, log := s.log ++ [.warning .labelRedefined] }) := by
  have hs : searchDefines (nameKey s t) true s = .ok none s := by
    apply searchDefines_none
    · unfold argumentOf at ha ⊢; rw [nameKey_idem]; exact ha
    · unfold defineOf at hd ⊢; rw [nameKey_idem]; exact hd
  unfold addLabel
  rw [M.get_bind, if_neg (by simp [hm]), keyOf_eq, M.bind_ok hs, labelOf_eq]
  dsimp only
  cases hl : s.labels.lookup (nameKey s t) with
  | none =>
    refine ⟨s.labels.insert (nameKey s t) ⟨nameKey s t, v, s.lineNum, s.currFile⟩, ?_, fun _ => Table.insert_length hl _, ?_⟩
    · intro k
      by_cases hk : k = nameKey s t
      · subst hk; rw [Table.lookup_insert_self, if_pos rfl]; rfl
      · rw [Table.lookup_insert_ne _ _ _ _ hk, if_neg hk]
    · rw [if_pos (by simp)]; rfl
  | some l =>
    dsimp only
    by_cases hv : v = l.value
    · refine ⟨s.labels, ?_, by simp, ?_⟩
      · intro k
        by_cases hk : k = nameKey s t
        · subst hk; rw [if_pos rfl, hl, hv]; rfl
        · rw [if_neg hk]
      · rw [if_neg (by simpa using hv), if_pos (by simp [hv])]; rfl
    · refine ⟨s.labels.update (nameKey s t) (fun l => { l with value := v }), ?_, by simp, ?_⟩
      · intro k
        rw [Table.lookup_update]
        by_cases hk : k = nameKey s t
        · subst hk; rw [if_pos rfl, if_pos rfl, hl]; rfl
        · rw [if_neg hk, if_neg hk]
      · rw [if_pos hv, if_neg (by simpa using fun e => hv e.symm), M.modify_bind, M.bind_ok (showWarning_run _ _)]
        rfl

theorem lineSec_label (k : Rec) (t rest after : Str) (ht : Name t) (hr : LabelEnd rest after) (s : S) :
    lineSecBody k (t ++ rest) s =
      (addLabel t (toI32 s.pc) >>= fun l => M.modify (fun st => { st with lastLabel := l }) >>= fun _ => lineSecBody k after) s := by
  obtain ⟨hf, hp, hda⟩ := labelEnd_cases hr
  obtain ⟨⟨c, r, rfl, hc, hx⟩, hne⟩ := ht
  have hal : ∀ x ∈ c :: r, NameChar x := by
    intro x hx'
    rcases List.mem_cons.1 hx' with rfl | hx'
    · unfold NameChar Alnum; omega
    · exact hx x hx'
  obtain ⟨ht1, ht2⟩ := takeName_append (c :: r) rest hal hf
  have hle : after.length ≤ rest.length := hda ▸ dropChar_length 58 rest
  unfold lineSecBody
  rw [lineSecLoop]
  dsimp only
  rw [if_neg (show ¬ isEnd (c :: r ++ rest) = true by simp [isEnd]; omega),
    if_pos (show (isAlpha (hd (c :: r ++ rest)) || hd (c :: r ++ rest) == 95) = true by
      simp [isAlpha, isUpper, isLower]; omega),
    ht2, ht1, if_neg (by simpa using hp), if_neg (show ¬ (c :: r == [95]) = true by simpa using hne)]
  have hfu := lineSecLoop_fuel k (c :: r ++ rest).length (after.length + 1) after (by simp; omega) (by omega)
  rw [hda, hfu]
  simp only [M.bind_assoc, M.get_bind]

/-- C23 before tidying: a name at the start of a line, which is not the name of a define or macro argument, is a label whose value is
the address at that point; no other label changes. If it had another value before, a warning is shown. The rest of the
line is run with this. -/
theorem label_runs (n : Nat) (t rest after : Str) (ht : Name t) (hr : LabelEnd rest after) (s : S) (pc : Nat) (hpc : s.pc = pc)
    (hm : s.mode.codeCounter = false) (ha : argumentOf s t = none) (hd : defineOf s t = none) :
    ∃ s1, labelOf s1 t = some (asInt32 pc) ∧
      (∀ t', nameKey s t' ≠ nameKey s t → labelOf s1 t' = labelOf s t') ∧
      (∃ tab ec log, s1 = { s with labels := tab, lastLabel := some (nameKey s t), exitCode := ec, log := log }) ∧
      (labelOf s t = none → s1.labels.length = s.labels.length + 1) ∧
      (labelOf s t = none ∨ labelOf s t = some (asInt32 pc) → s1.log = s.log ∧ s1.exitCode = s.exitCode) ∧
      (∀ v, labelOf s t = some v → v ≠ asInt32 pc →
        s1.log = s.log ++ [.warning .labelRedefined] ∧ s1.exitCode = max s.exitCode 1) ∧
      (knot (n + 1)).lineSec (t ++ rest) s = (knot (n + 1)).lineSec after s1 := by
  obtain ⟨tab, htab, hlen, hadd⟩ := addLabel_ok t (asInt32 pc) s hm ha hd
  have hline := lineSec_label (knot n) t rest after ht hr s
  rw [hpc, toI32_eq_asInt32, M.bind_ok hadd, M.modify_bind] at hline
  have hv : ∀ (s1 : S), s1.labels = tab → s1.caseSens = s.caseSens → ∀ t',
      labelOf s1 t' = if nameKey s t' = nameKey s t then some (asInt32 pc) else labelOf s t' := by
    intro s1 h1 h2 t'
    have hk : nameKey s1 t' = nameKey s t' := by unfold nameKey; rw [h2]
    rw [labelOf_eq, h1, hk, htab, ← labelOf_eq]
  by_cases hc : labelOf s t = none ∨ labelOf s t = some (asInt32 pc)
  · rw [if_pos hc] at hline
    refine ⟨{ s with labels := tab, lastLabel := some (nameKey s t) }, ?_, ?_, ⟨_, _, _, rfl⟩, hlen, ?_, ?_, hline⟩
    · exact (hv { s with labels := tab, lastLabel := some (nameKey s t) } rfl rfl t).trans (if_pos rfl)
    · intro t' ht'; exact (hv { s with labels := tab, lastLabel := some (nameKey s t) } rfl rfl t').trans (if_neg ht')
    · intro _; exact ⟨rfl, rfl⟩
    · intro v h1 h2
      rcases hc with hc | hc
      · rw [hc] at h1; simp at h1
      · rw [hc] at h1; simp at h1; exact absurd h1.symm h2
  · rw [if_neg hc] at hline
    refine ⟨{ s with labels := tab, exitCode := max s.exitCode 1, log := s.log ++ [.warning .labelRedefined], lastLabel := some (nameKey s t) }, ?_, ?_, ⟨_, _, _, rfl⟩, hlen, ?_, ?_, hline⟩
    · exact (hv { s with labels := tab, exitCode := max s.exitCode 1, log := s.log ++ [.warning .labelRedefined], lastLabel := some (nameKey s t) } rfl rfl t).trans (if_pos rfl)
    · intro t' ht'; exact (hv { s with labels := tab, exitCode := max s.exitCode 1, log := s.log ++ [.warning .labelRedefined], lastLabel := some (nameKey s t) } rfl rfl t').trans (if_neg ht')
    · intro h; exact absurd h hc
    · intro v h1 h2; exact ⟨rfl, rfl⟩

/-- C23: a name at the start of a line, which is not the name of a define or macro argument, is a label whose value is
the address at that point; no other label changes. If it had another value before, a warning is shown. The rest of the
line is run with this. -/
theorem C23_label (n : Nat) (t rest after : Str) (ht : Name t) (hr : LabelEnd rest after) (s : S) (pc : Nat) (hpc : s.pc = pc)
    (hm : s.mode.codeCounter = false) (ha : argumentOf s t = none) (hd : defineOf s t = none) :
    ∃ s1, labelOf s1 t = some (asInt32 pc) ∧
      (∀ t', nameKey s t' ≠ nameKey s t → labelOf s1 t' = labelOf s t') ∧
      (∃ tab last ec log, s1 = { s with labels := tab, lastLabel := last, exitCode := ec, log := log }) ∧
      (labelOf s t = none → s1.labels.length = s.labels.length + 1) ∧
      (labelOf s t = none ∨ labelOf s t = some (asInt32 pc) → s1.log = s.log ∧ s1.exitCode = s.exitCode) ∧
      (∀ v, labelOf s t = some v → v ≠ asInt32 pc →
        s1.log = s.log ++ [.warning .labelRedefined] ∧ s1.exitCode = max s.exitCode 1) ∧
      (knot (n + 1)).lineSec (t ++ rest) s = (knot (n + 1)).lineSec after s1 := by
  obtain ⟨s1, h1, h2, ⟨tab, ec, log, h3⟩, h4⟩ := label_runs n t rest after ht hr s pc hpc hm ha hd
  exact ⟨s1, h1, h2, ⟨tab, _, ec, log, h3⟩, h4⟩

/-- C23: the name of a define or macro argument cannot become a label: an error is shown, the tables stay as they are,
and the rest of the line is run. -/
theorem C23_conflict (n : Nat) (t rest after : Str) (ht : Name t) (hr : LabelEnd rest after) (s : S)
    (hm : s.mode.codeCounter = false) (hd : argumentOf s t ≠ none ∨ defineOf s t ≠ none) (hk : ¬ Maintained s t) :
    (knot (n + 1)).lineSec (t ++ rest) s =
      (knot (n + 1)).lineSec after { errorShown .labelConflict s with lastLabel := none } := by
  have hs : searchDefines (nameKey s t) true s = .ok (findDefine (nameKey s t) s) s := by
    have hi := nameKey_idem s t
    have := searchDefines_calm (nameKey s t) s (by
      rw [keyOf_eq]
      apply refreshed_none
      unfold Maintained at hk ⊢
      rw [hi]; exact hk)
    rw [keyOf_eq, hi] at this
    exact this
  obtain ⟨p, hp⟩ : ∃ p, findDefine (nameKey s t) s = some p := by
    have h := findDefine_eq s t
    cases hf : findDefine (nameKey s t) s with
    | some p => exact ⟨p, rfl⟩
    | none =>
      rw [hf] at h
      cases h1 : argumentOf s t with
      | some d => rw [h1] at h; simp at h
      | none =>
        rw [h1] at h
        rcases hd with hd | hd
        · exact absurd h1 hd
        · exact absurd h.symm hd
  have hadd : addLabel t (toI32 s.pc) s = .ok none (errorShown .labelConflict s) := by
    unfold addLabel
    rw [M.get_bind, if_neg (by simp [hm]), keyOf_eq, M.bind_ok hs, hp]
    dsimp only
    rw [M.bind_ok (showError_apply _ s)]
    rfl
  show lineSecBody (knot n) (t ++ rest) s = lineSecBody (knot n) after { errorShown .labelConflict s with lastLabel := none }
  rw [lineSec_label (knot n) t rest after ht hr s, M.bind_ok hadd, M.modify_bind]

/-- Setting the last label. -/
theorem setLastLabel_ok (s : S) (k : Str) (v : Int) (h : s.lastLabel = some k) :
    setLastLabel v s = .ok () { s with labels := s.labels.update k (fun l => { l with value := v }) } := by
  unfold setLastLabel
  rw [M.get_bind]
  have e : ∀ o, o = some k → (match o with
      | none => setError E.EQUATE_MISSING_LABEL
      | some key => M.modify fun s => { s with labels := s.labels.update key (fun l => { l with value := v }) } : M Unit) s =
      .ok () { s with labels := s.labels.update k (fun l => { l with value := v }) } := by
    rintro _ rfl; rfl
  exact e _ h

/-- The labels an expression sees on the line of label `t`. -/
theorem visibleLabel_after (s s1 : S) (t : Str) (pc : Int) (ha : argumentOf s t = none) (h1 : labelOf s1 t = some pc)
    (h2 : ∀ t', nameKey s t' ≠ nameKey s t → labelOf s1 t' = labelOf s t')
    (hc : s1.caseSens = s.caseSens) (hargs : s1.argSets = s.argSets) (t' : Str) :
    visibleLabel s1 t' = if nameKey s t' = nameKey s t then some pc else visibleLabel s t' := by
  have hk : ∀ u, nameKey s1 u = nameKey s u := by intro u; unfold nameKey; rw [hc]
  have har : ∀ u, argumentOf s1 u = argumentOf s u := by intro u; unfold argumentOf; rw [hk, hargs]
  unfold visibleLabel
  rw [har]
  by_cases h : nameKey s t' = nameKey s t
  · have e1 : argumentOf s t' = argumentOf s t := by unfold argumentOf; rw [h]
    have e2 : labelOf s1 t' = labelOf s1 t := by unfold labelOf; rw [hk, hk, h]
    rw [e1, ha, e2, h1, if_pos rfl, if_pos h]
  · rw [if_neg h, h2 t' h]

/-- A label without define in its way leaves the visible texts as they are. -/
theorem visibleText_after (s s1 : S) (t : Str) (tab : Table Label) (l : Option Str) (ec : Nat) (log : List Ev)
    (ha : argumentOf s t = none) (hd : defineOf s t = none)
    (h2 : ∀ t', nameKey s t' ≠ nameKey s t → labelOf s1 t' = labelOf s t')
    (h3 : s1 = { s with labels := tab, lastLabel := l, exitCode := ec, log := log }) : visibleText s1 = visibleText s := by
  funext t'
  have e0 : (Settled s1 ∧ ¬ Maintained s1 t') ↔ (Settled s ∧ ¬ Maintained s t') := by rw [h3]; rfl
  unfold visibleText
  simp only [e0]
  congr 1
  have e1 : argumentOf s1 t' = argumentOf s t' := by rw [h3]; rfl
  have e2 : defineOf s1 t' = defineOf s t' := by rw [h3]; rfl
  unfold nameText
  rw [e1, e2]
  by_cases h : nameKey s t' = nameKey s t
  · have e3 : argumentOf s t' = none := by rw [← ha]; unfold argumentOf; rw [h]
    have e4 : defineOf s t' = none := by rw [← hd]; unfold defineOf; rw [h]
    rw [e3, e4]
    simp
  · rw [h2 t' h]

/-- What is left to do on the line of a label once its value is known. -/
theorem equate_end (s s1 : S) (t : Str) (v : Int) (tab : Table Label) (ec : Nat) (log : List Ev) (p : Int)
    (h1 : (labelOf s1 t).isSome) (h2 : ∀ t', nameKey s t' ≠ nameKey s t → labelOf s1 t' = labelOf s t')
    (h3 : s1 = { s with labels := tab, lastLabel := some (nameKey s t), exitCode := ec, log := log }) :
    ∃ s2, setLastLabel v { s1 with parseDepth := p, fwdRef := false } = .ok () s2 ∧
      labelOf s2 t = some v ∧ (∀ t', nameKey s t' ≠ nameKey s t → labelOf s2 t' = labelOf s t') ∧
      (∃ tab last, s2 = { s with labels := tab, lastLabel := last, exitCode := ec, log := log, parseDepth := p, fwdRef := false }) ∧
      s2.labels.length = s1.labels.length := by
  have hlast : s1.lastLabel = some (nameKey s t) := by rw [h3]
  have hcs : s1.caseSens = s.caseSens := by rw [h3]
  have hk : ∀ u, nameKey s1 u = nameKey s u := by intro u; unfold nameKey; rw [hcs]
  have hv : ∀ s2 : S, s2.labels = s1.labels.update (nameKey s t) (fun l => { l with value := v }) → s2.caseSens = s1.caseSens →
      ∀ u, labelOf s2 u = if nameKey s u = nameKey s t then some v else labelOf s1 u := by
    intro s2 e1 e2 u
    have hk2 : nameKey s2 u = nameKey s u := by rw [← hk]; unfold nameKey; rw [e2]
    rw [labelOf_eq, labelOf_eq, e1, hk2, hk, Table.lookup_update]
    by_cases h : nameKey s u = nameKey s t
    · rw [if_pos h, if_pos h]
      rw [labelOf_eq, hk] at h1
      obtain ⟨w, hw⟩ := Option.isSome_iff_exists.1 h1
      obtain ⟨l, hl, _⟩ := Option.map_eq_some_iff.1 hw
      rw [h, hl]
      rfl
    · rw [if_neg h, if_neg h]
  refine ⟨{ s1 with
    parseDepth := p, fwdRef := false, labels := s1.labels.update (nameKey s t) (fun l => { l with value := v }) },
    setLastLabel_ok { s1 with parseDepth := p, fwdRef := false } (nameKey s t) v hlast,
    (hv { s1 with
      parseDepth := p, fwdRef := false, labels := s1.labels.update (nameKey s t) (fun l => { l with value := v }) } rfl rfl t).trans
      (if_pos rfl), ?_, ?_, Table.update_length (nameKey s t) (fun l => { l with value := v }) s1.labels⟩
  · intro t' ht'
    exact (hv { s1 with
      parseDepth := p, fwdRef := false, labels := s1.labels.update (nameKey s t) (fun l => { l with value := v }) } rfl rfl t').trans
      ((if_neg ht').trans (h2 t' ht'))
  · rw [h3]
    exact ⟨_, _, rfl⟩

/-- The state behind a label at the beginning of a line. -/
structure Behind (s : S) (t : Str) (pc : Nat) (s1 : S) : Prop where
  here : labelOf s1 t = some (asInt32 pc)
  others : ∀ t', nameKey s t' ≠ nameKey s t → labelOf s1 t' = labelOf s t'
  state : ∃ tab ec log, s1 = { s with labels := tab, lastLabel := some (nameKey s t), exitCode := ec, log := log }
  count : labelOf s t = none → s1.labels.length = s.labels.length + 1
  quiet : labelOf s t = none → s1.log = s.log ∧ s1.exitCode = s.exitCode

/-- An equate whose expression has a known value. -/
theorem equ_reads (dir : Str) (hdir : dir ∈ [b! "equ", b! "EQU"]) (n : Nat)
    (t rest b b1 e b2 tail : Str) (c : Nat) (v : Int) (ht : Name t)
    (hr : LabelEnd rest (b ++ 46 :: dir ++ c :: b1 ++ e ++ (b2 ++ tail))) (s : S) (pc : Nat) (hpc : s.pc = pc)
    (hm : s.mode.codeCounter = false) (ha : argumentOf s t = none) (hd : defineOf s t = none)
    (he : ∀ s1, Behind s t pc s1 → ∃ p, Reading n e v s1 p)
    (hl : (e ++ b2).length ≤ 254) (hb : Blanks b) (hb1 : Blanks b1) (hb2 : Blanks b2) (hc : c = 32 ∨ c = 9) (htail : AtEnd tail) :
    ∃ s2, (knot (n + 1)).lineSec (t ++ rest) s = .ok (some tail) s2 ∧ labelOf s2 t = some v ∧
      (∀ t', nameKey s t' ≠ nameKey s t → labelOf s2 t' = labelOf s t') ∧
      (∃ tab last ec log p, s2 = { s with labels := tab, lastLabel := last, exitCode := ec, log := log, parseDepth := p, fwdRef := false }) ∧
      (labelOf s t = none → s2.log = s.log ∧ s2.exitCode = s.exitCode ∧ s2.labels.length = s.labels.length + 1) := by
  obtain ⟨s1, h1, h2, ⟨tab, ec, log, h3⟩, hlen, h4, h5, h6⟩ := label_runs n t rest _ ht hr s pc hpc hm ha hd
  obtain ⟨p, hp⟩ := he s1 ⟨h1, h2, ⟨tab, ec, log, h3⟩, hlen, fun h => h4 (.inl h)⟩
  have nb : Blanks [] := by intro c hc; simp at hc
  have e1 := hp.read [] (.inl rfl) [] b2 tail s1 nb hb2 hl (AtEnd.stops htail _)
  rw [List.nil_append] at e1
  have e2 := hp.value
  obtain ⟨s2, k1, k2, k3, ⟨tab2, last, k4⟩, k5⟩ := equate_end s s1 t v tab ec log p (by rw [h1]; rfl) h2 h3
  refine ⟨s2, ?_, k2, k3, ⟨tab2, last, ec, log, p, k4⟩, ?_⟩
  rotate_left
  · intro hnone
    have := h4 (.inl hnone)
    rw [h3] at this
    refine ⟨?_, ?_, k5.trans (hlen hnone)⟩
    · rw [k4]; exact this.1
    · rw [k4]; exact this.2
  have hdir' : (∀ x ∈ dir, isSpace x = false) ∧ dir.length < 32 ∧ (dirNames.find? (fun d => eqCase d.1 dir)).map (·.2) = some .equ := by
    simp only [List.mem_cons, List.not_mem_nil, or_false] at hdir
    rcases hdir with rfl | rfl <;> decide
  rw [h6, lineSec_directive n dir .equ hdir'.1 hdir'.2.1 hdir'.2.2 b b1 e _ c hb hb1 hc hp.start s1, ← List.append_assoc]
  show dirEqu (knot n) _ s1 = _
  unfold dirEqu
  rw [M.bind_ok e1]
  dsimp only
  rw [M.bind_ok e2, M.get_bind]
  rw [if_neg (by simp)]
  show (setLastLabel v >>= _) _ = _
  rw [M.bind_ok k1]
  rfl

/-- The same for an equate with `=`. -/
theorem assign_reads (n : Nat)
    (t rest b b1 e b2 tail : Str) (v : Int) (ht : Name t)
    (hr : LabelEnd rest (b ++ 61 :: (b1 ++ e ++ (b2 ++ tail)))) (s : S) (pc : Nat) (hpc : s.pc = pc)
    (hm : s.mode.codeCounter = false) (ha : argumentOf s t = none) (hd : defineOf s t = none)
    (he : ∀ s1, Behind s t pc s1 → ∃ p, Reading n e v s1 p)
    (hl : (e ++ b2).length ≤ 254) (hb : Blanks b) (hb1 : Blanks b1) (hb2 : Blanks b2) (htail : AtEnd tail) :
    ∃ s2, (knot (n + 1)).lineSec (t ++ rest) s = .ok (some tail) s2 ∧ labelOf s2 t = some v ∧
      (∀ t', nameKey s t' ≠ nameKey s t → labelOf s2 t' = labelOf s t') ∧
      (∃ tab last ec log p, s2 = { s with labels := tab, lastLabel := last, exitCode := ec, log := log, parseDepth := p, fwdRef := false }) ∧
      (labelOf s t = none → s2.log = s.log ∧ s2.exitCode = s.exitCode ∧ s2.labels.length = s.labels.length + 1) := by
  obtain ⟨s1, h1, h2, ⟨tab, ec, log, h3⟩, hlen, h4, h5, h6⟩ := label_runs n t rest _ ht hr s pc hpc hm ha hd
  obtain ⟨p, hp⟩ := he s1 ⟨h1, h2, ⟨tab, ec, log, h3⟩, hlen, fun h => h4 (.inl h)⟩
  have nb : Blanks [] := by intro c hc; simp at hc
  have e1 := hp.read [] (.inl rfl) b1 b2 tail s1 hb1 hb2 hl (AtEnd.stops htail _)
  have e2 := hp.value
  obtain ⟨s2, k1, k2, k3, ⟨tab2, last, k4⟩, k5⟩ := equate_end s s1 t v tab ec log p (by rw [h1]; rfl) h2 h3
  refine ⟨s2, ?_, k2, k3, ⟨tab2, last, ec, log, p, k4⟩, ?_⟩
  rotate_left
  · intro hnone
    have := h4 (.inl hnone)
    rw [h3] at this
    refine ⟨?_, ?_, k5.trans (hlen hnone)⟩
    · rw [k4]; exact this.1
    · rw [k4]; exact this.2
  have hassign : assign (knot n) (b1 ++ e ++ (b2 ++ tail)) s1 = .ok (some tail) s2 := by
    unfold assign
    rw [show b1 ++ e ++ (b2 ++ tail) = b1 ++ e ++ b2 ++ tail by simp, M.bind_ok e1]
    dsimp only
    rw [M.bind_ok e2]
    dsimp only
    rw [M.bind_ok k1]
    rfl
  rw [h6]
  show lineSecBody (knot n) (b ++ 61 :: (b1 ++ e ++ (b2 ++ tail))) s1 = _
  have heq : ∀ f, lineSecLoop (knot n) (f + 1) (61 :: (b1 ++ e ++ (b2 ++ tail))) s1 = .ok (some tail) s2 := by
    intro f
    exact hassign
  unfold lineSecBody
  cases b with
  | nil => exact heq _
  | cons x b =>
    have hx : isEnd (x :: b ++ 61 :: (b1 ++ e ++ (b2 ++ tail))) = false ∧ (isAlpha x || x == 95) = false ∧ isSpace x = true := by
      have := hb x (by simp)
      rcases this with rfl | rfl | rfl | rfl <;> exact ⟨rfl, by decide, by decide⟩
    have hsk : skipWs (x :: b ++ 61 :: (b1 ++ e ++ (b2 ++ tail))) = 61 :: (b1 ++ e ++ (b2 ++ tail)) := by
      rw [skipWs_blanks _ _ hb]; exact skipWs_cons _ _ (by decide)
    rw [lineSecLoop]
    dsimp only
    rw [if_neg (by rw [hx.1]; simp), hsk]
    simp only [List.cons_append, hd_cons]
    rw [if_neg (by rw [hx.2.1]; simp), if_pos hx.2.2, if_neg (by decide)]
    exact heq _

/-- C23, equates: `name .equ expression` gives the label the value of the expression; no other label changes, nothing
is written. Inside the expression the name itself stands for the address. If the name is new, nothing is shown. -/
theorem C23_equ (dir : Str) (hdir : dir ∈ [b! "equ", b! "EQU"]) (n d : Nat) (hd20 : d < 20) (hdn : d < n)
    (t rest b b1 e b2 tail : Str) (c : Nat) (v : Int) (ht : Name t)
    (hr : LabelEnd rest (b ++ 46 :: dir ++ c :: b1 ++ e ++ (b2 ++ tail))) (s : S) (pc : Nat) (hpc : s.pc = pc)
    (hm : s.mode.codeCounter = false) (ha : argumentOf s t = none) (hd : defineOf s t = none)
    (he : Denotes (asInt32 pc) (fun t' => if nameKey s t' = nameKey s t then some (asInt32 pc) else visibleLabel s t') (visibleText s) d e v)
    (hl : (e ++ b2).length ≤ 254) (hb : Blanks b) (hb1 : Blanks b1) (hb2 : Blanks b2) (hc : c = 32 ∨ c = 9) (htail : AtEnd tail) :
    ∃ s2, (knot (n + 1)).lineSec (t ++ rest) s = .ok (some tail) s2 ∧ labelOf s2 t = some v ∧
      (∀ t', nameKey s t' ≠ nameKey s t → labelOf s2 t' = labelOf s t') ∧
      (∃ tab last ec log, s2 = { s with labels := tab, lastLabel := last, exitCode := ec, log := log, parseDepth := 0, fwdRef := false }) ∧
      (labelOf s t = none → s2.log = s.log ∧ s2.exitCode = s.exitCode ∧ s2.labels.length = s.labels.length + 1) := by
  obtain ⟨s1, h1, h2, ⟨tab, ec, log, h3⟩, hlen, h4, h5, h6⟩ := label_runs n t rest _ ht hr s pc hpc hm ha hd
  have hs1 : s1.caseSens = s.caseSens ∧ s1.argSets = s.argSets ∧ s1.pc = s.pc := by rw [h3]; exact ⟨rfl, rfl, rfl⟩
  have hvis := funext (visibleLabel_after s s1 t (asInt32 pc) ha h1 h2 hs1.1 hs1.2.1)
  have he' : Denotes (toI32 s1.pc) (visibleLabel s1) (visibleText s1) d e v := by
    rw [hs1.2.2, hpc, toI32_eq_asInt32, hvis, visibleText_after s s1 t tab _ ec log ha hd h2 h3]; exact he
  obtain ⟨e1, e2⟩ := directive_value n d e b2 tail v s1 he' hd20 hdn hb2 hl htail
  obtain ⟨s2, k1, k2, k3, ⟨tab2, last, k4⟩, k5⟩ := equate_end s s1 t v tab ec log 0 (by rw [h1]; rfl) h2 h3
  refine ⟨s2, ?_, k2, k3, ⟨tab2, last, ec, log, k4⟩, ?_⟩
  rotate_left
  · intro hnone
    have := h4 (.inl hnone)
    rw [h3] at this
    refine ⟨?_, ?_, k5.trans (hlen hnone)⟩
    · rw [k4]; exact this.1
    · rw [k4]; exact this.2
  have hdir' : (∀ x ∈ dir, isSpace x = false) ∧ dir.length < 32 ∧ (dirNames.find? (fun d => eqCase d.1 dir)).map (·.2) = some .equ := by
    simp only [List.mem_cons, List.not_mem_nil, or_false] at hdir
    rcases hdir with rfl | rfl <;> decide
  rw [h6, lineSec_directive n dir .equ hdir'.1 hdir'.2.1 hdir'.2.2 b b1 e _ c hb hb1 hc (nonblank_start he) s1, ← List.append_assoc]
  show dirEqu (knot n) _ s1 = _
  unfold dirEqu
  rw [M.bind_ok e1]
  dsimp only
  rw [M.bind_ok e2, M.get_bind]
  rw [if_neg (by simp)]
  show (setLastLabel v >>= _) _ = _
  rw [M.bind_ok k1]
  rfl

/-- C23, equates written `name = expression`. -/
theorem C23_assign (n d : Nat) (hd20 : d < 20) (hdn : d < n)
    (t rest b b1 e b2 tail : Str) (v : Int) (ht : Name t)
    (hr : LabelEnd rest (b ++ 61 :: (b1 ++ e ++ (b2 ++ tail)))) (s : S) (pc : Nat) (hpc : s.pc = pc)
    (hm : s.mode.codeCounter = false) (ha : argumentOf s t = none) (hd : defineOf s t = none)
    (he : Denotes (asInt32 pc) (fun t' => if nameKey s t' = nameKey s t then some (asInt32 pc) else visibleLabel s t') (visibleText s) d e v)
    (hl : (e ++ b2).length ≤ 254) (hb : Blanks b) (hb1 : Blanks b1) (hb2 : Blanks b2) (htail : AtEnd tail) :
    ∃ s2, (knot (n + 1)).lineSec (t ++ rest) s = .ok (some tail) s2 ∧ labelOf s2 t = some v ∧
      (∀ t', nameKey s t' ≠ nameKey s t → labelOf s2 t' = labelOf s t') ∧
      (∃ tab last ec log, s2 = { s with labels := tab, lastLabel := last, exitCode := ec, log := log, parseDepth := 0, fwdRef := false }) ∧
      (labelOf s t = none → s2.log = s.log ∧ s2.exitCode = s.exitCode ∧ s2.labels.length = s.labels.length + 1) := by
  obtain ⟨s1, h1, h2, ⟨tab, ec, log, h3⟩, hlen, h4, h5, h6⟩ := label_runs n t rest _ ht hr s pc hpc hm ha hd
  have hs1 : s1.caseSens = s.caseSens ∧ s1.argSets = s.argSets ∧ s1.pc = s.pc := by rw [h3]; exact ⟨rfl, rfl, rfl⟩
  have hvis := funext (visibleLabel_after s s1 t (asInt32 pc) ha h1 h2 hs1.1 hs1.2.1)
  have he' : Denotes (toI32 s1.pc) (visibleLabel s1) (visibleText s1) d e v := by
    rw [hs1.2.2, hpc, toI32_eq_asInt32, hvis, visibleText_after s s1 t tab _ ec log ha hd h2 h3]; exact he
  have nb : Blanks [] := by intro c hc; simp at hc
  have e1 := readExpr_denotes [] (.inl rfl) he' b1 b2 tail s1 hb1 hb2 hl (AtEnd.stops htail _)
  have e2 := (directive_value n d e b2 tail v s1 he' hd20 hdn hb2 hl htail).2
  obtain ⟨s2, k1, k2, k3, ⟨tab2, last, k4⟩, k5⟩ := equate_end s s1 t v tab ec log 0 (by rw [h1]; rfl) h2 h3
  refine ⟨s2, ?_, k2, k3, ⟨tab2, last, ec, log, k4⟩, ?_⟩
  rotate_left
  · intro hnone
    have := h4 (.inl hnone)
    rw [h3] at this
    refine ⟨?_, ?_, k5.trans (hlen hnone)⟩
    · rw [k4]; exact this.1
    · rw [k4]; exact this.2
  have hassign : assign (knot n) (b1 ++ e ++ (b2 ++ tail)) s1 = .ok (some tail) s2 := by
    unfold assign
    rw [show b1 ++ e ++ (b2 ++ tail) = b1 ++ e ++ b2 ++ tail by simp, M.bind_ok e1]
    dsimp only
    rw [M.bind_ok e2]
    dsimp only
    rw [M.bind_ok k1]
    rfl
  rw [h6]
  show lineSecBody (knot n) (b ++ 61 :: (b1 ++ e ++ (b2 ++ tail))) s1 = _
  have heq : ∀ f, lineSecLoop (knot n) (f + 1) (61 :: (b1 ++ e ++ (b2 ++ tail))) s1 = .ok (some tail) s2 := by
    intro f
    exact hassign
  unfold lineSecBody
  cases b with
  | nil => exact heq _
  | cons x b =>
    have hx : isEnd (x :: b ++ 61 :: (b1 ++ e ++ (b2 ++ tail))) = false ∧ (isAlpha x || x == 95) = false ∧ isSpace x = true := by
      have := hb x (by simp)
      rcases this with rfl | rfl | rfl | rfl <;> exact ⟨rfl, by decide, by decide⟩
    have hsk : skipWs (x :: b ++ 61 :: (b1 ++ e ++ (b2 ++ tail))) = 61 :: (b1 ++ e ++ (b2 ++ tail)) := by
      rw [skipWs_blanks _ _ hb]; exact skipWs_cons _ _ (by decide)
    rw [lineSecLoop]
    dsimp only
    rw [if_neg (by rw [hx.1]; simp), hsk]
    simp only [List.cons_append, hd_cons]
    rw [if_neg (by rw [hx.2.1]; simp), if_pos hx.2.2, if_neg (by decide)]
    exact heq _

/-- C23 is violated by an equate without a label: it silently changes the value of the label defined last, however far
back that is. -/
theorem C23_equate_without_label :
    (asm (b! " nop\nstart: nop\n nop\n .dw start\n .equ 77\n .dw start\n") [b! "a.asm"]).state.log =
      [.wrote (b! "a.bin") [0, 0, 0, 1, 0, 77, 0]] ∧
    exitStatus (asm (b! " nop\nstart: nop\n nop\n .dw start\n .equ 77\n .dw start\n") [b! "a.asm"]) = some 0 := by
  decide +kernel

/-- Names are values with a defined label table. -/
def oneLabel : S := { pc := 0x9D95, labels := [(b! "START", ⟨b! "START", 5, 1, []⟩)] }

example : Name (b! "start") ∧ argumentOf oneLabel (b! "start") = none ∧ defineOf oneLabel (b! "start") = none ∧
    labelOf oneLabel (b! "Start") = some 5 ∧ LabelEnd (b! ": nop") (b! " nop") := by
  refine ⟨⟨⟨115, b! "tart", rfl, by omega, ?_⟩, by decide⟩, rfl, rfl, rfl, Or.inl rfl⟩
  intro x hx
  have : x = 116 ∨ x = 97 ∨ x = 114 ∨ x = 116 := by simpa [List.mem_cons] using hx
  unfold NameChar Alnum
  omega

example : returns ((knot 4).lineSec (b! "start: nop") oneLabel) (fun _ s => labelOf s (b! "START") == some 0x9D95 &&
    s.log == [.warning .labelRedefined]) = true := by decide +kernel

example : (asm (b! "x .equ 3\ny = x+$+4\n .db x,y\n") [b! "a.asm"]).state.log = [.wrote (b! "a.bin") [3, 7]] := by
  decide +kernel

example : (asm (b! "#define foo 3\nfoo: nop\n") [b! "a.asm"]).state.log =
    [.error .labelConflict, .wrote (b! "a.bin") [0]] := by decide +kernel

end Spasm.Props
