import Verif.Lemmas.Macro
import Verif.Props.Run
import Verif.Props.Data

/-
C55: macro calls.
-/

namespace Spasm.Props

open Spasm.Spec

/-- The lines of a text are assembled one after the other, as those of a file are, and counted. -/
inductive Lines (k : Nat) : Str → S → S → Prop
  | nil (s) : Lines k [] s s
  | line (t r s s1 s2) : t ≠ [] → s.errOccurred = false → runLine (knot k) t s = .ok (some r) s1 →
      (skipToNextLine r).length < t.length → Lines k (skipToNextLine r) { s1 with lineNum := s1.lineNum + 1 } s2 → Lines k t s s2

theorem macroLoop_lines (k : Nat) {t : Str} {s s' : S} (h : Lines k t s s') : ∀ f, t.length < f → macroLoop (knot k) f t s = .ok () s' := by
  induction h with
  | nil s =>
    intro f hf
    obtain ⟨f, rfl⟩ : ∃ m, f = m + 1 := ⟨f - 1, by simp at hf; omega⟩
    rw [macroLoop, M.get_bind]
    rfl
  | line t r s s1 s2 hne he hrun hlen hl ih =>
    intro f hf
    obtain ⟨f, rfl⟩ : ∃ m, f = m + 1 := ⟨f - 1, by omega⟩
    rw [macroLoop, M.get_bind]
    have : t.isEmpty = false := by cases t with
      | nil => exact absurd rfl hne
      | cons c t => rfl
    rw [this, he]
    simp only [Bool.or_false, Bool.false_eq_true, if_false]
    rw [M.bind_ok hrun]
    dsimp only
    rw [M.modify_bind]
    exact ih f (by omega)

/-- The body of a macro in a state with the parameters bound. -/
theorem callMacro_body (k : Nat) (s st s' : S) (df : Define) (body : Str) (sets : List (Table Define)) (r0 r : Str) (hb : df.contents = some body)
    (hpa : parseArgs (knot k) r0 df { s with session := s.session + 1 } =
      .ok (r, !sets.isEmpty) { st with session := st.session + 1, argSets := sets ++ st.argSets }) (hsets : sets.length ≤ 1)
    (h1 : st.session = s.session) (h2 : st.errors = s.errors) (h3 : st.lineNum = s.lineNum ∧ st.currFile = s.currFile) (hs : InSession s)
    (hend : isEnd (skipWs r) = true)
    (hl : macroLoop (knot k) (body.length + 2) (32 :: body) (inside st df sets) = .ok () s') (ho : OwnMessages s s') :
    callMacro (knot k) df r0 s = .ok r (returned sets.length s s') := by
  unfold callMacro
  have hss : startSession s = .ok (s.session + 1) { s with session := s.session + 1 } := rfl
  rw [M.bind_ok hss, M.bind_ok hpa]
  dsimp only
  rw [M.get_bind]
  have hclean : sessPrefix (s.session + 1) s.errors = [] := by
    unfold sessPrefix
    cases hE : s.errors with
    | nil => rfl
    | cons x xs =>
      have := hs.2 x (by rw [hE]; simp)
      rw [List.takeWhile_cons_of_neg]
      simp; omega
  have hnf : sessionFatal (s.session + 1) { st with session := st.session + 1, argSets := sets ++ st.argSets } = false := by
    unfold sessionFatal
    show (sessPrefix _ st.errors).any _ = false
    rw [h2, hclean]
    rfl
  rw [hnf]
  simp only [Bool.not_false, if_true]
  have hrun : runMacro (knot k) df r { st with session := st.session + 1, argSets := sets ++ st.argSets } =
      .ok () { s' with inMacro := s'.inMacro - 1, currFile := s.currFile, lineNum := s.lineNum } := by
    unfold runMacro
    rw [M.modify_bind, hb]
    dsimp only
    rw [hend]
    simp only [Bool.not_true, Bool.false_eq_true, if_false]
    rw [M.get_bind, M.modify_bind]
    have := hl
    unfold inside at this
    rw [M.bind_ok this, M.modify_bind]
    dsimp only
    rw [h3.1, h3.2]
    rfl
  rw [M.bind_ok hrun]
  obtain ⟨hsess, own, hown, hall⟩ := ho
  have hrem : removeArgSet (!sets.isEmpty) { s' with inMacro := s'.inMacro - 1, currFile := s.currFile, lineNum := s.lineNum } =
      .ok () { s' with inMacro := s'.inMacro - 1, currFile := s.currFile, lineNum := s.lineNum, argSets := s'.argSets.drop sets.length } := by
    cases sets with
    | nil => rfl
    | cons x xs =>
      cases xs with
      | nil =>
        show Res.ok _ _ = _
        congr 1
        simp
      | cons y ys => simp at hsets
  rw [M.bind_ok hrem]
  unfold annotate
  rw [M.pure_bind]
  have hlow : ∀ own : List Err, (∀ e ∈ own, e.sess = s.session + 1) →
      lowerPrefix (s.session + 1) (own ++ s.errors) = own.map (fun e => { e with sess := e.sess - 1 }) ++ s.errors := by
    intro own hall
    induction own with
    | nil =>
      cases hE : s.errors with
      | nil => rfl
      | cons x xs =>
        have := hs.2 x (by rw [hE]; simp)
        simp only [List.nil_append, List.map_nil]
        rw [lowerPrefix, if_neg]
        simp; omega
    | cons x xs ih =>
      rw [List.cons_append, lowerPrefix, if_pos (by simp [hall x (by simp)]), ih (fun e he => hall e (by simp [he]))]
      rfl
  have hrep : ∀ x : S, x.errors = s'.errors →
      replayFatal (s.session + 1) x = .ok () { x with errors := own.map (fun e => { e with sess := e.sess - 1 }) ++ s.errors } := by
    intro x hx
    unfold replayFatal replaySession
    rw [if_neg (by have := hs.1; omega), hx, hown, hlow own hall]
  rw [M.bind_ok (hrep { s' with inMacro := s'.inMacro - 1, currFile := s.currFile, lineNum := s.lineNum, argSets := s'.argSets.drop sets.length } rfl)]
  rw [M.bind_ok (endSession_clean _ _ (by
    intro e he
    rcases List.mem_append.1 he with he | he
    · obtain ⟨x, hx, rfl⟩ := List.mem_map.1 he
      have := hall x hx
      show x.sess - 1 < _
      omega
    · have := hs.2 e he
      omega))]
  rw [M.pure_apply]
  have herr : own.map (fun e => { e with sess := e.sess - 1 }) ++ s.errors =
      s'.errors.map (fun e => if e.sess = s'.session then { e with sess := e.sess - 1 } else e) := by
    rw [hown, List.map_append]
    congr 1
    · refine List.map_congr_left (fun e he => ?_)
      rw [if_pos (by rw [hsess]; exact hall e he)]
    · conv => lhs; rw [← List.map_id s.errors]
      refine List.map_congr_left (fun e he => ?_)
      have := hs.2 e he
      rw [if_neg (by omega)]
      rfl
  rw [herr]
  rfl

theorem call_reads (Z : Int → Prop) (k : Nat) (s : S) (b name t b2 rest body : Str) (df : Define) (args : List Str) (vs : List (Option Int))
    (hb : Blanks b) (hname : MacroName s name df) (hbody : df.contents = some body) (hp : Parameters s df.args) (hj : Joined args t)
    (hvs : ArgsRead Z k s [] df.args args vs) (hb2 : Blanks b2) (hrest : AtEnd rest)
    (hs : Settled s) (hsess : 1 ≤ s.session) :
    ∃ set pd fw, Bindings s df.args args vs set ∧ ∀ s',
      macroLoop (knot k) (body.length + 2) (32 :: body) (inside { s with parseDepth := pd, fwdRef := fw } df [set]) = .ok () s' →
      OwnMessages s s' →
      (knot (k + 1)).lineSec (b ++ name ++ [40] ++ t ++ [41] ++ b2 ++ rest) s = .ok (some (b2 ++ rest)) (returned 1 s s') := by
  obtain ⟨set, pd, fw, hpa, -, hbind⟩ := parseArgs_bound Z k s df args t vs (b2 ++ rest) hp hj hvs (s.session + 1) (by omega)
  refine ⟨set, pd, fw, hbind, ?_⟩
  intro s' hl ho
  show lineSecLoop (knot k) (_ + 1) _ s = _
  rw [show b ++ name ++ [40] ++ t ++ [41] ++ b2 ++ rest = b ++ name ++ 40 :: (t ++ 41 :: (b2 ++ rest)) by simp,
    call_lineSec _ _ _ _ hb hname.proper, opcodeOrMacro_call _ _ _ _ _ hname (by intro c hc; cases hc; unfold NameChar Alnum; omega)]
  have hcm := callMacro_body k s { s with parseDepth := pd, fwdRef := fw } s' df body [set] (40 :: t ++ 41 :: (b2 ++ rest)) (b2 ++ rest) hbody hpa
    (by simp) rfl rfl ⟨rfl, rfl⟩ ⟨hsess, hs.2⟩ (by rw [AtEnd.skipWs hb2 hrest]; exact hrest.isEnd) hl ho
  rw [List.cons_append] at hcm
  rw [M.bind_ok hcm]
  rfl

theorem call_runs (k : Nat) (s : S) (b name t b2 rest body : Str) (df : Define) (args : List Str) (vs : List (Option Int))
    (hb : Blanks b) (hname : MacroName s name df) (hbody : df.contents = some body) (hp : Parameters s df.args) (hj : Joined args t)
    (hvs : InOrder (fun done => ArgValue s done (min 20 k)) [] df.args args vs) (hb2 : Blanks b2) (hrest : AtEnd rest)
    (hs : Settled s) (hsess : 1 ≤ s.session) (hk : 0 < k) :
    ∃ set pd fw, Bindings s df.args args vs set ∧ ∀ s',
      macroLoop (knot k) (body.length + 2) (32 :: body) (inside { s with parseDepth := pd, fwdRef := fw } df [set]) = .ok () s' →
      OwnMessages s s' →
      (knot (k + 1)).lineSec (b ++ name ++ [40] ++ t ++ [41] ++ b2 ++ rest) s = .ok (some (b2 ++ rest)) (returned 1 s s') :=
  call_reads (· = 0) k s b name t b2 rest body df args vs hb hname hbody hp hj (hvs.imp_all (argValue_reads hs hk)) hb2 hrest hs hsess

theorem plain_call_runs (k : Nat) (s s' : S) (b name b2 rest body : Str) (df : Define)
    (hb : b ≠ [] ∧ Blanks b) (hname : MacroName s name df) (hbody : df.contents = some body) (hp : df.args = []) (hb2 : Blanks b2) (hrest : AtEnd rest)
    (hs : InSession s) (hl : macroLoop (knot k) (body.length + 2) (32 :: body) (inside s df []) = .ok () s') (ho : OwnMessages s s') :
    (knot (k + 1)).lineSec (b ++ name ++ b2 ++ rest) s = .ok (some (b2 ++ rest)) (returned 0 s s') := by
  have hf := AtEnd.follows hb2 hrest
  show lineSecLoop (knot k) (_ + 1) _ s = _
  rw [List.append_assoc, name_lineSec _ _ _ _ hb hname.proper, opcodeOrMacro_call _ _ _ _ _ hname (fun c hc => (hf c hc).1)]
  have hpa : parseArgs (knot k) (b2 ++ rest) df { s with session := s.session + 1 } = .ok (b2 ++ rest, false) { s with session := s.session + 1 } := by
    unfold parseArgs
    rw [if_pos (by simp [hp, hf.not40])]
    rfl
  have hcm := callMacro_body k s s s' df body [] (b2 ++ rest) (b2 ++ rest) hbody hpa
    (by simp) rfl rfl ⟨rfl, rfl⟩ hs (by rw [AtEnd.skipWs hb2 hrest]; exact hrest.isEnd) hl ho
  rw [M.bind_ok hcm]
  rfl

/-- C55: a call of a macro with arguments assembles the lines of its body with every parameter bound to the value of its
argument, computed at the call, and nothing else changed; then it goes on behind the call, without the parameters. Messages of the
body become messages of the call. -/
theorem C55_call (k : Nat) (s : S) (b name t b2 rest body : Str) (df : Define) (args : List Str) (vs : List (Option Int))
    (hb : Blanks b) (hname : MacroName s name df) (hbody : df.contents = some body) (hp : Parameters s df.args) (hj : Joined args t)
    (hvs : InOrder (fun done => ArgValue s done (min 20 k)) [] df.args args vs) (hb2 : Blanks b2) (hrest : AtEnd rest)
    (hs : Settled s) (hsess : 1 ≤ s.session) (hk : 0 < k) :
    ∃ set pd fw, Bindings s df.args args vs set ∧ ∀ s', Lines k (32 :: body) (inside { s with parseDepth := pd, fwdRef := fw } df [set]) s' →
      OwnMessages s s' →
      (knot (k + 1)).lineSec (b ++ name ++ [40] ++ t ++ [41] ++ b2 ++ rest) s = .ok (some (b2 ++ rest)) (returned 1 s s') := by
  obtain ⟨set, pd, fw, h1, h2⟩ := call_runs k s b name t b2 rest body df args vs hb hname hbody hp hj hvs hb2 hrest hs hsess hk
  exact ⟨set, pd, fw, h1, fun s' hl ho => h2 s' (macroLoop_lines k hl _ (by simp)) ho⟩

/-- C55: a call without parentheses of a macro without parameters. -/
theorem C55_plain_call (k : Nat) (s s' : S) (b name b2 rest body : Str) (df : Define)
    (hb : b ≠ [] ∧ Blanks b) (hname : MacroName s name df) (hbody : df.contents = some body) (hp : df.args = []) (hb2 : Blanks b2) (hrest : AtEnd rest)
    (hs : InSession s) (hl : Lines k (32 :: body) (inside s df []) s') (ho : OwnMessages s s') :
    (knot (k + 1)).lineSec (b ++ name ++ b2 ++ rest) s = .ok (some (b2 ++ rest)) (returned 0 s s') :=
  plain_call_runs k s s' b name b2 rest body df hb hname hbody hp hb2 hrest hs (macroLoop_lines k hl _ (by simp)) ho

theorem visibleText_bound (s st : S) (set : Table Define) (sets : List (Table Define)) (hc : st.caseSens = s.caseSens)
    (ha : st.argSets = set :: sets) (hs : Settled st) (p : Str) (df : Define) (x : Str) (hm : ¬ Maintained st p)
    (h1 : (set.find? (fun q => decide (q.1 = nameKey s p))).map (·.2) = some df) (h2 : df.args = []) (h3 : df.contents = some x) :
    visibleText st p = some x := by
  have hk : nameKey st p = nameKey s p := by unfold nameKey; rw [hc]
  have hA : argumentOf st p = some df := by
    unfold argumentOf
    rw [ha, List.findSome?_cons, hk, h1]
  unfold visibleText
  rw [if_pos ⟨hs, hm⟩]
  unfold nameText
  rw [hA]
  unfold Define.text
  simp [h2, h3]

theorem param_operand (s st : S) (params args : List Str) (vs : List (Option Int)) (set : Table Define) (sets : List (Table Define))
    (h : Bindings s params args vs set) (hc : st.caseSens = s.caseSens) (ha : st.argSets = set :: sets) (hs : Settled st) (p a w : Str) (v : Int)
    (hn : Name w) (hw : nameKey s w = nameKey s p) (hm : ¬ Maintained st w) (hv : (p, a, some v) ∈ params.zip (args.zip vs)) (hr : -2147483648 < v ∧ v ≤ 2147483647)
    (pc : Int) (label : Str → Option Int) : Operand pc label (visibleText st) 1 w v := by
  obtain ⟨df, x, h1, h2, h3, h4⟩ := h.bound p a (some v) hv
  have ht := visibleText_bound s st set sets hc ha hs w df x hm (by rw [hw]; exact h1) h2 h3
  obtain ⟨ds, hne, hds, hval, rfl⟩ := NumberText.digits h4
  have hlit : Atom pc label (36 :: ds) (asInt32 (value 16 ds)) := by
    refine .literal 16 ds _ ⟨hne, fun c hc => ?_, .inl ⟨rfl, rfl, ?_⟩⟩ hds (by rw [hval]; omega)
    · obtain ⟨d, hd, -⟩ := hds c hc
      unfold digit at hd
      unfold Alnum
      split at hd
      · omega
      · split at hd
        · omega
        · split at hd
          · omega
          · cases hd
    · cases ds with
      | nil => exact absurd rfl hne
      | cons c u => exact hds c (by simp)
  have hnb : Blanks [] := by intro c hc; cases hc
  have hd : Denotes pc label (visibleText st) 0 ((if v < 0 then [45] else []) ++ 36 :: ds) v := by
    rw [hval] at hlit
    by_cases hneg : v < 0
    · have := Denotes.one (text := visibleText st) _ _ _ (.minus _ [] _ _ hnb (.atom _ _ hlit) (by unfold asInt32; split <;> omega))
      rw [if_pos hneg]
      have hv : -asInt32 v.natAbs = v := by unfold asInt32; split <;> omega
      rw [hv] at this
      exact this
    · have := Denotes.one (text := visibleText st) _ _ _ (.plain _ _ _ (.atom _ _ hlit))
      rw [if_neg hneg]
      have hv : asInt32 v.natAbs = v := by unfold asInt32; split <;> omega
      rw [hv] at this
      exact this
  exact .named 0 w [] _ [] v hn (by rw [ht]; simp) hnb hnb hd

/-- C55: in the body, a parameter that was passed an expression has its value. -/
theorem C55_parameter (s st : S) (params args : List Str) (vs : List (Option Int)) (set : Table Define) (sets : List (Table Define))
    (h : Bindings s params args vs set) (hc : st.caseSens = s.caseSens) (ha : st.argSets = set :: sets) (hs : Settled st) (p a w : Str) (v : Int)
    (hn : Name w) (hw : nameKey s w = nameKey s p) (hm : ¬ Maintained st w) (hv : (p, a, some v) ∈ params.zip (args.zip vs)) (hr : -2147483648 < v ∧ v ≤ 2147483647)
    (pc : Int) (label : Str → Option Int) : Denotes pc label (visibleText st) 1 w v :=
  .one _ _ _ (.plain _ _ _ (param_operand s st params args vs set sets h hc ha hs p a w v hn hw hm hv hr pc label))

/-- C55: in the body, a parameter that was passed an unknown name stands for the name. -/
theorem C55_passed_name (s st : S) (params args : List Str) (vs : List (Option Int)) (set : Table Define) (sets : List (Table Define))
    (h : Bindings s params args vs set) (hc : st.caseSens = s.caseSens) (ha : st.argSets = set :: sets) (hs : Settled st) (p a : Str)
    (hm : ¬ Maintained st p) (hv : (p, a, none) ∈ params.zip (args.zip vs)) : visibleText st p = some a := by
  obtain ⟨df, x, h1, h2, h3, h4⟩ := h.bound p a none hv
  cases h4
  exact visibleText_bound s st set sets hc ha hs p df _ hm h1 h2 h3

/-- C55: in the body, all other names mean what they meant at the call, as far as the symbols are the same. -/
theorem C55_other (s st : S) (params args : List Str) (vs : List (Option Int)) (set : Table Define)
    (h : Bindings s params args vs set) (hc : st.caseSens = s.caseSens) (ha : st.argSets = set :: s.argSets) (w : Str)
    (hw : ¬ IsParam s params w) :
    (labelOf st w = labelOf s w → visibleLabel st w = visibleLabel s w) ∧
    (labelOf st w = labelOf s w → defineOf st w = defineOf s w → nameText st w = nameText s w) := by
  have hA : argumentOf st w = argumentOf s w := by
    rw [argumentOf_push s st set w hc ha]
    have := h.others w hw
    rw [← lookup_eq] at this
    rw [this]
  constructor
  · intro hl
    unfold visibleLabel
    rw [hA, hl]
  · intro hl hd
    unfold nameText
    rw [hA, hl, hd]

/-! ### Macros of data -/

/-- An expression keeps its value, and is nested at most one level deeper, if labels become texts. -/
theorem Denotes_deepen {pc : Int} {label label' : Str → Option Int} {text text' : Str → Option Str}
    (hl : ∀ t v, Name t → label t = some v → ∃ d, d ≤ 1 ∧ Operand pc label' text' d t v) (ht : ∀ t e, text t = some e → text' t = some e)
    {d : Nat} {t : Str} {v : Int} (h : Denotes pc label text d t v) : ∃ d', d' ≤ d + 1 ∧ Denotes pc label' text' d' t v := by
  refine Denotes.rec (motive_1 := fun d t v _ => ∃ d', d' ≤ d + 1 ∧ Operand pc label' text' d' t v)
    (motive_2 := fun d t v _ => ∃ d', d' ≤ d + 1 ∧ Prefixed pc label' text' d' t v)
    (motive_3 := fun d t v _ => ∃ d', d' ≤ d + 1 ∧ Denotes pc label' text' d' t v)
    ?_ ?_ ?_ ?_ ?_ ?_ ?_ ?_ ?_ h
  · intro t v h
    cases h with
    | literal base ds text h1 h2 h3 => exact ⟨0, by omega, .atom _ _ (.literal base ds _ h1 h2 h3)⟩
    | here => exact ⟨0, by omega, .atom _ _ .here⟩
    | char c h1 h2 h3 => exact ⟨0, by omega, .atom _ _ (.char c h1 h2 h3)⟩
    | escape c v h1 => exact ⟨0, by omega, .atom _ _ (.escape c v h1)⟩
    | label t v h1 h2 => exact hl _ _ h1 h2
  · rintro d b t b' v h1 h2 _ ⟨d', hd, ih⟩; exact ⟨d' + 1, by omega, .paren d' b t b' v h1 h2 ih⟩
  · rintro d t b e b' v h1 h2 h3 h4 _ ⟨d', hd, ih⟩; exact ⟨d' + 1, by omega, .named d' t b e b' v h1 (ht _ _ h2) h3 h4 ih⟩
  · rintro d t v _ ⟨d', hd, ih⟩; exact ⟨d', hd, .plain d' t v ih⟩
  · rintro d b t v h1 _ ⟨d', hd, ih⟩; exact ⟨d', hd, .plus d' b t v h1 ih⟩
  · rintro d b t v h1 _ h3 ⟨d', hd, ih⟩; exact ⟨d', hd, .minus d' b t v h1 ih h3⟩
  · rintro d b t v h1 _ ⟨d', hd, ih⟩; exact ⟨d', hd, .invert d' b t v h1 ih⟩
  · rintro d t v _ ⟨d', hd, ih⟩; exact ⟨d', hd, .one d' t v ih⟩
  · rintro d₁ t₁ v₁ b op optext b' d₂ t₂ v₂ v _ h2 h3 h4 h5 _ h7 ⟨d1', hd1, ih1⟩ ⟨d2', hd2, ih2⟩
    exact ⟨max d1' d2', by omega, .join d1' t₁ v₁ b op optext b' d2' t₂ v₂ v ih1 h2 h3 h4 h5 ih2 h7⟩

theorem Data_deepen {ez80 : Bool} {label label' : Str → Option Int} {text text' : Str → Option Str} {depth n pc : Nat} {args : List Str}
    {bs ws : List Nat} (hl : ∀ pc t v, Name t → label t = some v → ∃ d, d ≤ 1 ∧ Operand pc label' text' d t v)
    (ht : ∀ t e, text t = some e → text' t = some e) (h : Data ez80 label text depth n pc args bs ws) :
    Data ez80 label' text' (depth + 1) n pc args bs ws := by
  induction h with
  | nil pc => exact .nil pc
  | number pc d t v args bs ws h1 h2 _ ih =>
    obtain ⟨d', hd, h1⟩ := Denotes_deepen (hl _) ht h1
    exact .number pc d' t v args bs ws h1 (by omega) ih
  | string pc body cs args bs ws h1 _ ih => exact .string pc body cs args bs ws h1 ih

/-- What the expressions of the body see. -/
theorem body_visible (s st : S) (params args : List Str) (vs : List (Option Int)) (set : Table Define) (depth : Nat)
    (h : Bindings s params args vs set) (hp : Parameters s params)
    (hvs : InOrder (fun done => ArgValue s done depth) [] params args vs)
    (hc : st.caseSens = s.caseSens) (ha : st.argSets = set :: s.argSets) (hl : st.labels = s.labels) (hd : st.defines = s.defines)
    (hs : Settled s) (hs' : Settled st) :
    (∀ pc w v, Name w → bodyLabel s params vs w = some v → ∃ d, d ≤ 1 ∧ Operand pc (visibleLabel st) (visibleText st) d w v) ∧
    (∀ w x, outerText s params w = some x → visibleText st w = some x) := by
  have only : OnlyParams s params set := by
    intro w hw
    have := h.others w hw
    rwa [← lookup_eq] at this
  obtain ⟨h1, h2⟩ := visible_push s st params set only hc ha hl hd hs hs'
  refine ⟨?_, h2⟩
  intro pc w v hn hv
  unfold bodyLabel at hv
  by_cases hw : IsParam s params w
  · rw [if_pos hw] at hv
    obtain ⟨q, hq, hqv⟩ := Option.bind_eq_some_iff.1 hv
    have hmem := List.mem_of_find?_eq_some hq
    have hkey := List.find?_some hq
    simp only [decide_eq_true_eq] at hkey
    obtain ⟨p, v'⟩ := q
    cases hqv
    obtain ⟨hlen, hlen2⟩ := hvs.length
    -- the argument at the same place
    obtain ⟨i, hi, hget⟩ := List.getElem_of_mem hmem
    rw [List.getElem_zip] at hget
    simp only [List.length_zip] at hi
    have hia : i < args.length := by omega
    have hm3 : (p, args[i], some v) ∈ params.zip (args.zip vs) := by
      refine List.mem_iff_getElem.2 ⟨i, by simp only [List.length_zip]; omega, ?_⟩
      rw [List.getElem_zip, List.getElem_zip]
      simp only [Prod.mk.injEq] at hget ⊢
      exact ⟨hget.1, trivial, hget.2⟩
    obtain ⟨done, a', d, -, -, hr1, hr2⟩ := hvs.value (some v) (List.of_mem_zip hmem).2
    have hpm : p ∈ params := (List.of_mem_zip hmem).1
    have hm : ¬ Maintained st w := by
      have := hp.fixed p hpm
      unfold Maintained at this ⊢
      have hk : nameKey st w = nameKey s p := by rw [hkey]; unfold nameKey; rw [hc]
      rw [hk]
      exact this
    have := param_operand s st params args vs set s.argSets h hc ha hs' p args[i] w v hn hkey.symm hm hm3 ⟨hr1, hr2⟩ pc (visibleLabel st)
    exact ⟨1, by omega, this⟩
  · rw [if_neg hw] at hv
    exact ⟨0, by omega, .atom _ _ (.label w v hn (h1 w v (by unfold outerLabel; rw [if_neg hw]; exact hv)))⟩

theorem afterData_append (as bs : List Nat) (d d' : Int) (f f' : Bool) (n m : Int) (s : S) (h : 0 ≤ s.outPtr) :
    ({ afterData bs [] d' f' { afterData as [] d f s with lineNum := n } with lineNum := m } : S) =
      { afterData (as ++ bs) [] d' f' s with lineNum := m } := by
  have e := emitted_append as bs s h
  have e1 : ({ afterData bs [] d' f' { afterData as [] d f s with lineNum := n } with lineNum := m } : S) =
      { emitted bs (emitted as s) with
        lineNum := m
        pc := ((s.pc + as.length) % 4294967296 + bs.length) % 4294967296
        statsData := s.statsData + as.length + bs.length
        parseDepth := d'
        fwdRef := f' } := rfl
  rw [e1, e]
  have e2 : ({ afterData (as ++ bs) [] d' f' s with lineNum := m } : S) =
      { emitted (as ++ bs) s with
        lineNum := m
        pc := (s.pc + ((as ++ bs).length : Nat)) % 4294967296
        statsData := s.statsData + ((as ++ bs).length : Nat)
        parseDepth := d'
        fwdRef := f' } := rfl
  rw [e2]
  have e3 : ((s.pc + as.length) % 4294967296 + bs.length) % 4294967296 = (s.pc + ((as ++ bs).length : Nat)) % 4294967296 := by
    rw [List.length_append]; push_cast; omega
  have e4 : s.statsData + as.length + bs.length = s.statsData + ((as ++ bs).length : Nat) := by
    rw [List.length_append]; push_cast; omega
  rw [e3, e4]

theorem afterData_nil (s : S) (h : 0 ≤ s.pc ∧ s.pc < 4294967296) :
    ({ afterData [] [] s.parseDepth s.fwdRef s with lineNum := s.lineNum } : S) = s := by
  have e1 : ({ afterData [] [] s.parseDepth s.fwdRef s with lineNum := s.lineNum } : S) =
      { emitted [] s with pc := (s.pc + (([] : List Nat).length : Nat)) % 4294967296, statsData := s.statsData + (([] : List Nat).length : Nat) } := rfl
  rw [e1, emitted_nil]
  have e3 : (s.pc + (([] : List Nat).length : Nat)) % 4294967296 = s.pc := by simp; omega
  have e4 : s.statsData + (([] : List Nat).length : Nat) = s.statsData := by simp
  rw [e3, e4]

/-- The lines of the body are assembled. -/
theorem dataLines_run (s : S) (params args : List Str) (vs : List (Option Int)) (set : Table Define) (k depth : Nat)
    (h : Bindings s params args vs set) (hp : Parameters s params)
    (hvs : InOrder (fun done => ArgValue s done (min 20 k)) [] params args vs) (hs : Settled s) (hd : depth < 20) (hk : depth < k)
    {pc : Nat} {t : Str} {bs : List Nat} (hl : DataLines s.mode.ez80 (bodyLabel s params vs) (outerText s params) depth pc t bs) :
    ∀ st : S, st.caseSens = s.caseSens → st.argSets = set :: s.argSets → st.labels = s.labels → st.defines = s.defines → Settled st → st.mode = s.mode →
      st.pc = pc → pc + bs.length < 4294967296 → InSession st → HasRoom bs.length st → (st.mode.normal = true ∨ st.mode.list = true) →
      ∃ n d f, Lines (k + 2) t st { afterData bs [] d f st with lineNum := n } := by
  induction hl with
  | nil pc =>
    intro st _ _ _ _ _ _ hpc hpc' _ _ _
    refine ⟨st.lineNum, st.parseDepth, st.fwdRef, ?_⟩
    rw [afterData_nil st (by omega)]
    exact .nil st
  | line pc b name n c dargs t bs rest bs' hb hname hc hj hdat hrest ih =>
    intro st h1 h2 h3 h4 h5 h6 hpc hpc' h7 h8 h9
    obtain ⟨v1, v2⟩ := body_visible s st params args vs set _ h hp hvs h1 h2 h3 h4 hs h5
    have hdat' := Data_deepen v1 v2 hdat
    rw [← h6] at hdat'
    simp only [List.length_append] at hpc' h8
    have one : ∀ b, Blanks b → ∃ d f, runLine (knot (k + 2)) (b ++ name ++ c :: t ++ [10] ++ rest) st = .ok (some (10 :: rest)) (afterData bs [] d f st) := by
      intro b hb
      obtain ⟨d, f, hrun⟩ := C46_data_partial name n hname k (depth + 1) (by omega) (by omega) (by omega) pc dargs bs [] b c t (10 :: rest) st hdat' hj hb hc
        (.inr ⟨10, rest, rfl, .inl rfl⟩) ⟨hpc, by omega⟩ h7 ⟨h8.1, by have := h8.2; push_cast at this; omega⟩ h9
      refine ⟨d, f, ?_⟩
      unfold runLine
      have e : b ++ name ++ c :: t ++ [10] ++ rest = b ++ name ++ c :: t ++ 10 :: rest := by simp
      have h46 : ∃ m, name = 46 :: m := by
        simp only [dataDirectives, List.mem_cons, List.not_mem_nil, or_false, Prod.mk.injEq] at hname
        rcases hname with h | h | h | h | h | h | h | h | h | h | h | h <;> obtain ⟨rfl, rfl⟩ := h <;> exact ⟨_, rfl⟩
      have h92 : dropChar 92 (b ++ name ++ c :: t ++ 10 :: rest) = b ++ name ++ c :: t ++ 10 :: rest := by
        cases b with
        | nil => obtain ⟨m, rfl⟩ := h46; rfl
        | cons c b => have := hb c (by simp); simp [dropChar]; unfold Blanks at *; omega
      rw [lineLoop, e, h92, M.bind_ok hrun]
      dsimp only
      rw [M.get_bind]
      have : skipWs (10 :: rest) = 10 :: rest := rfl
      rw [this, if_neg (by simp)]
      rfl
    have more : ∀ d f, ∃ n d' f', Lines (k + 2) rest { afterData bs [] d f st with lineNum := st.lineNum + 1 } { afterData (bs ++ bs') [] d' f' st with lineNum := n } := by
      intro d f
      obtain ⟨n, d', f', hL⟩ := ih { afterData bs [] d f st with lineNum := st.lineNum + 1 } h1 h2 h3 h4 h5 h6
        (by show (st.pc + bs.length) % 4294967296 = _; rw [hpc]; push_cast; omega) (by omega) h7
        ⟨by have := h8.1; show 0 ≤ st.outPtr + bs.length; omega, by
          have := h8.2
          show st.outPtr + bs.length + bs'.length ≤ 8000000
          push_cast at this
          omega⟩ h9
      refine ⟨n, d', f', ?_⟩
      rw [afterData_append bs bs' d d' f f' _ n st h8.1] at hL
      exact hL
    obtain ⟨d, f, hr⟩ := one b hb
    obtain ⟨n, d', f', hL⟩ := more d f
    refine ⟨n, d', f', .line _ (10 :: rest) st (afterData bs [] d f st) _ (by simp) h5.1 hr ?_ ?_⟩
    · show rest.length < _
      simp
      omega
    · exact hL

theorem dataLines_indent {ez80 : Bool} {label : Str → Option Int} {text : Str → Option Str} {depth pc : Nat} {t : Str} {bs : List Nat}
    (h : DataLines ez80 label text depth pc t bs) (hne : t ≠ []) : DataLines ez80 label text depth pc (32 :: t) bs := by
  cases h with
  | nil => exact absurd rfl hne
  | line pc b name n c args t bs rest bs' hb hn hc hj hd hr =>
    have := DataLines.line pc (32 :: b) name n c args t bs rest bs' (by
      intro x hx
      rcases List.mem_cons.1 hx with rfl | hx
      · exact .inl rfl
      · exact hb x hx) hn hc hj hd hr
    simpa using this

/-- C55, for macros of data: a call of a macro whose body consists of data directives places the data, where each parameter
has the value of its argument; nothing else changes. -/
theorem C55_data (k depth pc : Nat) (s : S) (b name t b2 rest body : Str) (df : Define) (args : List Str) (vs : List (Option Int)) (bs : List Nat)
    (hb : Blanks b) (hname : MacroName s name df) (hbody : df.contents = some body) (hne : body ≠ []) (hp : Parameters s df.args) (hj : Joined args t)
    (hvs : InOrder (fun done => ArgValue s done (min 20 k)) [] df.args args vs) (hb2 : Blanks b2) (hrest : AtEnd rest)
    (hs : Settled s) (hsess : 1 ≤ s.session) (hk : depth < k) (hd : depth < 20)
    (hdata : DataLines s.mode.ez80 (bodyLabel s df.args vs) (outerText s df.args) depth pc body bs)
    (hpc : s.pc = pc) (hpc' : pc + bs.length < 4294967296) (hroom : HasRoom bs.length s) (hmode : s.mode.normal = true ∨ s.mode.list = true) :
    ∃ d f, (knot (k + 3)).lineSec (b ++ name ++ [40] ++ t ++ [41] ++ b2 ++ rest) s = .ok (some (b2 ++ rest)) (afterData bs [] d f s) := by
  have hvs2 : InOrder (fun done => ArgValue s done (min 20 (k + 2))) [] df.args args vs := by
    refine hvs.imp_all ?_
    intro done a v hv
    cases v with
    | none => exact hv
    | some v => obtain ⟨d, h1, h2⟩ := hv; exact ⟨d, by omega, h2⟩
  obtain ⟨set, pd, fw, hbind, hcall⟩ := C55_call (k + 2) s b name t b2 rest body df args vs hb hname hbody hp hj hvs2 hb2 hrest hs hsess (by omega)
  obtain ⟨n, d, f, hL⟩ := dataLines_run s df.args args vs set k depth hbind hp hvs hs hd hk (dataLines_indent hdata hne)
    (inside { s with parseDepth := pd, fwdRef := fw } df [set]) rfl rfl rfl rfl ⟨hs.1, fun e he => by
      have := hs.2 e he
      show e.sess ≤ s.session + 1
      omega⟩ rfl hpc hpc' ⟨by show 1 ≤ s.session + 1; omega, fun e he => by
      have := hs.2 e he
      show e.sess ≤ s.session + 1
      omega⟩ hroom hmode
  refine ⟨d, f, ?_⟩
  have := hcall _ hL ⟨rfl, [], rfl, by simp⟩
  rw [this]
  congr 1
  have herr : s.errors.map (fun e => if e.sess = s.session + 1 then { e with sess := e.sess - 1 } else e) = s.errors := by
    conv => rhs; rw [← List.map_id s.errors]
    refine List.map_congr_left (fun e he => ?_)
    have := hs.2 e he
    rw [if_neg (by omega)]
    rfl
  have e : returned 1 s { afterData bs [] d f (inside { s with parseDepth := pd, fwdRef := fw } df [set]) with lineNum := n } =
      { afterData bs [] d f s with
        session := s.session + 1 - 1
        inMacro := s.inMacro + 1 - 1
        errors := s.errors.map (fun e => if e.sess = s.session + 1 then { e with sess := e.sess - 1 } else e) } := rfl
  have e1 : s.session + 1 - 1 = s.session := by omega
  have e2 : s.inMacro + 1 - 1 = s.inMacro := by omega
  rw [e, herr, e1, e2]
  rfl

/-- A state in which `x` is 3 and `m` is a macro with two parameters. -/
def withMacro : S :=
  { (asm (b! "x = 3\n#macro m(p,q)\n .db p,q+x\n .dw p*q\n#endmacro\n") [b! "a.asm"]).state with
    session := 1, errors := [], pc := 0x9D95, outPtr := 0, argSets := [], errOccurred := false, opcodes := z80Table,
    mode := { ez80 := false } }

theorem spec_digit {pc : Int} {label : Str → Option Int} {text : Str → Option Str} (c : Nat) (h : 48 ≤ c ∧ c ≤ 57) :
    Operand pc label text 0 [c] (c - 48 : Nat) := by
  have hd : digit c = some (c - 48) := by unfold digit; rw [if_pos h]
  have hv : value 10 [c] = c - 48 := by simp [value, hd]
  have := Operand.atom (pc := pc) (label := label) (text := text) [c] _ (.literal 10 [c] [c] ⟨by simp, by simp [Alnum]; omega,
    .inr (.inr ⟨⟨c - 48, hd, by omega⟩, .inr (.inr (.inr ⟨rfl, rfl, by simp; omega⟩))⟩)⟩ (by
      intro x hx
      rw [List.mem_singleton] at hx
      rw [hx]
      exact ⟨c - 48, hd, by omega⟩) (by rw [hv]; omega))
  have e : asInt32 (value 10 [c]) = ((c - 48 : Nat) : Int) := by rw [hv]; unfold asInt32; rw [if_pos (by omega)]; omega
  rw [e] at this
  exact this

theorem spec_label {pc : Int} {label : Str → Option Int} {text : Str → Option Str} (c : Nat) (v : Int) (h : 97 ≤ c ∧ c ≤ 122) (hl : label [c] = some v) :
    Operand pc label text 0 [c] v :=
  .atom _ _ (.label _ _ ⟨⟨c, [], rfl, by omega, by simp⟩, by simp; omega⟩ hl)

theorem spec_argument (a : Str) (h1 : a ≠ []) (h2 : ∀ c ∈ a, Ordinary c ∧ c ≠ 44 ∧ ¬ White c) : Argument a := by
  refine ⟨?_, h1, fun c hc => (h2 c (List.mem_of_mem_head? hc)).2.2, fun c hc => (h2 c (List.mem_of_getLast? hc)).2.2⟩
  clear h1
  induction a with
  | nil => exact .nil _
  | cons c a ih =>
    refine .char _ c a (h2 c (by simp)).1 (fun _ => by simp; exact (h2 c (by simp)).2.1) (ih (fun x hx => h2 x (by simp [hx])))

theorem spec_nb : Blanks [] := by intro c hc; cases hc

theorem spec_two (a b : Str) (ha : Argument a) (hb : Argument b) (h : a.length ≤ 254 ∧ b.length ≤ 254) : Joined [a, b] (a ++ [44] ++ b) := by
  have h2 := Joined.one [] b [] spec_nb spec_nb hb (by simpa using h.2)
  have := Joined.more [] a [] [b] _ spec_nb spec_nb ha (by simpa using h.1) h2
  simpa using this

theorem withMacro_name : ∃ df, MacroName withMacro (b! "m") df ∧ df.contents = some (b! " .db p,q+x\n .dw p*q\n") ∧ df.args = [b! "p", b! "q"] := by
  have h : (defineOf withMacro (b! "m")).map (fun d => (d.contents, d.args)) = some (some (b! " .db p,q+x\n .dw p*q\n"), [b! "p", b! "q"]) := by decide +kernel
  obtain ⟨df, h1, h2⟩ := Option.map_eq_some_iff.1 h
  obtain ⟨h2, h3⟩ := Prod.mk.inj h2
  refine ⟨df, ⟨⟨⟨109, [], rfl, by omega, by simp⟩, by decide⟩, h1, by decide +kernel, by decide +kernel, ?_, ?_, ?_, by decide +kernel⟩, h2, h3⟩
  · show ∀ o ∈ z80Table, ∀ c ∈ o.name, Alnum c
    decide +kernel
  · show ∀ o ∈ z80Table, _
    decide +kernel
  · intro h
    exact absurd h (by decide)

/-- The call ` m(-1,x+2)` in a program with `x = 3` and `m(p,q)` defined as ` .db p,q+x` and ` .dw p*q`. -/
example : ∃ d f, (knot 6).lineSec (b! " m(-1,x+2) ; comment") withMacro =
    .ok (some (b! " ; comment")) (afterData [255, 8, 251, 255] [] d f withMacro) := by
  obtain ⟨df, hm, hc, ha⟩ := withMacro_name
  have hx : visibleLabel withMacro (b! "x") = some 3 := by decide +kernel
  refine C55_data 3 1 0x9D95 withMacro [32] (b! "m") (b! "-1,x+2") [32] (b! "; comment") _ df [b! "-1", b! "x+2"] [some (-1), some 5] _
    (by intro c hc; simp at hc; subst hc; exact .inl rfl) hm hc (by decide) ?_ ?_ ?_ (by intro c hc; simp at hc; subst hc; exact .inl rfl)
    (.inr ⟨59, _, rfl, by simp⟩) (by decide +kernel) (by decide) (by omega) (by omega) ?_ rfl (by decide) ⟨by decide, by decide⟩ (.inl (by decide +kernel))
  · rw [ha]
    exact ⟨by decide +kernel, by decide, by decide +kernel⟩
  · exact spec_two (b! "-1") (b! "x+2") (spec_argument _ (by decide) (by decide)) (spec_argument _ (by decide) (by decide)) (by decide)
  · rw [ha]
    refine .cons _ _ _ _ _ _ _ ⟨0, by omega, ?_, by omega, by omega⟩ (.cons _ _ _ _ _ _ _ ⟨0, by omega, ?_, by omega, by omega⟩ (.nil _))
    · exact .one _ _ _ (.minus _ [] _ _ spec_nb (spec_digit 49 (by omega)) (by decide))
    · exact .join 0 (b! "x") 3 [] .add [43] [] 0 [50] 2 5 (.one _ _ _ (.plain _ _ _ (spec_label 120 3 (by omega) (by decide +kernel)))) spec_nb spec_nb
        (by decide) (by simp) (.plain _ _ _ (spec_digit 50 (by omega))) (by decide)
  · rw [ha]
    have hp : bodyLabel withMacro [b! "p", b! "q"] [some (-1), some 5] (b! "p") = some (-1) := by decide +kernel
    have hq : bodyLabel withMacro [b! "p", b! "q"] [some (-1), some 5] (b! "q") = some 5 := by decide +kernel
    have hx : bodyLabel withMacro [b! "p", b! "q"] [some (-1), some 5] (b! "x") = some 3 := by decide +kernel
    have d1 := DataLines.line (ez80 := false) (text := outerText withMacro [b! "p", b! "q"]) (depth := 1) 0x9D95 [32] (b! ".db") 1 32 [b! "p", b! "q+x"] (b! "p,q+x") _
      (b! " .dw p*q\n") _ (by intro c hc; simp at hc; subst hc; exact .inl rfl) (by decide) (.inl rfl)
      (spec_two (b! "p") (b! "q+x") (spec_argument _ (by decide) (by decide)) (spec_argument _ (by decide) (by decide)) (by decide))
      (.number _ 0 (b! "p") (-1) _ _ [] (.one _ _ _ (.plain _ _ _ (spec_label 112 (-1) (by omega) hp))) (by omega)
        (.number _ 0 (b! "q+x") 8 _ _ [] (.join 0 (b! "q") 5 [] .add [43] [] 0 (b! "x") 3 8 (.one _ _ _ (.plain _ _ _ (spec_label 113 5 (by omega) hq)))
          spec_nb spec_nb (by decide) (by simp) (.plain _ _ _ (spec_label 120 3 (by omega) hx)) (by decide)) (by omega) (.nil _)))
      (.line _ [32] (b! ".dw") 2 32 [b! "p*q"] (b! "p*q") _ [] [] (by intro c hc; simp at hc; subst hc; exact .inl rfl) (by decide) (.inl rfl)
        (.one [] (b! "p*q") [] spec_nb spec_nb (spec_argument _ (by decide) (by decide)) (by decide))
        (.number _ 0 (b! "p*q") (-5) _ _ [] (.join 0 (b! "p") (-1) [] .mul [42] [] 0 (b! "q") 5 (-5) (.one _ _ _ (.plain _ _ _ (spec_label 112 (-1) (by omega) hp)))
          spec_nb spec_nb (by decide) (by simp) (.plain _ _ _ (spec_label 113 5 (by omega) hq)) (by decide)) (by omega) (.nil _)) (.nil _))
    exact d1

/-- The same in a whole program, and with a name that is defined later. -/
example : (asm (b! "x = 3\n#macro m(p,q)\n .db p,q+x\n .dw p*q\n#endmacro\n m(-1,x+2)\n m(z,1)\nz = 9\n") [b! "a.asm"]).state.log =
    [.wrote (b! "a.bin") [255, 8, 251, 255, 9, 4, 9, 0]] := by decide +kernel

theorem spec_lines (k : Nat) (t : Str) (s : S) (ht : t ≠ []) (he : s.errOccurred = false)
    (h : returns (runLine (knot k) t s) (fun r s1 => decide (r.map skipToNextLine = some []) && (s1.session == s.session && s1.errors.isEmpty)) = true) :
    ∃ s', Lines k t s s' ∧ s'.session = s.session ∧ s'.errors = [] := by
  cases hr : runLine (knot k) t s with
  | stop e s1 => rw [hr] at h; cases h
  | ok r s1 =>
    rw [hr] at h
    simp only [returns, Bool.and_eq_true, decide_eq_true_eq, beq_iff_eq, List.isEmpty_iff] at h
    obtain ⟨h1, h2, h3⟩ := h
    obtain ⟨r, rfl, hn⟩ := Option.map_eq_some_iff.1 h1
    refine ⟨{ s1 with lineNum := s1.lineNum + 1 }, .line t r s s1 _ ht he hr ?_ ?_, ?_, ?_⟩
    · rw [hn]
      cases t with
      | nil => exact absurd rfl ht
      | cons c t => simp
    · rw [hn]; exact .nil _
    · exact h2
    · exact h3

/-- The call ` M ` of a macro without parameters. -/
def withPlain : S :=
  { (asm (b! "x = 3\n#macro m\n .db x\\ ld a,x\n#endmacro\n") [b! "a.asm"]).state with
    session := 1, errors := [], pc := 0x9D95, outPtr := 0, argSets := [], errOccurred := false, opcodes := z80Table }

example : ∃ s', OwnMessages withPlain s' ∧ (knot 6).lineSec (b! " M ;") withPlain = .ok (some (b! " ;")) (returned 0 withPlain s') := by
  have h : (defineOf withPlain (b! "M")).map (fun d => (d.contents, d.args)) = some (some (b! " .db x\\ ld a,x\n"), []) := by decide +kernel
  obtain ⟨df, h1, h2⟩ := Option.map_eq_some_iff.1 h
  obtain ⟨h2, h3⟩ := Prod.mk.inj h2
  have hn : MacroName withPlain (b! "M") df := by
    refine ⟨⟨⟨77, [], rfl, by omega, by simp⟩, by decide⟩, h1, by decide +kernel, by decide +kernel, ?_, ?_, ?_, by decide +kernel⟩
    · show ∀ o ∈ z80Table, ∀ c ∈ o.name, Alnum c
      decide +kernel
    · show ∀ o ∈ z80Table, _
      decide +kernel
    · intro _; decide
  have hdf : df = ((defineOf withPlain (b! "M")).getD { name := [], contents := none, args := [], line := 0, file := [] }) := by rw [h1]; rfl
  obtain ⟨s', hl, ho1, ho2⟩ := spec_lines 5 (32 :: b! " .db x\\ ld a,x\n") (inside withPlain df []) (by simp) rfl (by rw [hdf]; decide +kernel)
  refine ⟨s', ⟨ho1, [], by rw [ho2]; rfl, by simp⟩, ?_⟩
  exact C55_plain_call 5 withPlain s' [32] (b! "M") [32] (b! ";") _ df ⟨by simp, by intro c hc; simp at hc; subst hc; exact .inl rfl⟩ hn h2 h3
    (by intro c hc; simp at hc; subst hc; exact .inl rfl) (.inr ⟨59, [], rfl, by simp⟩) ⟨by decide, by decide +kernel⟩ hl ⟨ho1, [], by rw [ho2]; rfl, by simp⟩

/-! ### Where calls do something else -/

/-- C55 is violated for names that are the beginning of `buf`, `clr`, `wr` or `run`: a call of the macro `r` is taken for
`run`, which fails. -/
theorem C55_prefix_of_built_in :
    (asm (b! "#macro r(x)\n .db x\n#endmacro\n r(1)\n") [b! "a.asm"]).state.log = [.printed E.FCREATE_NOFILE false] ∧
    (asm (b! "#macro ra(x)\n .db x\n#endmacro\n ra(1)\n") [b! "a.asm"]).state.log = [.wrote (b! "a.bin") [1]] := by
  decide +kernel

/-- C55 is violated for arguments that mention a name of a parameter: they see the parameter bound before, not the symbol
of the caller. -/
theorem C55_arguments_see_parameters :
    (asm (b! "x .equ 7\n#macro m(x,y)\n .db x,y\n#endmacro\n m(1,x)\n") [b! "a.asm"]).state.log = [.wrote (b! "a.bin") [1, 1]] ∧
    (asm (b! "x .equ 7\n#macro m(z,y)\n .db z,y\n#endmacro\n m(1,x)\n") [b! "a.asm"]).state.log = [.wrote (b! "a.bin") [1, 7]] := by
  decide +kernel

/-- C55 is violated by calls with too few arguments: the operands that use a missing one are left out without a message, and
the exit status is 0. With too many arguments nothing is written. -/
theorem C55_missing_argument :
    (asm (b! "#macro m(x,y)\n .db x,y\n#endmacro\n m(1)\n") [b! "a.asm"]).state.log = [.wrote (b! "a.bin") [1]] ∧
    exitStatus (asm (b! "#macro m(x,y)\n .db x,y\n#endmacro\n m(1)\n") [b! "a.asm"]) = some 0 ∧
    (asm (b! "#macro m(x)\n .db x\n#endmacro\n m(1,2)\n") [b! "a.asm"]).state.log = [.printed E.WARN_MACRO_TOO_MANY_ARGS true] := by
  decide +kernel

end Spasm.Props
