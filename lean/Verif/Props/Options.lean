import Verif.Spec.Options
import Verif.Props.Defines
import Verif.Props.Text

/-
C50: the command line.
-/

namespace Spasm.Props
open Spasm Spec

/-- The state while the command line is read: no labels, no macro arguments. -/
structure Early (s : S) : Prop where
  labels : s.labels = []
  args : s.argSets = []

/-- Every define knows the name under which it is stored. -/
def Fitting (T : Table Define) : Prop := ∀ p ∈ T, p.2.name = p.1

theorem Fitting.update {T : Table Define} (h : Fitting T) (key : Str) (f : Define → Define) (hf : ∀ d, (f d).name = d.name) : Fitting (T.update key f) := by
  intro p hp
  unfold Table.update at hp
  obtain ⟨q, hq, rfl⟩ := List.mem_map.1 hp
  split
  · exact (hf _).trans (h q hq)
  · exact h q hq

theorem addDefine_early (s : S) (name : Str) (h0 : name ≠ []) (h : Early s) :
    ∃ T b d, addDefine name true s = .ok (some (.glob (nameKey s name), b)) { s with defines := T } ∧
      T.lookup (nameKey s name) = some d ∧ d.args = [] ∧
      (∀ key, key ≠ nameKey s name → T.lookup key = s.defines.lookup key) ∧ (WellNamed s → Fitting T) := by
  have hk := keyOf_eq s name
  have hk2 : keyOf s (nameKey s name) = nameKey s name := by rw [keyOf_eq, nameKey_idem]
  generalize nameKey s name = key at *
  have hl : s.labels.lookup key = none := by rw [h.labels]; rfl
  unfold addDefine
  rw [if_neg (by simpa using h0), M.get_bind, hk, hl]
  dsimp only
  cases hd : s.defines.lookup key with
  | none =>
    have hs : searchDefines key true s = .ok none s := by
      unfold searchDefines
      rw [hk2]
      simp [h.args, findArg, hd]
    rw [M.bind_ok hs]
    refine ⟨_, false, _, rfl, Table.lookup_insert_self _ _ _, rfl, fun key hkey => Table.lookup_insert_ne _ _ _ _ hkey, ?_⟩
    intro hw p hp
    rcases mem_insert_iff hp with rfl | hp
    · rfl
    · exact hw p hp
  | some d =>
    cases hr : refreshed key s with
    | none =>
      have hs : searchDefines key true s = .ok (some (.glob key, d)) s := by
        unfold searchDefines
        rw [hk2]
        simp [h.args, findArg, hd, hr]
      rw [M.bind_ok hs]
      refine ⟨s.defines.update key (fun d => { d with args := [] }), true, { d with args := [] }, rfl, ?_, rfl, ?_,
        fun hw => Fitting.update hw _ _ fun _ => rfl⟩
      · rw [Table.lookup_update, if_pos rfl, hd]; rfl
      · intro key hkey; rw [Table.lookup_update, if_neg hkey]
    | some c =>
      have hs : searchDefines key true s = .ok (some (.glob key, { d with contents := some c }))
          { s with defines := s.defines.update key (fun d => { d with contents := some c }) } := by
        unfold searchDefines
        rw [hk2]
        simp [h.args, findArg, hd, hr, writeDef]
      rw [M.bind_ok hs]
      refine ⟨(s.defines.update key (fun d => { d with contents := some c })).update key
        (fun d => { d with args := [] }), true, { d with contents := some c, args := [] }, rfl, ?_, rfl, ?_,
        fun hw => Fitting.update (Fitting.update hw key (fun d => { d with contents := some c }) fun _ => rfl) key (fun d => { d with args := [] }) fun _ => rfl⟩
      · rw [Table.lookup_update, if_pos rfl, Table.lookup_update, if_pos rfl, hd]; rfl
      · intro key hkey; rw [Table.lookup_update, if_neg hkey, Table.lookup_update, if_neg hkey]

theorem Early.defines {s : S} (h : Early s) (T : Table Define) : Early { s with defines := T } := ⟨h.labels, h.args⟩

/-- It only adds or changes predefined names, and defines at least `names`. -/
def Predefines (m : M Unit) (names : List Str) : Prop :=
  ∀ s, Early s → ∃ T, m s = .ok () { s with defines := T } ∧ (∀ key, key ∉ predefined → T.lookup key = s.defines.lookup key) ∧
    (WellNamed s → Fitting T) ∧ ∀ key, s.defines.lookup key ≠ none ∨ key ∈ names → T.lookup key ≠ none

theorem Predefines.bind {m k : M Unit} {n n2 : List Str} (h : Predefines m n) (h2 : Predefines k n2) : Predefines (m >>= fun _ => k) (n ++ n2) := by
  intro s hs
  obtain ⟨T, e, f, w, d⟩ := h s hs
  obtain ⟨T2, e2, f2, w2, d2⟩ := h2 _ (hs.defines T)
  refine ⟨T2, by rw [M.bind_ok e, e2], fun key hk => (f2 key hk).trans (f key hk), fun h => w2 (w h), ?_⟩
  intro key hk
  rcases hk with hk | hk
  · exact d2 key (.inl (d key (.inl hk)))
  · rcases List.mem_append.1 hk with hk | hk
    · exact d2 key (.inl (d key (.inr hk)))
    · exact d2 key (.inr hk)

theorem builtin_early (name c : Str) (as : List Str) (h0 : name ≠ []) (hu : name.map upperCase = name)
    (hn : name ∈ predefined) : Predefines (builtin name c as) [name] := by
  intro s h
  obtain ⟨T, b, d, e, e1, -, e2, e3⟩ := addDefine_early s name h0 h
  have hk : nameKey s name = name := by unfold nameKey; rw [hu]; split <;> rfl
  unfold builtin
  rw [M.bind_ok e]
  refine ⟨_, rfl, ?_, fun hw => (e3 hw).update _ _ fun _ => rfl, ?_⟩
  · intro key hkey
    have : key ≠ nameKey s name := by rw [hk]; rintro rfl; exact hkey hn
    rw [Table.lookup_update, if_neg this, e2 key this]
  · intro key hkey
    rw [Table.lookup_update]
    by_cases hx : key = nameKey s name
    · rw [if_pos hx, hx, e1]
      simp
    · rw [if_neg hx, e2 key hx]
      rcases hkey with h | h
      · exact h
      · rw [hk] at hx
        exact absurd (List.mem_singleton.1 h) hx

theorem initStorage_early : ∃ names, (∀ key ∈ predefined, key ∈ names) ∧ Predefines initStorage names := by
  unfold initStorage
  have one : ∀ (name c : Str) (as : List Str), name ≠ [] ∧ name.map upperCase = name ∧ name ∈ predefined → Predefines (builtin name c as) [name] :=
    fun name c as h => builtin_early name c as h.1 h.2.1 h.2.2
  exact ⟨_, by decide, .bind (one _ _ _ (by decide)) <| .bind (one _ _ _ (by decide)) <| .bind (one _ _ _ (by decide)) <| .bind (one _ _ _ (by decide)) <|
    .bind (one _ _ _ (by decide)) <| .bind (one _ _ _ (by decide)) <| .bind (one _ _ _ (by decide)) <| .bind (one _ _ _ (by decide)) <|
    .bind (one _ _ _ (by decide)) (one _ _ _ (by decide))⟩

/-- The predefined names are defined. -/
def Set (s : S) : Prop := ∀ key ∈ predefined, s.defines.lookup key ≠ none

theorem ensureStorage_early (o : Opts) (s : S) (h : Early s) :
    ∃ T, ensureStorage o s = .ok { o with initialised := true } { s with defines := T } ∧ (o.initialised = true → T = s.defines) ∧
      (∀ key, key ∉ predefined → T.lookup key = s.defines.lookup key) ∧ (WellNamed s → Fitting T) ∧
      (o.initialised = false → ∀ key ∈ predefined, T.lookup key ≠ none) := by
  unfold ensureStorage
  cases hi : o.initialised with
  | true =>
    refine ⟨s.defines, ?_, fun _ => rfl, fun _ _ => rfl, id, (fun h => by cases h)⟩
    rw [if_pos rfl]
    have : { o with initialised := true } = o := by rw [← hi]
    rw [this]; rfl
  | false =>
    rw [if_neg (by simp)]
    obtain ⟨names, hn, hi⟩ := initStorage_early
    obtain ⟨T, e, f, w, d⟩ := hi s h
    rw [M.bind_ok e]
    exact ⟨T, rfl, (fun h => by cases h), f, w, fun _ key hk => d key (.inr (hn key hk))⟩

theorem name_argument {name : Str} (h0 : name ≠ []) (hn : ∀ c ∈ name, NameChar c) : Balanced [61] false name ∧ Trimmed name := by
  have hc : ∀ c, NameChar c → Ordinary c ∧ c ≠ 61 ∧ ¬ White c := by
    intro c hc
    rw [← isNameChar_iff] at hc
    unfold isNameChar isAlnum isAlpha isUpper isLower isDigit at hc
    simp at hc
    unfold Ordinary White
    omega
  constructor
  · clear h0
    induction name with
    | nil => exact .nil _
    | cons c name ih =>
      have := hc c (hn c (by simp))
      exact .char _ c name this.1 (fun _ => by simpa using this.2.1) (ih fun c h => hn c (by simp [h]))
  · refine ⟨h0, fun c h => (hc c (hn c ?_)).2.2, fun c h => (hc c (hn c ?_)).2.2⟩
    · exact List.mem_of_mem_head? h
    · exact List.mem_of_mem_getLast? h

theorem dropWhile_nil_iff (p : Nat → Bool) (l : Str) : l.dropWhile p = [] ↔ ∀ c ∈ l, p c = true := by
  induction l with
  | nil => simp
  | cons c l ih =>
    rw [List.dropWhile_cons]
    cases h : p c <;> simp [h, ih]

theorem given_skipWs (v : Str) : given v = if (skipWs v).isEmpty then [49] else v := by
  have : (skipWs v).isEmpty = true ↔ Blanks v := by
    unfold skipWs
    rw [List.isEmpty_iff, dropWhile_nil_iff]
    constructor
    · intro h c hc
      have := h c hc
      unfold isBlank isSpace at this
      simp at this
      omega
    · intro h c hc
      exact isBlank_of c (h c hc)
  by_cases hb : Blanks v
  · rw [given_blank hb, if_pos (this.2 hb)]
  · rw [given_text hb, if_neg (fun h => hb (this.1 h))]

/-- One -D. -/
theorem optDefine_ok (k : Rec) (o : Opts) (n v t : Str) (ht : DefineText n v t) (s : S) (h : Early s) (hcs : s.caseSens = false) :
    ∃ T d, optDefine k o t s = .ok o { s with defines := T } ∧ T.lookup (n.map upperCase) = some d ∧ Define.text d = some (given v) ∧
      (∀ key, key ≠ n.map upperCase → T.lookup key = s.defines.lookup key) ∧ (WellNamed s → Fitting T) := by
  obtain ⟨rfl, h0, hn, hl⟩ := ht
  obtain ⟨hbal, htr⟩ := name_argument h0 hn
  have hread := readExpr_balanced true [61] (by decide) (by decide) [] n [] (61 :: v) s (by intro c hc; cases hc) (by intro c hc; cases hc)
    hbal htr (fun _ => by simpa using hl) (.inr (.inl (by simp)))
  simp only [List.nil_append, List.append_nil] at hread
  obtain ⟨T, b, d, e1, e2, e3, e4, e5⟩ := addDefine_early s n h0 h
  have hkey : nameKey s n = n.map upperCase := by unfold nameKey; rw [hcs]; rfl
  rw [hkey] at e1 e2 e4
  unfold optDefine
  rw [M.bind_ok hread]
  dsimp only
  rw [M.bind_ok e1]
  dsimp only
  have key : ∀ x : Str, ∃ T' d', (Res.ok o { s with defines := T.update (n.map upperCase) (fun d => { d with contents := some x }) } : Res Opts) =
      .ok o { s with defines := T' } ∧ T'.lookup (n.map upperCase) = some d' ∧ Define.text d' = some x ∧
      (∀ key, key ≠ n.map upperCase → T'.lookup key = s.defines.lookup key) ∧ (WellNamed s → Fitting T') := by
    intro x
    refine ⟨_, { d with contents := some x }, rfl, ?_, ?_, ?_, fun hw => (e5 hw).update _ _ fun _ => rfl⟩
    · rw [Table.lookup_update, if_pos rfl, e2]; rfl
    · unfold Define.text; rw [if_pos e3]
    · intro key hk; rw [Table.lookup_update, if_neg hk, e4 key hk]
  rw [given_skipWs]
  by_cases hv : (skipWs v).isEmpty = true
  · rw [if_pos hv, hv]
    obtain ⟨T', d', h1, h2, h3, h4⟩ := key [49]
    refine ⟨T', d', ?_, h2, h3, h4⟩
    rw [← h1]
    simp only [Bool.not_true, Bool.false_eq_true, if_false]
    have : setDefine k (.glob (n.map upperCase)) [49] false { s with defines := T } =
        .ok () { s with defines := T.update (n.map upperCase) (fun d => { d with contents := some [49] }) } := by
      unfold setDefine
      rw [M.get_bind]
      have : derefDef (.glob (n.map upperCase)) { s with defines := T } = some d := e2
      rw [this]
      rfl
    rw [M.bind_ok this]
    rfl
  · rw [if_neg hv]
    obtain ⟨T', d', h1, h2, h3, h4⟩ := key v
    refine ⟨T', d', ?_, h2, h3, h4⟩
    rw [← h1]
    have : (!(skipWs v).isEmpty) = true := by simpa using hv
    rw [if_pos this]
    rfl

theorem splitDirs_run (d r acc : Str) (hd : ∀ c ∈ d, c ≠ 59 ∧ c ≠ 44) : splitDirs (d ++ r) acc = splitDirs r (d.reverse ++ acc) := by
  induction d generalizing acc with
  | nil => rfl
  | cons c d ih =>
    have hc := hd c (by simp)
    have e : (c == 59 || c == 44) = false := by simp [hc.1, hc.2]
    rw [List.cons_append]
    have : splitDirs (c :: (d ++ r)) acc = splitDirs (d ++ r) (c :: acc) := by
      rw [splitDirs, e, if_neg (by simp)]
    rw [this, ih _ (fun c h => hd c (by simp [h]))]
    simp

theorem splitDirs_pieces (t : Str) : Pieces t (splitDirs t []) := by
  induction h : t.length using Nat.strong_induction_on generalizing t with
  | _ n ih =>
    have hsplit := (List.takeWhile_append_dropWhile (p := fun c => !(c == 59 || c == 44)) (l := t)).symm
    have hp : ∀ c ∈ t.takeWhile (fun c => !(c == 59 || c == 44)), c ≠ 59 ∧ c ≠ 44 := by
      intro c hc
      have := List.all_eq_true.1 List.all_takeWhile c hc
      simpa using this
    have hr : ∀ c r, t.dropWhile (fun c => !(c == 59 || c == 44)) = c :: r → (c == 59 || c == 44) = true := by
      intro c r hcr
      have := List.head?_dropWhile_not (fun c => !(c == 59 || c == 44)) t
      rw [hcr] at this
      simp at this
      simp
      omega
    generalize t.takeWhile (fun c => !(c == 59 || c == 44)) = d at *
    generalize t.dropWhile (fun c => !(c == 59 || c == 44)) = r at *
    subst hsplit
    rw [splitDirs_run d r [] hp]
    cases r with
    | nil =>
      cases d with
      | nil => exact .nil
      | cons c d =>
        rw [List.append_nil]
        have := Pieces.last (c :: d) (by simp) hp
        unfold splitDirs
        simpa using this
    | cons c r =>
      have hc := hr c r rfl
      have hc' : c = 59 ∨ c = 44 := by simpa using hc
      have hlen : r.length < n := by rw [← h]; simp; omega
      have := ih r.length hlen r rfl
      unfold splitDirs
      rw [if_pos hc]
      cases d with
      | nil => exact .sep c r _ hc' this
      | cons x d =>
        have := Pieces.piece (x :: d) c r _ (by simp) hp hc' this
        simpa using this

/-- What reading part of the command line does. -/
structure Read (is : List Item) (s : S) (o : Opts) (s' : S) (o' : Opts) : Prop where
  same : { s' with
    mode := s.mode, opcodes := s.opcodes, includeDirs := s.includeDirs, currFile := s.currFile, defines := s.defines } = s
  normal : s'.mode.normal = (s.mode.normal && !decide (.flag 79 ∈ is))
  list : s'.mode.list = (s.mode.list || decide (.flag 84 ∈ is))
  codeCounter : s'.mode.codeCounter = (s.mode.codeCounter || decide (.flag 67 ∈ is))
  symtable : s'.mode.symtable = (s.mode.symtable || decide (.flag 76 ∈ is))
  stats : s'.mode.stats = (s.mode.stats || decide (.flag 83 ∈ is))
  ez80 : s'.mode.ez80 = (s.mode.ez80 || decide (.flag 69 ∈ is))
  commandline : s'.mode.commandline = (s.mode.commandline || (lastLine is).isSome)
  opcodes : s'.opcodes = if .flag 69 ∈ is then ez80Table else s.opcodes
  caseSens : o'.caseSens = (o.caseSens || decide (.flag 65 ∈ is))
  contents : o'.contents = ((lastLine is).map (· ++ [10])).or o.contents
  input : o'.input = if (lastLine is).isSome then some (b! "-v") else (o.input.toList ++ o.output.toList ++ fileNames is)[0]?
  output : o'.output = if (lastLine is).isSome then some (b! "-v.bin") else (o.input.toList ++ o.output.toList ++ fileNames is)[1]?
  paired : o'.output.isSome → o'.input.isSome
  currFile : ∀ f, o'.input = some f → s'.currFile = f
  dirs : ∃ ds, Directories is ds ∧ s'.includeDirs = s.includeDirs ++ ds
  given : ∀ name v, lastValue name is = some v → o'.initialised = true ∧
    ∃ d, s'.defines.lookup (name.map upperCase) = some d ∧ Define.text d = some v
  kept : ∀ key, (∀ name v, lastValue name is = some v → key ≠ name.map upperCase) → (o.initialised = true ∨ key ∉ predefined) →
    s'.defines.lookup key = s.defines.lookup key
  init : o.initialised = true → o'.initialised = true
  named : WellNamed s → WellNamed s'
  ready : (o.initialised = true → Set s) → o'.initialised = true → Set s'

theorem lastValue_cons (name : Str) (i : Item) (is : List Item) :
    lastValue name (i :: is) = (lastValue name is).or (lastValue name [i]) := by
  cases i <;> simp [lastValue]
  cases lastValue name is <;> simp

theorem lastValue_congr (is : List Item) {n n' : Str} (h : n.map upperCase = n'.map upperCase) : lastValue n is = lastValue n' is := by
  induction is with
  | nil => rfl
  | cons i is ih => cases i <;> simp [lastValue, ih, h]

theorem lastLine_cons (i : Item) (is : List Item) : lastLine (i :: is) = (lastLine is).or (lastLine [i]) := by
  cases i <;> simp [lastLine]

theorem two (F G : List Str) (j : Nat) (hj : j < 2) : (F[0]?.toList ++ F[1]?.toList ++ G)[j]? = (F ++ G)[j]? := by
  match F, j, hj with
  | [], _, _ => rfl
  | [a], _, _ => rfl
  | a :: b :: F, 0, _ => rfl
  | a :: b :: F, 1, _ => rfl

theorem fileNames_cons (i : Item) (is : List Item) : fileNames (i :: is) = fileNames [i] ++ fileNames is := by
  cases i <;> rfl

theorem Read.cons {i : Item} {is : List Item} {s s1 s2 : S} {o o1 o2 : Opts} (h : Read [i] s o s1 o1) (h2 : Read is s1 o1 s2 o2) :
    Read (i :: is) s o s2 o2 where
  same := by
    have a := h.same
    have b := h2.same
    rw [← b] at a
    exact a
  normal := by rw [h2.normal, h.normal]; cases s.mode.normal <;> simp [eq_comm]
  list := by rw [h2.list, h.list]; cases s.mode.list <;> simp [eq_comm]
  codeCounter := by rw [h2.codeCounter, h.codeCounter]; cases s.mode.codeCounter <;> simp
  symtable := by rw [h2.symtable, h.symtable]; cases s.mode.symtable <;> simp
  stats := by rw [h2.stats, h.stats]; cases s.mode.stats <;> simp
  ez80 := by rw [h2.ez80, h.ez80]; cases s.mode.ez80 <;> simp
  commandline := by
    rw [h2.commandline, h.commandline, lastLine_cons i is]
    cases s.mode.commandline <;> cases lastLine is <;> simp
  opcodes := by
    rw [h2.opcodes, h.opcodes]
    by_cases a : Item.flag 69 = i <;> by_cases b : Item.flag 69 ∈ is <;> simp [a, b]
  caseSens := by rw [h2.caseSens, h.caseSens]; cases o.caseSens <;> simp
  contents := by
    rw [h2.contents, h.contents, lastLine_cons i is]
    cases lastLine is <;> simp
  input := by
    rw [h2.input, h.input, h.output, lastLine_cons i is, fileNames_cons i is, ← List.append_assoc]
    cases lastLine is with
    | some t => rfl
    | none =>
      cases lastLine [i] with
      | some t => rfl
      | none => exact two _ _ 0 (by decide)
  output := by
    rw [h2.output, h.input, h.output, lastLine_cons i is, fileNames_cons i is, ← List.append_assoc]
    cases lastLine is with
    | some t => rfl
    | none =>
      cases lastLine [i] with
      | some t => rfl
      | none => exact two _ _ 1 (by decide)
  paired := h2.paired
  currFile := h2.currFile
  dirs := by
    obtain ⟨ds, a, b⟩ := h.dirs
    obtain ⟨ds2, a2, b2⟩ := h2.dirs
    refine ⟨ds ++ ds2, ?_, by rw [b2, b, List.append_assoc]⟩
    cases a with
    | dirs t ds' _ rest hp hr =>
      cases hr
      rw [List.append_nil]
      exact .dirs _ _ _ _ hp a2
    | other _ _ rest hi hr =>
      cases hr
      exact .other _ _ _ hi a2
  given := by
    intro name v hv
    rw [lastValue_cons] at hv
    cases hl : lastValue name is with
    | some v' =>
      rw [hl] at hv
      cases hv
      exact h2.given name _ hl
    | none =>
      rw [hl] at hv
      obtain ⟨a, d, b, c⟩ := h.given name v hv
      refine ⟨h2.init a, d, ?_, c⟩
      rw [h2.kept _ ?_ (.inl a), b]
      intro name' v' h' heq
      rw [lastValue_congr is heq] at hl
      rw [hl] at h'
      cases h'
  kept := by
    intro key hn hp
    rw [h2.kept key ?_ ?_, h.kept key ?_ hp]
    · intro name v hv
      cases hl : lastValue name is with
      | none => exact hn name v (by rw [lastValue_cons, hl, hv]; rfl)
      | some w => exact hn name w (by rw [lastValue_cons, hl]; rfl)
    · intro name v hv
      exact hn name v (by rw [lastValue_cons, hv]; rfl)
    rcases hp with hp | hp
    · exact .inl (h.init hp)
    · exact .inr hp
  init := fun a => h2.init (h.init a)
  named := fun a => h2.named (h.named a)
  ready := fun a => h2.ready (h.ready a)

theorem Read.nil {s : S} {o : Opts} (hin : o.output.isSome → o.input.isSome) (hcf : ∀ f, o.input = some f → s.currFile = f) :
    Read [] s o s o where
  same := rfl
  normal := by simp
  list := by simp
  codeCounter := by simp
  symtable := by simp
  stats := by simp
  ez80 := by simp
  commandline := by simp [lastLine]
  opcodes := by simp
  caseSens := by simp
  contents := by simp [lastLine]
  input := by cases hi : o.input <;> cases ho : o.output <;> simp_all [lastLine, fileNames]
  output := by cases hi : o.input <;> cases ho : o.output <;> simp_all [lastLine, fileNames]
  paired := hin
  currFile := hcf
  dirs := ⟨[], .nil, by simp⟩
  given := by intro name v h; cases h
  kept := fun _ _ _ => rfl
  init := id
  named := id
  ready := id

/-- The storage is set up, nothing else happens. -/
theorem Read.storage {s : S} {o : Opts} (he : Early s) (hin : o.output.isSome → o.input.isSome)
    (hcf : ∀ f, o.input = some f → s.currFile = f) :
    ∃ T, ensureStorage o s = .ok { o with initialised := true } { s with defines := T } ∧
      Read [] s o { s with defines := T } { o with initialised := true } := by
  obtain ⟨T, e, h1, h2, h3, h4⟩ := ensureStorage_early o s he
  refine ⟨T, e, ?_⟩
  have n := Read.nil hin hcf
  exact ⟨rfl, n.normal, n.list, n.codeCounter, n.symtable, n.stats, n.ez80, n.commandline, n.opcodes, n.caseSens, n.contents,
    n.input, n.output, n.paired, n.currFile, n.dirs, (by intro name v h; cases h),
    (by
      rintro key - (h | h)
      · rw [h1 h]
      · exact h2 _ h), (fun _ => rfl), h3,
    (by
      intro h _
      cases hi : o.initialised with
      | true =>
        have := h hi
        unfold Set at this ⊢
        rw [show ({ s with defines := T } : S).defines = s.defines from h1 hi]
        exact this
      | false => exact h4 hi)⟩

/-- The result of reading the command line. -/
def LoopResult (k : Rec) (as : List Str) (is : List Item) (r : Option Nat) (s : S) (o : Opts) : Prop :=
  match r with
  | none => ∃ s' o', optLoop k as o s = .ok o' s' ∧ Read is s o s' o'
  | some n => ∃ s', optLoop k as o s = .stop (.exit n) s' ∧ s'.log = s.log

/-- The rest of the loop, after the step for one item. -/
theorem loop_more (k : Rec) {i : Item} {is : List Item} {as as' : List Str} {r : Option Nat} {s s1 : S} {o o1 : Opts}
    (h : Read [i] s o s1 o1) (he : Early s) (hcs : s.caseSens = false) (e : optLoop k as o s = optLoop k as' o1 s1)
    (ih : ∀ (s : S) (o : Opts), Early s → s.caseSens = false → (o.output.isSome → o.input.isSome) →
      (∀ f, o.input = some f → s.currFile = f) → LoopResult k as' is r s o) :
    LoopResult k as (i :: is) r s o := by
  have a : s1.labels = s.labels := by have := congrArg S.labels h.same; exact this
  have b : s1.argSets = s.argSets := by have := congrArg S.argSets h.same; exact this
  have c : s1.caseSens = s.caseSens := by have := congrArg S.caseSens h.same; exact this
  have d : s1.log = s.log := by have := congrArg S.log h.same; exact this
  have := ih s1 o1 ⟨a.trans he.labels, b.trans he.args⟩ (c.trans hcs) h.paired h.currFile
  unfold LoopResult at *
  cases r with
  | none =>
    obtain ⟨s2, o2, e2, h2⟩ := this
    exact ⟨s2, o2, e.trans e2, h.cons h2⟩
  | some n =>
    obtain ⟨s2, e2, h2⟩ := this
    exact ⟨s2, e.trans e2, h2.trans d⟩

theorem Read.dirsItem {s : S} {o : Opts} (t : Str) (hin : o.output.isSome → o.input.isSome) (hcf : ∀ f, o.input = some f → s.currFile = f) :
    Read [.dirs t] s o { s with includeDirs := s.includeDirs ++ splitDirs t [] } o := by
  have n := Read.nil hin hcf
  exact ⟨rfl, by simp, by simp, by simp, by simp, by simp, by simp, by simp [lastLine], by simp, by simp, by simp [lastLine],
    n.input, n.output, n.paired, n.currFile,
    ⟨splitDirs t [], by simpa using Directories.dirs t _ [] [] (splitDirs_pieces t) .nil, rfl⟩,
    (by intro name v h; cases h), (fun _ _ _ => rfl), id, id, id⟩

theorem Read.lineItem {s : S} {o : Opts} (t : Str) :
    Read [.line t] s o { s with mode := { s.mode with commandline := true }, currFile := b! "-v" }
      { o with input := some (b! "-v"), contents := some (t ++ [10]), output := some (b! "-v.bin") } := by
  exact ⟨rfl, by simp, by simp, by simp, by simp, by simp, by simp, by simp [lastLine], by simp, by simp, by simp [lastLine],
    rfl, rfl, (fun _ => rfl), (by rintro f h; cases h; rfl), ⟨[], .other _ _ _ (by intro t h; cases h) .nil, by simp⟩,
    (by intro name v h; cases h), (fun _ _ _ => rfl), id, id, id⟩

theorem optFile_ok {s : S} {o : Opts} (f : Str) (hin : o.output.isSome → o.input.isSome) (hcf : ∀ f, o.input = some f → s.currFile = f) :
    ∃ s1 o1, optFile o f s = .ok o1 s1 ∧ Read [.file f] s o s1 o1 := by
  have hd : ∃ ds, Directories [.file f] ds ∧ s.includeDirs = s.includeDirs ++ ds :=
    ⟨[], .other _ _ _ (by intro t h; cases h) .nil, by simp⟩
  unfold optFile
  cases hi : o.input with
  | none =>
    have ho : o.output = none := by
      cases ho : o.output with
      | none => rfl
      | some x => rw [ho, hi] at hin; simp at hin
    refine ⟨_, _, rfl, ?_⟩
    exact ⟨rfl, by simp, by simp, by simp, by simp, by simp, by simp, by simp [lastLine], by simp, by simp, by simp [lastLine],
      (by simp [lastLine, hi, ho, fileNames]), (by simp [lastLine, hi, ho, fileNames]), (fun _ => rfl), (by rintro f h; cases h; rfl), hd,
      (by intro name v h; cases h), (fun _ _ _ => rfl), id, id, id⟩
  | some g =>
    refine ⟨_, _, rfl, ?_⟩
    cases ho : o.output with
    | none =>
      exact ⟨rfl, by simp, by simp, by simp, by simp, by simp, by simp, by simp [lastLine], by simp, by simp, by simp [lastLine],
        (by simp [lastLine, hi, ho, fileNames]), (by simp [lastLine, hi, ho, fileNames]), (fun _ => by simp [hi]),
        (by intro f hf; exact hcf f (by simpa [hi] using hf)), hd, (by intro name v h; cases h), (fun _ _ _ => rfl), (by simp), id, (by simpa using id)⟩
    | some g2 =>
      exact ⟨rfl, by simp, by simp, by simp, by simp, by simp, by simp, by simp [lastLine], by simp, by simp, by simp [lastLine],
        (by simp [lastLine, hi, ho, fileNames]), (by simp [lastLine, hi, ho, fileNames]), (fun _ => by simp [hi]),
        (by simpa using hcf), hd, (by intro name v h; cases h), (fun _ _ _ => rfl), (by simp), id, (by simpa using id)⟩

/-- -D with its text. -/
theorem Read.defineItem {s : S} {o : Opts} (k : Rec) (n v t : Str) (ht : DefineText n v t) (he : Early s) (hcs : s.caseSens = false)
    (hin : o.output.isSome → o.input.isSome) (hcf : ∀ f, o.input = some f → s.currFile = f) :
    ∃ T, (ensureStorage o >>= fun o => optDefine k o t) s = .ok { o with initialised := true } { s with defines := T } ∧
      Read [.define n v] s o { s with defines := T } { o with initialised := true } := by
  obtain ⟨T, e, r⟩ := Read.storage he hin hcf
  obtain ⟨T2, d, e2, f1, f2, f3, f4⟩ := optDefine_ok k { o with initialised := true } n v t ht { s with defines := T } (he.defines T) hcs
  refine ⟨T2, by rw [M.bind_ok e, e2], ?_⟩
  have hv : ∀ name, lastValue name [.define n v] = if n.map upperCase = name.map upperCase then some (Spec.given v) else none := by
    intro name; rfl
  refine ⟨rfl, by simp, by simp, by simp, by simp, by simp, by simp, by simp [lastLine], by simp, by simp, by simp [lastLine],
    r.input, r.output, r.paired, r.currFile, ⟨[], .other _ _ _ (by intro t h; cases h) .nil, by simp⟩, ?_, ?_, (fun _ => rfl),
    fun h => f4 (r.named h), ?_⟩
  · intro name w hw
    rw [hv] at hw
    split at hw
    · rename_i hn
      cases hw
      exact ⟨rfl, d, by rw [← hn]; exact f1, f2⟩
    · cases hw
  · intro key hw hp
    have := r.kept key (by intro name v h; cases h) hp
    rw [← this]
    exact f3 _ (hw n _ (by rw [hv, if_pos rfl]))
  · intro h _ key hk
    have := r.ready h rfl key hk
    show T2.lookup key ≠ none
    by_cases hx : key = n.map upperCase
    · rw [hx, f1]; simp
    · rw [f3 key hx]; exact this

theorem optLoop_flag (k : Rec) (c : Nat) (hc : c ∈ flags) (more : Str) (as : List Str) (s : S) (o : Opts)
    (hin : o.output.isSome → o.input.isSome) (hcf : ∀ f, o.input = some f → s.currFile = f) :
    ∃ s1 o1, optLoop k ((45 :: c :: more) :: as) o s = optLoop k as o1 s1 ∧ Read [.flag c] s o s1 o1 := by
  have n := Read.nil hin hcf
  have hd : ∃ ds, Directories [.flag c] ds ∧ s.includeDirs = s.includeDirs ++ ds :=
    ⟨[], .other _ _ _ (by intro t h; cases h) .nil, by simp⟩
  simp only [flags, List.mem_cons, List.not_mem_nil, or_false] at hc
  rcases hc with rfl | rfl | rfl | rfl | rfl | rfl | rfl | rfl
  all_goals
    refine ⟨_, _, by rw [optLoop.eq_def]; rfl, ?_⟩
    exact ⟨rfl, by simp, by simp, by simp, by simp, by simp, by simp, by simp [lastLine], by simp, by simp, by simp [lastLine],
      n.input, n.output, n.paired, n.currFile, hd, (by intro name v h; cases h), (fun _ _ _ => rfl), id, id, id⟩

theorem optLoop_ok (k : Rec) {as : List Str} {is : List Item} {r : Option Nat} (h : Asks as is r) (s : S) (o : Opts) (he : Early s) (hcs : s.caseSens = false)
    (hin : o.output.isSome → o.input.isSome) (hcf : ∀ f, o.input = some f → s.currFile = f) :
    LoopResult k as is r s o := by
  induction h generalizing s o with
  | nil => exact ⟨s, o, rfl, .nil hin hcf⟩
  | flag c more as is _ hc _ ih =>
    obtain ⟨s1, o1, e, r⟩ := optLoop_flag k c hc more as s o hin hcf
    exact loop_more k r he hcs e ih
  | dirs t as is _ ht _ ih =>
    have e : optLoop k ((45 :: 73 :: t) :: as) o s = optLoop k as o { s with includeDirs := s.includeDirs ++ splitDirs t [] } := by
      cases t with
      | nil => exact absurd rfl ht
      | cons c t => rw [optLoop.eq_def]; rfl
    exact loop_more k (.dirsItem t hin hcf) he hcs e ih
  | dirsNext t as is _ _ ih =>
    have e : optLoop k ([45, 73] :: t :: as) o s = optLoop k as o { s with includeDirs := s.includeDirs ++ splitDirs t [] } := by
      rw [optLoop.eq_def]; rfl
    exact loop_more k (.dirsItem t hin hcf) he hcs e ih
  | dirsMissing => exact ⟨s, o, by rw [optLoop.eq_def]; rfl, .nil hin hcf⟩
  | define n v t as is _ ht _ ih =>
    obtain ⟨T, e, r⟩ := Read.defineItem k n v t ht he hcs hin hcf
    have e2 : optLoop k ((45 :: 68 :: t) :: as) o s = ((ensureStorage o >>= fun o => optDefine k o t) >>= fun o => optLoop k as o) s := by
      obtain ⟨rfl, h0, -⟩ := ht
      cases n with
      | nil => exact absurd rfl h0
      | cons c n => rw [M.bind_assoc, optLoop.eq_def]; rfl
    exact loop_more k r he hcs (by rw [e2, M.bind_ok e]) ih
  | defineNext n v t as is _ ht _ ih =>
    obtain ⟨T, e, r⟩ := Read.defineItem k n v t ht he hcs hin hcf
    have e2 : optLoop k ([45, 68] :: t :: as) o s = ((ensureStorage o >>= fun o => optDefine k o t) >>= fun o => optLoop k as o) s := by
      rw [M.bind_assoc, optLoop.eq_def]; rfl
    exact loop_more k r he hcs (by rw [e2, M.bind_ok e]) ih
  | defineMissing =>
    obtain ⟨T, e, r⟩ := Read.storage he hin hcf
    have e2 : optLoop k [[45, 68]] o s = (ensureStorage o >>= fun o => optLoop k [] o) s := by rw [optLoop.eq_def]; rfl
    exact ⟨_, _, by rw [e2, M.bind_ok e, optLoop.eq_def]; rfl, r⟩
  | line t as is _ ht _ ih =>
    have e : optLoop k ((45 :: 86 :: t) :: as) o s = optLoop k as
        { o with input := some (b! "-v"), contents := some (t ++ [10]), output := some (b! "-v.bin") }
        { s with mode := { s.mode with commandline := true }, currFile := b! "-v" } := by
      cases t with
      | nil => exact absurd rfl ht
      | cons c t => rw [optLoop.eq_def]; rfl
    exact loop_more k (.lineItem t) he hcs e ih
  | lineNext t as is _ _ ih =>
    have e : optLoop k ([45, 86] :: t :: as) o s = optLoop k as
        { o with input := some (b! "-v"), contents := some (t ++ [10]), output := some (b! "-v.bin") }
        { s with mode := { s.mode with commandline := true }, currFile := b! "-v" } := by rw [optLoop.eq_def]; rfl
    exact loop_more k (.lineItem t) he hcs e ih
  | file f as is _ hf _ ih =>
    obtain ⟨s1, o1, e, r⟩ := optFile_ok f hin hcf
    have e2 : optLoop k (f :: as) o s = (optFile o f >>= fun o => optLoop k as o) s := by
      cases f with
      | nil => rw [optLoop.eq_def]; rfl
      | cons c f =>
        have : (c != 45) = true := by
          have : c ≠ 45 := by rintro rfl; exact hf rfl
          simpa using this
        rw [optLoop.eq_def]
        show (if (c != 45) = true then _ else _ : M Opts) s = _
        rw [if_pos this]
    exact loop_more k r he hcs (by rw [e2, M.bind_ok e]) ih
  | lineMissing => exact ⟨s, by rw [optLoop.eq_def]; rfl, rfl⟩
  | help c more as hc =>
    refine ⟨s, ?_, rfl⟩
    rcases hc with rfl | rfl <;> rw [optLoop.eq_def] <;> rfl
  | unknown a as ha =>
    refine ⟨s, ?_, rfl⟩
    cases a with
    | nil => rw [optLoop.eq_def]; rfl
    | cons c a =>
      have hc := ha c rfl
      simp only [flags, List.cons_append, List.nil_append, List.mem_cons, List.not_mem_nil, or_false, not_or] at hc
      obtain ⟨h1, h2, h3, h4, h5, h6, h7, h8, h9, h10, h11, h12, h13⟩ := hc
      have hm : ∀ m, modeOption c m = none := by intro m; simp [modeOption, *]
      rw [optLoop.eq_def]
      simp [hd, hm, M.get_bind, *, M.halt]

/-- The state in which assembling starts, for a command line. -/
structure Configured (is : List Item) (start s : S) : Prop where
  /-- the modes are those asked for -/
  mode : s.mode = modeFor is
  caseSens : s.caseSens = decide (.flag 65 ∈ is)
  opcodes : s.opcodes = if .flag 69 ∈ is then ez80Table else z80Table
  dirs : Directories is s.includeDirs
  /-- names given with -D have the last of their values -/
  given : ∀ name v, lastValue name is = some v → ∃ d, s.defines.lookup (name.map upperCase) = some d ∧ Define.text d = some v
  /-- no other name but the predefined ones has a meaning -/
  others : ∀ key d, s.defines.lookup key = some d → key ∈ predefined ∨ ∃ name v, lastValue name is = some v ∧ key = name.map upperCase
  /-- the table of defines is in order -/
  named : WellNamed s
  /-- the predefined names have a meaning -/
  ready : ∀ key ∈ predefined, s.defines.lookup key ≠ none
  /-- nothing else is different from the start of the program -/
  rest : { s with
    mode := start.mode, caseSens := start.caseSens, opcodes := start.opcodes, includeDirs := start.includeDirs,
    defines := start.defines, currFile := start.currFile } = start

/-- C50: a command line that asks for a file or a line to assemble does exactly that, with exactly the modes its
options select, in whatever order they come and however often they are repeated. -/
theorem C50_options_partial (fuel : Nat) (md5 : List Nat → List Nat) (fs : Str → Option (List Nat)) (mem rand : Nat → Nat) (cwd : Str)
    (args : List Str) (is : List Item) (h : Asks args is none) (input : Str) (hin : inputFor is = some input) :
    ∃ s, Configured is (startState fs mem rand) s ∧ s.currFile = input ∧
      spasm fuel md5 fs mem rand cwd args =
        runAssembly (knot fuel) md5 cwd ((lastLine is).map (· ++ [10])) (outputFor is input) s := by
  have hne : args ≠ [] := by
    rintro rfl
    generalize he : ([] : List Str) = a at h
    generalize hr : (none : Option Nat) = r at h
    cases h <;> cases he
    cases hin
  obtain ⟨s1, o1, e, r⟩ := optLoop_ok (knot fuel) h { startState fs mem rand with currFile := b! "Commandline" } {} ⟨rfl, rfl⟩ rfl
    (by intro h; cases h) (by intro f h; cases h)
  have hi : o1.input = some input := by rw [r.input, ← hin]; rfl
  have ho : (match o1.output with | some f => f | none => changeExtension input (b! "bin")) = outputFor is input := by
    rw [r.output]
    unfold outputFor
    cases (lastLine is).isSome
    · show (match (fileNames is)[1]? with | some f => f | none => changeExtension input (b! "bin")) = _
      cases (fileNames is)[1]? <;> rfl
    · rfl
  have hc : o1.contents = (lastLine is).map (· ++ [10]) := by rw [r.contents]; simp
  have a : s1.labels = [] := by have := congrArg S.labels r.same; exact this
  have b : s1.argSets = [] := by have := congrArg S.argSets r.same; exact this
  obtain ⟨T, e2, f1, f2, f3, f4⟩ := ensureStorage_early o1 { s1 with caseSens := o1.caseSens } ⟨a, b⟩
  refine ⟨{ s1 with caseSens := o1.caseSens, defines := T, errors := [], session := 0 }, ?_, r.currFile input hi, ?_⟩
  · constructor
    · show s1.mode = _
      have n := r.normal
      have l := r.list
      have c := r.codeCounter
      have y := r.symtable
      have t := r.stats
      have z := r.ez80
      have q := r.commandline
      generalize s1.mode = m at *
      cases m
      unfold modeFor
      simp [startState] at n l c y t z q
      simp [n, l, c, y, t, z, q]
    · simpa using r.caseSens
    · exact r.opcodes
    · obtain ⟨ds, d1, d2⟩ := r.dirs
      show Directories is s1.includeDirs
      rw [d2]
      exact d1
    · intro name v hv
      obtain ⟨g, d, g1, g2⟩ := r.given name v hv
      exact ⟨d, by show T.lookup _ = _; rw [f1 g]; exact g1, g2⟩
    · intro key d hd
      by_contra hcon
      simp only [not_or, not_exists, not_and] at hcon
      have k1 := f2 key hcon.1
      have k2 := r.kept key hcon.2 (.inr hcon.1)
      have : T.lookup key = none := by rw [k1]; exact k2
      rw [show T.lookup key = some d from hd] at this
      cases this
    · exact f3 (r.named (by intro p hp; cases hp))
    · show ∀ key ∈ predefined, T.lookup key ≠ none
      cases hi : o1.initialised with
      | true =>
        rw [f1 hi]
        exact r.ready (by intro h; cases h) hi
      | false => exact f4 hi
    · have := congrArg (fun s : S => { s with caseSens := false, errors := [], session := 0, currFile := [] }) r.same
      exact this
  · unfold spasm mainBody
    rw [if_neg (by simpa using hne), M.modify_bind, M.bind_ok e, M.modify_bind, hi]
    dsimp only
    rw [M.bind_ok e2, hc]
    unfold clearSessions
    rw [M.modify_bind, ← ho]
    cases o1.output <;> rfl

/-- C50: and the modes stay what the command line made them until the program ends. -/
theorem C50_final (fuel : Nat) (md5 : List Nat → List Nat) (fs : Str → Option (List Nat)) (mem rand : Nat → Nat) (cwd : Str)
    (args : List Str) (is : List Item) (h : Asks args is none) (input : Str) (hin : inputFor is = some input) :
    let s := (spasm fuel md5 fs mem rand cwd args).state
    s.mode = modeFor is ∧ s.caseSens = decide (.flag 65 ∈ is) ∧ s.fs = fs := by
  obtain ⟨s, hc, -, e⟩ := C50_options_partial fuel md5 fs mem rand cwd args is h input hin
  have := C51_options_fixed fuel md5 cwd ((lastLine is).map (· ++ [10])) (outputFor is input) s
  rw [e]
  refine ⟨this.1.trans hc.mode, this.2.1.trans hc.caseSens, this.2.2.trans ?_⟩
  have := congrArg S.fs hc.rest
  exact this

/-- C50: two command lines with the same options, in whatever order and however often, the same files and the same
line work in the same modes. -/
theorem C50_order (fuel : Nat) (md5 : List Nat → List Nat) (fs : Str → Option (List Nat)) (mem rand : Nat → Nat) (cwd : Str)
    (args args' : List Str) (is is' : List Item) (h : Asks args is none) (h' : Asks args' is' none) (input : Str)
    (hin : inputFor is = some input) (hf : ∀ c, Item.flag c ∈ is ↔ Item.flag c ∈ is') (hl : lastLine is = lastLine is')
    (hn : fileNames is = fileNames is') :
    let s := (spasm fuel md5 fs mem rand cwd args).state
    let s' := (spasm fuel md5 fs mem rand cwd args').state
    s.mode = s'.mode ∧ s.caseSens = s'.caseSens := by
  have hin' : inputFor is' = some input := by rw [← hin]; unfold inputFor; rw [hl, hn]
  have a := C50_final fuel md5 fs mem rand cwd args is h input hin
  have b := C50_final fuel md5 fs mem rand cwd args' is' h' input hin'
  have m : modeFor is = modeFor is' := by unfold modeFor; simp only [hf, hl]
  exact ⟨a.1.trans (m.trans b.1.symm), a.2.1.trans (by simp only [hf, b.2.1])⟩

/-- C50: an option that is not known ends the program with status 1, -H with 0, -V without a line with 3; nothing is
assembled, printed as an error, or written. -/
theorem C50_stops (fuel : Nat) (md5 : List Nat → List Nat) (fs : Str → Option (List Nat)) (mem rand : Nat → Nat) (cwd : Str)
    (args : List Str) (is : List Item) (n : Nat) (h : Asks args is (some n)) :
    ∃ s, spasm fuel md5 fs mem rand cwd args = .stop (.exit n) s ∧ s.log = [] := by
  have hne : args ≠ [] := by
    rintro rfl
    generalize he : ([] : List Str) = a at h
    cases h <;> cases he
  obtain ⟨s1, e, hl⟩ := optLoop_ok (knot fuel) h { startState fs mem rand with currFile := b! "Commandline" } {} ⟨rfl, rfl⟩ rfl
    (by intro h; cases h) (by intro f h; cases h)
  refine ⟨s1, ?_, hl⟩
  unfold spasm mainBody
  rw [if_neg (by simpa using hne), M.modify_bind, M.bind_stop e]

/-- C50: without a file and without a line the program ends with status 3 and writes nothing. -/
theorem C50_no_input (fuel : Nat) (md5 : List Nat → List Nat) (fs : Str → Option (List Nat)) (mem rand : Nat → Nat) (cwd : Str)
    (args : List Str) (is : List Item) (h : Asks args is none) (hne : args ≠ []) (hin : inputFor is = none) :
    ∃ s, spasm fuel md5 fs mem rand cwd args = .ok 3 s ∧ s.log = [] := by
  obtain ⟨s1, o1, e, r⟩ := optLoop_ok (knot fuel) h { startState fs mem rand with currFile := b! "Commandline" } {} ⟨rfl, rfl⟩ rfl
    (by intro h; cases h) (by intro f h; cases h)
  have hi : o1.input = none := by rw [r.input]; exact hin
  have hl : s1.log = [] := by have := congrArg S.log r.same; exact this
  refine ⟨{ s1 with caseSens := o1.caseSens }, ?_, hl⟩
  unfold spasm mainBody
  rw [if_neg (by simpa using hne), M.modify_bind, M.bind_ok e, M.modify_bind, hi]
  rfl

theorem nameChars {n : Str} (h : n.all isNameChar = true) : ∀ c ∈ n, NameChar c := fun c hc =>
  (isNameChar_iff c).1 (List.all_eq_true.1 h c hc)

example : Asks [b! "-DFoo=12", b! "-T", b! "x.asm", b! "-I", b! "a;;b,c", b! "-D", b! "foo= ", b! "-L", b! "-EA", b! "out.8xp"]
    [.define (b! "Foo") (b! "12"), .flag 84, .file (b! "x.asm"), .dirs (b! "a;;b,c"), .define (b! "foo") (b! " "), .flag 76, .flag 69,
      .file (b! "out.8xp")] none :=
  .define _ _ _ _ _ _ ⟨rfl, by decide, nameChars (by decide), by decide⟩ <| .flag _ _ _ _ _ (by decide) <| .file _ _ _ _ (by decide) <|
    .dirsNext _ _ _ _ <| .defineNext _ _ _ _ _ _ ⟨rfl, by decide, nameChars (by decide), by decide⟩ <| .flag _ _ _ _ _ (by decide) <|
    .flag _ _ _ _ _ (by decide) <| .file _ _ _ _ (by decide) .nil

example : Pieces (b! "a;;b,c") [b! "a", b! "b", b! "c"] := splitDirs_pieces (b! "a;;b,c")

example : Asks [b! "-T", b! "-x", b! "a.asm"] [.flag 84] (some 1) := .flag _ _ _ _ _ (by decide) (.unknown _ _ (by decide))

theorem optLoop_noValue (k : Rec) (n : Str) (h0 : n ≠ []) (hn : ∀ c ∈ n, NameChar c) (hl : n.length ≤ 254) (as : List Str) (o : Opts)
    (s : S) (he : Early s) : ∃ s', optLoop k ((45 :: 68 :: n) :: as) o s = .stop (.ub .pastEnd) s' := by
  obtain ⟨hbal, htr⟩ := name_argument h0 hn
  obtain ⟨T, e, -⟩ := ensureStorage_early o s he
  obtain ⟨T2, b, d, e1, -⟩ := addDefine_early { s with defines := T } n h0 (he.defines T)
  have hread := readExpr_balanced true [61] (by decide) (by decide) [] n [] [] { s with defines := T }
    (by intro c hc; cases hc) (by intro c hc; cases hc) hbal htr (fun _ => by simpa using hl) (.inl rfl)
  simp only [List.nil_append, List.append_nil] at hread
  have e2 : optDefine k { o with initialised := true } n { s with defines := T } = .stop (.ub .pastEnd) { s with defines := T2 } := by
    unfold optDefine
    rw [M.bind_ok hread]
    dsimp only
    rw [M.bind_ok e1]
    rfl
  have e3 : optLoop k ((45 :: 68 :: n) :: as) o s =
      ((ensureStorage o >>= fun o => optDefine k o n) >>= fun o => optLoop k as o) s := by
    cases n with
    | nil => exact absurd rfl h0
    | cons c n => rw [M.bind_assoc, optLoop.eq_def]; rfl
  refine ⟨{ s with defines := T2 }, ?_⟩
  rw [e3, M.bind_stop]
  rw [M.bind_ok e, e2]

/-- C50 fails for `-DNAME`: with no equals sign the value is looked for after the end of the argument. -/
theorem C50_define_without_value (fuel : Nat) (md5 : List Nat → List Nat) (fs : Str → Option (List Nat)) (mem rand : Nat → Nat)
    (cwd : Str) (n : Str) (h0 : n ≠ []) (hn : ∀ c ∈ n, NameChar c) (hl : n.length ≤ 254) (as : List Str) :
    ∃ s, spasm fuel md5 fs mem rand cwd ((45 :: 68 :: n) :: as) = .stop (.ub .pastEnd) s := by
  obtain ⟨s, e⟩ := optLoop_noValue (knot fuel) n h0 hn hl as {} { startState fs mem rand with currFile := b! "Commandline" } ⟨rfl, rfl⟩
  refine ⟨s, ?_⟩
  unfold spasm mainBody
  rw [if_neg (by simp), M.modify_bind, M.bind_stop e]

end Spasm.Props
