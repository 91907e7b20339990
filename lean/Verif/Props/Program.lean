import Verif.Lemmas.Whole
import Verif.Spec.Whole
import Verif.Props.Export
import Verif.Props.Cond

/-
C54, C49: whole programs, from the command line and the text to the bytes of the output file.
-/

namespace Spasm.Props
open Spasm Spec

theorem not_flag {is : List Item} (h : Counting is) {c : Nat} (hc : c ∉ [69, 78, 65, 83]) : Item.flag c ∉ is := fun hm => hc (h c hm)

theorem splitDirs_of {t : Str} {ds : List Str} (h : Pieces t ds) : splitDirs t [] = ds := by
  induction h with
  | nil => rfl
  | sep c t ds hc _ ih =>
    rw [splitDirs, if_pos (by rcases hc with rfl | rfl <;> rfl), if_pos (by rfl), ih]
  | last d h0 hd =>
    have := splitDirs_run d [] [] hd
    rw [List.append_nil] at this
    rw [this, splitDirs, if_neg (by simpa using h0)]
    simp
  | piece d c t ds h0 hd hc _ ih =>
    rw [splitDirs_run d _ [] hd, splitDirs, if_pos (by rcases hc with rfl | rfl <;> rfl), if_neg (by simpa using h0), ih]
    simp

theorem directories_unique {is : List Item} {ds ds' : List Str} (h : Directories is ds) (h' : Directories is ds') : ds = ds' := by
  induction h generalizing ds' with
  | nil => cases h'; rfl
  | dirs t ds is rest hp _ ih =>
    cases h' with
    | dirs _ ds2 _ rest2 hp2 h2 => rw [← splitDirs_of hp, ← splitDirs_of hp2, ih h2]
    | other _ _ _ hi => exact absurd rfl (hi t)
  | other i is rest hi _ ih =>
    cases h' with
    | dirs t => exact absurd rfl (hi t)
    | other _ _ _ _ h2 => exact ih h2

theorem dirOf_split (dir name : Str) (h : 47 ∉ name) (h' : 92 ∉ dir ++ 47 :: name) : dirOf (dir ++ 47 :: name) = dir := by
  unfold dirOf
  have : ∀ l r : Str, 47 ∉ l → 92 ∉ l → (l ++ 47 :: r).dropWhile (fun c => c != 92 && c != 47) = 47 :: r := by
    intro l r
    induction l with
    | nil => intro _ _; rfl
    | cons c l ih =>
      intro h1 h2
      simp only [List.mem_cons, not_or] at h1 h2
      rw [List.cons_append, List.dropWhile_cons_of_pos (by simp; omega), ih h1.2 h2.2]
  rw [List.reverse_append, List.reverse_cons, List.append_assoc, List.singleton_append, this _ _ (by simpa using h) (by
    intro hm
    exact h' (List.mem_append_right _ (List.mem_cons_of_mem _ (List.mem_reverse.1 hm))))]
  simp

theorem searched_dirs {cwd : Str} {is : List Item} {input : Str} {dirs ds : List Str} (h : Searched cwd is input dirs) (hd : Directories is ds) :
    (if isAbsPath input then dirOf input else cwd) :: ds = dirs := by
  cases h with
  | current ds' ha h92 h' =>
    rw [if_neg (by rw [isAbsPath_iff _ h92]; exact ha), directories_unique hd h']
  | source dir name ds' ha h92 he h47 h' =>
    rw [if_pos ((isAbsPath_iff _ h92).2 ha), directories_unique hd h', he, dirOf_split dir name h47 (by rw [← he]; exact h92)]

theorem map_upper_idem (w : Str) : (w.map upperCase).map upperCase = w.map upperCase := by
  rw [List.map_map]
  exact List.map_congr_left fun x _ => upperCase_idem x

/-- The texts of names at the beginning. -/
theorem meaning_start (g : Setting) (w : Str) : ∀ is : List Item,
    g.meaning (startTexts is) w = if (g.key w).map upperCase = g.key w then (lastValue w is).map (fun v => ([], v)) else none := by
  have key : ∀ n : Str, g.key (n.map upperCase) = n.map upperCase := by
    intro n
    unfold Setting.key
    split
    · rfl
    · exact map_upper_idem n
  have app : ∀ (l : Texts) (n : Str) (v : List Str × Str), g.meaning (l ++ [(n.map upperCase, some v)]) w =
      if (l.find? (fun p => decide (g.key p.1 = g.key w))).isSome then g.meaning l w else if n.map upperCase = g.key w then some v else none := by
    intro l n v
    unfold Setting.meaning
    rw [List.find?_append]
    cases l.find? (fun p => decide (g.key p.1 = g.key w)) with
    | some p => rfl
    | none =>
      simp only [Option.none_or, Option.isSome_none, Bool.false_eq_true, if_false]
      rw [List.find?_cons, key]
      by_cases h : n.map upperCase = g.key w
      · simp [h]
      · simp [h]
  have found : ∀ is, ((startTexts is).find? (fun p => decide (g.key p.1 = g.key w))).isSome = (g.meaning (startTexts is) w).isSome := by
    intro is
    unfold Setting.meaning
    cases h : (startTexts is).find? (fun p => decide (g.key p.1 = g.key w)) with
    | none => rfl
    | some p =>
      have : ∀ is : List Item, ∀ p ∈ startTexts is, p.2.isSome := by
        intro is
        induction is with
        | nil => intro p hp; cases hp
        | cons i is ih =>
          cases i with
          | define n v =>
            intro p hp
            rcases List.mem_append.1 hp with hp | hp
            · exact ih p hp
            · simp only [List.mem_singleton] at hp
              subst hp
              rfl
          | _ => exact ih
      have := this is p (List.mem_of_find?_eq_some h)
      simpa using this.symm
  intro is
  induction is with
  | nil => simp [startTexts, Setting.meaning, lastValue]
  | cons i is ih =>
    cases i with
    | define n v =>
      show g.meaning (startTexts is ++ [(n.map upperCase, some ([], given v))]) w = _
      rw [app, found, ih]
      by_cases hw : (g.key w).map upperCase = g.key w
      · have hkw : g.key w = w.map upperCase := by
          rw [← hw]
          unfold Setting.key
          split
          · rfl
          · exact map_upper_idem w
        simp only [if_pos hw]
        have e : lastValue w (.define n v :: is) = (match lastValue w is with | some v' => some v' | none => if n.map upperCase = w.map upperCase then some (given v) else none) := rfl
        rw [hkw, e]
        cases lastValue w is with
        | some x => rfl
        | none => by_cases hn : n.map upperCase = w.map upperCase <;> simp [hn]
      · rw [if_neg hw, if_neg (by simp), if_neg hw, if_neg]
        intro h
        exact hw (by rw [← h, map_upper_idem])
    | _ => exact ih

/-- A run on a well-formed program comes to the point where its output is written, with exactly the bytes of the program
in the buffer. The names that have a meaning are the predefined ones and those that the program leaves with a text. -/
theorem run_leaving (md5 : List Nat → List Nat) (fs : Str → Option (List Nat)) (mem rand : Nat → Nat) (cwd : Str)
    (args : List Str) (is : List Item) (h : Asks args is none) (hp : Counting is) (input : Str) (hin : inputFor is = some input) (text : Str)
    (hs : Source fs is input text) (dirs : List Str) (hdirs : Searched cwd is input dirs) (label : Str → Option Int) (defined params : List Str) (depth : Nat)
    (hd : depth ≤ 20) (bs : List Nat) (tx' : Texts) (ha : Leaves (settingFor is fs dirs label defined params depth) text bs tx') (hlen : bs.length ≤ 8000000) :
    ∃ names : List Str, (names.map (settingFor is fs dirs label defined params depth).key).Nodup ∧
      (∀ w, label w ≠ none ↔ (settingFor is fs dirs label defined params depth).key w ∈ names.map (settingFor is fs dirs label defined params depth).key) ∧
      ∃ K, ∀ fuel, K ≤ fuel → ∃ s, Assembled (decide (Item.flag 69 ∈ is)) (decide (Item.flag 83 ∈ is)) names.length bs mem s ∧
        (∀ w, nameKey s w = (settingFor is fs dirs label defined params depth).key w) ∧
        (∀ w, defineOf s w ≠ none ↔ (settingFor is fs dirs label defined params depth).key w ∈ predefinedNames ∨
          (settingFor is fs dirs label defined params depth).meaning tx' w ≠ none) ∧
        (∀ w, (settingFor is fs dirs label defined params depth).meaning tx' w ≠ none →
          (settingFor is fs dirs label defined params depth).key w ∉ predefinedNames) ∧
        spasm fuel md5 fs mem rand cwd args =
          (outputFile md5 (outputFor is input) >>= fun _ => printStats >>= fun _ => M.get >>= fun s => pure s.exitCode) s := by
  obtain ⟨defs, pc', hprog, hlab, hnd, hgood, hpar, hstart⟩ := ha
  have hW : Whole (settingFor is fs dirs label defined params depth) defs := by
    refine ⟨hlab, hnd, program_names hprog, fun p hp => ⟨⟨(hgood p hp).1, (hgood p hp).2.1⟩, (hgood p hp).2.2⟩, ?_, hpar⟩
    intro o ho
    unfold settingFor at ho
    dsimp only at ho
    split at ho
    · exact (tables_writable o (List.mem_append_right _ ho)).1
    · exact (tables_writable o (List.mem_append_left _ ho)).1
  obtain ⟨K, hrun⟩ := assembly_runs hW hd hprog hlen
  refine ⟨defs.map (·.1), by rw [List.map_map]; exact hnd, ?_, K + 2, ?_⟩
  · intro w
    rw [show label w = (settingFor is fs dirs label defined params depth).find defs w from congrFun hlab w, List.map_map]
    unfold Setting.find
    rw [ne_eq, Option.map_eq_none_iff, List.find?_eq_none]
    simp only [List.mem_map, Function.comp]
    constructor
    · intro h
      by_contra hc
      exact h fun p hp he => hc ⟨p, hp, by simpa using he⟩
    · rintro ⟨p, hp, he⟩ h
      exact h p hp (by simpa using he)
  intro fuel hf
  obtain ⟨s, hc, hcf, he⟩ := C50_options_partial fuel md5 fs mem rand cwd args is h input hin
  obtain ⟨k, rfl⟩ : ∃ k, fuel = k + 2 := ⟨fuel - 2, by omega⟩
  have hr := hc.rest
  have get : ∀ {α : Type} (f : S → α), f { s with
    mode := (startState fs mem rand).mode, caseSens := (startState fs mem rand).caseSens, opcodes := (startState fs mem rand).opcodes,
    includeDirs := (startState fs mem rand).includeDirs, defines := (startState fs mem rand).defines,
    currFile := (startState fs mem rand).currFile } = f (startState fs mem rand) := fun f => congrArg f hr
  have hmem : s.mem = mem := get S.mem
  have hfs : s.fs = fs := get S.fs
  rw [he]
  have h2 : s.mode.normal = true := by rw [hc.mode]; simp [modeFor, not_flag hp (c := 79) (by decide)]
  have h3 : s.mode.codeCounter = false := by rw [hc.mode]; simp [modeFor, not_flag hp (c := 67) (by decide)]
  have h4 : s.mode.symtable = false := by rw [hc.mode]; simp [modeFor, not_flag hp (c := 76) (by decide)]
  have h5 : s.mode.ez80 = (settingFor is fs dirs label defined params depth).ez80 := by rw [hc.mode]; rfl
  have h6 : (if s.mode.commandline then (lastLine is).map (· ++ [10]) else (s.fs s.currFile).bind fileText) = some text := by
    rw [hc.mode, hfs, hcf]
    rcases hs with ⟨l, hl, rfl⟩ | ⟨hl, bytes, hb, ht⟩
    · simp [modeFor, hl]
    · simp only [modeFor, hl, Option.isSome_none, Bool.false_eq_true, if_false]
      rw [hb]
      exact fileText_of ht.1 ht.2
  have h7 : (if isAbsPath s.currFile then dirOf s.currFile else cwd) :: s.includeDirs = dirs := by
    rw [hcf]
    exact searched_dirs hdirs hc.dirs
  generalize hg : settingFor is fs dirs label defined params depth = g at *
  have hgs : g.start = startTexts is := by rw [← hg]; rfl
  have hgk : ∀ w, nameKey s w = g.key w := by
    intro w
    unfold nameKey Setting.key
    rw [hc.caseSens, ← hg]
    rfl
  have h8 : ∀ w, g.key w ∉ predefinedNames →
      (defineOf s w).bind Define.meaning = g.meaning g.start w ∧ (g.meaning g.start w = none → defineOf s w = none) := by
    intro w hw
    rw [hgs, meaning_start, defineOf_eq, hgk]
    have hother : ∀ d, s.defines.lookup (g.key w) = some d → (g.key w).map upperCase = g.key w ∧ lastValue w is ≠ none := by
      intro d hd
      rcases hc.others _ _ hd with hx | ⟨name, v, hx, hk⟩
      · exact absurd hx hw
      · refine ⟨by rw [hk, map_upper_idem], ?_⟩
        have : name.map upperCase = w.map upperCase := by
          rw [← map_upper_idem name, ← hk]
          unfold Setting.key
          split
          · rfl
          · exact map_upper_idem w
        rw [← lastValue_congr is this, hx]
        simp
    by_cases hu : (g.key w).map upperCase = g.key w
    · rw [if_pos hu]
      have hkw : g.key w = w.map upperCase := by
        rw [← hu]
        unfold Setting.key
        split
        · rfl
        · exact map_upper_idem w
      cases hv : lastValue w is with
      | some v =>
        obtain ⟨d, d1, d2⟩ := hc.given w v hv
        rw [hkw, d1]
        refine ⟨?_, by simp⟩
        unfold Define.text at d2
        split at d2
        · rename_i h0
          rw [Option.bind_some]
          unfold Define.meaning
          rw [h0, d2]
        · cases d2
      | none =>
        cases hd : s.defines.lookup (g.key w) with
        | none => exact ⟨rfl, fun _ => rfl⟩
        | some d => exact absurd hv (hother d hd).2
    · rw [if_neg hu]
      cases hd : s.defines.lookup (g.key w) with
      | none => exact ⟨rfl, fun _ => rfl⟩
      | some d => exact absurd (hother d hd).1 hu
  have hcl : ∀ w m, g.meaning g.start w = some m → Name w ∧ g.key w ∉ predefinedNames ∧ g.key w ∈ g.defined ∧ g.key w ∉ g.params := by
    intro w t ht
    unfold Setting.meaning at ht
    obtain ⟨p, hp, -⟩ := Option.bind_eq_some_iff.1 ht
    obtain ⟨a, b, c, d⟩ := hstart p (List.mem_of_find?_eq_some hp)
    have hk : g.key p.1 = g.key w := by simpa using List.find?_some hp
    rw [← hk]
    exact ⟨name_key hk a, b, c, d⟩
  have h9 : ∀ w m, g.meaning g.start w = some m → Name w ∧ g.key w ∉ predefinedNames ∧ g.key w ∈ g.defined :=
    fun w m hm => ⟨(hcl w m hm).1, (hcl w m hm).2.1, (hcl w m hm).2.2.1⟩
  have h10 : ∀ w, g.key w ∈ g.params → defineOf s w = none := by
    intro w hw
    refine (h8 w (hpar _ hw).2).2 ?_
    cases hm : g.meaning g.start w with
    | none => rfl
    | some m => exact absurd hw (hcl w m hm).2.2.2
  have h12 : ∀ w, g.key w ∈ predefinedNames → defineOf s w ≠ none := by
    intro w hw
    rw [defineOf_eq, hgk]
    exact hc.ready _ hw
  obtain ⟨s', a, a1, a2, a3, e⟩ := hrun k (by omega) md5 cwd ((lastLine is).map (· ++ [10]))
    (outputFor is input) s (by rw [hc.caseSens, ← hg]; rfl) (get S.argSets) hc.named (by rw [hfs, ← hg]; rfl) (by rw [h7, ← hg]; rfl) h8 h9 h10 h12
    (get S.labels) (get S.errors) (get S.session) (get S.log) (by rw [get S.ifLevel]; exact Int.le_refl 0)
    ⟨h2, h3, h4, h5, by rw [hc.mode, ← hg]; rfl⟩ (by rw [hc.opcodes, ← hg]; rfl) h6
  have h11 : s.mode.stats = decide (Item.flag 83 ∈ is) := by rw [hc.mode]; rfl
  rw [List.length_map]
  exact ⟨s', hmem ▸ h11 ▸ (show g.ez80 = decide (Item.flag 69 ∈ is) by rw [← hg]; rfl) ▸ a, a1, a2, a3, e⟩

/-- As `run_leaving`, without the names that have texts. -/
theorem run_counted (md5 : List Nat → List Nat) (fs : Str → Option (List Nat)) (mem rand : Nat → Nat) (cwd : Str)
    (args : List Str) (is : List Item) (h : Asks args is none) (hp : Counting is) (input : Str) (hin : inputFor is = some input) (text : Str)
    (hs : Source fs is input text) (dirs : List Str) (hdirs : Searched cwd is input dirs) (label : Str → Option Int) (defined params : List Str) (depth : Nat)
    (hd : depth ≤ 20) (bs : List Nat) (ha : Assembles (settingFor is fs dirs label defined params depth) text bs) (hlen : bs.length ≤ 8000000) :
    ∃ names : List Str, ∃ K, ∀ fuel, K ≤ fuel → ∃ s, Assembled (decide (Item.flag 69 ∈ is)) (decide (Item.flag 83 ∈ is)) names.length bs mem s ∧
        spasm fuel md5 fs mem rand cwd args =
          (outputFile md5 (outputFor is input) >>= fun _ => printStats >>= fun _ => M.get >>= fun s => pure s.exitCode) s := by
  obtain ⟨tx, ha⟩ := assembles_iff.1 ha
  obtain ⟨names, -, -, K, hK⟩ := run_leaving md5 fs mem rand cwd args is h hp input hin text hs dirs hdirs label defined params depth hd bs tx ha hlen
  refine ⟨names, K, fun fuel hf => ?_⟩
  obtain ⟨s, a, -, -, -, e⟩ := hK fuel hf
  exact ⟨s, a, e⟩

/-- As `run_counted`, without statistics. -/
theorem run_assembled (md5 : List Nat → List Nat) (fs : Str → Option (List Nat)) (mem rand : Nat → Nat) (cwd : Str)
    (args : List Str) (is : List Item) (h : Asks args is none) (hp : Plain is) (input : Str) (hin : inputFor is = some input) (text : Str)
    (hs : Source fs is input text) (dirs : List Str) (hdirs : Searched cwd is input dirs) (label : Str → Option Int) (defined params : List Str) (depth : Nat)
    (hd : depth ≤ 20) (bs : List Nat) (ha : Assembles (settingFor is fs dirs label defined params depth) text bs) (hlen : bs.length ≤ 8000000) :
    ∃ K, ∀ fuel, K ≤ fuel → ∃ s n, Assembled (decide (Item.flag 69 ∈ is)) false n bs mem s ∧ spasm fuel md5 fs mem rand cwd args =
      (outputFile md5 (outputFor is input) >>= fun _ => printStats >>= fun _ => M.get >>= fun s => pure s.exitCode) s := by
  have hp' : Counting is := fun c hc => by have := hp c hc; simp only [List.mem_cons, List.not_mem_nil, or_false] at this ⊢; omega
  obtain ⟨names, K, hK⟩ := run_counted md5 fs mem rand cwd args is h hp' input hin text hs dirs hdirs label defined params depth hd bs ha hlen
  refine ⟨K, fun fuel hf => ?_⟩
  obtain ⟨s, a, e⟩ := hK fuel hf
  have h83 : decide (Item.flag 83 ∈ is) = false := by
    rw [decide_eq_false_iff_not]
    intro hc
    exact absurd (hp 83 hc) (by decide)
  exact ⟨s, names.length, h83 ▸ a, e⟩

/-- Writing a file that needs no diagnostics. -/
theorem writes_counted {ez st : Bool} {n : Nat} {bs : List Nat} {mem : Nat → Nat} {s : S} (h : Assembled ez st n bs mem s) (md5 : List Nat → List Nat) (name : Str) (ct : Calc)
    (hc : calcOf name = (ct, false)) (hlen : bs.length ≤ 8000000) (file : List Nat)
    (hf : fileOf md5 ct name s.mem bs (exporting { s with session := 1 }) = .ok file (exporting { s with session := 1 })) :
    ∃ s', (outputFile md5 name >>= fun _ => printStats >>= fun _ => M.get >>= fun s => pure s.exitCode) s = .ok 0 s' ∧ s'.defines = s.defines ∧
      s'.log = .wrote name file :: if st then [.text (statsText s)] else [] := by
  have e1 : writeFile md5 name { s with session := 1 } = .ok () { exporting { s with session := 1 } with log := [.wrote name file] } := by
    rw [writeFile_eq md5 name ct _ hc (by show 0 ≤ s.outPtr; rw [h.out]; omega) (by show s.outPtr ≤ _; rw [h.out]; omega),
      show image { s with session := 1 } = bs from h.image, M.bind_ok hf]
    show Res.ok () { exporting { s with session := 1 } with log := s.log ++ [.wrote name file] } = _
    rw [h.log]
    rfl
  have e2 : outputFile md5 name s = (writeFile md5 name >>= fun _ => replayFatal 1 >>= fun _ => endSession 1) { s with session := 1 } := by
    show (writeFile md5 name >>= fun _ => replayFatal (s.session + 1) >>= fun _ => endSession (s.session + 1)) { s with session := s.session + 1 } = _
    rw [h.session]
    rfl
  have herr : ({ exporting { s with session := 1 } with log := [.wrote name file] } : S).errors = [] := h.errors
  have hst : ({ exporting { s with session := 1 } with log := [.wrote name file] } : S).exitCode = 0 := h.status
  have hlog : ({ exporting { s with session := 1 } with log := [.wrote name file] } : S).log = [.wrote name file] := rfl
  have hcc : ({ exporting { s with session := 1 } with log := [.wrote name file] } : S).mode.codeCounter = false := h.counting
  have hms : ({ exporting { s with session := 1 } with log := [.wrote name file] } : S).mode.stats = st := h.stats
  have hds : ({ exporting { s with session := 1 } with log := [.wrote name file] } : S).defines = s.defines := rfl
  have htx : statsText ({ exporting { s with session := 1 } with log := [.wrote name file] } : S) = statsText s := rfl
  generalize ({ exporting { s with session := 1 } with log := [.wrote name file] } : S) = x at e1 herr hst hlog hcc hms hds htx
  have e3 : replayFatal 1 x = .ok () x := by
    show Res.ok () { x with log := x.log ++ printedErrors true x } = _
    have : printedErrors true x = [] := by unfold printedErrors; rw [herr]; split <;> rfl
    rw [this, List.append_nil]
  have e4 : endSession 1 x = .ok () { x with errors := [], session := x.session - 1 } := by
    unfold endSession sessPrefix
    rw [herr]
    rfl
  have : outputFile md5 name s = .ok () { x with errors := [], session := x.session - 1 } := by
    rw [e2, M.bind_ok e1, M.bind_ok e3, e4]
  rw [M.bind_ok this]
  refine ⟨{ x with
    errors := [], session := x.session - 1,
    log := x.log ++ (if x.mode.codeCounter then [.text (counterText x)] else []) ++ (if x.mode.stats then [.text (statsText x)] else []) }, ?_, hds, ?_⟩
  · show Res.ok x.exitCode _ = _
    rw [hst]
    rfl
  · show x.log ++ _ ++ _ = _
    rw [hlog, hcc, hms, htx]
    rfl

/-- As `writes_counted`, without statistics. -/
theorem writes_quiet {ez : Bool} {n : Nat} {bs : List Nat} {mem : Nat → Nat} {s : S} (h : Assembled ez false n bs mem s) (md5 : List Nat → List Nat) (name : Str) (ct : Calc)
    (hc : calcOf name = (ct, false)) (hlen : bs.length ≤ 8000000) (file : List Nat)
    (hf : fileOf md5 ct name s.mem bs (exporting { s with session := 1 }) = .ok file (exporting { s with session := 1 })) :
    ∃ s', (outputFile md5 name >>= fun _ => printStats >>= fun _ => M.get >>= fun s => pure s.exitCode) s = .ok 0 s' ∧ s'.log = [.wrote name file] :=
  let ⟨s', a, _, b⟩ := writes_counted h md5 name ct hc hlen file hf
  ⟨s', a, b⟩

theorem writes_pure {ez : Bool} {n : Nat} {bs : List Nat} {mem : Nat → Nat} {s : S} (h : Assembled ez false n bs mem s) (md5 : List Nat → List Nat) (name : Str) (ct : Calc)
    (hc : calcOf name = (ct, false)) (hlen : bs.length ≤ 8000000) (file : List Nat) (hf : ∀ m, fileOf md5 ct name m bs = pure file) :
    ∃ s', (outputFile md5 name >>= fun _ => printStats >>= fun _ => M.get >>= fun s => pure s.exitCode) s = .ok 0 s' ∧ s'.log = [.wrote name file] :=
  writes_quiet h md5 name ct hc hlen file (by rw [hf]; rfl)

/-- C54, for output files of bare bytes: a program is assembled to exactly its bytes. The program may use the processor's
instructions, data, fills, origins, labels, equates, comments, several statements on a line, names with texts, given by
`#define` or with -D and removed by `#undef`, macros with and without parameters, conditional groups, block comments, marker lines, imported files, and included files, to
any depth. A call of a macro stands for its lines, in which the parameters have the values of the arguments; lines of macros
can define labels and macros and call macros. Expressions may use labels that are defined later. Of a group only the chosen branch counts, the rest may be anything. The run ends with status
0, shows nothing, and writes exactly one file, with exactly the bytes that the statements stand for one after the other,
where every label has its final value. `K` is how deep the run nests; every larger bound on the nesting gives the same
result.
Expressions may call functions.
Missing: pictures, the other preprocessor statements, anonymous labels, `.seek`, `.addinstr`, `.assume`, operands in
parentheses and truncated values, texts that are used together with labels that are defined later, labels above 999999999,
and the other options. -/
theorem C54_assembles_partial (md5 : List Nat → List Nat) (fs : Str → Option (List Nat)) (mem rand : Nat → Nat) (cwd : Str)
    (args : List Str) (is : List Item) (h : Asks args is none) (hp : Plain is) (input : Str) (hin : inputFor is = some input) (text : Str)
    (hs : Source fs is input text) (dirs : List Str) (hdirs : Searched cwd is input dirs) (label : Str → Option Int) (defined params : List Str) (depth : Nat)
    (hd : depth ≤ 20) (bs : List Nat) (ha : Assembles (settingFor is fs dirs label defined params depth) text bs) (hlen : bs.length ≤ 8000000)
    (hn : HasExt (outputFor is input) (b! "BIN")) :
    ∃ K, ∀ fuel, K ≤ fuel → ∃ s, spasm fuel md5 fs mem rand cwd args = .ok 0 s ∧ s.log = [.wrote (outputFor is input) bs] := by
  obtain ⟨K, hK⟩ := run_assembled md5 fs mem rand cwd args is h hp input hin text hs dirs hdirs label defined params depth hd bs ha hlen
  refine ⟨K, fun fuel hf => ?_⟩
  obtain ⟨s, n, a, e⟩ := hK fuel hf
  rw [e]
  exact writes_pure a md5 _ .bin (calcOf_ext _ (b! "BIN", .bin) (by decide) hn) hlen bs fun _ => rfl

/-- C54, for Intel hex files: the file decodes to exactly the bytes of the program. -/
theorem C54_hex_partial (md5 : List Nat → List Nat) (fs : Str → Option (List Nat)) (mem rand : Nat → Nat) (cwd : Str)
    (args : List Str) (is : List Item) (h : Asks args is none) (hp : Plain is) (input : Str) (hin : inputFor is = some input) (text : Str)
    (hs : Source fs is input text) (dirs : List Str) (hdirs : Searched cwd is input dirs) (label : Str → Option Int) (defined params : List Str) (depth : Nat)
    (hd : depth ≤ 20) (bs : List Nat) (ha : Assembles (settingFor is fs dirs label defined params depth) text bs) (hb : ∀ b ∈ bs, b < 256)
    (hlen : bs.length ≤ 4194304) (hn : HasExt (outputFor is input) (b! "HEX")) :
    ∃ K, ∀ fuel, K ≤ fuel → ∃ s file, spasm fuel md5 fs mem rand cwd args = .ok 0 s ∧ s.log = [.wrote (outputFor is input) file] ∧
      readHex file = some (placed bs) := by
  obtain ⟨K, hK⟩ := run_assembled md5 fs mem rand cwd args is h hp input hin text hs dirs hdirs label defined params depth hd bs ha (by omega)
  refine ⟨K, fun fuel hf => ?_⟩
  obtain ⟨s, n, a, e⟩ := hK fuel hf
  obtain ⟨s', e', l⟩ := writes_pure a md5 _ .hex (calcOf_ext _ (b! "HEX", .hex) (by decide) hn) (by omega) (intelHex bs) fun _ => rfl
  refine ⟨s', intelHex bs, by rw [e, e'], l, ?_⟩
  rw [readHex_intelHex _ hb, if_pos hlen]

/-! ### A program with forward references -/

/-- The definitions of the sample program. -/
def sampleDefs : Defs := [(b! "end", 6), (b! "x", 2)]

/-- The settings of `spasm a.asm`, for these definitions. -/
def sampleSetting (fs : Str → Option (List Nat)) (cwd : Str) : Setting :=
  settingFor [.file (b! "a.asm")] fs [cwd] (fun w => (sampleDefs.find? (fun p => decide (p.1.map upperCase = w.map upperCase))).map (·.2)) [] [] 1

theorem plain_unambiguous (g : Setting) (t : Str) (h : 34 ∉ t ∧ 36 ∉ t ∧ 39 ∉ t ∧ 92 ∉ t) : Unambiguous g t := by
  refine ⟨h.1, fun a c w b e hc => ?_⟩
  have : c ∈ t := by rw [e]; simp
  rcases hc with rfl | rfl | rfl <;> simp_all

theorem sample_statements (g : Setting) (hlab : g.label (b! "end") = some 6 ∧ g.label (b! "X") = some 2) (hdep : g.depth = 1) (hez : g.ez80 = false)
    (hop : g.opcodes = z80Table) : Sequence g [] [] 0 [b! " djnz end ", b! "x: .dw end, X", b! "end:"] sampleDefs [0x10, 4, 6, 0, 2, 0] := by
  have hdep1 : 0 < g.depth := by omega
  have hend : Name (b! "end") := ⟨⟨_, _, rfl, by decide, by simp [NameChar, Alnum]⟩, by decide⟩
  have hx : Name (b! "x") := ⟨⟨_, _, rfl, by decide, by simp [NameChar, Alnum]⟩, by decide⟩
  have hX : Name (b! "X") := ⟨⟨_, _, rfl, by decide, by simp [NameChar, Alnum]⟩, by decide⟩
  have dend : ∀ pc, Denotes pc g.label (fun _ => none) 0 (b! "end") 6 := fun pc =>
    .one 0 _ _ (.plain 0 _ _ (.atom _ _ (.label _ _ hend hlab.1)))
  have dx : ∀ pc, Denotes pc g.label (fun _ => none) 0 (b! "X") 2 := fun pc =>
    .one 0 _ _ (.plain 0 _ _ (.atom _ _ (.label _ _ hX hlab.2)))
  have nb : Blanks [32] := by intro c hc; simp at hc; subst hc; simp
  have nn : Blanks [] := by intro c hc; simp at hc
  have bal : ∀ t : Str, (∀ c ∈ t, Ordinary c ∧ c ≠ 44) → Balanced [44] false t := by
    intro t
    induction t with
    | nil => intro _; exact .nil _
    | cons c t ih => intro h; exact .char _ _ _ (h c (by simp)).1 (by simpa using (h c (by simp)).2) (ih fun x hx => h x (by simp [hx]))
  have aend : Argument (b! "end") := ⟨bal _ (by decide), by decide, by decide, by decide⟩
  have aX : Argument (b! "X") := ⟨bal _ (by decide), by decide, by decide, by decide⟩
  have hfit : Spec.Fits [37] (b! "end ") [b! "end"] :=
    .operand 37 (b! "end") [32] [] [] [] (by decide) aend.1 aend.2 nb (.inl rfl) (by intro h; cases h) .done
  have entries : entriesOf (b! "djnz") g.opcodes = [⟨[37], [0x10], false, 0, 2, 8, 13, 0⟩] := by
    rw [hop]
    decide +kernel
  have l1 : Stmt g [] [] 0 (b! " djnz end ") [] [0x10, 4] 2 := by
    refine (.plain _ _ _ (.code [32] (b! "djnz") [] [32] (b! "end ") [] false ⟨[37], [0x10], false, 0, 2, 8, 13, 0⟩ [b! "end"] [6] [0x10, 4]
      (by decide) nb ⟨⟨_, _, rfl, by decide⟩, by decide⟩ (.inl ⟨rfl, rfl, hez.symm⟩) nb ?_ ?_ ?_ ?_ ?_ (by decide)
      (.inr ⟨.operand _ _ 0 _ _ _ _ (by decide) (by decide) (dend _) hdep1 .nil, by decide, ?_⟩) (by rw [hez]; decide +kernel) (by rw [hez]; decide)))
    · intro c hc; cases hc; unfold NameChar Alnum; omega
    · intro c hc; cases hc; decide
    · rw [entries]
      intro j hj
      simp only [List.mem_singleton] at hj
      subst hj
      exact ⟨⟨by decide, by decide⟩, .inl ⟨scannable_plain _ (by decide) (by decide), by decide, by decide⟩⟩
    · exact ⟨[], [], by rw [entries]; rfl, hfit, by simp⟩
    · exact ⟨⟨by decide, by decide⟩, by decide, by decide, by decide, by decide, by decide⟩
    · intro o ho
      simp only [List.mem_singleton] at ho
      subst ho
      exact plain_unambiguous _ _ (by decide)
  have l2 : Stmt g [] [] 2 (b! "x: .dw end, X") [(b! "x", 2)] [6, 0, 2, 0] 6 := by
    refine (.label (b! "x") [58] (b! " .dw end, X") _ _ hx (.inl rfl)
      (.data [32] (b! ".dw") 2 32 [b! "end", b! "X"] (b! "end, X") [6, 0, 2, 0] nb (by decide) (.inl rfl)
        (.more [] (b! "end") [] [b! "X"] (b! " X") nn nn aend (by decide) (.one [32] (b! "X") [] nb nn aX (by decide)))
        (.later 2 0 _ 6 _ _ (dend _) (plain_unambiguous _ _ (by decide)) hdep1 (by rw [hez]; decide)
          (.later 4 0 _ 2 _ _ (dx _) (plain_unambiguous _ _ (by decide)) hdep1 (by rw [hez]; decide) (.nil _)))))
  have l3 : Stmt g [(b! "x", 2)] [] 6 (b! "end:") [(b! "end", 6)] [] 6 :=
    .label (b! "end") [58] [] _ _ hend (.inl rfl) (.empty [] nn)
  exact .cons _ _ _ _ _ _ _ _ _ l1 (by decide) (.cons _ _ _ _ _ _ _ _ _ l2 (by decide) (.cons _ _ _ _ _ _ _ _ _ l3 (by decide) (.nil _ _)))

theorem sample_sequence (fs : Str → Option (List Nat)) (cwd : Str) : Sequence (sampleSetting fs cwd) [] [] 0 [b! " djnz end ", b! "x: .dw end, X", b! "end:"] sampleDefs [0x10, 4, 6, 0, 2, 0] :=
  sample_statements _ ⟨rfl, rfl⟩ rfl rfl rfl

/-! ### C49 -/

/-- Programs of statements only, line by line. -/
inductive Flat (g : Setting) (tx : Texts) : Defs → Nat → Str → Defs → List Nat → Prop
  | nil (known pc) : Flat g tx known pc [] [] []
  | last (known pc l com new bs pc') : Line g tx known pc l new bs pc' → Comment com → Flat g tx known pc (l ++ com) new bs
  | cons (known pc l com nl new bs pc' t new' bs') : Line g tx known pc l new bs pc' → Comment com → NewLine nl →
      Flat g tx (new ++ known) pc' t new' bs' → Flat g tx known pc (l ++ com ++ nl ++ t) (new' ++ new) (bs ++ bs')

theorem Flat.program {g : Setting} {tx : Texts} {known : Defs} {pc : Nat} {t : Str} {new : Defs} {bs : List Nat} (h : Flat g tx known pc t new bs) :
    ∃ pc', Program g known tx pc t new bs pc' tx := by
  induction h with
  | nil known pc => exact ⟨pc, .whole _ _ _ _ _ _ _ _ (.nil _ _ _)⟩
  | last known pc l com new bs pc' h hc =>
    exact ⟨pc', by simpa using Program.ends known tx pc [] [] [] pc tx l com new bs pc' tx (.nil _ _ _) (by simpa using h.row) hc⟩
  | cons known pc l com nl new bs pc' t new' bs' h hc hn _ ih =>
    obtain ⟨pc2, ih⟩ := ih
    refine ⟨pc2, ?_⟩
    cases ih with
    | whole _ _ _ _ _ _ _ _ hb => exact .whole _ _ _ _ _ _ _ _ (.line _ _ _ _ _ _ _ _ _ _ _ _ _ _ _ h.row hc hn hb)
    | ends _ _ _ t2 new2 bs2 pc2 _ l2 com2 new3 bs3 pc3 _ hb hl hc2 =>
      have := Program.ends known tx pc _ _ _ pc2 _ l2 com2 new3 bs3 _ _ (.line _ _ _ _ _ _ _ _ _ _ _ _ _ _ _ h.row hc hn hb) (by simpa using hl) hc2
      simpa using this

theorem flat_prepend {g : Setting} {tx : Texts} {known : Defs} {pc : Nat} {t : Str} {new : Defs} {bs : List Nat} {pc' : Nat} (h : Stmt g known tx pc t new bs pc')
    (hpc : pc' < 16777216) {text : Str} {new' : Defs} {bs' : List Nat} (h' : Flat g tx (new ++ known) pc' text new' bs') :
    Flat g tx known pc (t ++ 92 :: text) (new' ++ new) (bs ++ bs') := by
  cases h' with
  | nil =>
    have nn : Blanks [] := by intro c hc; simp at hc
    simpa using Flat.last known pc (t ++ 92 :: []) [] _ _ _ (.more _ _ _ _ _ _ _ _ _ _ h hpc (.one _ _ _ _ _ _ (.plain _ _ _ (.empty [] nn)) hpc)) (.inl rfl)
  | last _ _ l com _ _ _ hl hc =>
    simpa using Flat.last known pc (t ++ 92 :: l) com _ _ _ (.more _ _ _ _ _ _ _ _ _ _ h hpc hl) hc
  | cons _ _ l com nl n b p t' n' b' hl hc hn hp =>
    have := Flat.cons known pc (t ++ 92 :: l) com nl _ _ _ t' n' b' (.more _ _ _ _ _ _ _ _ _ _ h hpc hl) hc hn (by simpa using hp)
    simpa using this

theorem layout_flat {g : Setting} {tx : Texts} {sts : List Str} {text : Str} (hl : Layout sts text) : ∀ {known : Defs} {pc : Nat} {new : Defs} {bs : List Nat},
    Sequence g tx known pc sts new bs → Flat g tx known pc text new bs := by
  induction hl with
  | nil => intro known pc new bs h; cases h; exact .nil _ _
  | last t com hc =>
    intro known pc new bs h
    cases h with
    | cons _ _ _ n b pc' _ n' b' hs hpc hq =>
      cases hq
      simpa using Flat.last known pc t com n b pc' (.one _ _ _ _ _ _ hs hpc) hc
  | backslash t sts text _ ih =>
    intro known pc new bs h
    cases h with
    | cons _ _ _ n b pc' _ n' b' hs hpc hq => exact flat_prepend hs hpc (ih hq)
  | newline t com nl sts text hc hn _ ih =>
    intro known pc new bs h
    cases h with
    | cons _ _ _ n b pc' _ n' b' hs hpc hq => exact .cons _ _ _ _ _ _ _ _ _ _ _ (.one _ _ _ _ _ _ hs hpc) hc hn (ih hq)

theorem layout_program {g : Setting} {tx : Texts} {sts : List Str} {text : Str} (hl : Layout sts text) {known : Defs} {pc : Nat} {new : Defs} {bs : List Nat}
    (h : Sequence g tx known pc sts new bs) : ∃ pc', Program g known tx pc text new bs pc' tx := (layout_flat hl h).program

/-- C49: the layout of the statements does not matter: however they are separated, by backslashes or by ends of lines with
or without comments, the same file is written. What stands in quotes belongs to a statement and separates nothing.
Missing: the statements that are missing in C54, and preprocessor statements. -/
theorem C49_separation_partial (md5 : List Nat → List Nat) (fs : Str → Option (List Nat)) (mem rand : Nat → Nat) (cwd : Str)
    (args : List Str) (is : List Item) (h : Asks args is none) (hp : Plain is) (input : Str) (hin : inputFor is = some input)
    (dirs : List Str) (hdirs : Searched cwd is input dirs) (depth : Nat) (hd : depth ≤ 20) (sts : List Str) (label : Str → Option Int)
    (defined : List Str) (defs : Defs) (bs : List Nat) (g : Setting) (hg : g = settingFor is fs dirs label defined [] depth) (hlab : label = g.find defs)
    (hseq : Sequence g g.start [] 0 sts defs bs) (hnd : (defs.map (fun p => g.key p.1)).Nodup)
    (hgood : ∀ p ∈ defs, g.key p.1 ∉ predefinedNames ∧ g.key p.1 ∉ g.defined ∧ 0 ≤ p.2 ∧ p.2 ≤ 999999999)
    (hstart : ∀ p ∈ g.start, Name p.1 ∧ g.key p.1 ∉ predefinedNames ∧ g.key p.1 ∈ g.defined)
    (hlen : bs.length ≤ 8000000) (hn : HasExt (outputFor is input) (b! "BIN"))
    (text : Str) (hl : Layout sts text) (hs : Source fs is input text) :
    ∃ K, ∀ fuel, K ≤ fuel → ∃ s, spasm fuel md5 fs mem rand cwd args = .ok 0 s ∧ s.log = [.wrote (outputFor is input) bs] := by
  obtain ⟨pc', hprog⟩ := layout_program hl hseq
  subst hg
  exact C54_assembles_partial md5 fs mem rand cwd args is h hp input hin text hs dirs hdirs label defined [] depth hd bs
    ⟨defs, pc', _, hprog, hlab, hnd, hgood, (fun _ h => nomatch h), fun p hp => ⟨(hstart p hp).1, (hstart p hp).2.1, (hstart p hp).2.2, fun h => nomatch h⟩⟩ hlen hn

theorem sample_good : (sampleDefs.map (fun p => p.1.map upperCase)).Nodup ∧
    ∀ p ∈ sampleDefs, p.1.map upperCase ∉ predefinedNames ∧ p.1.map upperCase ∉ ([] : List Str) ∧ 0 ≤ p.2 ∧ p.2 ≤ 999999999 := by
  decide

theorem current_a (cwd : Str) : Searched cwd [.file (b! "a.asm")] (b! "a.asm") [cwd] :=
  .current [] (by rw [← isAbsPath_iff _ (by decide)]; decide) (by decide) (.other _ _ _ (by intro t h; cases h) .nil)

/-- The sample program satisfies the hypotheses of C54, whatever else is on the disk. -/
example (md5 : List Nat → List Nat) (fs : Str → Option (List Nat)) (mem rand : Nat → Nat) (cwd : Str)
    (h : fs (b! "a.asm") = some (b! " djnz end ; go\nx: .dw end, X\nend:\n")) :
    ∃ K, ∀ fuel, K ≤ fuel → ∃ s, spasm fuel md5 fs mem rand cwd [b! "a.asm"] = .ok 0 s ∧ s.log = [.wrote (b! "a.bin") [0x10, 4, 6, 0, 2, 0]] := by
  obtain ⟨pc', hprog⟩ := layout_program
    (.newline (b! " djnz end ") (b! "; go") [10] _ _ (.inr ⟨b! " go", rfl, by decide⟩) (.inl rfl)
      (.newline (b! "x: .dw end, X") [] [10] _ _ (.inl rfl) (.inl rfl) (.newline (b! "end:") [] [10] _ _ (.inl rfl) (.inl rfl) .nil)))
    (sample_sequence fs cwd)
  exact C54_assembles_partial md5 fs mem rand cwd [b! "a.asm"] [.file (b! "a.asm")] (.file _ _ _ _ (by decide) .nil)
    (by intro c hc; simp at hc) (b! "a.asm") rfl _ (.inr ⟨rfl, _, h, by decide, .inl ⟨rfl, by decide, by decide⟩⟩) [cwd] (current_a cwd) _ [] [] 1 (by decide) _
    ⟨sampleDefs, pc', _, hprog, rfl, sample_good.1, sample_good.2, (by intro p hp; cases hp), by intro p hp; cases hp⟩ (by decide) ⟨b! "a", b! "bin", by decide, by decide, by decide, by decide⟩

/-- The same statements on one line. -/
example (md5 : List Nat → List Nat) (fs : Str → Option (List Nat)) (mem rand : Nat → Nat) (cwd : Str)
    (h : fs (b! "a.asm") = some (b! " djnz end \\x: .dw end, X\\end:\n")) :
    ∃ K, ∀ fuel, K ≤ fuel → ∃ s, spasm fuel md5 fs mem rand cwd [b! "a.asm"] = .ok 0 s ∧ s.log = [.wrote (b! "a.bin") [0x10, 4, 6, 0, 2, 0]] :=
  C49_separation_partial md5 fs mem rand cwd [b! "a.asm"] [.file (b! "a.asm")] (.file _ _ _ _ (by decide) .nil)
    (by intro c hc; simp at hc) (b! "a.asm") rfl [cwd] (current_a cwd) 1 (by decide) _ _ [] sampleDefs _ (sampleSetting fs cwd) rfl rfl (sample_sequence fs cwd)
    sample_good.1 sample_good.2 (by intro p hp; cases hp) (by decide) ⟨b! "a", b! "bin", by decide, by decide, by decide, by decide⟩ _
    (.backslash (b! " djnz end ") _ _ (.backslash (b! "x: .dw end, X") _ _ (.newline (b! "end:") [] [10] _ _ (.inl rfl) (.inl rfl) .nil)))
    (.inr ⟨rfl, _, h, by decide, .inl ⟨rfl, by decide, by decide⟩⟩)

/-- A program with a group in a group: the first branch is nonsense, the second is chosen. -/
theorem sample_grouped (fs : Str → Option (List Nat)) (cwd : Str) : Assembles (settingFor [.file (b! "a.asm")] fs [cwd]
    (fun w => ([(b! "y", 2), (b! "x", 0)].find? (fun p : Str × Int => decide (p.1.map upperCase = w.map upperCase))).map (·.2)) [] [] 1)
    (b! "#if 0\n nonsense (\n#elif 2\nx: .dw y\n#ifdef debug\n.org\n#endif\n#endif\ny:\n") [2, 0] := by
  refine ⟨[(b! "y", 2), (b! "x", 0)], 2, [], ?_, rfl, ?_, ?_, (by intro p hp; cases hp), by intro p hp; cases hp⟩
  rotate_left
  · show (([(b! "y", 2), (b! "x", 0)] : Defs).map (fun p => p.1.map upperCase)).Nodup
    decide
  · show ∀ p ∈ ([(b! "y", 2), (b! "x", 0)] : Defs), p.1.map upperCase ∉ predefinedNames ∧ p.1.map upperCase ∉ ([] : List Str) ∧ 0 ≤ p.2 ∧ p.2 ≤ 999999999
    decide
  show Program _ [] [] _ _ _ _ _ _
  generalize hg : (settingFor [.file (b! "a.asm")] fs [cwd]
    (fun w => ([(b! "y", 2), (b! "x", 0)].find? (fun p : Str × Int => decide (p.1.map upperCase = w.map upperCase))).map (·.2)) [] [] 1) = g
  have hdepth : g.depth = 1 := by rw [← hg]; rfl
  have hdepth1 : 0 < g.depth := by omega
  have hx : Name (b! "x") := ⟨⟨_, _, rfl, by decide, by simp [NameChar, Alnum]⟩, by decide⟩
  have hy : Name (b! "y") := ⟨⟨_, _, rfl, by decide, by simp [NameChar, Alnum]⟩, by decide⟩
  have hdebug : Name (b! "debug") := ⟨⟨100, b! "ebug", rfl, by decide, by
    intro x hx; simp at hx; unfold NameChar; rcases hx with rfl | rfl | rfl | rfl <;> decide⟩, by decide⟩
  have nb : Blanks [32] := by intro c hc; simp at hc; subst hc; simp
  have nn : Blanks [] := by intro c hc; simp at hc
  have plain : ∀ t : Str, (∀ c ∈ t, [34, 39, 92, 10, 13, 59].contains c = false) → CodeText t := by
    intro t ht
    induction t with
    | nil => exact .nil
    | cons c t ih =>
      have := ht c (by simp)
      simp at this
      exact .char c t (by omega) (ih fun x hx => ht x (by simp [hx]))
  have digit : ∀ (c : Nat), 48 ≤ c → c ≤ 57 → ∀ pc labels texts, Denotes pc labels texts 0 [c] ((c : Int) - 48) := by
    intro c h1 h2 pc labels texts
    exact Denotes_mono (text := fun _ => none) (fun _ _ h => h) (fun _ _ h => by cases h) (.one 0 _ _ (.plain 0 _ _ (.atom _ _ (atom_digit pc labels c h1 h2))))
  have dy : Denotes (asInt32 0) g.label (fun _ => none) 0 (b! "y") 2 :=
    .one 0 _ _ (.plain 0 _ _ (.atom _ _ (.label _ _ hy (by rw [← hg]; rfl))))
  have ay : Argument (b! "y") := ⟨.char _ _ _ (by decide) (by decide) (.nil _), by decide, by decide, by decide⟩
  have hez : g.ez80 = false := by rw [← hg]; rfl
  have l1 : Stmt g [] [] 0 (b! "x: .dw y") [(b! "x", 0)] [2, 0] 2 :=
    .label (b! "x") [58] (b! " .dw y") _ _ hx (.inl rfl)
      (.data [32] (b! ".dw") 2 32 [b! "y"] (b! "y") [2, 0] nb (by decide) (.inl rfl) (.one [] (b! "y") [] nn nn ay (by decide))
        (.later 0 0 _ 2 _ _ dy (plain_unambiguous _ _ (by decide)) hdepth1 (by rw [hez]; decide) (.nil _)))
  have l2 : Stmt g [(b! "x", 0)] [] 2 (b! "y:") [(b! "y", 2)] [] 2 := .label (b! "y") [58] [] _ _ hy (.inl rfl) (.empty [] nn)
  have key : g.key (b! "debug") ∉ predefinedNames := by
    rw [← hg]
    show b! "DEBUG" ∉ predefinedNames
    decide
  -- the inner group
  have g1 : Group (Condition g [(b! "x", 0)] [] 2) (b! "#ifdef") (b! "#ifdef debug\n.org\n#endif\n") [] :=
    .no _ _ _ _ _ (clauseLine_plain (b! "#ifdef") (b! "debug") (by decide) (plain _ (by decide)) (by decide)) (.ifdef (b! "debug") [] hdebug key nn)
      (branch_plain [(b! ".org", [])] (by decide) (by decide)) (wordLine_plain (b! "#endif"))
  have b1 : Block g [] [] 0 (b! "x: .dw y\n#ifdef debug\n.org\n#endif\n") [(b! "x", 0)] [2, 0] 2 [] :=
    .stmts [] [] 0 (b! "x: .dw y") [] [10] _ _ _ _ _ _ _ _ (.one _ _ _ _ _ _ l1 (by decide)) (.inl rfl) (.inl rfl)
      (.group _ _ _ _ _ _ _ _ _ _ [] _ _ _ _ g1 (by decide) (.nil _ _ _) (.nil _ _ _))
  -- the outer group
  have g2 : Group (Condition g [] [] 0) (b! "#if") (b! "#if 0\n nonsense (\n#elif 2\nx: .dw y\n#ifdef debug\n.org\n#endif\n#endif\n")
      (b! "x: .dw y\n#ifdef debug\n.org\n#endif\n") := by
    refine .elif _ _ _ _ _ _ (clauseLine_plain (b! "#if") (b! "0") (by decide) (plain _ (by decide)) (by decide))
      (.value (b! "#if") (b! "0") [] 0 (by decide) (.plain 0 (digit 48 (by decide) (by decide) _ _ _) hdepth1) nn)
      (branch_plain [(b! " nonsense (", [])] (by decide) (by decide)) ?_
    exact .yes _ _ _ _ _ (clauseLine_plain (b! "#elif") (b! "2") (by decide) (plain _ (by decide)) (by decide))
      (.value (b! "#elif") (b! "2") [] 2 (by decide) (.plain 0 (digit 50 (by decide) (by decide) _ _ _) hdepth1) nn)
      (branch_plain [(b! "x: .dw y", []), (b! "#ifdef debug", []), (b! ".org", []), (b! "#endif", [])] (by decide) (by decide))
      (.endif _ (wordLine_plain (b! "#endif")))
  exact .whole _ _ _ _ _ _ _ _ (.group _ _ _ _ _ _ _ _ _ _ (b! "y:\n") _ _ _ _ g2 (by decide) b1
    (.stmts _ _ _ (b! "y:") [] [10] _ _ _ [] _ _ _ _ (.one _ _ _ _ _ _ l2 (by decide)) (.inl rfl) (.inl rfl) (.nil _ _ _)))

example (md5 : List Nat → List Nat) (fs : Str → Option (List Nat)) (mem rand : Nat → Nat) (cwd : Str)
    (h : fs (b! "a.asm") = some (b! "#if 0\n nonsense (\n#elif 2\nx: .dw y\n#ifdef debug\n.org\n#endif\n#endif\ny:\n")) :
    ∃ K, ∀ fuel, K ≤ fuel → ∃ s, spasm fuel md5 fs mem rand cwd [b! "a.asm"] = .ok 0 s ∧ s.log = [.wrote (b! "a.bin") [2, 0]] :=
  C54_assembles_partial md5 fs mem rand cwd [b! "a.asm"] [.file (b! "a.asm")] (.file _ _ _ _ (by decide) .nil)
    (by intro c hc; simp at hc) (b! "a.asm") rfl _ (.inr ⟨rfl, _, h, by decide, .inl ⟨rfl, by decide, by decide⟩⟩) [cwd] (current_a cwd) _ [] [] 1 (by decide) _
    (sample_grouped fs cwd) (by decide) ⟨b! "a", b! "bin", by decide, by decide, by decide, by decide⟩

/-- A program that defines a macro and calls it, with a number and an expression of a label, behind the label and in front of another
statement of the line. -/
theorem sample_macro (fs : Str → Option (List Nat)) (cwd : Str) : Assembles (settingFor [.file (b! "a.asm")] fs [cwd]
    (fun w => ([(b! "x", 0)].find? (fun p : Str × Int => decide (p.1.map upperCase = w.map upperCase))).map (·.2)) [b! "PUT", b! "N", b! "M"] [b! "N", b! "M"] 2)
    (b! "#macro put(n,m)\n .db m,n\n#endmacro\nx: put(3,x+1) \\ .db 7\n") [1, 3, 7] := by
  refine ⟨[(b! "x", 0)], 3, [(b! "put", some ([b! "n", b! "m"], b! " .db m,n\n"))], ?_, rfl, ?_, ?_, ?_, by intro p hp; cases hp⟩
  rotate_left
  · show (([(b! "x", 0)] : Defs).map (fun p => p.1.map upperCase)).Nodup
    decide
  · show ∀ p ∈ ([(b! "x", 0)] : Defs), p.1.map upperCase ∉ predefinedNames ∧ p.1.map upperCase ∉ ([b! "PUT", b! "N", b! "M"] : List Str) ∧ 0 ≤ p.2 ∧ p.2 ≤ 999999999
    decide
  · show ∀ w ∈ ([b! "N", b! "M"] : List Str), w ∈ ([b! "PUT", b! "N", b! "M"] : List Str) ∧ w ∉ predefinedNames
    decide
  show Program _ [] [] _ _ _ _ _ _
  generalize hg : (settingFor [.file (b! "a.asm")] fs [cwd]
    (fun w => ([(b! "x", 0)].find? (fun p : Str × Int => decide (p.1.map upperCase = w.map upperCase))).map (·.2)) [b! "PUT", b! "N", b! "M"] [b! "N", b! "M"] 2) = g
  have hkey : ∀ w, g.key w = w.map upperCase := by intro w; rw [← hg]; rfl
  have hdepth : g.depth = 2 := by rw [← hg]; rfl
  have hez : g.ez80 = false := by rw [← hg]; rfl
  have hdef : g.defined = [b! "PUT", b! "N", b! "M"] := by rw [← hg]; rfl
  have hpar : g.params = [b! "N", b! "M"] := by rw [← hg]; rfl
  have hop : g.opcodes = z80Table := by rw [← hg]; rfl
  have hx : Name (b! "x") := ⟨⟨_, _, rfl, by decide, by simp [NameChar, Alnum]⟩, by decide⟩
  have hn : Name (b! "n") := ⟨⟨_, _, rfl, by decide, by simp [NameChar, Alnum]⟩, by decide⟩
  have hm : Name (b! "m") := ⟨⟨_, _, rfl, by decide, by simp [NameChar, Alnum]⟩, by decide⟩
  have hput : Name (b! "put") := ⟨⟨112, b! "ut", rfl, by decide, by
    intro x hx; simp at hx; unfold NameChar; rcases hx with rfl | rfl <;> decide⟩, by decide⟩
  have nb : Blanks [32] := by intro c hc; simp at hc; subst hc; simp
  have nb2 : Blanks [32, 32] := by intro c hc; simp at hc; subst hc; simp
  have nn : Blanks [] := by intro c hc; simp at hc
  have an : Argument (b! "n") := ⟨.char _ _ _ (by decide) (by decide) (.nil _), by decide, by decide, by decide⟩
  have am : Argument (b! "m") := ⟨.char _ _ _ (by decide) (by decide) (.nil _), by decide, by decide, by decide⟩
  have a3 : Argument (b! "3") := ⟨.char _ _ _ (by decide) (by decide) (.nil _), by decide, by decide, by decide⟩
  have ax : Argument (b! "x+1") := ⟨.char _ _ _ (by decide) (by decide) (.char _ _ _ (by decide) (by decide) (.char _ _ _ (by decide) (by decide) (.nil _))),
    by decide, by decide, by decide⟩
  have digit : ∀ (c : Nat), 48 ≤ c → c ≤ 57 → ∀ pc labels texts, Prefixed pc labels texts 0 [c] ((c : Int) - 48) := by
    intro c h1 h2 pc labels texts
    exact .plain 0 _ _ (.atom _ _ (atom_digit pc labels c h1 h2))
  -- the definition
  have m1 : MakesMacro g (b! "put") [b! "n", b! "m"] := by
    refine ⟨hput, ?_, ?_, ?_, ?_, by decide⟩
    · rw [hkey]; decide
    · rw [hkey, hpar]; decide
    · rw [hkey, hdef]; decide
    · rw [show g.key = fun w => w.map upperCase from funext hkey]; decide
  have m2 : MacroLine (b! "put") [b! "n", b! "m"] (b! "#macro put(n,m)\n") :=
    ⟨[], b! "macro", 32, [], b! "(n,m)", [10], rfl, nn, by decide, .inl rfl, nn,
      .list [] _ (b! "n,m") [] nn (.more [] (b! "n") [] _ (b! "m") nn nn an (by decide) (.one [] (b! "m") [] nn nn am (by decide))), by decide, .inl rfl⟩
  have m3 : MacroBody (b! " .db m,n\n") := ⟨_, lines_plain [(b! " .db m,n", [])] (by decide), nesting_depth _ (by decide) _ _ _ (by decide)⟩
  have m4 : EndMacro (b! "#endmacro") := ⟨[], _, [], rfl, nn, rfl, nn⟩
  generalize htx : ([(b! "put", some ([b! "n", b! "m"], b! " .db m,n\n"))] : Texts) = tx
  -- the call
  have c1 : Callable g (b! "put") [b! "n", b! "m"] := by
    refine ⟨hput, ?_, ?_, ?_, ?_, by decide, ?_, ?_⟩
    · rw [hkey]; decide
    · rw [hkey, hpar]; decide
    · rw [hop]; decide +kernel
    · rw [hez]; intro h; cases h
    · rw [show g.key = fun w => w.map upperCase from funext hkey]; decide
    · intro p hp
      rw [hkey, hpar]
      simp at hp
      rcases hp with rfl | rfl
      · exact ⟨hn, by decide⟩
      · exact ⟨hm, by decide⟩
  have c2 : CallText (b! "put") [b! "3", b! "x+1"] (b! " put(3,x+1)") :=
    .args [32] _ (b! "3,x+1") nb (.more [] (b! "3") [] _ (b! "x+1") nn nn a3 (by decide) (.one [] (b! "x+1") [] nn nn ax (by decide)))
  have c3 : InOrder (CallArg g [(b! "x", 0)] tx 0) [] [b! "n", b! "m"] [b! "3", b! "x+1"] [some 3, some 1] := by
    refine .cons _ _ _ _ _ _ _ ?_ (.cons _ _ _ _ _ _ _ ?_ (.nil _))
    · exact .value 0 _ 3 (.one 0 _ _ (digit 51 (by decide) (by decide) _ _ _)) (by omega) (by omega)
    · refine .value 0 _ 1 (.join 0 (b! "x") 0 [] .add [43] [] 0 [49] 1 1 (.one 0 _ _ (.plain 0 _ _ (.atom _ _ (.label _ _ hx ?_)))) nn nn (by decide)
        (by intro h; cases h) (digit 49 (by decide) (by decide) _ _ _) (by decide)) (by omega) (by omega)
      rw [← hg]
      rfl
  -- the lines of the macro
  have hps : passedTexts [b! "n", b! "m"] [b! "3", b! "x+1"] [some 3, some 1] = [(b! "n", some ([], b! "$3")), (b! "m", some ([], b! "$1"))] := by
    have e3 : numberText 3 = b! "$3" := by unfold numberText; rw [hexDigits]; rfl
    have e1 : numberText 1 = b! "$1" := by unfold numberText; rw [hexDigits]; rfl
    show [(b! "n", some ([], numberText 3)), (b! "m", some ([], numberText 1))] = _
    rw [e3, e1]
  have hex : ∀ c : Nat, 48 ≤ c → c ≤ 57 → ∀ pc labels, Atom pc labels [36, c] ((c : Int) - 48) := by
    intro c h1 h2 pc labels
    have hd : Spec.digit c = some (c - 48) := by unfold Spec.digit; rw [if_pos ⟨h1, h2⟩]
    have hv : value 16 [c] = c - 48 := by simp [value, hd]
    have := Atom.literal (pc := pc) (label := labels) 16 [c] [36, c] ⟨by simp, by intro x hx; simp at hx; subst hx; unfold Alnum; omega, .inl ⟨rfl, rfl, ⟨_, hd, by omega⟩⟩⟩
      (by intro x hx; simp at hx; subst hx; exact ⟨_, hd, by omega⟩) (by rw [hv]; omega)
    rw [hv] at this
    have e : asInt32 (c - 48) = (c : Int) - 48 := by unfold asInt32; omega
    rw [e] at this
    exact this
  have param : ∀ (t : Str) (c : Nat), Name t → 48 ≤ c → c ≤ 57 → g.text (passedTexts [b! "n", b! "m"] [b! "3", b! "x+1"] [some 3, some 1] ++ tx) t = some [36, c] →
      ∀ pc labels, Denotes pc labels (g.text (passedTexts [b! "n", b! "m"] [b! "3", b! "x+1"] [some 3, some 1] ++ tx)) 1 t ((c : Int) - 48) := by
    intro t c ht h1 h2 htext pc labels
    exact .one 1 _ _ (.plain 1 _ _ (.named 0 t [] [36, c] [] _ ht (by simpa using htext) nn nn (.one 0 _ _ (.plain 0 _ _ (.atom _ _ (hex c h1 h2 _ _))))))
  have tn : g.text (passedTexts [b! "n", b! "m"] [b! "3", b! "x+1"] [some 3, some 1] ++ tx) (b! "n") = some (b! "$3") := by rw [hps, ← hg]; rfl
  have tm : g.text (passedTexts [b! "n", b! "m"] [b! "3", b! "x+1"] [some 3, some 1] ++ tx) (b! "m") = some (b! "$1") := by rw [hps, ← hg]; rfl
  have l2 : Stmt g [(b! "x", 0)] (passedTexts [b! "n", b! "m"] [b! "3", b! "x+1"] [some 3, some 1] ++ tx) 0 (b! "  .db m,n") [] [1, 3] 2 :=
    .plain _ _ _ (.data [32, 32] (b! ".db") 1 32 [b! "m", b! "n"] (b! "m,n") [1, 3] nb2 (by decide) (.inl rfl)
      (.more [] (b! "m") [] _ (b! "n") nn nn am (by decide) (.one [] (b! "n") [] nn nn an (by decide)))
      (.now 0 _ 1 _ [3] (.plain 1 (param _ 49 hm (by decide) (by decide) tm _ _) (by omega)) (by rw [hez]; decide)
        (.now 1 _ 3 _ [] (.plain 1 (param _ 51 hn (by decide) (by decide) tn _ _) (by omega)) (by rw [hez]; decide) (.nil _))))
  have p2 : Program g [(b! "x", 0)] (passedTexts [b! "n", b! "m"] [b! "3", b! "x+1"] [some 3, some 1] ++ tx) 0 (b! "  .db m,n\n") [] [1, 3] 2
      ([] ++ (passedTexts [b! "n", b! "m"] [b! "3", b! "x+1"] [some 3, some 1] ++ tx)) :=
    .whole _ _ _ _ _ _ _ _ (.stmts _ _ _ (b! "  .db m,n") [] [10] _ _ _ [] _ _ _ _ (.one _ _ _ _ _ _ l2 (by decide)) (.inl rfl) (.inl rfl) (.nil _ _ _))
  -- the statement behind the call
  have a7 : Argument (b! "7") := ⟨.char _ _ _ (by decide) (by decide) (.nil _), by decide, by decide, by decide⟩
  have l3 : Stmt g [(b! "x", 0)] tx 2 (b! " .db 7") [] [7] 3 :=
    .plain _ _ _ (.data [32] (b! ".db") 1 32 [b! "7"] (b! "7") [7] nb (by decide) (.inl rfl) (.one [] (b! "7") [] nn nn a7 (by decide))
      (.now 2 _ 7 _ [] (.plain 0 (.one 0 _ _ (digit 55 (by decide) (by decide) _ _ _)) (by rw [hdepth]; decide)) (by rw [hez]; decide) (.nil _)))
  refine .whole _ _ _ _ _ _ _ _ (.macro [] [] 0 (b! "put") _ _ (b! " .db m,n\n") (b! "#endmacro") [] [10] (b! "x: put(3,x+1) \\ .db 7\n") _ _ _ _ m1 m2 m3 m4 (.inl rfl) (.inl rfl) ?_)
  rw [htx]
  have r1 : Clause g [] tx 0 (b! "x: put(3,x+1) ") [(b! "x", 0)] [1, 3] 2 tx :=
    .labelled [] tx 0 (b! "x") [58] (b! " put(3,x+1) ") [] _ _ _ hx (.inl rfl)
      (.call _ _ _ (b! "put") _ _ _ (b! " put(3,x+1)") _ [32] [] _ _ [] (by rw [← htx, ← hg]; rfl) c1 c2 c3 nb p2)
  exact .line _ _ _ (b! "x: put(3,x+1) \\ .db 7") [] [10] _ _ _ _ [] [] [] _ _ (.more _ _ _ _ _ _ _ _ (b! " .db 7") _ _ _ _ r1 (.one _ _ _ _ _ _ _ _ (.stmt _ _ _ _ _ _ _ l3 (by decide))))
    (.inl rfl) (.inl rfl) (.nil _ _ _)

example (md5 : List Nat → List Nat) (fs : Str → Option (List Nat)) (mem rand : Nat → Nat) (cwd : Str)
    (h : fs (b! "a.asm") = some (b! "#macro put(n,m)\n .db m,n\n#endmacro\nx: put(3,x+1) \\ .db 7\n")) :
    ∃ K, ∀ fuel, K ≤ fuel → ∃ s, spasm fuel md5 fs mem rand cwd [b! "a.asm"] = .ok 0 s ∧ s.log = [.wrote (b! "a.bin") [1, 3, 7]] :=
  C54_assembles_partial md5 fs mem rand cwd [b! "a.asm"] [.file (b! "a.asm")] (.file _ _ _ _ (by decide) .nil)
    (by intro c hc; simp at hc) (b! "a.asm") rfl _ (.inr ⟨rfl, _, h, by decide, .inl ⟨rfl, by decide, by decide⟩⟩) [cwd] (current_a cwd) _ _ _ 2 (by decide) _
    (sample_macro fs cwd) (by decide) ⟨b! "a", b! "bin", by decide, by decide, by decide, by decide⟩

/-- The same statements in two layouts. -/
example : Layout [b! "x:", b! " nop", b! " .db ';'"] (b! "x:\\ nop\\ .db ';'") ∧
    Layout [b! "x:", b! " nop", b! " .db ';'"] (b! "x:;first\n nop\r\n .db ';'; end\n") :=
  ⟨.backslash (b! "x:") _ _ (.backslash (b! " nop") _ _ (.last (b! " .db ';'") [] (.inl rfl))),
   .newline (b! "x:") (b! ";first") [10] _ _ (.inr ⟨b! "first", rfl, by decide⟩) (.inl rfl)
     (.newline (b! " nop") [] [13, 10] _ _ (.inl rfl) (.inr rfl)
       (.newline (b! " .db ';'") (b! "; end") [10] _ _ (.inr ⟨b! " end", rfl, by decide⟩) (.inl rfl) .nil))⟩

end Spasm.Props
