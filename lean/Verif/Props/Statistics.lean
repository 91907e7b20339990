import Verif.Props.Program
import Verif.Props.Message
import Verif.Props.Tables
import Verif.Spec.Statistics

/-
C72: the statistics that -S and -C show.
-/

namespace Spasm.Props
open Spasm Spec

theorem fmtUnsigned_digits (v : Int) : fmtUnsigned v = decimalDigits (v % 4294967296).toNat := by
  unfold fmtUnsigned fmtNat toU32
  rw [decAux_digits 11 _ _ (by omega) (by omega), List.append_nil]

/-- A number as an unsigned number of 32 bits. -/
theorem unsigned_bound (v : Int) : (v % 4294967296).toNat < 4294967296 := by omega

theorem statsText_eq (s : S) : statsText s = statistics (s.labels.length % 4294967296) (s.defines.length % 4294967296)
    (s.statsCode % 4294967296).toNat (s.statsData % 4294967296).toNat := by
  unfold statsText statistics
  simp only [fmtUnsigned_digits]
  rw [show ((s.labels.length : Int) % 4294967296).toNat = s.labels.length % 4294967296 by omega,
    show ((s.defines.length : Int) % 4294967296).toNat = s.defines.length % 4294967296 by omega,
    show ((s.statsCode + s.statsData) % 4294967296).toNat =
      ((s.statsCode % 4294967296).toNat + (s.statsData % 4294967296).toNat) % 4294967296 by omega]

theorem counterText_eq (s : S) : counterText s =
    timings (s.statsCode % 4294967296).toNat (s.statsMin % 4294967296).toNat (s.statsMax % 4294967296).toNat := by
  unfold counterText timings
  simp only [fmtUnsigned_digits]

/-- C72, for every program: a run that comes to its end shows, as the last thing, the size and the execution times if -C is given,
and then the statistics if -S is given. The labels and names that are counted are those of the symbol table at the end, and the
size of the code is the same in both. -/
theorem C72_every_run (fuel : Nat) (md5 : List Nat → List Nat) (fs : Str → Option (List Nat)) (mem rand : Nat → Nat) (cwd : Str)
    (args : List Str) (is : List Item) (h : Asks args is none) (input : Str) (hin : inputFor is = some input) (text : Str)
    (hs : Source fs is input text) (c : Nat) (s : S) (e : spasm fuel md5 fs mem rand cwd args = .ok c s) :
    ∃ before size data least most, size < 4294967296 ∧ data < 4294967296 ∧ least < 4294967296 ∧ most < 4294967296 ∧
      s.log = before ++ (if .flag 67 ∈ is then [.text (timings size least most)] else []) ++
        (if .flag 83 ∈ is then [.text (statistics (s.labels.length % 4294967296) (s.defines.length % 4294967296) size data)] else []) := by
  obtain ⟨s0, hc, hcf, he⟩ := C50_options_partial fuel md5 fs mem rand cwd args is h input hin
  have hmode := (C51_options_fixed fuel md5 cwd ((lastLine is).map (· ++ [10])) (outputFor is input) s0).1
  rw [← he, e] at hmode
  have hfs : s0.fs = fs := congrArg S.fs hc.rest
  have h6 : (if s0.mode.commandline then (lastLine is).map (· ++ [10]) else (s0.fs s0.currFile).bind fileText) = some text := by
    rw [hc.mode, hfs, hcf]
    rcases hs with ⟨l, hl, rfl⟩ | ⟨hl, bytes, hb, ht⟩
    · simp [modeFor, hl]
    · simp only [modeFor, hl, Option.isSome_none, Bool.false_eq_true, if_false]
      rw [hb]
      exact fileText_of ht.1 ht.2
  have last : ∃ s1, s = (printStats s1).state := by
    rw [e] at he
    unfold runAssembly at he
    rw [M.modify_bind, M.get_bind] at he
    dsimp only at he
    rw [show (if (resetGlobals s0).mode.commandline then (lastLine is).map (· ++ [10]) else
      ((resetGlobals s0).fs (resetGlobals s0).currFile).bind fileText) = some text from h6] at he
    dsimp only at he
    obtain ⟨_, s1, -, he⟩ := M.bind_eq_ok.1 he.symm
    rw [M.get_bind] at he
    split at he
    · obtain ⟨_, s2, -, he⟩ := M.bind_eq_ok.1 he
      obtain ⟨_, s3, -, he⟩ := M.bind_eq_ok.1 he
      obtain ⟨_, s4, -, he⟩ := M.bind_eq_ok.1 he
      exact ⟨s4, (congrArg Res.state he).symm⟩
    · exact ⟨s1, (congrArg Res.state he).symm⟩
  obtain ⟨s1, rfl⟩ := last
  have h67 : s1.mode.codeCounter = decide (Item.flag 67 ∈ is) := by
    rw [show s1.mode = s0.mode from hmode, hc.mode]
    rfl
  have h83 : s1.mode.stats = decide (Item.flag 83 ∈ is) := by
    rw [show s1.mode = s0.mode from hmode, hc.mode]
    rfl
  refine ⟨s1.log, (s1.statsCode % 4294967296).toNat, (s1.statsData % 4294967296).toNat, (s1.statsMin % 4294967296).toNat,
    (s1.statsMax % 4294967296).toNat, unsigned_bound _, unsigned_bound _, unsigned_bound _, unsigned_bound _, ?_⟩
  show s1.log ++ (if s1.mode.codeCounter then [.text (counterText s1)] else []) ++ (if s1.mode.stats then [.text (statsText s1)] else []) = _
  rw [h67, h83, counterText_eq, statsText_eq]
  simp only [decide_eq_true_eq]
  rfl

theorem same_length {g : Setting} {names names' : List Str} (hnd : (names'.map g.key).Nodup) (hnames : (names.map g.key).Nodup)
    (h : ∀ w, g.key w ∈ names'.map g.key ↔ g.key w ∈ names.map g.key) : names'.length = names.length := by
  have h1 : ∀ k, k ∈ names'.map g.key ↔ k ∈ names.map g.key := by
    intro k
    constructor
    · intro hk
      obtain ⟨w, hw, rfl⟩ := List.mem_map.1 hk
      exact (h w).1 hk
    · intro hk
      obtain ⟨w, hw, rfl⟩ := List.mem_map.1 hk
      exact (h w).2 hk
  have := ((List.perm_ext_iff_of_nodup hnd hnames).2 h1).length_eq
  simpa using this

/-- The number of names with a meaning. -/
theorem defines_length {g : Setting} {s : S} (hone : OneMeaning s) (hkey : ∀ w, nameKey s w = g.key w) {texts : List Str}
    (hnd : (texts.map g.key).Nodup) (hap : ∀ w ∈ texts, g.key w ∉ predefinedNames)
    (h : ∀ w, defineOf s w ≠ none ↔ g.key w ∈ predefinedNames ∨ g.key w ∈ texts.map g.key) : s.defines.length = 10 + texts.length := by
  have hcap : ∀ p ∈ s.defines, g.key p.1 = p.1 := by
    intro p hp
    rw [← hkey]
    unfold nameKey
    cases hc : s.caseSens with
    | true => rfl
    | false => exact (hone.capitals hc).2 p hp
  have hpre : ∀ w ∈ predefinedNames, g.key w = w := by
    intro w hw
    unfold Setting.key
    split
    · rfl
    · revert w
      decide
  have hidem : ∀ w, g.key (g.key w) = g.key w := by
    intro w
    unfold Setting.key
    split
    · rfl
    · exact map_upper_idem w
  have hmem : ∀ k, k ∈ s.defines.map (fun p => p.1) ↔ k ∈ predefinedNames ++ texts.map g.key := by
    intro k
    have look : g.key k = k → (k ∈ s.defines.map (fun p => p.1) ↔ defineOf s k ≠ none) := by
      intro hk
      rw [defineOf_eq, hkey, hk]
      constructor
      · intro hx
        obtain ⟨p, hp, rfl⟩ := List.mem_map.1 hx
        exact lookup_of_mem hp
      · intro hx
        obtain ⟨d, hd⟩ := Option.ne_none_iff_exists'.1 hx
        exact List.mem_map.2 ⟨_, lookup_mem hd, rfl⟩
    rw [List.mem_append]
    constructor
    · intro hx
      obtain ⟨p, hp, hpk⟩ := List.mem_map.1 hx
      have hk : g.key k = k := by rw [← hpk]; exact hcap p hp
      have := (h k).1 ((look hk).1 hx)
      rwa [hk] at this
    · intro hx
      have hk : g.key k = k := by
        rcases hx with hx | hx
        · exact hpre k hx
        · obtain ⟨w, -, rfl⟩ := List.mem_map.1 hx
          exact hidem w
      refine (look hk).2 ((h k).2 ?_)
      rw [hk]
      exact hx
  have n1 : (s.defines.map (fun p => p.1)).Nodup := hone.defineOrder.imp fun hab e => by rw [e] at hab; exact absurd hab (List.lt_irrefl _)
  have n2 : (predefinedNames ++ texts.map g.key).Nodup := by
    refine List.nodup_append.2 ⟨by decide, hnd, ?_⟩
    rintro a ha b hb rfl
    obtain ⟨w, hw, rfl⟩ := List.mem_map.1 hb
    exact hap w hw ha
  have := ((List.perm_ext_iff_of_nodup n1 n2).2 hmem).length_eq
  rw [List.length_map, List.length_append, List.length_map] at this
  exact this

/-- C72, from the command line and the text of the program: with -S a run writes the same file as without, and then shows the
statistics. The number of labels is that of the different names that stand for an address or value, the number of defines is
that of the different names that have a text at the end of the program and of the ten predefined names, and the sizes of code
and data add up to the size of the file.
Missing: what is missing in `C54_assembles_partial`; and how the bytes divide into code and data, which
is only known for each statement (`C53_assembles`, `C46_directive_partial`). -/
theorem C72_statistics_partial (md5 : List Nat → List Nat) (fs : Str → Option (List Nat)) (mem rand : Nat → Nat) (cwd : Str)
    (args : List Str) (is : List Item) (h : Asks args is none) (hp : Counting is) (hS : .flag 83 ∈ is) (input : Str) (hin : inputFor is = some input)
    (text : Str) (hs : Source fs is input text) (dirs : List Str) (hdirs : Searched cwd is input dirs) (label : Str → Option Int)
    (defined params : List Str) (depth : Nat) (hd : depth ≤ 20) (bs : List Nat) (tx : Texts) (g : Setting)
    (hg : g = settingFor is fs dirs label defined params depth) (ha : Leaves g text bs tx) (hlen : bs.length ≤ 8000000)
    (hn : HasExt (outputFor is input) (b! "BIN")) (names : List Str) (hnames : (names.map g.key).Nodup)
    (hlabels : ∀ w, label w ≠ none ↔ g.key w ∈ names.map g.key) (hfew : names.length < 4294967296)
    (texts : List Str) (htexts : (texts.map g.key).Nodup) (hdefines : ∀ w, g.meaning tx w ≠ none ↔ g.key w ∈ texts.map g.key)
    (hfew' : 10 + texts.length < 4294967296) :
    ∃ K, ∀ fuel, K ≤ fuel → ∃ s code data, spasm fuel md5 fs mem rand cwd args = .ok 0 s ∧ code + data = bs.length ∧
      s.log = [.wrote (outputFor is input) bs, .text (statistics names.length (10 + texts.length) code data)] := by
  obtain ⟨names', hnd, hlab, K, hK⟩ := run_leaving md5 fs mem rand cwd args is h hp input hin text hs dirs hdirs label defined params depth hd bs tx (hg ▸ ha) hlen
  rw [← hg] at hnd hlab hK
  have hlen' : names'.length = names.length := same_length hnd hnames fun w => (hlab w).symm.trans (hlabels w)
  refine ⟨K, fun fuel hf => ?_⟩
  obtain ⟨s, a, k1, k2, k3, e⟩ := hK fuel hf
  obtain ⟨s', e', l0, l⟩ := writes_counted a md5 _ .bin (calcOf_ext _ (b! "BIN", .bin) (by decide) hn) hlen bs rfl
  rw [decide_eq_true hS, if_pos rfl] at l
  have h1 := a.counted (by rw [a.stats, decide_eq_true hS])
  have h2 := a.code
  have h3 := a.data
  have hlast : s.defines.length = 10 + texts.length := by
    have hone := (C28_never_both fuel md5 fs mem rand cwd args).1
    have hcase := (C50_final fuel md5 fs mem rand cwd args is h input hin).2.1
    rw [e, e'] at hone hcase
    have hone' : OneMeaning s' := hone
    have hcase' : s'.caseSens = decide (Item.flag 65 ∈ is) := hcase
    have hk : ∀ w, nameKey s' w = g.key w := by
      intro w
      unfold nameKey Setting.key
      rw [hcase', hg]
      rfl
    have hd' : ∀ w, defineOf s' w = defineOf s w := by
      intro w
      unfold defineOf
      rw [hk, k1, l0]
    rw [← l0]
    refine defines_length hone' hk htexts ?_ ?_
    · intro w hw
      exact k3 w ((hdefines w).2 (List.mem_map_of_mem hw))
    · intro w
      rw [hd', k2, hdefines]
  refine ⟨s', s.statsCode.toNat, s.statsData.toNat, by rw [e, e'], by omega, ?_⟩
  rw [l, statsText_eq, a.labels, hlen', Nat.mod_eq_of_lt hfew, hlast, Nat.mod_eq_of_lt hfew', show (s.statsCode % 4294967296).toNat = s.statsCode.toNat by omega,
    show (s.statsData % 4294967296).toNat = s.statsData.toNat by omega]

/-- The sample program, with -S. -/
example (md5 : List Nat → List Nat) (fs : Str → Option (List Nat)) (mem rand : Nat → Nat) (cwd : Str)
    (h : fs (b! "a.asm") = some (b! " djnz end \nx: .dw end, X\nend:\n")) :
    ∃ K, ∀ fuel, K ≤ fuel → ∃ s code data, spasm fuel md5 fs mem rand cwd [b! "-S", b! "a.asm"] = .ok 0 s ∧ code + data = 6 ∧
      s.log = [.wrote (b! "a.bin") [0x10, 4, 6, 0, 2, 0], .text (statistics 2 10 code data)] := by
  obtain ⟨pc', hprog⟩ := layout_program
    (.newline (b! " djnz end ") [] [10] _ _ (.inl rfl) (.inl rfl)
      (.newline (b! "x: .dw end, X") [] [10] _ _ (.inl rfl) (.inl rfl) (.newline (b! "end:") [] [10] _ _ (.inl rfl) (.inl rfl) .nil)))
    (sample_statements (settingFor [.flag 83, .file (b! "a.asm")] fs [cwd] (sampleSetting fs cwd).label [] [] 1) ⟨rfl, rfl⟩ rfl rfl rfl)
  refine C72_statistics_partial md5 fs mem rand cwd [b! "-S", b! "a.asm"] [.flag 83, .file (b! "a.asm")]
    (.flag 83 [] _ _ _ (by decide) (.file _ _ _ _ (by decide) .nil)) (by intro c hc; simp at hc; simp [hc]) (by simp) (b! "a.asm") rfl _
    (.inr ⟨rfl, _, h, by decide, .inl ⟨rfl, by decide, by decide⟩⟩) [cwd]
    (.current [] (by rw [← isAbsPath_iff _ (by decide)]; decide) (by decide)
      (.other _ _ _ (by intro t h; cases h) (.other _ _ _ (by intro t h; cases h) .nil)))
    _ [] [] 1 (by decide) _ [] _ rfl
    ⟨sampleDefs, pc', hprog, rfl, sample_good.1, sample_good.2, (by intro p hp; cases hp), by intro p hp; cases hp⟩ (by decide)
    ⟨b! "a", b! "bin", by decide, by decide, by decide, by decide⟩ [b! "end", b! "x"] ?_ ?_ (by decide) [] (by simp) ?_ (by decide)
  · show ([b! "END", b! "X"] : List Str).Nodup
    decide
  · intro w
    show Option.map _ (sampleDefs.find? (fun p => decide (p.1.map upperCase = w.map upperCase))) ≠ none ↔ w.map upperCase ∈ [b! "END", b! "X"]
    simp only [sampleDefs, List.find?_cons, List.find?_nil, List.mem_cons, List.not_mem_nil, or_false]
    by_cases h1 : (b! "end").map upperCase = w.map upperCase
    · have : w.map upperCase = b! "END" := h1.symm.trans (by decide)
      rw [this]
      decide
    · by_cases h2 : (b! "x").map upperCase = w.map upperCase
      · have : w.map upperCase = b! "X" := h2.symm.trans (by decide)
        rw [this]
        decide
      · simp only [h1, h2, decide_false, Option.map_none, ne_eq, not_true_eq_false, false_iff, not_or]
        exact ⟨fun h => h1 (by rw [h]; decide), fun h => h2 (by rw [h]; decide)⟩
  · intro w
    simp [Setting.meaning]

/-- A whole run in which names are defined, redefined and removed, as a label, with a text, and as a macro. -/
example : (asm (b! "#define one 1\n#define two\n#macro put(m)\n .db m\n#endmacro\nx: put(2)\n#undef ONE\n#define two 2\n") [b! "-S", b! "-Dthree=", b! "a.asm"]).state.log =
    [.wrote (b! "a.bin") [2], .text (statistics 1 (10 + 3) 0 1)] := by
  decide +kernel

/-- A whole run with both options. -/
example : (asm (b! " djnz $\\ .db 1,2\\ ret\n") [b! "-S", b! "-C", b! "a.asm"]).state.log =
    [.wrote (b! "a.bin") [0x10, 0xFE, 1, 2, 0xC9], .text (timings 3 18 23), .text (statistics 0 10 3 2)] := by
  decide +kernel

/-- The bytes of `#import` are not counted: the file has four bytes, the total is one. -/
theorem C72_fails_import : ∃ s, spasm 9 (fun _ => []) (fun f => if f = b! "a.asm" then some (b! " .db 1\n#import \"x\"\n") else if f = b! "/x" then some [7, 8, 9] else none)
      (fun _ => 0) (fun _ => 0) (b! "") [b! "-S", b! "a.asm"] = .ok 0 s ∧ s.log = [.wrote (b! "a.bin") [1, 7, 8, 9], .text (statistics 0 10 0 1)] := by
  have h : (match spasm 9 (fun _ => []) (fun f => if f = b! "a.asm" then some (b! " .db 1\n#import \"x\"\n") else if f = b! "/x" then some [7, 8, 9] else none)
      (fun _ => 0) (fun _ => 0) (b! "") [b! "-S", b! "a.asm"] with
    | .ok c s => decide (c = 0 ∧ s.log = [.wrote (b! "a.bin") [1, 7, 8, 9], .text (statistics 0 10 0 1)])
    | .stop _ _ => false) = true := by decide +kernel
  revert h
  split
  · intro h
    rename_i c s e
    obtain ⟨rfl, hl⟩ := of_decide_eq_true h
    exact ⟨s, e, hl⟩
  · intro h; cases h

end Spasm.Props
