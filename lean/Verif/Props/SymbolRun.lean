import Verif.Lemmas.Static
import Verif.Props.Statistics

/-
C30 for every run: the symbol file that -L asks for.
-/

namespace Spasm.Props
open Spasm Spec

/-- What the command line asks for is what the assembler is run with, and its tables are in order. -/
theorem options_good (fuel : Nat) (md5 : List Nat → List Nat) (fs : Str → Option (List Nat)) (mem rand : Nat → Nat) (cwd : Str)
    (args : List Str) (is : List Item) (h : Asks args is none) (input : Str) (hin : inputFor is = some input) :
    ∃ s, Good s ∧ s.currFile = input ∧ s.fs = fs ∧ s.mode.symtable = decide (.flag 76 ∈ is) ∧
      s.mode.commandline = (lastLine is).isSome ∧
      spasm fuel md5 fs mem rand cwd args =
        runAssembly (knot fuel) md5 cwd ((lastLine is).map (· ++ [10])) (outputFor is input) s := by
  have hne : args ≠ [] := by
    rintro rfl
    generalize he : ([] : List Str) = a at h
    generalize hr : (none : Option Nat) = r at h
    cases h <;> cases he
    cases hin
  obtain ⟨s1, o1, e, r⟩ := optLoop_ok (knot fuel) h { startState fs mem rand with currFile := b! "Commandline" } {} ⟨rfl, rfl⟩ rfl
    (by intro h; cases h) (by intro f h; cases h)
  have hi : o1.input = some input := by rw [r.input, ← hin]; rfl
  have ho : (match o1.output with | some f => f | none => changeExtension input (b! "bin")) = outputFor is input := by
    rw [r.output]
    unfold outputFor
    cases (lastLine is).isSome
    · show (match (fileNames is)[1]? with | some f => f | none => changeExtension input (b! "bin")) = _
      cases (fileNames is)[1]? <;> rfl
    · rfl
  have hc : o1.contents = (lastLine is).map (· ++ [10]) := by rw [r.contents]; simp
  have a : s1.labels = [] := by have := congrArg S.labels r.same; exact this
  have b : s1.argSets = [] := by have := congrArg S.argSets r.same; exact this
  have f0 : s1.fs = fs := by have := congrArg S.fs r.same; exact this
  obtain ⟨T, e2, -⟩ := ensureStorage_early o1 { s1 with caseSens := o1.caseSens } ⟨a, b⟩
  have t1 := (tidy_optLoop fuel args {}).ok e
  have g1 : Good s1 := t1.good (Tables.good (s := startState fs mem rand) ⟨rfl, rfl, rfl⟩ (good_start fs mem rand))
  have c1 : s1.caseSens = false := t1.sens
  have g2 : Good { s1 with caseSens := o1.caseSens } := by
    have key : ∀ t, keyOf s1 t = t → keyOf { s1 with caseSens := o1.caseSens } t = t := by
      intro t ht
      unfold keyOf at ht ⊢
      rw [c1] at ht
      dsimp only
      split
      · rfl
      · exact ht
    exact ⟨g1.labels, g1.defines, g1.labelNames, g1.defineNames, g1.apart, fun p hp => key _ (g1.labelKeys p hp), fun p hp => key _ (g1.defineKeys p hp)⟩
  have g3 := ((tidy_ensureStorage o1).ok e2).good g2
  refine ⟨{ s1 with caseSens := o1.caseSens, defines := T, errors := [], session := 0 }, Tables.good (s := { s1 with caseSens := o1.caseSens, defines := T }) ⟨rfl, rfl, rfl⟩ g3,
    r.currFile input hi, f0, ?_, ?_, ?_⟩
  · have := r.symtable
    simpa [startState] using this
  · have := r.commandline
    simpa [startState] using this
  · unfold spasm mainBody
    rw [if_neg (by simpa using hne), M.modify_bind, M.bind_ok e, M.modify_bind, hi]
    dsimp only
    rw [M.bind_ok e2, hc]
    unfold clearSessions
    rw [M.modify_bind, ← ho]
    cases o1.output <;> rfl

theorem grows {α : Type} {m : M α} (h : Runs m) {s s' : S} {a : α} (e : m s = .ok a s') : ∃ evs, s'.log = s.log ++ evs := by
  have := (Keeps.ofRuns worse_invar h).keep s
  rw [e] at this
  obtain ⟨-, evs, h, -⟩ := this
  exact ⟨evs, h⟩

/-- C30, for every program: with -L, a run that comes to its end wrote a symbol file, named like the output file but with the
extension `lab`. It has one line for every label of the program at the end, with its value; the other lines are for names with a text;
no name has two lines, and they are in alphabetical order.
(`ranPreop` is true if the evaluation of some text ran a preprocessor line that was part of that text.) -/
theorem C30_every_run (fuel : Nat) (md5 : List Nat → List Nat) (fs : Str → Option (List Nat)) (mem rand : Nat → Nat) (cwd : Str)
    (args : List Str) (is : List Item) (h : Asks args is none) (hl : .flag 76 ∈ is) (input : Str) (hin : inputFor is = some input)
    (text : Str) (hs : Source fs is input text) (c : Nat) (s : S) (e : spasm fuel md5 fs mem rand cwd args = .ok c s)
    (hp : s.ranPreop = false) :
    ∃ entries lines before after,
      s.log = before ++ [.wrote (changeExtension (outputFor is input) (b! "lab")) lines.flatten] ++ after ∧
      List.Forall₂ SymbolLine entries lines ∧ Alphabetical (entries.map (·.1)) ∧ (entries.map (·.1)).Nodup ∧
      (∀ x, IsLabel s x → x ∈ entries) ∧
      (∀ x ∈ entries, IsLabel s x ∨ IsDefine s x.1 ∨ x.1 = b! "__LINE" ∨ x.1 = b! "__FILE") := by
  obtain ⟨s0, g0, hcf, hfs, hsym, hcl, he⟩ := options_good fuel md5 fs mem rand cwd args is h input hin
  have gs : Good s := by
    have := tidy_mainBody fuel md5 cwd args _ rfl (good_start fs mem rand)
    rw [show mainBody (knot fuel) md5 cwd args (startState fs mem rand) = .ok c s from e] at this
    exact this
  have h6 : (if s0.mode.commandline then (lastLine is).map (· ++ [10]) else (s0.fs s0.currFile).bind fileText) = some text := by
    rw [hcl, hfs, hcf]
    rcases hs with ⟨l, hl, rfl⟩ | ⟨hl, bytes, hb, ht⟩
    · simp [hl]
    · simp only [hl, Option.isSome_none, Bool.false_eq_true, if_false]
      rw [hb]
      exact fileText_of ht.1 ht.2
  rw [e] at he
  unfold runAssembly at he
  rw [M.modify_bind, M.get_bind] at he
  dsimp only at he
  rw [show (if (resetGlobals s0).mode.commandline then (lastLine is).map (· ++ [10]) else
    ((resetGlobals s0).fs (resetGlobals s0).currFile).bind fileText) = some text from h6] at he
  dsimp only at he
  obtain ⟨_, s1, e1, he⟩ := M.bind_eq_ok.1 he.symm
  have g1 : Good s1 := ((tidy_passOne fuel cwd text).ok e1).good (Tables.good (s := s0) ⟨rfl, rfl, rfl⟩ g0)
  have m1 : s1.mode.symtable = true := by
    have := (keeps_passOne untouched_invar (fun _ _ _ _ => ⟨rfl, rfl, rfl, rfl⟩) fuel cwd text).keep (resetGlobals s0)
    rw [e1] at this
    rw [show s1.mode = s0.mode from this.1, hsym]
    exact decide_eq_true hl
  rw [M.get_bind, m1] at he
  simp only [Bool.true_or, if_true, M.when_true] at he
  obtain ⟨_, s2, e2, he⟩ := M.bind_eq_ok.1 he
  obtain ⟨_, s3, e3, he⟩ := M.bind_eq_ok.1 he
  obtain ⟨_, s5, e4, he⟩ := M.bind_eq_ok.1 he
  obtain ⟨_, s6, e6, he⟩ := M.bind_eq_ok.1 he
  have hs6 : s6 = s := by
    rw [M.get_bind] at he
    cases he
    rfl
  subst hs6
  have g2 : Good s2 := ((tidy_passTwo (tidy_knot fuel)).ok e2).good g1
  unfold labelFile at e3
  obtain ⟨n, a1, f1, e3⟩ := M.bind_eq_ok.1 e3
  obtain ⟨_, a2, f2, e3⟩ := M.bind_eq_ok.1 e3
  have ga : Good a1 := (tidy_startSession.ok f1).good g2
  obtain ⟨entries, lines, before, x1, x2, x3, x4, x5, x6⟩ := C30_symbol_file fuel _ a1 a2 (oneMeaning_iff.2 ga) f2
  -- what follows
  have r3 : SameNames a2 s3 := (Static.bind (static_replayFatal n) fun _ => static_endSession n).ok e3
  have r4 : SameNames s3 s5 := by
    refine Static.ok (Static.when (static_outputFile md5 _)) e4
  have r6 : SameNames s5 s6 := static_printStats.ok e6
  have rr := (r3.trans r4).trans r6
  have k := ((still_writeLabels (still_knot fuel) _).ok f2 (by rw [← rr.preop]; exact hp)).2
  obtain ⟨v1, w1⟩ := grows (.bind (runs_replayFatal n) fun _ => runs_endSession n) e3
  obtain ⟨v2, w2⟩ := grows (.when (runs_outputFile md5 _)) e4
  obtain ⟨v3, w3⟩ := grows runs_printStats e6
  have hlab : s6.labels = a1.labels := rr.labels.trans k.labels
  refine ⟨entries, lines, before, v1 ++ v2 ++ v3, ?_, x2, x3, x4, ?_, ?_⟩
  · rw [w3, w2, w1, x1]
    simp
  · rintro x ⟨p, hp, hx⟩
    exact x5 x ⟨p, hlab ▸ hp, hx⟩
  · intro x hx
    rcases x6 x hx with ⟨p, hp, hx⟩ | ⟨p, hp, hx⟩
    · exact .inl ⟨p, hlab ▸ hp, hx⟩
    · have hkey : p.2.name = p.1 := ga.defineNames p hp
      by_cases q1 : p.1 = b! "__LINE"
      · exact .inr (.inr (.inl (by rw [← hx, hkey, q1])))
      · by_cases q2 : p.1 = b! "__FILE"
        · exact .inr (.inr (.inr (by rw [← hx, hkey, q2])))
        · have hk := k.defines p.1 q1 q2
          have hm := lookup_of_mem hp
          rw [← hk, ← rr.defines] at hm
          obtain ⟨d, hd⟩ := Option.ne_none_iff_exists'.1 hm
          refine .inr (.inl ⟨(p.1, d), lookup_mem hd, ?_⟩)
          rw [← hx, hkey]
          exact gs.defineNames _ (lookup_mem hd)

/-- A program with two labels and a name with a text; the other lines are for the names that every program has. -/
example : (match asm (b! "#define c 7\n nop\nb: nop\nA = 3\n") [b! "-L", b! "a.asm"] with
    | .ok 0 s => !s.ranPreop && s.log == [.wrote (b! "a.lab")
        (b! "__BM_MSK_RGB = $FF00\n__BM_SHD = $0002\n__LINE = $0000\nA = $0003\nB = $0001\nC = $0007\n" ++
          b! "FALSE = $0000\nSPASM = $0001\nSPASMVER = $0002\nTRUE = $0001\n"), .wrote (b! "a.bin") [0, 0]]
    | _ => false) = true := by
  decide +kernel

end Spasm.Props
