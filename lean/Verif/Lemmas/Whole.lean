import Verif.Lemmas.Block
import Verif.Props.Options
import Verif.Lemmas.Export

/-
From the statements of a program to the file that is written.
-/

namespace Spasm
open Spec Props

/-! ### The second pass -/

/-- What the second pass changes. -/
def Frame2 (s s' : S) : Prop :=
  s' = { s with
    mem := s'.mem, outPtr := s'.outPtr, parseDepth := s'.parseDepth, fwdRef := s'.fwdRef, pc := s'.pc, lineNum := s'.lineNum,
    currFile := s'.currFile, currReusable := s'.currReusable }

theorem Frame2.trans {s s1 s2 : S} (h : Frame2 s s1) (h' : Frame2 s1 s2) : Frame2 s s2 := by
  unfold Frame2 at *
  exact h'.trans (congrArg (fun x : S =>
    { x with mem := s2.mem, outPtr := s2.outPtr, parseDepth := s2.parseDepth, fwdRef := s2.fwdRef, pc := s2.pc, lineNum := s2.lineNum,
             currFile := s2.currFile, currReusable := s2.currReusable }) h)

theorem runExpr_due {final : Str → Option Int} {D : Nat} {bs : List Nat} {e : PExpr} (k : Nat) (h20 : D ≤ 20) (hk : D ≤ k) (s : S)
    (hE : visibleLabel s = final) (h : Due final s.mode.ez80 D 0 bs e) (hroom : bs.length ≤ 8000000) :
    ∃ s', runExpr (knot k) e s = .ok () s' ∧ Frame2 s s' ∧
      (∀ i : Nat, ¬ Reserved e i → s'.mem i = s.mem i) ∧ ∀ (i : Nat) (b : Nat), Reserved e i → bs[i]? = some b → s'.mem i = b := by
  obtain ⟨d, t, bl, v, x, pre, post, h1, h2, h3, h4, h5, h6, h7, h8, h9, h10⟩ := h
  have nb : Blanks [] := by intro c hc; simp at hc
  have hlen := encode_length h5
  have hout : e.out = (pre.length : Int) := by omega
  have hbl : bs.length = pre.length + x.length + post.length := by rw [h9]; simp; omega
  generalize hs1 : ({ s with pc := toU32 e.pc, lineNum := e.line, currFile := e.file, currReusable := e.reusable + 1 } : S) = s1
  have hvis : visibleLabel s1 = final := by rw [← hE, ← hs1]; rfl
  have hp := C03_value s1 d k [] t bl [] v (by
      rw [hvis, show s1.pc = toU32 e.pc by rw [← hs1]]
      exact Denotes_mono (fun _ _ h => h) (fun _ _ h => by simp at h) h3) (by omega) (by omega) nb h2 (.inl rfl)
  simp only [List.nil_append, List.append_nil] at hp
  rw [← h1] at hp
  have room : HasRoom x.length { s1 with parseDepth := 0, fwdRef := false, outPtr := e.out } := by
    unfold HasRoom
    constructor
    · show 0 ≤ e.out
      omega
    · show e.out + (x.length : Int) ≤ 8000000
      omega
  have hw := writeArg_full (s := { s1 with parseDepth := 0, fwdRef := false, outPtr := e.out }) (v := v) (ty := e.ty) (size := e.instSize)
    (base := e.orValue) (bs := x) (by rw [← hs1]; exact h5) h8 room
  have hez : s1.mode.ez80 = s.mode.ez80 := by rw [← hs1]
  refine ⟨{ emitted x { s1 with parseDepth := 0, fwdRef := false, outPtr := e.out } with errors := s1.errors }, ?_, ?_⟩
  · show runExpr (knot k) e s = .ok () { emitted x { s1 with parseDepth := 0, fwdRef := false, outPtr := e.out } with errors := s1.errors }
    unfold runExpr setCurrReusable
    rw [M.modify_bind, M.modify_bind]
    show (parseNum (knot k) e.expr >>= _) { s with pc := toU32 e.pc, lineNum := e.line, currFile := e.file, currReusable := e.reusable + 1 } = _
    rw [hs1, M.bind_ok hp]
    dsimp only
    rw [if_neg h7, M.modify_bind]
    show writeArg v e.ty e.instSize e.orValue { s1 with parseDepth := 0, fwdRef := false, outPtr := e.out } = _
    rw [hw]
    show Res.ok () { emitted x { s1 with parseDepth := 0, fwdRef := false, outPtr := e.out } with
      errors := asErrs (argWarnings s1.mode.ez80 e.ty v) { s1 with parseDepth := 0, fwdRef := false, outPtr := e.out } ++ s1.errors } = _
    rw [hez, h6]
    rfl
  · have hmem : ∀ i : Nat, (emitted x { s1 with parseDepth := 0, fwdRef := false, outPtr := e.out }).mem i =
        if pre.length ≤ i ∧ i < pre.length + x.length then x.getD (i - pre.length) 0 else s.mem i := by
      intro i
      show (if e.out.toNat ≤ i ∧ i < e.out.toNat + x.length then x.getD (i - e.out.toNat) 0 else s1.mem i) = _
      rw [hout, Int.toNat_natCast, ← hs1]
    refine ⟨?_, ?_, ?_⟩
    · rw [← hs1]
      rfl
    · intro i hi
      show (emitted x { s1 with parseDepth := 0, fwdRef := false, outPtr := e.out }).mem i = _
      unfold Reserved at hi
      rw [hmem, if_neg (by omega)]
    · intro i b hi hb
      unfold Reserved at hi
      show (emitted x { s1 with parseDepth := 0, fwdRef := false, outPtr := e.out }).mem i = _
      rw [hmem, if_pos (by omega)]
      rw [h9, List.append_assoc, List.getElem?_append_right (by omega), List.getElem?_append_left (by omega)] at hb
      rw [List.getD_eq_getElem?_getD, hb]
      rfl

theorem runExprs_due {final : Str → Option Int} {D : Nat} {bs : List Nat} (k : Nat) (h20 : D ≤ 20) (hk : D ≤ k) (hroom : bs.length ≤ 8000000)
    (ez : Bool) : ∀ (es : List PExpr) (s : S), s.mode.ez80 = ez → visibleLabel s = final → (∀ e ∈ es, Due final ez D 0 bs e) →
    ∃ s', runExprs (knot k) es s = .ok () s' ∧ Frame2 s s' ∧
      (∀ i : Nat, (∀ e ∈ es, ¬ Reserved e i) → s'.mem i = s.mem i) ∧
      ∀ (i : Nat) (b : Nat), bs[i]? = some b → (s.mem i = b ∨ ∃ e ∈ es, Reserved e i) → s'.mem i = b := by
  intro es
  induction es with
  | nil =>
    intro s _ _ _
    exact ⟨s, rfl, rfl, fun _ _ => rfl, fun i b _ h => by simpa using h⟩
  | cons e es ih =>
    intro s hez hE h
    obtain ⟨s1, e1, f1, g1, r1⟩ := runExpr_due k h20 hk s hE (by rw [hez]; exact h e List.mem_cons_self) hroom
    obtain ⟨s2, e2, f2, g2, r2⟩ := ih s1 (by rw [f1]; exact hez) (by rw [f1]; exact hE) (fun e he => h e (List.mem_cons_of_mem _ he))
    refine ⟨s2, ?_, f1.trans f2, ?_, ?_⟩
    · rw [runExprs, M.bind_ok e1, e2]
    · intro i hi
      rw [g2 i (fun e he => hi e (List.mem_cons_of_mem _ he)), g1 i (hi e List.mem_cons_self)]
    · intro i b hb hx
      apply r2 i b hb
      by_cases hr : Reserved e i
      · exact .inl (r1 i b hr hb)
      · rw [g1 i hr]
        rcases hx with hx | ⟨e', he', hx⟩
        · exact .inl hx
        · rcases List.mem_cons.1 he' with rfl | he'
          · exact absurd hx hr
          · exact .inr ⟨e', he', hx⟩

theorem due_reserved {final : Str → Option Int} {ez : Bool} {D : Nat} {bs : List Nat} {e : PExpr} {i : Nat} (h : Due final ez D 0 bs e)
    (hr : Reserved e i) : i < bs.length := by
  obtain ⟨d, t, bl, v, x, pre, post, h1, h2, h3, h4, h5, h6, h7, h8, h9, h10⟩ := h
  have hlen := encode_length h5
  have hbl : bs.length = pre.length + x.length + post.length := by rw [h9]; simp; omega
  unfold Reserved at hr
  omega

/-! ### The whole run -/

theorem encode_bytes_placed {s : S} {bs : List Nat} (h0 : s.outPtr = bs.length) (h : ∀ (i : Nat) (b : Nat), bs[i]? = some b → s.mem i = b) : image s = bs := by
  unfold image
  rw [h0, Int.toNat_natCast]
  apply List.ext_getElem?
  intro i
  rw [List.getElem?_map]
  by_cases hi : i < bs.length
  · rw [List.getElem?_range hi, List.getElem?_eq_getElem hi]
    simp only [Option.map_some]
    exact congrArg some (h i _ (List.getElem?_eq_getElem hi))
  · rw [List.getElem?_eq_none (by simpa using hi), List.getElem?_eq_none (by omega)]
    rfl

/-- The state in which the output is written; `n` is the number of labels. -/
structure Assembled (ez80 stats : Bool) (n : Nat) (bs : List Nat) (mem : Nat → Nat) (s : S) : Prop where
  cpu : s.mode.ez80 = ez80
  stats : s.mode.stats = stats
  labels : s.labels.length = n
  counted : s.mode.stats = true → s.statsCode + s.statsData = bs.length
  code : 0 ≤ s.statsCode
  data : 0 ≤ s.statsData
  counting : s.mode.codeCounter = false
  image : image s = bs
  out : s.outPtr = bs.length
  beyond : ∀ i, bs.length ≤ i → s.mem i = mem i
  log : s.log = []
  status : s.exitCode = 0
  session : s.session = 0
  errors : s.errors = []

theorem assembly_runs {g : Setting} {defs : Defs} (hW : Whole g defs) (h20 : g.depth ≤ 20)
    {text : Str} {bs : List Nat} {pc' : Nat} {tx' : Texts} (h : Program g [] g.start 0 text defs bs pc' tx') (hlen : bs.length ≤ 8000000) :
    ∃ K, ∀ k, K ≤ k → ∀ (md5 : List Nat → List Nat) (cwd : Str) (given : Option Str) (output : Str) (s : S),
    s.caseSens = g.caseSens → s.argSets = [] → WellNamed s → s.fs = g.fs →
    (if isAbsPath s.currFile then dirOf s.currFile else cwd) :: s.includeDirs = g.dirs →
    (∀ w, g.key w ∉ predefinedNames → (defineOf s w).bind Define.meaning = g.meaning g.start w ∧ (g.meaning g.start w = none → defineOf s w = none)) →
    (∀ w m, g.meaning g.start w = some m → Name w ∧ g.key w ∉ predefinedNames ∧ g.key w ∈ g.defined) → (∀ w, g.key w ∈ g.params → defineOf s w = none) →
    (∀ w, g.key w ∈ predefinedNames → defineOf s w ≠ none) → s.labels = [] → s.errors = [] → s.session = 0 → s.log = [] → 0 ≤ s.ifLevel →
    (s.mode.normal = true ∧ s.mode.codeCounter = false ∧ s.mode.symtable = false ∧ s.mode.ez80 = g.ez80 ∧ s.mode.stats = g.stats) → s.opcodes = g.opcodes →
    (if s.mode.commandline then given else (s.fs s.currFile).bind fileText) = some text →
    ∃ s', Assembled g.ez80 s.mode.stats defs.length bs s.mem s' ∧ (∀ w, nameKey s' w = g.key w) ∧
      (∀ w, defineOf s' w ≠ none ↔ g.key w ∈ predefinedNames ∨ g.meaning tx' w ≠ none) ∧
      (∀ w, g.meaning tx' w ≠ none → g.key w ∉ predefinedNames) ∧ runAssembly (knot (k + 2)) md5 cwd given output s =
      (outputFile md5 output >>= fun _ => printStats >>= fun _ => M.get >>= fun s => pure s.exitCode) s' := by
  obtain ⟨K, hrun⟩ := program_runs hW h20 h
  refine ⟨max K (g.depth + 1), ?_⟩
  intro k hk md5 cwd given output s hcase hargs hnamed hfs hdirs htx hmine hfree hkept hlab herr hses hlog hif hmode hop htext
  obtain ⟨hn, hcc, hsym, hez, hst⟩ := hmode
  generalize hs1 : ({ resetGlobals s with
    outPtr := 0, tempPath := if isAbsPath s.currFile then dirOf s.currFile else cwd,
    includeDirs := (if isAbsPath s.currFile then dirOf s.currFile else cwd) :: s.includeDirs, session := s.session + 1, lineNum := 1,
    adl := if s.mode.ez80 then true else s.adl } : S) = s1
  have hA : At g [] g.start 0 s1 := by
    have harg : ∀ w, argumentOf s1 w = none := by
      intro w
      rw [← hs1]
      show s.argSets.findSome? _ = none
      rw [hargs]
      rfl
    have htx : ∀ w, g.key w ∉ predefinedNames → (symbolOf s1 w).bind Define.meaning = g.meaning g.start w ∧ (g.meaning g.start w = none → symbolOf s1 w = none) := by
      intro w hw
      unfold symbolOf
      rw [harg, ← hs1]
      exact htx w hw
    have harg : ∀ w, argumentOf s1 w ≠ none → g.key w ∈ g.params := fun w hw => absurd (harg w) hw
    rw [← hs1] at htx harg ⊢
    refine ⟨⟨hcase, harg, hnamed, ⟨?_, ?_⟩, hn, hez, hcc, hst, ?_, hop, rfl, hfs, hdirs⟩, rfl, by decide, ?_, htx, hmine, hfree, hkept, by show s.labels.length = 0; rw [hlab]; rfl⟩
    · show 1 ≤ s.session + 1
      omega
    · intro e he
      have he' : e ∈ s.errors := he
      rw [herr] at he'
      cases he'
    · intro hz
      show (if s.mode.ez80 = true then true else s.adl) = true
      rw [hez, hz]
      rfl
    · intro t
      show (s.labels.find? _).map _ = _
      rw [hlab]
      rfl
  have ho1 : s1.outPtr = 0 := by rw [← hs1]
  have hx1 : s1.exprs = [] := by rw [← hs1]; rfl
  obtain ⟨s2, e2, a2, ⟨f2, -⟩, g2⟩ := hrun k (by omega) _ (Answers.refl _) (by simp) (by simpa using hW.once) (text.length + 1) s1 (by omega) hA
    (by unfold HasRoom; rw [ho1]; omega) (by rw [← hs1]; exact hif)
  rw [List.append_nil] at a2
  have hses1 : s1.session = 1 := by rw [← hs1]; show s.session + 1 = 1; omega
  have herr1 : s1.errors = [] := by rw [← hs1]; exact herr
  obtain ⟨es, he1, he2⟩ := f2.errors
  rw [show (outer s1 s2).errors = s1.errors from rfl, herr1, List.append_nil] at he1
  rw [show (outer s1 s2).session = s1.session from rfl, hses1] at he2
  have hses2 : s2.session = 1 := by rw [f2.session]; exact hses1
  have hlog2 : s2.log = [] := by rw [f2.eq, ← hs1]; exact hlog
  have hmode2 : s2.mode = s.mode := by rw [f2.eq, ← hs1]; rfl
  -- the end of the first pass
  have p1 : passOne (knot (k + 2)) cwd text (resetGlobals s) = .ok () { s2 with errors := [], session := 0, includeDirs := [] } := by
    have q : passOne (knot (k + 2)) cwd text (resetGlobals s) =
        (firstPassLoop (runLine (knot (k + 2))) (text.length + 1) text >>= fun _ => replayFatal (s.session + 1) >>= fun _ =>
          endSession (s.session + 1) >>= fun _ => M.modify fun s => { s with includeDirs := [] }) s1 := by
      rw [← hs1]
      rfl
    rw [q, M.bind_ok e2, hses]
    have r1 : replayFatal (0 + 1) s2 = .ok () s2 := by
      show Res.ok () { s2 with log := s2.log ++ printedErrors true s2 } = _
      have : printedErrors true s2 = [] := by
        unfold printedErrors
        split
        · rfl
        · rw [List.map_eq_nil_iff, List.filter_eq_nil_iff]
          intro e he
          have := List.mem_reverse.1 (List.mem_filter.1 he).1
          rw [he1] at this
          simp [(he2 e this).2]
      rw [this, List.append_nil]
    rw [M.bind_ok r1]
    have hpre : (sessPrefix 1 s2.errors).any (fun e => isFatal e.code) = false := by
      rw [List.any_eq_false]
      intro e he
      have := (List.takeWhile_sublist _).subset he
      rw [he1] at this
      simp [(he2 e this).2]
    have r2 : endSession (0 + 1) s2 = .ok () { s2 with errors := [], session := 0 } := by
      unfold endSession
      simp only [Int.zero_add, hpre, Bool.and_false, Bool.false_eq_true, if_false]
      have : s2.errors.dropWhile (fun e => e.sess == 1) = [] := by
        rw [he1]
        have : ∀ l : List Err, (∀ e ∈ l, e.sess = 1) → l.dropWhile (fun e => e.sess == 1) = [] := by
          intro l hl
          induction l with
          | nil => rfl
          | cons x l ih =>
            rw [List.dropWhile_cons_of_pos (by simp [hl x]), ih (fun e he => hl e (by simp [he]))]
        exact this es fun e he => (he2 e he).1
      rw [this, hses2]
      rfl
    rw [M.bind_ok r2]
    rfl
  generalize hs3 : ({ s2 with errors := [], session := 0, includeDirs := [] } : S) = s3 at p1
  -- the second pass
  have hvis : visibleLabel { s3 with session := 1 } = g.label := by
    have : visibleLabel { s3 with session := 1 } = visibleLabel s2 := by rw [← hs3]; rfl
    rw [this, a2.visible hW (fun p hp => hp), hW.label]
  obtain ⟨es2, hq, hdue, hin⟩ := g2.inside
  rw [hx1, List.nil_append] at hq
  rw [ho1] at hdue hin
  have hez1 : s1.mode.ez80 = g.ez80 := by rw [← hs1]; exact hez
  rw [hez1] at hdue
  have hm3 : s3.mode = s.mode := by rw [← hs3]; exact hmode2
  obtain ⟨s4, e4, f4, o4, r4⟩ := runExprs_due (final := g.label) (bs := bs) (k + 2) h20 (by omega) hlen g.ez80 es2 { s3 with session := 1 }
    (by show s3.mode.ez80 = _; rw [hm3]; exact hez) hvis hdue
  have hout2 : s2.outputs = [] := by rw [f2.eq, ← hs1]; rfl
  have p2 : passTwo (knot (k + 2)) s3 = .ok () { s4 with outPtr := s2.outPtr, exprs := [], outputs := [], currFile := s2.currFile, session := 0 } := by
    have herr4 : s4.errors = [] := by rw [f4, ← hs3]
    have hses4 : s4.session = 1 := by rw [f4]
    have q : passTwo (knot (k + 2)) s3 = (runSecondPass (knot (k + 2)) >>= fun _ => replaySession 1 >>= fun _ => endSession 1)
        { s3 with session := 1 } := by
      rw [← hs3]
      rfl
    have t1 : runSecondPass (knot (k + 2)) { s3 with session := 1 } =
        .ok () { s4 with outPtr := s2.outPtr, exprs := [], outputs := [], currFile := s2.currFile } := by
      have hx3 : ({ s3 with session := 1 } : S).exprs = es2 := by rw [← hs3]; exact hq
      have ho3 : ({ s3 with session := 1 } : S).outputs = [] := by rw [← hs3]; exact hout2
      have hp3 : ({ s3 with session := 1 } : S).outPtr = s2.outPtr := by rw [← hs3]
      have hc3 : ({ s3 with session := 1 } : S).currFile = s2.currFile := by rw [← hs3]
      generalize ({ s3 with session := 1 } : S) = x at e4 hx3 ho3 hp3 hc3
      unfold runSecondPass
      rw [M.get_bind, hx3, M.bind_ok e4, M.modify_bind, ho3, hp3, hc3]
      rfl
    have t2 : ∀ x : S, x.errors = [] → replaySession 1 false x = .ok () x := by
      intro x hx
      show Res.ok () { x with log := x.log ++ printedErrors false x } = _
      have : printedErrors false x = [] := by unfold printedErrors; rw [hx]; split <;> rfl
      rw [this, List.append_nil]
    have t3 : ∀ x : S, x.errors = [] → x.session = 1 → endSession 1 x = .ok () { x with session := 0 } := by
      intro x hx hy
      unfold endSession sessPrefix
      rw [hy, hx]
      dsimp only [List.takeWhile, List.dropWhile, List.any]
      rw [← hx]
      rfl
    rw [q, M.bind_ok t1, M.bind_ok (t2 { s4 with outPtr := s2.outPtr, exprs := [], outputs := [], currFile := s2.currFile } herr4)]
    exact t3 { s4 with outPtr := s2.outPtr, exprs := [], outputs := [], currFile := s2.currFile } herr4 hses4
  have hout : s2.outPtr = bs.length := by rw [g2.out, ho1]; omega
  have hmem1 : s1.mem = s.mem := by rw [← hs1]; rfl
  have hmem3 : s3.mem = s2.mem := by rw [← hs3]
  refine ⟨{ s4 with outPtr := s2.outPtr, exprs := [], outputs := [], currFile := s2.currFile, session := 0 }, ?_, ?_, ?_, ?_, ?_⟩
  · constructor
    · show s4.mode.ez80 = g.ez80
      rw [f4]
      show s3.mode.ez80 = g.ez80
      rw [hm3, hez]
    · show s4.mode.stats = _
      rw [f4]
      show s3.mode.stats = _
      rw [hm3]
    · show s4.labels.length = _
      rw [f4, ← hs3]
      exact a2.count
    · intro hy
      show s4.statsCode + s4.statsData = _
      rw [f4, ← hs3]
      have hy' : s4.mode.stats = true := hy
      rw [show s4.mode = s.mode by rw [f4]; exact hm3] at hy'
      have h1 := f2.counted.total (by rw [← hs1]; exact hy')
      rw [show (outer s1 s2).statsCode = 0 by rw [← hs1]; rfl, show (outer s1 s2).statsData = 0 by rw [← hs1]; rfl,
        show (outer s1 s2).outPtr = 0 from ho1] at h1
      show s2.statsCode + s2.statsData = _
      omega
    · show 0 ≤ s4.statsCode
      rw [f4, ← hs3]
      have h1 := f2.counted.code
      rwa [show (outer s1 s2).statsCode = 0 by rw [← hs1]; rfl] at h1
    · show 0 ≤ s4.statsData
      rw [f4, ← hs3]
      have h1 := f2.counted.data
      rwa [show (outer s1 s2).statsData = 0 by rw [← hs1]; rfl] at h1
    · show s4.mode.codeCounter = false
      rw [f4]
      show s3.mode.codeCounter = false
      rw [hm3, hcc]
    · refine encode_bytes_placed (s := { s4 with outPtr := s2.outPtr, exprs := [], outputs := [], currFile := s2.currFile, session := 0 }) hout ?_
      intro i b hb
      apply r4 i b hb
      have := hin i b hb
      rw [Int.zero_add, Int.toNat_natCast] at this
      show s3.mem i = b ∨ _
      rw [hmem3]
      exact this
    · exact hout
    · intro i hi
      show s4.mem i = s.mem i
      rw [o4 i]
      · show s3.mem i = _
        rw [hmem3, g2.outside i (.inr (by rw [ho1]; omega)), hmem1]
      · intro e he hr
        exact absurd (due_reserved (hdue e he) hr) (by omega)
    · show s4.log = []
      rw [f4, ← hs3]
      exact hlog2
    · show s4.exitCode = 0
      rw [f4, ← hs3]
      show s2.exitCode = 0
      rw [f2.eq, ← hs1]
      rfl
    · rfl
    · show s4.errors = []
      rw [f4, ← hs3]
  · intro w
    show nameKey s4 w = _
    rw [f4, ← hs3]
    exact a2.base.nameKey w
  · intro w
    have hdef : ∀ w, defineOf { s4 with outPtr := s2.outPtr, exprs := [], outputs := [], currFile := s2.currFile, session := 0 } w = defineOf s2 w := by
      intro w
      show defineOf s4 w = _
      rw [f4, ← hs3]
      rfl
    rw [hdef]
    by_cases h1 : g.key w ∈ predefinedNames
    · exact ⟨fun _ => .inl h1, fun _ => a2.kept w h1⟩
    · by_cases h2 : g.key w ∈ g.params
      · have hnone : g.meaning tx' w = none := by
          have h0 : g.meaning g.start w = none := by
            have := (htx w h1).1
            rw [hfree w h2] at this
            exact this.symm
          obtain ⟨added, ha, hp⟩ := program_texts h
          rw [ha]
          clear ha
          induction added with
          | nil => exact h0
          | cons p added ih =>
            rw [List.cons_append, meaning_cons, if_neg]
            · exact ih fun q hq => hp q (List.mem_cons_of_mem _ hq)
            · intro e
              exact hp p List.mem_cons_self (e ▸ h2)
        rw [a2.free w h2, hnone]
        simp [h1]
      · obtain ⟨t1, t2⟩ := a2.texts w h1
        unfold symbolOf at t1 t2
        rw [a2.base.noArgument h2, Option.none_or] at t1 t2
        constructor
        · intro hd
          exact .inr fun hm => hd (t2 hm)
        · rintro (h | hm) hd
          · exact h1 h
          · rw [hd] at t1
            exact hm t1.symm
  · intro w hw
    obtain ⟨m, hm⟩ := Option.ne_none_iff_exists'.1 hw
    exact (a2.mine w m hm).2.1
  · unfold runAssembly
    have htext' : (if (resetGlobals s).mode.commandline then given else ((resetGlobals s).fs (resetGlobals s).currFile).bind fileText) = some text := htext
    rw [M.modify_bind, M.get_bind]
    dsimp only
    rw [htext']
    dsimp only
    rw [M.bind_ok p1, M.get_bind, hm3, hn, hsym]
    simp only [Bool.or_true, Bool.true_or, if_true]
    rw [M.bind_ok p2, M.when_false, M.when_true, M.pure_bind]

end Spasm
