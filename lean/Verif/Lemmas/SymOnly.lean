import Verif.Lemmas.Veil
import Verif.Lemmas.Static
import Verif.Lemmas.BalanceRun
import Verif.Lemmas.BalanceMain
import Verif.Props.Run

/-
Runs with and without the option -L: writing the symbol file makes no difference to what follows.
-/

namespace Spasm
open Props

/-! ### The output file depends on few things -/

/-- Two states in which the same output file is written, with the same messages. -/
structure AlikeEnd (s s' : S) : Prop where
  mem : s'.mem = s.mem
  outPtr : s'.outPtr = s.outPtr
  errors : s'.errors = s.errors
  session : s'.session = s.session
  lineNum : s'.lineNum = s.lineNum
  currFile : s'.currFile = s.currFile
  codeCounter : s'.mode.codeCounter = s.mode.codeCounter
  ez80 : s'.mode.ez80 = s.mode.ez80
  stats : s'.mode.stats = s.mode.stats
  code : s'.statsCode = s.statsCode
  min : s'.statsMin = s.statsMin
  max : s'.statsMax = s.statsMax
  data : s'.statsData = s.statsData
  labels : s'.labels = s.labels
  count : s'.defines.length = s.defines.length
  exit : s.exitCode ≤ s'.exitCode

/-- Two results with the same outcome and the same events. -/
inductive SameEnd {α : Type} (s s' : S) : Res α → Res α → Prop
  | ok (a : α) (t t' : S) (h : AlikeEnd t t') (ev : List Ev) (h1 : t.log = s.log ++ ev) (h2 : t'.log = s'.log ++ ev) : SameEnd s s' (.ok a t) (.ok a t')
  | stop (e : Stop) (t t' : S) : SameEnd s s' (.stop e t) (.stop e t')

/-- A piece of the program that does the same in both. -/
structure Twin {α : Type} (m : M α) : Prop where
  run : ∀ s s', AlikeEnd s s' → SameEnd s s' (m s) (m s')

namespace Twin
variable {α β : Type}

theorem pure (a : α) : Twin (Pure.pure a : M α) := ⟨fun s s' h => .ok a s s' h [] (by simp) (by simp)⟩

theorem bind {m : M α} {f : α → M β} (h : Twin m) (h' : ∀ a, Twin (f a)) : Twin (m >>= f) where
  run s s' hs := by
    rw [M.bind_apply, M.bind_apply]
    have := h.run s s' hs
    cases hm : m s with
    | stop e t => rw [hm] at this; cases hm' : m s' with
      | stop e' t' => rw [hm'] at this; cases this; exact .stop _ _ _
      | ok a' t' => rw [hm'] at this; cases this
    | ok a t => rw [hm] at this; cases hm' : m s' with
      | stop e' t' => rw [hm'] at this; cases this
      | ok a' t' =>
        rw [hm'] at this
        obtain ⟨_, _, _, ht, ev, h1, h2⟩ := this
        have g := (h' a).run t t' ht
        dsimp only
        cases hf : f a t with
        | stop e u => rw [hf] at g; cases hf' : f a t' with
          | stop e' u' => rw [hf'] at g; cases g; exact .stop _ _ _
          | ok a' u' => rw [hf'] at g; cases g
        | ok b u => rw [hf] at g; cases hf' : f a t' with
          | stop e' u' => rw [hf'] at g; cases g
          | ok a' u' =>
            rw [hf'] at g
            obtain ⟨_, _, _, hu, ev', g1, g2⟩ := g
            exact .ok _ _ _ hu (ev ++ ev') (by rw [g1, h1, List.append_assoc]) (by rw [g2, h2, List.append_assoc])

theorem get_bind {f : S → M β} (h : ∀ s, Twin (f s)) (hf : ∀ s s', AlikeEnd s s' → f s' = f s) : Twin (M.get >>= f) where
  run s s' hs := by
    rw [M.get_bind, M.get_bind, hf s s' hs]
    exact (h s).run s s' hs

theorem when {c : Bool} {m : M Unit} (h : Twin m) : Twin (M.when c m) := by
  cases c
  · exact Twin.pure ()
  · exact h

end Twin

theorem twin_pure {α : Type} (a : α) : Twin (pure a : M α) := Twin.pure a
theorem twin_pure' {α : Type} (a : α) : Twin (M.pure' a : M α) := Twin.pure a
theorem twin_halt {α : Type} (e : Stop) : Twin (M.halt e : M α) := ⟨fun s s' _ => .stop e s s'⟩
theorem twin_ub {α : Type} (u : UB) : Twin (M.ub u : M α) := twin_halt _

/-- Compositional proof of `Twin`. -/
macro "twins" : tactic => `(tactic|
  repeat' (first
    | with_reducible apply Twin.bind
    | with_reducible apply Twin.when
    | intro _
    | with_reducible assumption
    | with_reducible dispatch "twin_"
    | split
    | dsimp only))

theorem twin_setProblem (c : Nat) (w : Bool) : Twin (setProblem c w) where
  run s s' h := by
    unfold setProblem
    split
    · exact .ok _ _ _ h [] (by simp) (by simp)
    · refine .ok _ _ _ { h with errors := ?_ } [] (by simp) (by simp)
      dsimp only
      rw [h.errors, h.session, h.lineNum, h.currFile]

theorem twin_setError (c : Nat) : Twin (setError c) := twin_setProblem c false
theorem twin_setWarning (c : Nat) : Twin (setWarning c) := twin_setProblem c true

theorem twin_showWarning (m : Msg) : Twin (showWarning m) where
  run s s' h := by
    refine .ok _ _ _ { h with exit := ?_ } [.warning m] rfl rfl
    have := h.exit
    dsimp only
    split <;> split <;> omega

theorem twin_replayFatal : Twin (replayFatal 1) where
  run s s' h := by
    refine .ok _ _ _ { h with } (printedErrors true s) rfl ?_
    show s'.log ++ printedErrors true s' = _
    unfold printedErrors
    rw [h.codeCounter, h.errors]

theorem twin_endSession (n : Int) : Twin (endSession n) where
  run s s' h := by
    unfold endSession
    dsimp only
    rw [h.errors]
    split
    · exact .stop _ _ _
    · refine .ok _ _ _ { h with errors := ?_, session := ?_ } [] (by simp) (by simp)
      · rfl
      · dsimp only; rw [h.session]

theorem twin_bufAt (b : List Nat) (i : Nat) : Twin (bufAt b i) := by
  unfold bufAt; twins

theorem twin_findFieldLoop (h : Nat → Bool) (b : List Nat) (f p : Nat) : Twin (findFieldLoop h b f p) := by
  induction f generalizing p with
  | zero => unfold findFieldLoop; twins
  | succ f ih => unfold findFieldLoop; twins; all_goals exact ih _

theorem twin_findField (n : Nat) (b : List Nat) : Twin (findField n b) := by
  unfold findField; twins

theorem twin_findFieldFlex (n : Nat) (b : List Nat) : Twin (findFieldFlex n b) := by
  unfold findFieldFlex; twins

theorem twin_patchApp (b : List Nat) : Twin (patchApp b) := by
  unfold patchApp; twins

theorem twin_makeApp (md5 : List Nat → List Nat) (b : List Nat) : Twin (makeApp md5 b) := by
  unfold makeApp; twins

theorem twin_warnN (n : Nat) : Twin (warnN n) := by
  induction n with
  | zero => unfold warnN; twins
  | succ n ih => unfold warnN; twins

theorem twin_makePrgm (c : Calc) (p : Str) (o : Nat → Nat) (b : List Nat) : Twin (makePrgm c p o b) := by
  unfold makePrgm
  dsimp only
  refine .bind (twin_warnN _) fun _ => Twin.get_bind (fun s => ?_) fun s s' h => ?_
  · twins
  · simp only [h.ez80]

theorem twin_writeFile (md5 : List Nat → List Nat) (name : Str) : Twin (writeFile md5 name) := by
  have last : ∀ file : List Nat, Twin (M.modify fun s => { s with log := s.log ++ [Ev.wrote name file] }) := fun file =>
    ⟨fun s s' h => .ok _ _ _ { h with } [.wrote name file] rfl rfl⟩
  unfold writeFile
  refine .bind ⟨fun s s' h => .ok _ _ _ { h with lineNum := rfl, currFile := rfl } [] (by simp) (by simp)⟩ fun _ => ?_
  dsimp only
  refine .bind (.when (twin_setWarning _)) fun _ => ?_
  refine Twin.get_bind (fun s => ?_) fun s s' h => ?_
  · split
    · exact twin_ub _
    · split
      · exact twin_ub _
      · split
        all_goals exact .bind (by twins) last
  · simp only [h.outPtr, h.mem]

/-- The output file: the same in two states that differ in other things, and no other messages. -/
theorem outputFile_alikeEnd (md5 : List Nat → List Nat) (name : Str) {s s' : S}
    (h : AlikeEnd { s with lineNum := 0, currFile := [] } { s' with lineNum := 0, currFile := [] }) (hs : s.session = 0) :
    SameEnd s s' (outputFile md5 name s) (outputFile md5 name s') := by
  have hs' : s'.session = 0 := h.session.trans hs
  have key : ∀ t : S, t.session = 0 → outputFile md5 name t =
      (writeFile md5 name >>= fun _ => replayFatal 1 >>= fun _ => endSession 1) { t with lineNum := 0, currFile := [], session := 1 } := by
    intro t ht
    unfold outputFile
    rw [M.bind_ok (show startSession t = .ok (t.session + 1) { t with session := t.session + 1 } from rfl), ht]
    unfold writeFile
    rfl
  rw [key s hs, key s' hs']
  have := (Twin.bind (twin_writeFile md5 name) fun _ => .bind twin_replayFatal fun _ => twin_endSession 1).run
    { s with lineNum := 0, currFile := [], session := 1 } { s' with lineNum := 0, currFile := [], session := 1 } { h with session := rfl }
  cases hm : (writeFile md5 name >>= fun _ => replayFatal 1 >>= fun _ => endSession 1) { s with lineNum := 0, currFile := [], session := 1 } with
  | stop e t => rw [hm] at this; cases hm' : (writeFile md5 name >>= fun _ => replayFatal 1 >>= fun _ => endSession 1) { s' with lineNum := 0, currFile := [], session := 1 } with
    | stop e' t' => rw [hm'] at this; cases this; exact .stop _ _ _
    | ok a' t' => rw [hm'] at this; cases this
  | ok a t => rw [hm] at this; cases hm' : (writeFile md5 name >>= fun _ => replayFatal 1 >>= fun _ => endSession 1) { s' with lineNum := 0, currFile := [], session := 1 } with
    | stop e' t' => rw [hm'] at this; cases this
    | ok a' t' =>
      rw [hm'] at this
      obtain ⟨_, _, _, hu, ev', g1, g2⟩ := this
      exact .ok _ _ _ hu ev' g1 g2

/-! ### Sessions -/

section
variable {k : Rec} (hk : RecBal k)
include hk

theorem bal_symDefines (d : List Str) (a : List (Str × Int)) : Bal (symDefines k d a) := by
  fun_induction symDefines k d a <;> bal
  all_goals solve_by_elim

theorem bal_writeLabels (f : Str) : Bal (writeLabels k f) := by
  constructor
  intro s a s' h
  unfold writeLabels at h
  obtain ⟨n, s1, e1, h⟩ := M.bind_eq_ok.mp h
  obtain ⟨hn, h1⟩ := inside_start e1
  rw [M.get_bind] at h
  obtain ⟨l, s2, e2, h⟩ := M.bind_eq_ok.mp h
  have h2 := h1.bal ((bal_symDefines hk _ _).bal _ _ _ e2)
  obtain ⟨_, s3, e3, h⟩ := M.bind_eq_ok.mp h
  have h3 := h2.close hn e3
  cases h
  exact h3

end

/-- A pass that returns without a reused session did not start with one. -/
theorem pass_stale {m : M Unit} (hm : Bal m) {s t : S} {fo : Bool}
    (e : (do let n ← startSession; m; replaySession n fo; endSession n : M Unit) s = .ok () t) (hs : t.stale = false) :
    s.stale = false := by
  obtain ⟨n, s1, e1, e'⟩ := M.bind_eq_ok.mp e
  obtain ⟨_, s2, e2, e'⟩ := M.bind_eq_ok.mp e'
  obtain ⟨_, s3, e3, e4⟩ := M.bind_eq_ok.mp e'
  have q3 : s3.stale = s2.stale := (static_replaySession n fo).ok e3 |>.stale
  have q4 : t.stale = s3.stale := (static_endSession n).ok e4 |>.stale
  have hst : s2.stale = false := by rw [← q3, ← q4]; exact hs
  cases e1
  exact (hm.bal _ _ _ e2 hst).1

/-- A pass that returns leaves no session and no problem behind. -/
theorem pass_top {m : M Unit} (hm : Bal m) {s t : S} (h : Top s) {fo : Bool}
    (e : (do let n ← startSession; m; replaySession n fo; endSession n : M Unit) s = .ok () t) (hs : t.stale = false) : Top t := by
  have e' := e
  obtain ⟨n, s1, e1, e'⟩ := M.bind_eq_ok.mp e'
  obtain ⟨_, s2, e2, e'⟩ := M.bind_eq_ok.mp e'
  obtain ⟨_, s3, e3, e4⟩ := M.bind_eq_ok.mp e'
  have q3 : s3.stale = s2.stale := (static_replaySession n fo).ok e3 |>.stale
  have q4 : t.stale = s3.stale := (static_endSession n).ok e4 |>.stale
  have hst : s2.stale = false := by rw [← q3, ← q4]; exact hs
  cases e1
  have r := pass_result hm h e2 hst fo
  rw [e] at r
  split at r
  · cases r
  · cases r
    exact ⟨rfl, rfl⟩

theorem passOne_top (n : Nat) (cwd text : Str) {s t : S} (h : Top s) (e : passOne (knot n) cwd text s = .ok () t) (hs : t.stale = false) :
    Top t := by
  unfold passOne at e
  rw [M.modify_bind, M.modify_bind] at e
  have h3 : ∀ s : S, (do
      let sess ← startSession
      runFirstPass (knot n) text
      replayFatal sess
      endSession sess
      M.modify fun s => { s with includeDirs := [] } : M Unit) s =
    ((do let n' ← startSession; runFirstPass (knot n) text; replaySession n' true; endSession n' : M Unit) >>=
      fun _ => M.modify fun s => { s with includeDirs := [] }) s := by
    intro s
    simp only [M.bind_assoc]; rfl
  rw [h3] at e
  have key : ∀ s0 : S, Top s0 → ((do let n' ← startSession; runFirstPass (knot n) text; replaySession n' true; endSession n' : M Unit) >>=
      fun _ => M.modify fun s => { s with includeDirs := [] }) s0 = .ok () t → Top t := by
    intro s0 h e
    obtain ⟨_, u, e1, e2⟩ := M.bind_eq_ok.1 e
    cases e2
    have := pass_top (bal_runFirstPass (bal_knot n) text) h e1 hs
    exact ⟨this.errors, this.session⟩
  refine key _ ?_ e
  exact ⟨h.errors, h.session⟩

theorem still_labelFile {k : Rec} (hk : RecStill k) (f : Str) : Still (labelFile k f) := by
  have := still_writeLabels hk
  unfold labelFile; stills
  all_goals exact this _

/-- The symbol file is among what writing it adds. -/
theorem labelFile_log (n : Nat) (output : Str) {u w : S} (e : labelFile (knot n) output (veil true u) = .ok () w) :
    ∃ said lines shown, w.log = u.log ++ (said ++ [.wrote (changeExtension output (b! "lab")) lines] ++ shown) := by
  have grow : ∀ {α : Type} {m : M α}, Runs m → ∀ {s s' : S} {a : α}, m s = .ok a s' → ∃ evs, s'.log = s.log ++ evs := by
    intro α m h s s' a e
    have := (Keeps.ofRuns worse_invar h).keep s
    rw [e] at this
    obtain ⟨-, evs, h, -⟩ := this
    exact ⟨evs, h⟩
  unfold labelFile at e
  obtain ⟨n1, a1, e1, ea⟩ := M.bind_eq_ok.1 e
  obtain ⟨_, a2, e2, eb⟩ := M.bind_eq_ok.1 ea
  clear e ea
  unfold writeLabels at e2
  obtain ⟨n2, b1, f1, fa⟩ := M.bind_eq_ok.1 e2
  rw [M.get_bind] at fa
  obtain ⟨l, b2, f2, fb⟩ := M.bind_eq_ok.1 fa
  obtain ⟨_, b3, f3, fc⟩ := M.bind_eq_ok.1 fb
  clear e2 fa fb
  cases fc
  cases e1
  cases f1
  obtain ⟨v1, w1⟩ := grow (runs_symDefines (runs_knot n) _ _) f2
  obtain ⟨v2, w2⟩ := grow (runs_endSession _) f3
  obtain ⟨v3, w3⟩ := grow (.bind (runs_replayFatal _) fun _ => runs_endSession _) eb
  refine ⟨v1 ++ v2, l.flatMap symLine, v3, ?_⟩
  have w4 : b3.log = u.log ++ v1 ++ v2 := by rw [w2, w1]; rfl
  rw [w3]
  show b3.log ++ _ ++ _ = _
  rw [w4]
  simp

/-- What -L adds to the result of a run that came to its end. -/
def Besides (r r' : Res Nat) : Prop :=
  ∀ c' f', r' = .ok c' f' → f'.ranPreop = false → f'.stale = false → f'.mode.normal = true →
    ∃ c f, r = .ok c f ∧ c ≤ c' ∧ (f'.log = f.log ∨ ∃ before said output lines shown after,
      f.log = before ++ after ∧
      f'.log = before ++ (said ++ [.wrote (changeExtension output (b! "lab")) lines] ++ shown) ++ after)

theorem besides_runAssembly (n : Nat) (md5 : List Nat → List Nat) (cwd : Str) (text : Option Str) (output : Str) (s : S) (hs : Top s) :
    Besides (runAssembly (knot n) md5 cwd text output s) (runAssembly (knot n) md5 cwd text output (veil true s)) := by
  intro c' f' e hp hst hnorm
  by_cases hsym : s.mode.symtable = true
  · have same : veil true s = s := by
      have : ∀ m : Mode, m.symtable = true → veilMode true m = m := by
        rintro ⟨⟩ h
        dsimp only at h
        subst h
        rfl
      unfold veil
      rw [this _ hsym]
    rw [same] at e
    exact ⟨c', f', e, Nat.le_refl _, .inl rfl⟩
  rw [Bool.not_eq_true] at hsym
  have hk := blind_knot (z := true) n
  have hmode := keeps_runAssembly untouched_invar (fun _ _ _ _ => ⟨rfl, rfl, rfl, rfl⟩) n md5 cwd text output (veil true s)
  rw [e] at hmode
  have hmode : f'.mode = veilMode true s.mode := hmode.1
  have h6 : ∀ s : S, (if (resetGlobals s).mode.commandline then text else ((resetGlobals s).fs (resetGlobals s).currFile).bind fileText) =
      (if s.mode.commandline then text else (s.fs s.currFile).bind fileText) := fun _ => rfl
  have h7 : (if (veil true s).mode.commandline then text else ((veil true s).fs (veil true s).currFile).bind fileText) =
      (if s.mode.commandline then text else (s.fs s.currFile).bind fileText) := rfl
  unfold runAssembly at e ⊢
  rw [M.modify_bind, M.get_bind] at e ⊢
  dsimp only at e ⊢
  rw [h6, h7] at e
  rw [h6]
  cases hx : (if s.mode.commandline then text else (s.fs s.currFile).bind fileText) with
  | none =>
    rw [hx] at e
    cases e
    exact ⟨3, _, rfl, Nat.le_refl _, .inl rfl⟩
  | some x =>
    rw [hx] at e
    dsimp only at e ⊢
    have hr : resetGlobals (veil true s) = veil true (resetGlobals s) := rfl
    rw [hr, M.bind_apply, (blind_passOne hk cwd x).run] at e
    rw [M.bind_apply]
    cases e1 : passOne (knot n) cwd x (resetGlobals s) with
    | stop q t => rw [e1] at e; cases e
    | ok a t =>
      rw [e1] at e
      dsimp only [Res.onState] at e ⊢
      have m1 : t.mode = s.mode := by
        have := (keeps_passOne untouched_invar (fun _ _ _ _ => ⟨rfl, rfl, rfl, rfl⟩) n cwd x).keep (resetGlobals s)
        rw [e1] at this
        exact this.1
      have n1 : t.mode.normal = true := by rw [m1, ← hnorm, hmode]; rfl
      rw [M.get_bind] at e ⊢
      rw [show (veil true t).mode.symtable = true from rfl, show (veil true t).mode.normal = true from n1] at e
      rw [n1, show t.mode.symtable = false by rw [m1]; exact hsym]
      simp only [Bool.true_or, Bool.or_true, if_true, M.when_true, M.when_false, M.pure_bind] at e ⊢
      rw [M.bind_apply, (blind_passTwo hk).run] at e
      rw [M.bind_apply]
      cases e2 : passTwo (knot n) t with
      | stop q u => rw [e2] at e; cases e
      | ok b u =>
        rw [e2] at e
        dsimp only [Res.onState] at e ⊢
        obtain ⟨_, w, e3, e⟩ := M.bind_eq_ok.1 e
        obtain ⟨_, v, e4, e⟩ := M.bind_eq_ok.1 e
        obtain ⟨_, y, e5, e⟩ := M.bind_eq_ok.1 e
        rw [M.get_bind] at e
        cases e
        -- nothing stale anywhere
        have rr : SameNames w f' := ((static_outputFile md5 output).ok e4).trans (static_printStats.ok e5)
        have sw : w.stale = false := by rw [← rr.stale]; exact hst
        have pw : w.ranPreop = false := by rw [← rr.preop]; exact hp
        have su : u.stale = false := pass_stale (bal_writeLabels (bal_knot n) _) (s := veil true u) e3 sw
        have st : t.stale = false := pass_stale (bal_runSecondPass (bal_knot n)) e2 su
        have tt : Top t := passOne_top n cwd x (s := resetGlobals s) ⟨hs.errors, hs.session⟩ e1 st
        have tu : Top u := pass_top (bal_runSecondPass (bal_knot n)) tt e2 su
        have tw : Top w := pass_top (bal_writeLabels (bal_knot n) _) (s := veil true u) ⟨tu.errors, tu.session⟩ e3 sw
        have kk := ((still_labelFile (still_knot n) output).ok e3 pw).2
        -- what the symbol file adds
        obtain ⟨wx, extra, hextra, -⟩ : Worse (veil true u) w := by
          have := (Keeps.ofRuns worse_invar (runs_labelFile (runs_knot n) output)).keep (veil true u)
          rw [e3] at this
          exact this
        obtain ⟨said, lines, shown, hblock⟩ : ∃ said lines shown, w.log = u.log ++ (said ++ [.wrote (changeExtension output (b! "lab")) lines] ++ shown) :=
          labelFile_log n output e3
        have al : AlikeEnd { u with lineNum := 0, currFile := [] } { w with lineNum := 0, currFile := [] } := {
          mem := kk.mem
          outPtr := kk.outPtr
          errors := tw.errors.trans tu.errors.symm
          session := tw.session.trans tu.session.symm
          lineNum := rfl
          currFile := rfl
          codeCounter := (by have := congrArg Mode.codeCounter kk.mode; exact this)
          ez80 := (by have := congrArg Mode.ez80 kk.mode; exact this)
          stats := (by have := congrArg Mode.stats kk.mode; exact this)
          code := kk.statsCode
          min := kk.statsMin
          max := kk.statsMax
          data := kk.statsData
          labels := kk.labels
          count := kk.count
          exit := wx }
        have fin := outputFile_alikeEnd md5 output al tu.session
        rw [e4] at fin
        cases e6 : outputFile md5 output u with
        | stop q u' => rw [e6] at fin; cases fin
        | ok b u' =>
          rw [e6] at fin
          obtain ⟨_, _, _, al', ev, g1, g2⟩ := fin
          rw [M.bind_ok e6]
          have p5 : printStats v = .ok () f' := e5
          have hc : counterText v = counterText u' := by
            unfold counterText
            rw [al'.code, al'.min, al'.max]
          have hd : statsText v = statsText u' := by
            unfold statsText
            rw [al'.labels, al'.count, al'.code, al'.data]
          refine ⟨u'.exitCode, _, rfl, ?_, .inr ⟨u.log, said, output, lines, shown,
            ev ++ (if u'.mode.codeCounter then [.text (counterText u')] else []) ++ (if u'.mode.stats then [.text (statsText u')] else []), ?_, ?_⟩⟩
          · cases p5; exact al'.exit
          · show u'.log ++ _ ++ _ = _
            rw [g1]
            simp
          · have : f'.log = v.log ++ (if v.mode.codeCounter then [.text (counterText v)] else []) ++ (if v.mode.stats then [.text (statsText v)] else []) := by
              cases p5; rfl
            rw [this, g2, hblock, hc, hd, al'.codeCounter, al'.stats]
            simp

theorem besides_bind {α : Type} {m : M α} {f : α → M Nat} {s : S} (h : Blind true m)
    (h' : ∀ a t, m s = .ok a t → Besides (f a t) (f a (veil true t))) : Besides ((m >>= f) s) ((m >>= f) (veil true s)) := by
  rw [M.bind_apply, M.bind_apply, h.run]
  cases e : m s with
  | stop e t => intro c f h; cases h
  | ok a t => exact h' a t e

theorem besides_mainBody (n : Nat) (md5 : List Nat → List Nat) (cwd : Str) (args : List Str) (h : args ≠ []) (s : S) :
    Besides (mainBody (knot n) md5 cwd args s) (mainBody (knot n) md5 cwd (b! "-L" :: args) s) := by
  unfold mainBody
  have e1 : args.isEmpty = false := by cases args with
    | nil => exact absurd rfl h
    | cons _ _ => rfl
  rw [e1, show (b! "-L" :: args).isEmpty = false from rfl]
  simp only [Bool.false_eq_true, if_false]
  rw [M.modify_bind, M.modify_bind]
  rw [show optLoop (knot n) (b! "-L" :: args) {} = (do M.modify (veil true); optLoop (knot n) args {} : M Opts) from by
    conv_lhs => unfold optLoop
    rfl]
  rw [M.bind_assoc, M.modify_bind]
  refine besides_bind (blind_optLoop n args {}) fun o t _ => ?_
  rw [M.modify_bind, M.modify_bind]
  cases o.input with
  | none =>
    intro c f e _ _ _
    cases e
    exact ⟨3, _, rfl, Nat.le_refl _, .inl rfl⟩
  | some input =>
    dsimp only
    refine besides_bind (s := { t with caseSens := o.caseSens }) (blind_ensureStorage o) fun _ u _ => ?_
    refine besides_bind blind_clearSessions fun _ u e => ?_
    refine besides_runAssembly n md5 cwd o.contents _ u ?_
    cases e
    exact ⟨rfl, rfl⟩

end Spasm
