import Verif.Lemmas.Calls
import Verif.Lemmas.Deferred
import Verif.Lemmas.Named
import Verif.Props.Instr
import Verif.Props.Labels
import Verif.Spec.Program

/-
Running the statements of a program in the first pass.
-/

namespace Spasm
open Spec Props

/-- The statistics count the bytes that are written. -/
structure Counted (s s' : S) : Prop where
  total : s.mode.stats = true → s'.statsCode + s'.statsData - s'.outPtr = s.statsCode + s.statsData - s.outPtr
  code : s.statsCode ≤ s'.statsCode
  data : s.statsData ≤ s'.statsData

theorem Counted.same {s s' : S} (h1 : s'.statsCode = s.statsCode) (h2 : s'.statsData = s.statsData) (h3 : s'.outPtr = s.outPtr) : Counted s s' := by
  constructor <;> omega

theorem Counted.trans {s s1 s2 : S} (hm : s1.mode = s.mode) (h : Counted s s1) (h' : Counted s1 s2) : Counted s s2 :=
  ⟨fun hs => (h'.total (by rw [hm]; exact hs)).trans (h.total hs), Int.le_trans h.code h'.code, Int.le_trans h.data h'.data⟩

/-- What statements change: the output, the queue of deferred operands, the address, the labels, the line number, the
statistics, two variables of the expression parser, problems on record that are not fatal, and whether a name stood for several operands. -/
structure Frame1 (s s' : S) : Prop where
  eq : s' = { s with
    mem := s'.mem, outPtr := s'.outPtr, exprs := s'.exprs, parseDepth := s'.parseDepth, fwdRef := s'.fwdRef, pc := s'.pc, labels := s'.labels,
    lastLabel := s'.lastLabel, lineNum := s'.lineNum, statsCode := s'.statsCode, statsData := s'.statsData, statsMin := s'.statsMin, statsMax := s'.statsMax, errors := s'.errors, spread := s'.spread }
  counted : Counted s s'
  errors : ∃ es, s'.errors = es ++ s.errors ∧ ∀ e ∈ es, e.sess = s.session ∧ isFatal e.code = false

theorem Frame1.refl (s : S) : Frame1 s s := ⟨rfl, .same rfl rfl rfl, [], by simp, by simp⟩

theorem Frame1.session {s s' : S} (h : Frame1 s s') : s'.session = s.session := by rw [h.eq]

theorem Frame1.trans {s s1 s2 : S} (h : Frame1 s s1) (h' : Frame1 s1 s2) : Frame1 s s2 := by
  refine ⟨h'.eq.trans (congrArg (fun x : S =>
    { x with mem := s2.mem, outPtr := s2.outPtr, exprs := s2.exprs, parseDepth := s2.parseDepth, fwdRef := s2.fwdRef, pc := s2.pc, labels := s2.labels,
             lastLabel := s2.lastLabel, lineNum := s2.lineNum, statsCode := s2.statsCode, statsData := s2.statsData, statsMin := s2.statsMin, statsMax := s2.statsMax, errors := s2.errors, spread := s2.spread }) h.eq), h.counted.trans (by rw [h.eq]) h'.counted, ?_⟩
  obtain ⟨es, e1, e2⟩ := h.errors
  obtain ⟨es', e3, e4⟩ := h'.errors
  refine ⟨es' ++ es, by rw [e3, e1]; simp, ?_⟩
  intro e he
  rcases List.mem_append.1 he with he | he
  · rw [← h.session]; exact e4 e he
  · exact e2 e he

theorem Frame1.inSession {s s' : S} (h : Frame1 s s') (hs : InSession s) : InSession s' := by
  refine ⟨by rw [h.session]; exact hs.1, ?_⟩
  obtain ⟨es, e1, e2⟩ := h.errors
  intro e he
  rw [h.session]
  rw [e1] at he
  rcases List.mem_append.1 he with he | he
  · rw [(e2 e he).1]
  · exact hs.2 e he

/-- What a name stands for, if it is not a label. -/
def symbolOf (s : S) (w : Str) : Option Define := (argumentOf s w).or (defineOf s w)

/-- The parameters and the contents of a define. -/
def Define.meaning (d : Define) : Option (List Str × Str) := d.contents.map (fun t => (d.args, t))

theorem Define.meaning_text {d : Define} : Define.text d = (Define.meaning d).bind (fun m => if m.1 = [] then some m.2 else none) := by
  unfold Define.text Define.meaning
  cases d.contents with
  | none => split <;> rfl
  | some t => rfl

/-- The state is set up as the setting says. Only parameters of macros are arguments. -/
structure Base (g : Setting) (s : S) : Prop where
  caseSens : s.caseSens = g.caseSens
  args : ∀ w, argumentOf s w ≠ none → g.key w ∈ g.params
  named : WellNamed s
  session : InSession s
  normal : s.mode.normal = true
  ez80 : s.mode.ez80 = g.ez80
  counter : s.mode.codeCounter = false
  stats : s.mode.stats = g.stats
  adl : g.ez80 = true → s.adl = true
  opcodes : s.opcodes = g.opcodes
  going : s.errOccurred = false
  fs : s.fs = g.fs
  dirs : s.includeDirs = g.dirs

theorem Base.frame {g : Setting} {s s' : S} (h : Base g s) (hf : Frame1 s s') : Base g s' := by
  have hs := hf.inSession h.session
  rw [hf.eq] at hs ⊢
  exact ⟨h.caseSens, h.args, h.named, hs, h.normal, h.ez80, h.counter, h.stats, h.adl, h.opcodes, h.going, h.fs, h.dirs⟩

theorem Base.nameKey {g : Setting} {s : S} (h : Base g s) (w : Str) : nameKey s w = g.key w := by
  unfold Spec.nameKey Setting.key
  rw [h.caseSens]

/-- The definitions of the whole program. -/
structure Whole (g : Setting) (defs : Defs) : Prop where
  label : g.label = g.find defs
  once : (defs.map (fun p => g.key p.1)).Nodup
  names : ∀ p ∈ defs, Name p.1
  good : ∀ p ∈ defs, (g.key p.1 ∉ predefinedNames ∧ g.key p.1 ∉ g.defined) ∧ 0 ≤ p.2 ∧ p.2 ≤ 999999999
  table : ∀ o ∈ g.opcodes, ∀ c ∈ o.name, Alnum c
  params : ∀ w ∈ g.params, w ∈ g.defined ∧ w ∉ predefinedNames

/-- The state in front of a statement. -/
structure At (g : Setting) (known : Defs) (tx : Texts) (pc : Nat) (s : S) : Prop where
  base : Base g s
  addr : s.pc = pc
  small : pc < 16777216
  labels : ∀ t, labelOf s t = g.find known t
  texts : ∀ w, g.key w ∉ predefinedNames → (symbolOf s w).bind Define.meaning = g.meaning tx w ∧ (g.meaning tx w = none → symbolOf s w = none)
  mine : ∀ w m, g.meaning tx w = some m → Name w ∧ g.key w ∉ predefinedNames ∧ g.key w ∈ g.defined
  free : ∀ w, g.key w ∈ g.params → defineOf s w = none
  kept : ∀ w, g.key w ∈ predefinedNames → defineOf s w ≠ none
  count : s.labels.length = known.length

theorem Base.noArgument {g : Setting} {s : S} (h : Base g s) {w : Str} (hw : g.key w ∉ g.params) : argumentOf s w = none := by
  by_contra hx
  exact hw (h.args w hx)

theorem At.noDefine {g : Setting} {known : Defs} {tx : Texts} {pc : Nat} {s : S} (h : At g known tx pc s) {w : Str}
    (hw : g.key w ∉ predefinedNames) (ht : g.meaning tx w = none) : NoDefine s w := by
  have := (h.texts w hw).2 ht
  unfold symbolOf at this
  exact Option.or_eq_none_iff.1 this

theorem At.unlisted {g : Setting} {known : Defs} {tx : Texts} {pc : Nat} {s : S} (h : At g known tx pc s) {w : Str}
    (hw : g.key w ∉ predefinedNames ∧ g.key w ∉ g.defined) : NoDefine s w := by
  refine h.noDefine hw.1 ?_
  cases ht : g.meaning tx w with
  | none => rfl
  | some t => exact absurd (h.mine w t ht).2.2 hw.2

theorem At.move {g : Setting} {known : Defs} {tx : Texts} {pc pc' : Nat} {s s' : S} (h : At g known tx pc s) (hf : Frame1 s s') (hl : s'.labels = s.labels)
    (hp : s'.pc = pc') (hs : pc' < 16777216) : At g known tx pc' s' := by
  have hd : ∀ w, defineOf s' w = defineOf s w := by intro w; rw [hf.eq]; rfl
  refine ⟨h.base.frame hf, hp, hs, ?_, ?_, h.mine, fun w hw => by rw [hd]; exact h.free w hw, fun w hw => by rw [hd]; exact h.kept w hw, by rw [hl]; exact h.count⟩
  · intro t
    rw [← h.labels]
    unfold labelOf
    rw [hl, h.base.nameKey, (h.base.frame hf).nameKey]
  · intro w hw
    have : symbolOf s' w = symbolOf s w := by rw [hf.eq]; rfl
    rw [this]
    exact h.texts w hw

theorem find_some {g : Setting} {defs : Defs} {t : Str} {v : Int} (h : g.find defs t = some v) : ∃ p ∈ defs, g.key p.1 = g.key t ∧ p.2 = v := by
  unfold Setting.find at h
  obtain ⟨p, hp, hv⟩ := Option.map_eq_some_iff.1 h
  refine ⟨p, List.mem_of_find?_eq_some hp, ?_, hv⟩
  have := List.find?_some hp
  simpa using this

theorem find_mem {g : Setting} {defs : Defs} (hn : (defs.map (fun p => g.key p.1)).Nodup) {p : Str × Int} (hp : p ∈ defs) {t : Str}
    (ht : g.key p.1 = g.key t) : g.find defs t = some p.2 := by
  unfold Setting.find
  induction defs with
  | nil => cases hp
  | cons q defs ih =>
    simp only [List.map_cons, List.nodup_cons] at hn
    rw [List.find?_cons]
    rcases List.mem_cons.1 hp with rfl | hp
    · simp [ht]
    · have : decide (g.key q.1 = g.key t) = false := by
        simp only [decide_eq_false_iff_not]
        intro e
        exact hn.1 (by rw [e, ← ht]; exact List.mem_map_of_mem hp)
      rw [this]
      exact ih hn.2 hp

theorem find_key {g : Setting} (defs : Defs) {t t' : Str} (h : g.key t = g.key t') : g.find defs t = g.find defs t' := by
  unfold Setting.find
  rw [h]

theorem upperCase_nameChar {c c' : Nat} (h : upperCase c = upperCase c') (hc : NameChar c) : NameChar c' := by
  unfold upperCase at h
  unfold NameChar Alnum at *
  split at h <;> split at h <;> omega

theorem name_key {g : Setting} {t t' : Str} (h : g.key t = g.key t') (ht : Name t) : Name t' := by
  unfold Setting.key at h
  split at h
  · rw [← h]; exact ht
  · obtain ⟨⟨c, r, rfl, hc, hr⟩, hne⟩ := ht
    cases t' with
    | nil => cases h
    | cons c' r' =>
      simp only [List.map_cons, List.cons.injEq] at h
      refine ⟨⟨c', r', rfl, ?_, ?_⟩, ?_⟩
      · have := h.1
        unfold upperCase at this
        split at this <;> split at this <;> omega
      · intro x hx
        have : upperCase x ∈ r.map upperCase := by rw [h.2]; exact List.mem_map_of_mem hx
        obtain ⟨y, hy, e⟩ := List.mem_map.1 this
        exact upperCase_nameChar e (hr y hy)
      · rintro e
        simp only [List.cons.injEq] at e
        obtain ⟨rfl, rfl⟩ := e
        simp only [List.map_nil, List.map_eq_nil_iff] at h
        apply hne
        rw [h.2]
        have h1 := h.1
        unfold upperCase at h1
        rw [if_neg (show ¬ (97 ≤ 95 ∧ 95 ≤ 122) by omega)] at h1
        split at h1 <;> simp <;> omega

theorem predefined_name {g : Setting} {w : Str} (h : g.key w ∈ predefinedNames) : Name w := by
  have key : ∀ n ∈ predefinedNames, Name n := by
    intro n hn
    simp only [predefinedNames, List.mem_cons, List.not_mem_nil, or_false] at hn
    rcases hn with rfl | rfl | rfl | rfl | rfl | rfl | rfl | rfl | rfl | rfl <;>
      exact ⟨⟨_, _, rfl, by decide, by simp [NameChar, Alnum]⟩, by decide⟩
  have hk : g.key (g.key w) = g.key w := by
    unfold Setting.key
    split
    · rfl
    · rw [List.map_map]
      congr 1
      funext c
      show upperCase (upperCase c) = upperCase c
      unfold upperCase
      grind
  exact name_key hk (key _ h)

theorem At.env {g : Setting} {known defs : Defs} {tx : Texts} {pc : Nat} {s : S} (hW : Whole g defs) (hA : At g known tx pc s) (hsub : ∀ p ∈ known, p ∈ defs) :
    Env s g.label := by
  refine ⟨?_, ?_, ?_⟩
  · intro w v hv
    rw [hA.labels] at hv
    obtain ⟨p, hp, hk, rfl⟩ := find_some hv
    have hp' := hsub p hp
    exact ⟨name_key hk (hW.names p hp'), by rw [hW.label]; exact find_mem hW.once hp' hk, (hW.good p hp').2.1, (hW.good p hp').2.2⟩
  · intro w v hv
    rw [hW.label] at hv
    obtain ⟨p, hp, hk, rfl⟩ := find_some hv
    exact hA.unlisted (by rw [← hk]; exact (hW.good p hp).1)
  · intro w hw
    refine hA.noDefine (fun h => hw (predefined_name h)) ?_
    cases ht : g.meaning tx w with
    | none => rfl
    | some t => exact absurd (hA.mine w t ht).1 hw

theorem At.noClash {g : Setting} {known defs : Defs} {tx : Texts} {pc : Nat} {s : S} (hW : Whole g defs) (hA : At g known tx pc s) (hsub : ∀ p ∈ known, p ∈ defs)
    {t : Str} (h : Unambiguous g t) : NoClash s t := by
  intro a c w b e hc hw hn hb
  obtain ⟨h1, h2⟩ := h.2 a c w b e hc hw hn hb
  refine ⟨?_, ?_, ?_⟩
  · cases hl : labelOf s w with
    | none => rfl
    | some v => rw [((hA.env hW hsub).labels w v hl).2.1] at h1; cases h1
  · exact (hA.unlisted h2).1
  · exact (hA.unlisted h2).2

theorem At.visible {g : Setting} {known defs : Defs} {tx : Texts} {pc : Nat} {s : S} (hW : Whole g defs) (hA : At g known tx pc s)
    (hsub : ∀ p ∈ known, p ∈ defs) : visibleLabel s = g.find known := by
  funext t
  unfold visibleLabel
  by_cases ha : argumentOf s t = none
  · rw [if_pos ha, hA.labels]
  · rw [if_neg ha]
    symm
    cases hf : g.find known t with
    | none => rfl
    | some v =>
      obtain ⟨p, hp', hk, -⟩ := find_some hf
      exact absurd (hk ▸ (hW.params _ (hA.base.args t ha)).1) (hW.good p (hsub p hp')).1.2

theorem maintained_key {g : Setting} {s : S} (h : Base g s) {w : Str} (hw : g.key w ∉ predefinedNames) : ¬ Maintained s w := by
  unfold Maintained
  rw [h.nameKey]
  rintro (e | e) <;> exact hw (by rw [e]; decide)

theorem text_meaning {g : Setting} {tx : Texts} {w t : Str} (h : g.text tx w = some t) : g.meaning tx w = some ([], t) := by
  unfold Setting.text at h
  obtain ⟨⟨ps, t'⟩, h1, h2⟩ := Option.bind_eq_some_iff.1 h
  dsimp only at h2
  split at h2
  · rename_i h0
    cases h0
    cases h2
    exact h1
  · cases h2

theorem At.unlabelled {g : Setting} {known defs : Defs} {tx : Texts} {pc : Nat} {s : S} (hW : Whole g defs) (hA : At g known tx pc s)
    (hsub : ∀ p ∈ known, p ∈ defs) {w : Str} (h : g.key w ∈ g.defined) : labelOf s w = none := by
  rw [hA.labels]
  cases hf : g.find known w with
  | none => rfl
  | some v =>
    obtain ⟨p, hp', hk, -⟩ := find_some hf
    exact absurd (hk ▸ h) (hW.good p (hsub p hp')).1.2

/-- The texts of the setting are the ones expressions see. -/
theorem At.visibleText {g : Setting} {known defs : Defs} {tx : Texts} {pc : Nat} {s : S} (hW : Whole g defs) (hA : At g known tx pc s)
    (hsub : ∀ p ∈ known, p ∈ defs) {w t : Str} (h : g.text tx w = some t) : visibleText s w = some t := by
  have hm := text_meaning h
  obtain ⟨hn, hp, hd⟩ := hA.mine w _ hm
  have hl := hA.unlabelled hW hsub hd
  have hx : (symbolOf s w).bind Define.text = some t := by
    have h1 := (hA.texts w hp).1
    rw [hm] at h1
    obtain ⟨d, hd1, hd2⟩ := Option.bind_eq_some_iff.1 h1
    rw [hd1, Option.bind_some, Define.meaning_text, hd2]
    rfl
  unfold Spec.visibleText nameText
  rw [if_pos ⟨⟨hA.base.going, hA.base.session.2⟩, maintained_key hA.base hp⟩]
  unfold symbolOf at hx
  cases ha : argumentOf s w with
  | some d =>
    rw [ha] at hx
    exact hx
  | none =>
    rw [ha] at hx
    dsimp only
    rw [if_pos hl]
    exact hx

theorem At.denotes {g : Setting} {known defs : Defs} {tx : Texts} {pc : Nat} {s : S} (hW : Whole g defs) (hA : At g known tx pc s)
    (hsub : ∀ p ∈ known, p ∈ defs) {d : Nat} {t : Str} {v : Int} (h : Denotes (asInt32 pc) (g.find known) (g.text tx) d t v) :
    Denotes (toI32 s.pc) (visibleLabel s) (Spec.visibleText s) d t v := by
  rw [hA.addr, toI32_eq_asInt32, hA.visible hW hsub]
  exact Denotes_mono (fun _ _ h => h) (fun _ _ h => hA.visibleText hW hsub h) h

theorem asInt32_small {n : Nat} (h : n < 16777216) : asInt32 n = n := by
  unfold asInt32
  rw [if_pos (by omega)]
  omega

theorem toI32_small {n : Nat} (h : n < 16777216) : toI32 n = n := by
  rw [toI32_eq_asInt32, asInt32_small h]

/-! ### Data -/

theorem littleEndian_encode (ty : Es) (aty : ArgTy) (w : Int) (h : ty.data = some (aty, w)) (ez : Bool) (pc v : Int) :
    encode ez pc aty 0 0 v = some (littleEndian ty.width v) ∧ argWarnings ez aty v = truncation ez ty.width v ∧ aty ≠ .rst ∧ aty ≠ .addrOffset := by
  cases ty <;> simp only [Es.data, Option.some.injEq, Prod.mk.injEq, reduceCtorEq] at h <;> obtain ⟨rfl, rfl⟩ := h
  · exact ⟨rfl, rfl, by simp, by simp⟩
  · exact ⟨rfl, rfl, by simp, by simp⟩
  · refine ⟨?_, rfl, by simp, by simp⟩
    simp only [encode, littleEndian, Es.width, Option.some.injEq, List.cons.injEq, and_true, true_and]
    rw [Int.ediv_ediv_of_nonneg (by omega)]
    rfl

/-- A number operand that has a value in the end. -/
theorem emitNum_final {g : Setting} {known defs : Defs} {tx : Texts} {pc : Nat} (hW : Whole g defs) (hsub : ∀ p ∈ known, p ∈ defs) (ty : Es) (hty : 0 < ty.width)
    (s : S) (hA : At g known tx pc s) (k d : Nat) (t : Str) (v : Int) (h : Denotes (asInt32 pc) g.label (fun _ => none) d t v) (hd : d < g.depth)
    (h20 : g.depth ≤ 20) (hk : g.depth ≤ k) (hu : Unambiguous g t) (hw : truncation g.ez80 ty.width v = []) (hpc : pc + ty.width < 16777216)
    (room : HasRoom ty.width s) :
    ∃ s', emitNum (knot k) ty t (s.session + 1) { s with session := s.session + 1 } = .ok [] s' ∧ At g known tx (pc + ty.width) s' ∧ Frame1 s s' ∧
      Fills g.label g.depth (littleEndian ty.width v) s s' := by
  have hE := hA.env hW hsub
  have hs := hA.base.session
  have hnc := hA.noClash hW hsub hu
  have h32 : 0 ≤ s.pc ∧ s.pc < 4294967296 := by rw [hA.addr]; have := hA.small; omega
  have h' : Denotes (toI32 s.pc) g.label (fun _ => none) d t v := by rw [hA.addr, toI32_eq_asInt32]; exact h
  have hpc' : (s.pc + ty.width) % 4294967296 = (pc + ty.width : Nat) := by rw [hA.addr]; omega
  obtain ⟨aty, hdata⟩ : ∃ aty, ty.data = some (aty, (ty.width : Int)) := by cases ty <;> first | exact ⟨_, rfl⟩ | simp [Es.width] at hty
  have hshow : ty.shows = false := by cases ty <;> first | rfl | simp [Es.width] at hty
  have hfc : (ty != .fcreate) = true := by cases ty <;> first | rfl | simp [Es.width] at hty
  rcases wait_denotes s g.label hE.awaits h' with h1 | h1
  · have e := emitNum_denotes ty hty s k d t v hs (Denotes_mono (fun _ _ h => h) (fun _ _ h => by simp at h) h1) (by omega) (by omega) room
    rw [hA.base.ez80, hw] at e
    have hf : Frame1 s (afterData (littleEndian ty.width v) [] 0 false s) := ⟨by simp [afterData, emitted], by constructor <;> simp only [afterData, emitted] <;> omega, [], rfl, by simp⟩
    refine ⟨_, e, hA.move hf rfl ?_ hpc, hf, (Fills.emitted g.label g.depth _ s room.1).congr rfl rfl rfl rfl rfl rfl rfl⟩
    show (s.pc + ((littleEndian ty.width v).length : Int)) % 4294967296 = _
    rw [littleEndian_length, hpc']
  · obtain ⟨c, r, hct, hst⟩ := Denotes_start h'
    have h2 : WaitDenotes { s with session := s.session + 1 } d t := by
      have hE' : Env { s with session := s.session + 1 } g.label := ⟨hE.labels, hE.names, hE.others⟩
      rcases wait_denotes { s with session := s.session + 1 } g.label hE'.awaits h' with hx | hx
      · exfalso
        obtain ⟨q, e⟩ := parseNum_waits s d k t [] c r hct hst h1 (by omega) (by omega) (by intro c hc; simp at hc)
        have e' := C03_value s d k [] t [] [] v (Denotes_mono (fun _ _ h => h) (fun _ _ h => by simp at h) hx) (by omega) (by omega)
          (by intro c hc; simp at hc) (by intro c hc; simp at hc) (.inl rfl)
        simp only [List.nil_append, List.append_nil] at e' e
        rw [e] at e'
        cases e'
      · exact hx
    obtain ⟨q, e⟩ := parseNum_waits { s with session := s.session + 1 } d k t [] c r hct hst h2 (by omega) (by omega) (by intro c hc; simp at hc)
    rw [List.append_nil] at e
    generalize hs1 : waiting { s with session := s.session + 1 } q = s1 at e
    have hdrop : s.errors.dropWhile (fun e => e.sess == s.session + 1) = s.errors := by
      cases he : s.errors with
      | nil => rfl
      | cons a l =>
        have := hs.2 a (by simp [he])
        rw [List.dropWhile_cons, if_neg (by simp; omega)]
    have htake : s.errors.takeWhile (fun e => e.sess == s.session + 1) = [] := by
      cases he : s.errors with
      | nil => rfl
      | cons a l =>
        have := hs.2 a (by simp [he])
        rw [List.takeWhile_cons, if_neg (by simp; omega)]
    have hlow : lowerPrefix (s.session + 1) s.errors = s.errors := by
      cases he : s.errors with
      | nil => rfl
      | cons a l =>
        have := hs.2 a (by simp [he])
        unfold lowerPrefix
        rw [if_neg (by simp; omega)]
    have hf : sessionFatal (s.session + 1) s1 = false := by
      rw [← hs1]
      unfold sessionFatal sessPrefix waiting errorAt evalState
      simp [htake, isFatal, E.LABEL_NOT_FOUND]
    have hE1 : Env s1 g.label := by rw [← hs1]; exact ⟨hE.labels, hE.names, hE.others⟩
    have hI1 : InSession s1 := by
      rw [← hs1]
      refine ⟨by show 1 ≤ s.session + 1; have := hs.1; omega, ?_⟩
      intro e he
      rcases List.mem_cons.1 he with rfl | he
      · exact Int.le_refl _
      · have := hs.2 e he
        show e.sess ≤ s.session + 1
        omega
    obtain ⟨henc, hwarn, hr, ha⟩ := littleEndian_encode ty aty _ hdata s1.mode.ez80 s1.pc v
    have hm1 : s1.mode.ez80 = g.ez80 := by rw [← hs1]; exact hA.base.ez80
    have room1 : HasRoom (littleEndian ty.width v).length s1 := by rw [littleEndian_length, ← hs1]; exact room
    obtain ⟨s2, e2, f2, g2⟩ := operand_final s1 g.label k d g.depth t [] v aty 0 0 _ hI1 hE1 (by rw [← hs1]; exact h32) (by rw [← hs1]; exact h') hd h20 hk
      (by intro c hc; simp at hc) hu.1 (by rw [← hs1]; exact hnc) henc (by rw [hwarn, hm1]; exact hw) (fun h => absurd h ha) (fun h => absurd h hr) room1
    rw [List.append_nil] at e2
    unfold emitNum
    rw [M.bind_ok e, M.get_bind, hf, hfc]
    simp only [Bool.not_false, Bool.and_self, if_true, hdata]
    rw [M.bind_ok e2]
    have hn : s.session + 1 ≠ 1 := by have := hs.1; omega
    have he2 : s2.errors = ⟨0x106, s.session + 1, false, s.lineNum, s.currFile⟩ :: s.errors := by rw [f2, ← hs1]; rfl
    have hse2 : s2.session = s.session + 1 := by rw [f2, ← hs1]; rfl
    refine ⟨{ s2 with
        errors := ⟨0x106, s.session, false, s.lineNum, s.currFile⟩ :: s.errors, session := s.session, statsData := s2.statsData + ty.width,
        pc := (s.pc + ty.width) % 4294967296 }, ?_, ?_⟩
    · have hp2 : s2.pc = s.pc := by rw [f2, ← hs1]; rfl
      have c1 : countData ty.width s2 = .ok () { s2 with statsData := s2.statsData + ty.width, pc := (s.pc + ty.width) % 4294967296 } := by
        unfold countData advance
        rw [← hp2]
        rfl
      rw [M.bind_ok c1]
      have c2 : ∀ x : S, x.errors = ⟨0x106, s.session + 1, false, s.lineNum, s.currFile⟩ :: s.errors →
          replayFatal (s.session + 1) x = .ok () { x with errors := ⟨0x106, s.session, false, s.lineNum, s.currFile⟩ :: s.errors } := by
        intro x hx
        unfold replayFatal replaySession
        rw [if_neg hn]
        show Res.ok () { x with errors := lowerPrefix (s.session + 1) x.errors } = _
        rw [hx]
        unfold lowerPrefix
        simp only [beq_self_eq_true, if_true, hlow]
        congr 4
        omega
      have c3 : ∀ x : S, x.errors = ⟨0x106, s.session, false, s.lineNum, s.currFile⟩ :: s.errors → x.session = s.session + 1 →
          endSession (s.session + 1) x = .ok () { x with session := s.session } := by
        intro x hx hy
        unfold endSession
        simp only [hn, decide_false, Bool.false_and, Bool.false_eq_true, if_false]
        rw [hx, List.dropWhile_cons, if_neg (by simp), ← hx, hy]
        congr 2
        omega
      simp only [M.pure_bind]
      rw [M.bind_ok (c2 { s2 with statsData := s2.statsData + ty.width, pc := (s.pc + ty.width) % 4294967296 } he2)]
      rw [M.bind_ok (c3 { s2 with
        statsData := s2.statsData + ty.width, pc := (s.pc + ty.width) % 4294967296,
        errors := ⟨0x106, s.session, false, s.lineNum, s.currFile⟩ :: s.errors } rfl hse2)]
      rfl
    · have hf1 : Frame1 s { s2 with
          errors := ⟨0x106, s.session, false, s.lineNum, s.currFile⟩ :: s.errors, session := s.session, statsData := s2.statsData + ty.width,
          pc := (s.pc + ty.width) % 4294967296 } := by
        refine ⟨?_, ?_, [⟨0x106, s.session, false, s.lineNum, s.currFile⟩], rfl, by simp [isFatal, E.LABEL_NOT_FOUND]⟩
        rotate_left
        · have h1 := g2.out
          rw [littleEndian_length] at h1
          have h2 : s2.statsCode = s.statsCode := by rw [f2, ← hs1]; rfl
          have h3 : s2.statsData = s.statsData := by rw [f2, ← hs1]; rfl
          rw [← hs1] at h1
          change s2.outPtr = s.outPtr + _ at h1
          constructor
          · intro _; show s2.statsCode + (s2.statsData + ty.width) - s2.outPtr = _
            omega
          · show _ ≤ s2.statsCode
            omega
          · show _ ≤ s2.statsData + ty.width
            omega
        unfold Frame0 at f2
        rw [f2, ← hs1]
        rfl
      refine ⟨hA.move hf1 ?_ hpc' hpc, hf1, ?_⟩
      · show s2.labels = _
        rw [f2, ← hs1]
        rfl
      · exact g2.congr (by rw [← hs1]; rfl) (by rw [← hs1]; rfl) (by rw [← hs1]; rfl) (by rw [← hs1]; rfl) rfl rfl rfl

theorem Fills.afterData (final : Str → Option Int) (D : Nat) (bs : List Nat) (d : Int) (f : Bool) (s : S) (h0 : 0 ≤ s.outPtr) :
    Fills final D bs s (Spec.afterData bs [] d f s) :=
  (Fills.emitted final D bs s h0).congr rfl rfl rfl rfl rfl rfl rfl

theorem frame1_afterData (bs : List Nat) (d : Int) (f : Bool) (s : S) : Frame1 s (afterData bs [] d f s) :=
  ⟨by simp [afterData, Spec.emitted], by constructor <;> simp only [afterData, Spec.emitted] <;> omega, [], rfl, by simp⟩

theorem At.afterData {g : Setting} {known : Defs} {tx : Texts} {pc : Nat} {s : S} (hA : At g known tx pc s) (bs : List Nat) (d : Int) (f : Bool)
    (hpc : pc + bs.length < 16777216) : At g known tx (pc + bs.length) (afterData bs [] d f s) := by
  refine hA.move (frame1_afterData bs d f s) rfl ?_ hpc
  show (s.pc + (bs.length : Int)) % 4294967296 = _
  rw [hA.addr]
  omega

theorem hasRoom_left {a b : Nat} {s : S} (h : HasRoom (a + b) s) : HasRoom a s := ⟨h.1, by have := h.2; push_cast at this; omega⟩

/-- A number operand that has a value already. -/
theorem emitNum_now {g : Setting} {known defs : Defs} {tx : Texts} {pc : Nat} (hW : Whole g defs) (hsub : ∀ p ∈ known, p ∈ defs) (ty : Es) (hty : 0 < ty.width)
    (s : S) (hA : At g known tx pc s) (k d : Nat) (t : Str) (v : Int) (h : Denotes (asInt32 pc) (g.find known) (g.text tx) d t v) (hd : d < g.depth)
    (h20 : g.depth ≤ 20) (hk : g.depth ≤ k) (hw : truncation g.ez80 ty.width v = []) (hpc : pc + ty.width < 16777216)
    (room : HasRoom ty.width s) :
    ∃ s', emitNum (knot k) ty t (s.session + 1) { s with session := s.session + 1 } = .ok [] s' ∧ At g known tx (pc + ty.width) s' ∧ Frame1 s s' ∧
      Fills g.label g.depth (littleEndian ty.width v) s s' := by
  have e := emitNum_denotes ty hty s k d t v hA.base.session (hA.denotes hW hsub h) (by omega) (by omega) room
  rw [hA.base.ez80, hw] at e
  have hf : Frame1 s (afterData (littleEndian ty.width v) [] 0 false s) := ⟨by simp [afterData, emitted], by constructor <;> simp only [afterData, emitted] <;> omega, [], rfl, by simp⟩
  refine ⟨_, e, hA.move hf rfl ?_ hpc, hf, (Fills.emitted g.label g.depth _ s room.1).congr rfl rfl rfl rfl rfl rfl rfl⟩
  show (s.pc + ((littleEndian ty.width v).length : Int)) % 4294967296 = _
  rw [littleEndian_length, hA.addr]
  omega

/-- The scope of the setting is what expressions see. -/
theorem At.shows {g : Setting} {known defs : Defs} {tx : Texts} {pc : Nat} {s : S} (hW : Whole g defs) (hA : At g known tx pc s)
    (hsub : ∀ p ∈ known, p ∈ defs) : Shows s (g.scope known tx pc) where
  pc := by
    show asInt32 pc = _
    rw [hA.addr, toI32_eq_asInt32]
  key := (funext hA.base.nameKey).symm
  label := by
    intro w v h
    rw [hA.visible hW hsub]
    exact .inl h
  text := fun w x h => hA.visibleText hW hsub h
  func := by
    intro w ps x h
    change (if g.key w ∈ g.params then none else g.meaning tx w) = some (ps, x) at h
    split at h
    · cases h
    · rename_i hp
      obtain ⟨-, ho, hd⟩ := hA.mine w _ h
      have ha := hA.base.noArgument hp
      have h1 := (hA.texts w ho).1
      rw [h] at h1
      unfold symbolOf at h1
      rw [ha] at h1
      obtain ⟨df, d1, d2⟩ := Option.bind_eq_some_iff.1 h1
      obtain ⟨c, d3, d4⟩ := Option.map_eq_some_iff.1 d2
      cases d4
      exact ⟨df, d1, rfl, d3, ha, hA.unlabelled hW hsub hd, maintained_key hA.base ho⟩

/-- The value of an expression with calls of functions. -/
theorem At.calls {g : Setting} {known defs : Defs} {tx : Texts} {pc : Nat} {s : S} (hW : Whole g defs) (hA : At g known tx pc s)
    (hsub : ∀ p ∈ known, p ∈ defs) {d : Nat} {t : Str} {v : Int} (h : FunDenotes (g.scope known tx pc) d t v) (hd : d + 2 < g.depth) (h20 : g.depth ≤ 20)
    (k : Nat) (hk : g.depth ≤ k) (b b' rest : Str) (hb : Blanks b) (hb' : Blanks b') (hr : AtEnd rest) :
    ∃ p, parseNum (knot k) (b ++ t ++ b' ++ rest) s = .ok (some v) { s with parseDepth := p, fwdRef := false } := by
  obtain ⟨p, -, e⟩ := evalFun_value h (evalFun h) s (hA.shows hW hsub) ⟨hA.base.going, hA.base.session.2⟩ k b b' rest (by omega) (by omega) hb hb' hr
  exact ⟨p, e⟩

theorem At.session {g : Setting} {known : Defs} {tx : Texts} {pc : Nat} {s : S} (hA : At g known tx pc s) :
    At g known tx pc { s with session := s.session + 1 } := by
  have hB := hA.base
  exact ⟨⟨hB.caseSens, hB.args, hB.named, ⟨by show 1 ≤ s.session + 1; have := hB.session.1; omega, fun e he => by have := hB.session.2 e he; show e.sess ≤ s.session + 1; omega⟩,
    hB.normal, hB.ez80, hB.counter, hB.stats, hB.adl, hB.opcodes, hB.going, hB.fs, hB.dirs⟩, hA.addr, hA.small, hA.labels, hA.texts, hA.mine, hA.free, hA.kept, hA.count⟩

/-- The value of an expression of a program. -/
theorem At.reads {g : Setting} {known defs : Defs} {tx : Texts} {pc : Nat} {s : S} (hW : Whole g defs) (hA : At g known tx pc s)
    (hsub : ∀ p ∈ known, p ∈ defs) {t : Str} {v : Int} (h : Worth g known tx pc t v) (h20 : g.depth ≤ 20) (k : Nat) (hk : g.depth ≤ k) :
    ∃ p, Reading k t v s p := by
  cases h with
  | plain d h hd => exact ⟨0, .denotes (hA.denotes hW hsub h) (by omega) (by omega)⟩
  | calls d h hd =>
    have nb : Blanks [] := by intro c hc; simp at hc
    obtain ⟨p, e⟩ := hA.calls hW hsub h hd h20 k hk [] [] [] nb nb (.inl rfl)
    simp only [List.nil_append, List.append_nil] at e
    refine ⟨p, ?_, ?_, e⟩
    · obtain ⟨c, r, hc, hs⟩ := FunDenotes_start h
      exact ⟨c, r, hc, Starter.nonblank hs⟩
    · intro delims hdel b b' r s' hb hb' hl hr
      have hp := piece_fun h
      refine readExpr_balanced true delims ?_ ?_ b t b' r s' hb hb' ?_ (argument_fun h).trimmed (fun _ => hl) hr
      · rcases hdel with rfl | rfl <;> decide
      · rcases hdel with rfl | rfl
        · intro c hc; simp at hc
        · exact comma_delims.2
      · rcases hdel with rfl | rfl
        · exact hp.1 [] (fun c hc => by simp at hc) false
        · exact (argument_fun h).balanced

/-- A condition in front of a comment. -/
theorem At.worth {g : Setting} {known defs : Defs} {tx : Texts} {pc : Nat} {s : S} (hW : Whole g defs) (hA : At g known tx pc s)
    (hsub : ∀ p ∈ known, p ∈ defs) {t : Str} {v : Int} (h : Worth g known tx pc t v) (h20 : g.depth ≤ 20)
    (k : Nat) (hk : g.depth ≤ k) (b b' rest : Str) (hb : Blanks b) (hb' : Blanks b') (hr : AtEnd rest) :
    ∃ p, parseNum (knot k) (b ++ t ++ b' ++ rest) s = .ok (some v) { s with parseDepth := p, fwdRef := false } := by
  cases h with
  | plain d h hd => exact ⟨0, C03_value s d k b t b' rest v (hA.denotes hW hsub h) (by omega) (by omega) hb hb' hr⟩
  | calls d h hd => exact hA.calls hW hsub h hd h20 k hk b b' rest hb hb' hr

/-- A number operand with calls of functions. -/
theorem emitNum_calls {g : Setting} {known defs : Defs} {tx : Texts} {pc : Nat} (hW : Whole g defs) (hsub : ∀ p ∈ known, p ∈ defs) (ty : Es) (hty : 0 < ty.width)
    (s : S) (hA : At g known tx pc s) (k d : Nat) (t : Str) (v : Int) (h : FunDenotes (g.scope known tx pc) d t v) (hd : d + 2 < g.depth)
    (h20 : g.depth ≤ 20) (hk : g.depth ≤ k) (hw : truncation g.ez80 ty.width v = []) (hpc : pc + ty.width < 16777216)
    (room : HasRoom ty.width s) :
    ∃ s', emitNum (knot k) ty t (s.session + 1) { s with session := s.session + 1 } = .ok [] s' ∧ At g known tx (pc + ty.width) s' ∧ Frame1 s s' ∧
      Fills g.label g.depth (littleEndian ty.width v) s s' := by
  obtain ⟨p, hp⟩ := hA.session.calls hW hsub h hd h20 k hk [] [] [] (by intro c hc; cases hc) (by intro c hc; cases hc) (.inl rfl)
  simp only [List.nil_append, List.append_nil] at hp
  have e := emitNum_parsed ty hty s k t v p hA.base.session hp room
  rw [hA.base.ez80, hw] at e
  have hf : Frame1 s (afterData (littleEndian ty.width v) [] p false s) := ⟨by simp [afterData, emitted], by constructor <;> simp only [afterData, emitted] <;> omega, [], rfl, by simp⟩
  refine ⟨_, e, hA.move hf rfl ?_ hpc, hf, (Fills.emitted g.label g.depth _ s room.1).congr rfl rfl rfl rfl rfl rfl rfl⟩
  show (s.pc + ((littleEndian ty.width v).length : Int)) % 4294967296 = _
  rw [littleEndian_length, hA.addr]
  omega

/-- The operands of a data directive. -/
theorem emitLoop_final {g : Setting} {known defs : Defs} {tx : Texts} (hW : Whole g defs) (hsub : ∀ p ∈ known, p ∈ defs) (ty : Es) (hty : 0 < ty.width)
    (k : Nat) (h20 : g.depth ≤ 20) (hk : g.depth ≤ k) (hk0 : 0 < k) {pc : Nat} {args : List Str} {bs : List Nat}
    (h : Items g known tx ty.width pc args bs) :
    ∀ (t r : Str) (s : S) (f : Nat) (e : Bool) (se : Option Int), Joined args t → EndsList r → args.length < f →
      At g known tx pc s → pc + bs.length < 16777216 → HasRoom bs.length s →
      ∃ s', emitLoop (knot k) ty f e se [] (t ++ r) s = .ok (r, []) s' ∧ At g known tx (pc + bs.length) s' ∧ Frame1 s s' ∧ Fills g.label g.depth bs s s' := by
  have number : ∀ (pc w : Nat) (t' : Str) (b1 : List Nat) (args : List Str) (bs : List Nat), b1.length = w → (∃ c r, t' = c :: r ∧ Starter' c) →
      (∀ s, t'.length ≤ 254 → At g known tx pc s → pc + w < 16777216 → HasRoom w s →
        ∃ s', emitNum (knot k) ty t' (s.session + 1) { s with session := s.session + 1 } = .ok [] s' ∧ At g known tx (pc + w) s' ∧ Frame1 s s' ∧
          Fills g.label g.depth b1 s s') → Items g known tx ty.width (pc + w) args bs →
      (∀ (t r : Str) (s : S) (f : Nat) (e : Bool) (se : Option Int), Joined args t → EndsList r → args.length < f →
        At g known tx (pc + w) s → pc + w + bs.length < 16777216 → HasRoom bs.length s →
        ∃ s', emitLoop (knot k) ty f e se [] (t ++ r) s = .ok (r, []) s' ∧ At g known tx (pc + w + bs.length) s' ∧ Frame1 s s' ∧
          Fills g.label g.depth bs s s') →
      ∀ (t r : Str) (s : S) (f : Nat) (e : Bool) (se : Option Int), Joined (t' :: args) t → EndsList r → (t' :: args).length < f →
        At g known tx pc s → pc + (b1 ++ bs).length < 16777216 → HasRoom (b1 ++ bs).length s →
        ∃ s', emitLoop (knot k) ty f e se [] (t ++ r) s = .ok (r, []) s' ∧ At g known tx (pc + (b1 ++ bs).length) s' ∧ Frame1 s s' ∧
          Fills g.label g.depth (b1 ++ bs) s s' := by
    intro pc w t' b1 args bs hlen hstart hnum hdat ih t r s f e se hj hr hf hA hpc room
    rw [List.length_append, hlen] at hpc room
    obtain ⟨f, rfl⟩ : ∃ m, f = m + 1 := ⟨f - 1, by omega⟩
    have h34 : (Spasm.hd t' == 34) = false := by
      obtain ⟨c, r, rfl, hs⟩ := hstart
      unfold Starter' Starter Alnum at hs
      simp only [Spasm.hd, beq_eq_false_iff_ne]
      omega
    have hle : t'.length ≤ 254 := by
      cases hj <;> rename_i hh _ <;> simp only [List.length_append] at * <;> omega
    obtain ⟨s1, e1, a1, f1, g1⟩ := hnum s hle hA (by omega) (hasRoom_left room)
    have step : ∀ (e' : Bool) (u r' : Str), extractArg e u s = .ok (some t', e', r') s →
        emitLoop (knot k) ty (f + 1) e se [] u s = emitLoop (knot k) ty f e' (some (s.session + 1)) [] r' s1 := by
      intro e' u r' hx
      rw [emitLoop, M.bind_ok hx]
      dsimp only
      rw [h34, if_neg (by decide)]
      have hst : startSession s = .ok (s.session + 1) { s with session := s.session + 1 } := rfl
      rw [M.bind_ok hst, M.bind_ok e1]
      simp
    cases hj with
    | one b a b' hb hb' ha hle =>
      cases hdat
      refine ⟨s1, ?_, by simpa [hlen] using a1, f1, by simpa using g1⟩
      rw [step false _ r (C42_last_argument b t' b' r e s hb hb' ha hle hr)]
      obtain ⟨f, rfl⟩ : ∃ m, f = m + 1 := ⟨f - 1, by simp at hf; omega⟩
      rw [emitLoop_end ty _ f _ r hr]
    | more b a b' as t2 hb hb' ha hle hj =>
      have room1 : HasRoom bs.length s1 := by
        have := g1.room (n := bs.length) (by rw [hlen]; exact room)
        exact this
      obtain ⟨s2, e2, a2, f2, g2⟩ := ih t2 r s1 f true (some (s.session + 1)) hj hr (by simp at hf; omega) a1 (by omega) room1
      refine ⟨s2, ?_, by rw [List.length_append, hlen, ← Nat.add_assoc]; exact a2, f1.trans f2, g1.append room.1 (by rw [f1.eq]) g2⟩
      rw [show b ++ t' ++ b' ++ [44] ++ t2 ++ r = b ++ t' ++ b' ++ [44] ++ (t2 ++ r) by simp,
        step true _ _ (C42_argument b t' b' (t2 ++ r) e s hb hb' ha hle), e2]
  induction h with
  | nil pc => intro t r s f e se hj; cases hj
  | now pc t' v args bs hden hw hdat ih =>
    cases hden with
    | plain d hden hdep => exact number pc _ t' _ args bs (littleEndian_length ty.width v) (Denotes_start hden) (fun s _ hA hpc room => emitNum_now hW hsub ty hty s hA k d t' v hden hdep h20 hk hw hpc room) hdat ih
    | calls d hden hdep => exact number pc _ t' _ args bs (littleEndian_length ty.width v) (FunDenotes_start hden) (fun s _ hA hpc room => emitNum_calls hW hsub ty hty s hA k d t' v hden hdep h20 hk hw hpc room) hdat ih
  | later pc d t' v args bs hden hu hdep hw hdat ih =>
    exact number pc _ t' _ args bs (littleEndian_length ty.width v) (Denotes_start hden) (fun s _ hA hpc room => emitNum_final hW hsub ty hty s hA k d t' v hden hdep h20 hk hu hw hpc room) hdat ih
  | named pc nest depth t' bs1 args bs hname hlist hdep hdat ih =>
    refine number pc _ t' bs1 args bs rfl (by obtain ⟨⟨c, r, hc, h1, -⟩, -⟩ := hname; exact ⟨c, r, hc, .inl (by unfold Starter Alnum; omega)⟩) ?_ hdat ih
    intro s hle hA hpc room
    obtain ⟨k, rfl⟩ : ∃ m, k = m + 1 := ⟨k - 1, by omega⟩
    generalize hws : ([] : List Nat) = ws at hlist
    generalize hone : [t'] = one at hlist
    cases hlist with
    | nil => simp at hone
    | number nest pc d t2 v as bs2 ws2 hden hd hrest =>
      obtain ⟨rfl, rfl⟩ := List.cons.inj hone
      cases hrest
      simp only [List.append_nil, littleEndian_length] at hpc room hws ⊢
      rw [← hws]
      exact emitNum_now hW hsub ty hty s hA (k + 1) d t' v hden (by omega) h20 hk hws.symm hpc room
    | string nest pc body cs as bs2 ws2 hch hrest =>
      obtain ⟨rfl, -⟩ := List.cons.inj hone
      obtain ⟨⟨c, r, hc, h1, -⟩, -⟩ := hname
      simp only [List.cons_append, List.cons.injEq] at hc
      omega
    | named nest pc nm written inner b2 ws2 as bs2 ws3 hname htext hjoin hnum hin hrest =>
      obtain ⟨rfl, rfl⟩ := List.cons.inj hone
      cases hrest
      simp only [List.append_nil] at hpc room ⊢
      have hs1 : Ready b2.length s :=
        ⟨hA.base.session, room, .inl hA.base.normal, by rw [hA.addr]; have := hA.small; omega⟩
      obtain ⟨d, fw, sp, e1⟩ := emitNum_listed ty hty depth hname htext hjoin hnum hin (emitLoop_listed ty hty depth hin) s k hs1 hA.base.ez80
        (hA.visible hW hsub) (fun x e h => hA.visibleText hW hsub h) (by rw [hA.addr, toI32_eq_asInt32]) (by omega) (by omega) hle
      have hf1 : Frame1 s (afterListed b2 [] d fw sp s) :=
        ⟨by simp [afterListed, Spec.afterData, Spec.emitted], by constructor <;> simp only [afterListed, Spec.afterData, Spec.emitted] <;> omega, [], rfl, by simp⟩
      refine ⟨_, e1, hA.move hf1 rfl ?_ hpc, hf1, (Fills.afterData g.label g.depth b2 d fw s room.1).congr rfl rfl rfl rfl rfl rfl rfl⟩
      show (s.pc + (b2.length : Int)) % 4294967296 = _
      rw [hA.addr]
      omega
  | string pc body cs args bs hch hdat ih =>
    intro t r s f e se hj hr hf hA hpc room
    rw [List.length_append] at hpc room
    have hs1 : Ready cs.length s :=
      ⟨hA.base.session, (hasRoom_left room), .inl hA.base.normal, by rw [hA.addr]; have := hA.small; omega⟩
    obtain ⟨f, rfl⟩ : ∃ m, f = m + 1 := ⟨f - 1, by omega⟩
    obtain ⟨k, rfl⟩ : ∃ m, k = m + 1 := ⟨k - 1, by omega⟩
    cases hj with
    | one b a b' hb hb' ha hle =>
      cases hdat
      obtain ⟨d, fw, e1⟩ := emitLoop_text ty hty k f e false se _ r body cs s (C42_last_argument b _ b' r e s hb hb' ha hle hr) hs1 hch
      refine ⟨_, ?_, by simpa using hA.afterData cs d fw (by omega), frame1_afterData cs d fw s, by simpa using Fills.afterData _ _ cs d fw s room.1⟩
      rw [e1]
      obtain ⟨f, rfl⟩ : ∃ m, f = m + 1 := ⟨f - 1, by simp at hf; omega⟩
      rw [emitLoop_end ty _ f _ r hr]
    | more b a b' as t2 hb hb' ha hle hj =>
      obtain ⟨d, fw, e1⟩ := emitLoop_text ty hty k f e true se _ (t2 ++ r) body cs s (C42_argument b _ b' (t2 ++ r) e s hb hb' ha hle) hs1 hch
      have g1 := Fills.afterData g.label g.depth cs d fw s room.1
      obtain ⟨s2, e2, a2, f2, g2⟩ := ih t2 r (afterData cs [] d fw s) f true se hj hr (by simp at hf; omega)
        (hA.afterData cs d fw (by omega)) (by omega) (g1.room room)
      refine ⟨s2, ?_, by rw [List.length_append, ← Nat.add_assoc]; exact a2, (frame1_afterData cs d fw s).trans f2, g1.append room.1 (show (afterData cs [] d fw s).mode = s.mode from rfl) g2⟩
      rw [show ∀ x : Str, b ++ x ++ b' ++ [44] ++ t2 ++ r = b ++ x ++ b' ++ [44] ++ (t2 ++ r) by simp, e1, e2]

theorem emitString_final {g : Setting} {known defs : Defs} {tx : Texts} (hW : Whole g defs) (hsub : ∀ p ∈ known, p ∈ defs) (ty : Es) (hty : 0 < ty.width)
    (k : Nat) (h20 : g.depth ≤ 20) (hk : g.depth ≤ k) (hk0 : 0 < k) {pc : Nat} {args : List Str} {bs : List Nat}
    (h : Items g known tx ty.width pc args bs) (t r : Str) (s : S) (hj : Joined args t) (hr : EndsList r)
    (hA : At g known tx pc s) (hpc : pc + bs.length < 16777216) (room : HasRoom bs.length s) :
    ∃ s', emitStringBody (knot k) (t ++ r) ty s = .ok (r, []) s' ∧ At g known tx (pc + bs.length) s' ∧ Frame1 s s' ∧ Fills g.label g.depth bs s s' := by
  have hB := hA.base
  obtain ⟨s1, e, a1, f1, g1⟩ := emitLoop_final hW hsub ty hty k h20 hk hk0 h t r { s with emitLevel := s.emitLevel + 1 }
    ((t ++ r).length + 2) true none hj hr (by have := joined_length hj; simp; omega)
    ⟨⟨hB.caseSens, hB.args, hB.named, hB.session, hB.normal, hB.ez80, hB.counter, hB.stats, hB.adl, hB.opcodes, hB.going, hB.fs, hB.dirs⟩, hA.addr, hA.small, hA.labels, hA.texts, hA.mine, hA.free, hA.kept, hA.count⟩ hpc room
  have hlev : s1.emitLevel - 1 = s.emitLevel := by rw [f1.eq]; show s.emitLevel + 1 - 1 = _; omega
  have hB1 := a1.base
  refine ⟨{ s1 with emitLevel := s1.emitLevel - 1 }, ?_,
    ⟨⟨hB1.caseSens, hB1.args, hB1.named, hB1.session, hB1.normal, hB1.ez80, hB1.counter, hB1.stats, hB1.adl, hB1.opcodes, hB1.going, hB1.fs, hB1.dirs⟩, a1.addr, a1.small, a1.labels, a1.texts, a1.mine, a1.free, a1.kept, a1.count⟩, ?_,
    g1.congr rfl rfl rfl rfl rfl rfl rfl⟩
  · unfold emitStringBody
    rw [M.modify_bind, M.bind_ok e]
    dsimp only
    rw [M.get_bind, M.modify_bind]
    have hty' : (ty == .echoOut) = false := by cases ty <;> first | rfl | simp [Es.width] at hty
    rw [hty', Bool.and_false, if_neg (by decide)]
    rfl
  · refine ⟨?_, ⟨f1.counted.total, f1.counted.code, f1.counted.data⟩, f1.errors⟩
    rw [hlev]
    exact congrArg (fun x : S => { x with emitLevel := s.emitLevel }) f1.eq

/-! ### Statements -/

/-- The result of running a text. -/
def RunsTo (g : Setting) (known : Defs) (tx : Texts) (pc : Nat) (bs : List Nat) {α : Type} (m : S → Res α) (a : α) (s : S) : Prop :=
  ∃ s', m s = .ok a s' ∧ At g known tx pc s' ∧ Frame1 s s' ∧ Fills g.label g.depth bs s s'

theorem lineSec_blanks (k : Nat) (b rest : Str) (hb : Blanks b) (hr : AtEnd rest) (s : S) :
    (knot (k + 1)).lineSec (b ++ rest) s = .ok (some rest) s := by
  show lineSecLoop (knot k) ((b ++ rest).length + 1) (b ++ rest) s = _
  have h0 : ∀ f, lineSecLoop (knot k) (f + 1) rest s = .ok (some rest) s := by
    intro f
    rw [lineSecLoop]
    dsimp only
    rw [if_pos hr.isEnd]
    rfl
  cases b with
  | nil => exact h0 _
  | cons c b =>
    have hc := hb c (by simp)
    have hs : skipWs (c :: b ++ rest) = rest := by rw [skipWs_blanks _ _ hb, atEnd_skip hr]
    have h1 : isEnd (c :: b ++ rest) = false := by rcases hc with rfl | rfl | rfl | rfl <;> rfl
    have h2 : (isAlpha (hd (c :: b ++ rest)) || hd (c :: b ++ rest) == 95) = false := by rcases hc with rfl | rfl | rfl | rfl <;> rfl
    have h3 : isSpace (hd (c :: b ++ rest)) = true := by rcases hc with rfl | rfl | rfl | rfl <;> rfl
    have h4 : (isAlpha (hd rest) || hd rest == 95) = false := by
      rcases hr with rfl | ⟨c, t, rfl, h⟩
      · rfl
      · rcases h with rfl | rfl | rfl | rfl <;> rfl
    rw [lineSecLoop]
    dsimp only
    rw [h1, h2, h3, hs, h4]
    simp only [Bool.false_eq_true, if_false, if_true]
    exact h0 _

theorem Values_mono {pc pc' : Int} {label label' : Str → Option Int} {text text' : Str → Option Str} {D : Nat}
    (h : ∀ {d : Nat} {t : Str} {v : Int}, Denotes pc label text d t v → Denotes pc' label' text' d t v) {pat : List Nat} {ops : List Str} {vs : List Int}
    (hv : Values pc label text D pat ops vs) : Values pc' label' text' D pat ops vs := by
  induction hv with
  | nil => exact .nil
  | literal c pat ops vs h1 _ ih => exact .literal c pat ops vs h1 ih
  | operand c o d v pat ops vs h1 h2 h3 h4 _ ih => exact .operand c o d v pat ops vs h1 h2 (h h3) h4 ih
  | displacement o d v pat ops vs h1 h2 h3 _ ih => exact .displacement o d v pat ops vs h1 (h h2) h3 ih

theorem FunOperand_end {E : Scope} {d : Nat} {t : Str} {v : Int} (h : FunOperand E d t v) : ∃ p c, t = p ++ [c] ∧ Ender c := by
  cases h with
  | atom E d t v h => exact Atom_end h
  | paren E d b t b' v => exact ⟨_, 41, rfl, .inr (.inr (.inl rfl))⟩
  | named E d t b e b' v hn => exact Name_end hn
  | call => exact ⟨_, 41, rfl, .inr (.inr (.inl rfl))⟩

theorem FunPrefixed_end {E : Scope} {d : Nat} {t : Str} {v : Int} (h : FunPrefixed E d t v) : ∃ p c, t = p ++ [c] ∧ Ender c := by
  cases h with
  | plain E d t v h => exact FunOperand_end h
  | plus E d b t v _ h => obtain ⟨p, c, rfl, hc⟩ := FunOperand_end h; exact ⟨_, c, (List.append_assoc _ _ _).symm, hc⟩
  | minus E d b t v _ h => obtain ⟨p, c, rfl, hc⟩ := FunOperand_end h; exact ⟨_, c, (List.append_assoc _ _ _).symm, hc⟩
  | invert E d b t v _ h => obtain ⟨p, c, rfl, hc⟩ := FunOperand_end h; exact ⟨_, c, (List.append_assoc _ _ _).symm, hc⟩

theorem FunDenotes_end {E : Scope} {d : Nat} {t : Str} {v : Int} (h : FunDenotes E d t v) : ∃ p c, t = p ++ [c] ∧ Ender c := by
  cases h with
  | one E d t v h => exact FunPrefixed_end h
  | join E d t₁ v₁ b op optext b' t₂ v₂ v _ _ _ _ _ h =>
    obtain ⟨p, c, rfl, hc⟩ := FunPrefixed_end h
    exact ⟨_, c, (List.append_assoc _ _ _).symm, hc⟩

/-- The operands of an instruction have the values of the program. -/
theorem At.evaluates {g : Setting} {known defs : Defs} {tx : Texts} {pc : Nat} {s : S} (hW : Whole g defs) (hA : At g known tx pc s)
    (hsub : ∀ p ∈ known, p ∈ defs) (h20 : g.depth ≤ 20) (k : Nat) (hk : g.depth ≤ k) : OperandsWorth (Worth g known tx pc) k s where
  ends := by
    intro o v h
    cases h with
    | plain d h hd => exact Denotes_end h
    | calls d h hd => exact FunDenotes_end h
  value := by
    intro o v h bs ws n d f bl hbl
    have hB := hA.base
    have hA' : At g known tx pc (ops bs ws n d f s) :=
      ⟨⟨hB.caseSens, hB.args, hB.named, ops_inSession _ _ _ _ _ _ hB.session, hB.normal, hB.ez80, hB.counter, hB.stats, hB.adl, hB.opcodes, hB.going, hB.fs, hB.dirs⟩,
        hA.addr, hA.small, hA.labels, hA.texts, hA.mine, hA.free, hA.kept, hA.count⟩
    obtain ⟨p, e⟩ := hA'.session.worth hW hsub h h20 k hk [] bl [] (by intro c hc; cases hc) hbl (.inl rfl)
    simp only [List.nil_append, List.append_nil] at e
    exact ⟨p, e⟩

theorem action_runs {g : Setting} {known defs : Defs} {tx : Texts} (hW : Whole g defs) (hsub : ∀ p ∈ known, p ∈ defs) (k : Nat) (h20 : g.depth ≤ 20)
    (hk : g.depth ≤ k) (hk0 : 0 < k) {pc pc' : Nat} {t : Str} {bs : List Nat} (h : Action g known tx pc t bs pc') (hpc' : pc' < 16777216)
    (rest : Str) (hr : AtEnd rest) (s : S) (hA : At g known tx pc s) (room : HasRoom bs.length s) :
    RunsTo g known tx pc' bs ((knot (k + 2)).lineSec (t ++ rest)) (some rest) s := by
  have hpc : toI32 s.pc = asInt32 pc := by rw [hA.addr, toI32_eq_asInt32]
  have mono : ∀ {d : Nat} {t : Str} {v : Int}, Denotes (asInt32 pc) (g.find known) (g.text tx) d t v →
      Denotes (toI32 s.pc) (visibleLabel s) (visibleText s) d t v := hA.denotes hW hsub
  cases h with
  | empty b hb => exact ⟨s, lineSec_blanks _ _ _ hb hr s, hA, Frame1.refl s, Fills.nil _ _ _⟩
  | data b name n c args t bs hb hn hc hj hdat =>
    have hr' : EndsList rest := by
      rcases hr with rfl | ⟨c, r, rfl, h⟩
      · exact .inl rfl
      · exact .inr ⟨c, r, rfl, by omega⟩
    have hw : (esOf n).width = n ∧ 0 < n ∧ ∃ m, name = 46 :: m := by
      simp only [dataDirectives, List.mem_cons, List.not_mem_nil, or_false, Prod.mk.injEq] at hn
      rcases hn with h | h | h | h | h | h | h | h | h | h | h | h <;> obtain ⟨rfl, rfl⟩ := h <;> exact ⟨rfl, by decide, _, rfl⟩
    obtain ⟨hw, hn0, m, hm⟩ := hw
    obtain ⟨t', hj', hsk⟩ := joined_skip hj
    obtain ⟨s', e, a1, f1, g1⟩ := emitString_final hW hsub (esOf n) (by omega) k h20 hk hk0 (by rw [hw]; exact hdat) t' rest s hj' hr' hA hpc' room
    refine ⟨s', ?_, a1, f1, g1⟩
    show lineSecBody (knot (k + 1)) _ s = _
    unfold lineSecBody
    have e1 : b ++ name ++ c :: t ++ rest = b ++ 46 :: (m ++ c :: (t ++ rest)) := by rw [hm]; simp
    have hlen : (b ++ 46 :: (m ++ c :: (t ++ rest))).length + 1 = (b ++ (m ++ c :: (t ++ rest))).length + 2 := by simp; omega
    have e2 := findDir_data (knot (k + 1)) (name, n) hn c (t ++ rest) hc
    rw [hm, List.cons_append] at e2
    have hbl : skipWs (c :: (t ++ rest)) = skipWs (t ++ rest) :=
      skipWs_blanks [c] _ (by intro x hx; simp at hx; subst hx; omega)
    rw [e1, hlen, lineSec_dot _ _ _ hb, e2, hbl, hsk]
    have e3 : (knot (k + 1)).emitString (t' ++ rest) (esOf n) s = .ok (rest, []) s' := e
    rw [M.bind_ok e3]
    rfl
  | code b m u bl text pre long i ops vs bs hbne hb hm hu hbl hne hop hreg hfit hwr hun hlab hcode hwarn =>
    have hst : Statement s b m u bl text rest :=
      ⟨⟨hbne, hb⟩, hm, hbl, hne, hop, hr, by rw [hA.base.opcodes]; exact hW.table⟩
    have hez := hA.base.ez80
    have hsuf : Suffixed s u pre long := by
      rcases hu with ⟨rfl, rfl, rfl⟩ | ⟨hz, x, hx, h1, h2, h3⟩
      · refine .inl ⟨rfl, rfl, ?_⟩
        rw [hez]
        cases hz : g.ez80 with
        | false => rfl
        | true => rw [hA.base.adl hz]; rfl
      · exact .inr ⟨hez.trans hz, x, by rw [hA.base.adl hz]; exact hx, h1, h2, h3⟩
    have hne' : entriesOf m s.opcodes ≠ [] := by
      rw [hA.base.opcodes]
      obtain ⟨x, y, hxy, -⟩ := hfit
      rw [hxy]; simp
    obtain ⟨sfx, o, os, hd, ho, rfl, rfl, h4, hl⟩ := statement_head (knot (k + 1)) hst hsuf hne'
    have hg : group m (o :: os) = entriesOf m g.opcodes := by rw [← hA.base.opcodes]; unfold group entriesOf; rw [hd]
    obtain ⟨cs, hcs, hma⟩ := (matchArgs_spec (bl.reverse ++ (m ++ u).reverse) text rest hst.stop s hst.operands (con_head hst hsuf) m os o ho
      (by rw [hg]; exact hreg)).1 i ops (by rw [hg]; exact hfit)
    have h32 : 0 ≤ s.pc ∧ s.pc < 4294967296 := by rw [hA.addr]; have := hA.small; omega
    have written : ∃ s1, writeInstr (knot (k + 1)) i cs sfx s = .ok ((prefixByte sfx ++ bs).length : Nat) s1 ∧ Frame0 s s1 ∧
        Fills g.label g.depth (prefixByte sfx ++ bs) s s1 := by
      rcases hlab with hval | ⟨hval, hrst, hamb⟩
      · obtain ⟨n, d, f, e1, hn⟩ := writeInstr_worth (k + 1) i ops vs cs sfx bs s hwr (hA.evaluates hW hsub h20 (k + 1) (by omega)) hval hcs hA.base.session hA.base.normal h4 (by rw [hez, hA.addr]; exact hcode) (by simpa using room)
        have hop0 : opened ops = 0 := by
          unfold opened
          rw [List.countP_eq_zero]
          intro o ho
          simpa using hun o ho
        obtain rfl : n = 0 := by omega
        refine ⟨_, e1, ?_, ?_⟩
        · rw [hez, hwarn]
          unfold Frame0
          simp [Spasm.ops, Spec.emitted, asErrs]
        · exact (Fills.emitted g.label g.depth _ s room.1).congr rfl rfl rfl rfl rfl rfl rfl
      · exact writeInstr_final (k + 1) g.depth i ops vs cs sfx bs s (fun _ _ h => h) hwr (by omega) h20 (by rw [hpc]; exact hval) h32
          (hA.env hW hsub) (fun o ho => ⟨(hamb o ho).1, hA.noClash hW hsub (hamb o ho), hun o ho⟩) (fun h => absurd h hrst) hcs hA.base.session
          hA.base.normal h4 (by rw [hez, hA.addr]; exact hcode) (by rw [hez]; exact hwarn) (by simpa using room)
    obtain ⟨s1, e1, f1, g1⟩ := written
    generalize hN : (prefixByte sfx ++ bs).length = N at *
    refine ⟨{ s1 with pc := toU32 (s1.pc + (N : Nat)), statsCode := s1.statsCode + (N : Nat), statsMin := s1.statsMin + (i.minTime + timePenalty sfx s1.adl i), statsMax := s1.statsMax + (i.maxTime + timePenalty sfx s1.adl i) }, ?_, ?_⟩
    · show lineSecBody (knot (k + 1)) (b ++ m ++ u ++ bl ++ text ++ rest) s = _
      rw [hl, M.bind_ok hma]
      dsimp only
      rw [M.bind_ok e1]
      rfl
    · have hF : Frame1 s { s1 with pc := toU32 (s1.pc + (N : Nat)), statsCode := s1.statsCode + (N : Nat), statsMin := s1.statsMin + (i.minTime + timePenalty sfx s1.adl i), statsMax := s1.statsMax + (i.maxTime + timePenalty sfx s1.adl i) } := by
        have h1 := g1.out
        rw [hN] at h1
        unfold Frame0 at f1
        have h2 : s1.statsCode = s.statsCode := by rw [f1]
        have h3 : s1.statsData = s.statsData := by rw [f1]
        refine ⟨by rw [f1], ?_, [], by rw [f1]; rfl, by simp⟩
        constructor
        · intro _; show s1.statsCode + (N : Nat) + s1.statsData - s1.outPtr = _
          omega
        · show _ ≤ s1.statsCode + (N : Nat)
          omega
        · show _ ≤ s1.statsData
          omega
      refine ⟨hA.move hF ?_ ?_ hpc', hF, g1.congr rfl rfl rfl rfl rfl rfl rfl⟩
      · show s1.labels = _
        rw [f1]
      · show toU32 (s1.pc + _) = _
        rw [f1.pc, hA.addr]
        unfold toU32
        omega
  | org b name c b1 t b2 _ hb hn hc hb1 hb2 hl hden =>
    obtain ⟨m, rfl, hm⟩ : ∃ m, name = 46 :: m ∧ m ∈ [b! "org", b! "ORG"] := by
      simp only [List.mem_cons, List.not_mem_nil, or_false] at hn
      rcases hn with rfl | rfl <;> exact ⟨_, rfl, by decide⟩
    obtain ⟨p, hp⟩ := hA.reads hW hsub hden h20 (k + 1) (by omega)
    have e := org_reads m hm (k + 1) b b1 t b2 rest c _ p s hp hl hb hb1 hb2 hc hr
    rw [if_pos (by omega)] at e
    have hF : Frame1 s { s with pc := pc', parseDepth := p, fwdRef := false } := ⟨rfl, .same rfl rfl rfl, [], rfl, by simp⟩
    refine ⟨_, ?_, hA.move hF rfl rfl hpc', hF, (Fills.nil g.label g.depth s).congr rfl rfl rfl rfl rfl rfl rfl⟩
    rw [← e]
    congr 1
    simp
  | fill b name c b1 t b2 second size v hb hn hc hb1 hb2 hl hden h2 hv =>
    rw [List.length_replicate] at room
    obtain ⟨p, hp⟩ := hA.reads hW hsub hden h20 (k + 1) (by omega)
    have hA' : At g known tx pc { s with parseDepth := p, fwdRef := false } :=
      hA.move (s' := { s with parseDepth := p, fwdRef := false }) ⟨rfl, .same rfl rfl rfl, [], rfl, by simp⟩ rfl hA.addr hA.small
    obtain ⟨p', h2'⟩ : ∃ p', (second = [] ∧ v = 0 ∧ p' = p) ∨ ∃ b3 t' b4, second = 44 :: b3 ++ t' ++ b4 ∧ Blanks b3 ∧ Blanks b4 ∧ (t' ++ b4).length ≤ 254 ∧
        Reading (k + 1) t' v { s with parseDepth := p, fwdRef := false } p' := by
      rcases h2 with ⟨h2, h3⟩ | ⟨b3, t', b4, h3, h4, h5, h6, h7⟩
      · exact ⟨p, .inl ⟨h2, h3, rfl⟩⟩
      · obtain ⟨p', hp'⟩ := hA'.reads hW hsub h7 h20 (k + 1) (by omega)
        exact ⟨p', .inr ⟨b3, t', b4, h3, h4, h5, h6, hp'⟩⟩
    have e := fill_reads name hn (k + 1) b b1 t b2 c size v second rest s p p' hp (by omega) hl h2' hb hb1 hb2 hc hr (by simpa using room)
    have ht : truncation s.mode.ez80 1 v = [] := by
      unfold truncation
      rw [if_neg (by omega), if_neg (by omega)]
    rw [ht, Int.toNat_natCast] at e
    refine ⟨_, ?_, by simpa using hA.afterData (List.replicate size (v % 256).toNat) p' false (by simpa using hpc'), frame1_afterData _ _ _ s,
      Fills.afterData _ _ _ _ _ s room.1⟩
    rw [← e]
    congr 1
    simp

theorem find_cons {g : Setting} (defs : Defs) (name t : Str) (v : Int) :
    g.find ((name, v) :: defs) t = if g.key t = g.key name then some v else g.find defs t := by
  unfold Setting.find
  rw [List.find?_cons]
  by_cases h : g.key t = g.key name
  · rw [if_pos h]; simp [h]
  · rw [if_neg h]
    have : decide (g.key name = g.key t) = false := by simp only [decide_eq_false_iff_not]; exact fun e => h e.symm
    simp only [this]

theorem find_none {g : Setting} {defs : Defs} {t : Str} (h : g.key t ∉ defs.map (fun p => g.key p.1)) : g.find defs t = none := by
  cases hf : g.find defs t with
  | none => rfl
  | some v =>
    obtain ⟨p, hp, hk, -⟩ := find_some hf
    exact absurd (hk ▸ List.mem_map_of_mem (f := fun p => g.key p.1) hp) h

/-- What a label statement needs, and the labels after it. -/
theorem At.fresh {g : Setting} {known defs : Defs} {tx : Texts} {pc : Nat} {s : S} (hW : Whole g defs) (hA : At g known tx pc s) (name : Str) (v : Int)
    (hsub : ∀ p ∈ (name, v) :: known, p ∈ defs) (hN : (((name, v) :: known).map (fun p => g.key p.1)).Nodup) :
    argumentOf s name = none ∧ defineOf s name = none ∧ labelOf s name = none ∧
    ∀ (s1 : S) (w : Int), s1.caseSens = s.caseSens → labelOf s1 name = some w → (∀ t', nameKey s t' ≠ nameKey s name → labelOf s1 t' = labelOf s t') →
      ∀ t, labelOf s1 t = g.find ((name, w) :: known) t := by
  simp only [List.map_cons, List.nodup_cons] at hN
  refine ⟨(hA.unlisted (hW.good _ (hsub _ List.mem_cons_self)).1).1, ?_, by rw [hA.labels]; exact find_none hN.1, ?_⟩
  · exact (hA.unlisted (hW.good _ (hsub _ List.mem_cons_self)).1).2
  · intro s1 w hc h1 h2 t
    rw [find_cons]
    by_cases ht : g.key t = g.key name
    · rw [if_pos ht, ← h1]
      have : nameKey s1 t = nameKey s1 name := by
        have hk : ∀ u, nameKey s1 u = nameKey s u := by intro u; unfold nameKey; rw [hc]
        rw [hk, hk, hA.base.nameKey, hA.base.nameKey, ht]
      unfold labelOf
      rw [this]
    · rw [if_neg ht, h2 t (by rw [hA.base.nameKey, hA.base.nameKey]; exact ht), hA.labels]

theorem labelSep_end {sep t rest : Str} (h : LabelSep sep t) (hr : AtEnd rest) : LabelEnd (sep ++ (t ++ rest)) (t ++ rest) := by
  rcases h with rfl | ⟨rfl, h⟩
  · exact .inl rfl
  · refine .inr ⟨rfl, ?_⟩
    intro c hc
    cases t with
    | nil =>
      rcases hr with rfl | ⟨c', r, rfl, hr⟩
      · simp at hc
      · simp at hc
        subst hc
        unfold NameChar Alnum
        omega
    | cons c' t =>
      simp at hc
      subst hc
      exact h c' rfl

/-- The expression of an equate is read behind the label. -/
theorem At.behind {g : Setting} {known defs : Defs} {tx : Texts} {pc : Nat} {s s1 : S} (hW : Whole g defs) (hA : At g known tx pc s) (name : Str) (x : Int)
    (hsub : ∀ p ∈ (name, x) :: known, p ∈ defs) (hN : (((name, x) :: known).map (fun p => g.key p.1)).Nodup) (hs : Behind s name pc s1)
    {t : Str} {v : Int} (h : Worth g ((name, (pc : Int)) :: known) tx pc t v) (h20 : g.depth ≤ 20) (k : Nat) (hk : g.depth ≤ k) : ∃ p, Reading k t v s1 p := by
  obtain ⟨-, -, hl, hnew⟩ := hA.fresh hW name x hsub hN
  obtain ⟨h1, h2, ⟨tab, ec, log, h3⟩, hlen, h4⟩ := hs
  have h4 := h4 hl
  rw [asInt32_small hA.small] at h1
  have hF : Frame1 s s1 := by
    rw [h3] at h4 ⊢
    obtain ⟨h4, h5⟩ := h4
    refine ⟨?_, .same rfl rfl rfl, [], rfl, by simp⟩
    rw [show ec = s.exitCode from h5, show log = s.log from h4]
  have hA1 : At g ((name, (pc : Int)) :: known) tx pc s1 :=
    ⟨hA.base.frame hF, by rw [h3]; exact hA.addr, hA.small, hnew s1 pc (by rw [h3]) h1 h2, by rw [h3]; exact hA.texts, hA.mine, by rw [h3]; exact hA.free, by rw [h3]; exact hA.kept, by rw [hlen hl, hA.count]; rfl⟩
  -- while the expression is read, the label has its address as value
  let defs' : Defs := (name, (pc : Int)) :: known
  let g' : Setting := { g with label := g.find defs' }
  have hW' : Whole g' defs' := by
    refine ⟨rfl, hN, ?_, ?_, hW.table, hW.params⟩
    · intro p hp
      rcases List.mem_cons.1 hp with rfl | hp
      · exact hW.names (name, x) (hsub _ List.mem_cons_self)
      · exact hW.names p (hsub p (List.mem_cons_of_mem _ hp))
    · intro p hp
      rcases List.mem_cons.1 hp with rfl | hp
      · have := hA.small
        exact ⟨(hW.good (name, x) (hsub _ List.mem_cons_self)).1, by show (0 : Int) ≤ (pc : Int); omega, by show (pc : Int) ≤ 999999999; omega⟩
      · exact hW.good p (hsub p (List.mem_cons_of_mem _ hp))
  have hB := hA1.base
  have hA' : At g' defs' tx pc s1 := ⟨⟨hB.caseSens, hB.args, hB.named, hB.session, hB.normal, hB.ez80, hB.counter, hB.stats, hB.adl, hB.opcodes, hB.going, hB.fs, hB.dirs⟩,
    hA1.addr, hA1.small, hA1.labels, hA1.texts, hA1.mine, hA1.free, hA1.kept, hA1.count⟩
  have hw : Worth g' defs' tx pc t v := by
    cases h with
    | plain d h hd => exact .plain d h hd
    | calls d h hd => exact .calls d h hd
  exact hA'.reads hW' (fun p hp => hp) hw h20 k hk

theorem stmt_runs {g : Setting} {known defs : Defs} {tx : Texts} (hW : Whole g defs) (k : Nat) (h20 : g.depth ≤ 20)
    (hk : g.depth ≤ k) (hk0 : 0 < k) {pc pc' : Nat} {t : Str} {new : Defs} {bs : List Nat} (h : Stmt g known tx pc t new bs pc') (hpc' : pc' < 16777216)
    (hsub : ∀ p ∈ new ++ known, p ∈ defs) (hN : ((new ++ known).map (fun p => g.key p.1)).Nodup)
    (rest : Str) (hr : AtEnd rest) (s : S) (hA : At g known tx pc s) (room : HasRoom bs.length s) :
    RunsTo g (new ++ known) tx pc' bs ((knot (k + 2)).lineSec (t ++ rest)) (some rest) s := by
  cases h with
  | plain t bs pc' h => exact action_runs hW hsub k h20 hk hk0 h hpc' rest hr s hA room
  | label name sep t bs pc' hname hsep h =>
    obtain ⟨ha, hd, hl, hnew⟩ := hA.fresh hW name pc hsub hN
    obtain ⟨s1, h1, h2, ⟨tab, ec, log, h3⟩, hlen, h4, -, h6⟩ := label_runs (k + 1) name _ _ hname (labelSep_end hsep hr) s pc hA.addr hA.base.counter ha hd
    have h4 := h4 (.inl hl)
    rw [asInt32_small hA.small] at h1
    have hF : Frame1 s s1 := by
      rw [h3] at h4 ⊢
      obtain ⟨h4, h5⟩ := h4
      refine ⟨?_, .same rfl rfl rfl, [], rfl, by simp⟩
      rw [show ec = s.exitCode from h5, show log = s.log from h4]
    have hA1 : At g ((name, (pc : Int)) :: known) tx pc s1 :=
      ⟨hA.base.frame hF, by rw [h3]; exact hA.addr, hA.small, hnew s1 pc (by rw [h3]) h1 h2, by rw [h3]; exact hA.texts, hA.mine, by rw [h3]; exact hA.free, by rw [h3]; exact hA.kept, by rw [hlen hl, hA.count]; rfl⟩
    obtain ⟨s2, e2, a2, f2, g2⟩ := action_runs hW hsub k h20 hk hk0 h hpc' rest hr s1 hA1 (by rw [h3]; exact room)
    refine ⟨s2, ?_, a2, hF.trans f2, g2.congr (by rw [h3]) (by rw [h3]) (by rw [h3]) (by rw [h3]) rfl rfl rfl⟩
    rw [← e2, ← h6]
    simp
  | equ name sep b dir c b1 t b2 v hname hsep hb hdir hc hb1 hb2 hl hden =>
    obtain ⟨m, rfl, hm⟩ : ∃ m, dir = 46 :: m ∧ m ∈ [b! "equ", b! "EQU"] := by
      simp only [List.mem_cons, List.not_mem_nil, or_false] at hdir
      rcases hdir with rfl | rfl <;> exact ⟨_, rfl, by decide⟩
    obtain ⟨ha, hd, hlab, hnew⟩ := hA.fresh hW name v hsub hN
    have hend := labelSep_end hsep hr
    rw [show b ++ 46 :: m ++ c :: (b1 ++ t ++ b2) ++ rest = b ++ 46 :: m ++ c :: b1 ++ t ++ (b2 ++ rest) by simp] at hend
    obtain ⟨s2, e2, l1, l2, ⟨tab, last, ec, log, p, h3⟩, h4⟩ := equ_reads m hm (k + 1) name _ b b1 t b2 rest c v hname hend s pc hA.addr
      hA.base.counter ha hd (fun s1 hs1 => hA.behind hW name v hsub hN hs1 hden h20 (k + 1) (by omega)) hl hb hb1 hb2 hc hr
    have h4 := h4 hlab
    have hlen := h4.2.2
    have hF : Frame1 s s2 := by
      rw [h3] at h4 ⊢
      obtain ⟨h4, h5, -⟩ := h4
      refine ⟨?_, .same rfl rfl rfl, [], rfl, by simp⟩
      rw [show ec = s.exitCode from h5, show log = s.log from h4]
    refine ⟨s2, ?_, ⟨hA.base.frame hF, by rw [h3]; exact hA.addr, hA.small, hnew s2 v (by rw [h3]) l1 l2, by rw [h3]; exact hA.texts, hA.mine, by rw [h3]; exact hA.free, by rw [h3]; exact hA.kept, by rw [hlen, hA.count]; rfl⟩, hF,
      (Fills.nil g.label g.depth s).congr rfl rfl rfl rfl (by rw [h3]) (by rw [h3]) (by rw [h3])⟩
    rw [← e2]
    congr 1
    simp
  | assign name sep b b1 t b2 v hname hsep hb hb1 hb2 hl hden =>
    obtain ⟨ha, hd, hlab, hnew⟩ := hA.fresh hW name v hsub hN
    have hend := labelSep_end hsep hr
    rw [show b ++ 61 :: (b1 ++ t ++ b2) ++ rest = b ++ 61 :: (b1 ++ t ++ (b2 ++ rest)) by simp] at hend
    obtain ⟨s2, e2, l1, l2, ⟨tab, last, ec, log, p, h3⟩, h4⟩ := assign_reads (k + 1) name _ b b1 t b2 rest v hname hend s pc hA.addr
      hA.base.counter ha hd (fun s1 hs1 => hA.behind hW name v hsub hN hs1 hden h20 (k + 1) (by omega)) hl hb hb1 hb2 hr
    have h4 := h4 hlab
    have hlen := h4.2.2
    have hF : Frame1 s s2 := by
      rw [h3] at h4 ⊢
      obtain ⟨h4, h5, -⟩ := h4
      refine ⟨?_, .same rfl rfl rfl, [], rfl, by simp⟩
      rw [show ec = s.exitCode from h5, show log = s.log from h4]
    refine ⟨s2, ?_, ⟨hA.base.frame hF, by rw [h3]; exact hA.addr, hA.small, hnew s2 v (by rw [h3]) l1 l2, by rw [h3]; exact hA.texts, hA.mine, by rw [h3]; exact hA.free, by rw [h3]; exact hA.kept, by rw [hlen, hA.count]; rfl⟩, hF,
      (Fills.nil g.label g.depth s).congr rfl rfl rfl rfl (by rw [h3]) (by rw [h3]) (by rw [h3])⟩
    rw [← e2]
    congr 1
    simp

theorem name_ne_nil {t : Str} (h : Name t) : ∃ c r, t = c :: r ∧ c ≠ 92 := by
  obtain ⟨⟨c, r, rfl, hc, -⟩, -⟩ := h
  exact ⟨c, r, rfl, by omega⟩

/-- A statement does not begin with a backslash, and an empty one does nothing. -/
theorem stmt_start {g : Setting} {known new : Defs} {tx : Texts} {pc pc' : Nat} {t : Str} {bs : List Nat} (h : Stmt g known tx pc t new bs pc') :
    t.head? ≠ some 92 ∧ (t = [] → new = [] ∧ bs = [] ∧ pc' = pc) := by
  have hd : ∀ (b : Str) (c : Nat) (x : Str), Blanks b → c ≠ 92 → (b ++ c :: x).head? ≠ some 92 ∧ b ++ c :: x ≠ [] := by
    intro b c x hb hc
    cases b with
    | nil => simp [hc]
    | cons y b =>
      have := hb y (by simp)
      refine ⟨?_, by simp⟩
      simp only [List.cons_append, List.head?_cons, ne_eq, Option.some.injEq]
      omega
  have hnm : ∀ (name x : Str), Name name → (name ++ x).head? ≠ some 92 ∧ name ++ x ≠ [] := by
    intro name x h
    obtain ⟨c, r, rfl, hc⟩ := name_ne_nil h
    simp [hc]
  cases h with
  | plain t bs pc' h =>
    cases h with
    | empty b hb =>
      refine ⟨?_, fun _ => ⟨rfl, rfl, rfl⟩⟩
      cases t with
      | nil => simp
      | cons y b =>
        have := hb y (by simp)
        simp only [List.head?_cons, ne_eq, Option.some.injEq]
        omega
    | data b name n c args t bs hb hn =>
      obtain ⟨m, rfl⟩ : ∃ m, name = 46 :: m := by
        simp only [dataDirectives, List.mem_cons, List.not_mem_nil, or_false, Prod.mk.injEq] at hn
        rcases hn with h | h | h | h | h | h | h | h | h | h | h | h <;> obtain ⟨rfl, rfl⟩ := h <;> exact ⟨_, rfl⟩
      have := hd b 46 (m ++ c :: t) hb (by decide)
      simp only [List.append_assoc, List.cons_append]
      exact ⟨this.1, fun h => absurd h this.2⟩
    | code b m u bl text pre long i ops vs bs hbne hb =>
      cases b with
      | nil => exact absurd rfl hbne
      | cons y b =>
        have := hb y (by simp)
        refine ⟨?_, by simp⟩
        simp only [List.cons_append, List.head?_cons, ne_eq, Option.some.injEq]
        omega
    | org b name c b1 t b2 _ hb hn =>
      obtain ⟨m, rfl⟩ : ∃ m, name = 46 :: m := by
        simp only [List.mem_cons, List.not_mem_nil, or_false] at hn
        rcases hn with rfl | rfl <;> exact ⟨_, rfl⟩
      have := hd b 46 (m ++ c :: (b1 ++ t ++ b2)) hb (by decide)
      simp only [List.append_assoc, List.cons_append] at this ⊢
      exact ⟨this.1, fun h => absurd h this.2⟩
    | fill b name c b1 t b2 second size v hb hn =>
      obtain ⟨m, rfl⟩ : ∃ m, name = 46 :: m := by
        simp only [List.mem_cons, List.not_mem_nil, or_false] at hn
        rcases hn with rfl | rfl | rfl | rfl <;> exact ⟨_, rfl⟩
      have := hd b 46 (m ++ c :: (b1 ++ t ++ b2 ++ second)) hb (by decide)
      simp only [List.append_assoc, List.cons_append] at this ⊢
      exact ⟨this.1, fun h => absurd h this.2⟩
  | label name sep t bs pc' hname =>
    have := hnm name (sep ++ t) hname
    rw [List.append_assoc]
    exact ⟨this.1, fun h => absurd h this.2⟩
  | equ name sep b dir c b1 t b2 v hname =>
    have := hnm name (sep ++ (b ++ dir ++ c :: (b1 ++ t ++ b2))) hname
    rw [List.append_assoc]
    exact ⟨this.1, fun h => absurd h this.2⟩
  | assign name sep b b1 t b2 v hname =>
    have := hnm name (sep ++ (b ++ 61 :: (b1 ++ t ++ b2))) hname
    rw [List.append_assoc]
    exact ⟨this.1, fun h => absurd h this.2⟩

theorem stmt_names {g : Setting} {known new : Defs} {tx : Texts} {pc pc' : Nat} {t : Str} {bs : List Nat} (h : Stmt g known tx pc t new bs pc') :
    ∀ p ∈ new, Name p.1 := by
  cases h with
  | plain t bs pc' h => simp
  | label name sep t bs pc' hname => simpa using hname
  | equ name sep b dir c b1 t b2 v hname => simpa using hname
  | assign name sep b b1 t b2 v hname => simpa using hname

/-! ### Lines -/

/-- The end of the statements of a line. -/
def LineEnd (t : Str) : Prop := AtEnd t ∧ t.head? ≠ some 92

/-! ### Programs -/

theorem comment_plain {com : Str} (hc : Comment com) : ∀ c ∈ com, (c != 10 && c != 13) = true := by
  rcases hc with rfl | ⟨r, rfl, h⟩
  · simp
  · intro c hx
    rcases List.mem_cons.1 hx with rfl | hx
    · rfl
    · have := h c hx
      simp [this.1, this.2]

theorem skip_comment (com t : Str) (hc : Comment com) (nl : Str) (hnl : nl = [10] ∨ nl = [13, 10]) : skipToNextLine (com ++ nl ++ t) = t := by
  unfold skipToNextLine
  rw [List.append_assoc, List.dropWhile_append_of_pos (comment_plain hc)]
  rcases hnl with rfl | rfl <;> rfl

theorem skip_last_comment (com : Str) (hc : Comment com) : skipToNextLine com = [] := by
  unfold skipToNextLine
  have := List.dropWhile_append_of_pos (l₂ := []) (comment_plain hc)
  rw [List.append_nil] at this
  rw [this]
  rfl

theorem comment_lineEnd (com rest : Str) (hc : Comment com) (hr : rest = [] ∨ ∃ c r, rest = c :: r ∧ (c = 10 ∨ c = 13)) : LineEnd (com ++ rest) := by
  rcases hc with rfl | ⟨r, rfl, -⟩
  · rcases hr with rfl | ⟨c, r, rfl, hc⟩
    · exact ⟨.inl rfl, by simp⟩
    · refine ⟨.inr ⟨c, r, rfl, by omega⟩, ?_⟩
      simp only [List.nil_append, List.head?_cons, ne_eq, Option.some.injEq]
      omega
  · exact ⟨.inr ⟨59, _, rfl, by omega⟩, by simp⟩

theorem frame1_lineNum {g : Setting} {known : Defs} {tx : Texts} {pc : Nat} {bs : List Nat} {s s1 : S} (n : Int) (a1 : At g known tx pc s1) (f1 : Frame1 s s1)
    (g1 : Fills g.label g.depth bs s s1) : At g known tx pc { s1 with lineNum := n } ∧ Frame1 s { s1 with lineNum := n } ∧
      Fills g.label g.depth bs s { s1 with lineNum := n } := by
  have hF : Frame1 s1 { s1 with lineNum := n } := ⟨rfl, .same rfl rfl rfl, [], rfl, by simp⟩
  exact ⟨a1.move hF rfl a1.addr a1.small, f1.trans hF, g1.congr rfl rfl rfl rfl rfl rfl rfl⟩

end Spasm
