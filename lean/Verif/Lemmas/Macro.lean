import Verif.Spec.Macro
import Verif.Lemmas.Forward
import Verif.Props.Instr
import Verif.Props.Split
import Verif.Props.Tables

/-
Calls of macros with arguments.
-/

namespace Spasm
open Spec Props

/-! ### Numbers as text -/

theorem value_digit (ds : Str) (c : Nat) : value 16 (ds ++ [c]) = value 16 ds * 16 + (digit c).getD 0 := by
  induction ds with
  | nil => simp [value]
  | cons x ds ih =>
    rw [List.cons_append, value, value, ih, List.length_append, List.length_singleton, Nat.pow_succ]
    grind

theorem hexDigits_digits (n : Nat) : hexDigits n ≠ [] ∧ (∀ c ∈ hexDigits n, IsDigit 16 c) ∧ value 16 (hexDigits n) = n := by
  induction n using Nat.strongRecOn with
  | ind n ih =>
    have hd : digit (if n % 16 < 10 then 48 + n % 16 else 55 + n % 16) = some (n % 16) := by
      have := Nat.mod_lt n (show 0 < 16 by decide)
      unfold digit
      grind
    have hdig : IsDigit 16 (if n % 16 < 10 then 48 + n % 16 else 55 + n % 16) := ⟨_, hd, Nat.mod_lt n (by decide)⟩
    rw [hexDigits]
    by_cases h : n < 16
    · rw [if_pos h]
      refine ⟨by simp, ?_, ?_⟩
      · intro c hc
        simp only [List.nil_append, List.mem_singleton] at hc
        rw [hc]
        exact hdig
      · rw [value_digit, hd]
        simp [value]
        omega
    · rw [if_neg h]
      obtain ⟨-, i2, i3⟩ := ih (n / 16) (by omega)
      refine ⟨by simp, ?_, ?_⟩
      · intro c hc
        rcases List.mem_append.1 hc with hc | hc
        · exact i2 c hc
        · rw [List.mem_singleton.1 hc]
          exact hdig
      · rw [value_digit, hd, i3]
        simp
        omega

/-- The digits of a number as text. -/
theorem NumberText.digits {v : Int} {x : Str} (h : NumberText v x) :
    ∃ ds, ds ≠ [] ∧ (∀ c ∈ ds, IsDigit 16 c) ∧ value 16 ds = v.natAbs ∧ x = (if v < 0 then [45] else []) ++ 36 :: ds := by
  obtain ⟨h1, h2, h3⟩ := hexDigits_digits v.natAbs
  exact ⟨_, h1, h2, h3, h⟩

theorem hexAux_digits (f : Nat) : ∀ (n : Nat) (acc : Str), n < 16 ^ (f + 1) → hexAux (f + 1) n acc = hexDigits n ++ acc := by
  have hc : ∀ n, hexDigit (n % 16) = if n % 16 < 10 then 48 + n % 16 else 55 + n % 16 := by
    intro n
    unfold hexDigit
    split <;> omega
  induction f with
  | zero =>
    intro n acc h
    have hm : n % 16 = n := Nat.mod_eq_of_lt (by omega)
    rw [hexAux, hexDigits, if_pos (by omega), if_pos (by omega), ← hc, hm]
    rfl
  | succ f ih =>
    intro n acc h
    rw [hexAux, hexDigits]
    by_cases hn : n < 16
    · have hm : n % 16 = n := Nat.mod_eq_of_lt hn
      rw [if_pos hn, if_pos hn, ← hc, hm]
      rfl
    · rw [if_neg hn, if_neg hn, ih _ _ (by rw [Nat.pow_succ] at h; omega), ← hc]
      simp

theorem fmtEval_number (v : Int) (h : -2147483648 ≤ v ∧ v ≤ 2147483647) : NumberText v (fmtEval v) := by
  unfold NumberText numberText fmtEval fmtHex
  rw [hexAux_digits 8 _ _ (by omega), List.append_nil, List.append_assoc]
  rfl

/-! ### One argument -/

theorem endSession_clean (n : Int) (s : S) (h : ∀ e ∈ s.errors, e.sess < n) : endSession n s = .ok () { s with session := s.session - 1 } := by
  have h1 : sessPrefix n s.errors = [] := by
    unfold sessPrefix
    cases hE : s.errors with
    | nil => rfl
    | cons x xs =>
      have := h x (by rw [hE]; simp)
      rw [List.takeWhile_cons_of_neg]
      simp; omega
  have h2 : s.errors.dropWhile (fun e => e.sess == n) = s.errors := by
    cases hE : s.errors with
    | nil => rfl
    | cons x xs =>
      have := h x (by rw [hE]; simp)
      rw [List.dropWhile_cons_of_neg]
      simp; omega
  unfold endSession
  rw [h1, h2]
  simp

/-- While the arguments of a call are read. -/
def calling (s : S) (q : Int) (set : Table Define) (pd : Int) (fw : Bool) : S :=
  { s with session := q, argSets := set :: s.argSets, parseDepth := pd, fwdRef := fw }

/-- The set binds parameters only. -/
def OnlyParams (s : S) (params : List Str) (set : Table Define) : Prop := ∀ w, ¬ IsParam s params w → set.lookup (nameKey s w) = none

theorem argumentOf_push (s s' : S) (set : Table Define) (w : Str) (hc : s'.caseSens = s.caseSens) (ha : s'.argSets = set :: s.argSets) :
    argumentOf s' w = (match set.lookup (nameKey s w) with
      | some d => some d
      | none => argumentOf s w) := by
  have hk : nameKey s' w = nameKey s w := by unfold nameKey; rw [hc]
  unfold argumentOf
  rw [ha, List.findSome?_cons, hk, ← lookup_eq]
  cases set.lookup (nameKey s w) <;> rfl

theorem visible_push (s s' : S) (params : List Str) (set : Table Define) (h : OnlyParams s params set) (hc : s'.caseSens = s.caseSens)
    (ha : s'.argSets = set :: s.argSets) (hl : s'.labels = s.labels) (hd : s'.defines = s.defines) (hs : Settled s) (hs' : Settled s') :
    (∀ w v, outerLabel s params w = some v → visibleLabel s' w = some v) ∧
    (∀ w x, outerText s params w = some x → visibleText s' w = some x) := by
  have hk : ∀ w, nameKey s' w = nameKey s w := by intro w; unfold nameKey; rw [hc]
  have hA : ∀ w, ¬ IsParam s params w → argumentOf s' w = argumentOf s w := by
    intro w hw
    rw [argumentOf_push s s' set w hc ha, h w hw]
  have hL : ∀ w, labelOf s' w = labelOf s w := by intro w; unfold labelOf; rw [hl, hk]
  have hD : ∀ w, defineOf s' w = defineOf s w := by intro w; unfold defineOf; rw [hd, hk]
  constructor
  · intro w v hv
    unfold outerLabel at hv
    split at hv
    · cases hv
    · rename_i hw
      unfold visibleLabel at hv ⊢
      rw [hA w hw, hL]
      exact hv
  · intro w x hx
    unfold outerText at hx
    split at hx
    · cases hx
    · rename_i hw
      unfold visibleText at hx ⊢
      have hm : Maintained s' w ↔ Maintained s w := by unfold Maintained; rw [hk]
      have hn : nameText s' w = nameText s w := by unfold nameText; rw [hA w hw, hL, hD]
      rw [hn]
      by_cases hc : Maintained s w
      · rw [if_neg (fun h => h.2 hc)] at hx
        cases hx
      · rw [if_pos ⟨hs, hc⟩] at hx
        rw [if_pos ⟨hs', fun h => hc (hm.1 h)⟩]
        exact hx

/-- The text `x` is what a call passes for the argument `a`, which has a value if `val`; then the counter of nested evaluations
ends up in `Z`. -/
def Evaluates (Z : Int → Prop) (k : Nat) (s : S) (params : List Str) (a x : Str) (val : Bool) : Prop :=
  ∀ q set pd fw, s.session ≤ q → OnlyParams s params set → ∃ pd' fw', evalStr (knot k) a (calling s q set pd fw) = .ok x (calling s q set pd' fw') ∧
    (val = true → Z pd' ∧ fw' = false)

theorem evaluates_value (k : Nat) (s : S) (params : List Str) (a : Str) (d : Nat) (v : Int) (hs : Settled s)
    (h : Denotes (toI32 s.pc) (outerLabel s params) (outerText s params) d a v) (hd : d < 20) (hk : d < k) (hv : -2147483648 < v) :
    Evaluates (· = 0) k s params a (fmtEval v) true := by
  intro q set pd fw hq hset
  refine ⟨0, false, ?_, fun _ => ⟨rfl, rfl⟩⟩
  unfold evalStr
  have hss : startSession (calling s q set pd fw) = .ok (q + 1) { calling s q set pd fw with session := q + 1 } := rfl
  rw [M.bind_ok hss]
  have hs' : Settled ({ calling s q set pd fw with session := q + 1 } : S) := ⟨hs.1, fun e he => by
    have := hs.2 e he
    show e.sess ≤ q + 1
    omega⟩
  obtain ⟨hl, ht⟩ := visible_push s ({ calling s q set pd fw with session := q + 1 } : S) params set hset rfl rfl rfl rfl hs hs'
  have nb : Blanks [] := by intro c hc; simp at hc
  have hval := C03_value ({ calling s q set pd fw with session := q + 1 } : S) d k [] a [] [] v (Denotes_mono hl ht h) hd hk nb nb (.inl rfl)
  simp only [List.nil_append, List.append_nil] at hval
  rw [M.bind_ok hval]
  rw [M.bind_ok (endSession_clean _ _ (fun e he => by
    have := hs.2 e he
    omega))]
  dsimp only
  rw [if_neg (by unfold intMin; omega), M.pure_apply]
  show Res.ok _ _ = _
  congr 1
  unfold calling
  simp

theorem evaluates_name (k : Nat) (s : S) (params : List Str) (a : Str) (hs : Settled s) (hn : Name a) (hp : ¬ IsParam s params a)
    (h1 : argumentOf s a = none) (h2 : labelOf s a = none) (h3 : defineOf s a = none) (hk : 0 < k) (Z : Int → Prop) : Evaluates Z k s params a a false := by
  intro q set pd fw hq hset
  obtain ⟨k, rfl⟩ : ∃ j, k = j + 1 := ⟨k - 1, by omega⟩
  unfold evalStr
  have hss : startSession (calling s q set pd fw) = .ok (q + 1) { calling s q set pd fw with session := q + 1 } := rfl
  rw [M.bind_ok hss]
  generalize hst : ({ calling s q set pd fw with session := q + 1 } : S) = st
  have hu : ∀ st' : S, st'.caseSens = s.caseSens → st'.argSets = set :: s.argSets → st'.labels = s.labels → st'.defines = s.defines → Unknown st' a := by
    intro st' hc ha hl hd
    have hk : nameKey st' a = nameKey s a := by unfold nameKey; rw [hc]
    refine ⟨?_, ?_, ?_⟩
    · rw [argumentOf_push s st' set a hc ha, hset a hp]; exact h1
    · unfold labelOf at h2 ⊢; rw [hl, hk]; exact h2
    · unfold defineOf at h3 ⊢; rw [hd, hk]; exact h3
  have hu1 : Unknown st a := hu st (by rw [← hst]; rfl) (by rw [← hst]; rfl) (by rw [← hst]; rfl) (by rw [← hst]; rfl)
  obtain ⟨c, r, hcr, hc, hx⟩ := hn.1
  have hst0 : Starter c := by unfold Starter Alnum; omega
  have hstart : Starter' c := by unfold Starter' Starter Alnum; omega
  have nb : Blanks [] := by intro c hc; simp at hc
  have hps := parseNum_start k st [] a c r nb hcr hstart
  simp only [List.nil_append] at hps
  obtain ⟨pq, hpq⟩ := wait_name st a hn hu1 k 0 1 [] (by omega) (by omega) (by omega) (.inl (by intro x hx; simp at hx))
  rw [List.append_nil] at hpq
  have hun : unary a = (false, false, a) := unary_plain a c r hcr hst0
  have hnl := numLoop_fail (knot k) 0 a.length 0 none a a (evalState st 1) (waiting st pq) false false hun hpq
  have hpn : parseNum (knot (k + 1)) a st = .ok none (waiting st pq) := by
    rw [hps, M.bind_ok hnl]
    rfl
  rw [M.bind_ok hpn]
  have hes : endSession (q + 1) (waiting st pq) = .ok () (calling s q set pq true) := by
    unfold endSession
    have hsess : st.session = q + 1 := by rw [← hst]
    have herr : st.errors = s.errors := by rw [← hst]; rfl
    have e1 : (waiting st pq).errors = ⟨0x106, q + 1, false, st.lineNum, st.currFile⟩ :: s.errors := by
      rw [← hsess, ← herr]; rfl
    have h1 : sessPrefix (q + 1) s.errors = [] := by
      unfold sessPrefix
      cases hE : s.errors with
      | nil => rfl
      | cons x xs =>
        have := hs.2 x (by rw [hE]; simp)
        rw [List.takeWhile_cons_of_neg]
        simp; omega
    have h2 : s.errors.dropWhile (fun e => e.sess == q + 1) = s.errors := by
      cases hE : s.errors with
      | nil => rfl
      | cons x xs =>
        have := hs.2 x (by rw [hE]; simp)
        rw [List.dropWhile_cons_of_neg]
        simp; omega
    have h1' : sessPrefix (q + 1) (waiting st pq).errors = [⟨0x106, q + 1, false, st.lineNum, st.currFile⟩] := by
      rw [e1]
      unfold sessPrefix at h1 ⊢
      rw [List.takeWhile_cons_of_pos (by simp), h1]
    have h2' : (waiting st pq).errors.dropWhile (fun e => e.sess == q + 1) = s.errors := by
      rw [e1, List.dropWhile_cons_of_pos (by simp), h2]
    rw [h1', h2']
    have hf : ([⟨0x106, q + 1, false, st.lineNum, st.currFile⟩] : List Err).any (fun e => isFatal e.code) = false := rfl
    rw [hf]
    simp only [Bool.and_false, Bool.false_eq_true, if_false]
    congr 1
    rw [← hst]
    unfold waiting errorAt evalState calling
    simp
  rw [M.bind_ok hes]
  have hexp : expandExpr (knot (k + 1)) a true (calling s q set pq true) = .ok a (calling s q set pq true) := by
    show expandFullBody (knot k) a 0 true _ = _
    unfold expandFullBody
    rw [if_neg (by omega)]
    have hu2 : Unknown (calling s q set pq true) a := hu _ rfl rfl rfl rfl
    have hchars : ∀ c ∈ a, NameChar c := by
      intro x hx'
      rw [hcr] at hx'
      rcases List.mem_cons.1 hx' with rfl | hx'
      · unfold NameChar Alnum; omega
      · exact hx x hx'
    have hsto := Stored.single (s := calling s q set pq true) a (by rw [hcr]; simp) ⟨hu2.1, hu2.2.2⟩ hchars
    have hkt : knownText (calling s q set pq true) a = none := by unfold knownText; rw [hu2.2.1]; rfl
    rw [hkt] at hsto
    have := expandLoop_stored (knot k) 0 (calling s q set pq true) (a.length + 1) a a [] (by omega) hsto (by
      intro h34
      have := hchars 34 h34
      unfold NameChar Alnum at this
      omega)
    simpa using this
  exact ⟨pq, true, hexp, by simp⟩

/-! ### All arguments -/

/-- The argument is bound. -/
def bind1 (s : S) (p x : Str) (set : Table Define) : Table Define :=
  Table.insert (nameKey s p) { name := nameKey s p, contents := some x, args := [], line := s.lineNum, file := s.currFile } set

theorem addArg_calling (s : S) (q : Int) (p x : Str) (set : Table Define) (pd : Int) (fw : Bool) :
    addArg p (some x) (calling s q set pd fw) = .ok () (calling s q (bind1 s p x set) pd fw) := by
  unfold addArg
  show Res.ok _ _ = _
  congr 1
  have hk : keyOf (calling s q set pd fw) p = nameKey s p := by rw [keyOf_eq]; rfl
  dsimp only
  rw [hk]
  rfl

theorem Spec.InOrder.imp {R R' : List Str → Str → Option Int → Prop} {params : List Str} {done ps args : List Str} {vs : List (Option Int)}
    (h : InOrder R done ps args vs) (hd : ∀ p ∈ done, p ∈ params) (hp : ∀ p ∈ ps, p ∈ params)
    (hR : ∀ done, (∀ p ∈ done, p ∈ params) → ∀ a v, R done a v → R' done a v) : InOrder R' done ps args vs := by
  induction h with
  | nil done => exact .nil done
  | cons done p ps a as v vs h _ ih =>
    refine .cons done p ps a as v vs (hR done hd a v h) (ih ?_ (fun q hq => hp q (by simp [hq])))
    intro q hq
    rcases List.mem_cons.1 hq with rfl | hq
    · exact hp q (by simp)
    · exact hd q hq

theorem Spec.InOrder.imp_all {R R' : List Str → Str → Option Int → Prop} {params args : List Str} {vs : List (Option Int)}
    (h : InOrder R [] params args vs) (hR : ∀ done a v, R done a v → R' done a v) : InOrder R' [] params args vs :=
  InOrder.imp (params := params) h (by simp) (fun _ h => h) (fun done _ a v h => hR done a v h)

theorem Spec.InOrder.length {R : List Str → Str → Option Int → Prop} {done ps args : List Str} {vs : List (Option Int)} (h : InOrder R done ps args vs) :
    args.length = ps.length ∧ vs.length = ps.length := by
  induction h with
  | nil => exact ⟨rfl, rfl⟩
  | cons done p ps a as v vs _ _ ih => simp [ih.1, ih.2]

theorem Spec.InOrder.value {R : List Str → Str → Option Int → Prop} {done ps args : List Str} {vs : List (Option Int)} (h : InOrder R done ps args vs) :
    ∀ v ∈ vs, ∃ done a, R done a v := by
  induction h with
  | nil => simp
  | cons done p ps a as v vs h _ ih =>
    intro x hx
    rcases List.mem_cons.1 hx with rfl | hx
    · exact ⟨done, a, h⟩
    · exact ih x hx

/-- The arguments can be read for the parameters, each after the ones before it. -/
def ArgsRead (Z : Int → Prop) (k : Nat) (s : S) : List Str → List Str → List Str → List (Option Int) → Prop :=
  InOrder (fun done a v => ∃ x, ArgText a v x ∧ Evaluates Z k s done a x v.isSome)

theorem argLoop_binds (Z : Int → Prop) (k : Nat) (s : S) {q : Int} (hq : s.session ≤ q) {args : List Str} {t : Str}
    (h : Joined args t) : ∀ (done ps : List Str) (vs : List (Option Int)) (set : Table Define) (pd : Int) (fw : Bool) (e : Bool) (f : Nat) (r : Str),
    args.length = ps.length → (ps.map (nameKey s)).Nodup → (∀ p ∈ ps, p.head? ≠ some 64) →
    ArgsRead Z k s done ps args vs →
    OnlyParams s done set → EndsList r → args.length < f →
    ∃ set' pd' fw', argLoop (knot k) f e ps (t ++ r) (calling s q set pd fw) = .ok ([], r) (calling s q set' pd' fw') ∧
      ((∀ v ∈ vs, v.isSome = true) → Z pd' ∧ fw' = false) ∧
      (∀ w, nameKey s w ∉ ps.map (nameKey s) → set'.lookup (nameKey s w) = set.lookup (nameKey s w)) ∧
      (∀ p a v, (p, a, v) ∈ ps.zip (args.zip vs) → ∃ df x, set'.lookup (nameKey s p) = some df ∧ df.args = [] ∧ df.contents = some x ∧
        ArgText a v x) := by
  have step : ∀ (done : List Str) (val : Bool) (f : Nat) (e e' : Bool) (p : Str) (ps : List Str) (u a x : Str) (w : Str) (set : Table Define) (pd : Int) (fw : Bool),
      extractArg e u (calling s q set pd fw) = .ok (some a, e', w) (calling s q set pd fw) → p.head? ≠ some 64 →
      Evaluates Z k s done a x val → OnlyParams s done set →
      ∃ pd' fw', (val = true → Z pd' ∧ fw' = false) ∧ argLoop (knot k) (f + 1) e (p :: ps) u (calling s q set pd fw) = argLoop (knot k) f e' ps w (calling s q (bind1 s p x set) pd' fw') := by
    intro done val f e e' p ps u a x w set pd fw hx hp hev hset
    obtain ⟨pd', fw', hev, hval⟩ := hev q set pd fw hq hset
    refine ⟨pd', fw', hval, ?_⟩
    rw [argLoop, M.bind_ok hx]
    dsimp only
    have hp' : (hd p == 64) = false := by
      cases p with
      | nil => rfl
      | cons c p => simpa using hp
    rw [hp']
    simp only [Bool.false_eq_true, if_false]
    rw [M.bind_ok hev, M.bind_ok (addArg_calling s q p x set pd' fw')]
  have only : ∀ done p x set, OnlyParams s done set → OnlyParams s (p :: done) (bind1 s p x set) := by
    intro done p x set hset w hw
    unfold bind1
    unfold IsParam at hw
    rw [List.map_cons, List.mem_cons, not_or] at hw
    rw [Table.lookup_insert_ne _ _ _ _ hw.1]
    exact hset w hw.2
  induction h with
  | one b a b' hb hb' ha hl =>
    intro done ps vs set pd fw e f r hlen hnd' hps hvs hset hr hf
    obtain ⟨p, rfl⟩ : ∃ p, ps = [p] := List.length_eq_one_iff.1 (by simpa using hlen.symm)
    cases hvs with
    | cons _ _ _ _ _ v vs hxev hnil =>
      obtain ⟨x, hx, hev⟩ := hxev
      cases hnil
      obtain ⟨f, rfl⟩ : ∃ m, f = m + 2 := ⟨f - 2, by simp at hf; omega⟩
      obtain ⟨pd', fw', hval, hstep⟩ := step done v.isSome (f + 1) e false p [] _ a x r set pd fw (C42_last_argument b a b' r e _ hb hb' ha hl hr)
        (hps p (by simp)) hev hset
      refine ⟨bind1 s p x set, pd', fw', ?_, fun hv => hval (hv v (by simp)), ?_, ?_⟩
      · rw [hstep, argLoop, M.bind_ok (extractArg_end hr _)]
        rfl
      · intro w hw
        exact Table.lookup_insert_ne _ _ _ _ (by simpa using hw)
      · intro p' a' v' hm
        simp only [List.zip_cons_cons, List.zip_nil_right, List.mem_singleton, Prod.mk.injEq] at hm
        obtain ⟨rfl, rfl, rfl⟩ := hm
        exact ⟨_, x, Table.lookup_insert_self _ _ _, rfl, rfl, hx⟩
  | more b a b' as t hb hb' ha hl hj ih =>
    intro done ps vs set pd fw e f r hlen hnd' hps hvs hset hr hf
    obtain ⟨p, ps, rfl⟩ : ∃ p qs, ps = p :: qs := by
      cases ps with
      | nil => simp at hlen
      | cons p qs => exact ⟨p, qs, rfl⟩
    cases hvs with
    | cons _ _ _ _ _ v vs hxev hvs =>
      obtain ⟨x, hx, hev⟩ := hxev
      obtain ⟨f, rfl⟩ : ∃ m, f = m + 1 := ⟨f - 1, by simp at hf; omega⟩
      obtain ⟨pd', fw', hval, hstep⟩ := step done v.isSome f e true p ps _ a x (t ++ r) set pd fw (C42_argument b a b' (t ++ r) e _ hb hb' ha hl)
        (hps p (by simp)) hev hset
      rw [List.map_cons, List.nodup_cons] at hnd'
      obtain ⟨set', pd'', fw'', h1, h0, h2, h3⟩ := ih (p :: done) ps vs (bind1 s p x set) pd' fw' true f r (by simpa using hlen) hnd'.2
        (fun q hq => hps q (by simp [hq])) hvs (only done p x set hset) hr (by simp at hf; omega)
      refine ⟨set', pd'', fw'', ?_, fun hv => h0 (fun v hv' => hv v (by simp [hv'])), ?_, ?_⟩
      · rw [show b ++ a ++ b' ++ [44] ++ t ++ r = b ++ a ++ b' ++ [44] ++ (t ++ r) by simp, hstep, h1]
      · intro w hw
        simp only [List.map_cons, List.mem_cons, not_or] at hw
        rw [h2 w hw.2]
        exact Table.lookup_insert_ne _ _ _ _ hw.1
      · intro p' a' v' hm
        rw [List.zip_cons_cons, List.zip_cons_cons] at hm
        rcases List.mem_cons.1 hm with hm | hm
        · simp only [Prod.mk.injEq] at hm
          obtain ⟨rfl, rfl, rfl⟩ := hm
          refine ⟨{ name := nameKey s p', contents := some x, args := [], line := s.lineNum, file := s.currFile }, x, ?_, rfl, rfl, hx⟩
          rw [h2 p' hnd'.1]
          exact Table.lookup_insert_self _ _ _
        · exact h3 p' a' v' hm

/-! ### The name of a macro -/

theorem eqCaseN_mnemonic (m r n : Str) (hr : ∀ c ∈ r.head?, ¬ Alnum c) (hn : ∀ c ∈ n, Alnum c) (h : ¬ SameText n m) :
    eqCaseN (m ++ r) n (max n.length m.length) = false := by
  induction n generalizing m with
  | nil =>
    cases m with
    | nil => exact absurd rfl h
    | cons c m =>
      simp only [List.length_nil, List.length_cons, List.cons_append, Nat.zero_max]
      simp [eqCaseN]
  | cons b n ih =>
    cases m with
    | nil =>
      simp only [List.nil_append, List.length_cons, List.length_nil, Nat.max_zero]
      cases r with
      | nil => rfl
      | cons c r =>
        simp only [eqCaseN, Bool.and_eq_false_iff]
        left
        rw [beq_eq_false_iff_ne]
        intro h
        exact hr c rfl (toLower_alnum c b h (hn b (by simp)))
    | cons c m =>
      have hmax : max (b :: n).length (c :: m).length = max n.length m.length + 1 := by simp only [List.length_cons]; omega
      rw [hmax]
      simp only [List.cons_append, eqCaseN, Bool.and_eq_false_iff]
      by_cases hc : toLower c = toLower b
      · right
        refine ih m (fun x hx => hn x (by simp [hx])) (fun h' => h ?_)
        unfold SameText at h' ⊢
        simp only [List.map_cons, List.cons.injEq]
        exact ⟨(upper_of_toLower hc).symm, h'⟩
      · left
        rw [beq_eq_false_iff_ne]
        exact hc

theorem findOpcode_none (m r : Str) (os : List Opcode) (hr : ∀ c ∈ r.head?, ¬ Alnum c) (hos : ∀ o ∈ os, ∀ c ∈ o.name, Alnum c)
    (h : ∀ o ∈ os, o.name.map upperCase ≠ m.map upperCase) : findOpcode (m ++ r) m.length os = [] := by
  induction os with
  | nil => rfl
  | cons o os ih =>
    unfold findOpcode
    rw [eqCaseN_mnemonic m r o.name hr (hos o (by simp)) (h o (by simp))]
    exact ih (fun x hx => hos x (by simp [hx])) (fun x hx => h x (by simp [hx]))

theorem eqCaseN_prefix (m r n : Str) (h : eqCaseN (m ++ r) n m.length = true) : m.map upperCase <+: n.map upperCase := by
  induction m generalizing n with
  | nil => simp
  | cons c m ih =>
    cases n with
    | nil => simp [eqCaseN] at h
    | cons b n =>
      simp only [List.cons_append, List.length_cons, eqCaseN, Bool.and_eq_true, beq_iff_eq] at h
      rw [List.map_cons, List.map_cons, List.cons_prefix_cons]
      exact ⟨upper_of_toLower h.1, ih n h.2⟩

theorem parseSuffix_nodot (adl : Bool) (name : Str) (h : 46 ∉ name) : parseSuffix adl name = none := by
  cases hp : parseSuffix adl name with
  | none => rfl
  | some p =>
    obtain ⟨c, n⟩ := p
    obtain ⟨m, u, rfl, -, x, hx, hs⟩ := parseSuffix_only adl name c n hp
    obtain ⟨r, rfl, -⟩ := (Props.suffix_nameChar adl u x hx hs).2
    exact absurd (by simp) h

theorem opcodeOrMacro_call (k : Rec) (s : S) (name r : Str) (df : Define) (h : MacroName s name df) (hr : ∀ c ∈ r.head?, ¬ NameChar c) :
    opcodeOrMacro k (name ++ r) s = (callMacro k df r >>= fun p => pure (some p)) s := by
  obtain ⟨c, u, hcu, hc, hu⟩ := h.proper.1
  have hchars : ∀ x ∈ name, NameChar x := by
    intro x hx
    rw [hcu] at hx
    rcases List.mem_cons.1 hx with rfl | hx
    · unfold NameChar Alnum; omega
    · exact hu x hx
  obtain ⟨ht, hk⟩ := Props.takeName_stop name r hchars hr
  unfold opcodeOrMacro
  rw [ht, hk]
  dsimp only
  rw [M.get_bind]
  have hsfx : (if s.mode.ez80 = true then parseSuffix s.adl name else none) = none := by
    by_cases he : s.mode.ez80 = true
    · rw [if_pos he, parseSuffix_nodot _ _ (h.noSuffix he)]
    · rw [if_neg he]
  rw [hsfx]
  dsimp only
  rw [findOpcode_none name r s.opcodes (fun x hx hal => hr x hx (.inl hal)) h.table h.noMnemonic]
  dsimp only
  have hb : ∀ w : Str, w.map upperCase ∈ [b! "BUF", b! "CLR", b! "WR", b! "RUN"] → eqCaseN (name ++ r) w name.length = false := by
    intro w hw
    cases he : eqCaseN (name ++ r) w name.length with
    | false => rfl
    | true => exact absurd (eqCaseN_prefix _ _ _ he) (h.notBuiltIn _ hw)
  rw [hb (b! "buf") (by decide), hb (b! "clr") (by decide), hb (b! "wr") (by decide), hb (b! "run") (by decide)]
  simp only [Bool.false_and, Bool.false_eq_true, if_false]
  have hsd := searchDefines_calm name s (by rw [keyOf_eq]; exact refreshed_none s name h.fixed)
  rw [keyOf_eq] at hsd
  have hfd := findDefine_eq s name
  rw [h.noArgument, h.defined] at hfd
  cases hfind : findDefine (nameKey s name) s with
  | none => rw [hfind] at hfd; cases hfd
  | some p =>
    obtain ⟨ref, d⟩ := p
    rw [hfind] at hfd
    cases hfd
    rw [hfind] at hsd
    rw [M.bind_ok hsd]

/-- A statement that begins with a name in the middle of the line. -/
theorem name_lineSec (k : Rec) (b m t : Str) (hb : b ≠ [] ∧ Blanks b) (hm : Name m) (f : Nat) (s : S) :
    lineSecLoop k (f + 1) (b ++ m ++ t) s = opcodeOrMacro k (m ++ t) s := by
  obtain ⟨hne, hbl⟩ := hb
  obtain ⟨x, r, rfl, hx, -⟩ := hm.1
  have hsp : isBlank x = false := by
    unfold isBlank isSpace
    simp
    omega
  have hal : (isAlpha x || x == 95) = true := by
    unfold isAlpha isUpper isLower
    simp
    omega
  cases b with
  | nil => exact absurd rfl hne
  | cons c b =>
    have hs : skipWs (c :: b ++ (x :: r) ++ t) = (x :: r) ++ t := by
      rw [List.append_assoc, skipWs_blanks _ _ hbl]
      exact skipWs_cons _ _ hsp
    have hc := hbl c (by simp)
    rw [lineSecLoop]
    have h1 : isEnd (c :: b ++ (x :: r) ++ t) = false := by rcases hc with rfl | rfl | rfl | rfl <;> rfl
    have h2 : (isAlpha (hd (c :: b ++ (x :: r) ++ t)) || hd (c :: b ++ (x :: r) ++ t) == 95) = false := by rcases hc with rfl | rfl | rfl | rfl <;> rfl
    have h3 : isSpace (hd (c :: b ++ (x :: r) ++ t)) = true := by rcases hc with rfl | rfl | rfl | rfl <;> rfl
    dsimp only
    rw [h1, h2, h3, hs]
    simp only [Bool.false_eq_true, if_false, if_true]
    rw [if_pos (show (isAlpha (hd ((x :: r) ++ t)) || hd ((x :: r) ++ t) == 95) = true from hal)]

/-- A name with a parenthesis behind it is a statement even at the beginning of the line. -/
theorem call_lineSec (k : Rec) (b m t : Str) (hb : Blanks b) (hm : Name m) (f : Nat) (s : S) :
    lineSecLoop k (f + 1) (b ++ m ++ 40 :: t) s = opcodeOrMacro k (m ++ 40 :: t) s := by
  by_cases hne : b = []
  · subst hne
    obtain ⟨x, r, rfl, hx, hr⟩ := hm.1
    have hsk := (Props.takeName_stop (x :: r) (40 :: t) (by
      intro y hy
      rcases List.mem_cons.1 hy with rfl | hy
      · unfold NameChar Alnum; omega
      · exact hr y hy) (by
        intro c hc
        cases hc
        unfold NameChar Alnum
        omega)).2
    have hal : (isAlpha x || x == 95) = true := by
      unfold isAlpha isUpper isLower
      simp
      omega
    rw [List.nil_append, lineSecLoop]
    dsimp only
    have h1 : isEnd (x :: r ++ 40 :: t) = false := by
      unfold isEnd
      simp
      omega
    rw [h1, hsk]
    simp only [Bool.false_eq_true, if_false]
    rw [if_pos (show (isAlpha (hd (x :: r ++ 40 :: t)) || hd (x :: r ++ 40 :: t) == 95) = true from hal)]
    rfl
  · exact name_lineSec k b m (40 :: t) ⟨hne, hb⟩ hm f s

/-! ### Reading the arguments of a call -/

theorem Joined_skip {args : List Str} {t : Str} (h : Joined args t) (r : Str) (hr : ∃ c u, r = c :: u) :
    ∃ t', Joined args t' ∧ skipWs (t ++ r) = t' ++ r ∧ args.length ≤ t'.length ∧ isEnd (t' ++ r) = false ∧ hd (t' ++ r) ≠ 41 := by
  have first : ∀ (a : Str), Argument a → ∃ c u, a = c :: u ∧ isBlank c = false ∧ isEnd (c :: u) = false ∧ c ≠ 41 ∧ ∀ x, isEnd (c :: x) = false := by
    intro a ha
    obtain ⟨hne, hhead, -⟩ := ha.trimmed
    cases a with
    | nil => exact absurd rfl hne
    | cons c u =>
      have hw := hhead c rfl
      have hc : c ≠ 41 ∧ c ≠ 10 ∧ c ≠ 13 ∧ c ≠ 59 ∧ c ≠ 92 := by
        have := ha.balanced
        cases this with
        | char _ _ _ ho _ _ => unfold Ordinary at ho; omega
        | quoted => omega
        | escaped => omega
        | string => omega
        | paren => omega
      have he : ∀ x, isEnd (c :: x) = false := by
        intro x
        unfold isEnd
        simp
        omega
      refine ⟨c, u, rfl, ?_, he u, hc.1, he⟩
      unfold White at hw
      unfold isBlank isSpace
      simp
      omega
  cases h with
  | one b a b' hb hb' ha hl =>
    obtain ⟨c, u, rfl, h1, h2, h3, h4⟩ := first a ha
    refine ⟨c :: u ++ b', .one [] _ b' (by intro x hx; simp at hx) hb' ha hl, ?_, by simp, ?_, h3⟩
    · rw [List.append_assoc, List.append_assoc, skipWs_blanks _ _ hb, List.append_assoc]
      exact skipWs_cons _ _ h1
    · exact h4 _
  | more b a b' as t hb hb' ha hl hj =>
    obtain ⟨c, u, rfl, h1, h2, h3, h4⟩ := first a ha
    have hlen : as.length ≤ t.length := by
      clear hl hr first
      induction hj with
      | one b a b' _ _ ha _ =>
        obtain ⟨hne, -, -⟩ := ha.trimmed
        cases a with
        | nil => exact absurd rfl hne
        | cons c u => simp; omega
      | more b a b' as t _ _ ha _ _ ih =>
        simp
        omega
    refine ⟨c :: u ++ b' ++ [44] ++ t, .more [] _ b' as t (by intro x hx; simp at hx) hb' ha hl hj, ?_, by simp; omega, ?_, h3⟩
    · rw [show b ++ (c :: u) ++ b' ++ [44] ++ t ++ r = b ++ ((c :: u) ++ b' ++ [44] ++ t ++ r) by simp, skipWs_blanks _ _ hb]
      exact skipWs_cons _ _ h1
    · exact h4 _

/-- The arguments of a call are bound to the parameters, if each of them can be evaluated. -/
theorem parseArgs_bound (Z : Int → Prop) (k : Nat) (s : S) (df : Define) (args : List Str) (t : Str) (vs : List (Option Int)) (r : Str)
    (hp : Parameters s df.args) (h : Joined args t)
    (hvs : ArgsRead Z k s [] df.args args vs) (q : Int) (hq : s.session ≤ q) :
    ∃ set pd fw, parseArgs (knot k) (40 :: t ++ 41 :: r) df { s with session := q } = .ok (r, true) (calling s q set pd fw) ∧
      ((∀ v ∈ vs, v.isSome = true) → Z pd ∧ fw = false) ∧ Bindings s df.args args vs set := by
  obtain ⟨t', hj, hsk, hlt, he, h41⟩ := Joined_skip h (41 :: r) ⟨41, r, rfl⟩
  obtain ⟨set, pd, fw, h1, h0, h2, h3⟩ := argLoop_binds Z k s hq hj [] df.args vs [] s.parseDepth s.fwdRef true
    ((t' ++ 41 :: r).length + 2) (41 :: r) hvs.length.1 hp.different hp.plain hvs (fun w _ => rfl)
    (.inr ⟨41, r, rfl, by simp⟩) (by simp; omega)
  refine ⟨set, pd, fw, ?_, h0, ?_, ?_⟩
  · unfold parseArgs
    rw [if_neg (by simp)]
    have hadd : addArgSet { s with session := q } = .ok () (calling s q [] s.parseDepth s.fwdRef) := rfl
    rw [M.bind_ok hadd]
    have hsk' : skipWs (40 :: t ++ 41 :: r).tail = t' ++ 41 :: r := hsk
    dsimp only
    simp only [hsk']
    rw [if_pos (by rfl), if_pos (by simp [he, h41])]
    rw [M.bind_ok h1]
    rfl
  · intro p a v hm
    obtain ⟨df', x, hl, h4, h5, h6⟩ := h3 p a v hm
    exact ⟨df', x, by rw [← lookup_eq]; exact hl, h4, h5, h6⟩
  · intro w hw
    rw [← lookup_eq, h2 w hw]
    rfl

/-- An argument with a value, and a name without a meaning, can be read. -/
theorem argValue_reads {k : Nat} {s : S} (hs : Settled s) (hk : 0 < k) (done : List Str) (a : Str) (v : Option Int) (hv : ArgValue s done (min 20 k) a v) :
    ∃ x, ArgText a v x ∧ Evaluates (· = 0) k s done a x v.isSome := by
  cases v with
  | some v =>
    obtain ⟨d, hd, hden, h1, h2⟩ := hv
    refine ⟨fmtEval v, fmtEval_number v ⟨by omega, h2⟩, evaluates_value k s done a d v hs hden (by omega) (by omega) h1⟩
  | none =>
    obtain ⟨h1, h2, h3, h4, h5⟩ := hv
    exact ⟨a, rfl, evaluates_name k s done a hs h1 h2 h3 h4 h5 hk _⟩

theorem Evaluates.mono {Z Z' : Int → Prop} (hZ : ∀ p, Z p → Z' p) {k : Nat} {s : S} {params : List Str} {a x : Str} {val : Bool}
    (h : Evaluates Z k s params a x val) : Evaluates Z' k s params a x val := by
  intro q set pd fw hq hset
  obtain ⟨pd', fw', e, h'⟩ := h q set pd fw hq hset
  exact ⟨pd', fw', e, fun hv => ⟨hZ _ (h' hv).1, (h' hv).2⟩⟩

/-- The arguments of a call are bound to the parameters. -/
theorem parseArgs_binds (k : Nat) (s : S) (df : Define) (args : List Str) (t : Str) (vs : List (Option Int)) (r : Str)
    (hp : Parameters s df.args) (h : Joined args t) (hs : Settled s)
    (hvs : InOrder (fun done => ArgValue s done (min 20 k)) [] df.args args vs) (hk : 0 < k) (q : Int) (hq : s.session ≤ q) :
    ∃ set pd fw, parseArgs (knot k) (40 :: t ++ 41 :: r) df { s with session := q } = .ok (r, true) (calling s q set pd fw) ∧
      ((∀ v ∈ vs, v.isSome = true) → pd = 0 ∧ fw = false) ∧ Bindings s df.args args vs set := by
  exact parseArgs_bound (· = 0) k s df args t vs r hp h (hvs.imp_all (argValue_reads hs hk)) q hq

end Spasm
