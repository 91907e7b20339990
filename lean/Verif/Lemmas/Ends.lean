import Verif.Lemmas.Names
import Verif.Lemmas.Define
import Verif.Model.Knot
import Verif.Spec.Plain

/-
The evaluation of an expression ends, when no text has parameters.
-/

namespace Spasm

open Spasm.Spec

variable {out : Str → Prop}

/-- The budget is enough, and a result has the property. -/
def Ends {α : Type} (m : M α) (s : S) (Q : α → S → Prop) : Prop :=
  match m s with
  | .ok a s' => Q a s'
  | .stop e _ => e ≠ .fuel

theorem Ends.bind {α β : Type} {m : M α} {f : α → M β} {s : S} {Q : α → S → Prop} {R : β → S → Prop} (h : Ends m s Q)
    (h' : ∀ a s', Q a s' → Ends (f a) s' R) : Ends (m >>= f) s R := by
  unfold Ends at *
  rw [M.bind_apply]
  cases hm : m s with
  | ok a s' => rw [hm] at h; exact h' a s' h
  | stop e s' => rw [hm] at h; exact h

theorem Ends.mono {α : Type} {m : M α} {s : S} {Q R : α → S → Prop} (h : Ends m s Q) (hQ : ∀ a s', Q a s' → R a s') : Ends m s R := by
  unfold Ends at *
  cases hm : m s with
  | ok a s' => rw [hm] at h; exact hQ a s' h
  | stop e s' => rw [hm] at h; exact h

theorem Ends.pure {α : Type} {a : α} {s : S} {Q : α → S → Prop} (h : Q a s) : Ends (Pure.pure a : M α) s Q := h

theorem Ends.ub {α : Type} {u : UB} {s : S} {Q : α → S → Prop} : Ends (M.ub u : M α) s Q := by
  intro h; cases h

theorem Ends.get {s : S} {Q : S → S → Prop} (h : Q s s) : Ends M.get s Q := h

theorem Ends.modify {f : S → S} {s : S} {Q : Unit → S → Prop} (h : Q () (f s)) : Ends (M.modify f) s Q := h

/-- The variables that matter here are the same. -/
structure Alike (s s' : S) : Prop where
  defines : s'.defines = s.defines
  argSets : s'.argSets = s.argSets
  file : s'.currFile = s.currFile
  depth : s'.parseDepth = s.parseDepth

theorem Alike.refl (s : S) : Alike s s := ⟨rfl, rfl, rfl, rfl⟩

theorem Alike.trans {a b c : S} (h : Alike a b) (h' : Alike b c) : Alike a c :=
  ⟨h'.1.trans h.1, h'.2.trans h.2, h'.3.trans h.3, h'.4.trans h.4⟩

theorem Alike.plain {a b : S} (h : Alike a b) (hp : PlainTexts out a) : PlainTexts out b :=
  ⟨hp.getc, hp.file, hp.numbers, by rw [h.defines]; exact hp.defines, by rw [h.argSets]; exact hp.arguments⟩

theorem ends_setError (code : Nat) (s : S) : Ends (setError code) s (fun _ s' => Alike s s') := by
  unfold Ends setError setProblem
  split <;> rename_i h <;> split at h <;> cases h <;> exact ⟨rfl, rfl, rfl, rfl⟩

theorem ends_setWarning (code : Nat) (s : S) : Ends (setWarning code) s (fun _ s' => Alike s s') := by
  unfold Ends setWarning setProblem
  split <;> rename_i h <;> split at h <;> cases h <;> exact ⟨rfl, rfl, rfl, rfl⟩

theorem ends_showWarning (m : Msg) (s : S) : Ends (showWarning m) s (fun _ s' => Alike s s') := ⟨rfl, rfl, rfl, rfl⟩

theorem ends_startSession (s : S) : Ends startSession s (fun _ s' => Alike s s') := ⟨rfl, rfl, rfl, rfl⟩

theorem ends_endSession (n : Int) (s : S) : Ends (endSession n) s (fun _ s' => Alike s s') := by
  unfold Ends endSession
  dsimp only
  by_cases h : (n = 1 && (sessPrefix n s.errors).any (fun e => isFatal e.code)) = true
  · rw [if_pos h]; simp
  · rw [if_neg h]; exact ⟨rfl, rfl, rfl, rfl⟩

theorem ends_replaySession (n : Int) (b : Bool) (s : S) : Ends (replaySession n b) s (fun _ s' => Alike s s') := by
  unfold Ends replaySession
  by_cases h : n = 1
  · rw [if_pos h]; exact ⟨rfl, rfl, rfl, rfl⟩
  · rw [if_neg h]; exact ⟨rfl, rfl, rfl, rfl⟩

theorem ends_fail {α : Type} (code : Nat) (a : α) (s : S) : Ends (do setError code; Pure.pure a) s (fun r s' => r = a ∧ Alike s s') :=
  .bind (ends_setError code s) fun _ _ h => .pure ⟨rfl, h⟩

theorem eqCase_upper (a b : Str) (h : eqCase a b = true) : a.map upperCase = b.map upperCase := by
  have h : a.map toLower = b.map toLower := by simpa [eqCase] using h
  induction a generalizing b with
  | nil => cases b with
    | nil => rfl
    | cons c b => simp at h
  | cons x a ih =>
    cases b with
    | nil => simp at h
    | cons c b =>
      simp only [List.map_cons, List.cons.injEq] at h
      rw [List.map_cons, List.map_cons, upper_of_toLower h.1, ih b (by simpa [eqCase] using h.2) h.2]

/-! ### Texts -/

theorem Free.suffix {t u : Str} (h : Free out t) (hs : u <:+ t) : Free out u := by
  obtain ⟨x, rfl⟩ := hs
  rintro a g c rfl
  exact h (x ++ a) g c (by simp)

theorem Free.pref {t u : Str} (h : Free out t) (hs : u <+: t) : Free out u := by
  obtain ⟨x, rfl⟩ := hs
  rintro a g c rfl
  exact h a g (c ++ x) (by simp)

theorem dropChar_suffix (c : Nat) (s : Str) : dropChar c s <:+ s := by
  unfold dropChar
  split
  · exact List.tail_suffix s
  · exact List.suffix_refl s

theorem skipWs_suffix (s : Str) : skipWs s <:+ s := List.dropWhile_suffix _

theorem if_ind {p : Prop} [Decidable p] {a b : ReadEnd} {x : Str} {F : ReadEnd → Str} (h1 : F a <:+ x) (h2 : F b <:+ x) :
    F (if p then a else b) <:+ x := by
  split
  · exact h1
  · exact h2

/-- The text that is left. -/
def ReadEnd.left : ReadEnd → Str
  | .word _ r => r
  | .tooLong r => r

theorem readLoop_suffix (b : Bool) (ds : Str) (f : Nat) : ∀ z : Scan, (readLoop b ds f z).left <:+ z.con.reverse ++ z.rest := by
  induction f with
  | zero => intro z; exact List.suffix_append _ _
  | succ f ih =>
    intro z
    have step : ∀ (g : Bool) (z' : Scan), z'.con.reverse ++ z'.rest = z.con.reverse ++ z.rest →
        (if g then ReadEnd.tooLong z.rest else readLoop b ds f z').left <:+ z.con.reverse ++ z.rest := by
      intro g z' hz
      cases g
      · have := ih z'
        rw [hz] at this
        exact this
      · exact List.suffix_append _ _
    rw [readLoop]
    cases hr : z.rest with
    | nil => simp [ReadEnd.left]
    | cons c t =>
      simp only
      rw [hr] at step
      refine if_ind (List.suffix_append _ _) ?_
      refine if_ind (step _ _ (by simp)) ?_
      refine if_ind (step _ _ (by simp)) ?_
      refine if_ind (step _ _ (by simp)) ?_
      refine if_ind (step _ _ (by simp)) ?_
      refine if_ind (step _ _ (by simp)) ?_
      refine if_ind ?_ ?_
      · refine if_ind (List.suffix_append _ _) (step _ _ (by simp))
      · refine if_ind ?_ (step _ _ (by simp))
        cases hc : z.con with
        | nil => simp [ReadEnd.left]
        | cons d con =>
          have := ih { z with con := con, rest := d :: c :: t, quo := 0 }
          simpa using this

theorem ends_readExpr (ds t : Str) (b : Bool) (s : S) : Ends (readExpr ds t b) s (fun r s' => r.2.2 <:+ t ∧ Alike s s') := by
  unfold Ends readExpr
  dsimp only
  split
  · rename_i a s' h
    split at h
    · cases h
      exact ⟨skipWs_suffix t, .refl s⟩
    · have hs := readLoop_suffix b ds (3 * (skipWs t).length + 3) { con := [], rest := skipWs t }
      have hs' := hs.trans (skipWs_suffix t)
      cases hl : readLoop b ds (3 * (skipWs t).length + 3) { con := [], rest := skipWs t } with
      | word w r =>
        rw [hl] at h hs'
        cases h
        exact ⟨hs', .refl s⟩
      | tooLong r =>
        rw [hl] at h hs'
        cases h
        exact ⟨hs', rfl, rfl, rfl, rfl⟩
  · rename_i e s' h
    split at h
    · cases h
    · cases hl : readLoop b ds (3 * (skipWs t).length + 3) { con := [], rest := skipWs t } with
      | word w r => rw [hl] at h; cases h
      | tooLong r => rw [hl] at h; cases h

theorem ends_extractArg (e : Bool) (t : Str) (s : S) : Ends (extractArg e t) s (fun r s' => r.2.2 <:+ t ∧ Alike s s') := by
  unfold extractArg
  refine .bind (ends_readExpr [44] t true s) ?_
  rintro ⟨found, w, r⟩ s1 ⟨h1, h2⟩
  dsimp only at h1 ⊢
  cases found
  · cases e
    · exact ⟨h1, h2⟩
    · rw [M.when_true]
      refine .bind (ends_setError _ s1) fun _ s2 h3 => ?_
      exact ⟨h1, h2.trans h3⟩
  · rw [if_pos rfl]
    split
    · exact ⟨(List.tail_suffix r).trans h1, h2⟩
    · exact ⟨h1, h2⟩

theorem mem_lookup {α : Type} {t : Table α} {k : Str} {a : α} (h : t.lookup k = some a) : (k, a) ∈ t := by
  rw [lookup_eq] at h
  obtain ⟨p, hp, rfl⟩ := Option.map_eq_some_iff.1 h
  have := List.find?_some hp
  simp only [decide_eq_true_eq] at this
  have hm := List.mem_of_find?_eq_some hp
  rw [← this]
  exact hm

theorem mem_findArg {key : Str} {ts : List (Table Define)} {i : Nat} {r : DRef} {d : Define} (h : findArg key ts i = some (r, d)) :
    ∃ t ∈ ts, (key, d) ∈ t := by
  induction ts generalizing i with
  | nil => cases h
  | cons t ts ih =>
    rw [findArg] at h
    cases hl : t.lookup key with
    | some d' =>
      rw [hl] at h
      cases h
      exact ⟨t, by simp, mem_lookup hl⟩
    | none =>
      rw [hl] at h
      obtain ⟨t', h1, h2⟩ := ih h
      exact ⟨t', by simp [h1], h2⟩

theorem decAux_chars (f : Nat) : ∀ (n : Nat) (acc : Str), (∀ c ∈ acc, c = 45 ∨ 48 ≤ c ∧ c ≤ 57) → ∀ c ∈ decAux f n acc, c = 45 ∨ 48 ≤ c ∧ c ≤ 57 := by
  induction f with
  | zero => intro n acc h; exact h
  | succ f ih =>
    intro n acc h
    rw [decAux]
    have h' : ∀ m < 10, ∀ c ∈ (48 + m) :: acc, c = 45 ∨ 48 ≤ c ∧ c ≤ 57 := by
      intro m hm c hc
      rcases List.mem_cons.1 hc with rfl | hc
      · omega
      · exact h c hc
    split
    · exact h' n (by omega)
    · exact ih _ _ (h' _ (by omega))

theorem fmtInt_chars (n : Int) : ∀ c ∈ fmtInt n, c = 45 ∨ 48 ≤ c ∧ c ≤ 57 := by
  unfold fmtInt
  have h : ∀ c ∈ fmtNat n.natAbs, c = 45 ∨ 48 ≤ c ∧ c ≤ 57 := decAux_chars 11 _ [] (by simp)
  split
  · intro c hc
    rcases List.mem_cons.1 hc with rfl | hc
    · omega
    · exact h c hc
  · exact h

/-- A text without parameters, preprocessor lines and excluded names. -/
def PlainDefine (out : Str → Prop) (d : Define) : Prop := d.args = [] ∧ ∀ c, d.contents = some c → 35 ∉ c ∧ Free out c

theorem refreshed_plain {key : Str} {s : S} (h : PlainTexts out s) (hk : ¬ out key) {c : Str} (hr : refreshed key s = some c) : 35 ∉ c ∧ Free out c := by
  unfold refreshed at hr
  split at hr
  · cases hr
    have hch := fmtInt_chars s.lineNum
    refine ⟨fun hm => by have := hch _ hm; omega, ?_⟩
    intro a g b e
    have hg : ∀ c ∈ g, c = 45 ∨ 48 ≤ c ∧ c ≤ 57 := fun c hc => hch c (by rw [e]; simp [hc])
    have hu : g.map upperCase = g := by
      conv_rhs => rw [← List.map_id g]
      apply List.map_congr_left
      intro c hc
      have := hg c hc
      unfold upperCase
      rw [if_neg (by omega)]
      rfl
    rw [hu]
    have : ¬ out g := by
      intro hout
      obtain ⟨c, hc, h1, h2⟩ := h.numbers g hout
      have := hg c hc
      omega
    exact ⟨this, this⟩
  · split at hr
    · rename_i hf
      have e : key = b! "__FILE" := by simpa using hf
      rw [e] at hk
      exact absurd h.file hk
    · cases hr

theorem update_plain {t : Table Define} {k c : Str} (h : ∀ p ∈ t, ¬ out p.1 → PlainDefine out p.2) (hc : 35 ∉ c ∧ Free out c) :
    ∀ p ∈ t.update k (fun d => { d with contents := some c }), ¬ out p.1 → PlainDefine out p.2 := by
  intro p hp
  obtain ⟨q, hq, rfl⟩ := List.mem_map.1 hp
  split
  · intro hno
    exact ⟨(h q hq hno).1, fun c' hc' => by cases hc'; exact hc⟩
  · exact h q hq

theorem updAt_plain {ts : List (Table Define)} {k c : Str} {i : Nat} (h : ∀ t ∈ ts, ∀ p ∈ t, ¬ out p.1 → PlainDefine out p.2) (hc : 35 ∉ c ∧ Free out c) :
    ∀ t ∈ updAt (Table.update k (fun d => { d with contents := some c })) i ts, ∀ p ∈ t, ¬ out p.1 → PlainDefine out p.2 := by
  induction ts generalizing i with
  | nil => intro t ht; cases i <;> cases ht
  | cons t ts ih =>
    intro u hu
    cases i with
    | zero =>
      rcases List.mem_cons.1 hu with rfl | hu
      · exact update_plain (h t (by simp)) hc
      · exact h u (by simp [hu])
    | succ i =>
      rcases List.mem_cons.1 hu with rfl | hu
      · exact h u (by simp)
      · exact ih (fun t ht => h t (by simp [ht])) u hu

theorem ends_searchDefines (name : Str) (s : S) (h : PlainTexts out s) (hk : ¬ out (keyOf s name)) :
    Ends (searchDefines name) s (fun r s' => PlainTexts out s' ∧ s'.parseDepth = s.parseDepth ∧ ∀ x, r = some x → PlainDefine out x.2) := by
  unfold Ends searchDefines
  simp only [if_true]
  have fin : ∀ (r : DRef) (d : Define) (c : Str), refreshed (keyOf s name) s = some c → PlainDefine out d →
      PlainTexts out (writeDef r (fun d => { d with contents := some c }) s) ∧
      (writeDef r (fun d => { d with contents := some c }) s).parseDepth = s.parseDepth ∧
      ∀ x : DRef × Define, some (r, { d with contents := some c }) = some x → PlainDefine out x.2 := by
    intro r d c hr hd
    have hc := refreshed_plain h hk hr
    refine ⟨?_, ?_, fun x hx => by cases hx; exact ⟨hd.1, fun c' hc' => by cases hc'; exact hc⟩⟩
    · cases r with
      | arg i k => exact ⟨h.getc, h.file, h.numbers, h.defines, updAt_plain h.arguments hc⟩
      | glob k => exact ⟨h.getc, h.file, h.numbers, update_plain h.defines hc, h.arguments⟩
    · cases r <;> rfl
  cases ha : findArg (keyOf s name) s.argSets 0 with
  | some p =>
    obtain ⟨r, d⟩ := p
    obtain ⟨t, h1, h2⟩ := mem_findArg ha
    have hd := h.arguments t h1 _ h2 hk
    cases hr : refreshed (keyOf s name) s with
    | none => exact ⟨h, rfl, fun x hx => by cases hx; exact hd⟩
    | some c => exact fin r d c hr hd
  | none =>
    cases hl : s.defines.lookup (keyOf s name) with
    | none => exact ⟨h, rfl, fun x hx => by cases hx⟩
    | some d =>
      have hd := h.defines _ (mem_lookup hl) hk
      cases hr : refreshed (keyOf s name) s with
      | none => exact ⟨h, rfl, fun x hx => by cases hx; exact hd⟩
      | some c => exact fin (.glob (keyOf s name)) d c hr hd

theorem searchLocal_plain {name : Str} {s : S} (h : PlainTexts out s) (hk : ¬ out (keyOf s name)) {d : Define} (hd : searchLocal name s = some d) : PlainDefine out d := by
  unfold searchLocal at hd
  obtain ⟨⟨r, d'⟩, h1, h2⟩ := Option.map_eq_some_iff.1 hd
  cases h2
  obtain ⟨t, h3, h4⟩ := mem_findArg h1
  exact h.arguments t h3 _ h4 hk

/-! ### The evaluator -/

/-- What holds after an operand of the text `t`, at depth `p`. -/
def After (out : Str → Prop) (t : Str) (p : Int) (r : Option (Str × Int)) (s : S) : Prop :=
  PlainTexts out s ∧ ∀ rest v, r = some (rest, v) → rest <:+ t ∧ s.parseDepth = p

theorem After.fail {t : Str} {p : Int} {s s' : S} (h : PlainTexts out s) (ha : Alike s s') : After out t p none s' :=
  ⟨ha.plain h, fun _ _ h => by cases h⟩

theorem ends_error {t : Str} {p : Int} {s : S} (h : PlainTexts out s) (code : Nat) :
    Ends (do setError code; pure none : M (Option (Str × Int))) s (After out t p) :=
  .bind (ends_setError code s) fun _ _ ha => .pure (.fail h ha)

theorem ends_searchReusables (i : Int) (s : S) : Ends (searchReusables i) s (fun _ s' => Alike s s') := by
  unfold Ends searchReusables
  by_cases h : i = -1 ∨ i ≥ s.totalReusables
  · rw [if_pos h]; exact ⟨rfl, rfl, rfl, rfl⟩
  · rw [if_neg h]
    by_cases h' : i < 0
    · rw [if_pos h']; simp
    · rw [if_neg h']; exact .refl s

theorem ends_convGeneric (base err : Nat) (t : Str) (n : Nat) (s : S) : Ends (convGeneric base err t n) s (fun _ s' => Alike s s') := by
  unfold convGeneric
  dsimp only
  split
  · exact (ends_fail _ _ s).mono fun _ _ h => h.2
  · split
    · exact (ends_fail _ _ s).mono fun _ _ h => h.2
    · exact .refl s

theorem ends_number {t r : Str} {s : S} (h : PlainTexts out s) (hr : r <:+ t) (m : M (Option Int)) (hm : Ends m s (fun _ s' => Alike s s')) :
    Ends (do let v ← m; pure (v.map (fun v => (r, v))) : M (Option (Str × Int))) s (After out t s.parseDepth) := by
  refine .bind hm fun v s' ha => .pure ⟨ha.plain h, ?_⟩
  intro rest w hw
  obtain ⟨x, -, hx⟩ := Option.map_eq_some_iff.1 hw
  cases hx
  exact ⟨hr, ha.depth⟩

theorem ends_parsePlus (t : Str) (s : S) (h : PlainTexts out s) : Ends (parsePlus t) s (After out t s.parseDepth) := by
  unfold parsePlus
  rw [show ∀ f : S → M (Option (Str × Int)), Ends (M.get >>= f) s = Ends (f s) s from fun _ => rfl]
  dsimp only
  split
  · exact ends_error h _
  · split
    · exact ends_error h _
    · refine .bind (ends_searchReusables _ s) fun v s' ha => .pure ⟨ha.plain h, ?_⟩
      intro rest w hw
      cases hw
      exact ⟨(List.tail_suffix _).trans (List.dropWhile_suffix _), ha.depth⟩

theorem minusLoop_suffix (t : Str) : ∀ i, (minusLoop t i).1 <:+ t := by
  induction t with
  | nil => intro i; exact List.suffix_refl _
  | cons c t ih =>
    intro i
    rw [minusLoop]
    split
    · exact (ih _).trans (List.suffix_cons c t)
    · exact List.suffix_refl _

theorem ends_parseMinus (t : Str) (s : S) (h : PlainTexts out s) : Ends (parseMinus t) s (After out t s.parseDepth) := by
  unfold parseMinus
  rw [show ∀ f : S → M (Option (Str × Int)), Ends (M.get >>= f) s = Ends (f s) s from fun _ => rfl]
  dsimp only
  split
  · exact ends_error h _
  · refine .bind (ends_searchReusables _ s) fun v s' ha => .pure ⟨ha.plain h, ?_⟩
    intro rest w hw
    cases hw
    exact ⟨(List.tail_suffix _).trans ((minusLoop_suffix _ _).trans (List.tail_suffix _)), ha.depth⟩

theorem ends_closeQuote {t r : Str} {s : S} (h : PlainTexts out s) (hr : r <:+ t) (v p : Int) (hp : s.parseDepth = p) : Ends (closeQuote r v) s (After out t p) := by
  unfold closeQuote
  split
  · refine .bind (ends_showWarning _ s) fun _ s' ha => .pure ⟨ha.plain h, ?_⟩
    intro rest w hw
    cases hw
    exact ⟨hr, ha.depth.trans hp⟩
  · refine .pure ⟨h, ?_⟩
    intro rest w hw
    cases hw
    exact ⟨(List.tail_suffix r).trans hr, hp⟩

theorem ends_escapeVal (c : Nat) (s : S) : Ends (escapeVal c) s (fun _ s' => Alike s s') := by
  unfold escapeVal
  dsimp only
  repeat' split
  all_goals first | exact .refl s | exact ⟨rfl, rfl, rfl, rfl⟩

theorem ends_parseChar (t : Str) (s : S) (h : PlainTexts out s) : Ends (parseChar t) s (After out t s.parseDepth) := by
  unfold parseChar
  split
  · exact .ub
  · split
    · exact .ub
    · exact ends_closeQuote h (by simp) _ _ rfl
  · split
    · refine .bind (ends_escapeVal _ s) fun v s' ha => ends_closeQuote (ha.plain h) ?_ v _ ha.depth
      exact (List.suffix_cons _ _).trans (List.suffix_cons _ _)
    · exact ends_closeQuote h (List.suffix_cons _ _) _ _ rfl

theorem ends_parseDigits (t : Str) (s : S) (h : PlainTexts out s) : Ends (parseDigits t) s (After out t s.parseDepth) := by
  unfold parseDigits
  dsimp only
  have hs : t.dropWhile isAlnum <:+ t := List.dropWhile_suffix _
  repeat' split
  all_goals exact ends_number h hs _ (ends_convGeneric _ _ _ _ s)

theorem ends_getOp (depth : Int) (f : Nat) : ∀ (t : Str) (s : S), PlainTexts out s → t.length < f →
    Ends (getOp depth f t) s (fun n s' => PlainTexts out s' ∧ match n with
      | .done r => r <:+ t ∧ s'.parseDepth = s.parseDepth - 1
      | .op _ r => r <:+ t ∧ r.length < t.length ∧ s'.parseDepth = s.parseDepth
      | .fail => True) := by
  induction f with
  | zero => intro t s _ h; omega
  | succ f ih =>
    intro t s h hf
    rw [getOp]
    dsimp only
    have hsk := skipWs_suffix t
    split
    · have : Ends (M.when (decide (depth > 0)) (showWarning .missingParen)) s (fun _ s' => Alike s s') := by
        cases decide (depth > 0)
        · exact .refl s
        · exact ends_showWarning _ s
      refine .bind this fun _ s1 ha => ?_
      refine ⟨⟨h.getc, h.file, h.numbers, (ha.plain h).defines, (ha.plain h).arguments⟩, hsk, ?_⟩
      show s1.parseDepth - 1 = _
      rw [ha.depth]
    · cases hm : matchOp (skipWs t) with
      | some p =>
        obtain ⟨o, r⟩ := p
        dsimp only
        have hr : r <:+ skipWs t ∧ r.length < (skipWs t).length := by
          unfold matchOp at hm
          obtain ⟨q, hq, hqr⟩ := Option.map_eq_some_iff.1 hm
          cases hqr
          have hp := List.find?_some hq
          have hmem := List.mem_of_find?_eq_some hq
          have hlen : 0 < q.2.length := by
            have : ∀ d ∈ mathDefs, 0 < d.2.length := by decide
            exact this q hmem
          have hpre := List.isPrefixOf_iff_prefix.1 hp
          have hle := hpre.length_le
          exact ⟨List.drop_suffix _ _, by rw [List.length_drop]; omega⟩
        have hr' := skipWs_suffix r
        split
        · exact .bind (ends_setError _ s) fun _ _ ha => .pure ⟨ha.plain h, trivial⟩
        · refine .pure ⟨h, hr'.trans (hr.1.trans hsk), ?_, rfl⟩
          have := hr'.length_le
          have := hsk.length_le
          omega
      | none =>
        dsimp only
        split
        · rename_i h41
          have ht : (skipWs t).tail.length < t.length := by
            have := hsk.length_le
            cases hc : skipWs t with
            | nil => rw [hc] at h41; simp at h41
            | cons c r => rw [hc] at this; simpa using this
          have hts : (skipWs t).tail <:+ t := (List.tail_suffix _).trans hsk
          split
          · exact ⟨⟨h.getc, h.file, h.numbers, h.defines, h.arguments⟩, (skipWs_suffix _).trans hts, rfl⟩
          · refine .bind (ends_showWarning _ s) fun _ s1 ha => ?_
            refine (ih _ s1 (ha.plain h) (by omega)).mono ?_
            rintro n s' ⟨hp, hn⟩
            refine ⟨hp, ?_⟩
            cases n with
            | done r => exact ⟨hn.1.trans hts, by rw [hn.2, ha.depth]⟩
            | op o r => exact ⟨hn.1.trans hts, by have := hn.2.1; omega, by rw [hn.2.2, ha.depth]⟩
            | fail => trivial
        · exact .bind (ends_setError _ s) fun _ _ ha => .pure ⟨ha.plain h, trivial⟩

theorem nextCodeLine_shorter (t : Str) (h : t ≠ []) (he : isEnd (skipWs t) = true) : nextCodeLine t <:+ t ∧ (nextCodeLine t).length < t.length := by
  have hsk := skipWs_suffix t
  have hn : nextExpr [92, 59, 13, 10] t = skipWs t := by
    unfold nextExpr
    simp [he]
  unfold nextCodeLine
  dsimp only
  rw [hn]
  have hlen := hsk.length_le
  cases hc : skipWs t with
  | nil =>
    refine ⟨by simp [dropChar], ?_⟩
    cases t with
    | nil => exact absurd rfl h
    | cons c t => simp [dropChar]
  | cons c r =>
    rw [hc] at he hsk hlen
    have hr : r <:+ t := (List.suffix_cons c r).trans hsk
    have hl : r.length < t.length := by simpa using hlen
    have fin : ∀ u : Str, u <:+ r → u <:+ t ∧ u.length < t.length := fun u hu => ⟨hu.trans hr, by have := hu.length_le; omega⟩
    have hcc : c = 10 ∨ c = 13 ∨ c = 59 ∨ c = 92 := by
      unfold isEnd at he
      simp at he
      omega
    rcases hcc with rfl | rfl | rfl | rfl
    · exact fin _ (by simp [dropChar])
    · exact fin _ (by simpa [dropChar] using dropChar_suffix 10 r)
    · refine fin _ ?_
      simp only [hd_cons, beq_self_eq_true, if_true]
      unfold skipToNextLine
      rw [List.dropWhile_cons_of_pos (by decide)]
      exact (dropChar_suffix _ _).trans ((dropChar_suffix _ _).trans (List.dropWhile_suffix _))
    · exact fin _ (by
        have e : dropChar 92 (92 :: r) = r := by simp [dropChar]
        simp only [hd_cons]
        rw [if_neg (by decide), e]
        exact (dropChar_suffix _ _).trans (dropChar_suffix _ _))

theorem codeLine_prefix (t : Str) : (codeLine t).1 <+: t := by
  unfold codeLine
  dsimp only
  split
  · exact List.prefix_refl t
  · refine List.IsPrefix.trans ?_ (List.take_prefix (t.length - (nextCodeLine t).length) t)
    rw [← List.reverse_suffix]
    simp only [List.reverse_reverse]
    exact List.dropWhile_suffix _

theorem ends_parseDefineLoop (k : Rec) (f : Nat) : ∀ (t : Str) (s : S), PlainTexts out s → t.length < f → 35 ∉ t → Free out t →
    Ends (parseDefineLoop k f t) s (fun r s' => PlainTexts out s' ∧ s'.parseDepth = s.parseDepth ∧ ∀ c, r = some c → Free out c) := by
  induction f with
  | zero => intro t s _ h; omega
  | succ f ih =>
    intro t s h hf h35 hg
    rw [parseDefineLoop]
    rw [show ∀ g : S → M (Option Str), Ends (M.get >>= g) s = Ends (g s) s from fun _ => rfl]
    split
    · exact ⟨h, rfl, fun c hc => by cases hc⟩
    · rename_i hne
      have htne : t ≠ [] := by rintro rfl; simp at hne
      have hsk := skipWs_suffix t
      dsimp only
      split
      · rename_i h35'
        exfalso
        cases hc : skipWs t with
        | nil => rw [hc] at h35'; simp at h35'
        | cons c r =>
          rw [hc] at h35' hsk
          simp at h35'
          subst h35'
          exact h35 (hsk.subset (by simp))
      · split
        · refine ⟨h, rfl, fun c hc => ?_⟩
          cases hc
          exact Free.pref (Free.suffix hg hsk) (codeLine_prefix _)
        · rename_i hend
          have hend' : isEnd (skipWs t) = true := by simpa using hend
          obtain ⟨h1, h2⟩ := nextCodeLine_shorter t htne hend'
          have hp : PlainTexts out { s with lineNum := s.lineNum + 1 } := ⟨h.getc, h.file, h.numbers, h.defines, h.arguments⟩
          exact ih (nextCodeLine t) _ hp (by omega) (fun hm => h35 (h1.subset hm)) (Free.suffix hg h1)

theorem ends_parseDefine (k : Rec) (d : Define) (s : S) (h : PlainTexts out s) (hd : PlainDefine out d) :
    Ends (parseDefine k d) s (fun r s' => PlainTexts out s' ∧ s'.parseDepth = s.parseDepth ∧ ∀ c, r = some c → Free out c) := by
  unfold parseDefine
  cases hc : d.contents with
  | none => exact ⟨h, rfl, fun c hc => by cases hc⟩
  | some c => exact ends_parseDefineLoop k _ c s h (by omega) (hd.2 c hc).1 (hd.2 c hc).2

theorem ends_parseArgs (k : Rec) (t : Str) (d : Define) (s : S) (h : PlainTexts out s) (hd : PlainDefine out d) :
    Ends (parseArgs k t d) s (fun r s' => PlainTexts out s' ∧ s'.parseDepth = s.parseDepth ∧ r.1 <:+ t) := by
  unfold parseArgs
  rw [hd.1]
  split
  · exact ⟨h, rfl, List.suffix_refl t⟩
  · have hadd : PlainTexts out { s with argSets := [] :: s.argSets } := by
      refine ⟨h.getc, h.file, h.numbers, h.defines, ?_⟩
      intro u hu p hp
      rcases List.mem_cons.1 hu with rfl | hu
      · cases hp
      · exact h.arguments u hu p hp
    refine .bind (Q := fun _ s' => PlainTexts out s' ∧ s'.parseDepth = s.parseDepth) ⟨hadd, rfl⟩ ?_
    rintro _ s1 ⟨h1, hp1⟩
    split
    · dsimp only
      split
      · have hloop : Ends (argLoop k ((skipWs t.tail).length + 2) true [] (skipWs t.tail)) s1
            (fun r s' => r.1 = [] ∧ r.2 <:+ t ∧ PlainTexts out s' ∧ s'.parseDepth = s.parseDepth) := by
          rw [argLoop]
          refine .bind (ends_extractArg true _ s1) ?_
          rintro ⟨w, e, r⟩ s2 ⟨hr, ha⟩
          have hr' : r <:+ t := hr.trans ((skipWs_suffix _).trans (List.tail_suffix t))
          cases w with
          | none => exact ⟨rfl, hr', ha.plain h1, ha.depth.trans hp1⟩
          | some w =>
            refine .bind (ends_setWarning _ s2) fun _ s3 ha' => ?_
            exact ⟨rfl, hr', (ha.trans ha').plain h1, (ha.trans ha').depth.trans hp1⟩
        refine .bind hloop ?_
        rintro ⟨ps, r⟩ s2 ⟨h2, h3, h4, h5⟩
        dsimp only at h2 h3
        subst h2
        exact ⟨h4, h5, (dropChar_suffix _ _).trans h3⟩
      · exact ⟨h1, hp1, (dropChar_suffix _ _).trans ((skipWs_suffix _).trans (List.tail_suffix t))⟩
    · exact ⟨h1, hp1, dropChar_suffix _ _⟩

/-- The budget is enough for a text at its depth. -/
def EndsAt (out : Str → Prop) (n : Nat) : Prop := ∀ (t : Str) (depth : Int) (s : S), PlainTexts out s → Free out t → 20 < n + s.parseDepth →
  Ends ((knot n).numFull t depth) s (After out t s.parseDepth)

theorem ends_parseMacro (n : Nat) (ih : EndsAt out n) (d : Define) (t : Str) (s : S) (h : PlainTexts out s) (hd : PlainDefine out d) (hn : 20 < n + s.parseDepth) :
    Ends (parseMacro (knot n) d t) s (After out t s.parseDepth) := by
  unfold parseMacro
  refine .bind (ends_parseArgs _ t d s h hd) ?_
  rintro ⟨r, pushed⟩ s1 ⟨h1, hp1, hr⟩
  dsimp only at hr ⊢
  rw [show ∀ g : S → M (Option (Str × Int)), Ends (M.get >>= g) s1 = Ends (g s1) s1 from fun _ => rfl]
  refine .bind (Q := fun _ s' => PlainTexts out s' ∧ s'.parseDepth = s.parseDepth) ⟨⟨h1.getc, h1.file, h1.numbers, h1.defines, h1.arguments⟩, hp1⟩ ?_
  rintro _ s2 ⟨h2, hp2⟩
  refine .bind (ends_startSession s2) fun sess s3 ha3 => ?_
  refine .bind (ends_parseDefine _ d s3 (ha3.plain h2) hd) ?_
  rintro c s4 ⟨h4, hp4, hc⟩
  have hp4' : s4.parseDepth = s.parseDepth := by rw [hp4, ha3.depth, hp2]
  have fin : ∀ (v : Option (Str × Int)) (s5 : S), PlainTexts out s5 → (∀ x, v = some x → s5.parseDepth = s.parseDepth) →
      Ends (do
        M.modify fun st => { st with lineNum := s1.lineNum }
        let st ← M.get
        let bad := sessionCount sess st > 0
        M.when bad (do annotate sess; replaySession sess)
        endSession sess
        removeArgSet pushed
        if bad then pure none
        else
          match v with
          | some (_, v) => pure (some (r, v))
          | none => M.ub .uninitialised : M (Option (Str × Int))) s5 (After out t s.parseDepth) := by
    intro v s5 h5 hv
    refine .bind (Q := fun _ s' => PlainTexts out s' ∧ s'.parseDepth = s5.parseDepth) ⟨⟨h5.getc, h5.file, h5.numbers, h5.defines, h5.arguments⟩, rfl⟩ ?_
    rintro _ s6 ⟨h6, hp6⟩
    rw [show ∀ g : S → M (Option (Str × Int)), Ends (M.get >>= g) s6 = Ends (g s6) s6 from fun _ => rfl]
    dsimp only
    have hw : Ends (M.when (decide (sessionCount sess s6 > 0)) (do annotate sess; replaySession sess)) s6 (fun _ s' => Alike s6 s') := by
      cases decide (sessionCount sess s6 > 0)
      · exact .refl s6
      · exact ends_replaySession _ _ s6
    refine .bind hw fun _ s7 ha7 => ?_
    refine .bind (ends_endSession sess s7) fun _ s8 ha8 => ?_
    have ha := ha7.trans ha8
    have h8 := ha.plain h6
    refine .bind (Q := fun _ s' => PlainTexts out s' ∧ s'.parseDepth = s8.parseDepth) ?_ ?_
    · cases pushed
      · exact ⟨h8, rfl⟩
      · refine ⟨⟨h8.getc, h8.file, h8.numbers, h8.defines, ?_⟩, rfl⟩
        intro u hu
        exact h8.arguments u (List.mem_of_mem_tail hu)
    · rintro _ s9 ⟨h9, hp9⟩
      split
      · exact ⟨h9, fun _ _ hx => by cases hx⟩
      · cases v with
        | none => exact .ub
        | some x =>
          refine ⟨h9, ?_⟩
          intro rest w hx
          cases hx
          exact ⟨hr, by rw [hp9, ha.depth, hp6]; exact hv x rfl⟩
  cases c with
  | none =>
    refine .bind (ends_setError _ s4) fun _ s5 ha5 => ?_
    exact fin none s5 (ha5.plain h4) (fun x hx => by cases hx)
  | some c =>
    refine .bind (ih c 0 s4 h4 (hc c rfl) (by rw [hp4']; exact hn)) ?_
    rintro v s5 ⟨h5, hv⟩
    refine fin v s5 h5 ?_
    rintro ⟨rest, w⟩ hx
    rw [(hv rest w hx).2, hp4']

theorem ends_parseName (n : Nat) (ih : EndsAt out n) (t : Str) (s : S) (h : PlainTexts out s) (hg : Free out t) (hn : 20 < n + s.parseDepth) :
    Ends (parseName (knot n) t) s (After out t s.parseDepth) := by
  unfold parseName
  have hr : skipNameEnd t <:+ t := List.dropWhile_suffix _
  rw [show ∀ g : S → M (Option (Str × Int)), Ends (M.get >>= g) s = Ends (g s) s from fun _ => rfl]
  dsimp only
  have fin : ∀ (def_ : Option Define) (label : Option Label) (s1 : S), PlainTexts out s1 → s1.parseDepth = s.parseDepth → (∀ d, def_ = some d → PlainDefine out d) →
      Ends (if takeName t == [95] then
          if getCurrReusable s + 1 < s.totalReusables then do
            let v ← searchReusables (getCurrReusable s + 1)
            pure (some (skipNameEnd t, v))
          else do
            setError E.LOCAL_LABEL_FORWARD_REF
            pure none
        else
          match label with
          | some l => pure (some (skipNameEnd t, l.value))
          | none =>
            if eqCase (takeName t) (b! "eval") && hd (skipNameEnd t) == 40 then (knot n).numFull (skipNameEnd t) 0
            else if eqCase (takeName t) (b! "getc") && hd (skipNameEnd t) == 40 then parseGetc (knot n) (skipNameEnd t).tail
            else
              match def_ with
              | some d => parseMacro (knot n) d (skipNameEnd t)
              | none => do
                setError E.LABEL_NOT_FOUND
                M.modify fun st => { st with fwdRef := true }
                pure none : M (Option (Str × Int))) s1 (After out t s.parseDepth) := by
    intro def_ label s1 h1 hp1 hdef
    have up : ∀ v, After out (skipNameEnd t) s1.parseDepth v = (fun s' => After out (skipNameEnd t) s.parseDepth v s') := by intro v; rw [hp1]
    have lift : ∀ {m : M (Option (Str × Int))}, Ends m s1 (After out (skipNameEnd t) s1.parseDepth) → Ends m s1 (After out t s.parseDepth) := by
      intro m hm
      refine hm.mono ?_
      rintro v s' ⟨ha, hb⟩
      exact ⟨ha, fun rest w hw => ⟨(hb rest w hw).1.trans hr, (hb rest w hw).2.trans hp1⟩⟩
    split
    · split
      · refine .bind (ends_searchReusables _ s1) fun v s2 ha => ⟨ha.plain h1, ?_⟩
        intro rest w hw
        cases hw
        exact ⟨hr, ha.depth.trans hp1⟩
      · exact ends_error h1 _
    · cases label with
      | some l =>
        refine ⟨h1, ?_⟩
        intro rest w hw
        cases hw
        exact ⟨hr, hp1⟩
      | none =>
        dsimp only
        split
        · exact lift (ih _ 0 s1 h1 (Free.suffix hg hr) (by rw [hp1]; exact hn))
        · split
          · rename_i hgc
            exfalso
            simp only [Bool.and_eq_true, beq_iff_eq] at hgc
            have e : t = [] ++ takeName t ++ 40 :: (skipNameEnd t).tail := by
              cases hc : skipNameEnd t with
              | nil => rw [hc] at hgc; simp at hgc
              | cons c r =>
                rw [hc] at hgc
                have : c = 40 := hgc.2
                subst this
                have := List.takeWhile_append_dropWhile (p := isNameChar) (l := t)
                unfold skipNameEnd at hc
                rw [hc] at this
                unfold takeName
                simp [this]
            refine (hg _ _ _ e).2 ?_
            rw [eqCase_upper _ _ hgc.1]
            exact h.getc
          · cases def_ with
            | some d => exact lift (ends_parseMacro n ih d _ s1 h1 (hdef d rfl) (by rw [hp1]; exact hn))
            | none =>
              refine .bind (ends_setError _ s1) fun _ s2 ha => ?_
              have := ha.plain h1
              exact ⟨⟨this.getc, this.file, this.numbers, this.defines, this.arguments⟩, fun _ _ hx => by cases hx⟩
  have hkey : ¬ out (keyOf s (takeName t)) := by
    have e : t = [] ++ takeName t ++ skipNameEnd t := (List.takeWhile_append_dropWhile (p := isNameChar) (l := t)).symm
    have := hg _ _ _ e
    rw [keyOf_eq]
    unfold nameKey
    split
    · exact this.1
    · exact this.2
  cases hloc : searchLocal (takeName t) s with
  | some d =>
    exact fin (some d) none s h rfl (fun d' hd' => by cases hd'; exact searchLocal_plain h hkey hloc)
  | none =>
    simp only [Option.isSome_none, Bool.false_eq_true, if_false]
    cases hlab : searchLabels (takeName t) s with
    | some l => exact fin none (some l) s h rfl (fun d' hd' => by cases hd')
    | none =>
      simp only [Option.isSome_none, Bool.false_eq_true, if_false]
      refine .bind (ends_searchDefines (takeName t) s h hkey) ?_
      rintro d s1 ⟨h1, hp1, hd⟩
      refine fin (d.map (·.2)) none s1 h1 hp1 ?_
      intro d' hd'
      obtain ⟨x, hx, rfl⟩ := Option.map_eq_some_iff.1 hd'
      exact hd x hx

theorem After.of_suffix {t u : Str} {p : Int} {r : Option (Str × Int)} {s : S} (h : After out u p r s) (hu : u <:+ t) : After out t p r s :=
  ⟨h.1, fun rest v hv => ⟨(h.2 rest v hv).1.trans hu, (h.2 rest v hv).2⟩⟩

theorem ends_parseSingle (n : Nat) (ih : EndsAt out n) (t : Str) (s : S) (h : PlainTexts out s) (hg : Free out t) (hn : 20 < n + s.parseDepth) :
    Ends (parseSingle (knot n) t) s (After out t s.parseDepth) := by
  unfold parseSingle
  have htl := List.tail_suffix t
  have hdr : t.tail.dropWhile isAlnum <:+ t := (List.dropWhile_suffix _).trans htl
  dsimp only
  split
  · exact ends_parsePlus t s h
  · split
    · exact ends_parseMinus t s h
    · split
      · split
        · exact ends_number h hdr _ (ends_convGeneric _ _ _ _ s)
        · refine ⟨h, ?_⟩
          intro rest v hv
          cases hv
          exact ⟨htl, rfl⟩
      · split
        · exact ends_number h hdr _ (ends_convGeneric _ _ _ _ s)
        · split
          · exact (ends_parseChar t.tail s h).mono fun _ _ ha => ha.of_suffix htl
          · split
            · exact ends_parseName n ih t s h hg hn
            · split
              · exact ends_parseDigits t s h
              · exact ends_error h _

theorem unary_suffix (t : Str) : (unary t).2.2 <:+ t := by
  unfold unary
  have h := skipWs_suffix t
  have h' := List.tail_suffix (skipWs t)
  grind [List.tail_suffix, skipWs_suffix, List.IsSuffix.trans]

theorem ends_numLoop (n : Nat) (ih : EndsAt out n) (depth : Int) (f : Nat) : ∀ (total : Int) (op : Option Op) (t : Str) (s : S),
    PlainTexts out s → Free out t → 20 < n + s.parseDepth → t.length < f →
    Ends (numLoop (knot n) depth f total op t) s (After out t (s.parseDepth - 1)) := by
  induction f with
  | zero => intro _ _ _ _ _ _ _ h; omega
  | succ f ihf =>
    intro total op t s h hg hn hf
    rw [numLoop]
    have hu := unary_suffix t
    generalize unary t = q at hu
    obtain ⟨inv, neg, u⟩ := q
    dsimp only at hu ⊢
    have hgu := Free.suffix hg hu
    have hut := List.tail_suffix u
    split
    · refine .bind ((ih u.tail _ s h (Free.suffix hgu hut) hn).mono fun _ _ ha => ha.of_suffix (hut.trans hu)) ?_
      rintro r s1 ⟨h1, hr⟩
      cases r with
      | none => exact ⟨h1, fun _ _ hx => by cases hx⟩
      | some x =>
        obtain ⟨w, v⟩ := x
        obtain ⟨hw, hp1⟩ := hr w v rfl
        dsimp only
        generalize (if inv = true then icpl v else v) = v
        split
        · exact .ub
        · generalize (if neg = true then -v else v) = v
          cases applyOp op total v with
          | err c => exact ends_error h1 c
          | ub u => exact .ub
          | val total' =>
            refine .bind (ends_getOp depth (w.length + 1) w s1 h1 (by omega)) ?_
            rintro o s2 ⟨h2, ho⟩
            cases o with
            | fail => exact ⟨h2, fun _ _ hx => by cases hx⟩
            | done r =>
              refine ⟨h2, ?_⟩
              intro rest v' hv
              cases hv
              exact ⟨ho.1.trans hw, by rw [ho.2, hp1]⟩
            | op o r =>
              obtain ⟨ho1, ho2, ho3⟩ := ho
              have hsu := ho1.trans hw
              have := hw.length_le
              refine (ihf total' (some o) r s2 h2 (Free.suffix hg hsu) (by rw [ho3, hp1]; exact hn) (by omega)).mono ?_
              rintro v' s' ha
              rw [ho3, hp1] at ha
              exact ha.of_suffix hsu
    · refine .bind ((ends_parseSingle n ih u s h hgu hn).mono fun _ _ ha => ha.of_suffix hu) ?_
      rintro r s1 ⟨h1, hr⟩
      cases r with
      | none => exact ⟨h1, fun _ _ hx => by cases hx⟩
      | some x =>
        obtain ⟨w, v⟩ := x
        obtain ⟨hw, hp1⟩ := hr w v rfl
        dsimp only
        generalize (if inv = true then icpl v else v) = v
        split
        · exact .ub
        · generalize (if neg = true then -v else v) = v
          cases applyOp op total v with
          | err c => exact ends_error h1 c
          | ub u => exact .ub
          | val total' =>
            refine .bind (ends_getOp depth (w.length + 1) w s1 h1 (by omega)) ?_
            rintro o s2 ⟨h2, ho⟩
            cases o with
            | fail => exact ⟨h2, fun _ _ hx => by cases hx⟩
            | done r =>
              refine ⟨h2, ?_⟩
              intro rest v' hv
              cases hv
              exact ⟨ho.1.trans hw, by rw [ho.2, hp1]⟩
            | op o r =>
              obtain ⟨ho1, ho2, ho3⟩ := ho
              have hsu := ho1.trans hw
              have := hw.length_le
              refine (ihf total' (some o) r s2 h2 (Free.suffix hg hsu) (by rw [ho3, hp1]; exact hn) (by omega)).mono ?_
              rintro v' s' ha
              rw [ho3, hp1] at ha
              exact ha.of_suffix hsu

theorem endsAt (n : Nat) : 0 < n → EndsAt out n := by
  induction n with
  | zero => intro h; omega
  | succ n ih =>
    intro _ t depth s h hg hn
    show Ends (numFullBody (knot n) t depth) s _
    unfold numFullBody
    have hp : PlainTexts out { s with fwdRef := false, parseDepth := s.parseDepth + 1 } := ⟨h.getc, h.file, h.numbers, h.defines, h.arguments⟩
    show Ends (if s.parseDepth + 1 > 20 then _ else _) { s with fwdRef := false, parseDepth := s.parseDepth + 1 } _
    split
    · exact ends_error hp _
    · rename_i hle
      split
      · exact ends_error hp _
      · have hsk := skipWs_suffix t
        have := hsk.length_le
        refine (ends_numLoop n (ih (by omega)) depth (t.length + 1) 0 none (skipWs t) _ hp (Free.suffix hg hsk) ?_ (by omega)).mono ?_
        · show (20 : Int) < n + (s.parseDepth + 1)
          omega
        · intro v s' ha
          have e : (s.parseDepth + 1 - 1 : Int) = s.parseDepth := by omega
          rw [show ({ s with fwdRef := false, parseDepth := s.parseDepth + 1 } : S).parseDepth - 1 = s.parseDepth from e] at ha
          exact ha.of_suffix hsk

end Spasm
