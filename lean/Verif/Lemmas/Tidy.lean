import Verif.Lemmas.Still

/-
The symbol tables stay tidy: sorted by name without repetition, every entry stored under its own name, and no name
in both.
-/

namespace Spasm

/-- The order of std::map. -/
def Ordered {α : Type} (t : Table α) : Prop := t.Pairwise (fun a b => strLt a.1 b.1 = true)

/-- Tidy symbol tables. -/
structure Good (s : S) : Prop where
  labels : Ordered s.labels
  defines : Ordered s.defines
  labelNames : ∀ p ∈ s.labels, p.2.name = p.1
  defineNames : ∀ p ∈ s.defines, p.2.name = p.1
  apart : ∀ key, s.labels.lookup key = none ∨ s.defines.lookup key = none
  labelKeys : ∀ p ∈ s.labels, keyOf s p.1 = p.1
  defineKeys : ∀ p ∈ s.defines, keyOf s p.1 = p.1

theorem strLt_irrefl : ∀ a : Str, strLt a a = false
  | [] => rfl
  | a :: as => by unfold strLt; simp [strLt_irrefl as]

theorem strLt_trans : ∀ {a b c : Str}, strLt a b = true → strLt b c = true → strLt a c = true
  | _, [], _, h, _ => by simp [strLt] at h
  | _, _ :: _, [], _, h => by simp [strLt] at h
  | [], _ :: _, _ :: _, _, _ => by simp [strLt]
  | a :: as, b :: bs, c :: cs, h, h' => by
    unfold strLt at h h' ⊢
    split at h
    · split at h'
      · rw [if_pos (by omega)]
      · split at h'
        · cases h'
        · rw [if_pos (by omega)]
    · split at h
      · cases h
      · split at h'
        · rw [if_pos (by omega)]
        · split at h'
          · cases h'
          · rw [if_neg (by omega), if_neg (by omega)]
            exact strLt_trans h h'

theorem strLt_total : ∀ {a b : Str}, a ≠ b → strLt a b = false → strLt b a = true
  | [], [], h, _ => by simp at h
  | _ :: _, [], _, _ => by simp [strLt]
  | [], _ :: _, _, h => by simp [strLt] at h
  | a :: as, b :: bs, hne, h => by
    unfold strLt at h ⊢
    split at h
    · cases h
    · split at h
      · rw [if_pos (by omega)]
      · rename_i h1 h2
        have : a = b := by omega
        subst this
        rw [if_neg (by omega), if_neg (by omega)]
        exact strLt_total (fun e => hne (by rw [e])) h

theorem mem_insert_iff {α : Type} {k : Str} {v : α} {p : Str × α} : ∀ {t : Table α}, p ∈ Table.insert k v t → p = (k, v) ∨ p ∈ t
  | [], h => by simp [Table.insert] at h; exact .inl h
  | (k', v') :: t, h => by
    unfold Table.insert at h
    split at h
    · rename_i he
      have : k = k' := by simpa using he
      subst this
      rcases List.mem_cons.1 h with rfl | h
      · exact .inl rfl
      · exact .inr (List.mem_cons_of_mem _ h)
    · split at h
      · rcases List.mem_cons.1 h with rfl | h
        · exact .inl rfl
        · exact .inr h
      · rcases List.mem_cons.1 h with rfl | h
        · exact .inr (List.mem_cons_self)
        · rcases mem_insert_iff h with h | h
          · exact .inl h
          · exact .inr (List.mem_cons_of_mem _ h)

theorem Ordered.insert {α : Type} (k : Str) (v : α) : ∀ {t : Table α}, Ordered t → Ordered (Table.insert k v t)
  | [], _ => by unfold Ordered Table.insert; simp
  | (k', v') :: t, h => by
    have h1 := List.pairwise_cons.1 h
    unfold Table.insert
    split
    · exact List.pairwise_cons.2 ⟨h1.1, h1.2⟩
    · rename_i hne
      split
      · rename_i hlt
        refine List.pairwise_cons.2 ⟨?_, h⟩
        intro p hp
        rcases List.mem_cons.1 hp with rfl | hp
        · exact hlt
        · exact strLt_trans hlt (h1.1 p hp)
      · rename_i hlt
        refine List.pairwise_cons.2 ⟨?_, Ordered.insert k v h1.2⟩
        intro p hp
        rcases mem_insert_iff hp with rfl | hp
        · exact strLt_total (by simpa using hne) (by simpa using hlt)
        · exact h1.1 p hp

theorem Ordered.update {α : Type} (k : Str) (f : α → α) {t : Table α} (h : Ordered t) : Ordered (Table.update k f t) := by
  unfold Ordered Table.update
  refine List.pairwise_map.2 (List.Pairwise.imp ?_ h)
  intro a b hab
  have e : ∀ p : Str × α, (if (p.1 == k) = true then (p.1, f p.2) else p).1 = p.1 := by
    intro p; split <;> rfl
  rw [e, e]
  exact hab

theorem Ordered.erase {α : Type} (k : Str) {t : Table α} (h : Ordered t) : Ordered (Table.erase k t) :=
  List.Pairwise.filter _ h

theorem names_update {α : Type} (name : α → Str) (k : Str) (f : α → α) (hf : ∀ d, name (f d) = name d) {t : Table α}
    (h : ∀ p ∈ t, name p.2 = p.1) : ∀ p ∈ Table.update k f t, name p.2 = p.1 := by
  unfold Table.update
  intro p hp
  obtain ⟨q, hq, rfl⟩ := List.mem_map.1 hp
  split
  · rw [hf]; exact h q hq
  · exact h q hq

theorem lookup_erase_none {α : Type} (k key : Str) (t : Table α) (h : t.lookup key = none) : (Table.erase k t).lookup key = none := by
  unfold Table.lookup Table.erase at *
  rw [Option.map_eq_none_iff, List.find?_eq_none] at *
  intro p hp
  exact h p (List.mem_filter.1 hp).1

theorem lookup_mem' {α : Type} {t : Table α} {key : Str} {d : α} (h : t.lookup key = some d) : (key, d) ∈ t := by
  unfold Table.lookup at h
  rw [Option.map_eq_some_iff] at h
  obtain ⟨p, hp, rfl⟩ := h
  have hk : p.1 = key := by simpa using List.find?_some hp
  rw [← hk]
  exact List.mem_of_find?_eq_some hp

/-- Tidy tables stay tidy, and names are compared as before. -/
structure TidyR (s s' : S) : Prop where
  good : Good s → Good s'
  sens : s'.caseSens = s.caseSens

theorem TidyR.refl (s : S) : TidyR s s := ⟨id, rfl⟩

theorem TidyR.trans {a b c : S} (h : TidyR a b) (h' : TidyR b c) : TidyR a c := ⟨h'.good ∘ h.good, h'.sens.trans h.sens⟩

theorem keyOf_same {s s' : S} (h : s'.caseSens = s.caseSens) (t : Str) : keyOf s' t = keyOf s t := by
  unfold keyOf
  rw [h]

theorem keyed_update {α : Type} {P : Str → Prop} (key : Str) (f : α → α) {t : Table α} (h : ∀ p ∈ t, P p.1) : ∀ p ∈ t.update key f, P p.1 := by
  intro p hp
  obtain ⟨q, hq, rfl⟩ := List.mem_map.1 hp
  split
  · exact h q hq
  · exact h q hq

/-- The tables are the same. -/
structure Tables (s s' : S) : Prop where
  labels : s'.labels = s.labels
  defines : s'.defines = s.defines
  sens : s'.caseSens = s.caseSens

theorem Tables.good {s s' : S} (h : Tables s s') (g : Good s) : Good s' := by
  constructor
  · rw [h.labels]; exact g.labels
  · rw [h.defines]; exact g.defines
  · rw [h.labels]; exact g.labelNames
  · rw [h.defines]; exact g.defineNames
  · rw [h.labels, h.defines]; exact g.apart
  · rw [h.labels]; intro p hp; rw [keyOf_same h.sens]; exact g.labelKeys p hp
  · rw [h.defines]; intro p hp; rw [keyOf_same h.sens]; exact g.defineKeys p hp

theorem Tables.tidy {s s' : S} (h : Tables s s') : TidyR s s' := ⟨h.good, h.sens⟩

/-- A piece of the program that keeps the tables tidy. -/
structure Tidy {α : Type} (m : M α) : Prop where
  tidy : ∀ s, TidyR s (m s).state

namespace Tidy
variable {α β : Type}

theorem ok {m : M α} (h : Tidy m) {s s' : S} {a : α} (e : m s = .ok a s') : TidyR s s' := by
  have := h.tidy s
  rw [e] at this
  exact this

theorem pure (a : α) : Tidy (Pure.pure a : M α) := ⟨fun s => .refl s⟩
theorem pure' (a : α) : Tidy (M.pure' a : M α) := ⟨fun s => .refl s⟩
theorem halt (e : Stop) : Tidy (M.halt e : M α) := ⟨fun s => .refl s⟩
theorem ub (u : UB) : Tidy (M.ub u : M α) := ⟨fun s => .refl s⟩
theorem get : Tidy M.get := ⟨fun s => .refl s⟩

theorem bind {m : M α} {f : α → M β} (h : Tidy m) (h' : ∀ a, Tidy (f a)) : Tidy (m >>= f) := by
  constructor
  intro s
  have := h.tidy s
  rw [M.bind_apply]
  cases hms : m s with
  | ok a s' => rw [hms] at this; exact TidyR.trans this ((h' a).tidy s')
  | stop e s' => rw [hms] at this; exact this

theorem when {c : Bool} {m : M Unit} (h : Tidy m) : Tidy (M.when c m) := by
  cases c
  · exact Tidy.pure ()
  · exact h

theorem modify {f : S → S} (h : ∀ s, TidyR s (f s)) : Tidy (M.modify f) := ⟨h⟩

theorem free {f : S → S} (h : ∀ s, Tables s (f s)) : Tidy (M.modify f) := ⟨fun s => (h s).tidy⟩

end Tidy

theorem tidy_pure {α : Type} (a : α) : Tidy (pure a : M α) := Tidy.pure a
theorem tidy_pure' {α : Type} (a : α) : Tidy (M.pure' a : M α) := Tidy.pure' a
theorem tidy_halt {α : Type} (e : Stop) : Tidy (M.halt e : M α) := Tidy.halt e
theorem tidy_ub {α : Type} (u : UB) : Tidy (M.ub u : M α) := Tidy.ub u
theorem tidy_get : Tidy M.get := Tidy.get

theorem tidy_update (s : S) (key : Str) (f : Define → Define) (h : ∀ d, (f d).name = d.name) :
    TidyR s { s with defines := s.defines.update key f } := TidyR.mk (sens := rfl) <| fun g =>
  { labelKeys := g.labelKeys
    defineKeys := fun p hp => keyed_update (P := fun t => keyOf s t = t) key f g.defineKeys p hp
    labels := g.labels
    defines := g.defines.update key f
    labelNames := g.labelNames
    defineNames := names_update Define.name key f h g.defineNames
    apart := fun k => (g.apart k).imp_right fun h => by
      show (Table.update key f s.defines).lookup k = none
      rw [Table.lookup_update]
      split
      · subst_vars; rw [h]; rfl
      · exact h }

theorem tidyR_writeDef (r : DRef) (f : Define → Define) (h : ∀ d, (f d).name = d.name) (s : S) : TidyR s (writeDef r f s) := by
  cases r
  · exact Tables.tidy ⟨rfl, rfl, rfl⟩
  · exact tidy_update s _ f h

theorem tidy_writeDef (r : DRef) (f : Define → Define) (h : ∀ d, (f d).name = d.name) : Tidy (M.modify (writeDef r f)) :=
  Tidy.modify fun s => tidyR_writeDef r f h s

/-- Compositional proof of `Tidy`. -/
macro "tidy" : tactic => `(tactic|
  repeat' (first
    | with_reducible apply Tidy.bind
    | with_reducible apply Tidy.when
    | intro _
    | (with_reducible apply tidy_writeDef); (intro _; rfl)
    | with_reducible assumption
    | with_reducible dispatch "tidy_"
    | (with_reducible apply Tidy.free); (intro _; constructor <;> with_reducible rfl)
    | split
    | dsimp only))

/-! ### errors.cpp -/

theorem tidy_startSession : Tidy startSession := ⟨fun s => Tables.tidy ⟨rfl, rfl, rfl⟩⟩

theorem tidy_replaySession (n : Int) (b : Bool) : Tidy (replaySession n b) := by
  constructor; intro s
  unfold replaySession
  split <;> exact Tables.tidy ⟨rfl, rfl, rfl⟩

theorem tidy_replayFatal (n : Int) : Tidy (replayFatal n) := tidy_replaySession n true

theorem tidy_endSession (n : Int) : Tidy (endSession n) := by
  constructor; intro s
  unfold endSession
  dsimp only
  split <;> exact Tables.tidy ⟨rfl, rfl, rfl⟩

theorem tidy_clearSessions : Tidy clearSessions := ⟨fun s => Tables.tidy ⟨rfl, rfl, rfl⟩⟩

theorem tidy_setProblem (c : Nat) (w : Bool) : Tidy (setProblem c w) := by
  constructor; intro s
  unfold setProblem
  split <;> exact Tables.tidy ⟨rfl, rfl, rfl⟩

theorem tidy_setError (c : Nat) : Tidy (setError c) := tidy_setProblem c false
theorem tidy_setWarning (c : Nat) : Tidy (setWarning c) := tidy_setProblem c true
theorem tidy_annotate (n : Int) : Tidy (annotate n) := Tidy.pure ()
theorem tidy_showError (m : Msg) : Tidy (showError m) := by unfold showError; tidy
theorem tidy_showFatal (m : Msg) : Tidy (showFatal m) := by unfold showFatal; tidy
theorem tidy_showWarning (m : Msg) : Tidy (showWarning m) := by unfold showWarning; tidy

/-! ### Scanners and storage -/

theorem tidy_readExpr (d s : Str) (b : Bool) : Tidy (readExpr d s b) := by
  constructor
  intro st
  unfold readExpr
  dsimp only
  split
  · exact .refl st
  · split
    · exact .refl st
    · exact Tables.tidy ⟨rfl, rfl, rfl⟩

theorem tidy_extractArg (e : Bool) (s : Str) : Tidy (extractArg e s) := by
  unfold extractArg; tidy

theorem tidy_searchDefines (n : Str) (l : Bool) : Tidy (searchDefines n l) := by
  constructor
  intro s
  unfold searchDefines
  dsimp only
  split
  · exact .refl s
  · split
    · exact .refl s
    · exact tidyR_writeDef _ (fun d => { d with contents := some _ }) (fun _ => rfl) s

theorem keyOf_keyOf (s : S) (n : Str) : keyOf s (keyOf s n) = keyOf s n := by
  unfold keyOf
  split
  · rfl
  · unfold strup
    rw [List.map_map]
    congr 1
    funext c
    unfold toUpper isLower
    simp only [Function.comp]
    by_cases h : (97 ≤ c && c ≤ 122) = true
    · simp only [h, if_true]
      rw [if_neg]
      simp at h ⊢
      omega
    · simp only [h, if_false, Bool.false_eq_true]

/-- A name not found among the defines is not in their table. -/
theorem searchDefines_misses {n : Str} {l : Bool} {s s' : S} (h : searchDefines n l s = .ok none s') :
    s' = s ∧ s.defines.lookup (keyOf s n) = none := by
  unfold searchDefines at h
  dsimp only at h
  split at h
  · rename_i hf
    cases h
    refine ⟨rfl, ?_⟩
    split at hf
    · cases hf
    · exact Option.map_eq_none_iff.1 hf
  · split at h <;> cases h

theorem tidy_newDefine (s : S) (key : Str) (d : Define) (hd : d.name = key) (h : s.labels.lookup key = none) (hk : keyOf s key = key) :
    TidyR s { s with defines := s.defines.insert key d } := TidyR.mk (sens := rfl) <| fun g =>
  { labelKeys := g.labelKeys
    defineKeys := fun p hp => by
      rcases mem_insert_iff hp with rfl | hp
      · exact hk
      · exact g.defineKeys p hp
    labels := g.labels
    defines := g.defines.insert key d
    labelNames := g.labelNames
    defineNames := fun p hp => by
      rcases mem_insert_iff hp with rfl | hp
      · exact hd
      · exact g.defineNames p hp
    apart := fun k => by
      show _ ∨ (Table.insert key d s.defines).lookup k = none
      by_cases hk : k = key
      · subst hk; exact .inl h
      · rw [Table.lookup_insert_ne _ _ _ _ hk]; exact g.apart k }

theorem tidy_newLabel (s : S) (key : Str) (d : Label) (hd : d.name = key) (h : s.defines.lookup key = none) (hk : keyOf s key = key) :
    TidyR s { s with labels := s.labels.insert key d } := TidyR.mk (sens := rfl) <| fun g =>
  { defineKeys := g.defineKeys
    labelKeys := fun p hp => by
      rcases mem_insert_iff hp with rfl | hp
      · exact hk
      · exact g.labelKeys p hp
    labels := g.labels.insert key d
    defines := g.defines
    labelNames := fun p hp => by
      rcases mem_insert_iff hp with rfl | hp
      · exact hd
      · exact g.labelNames p hp
    defineNames := g.defineNames
    apart := fun k => by
      show (Table.insert key d s.labels).lookup k = none ∨ _
      by_cases hk : k = key
      · subst hk; exact .inr h
      · rw [Table.lookup_insert_ne _ _ _ _ hk]; exact g.apart k }

theorem tidy_setLabel (s : S) (key : Str) (v : Int) :
    TidyR s { s with labels := s.labels.update key (fun l => { l with value := v }) } := TidyR.mk (sens := rfl) <| fun g =>
  { defineKeys := g.defineKeys
    labelKeys := fun p hp => keyed_update (P := fun t => keyOf s t = t) key (fun l => { l with value := v }) g.labelKeys p hp
    labels := g.labels.update key (fun l => { l with value := v })
    defines := g.defines
    labelNames := names_update Label.name key (fun l => { l with value := v }) (fun _ => rfl) g.labelNames
    defineNames := g.defineNames
    apart := fun k => (g.apart k).imp_left fun h => by
      show (Table.update key (fun l => { l with value := v }) s.labels).lookup k = none
      rw [Table.lookup_update]
      split
      · subst_vars; rw [h]; rfl
      · exact h }

theorem tidy_addDefine (n : Str) (l : Bool) : Tidy (addDefine n l) := by
  unfold addDefine
  split
  · tidy
  · constructor
    intro s
    rw [M.get_bind]
    cases hl : s.labels.lookup (keyOf s n) with
    | some _ => exact Tidy.tidy (m := do showError .labelConflict; pure none) (by tidy) s
    | none =>
      dsimp only
      rw [M.bind_apply]
      have h := (tidy_searchDefines (keyOf s n) l).tidy s
      cases hs : searchDefines (keyOf s n) l s with
      | stop e s' => rw [hs] at h; exact h
      | ok a s' =>
        rw [hs] at h
        cases a with
        | some p => exact TidyR.trans h (tidyR_writeDef p.1 (fun d => { d with args := [] }) (fun _ => rfl) s')
        | none =>
          obtain ⟨rfl, hd⟩ := searchDefines_misses hs
          exact tidy_newDefine s' _ _ rfl hl (keyOf_keyOf s' n)

theorem addDefine_labels (n : Str) (l : Bool) (s : S) : (addDefine n l s).state.labels = s.labels := by
  unfold addDefine
  split
  · rfl
  · rw [M.get_bind]
    cases hl : s.labels.lookup (keyOf s n) with
    | some _ => rfl
    | none =>
      dsimp only
      rw [M.bind_apply]
      cases hs : searchDefines (keyOf s n) l s with
      | stop e s' =>
        unfold searchDefines at hs
        dsimp only at hs
        split at hs
        · cases hs
        · split at hs <;> cases hs
      | ok a s' =>
        have e : s'.labels = s.labels := by
          unfold searchDefines at hs
          dsimp only at hs
          split at hs
          · cases hs; rfl
          · split at hs
            · cases hs; rfl
            · cases hs
              unfold writeDef; split <;> rfl
        cases a with
        | none => exact e
        | some p => obtain ⟨r, d⟩ := p; cases r <;> exact e

/-- No define has parameters. -/
def Bare (s : S) : Prop := ∀ p ∈ s.defines, p.2.args = []

/-- The labels are the same, and still no define has parameters. -/
def Hushed (s s' : S) : Prop := s'.labels = s.labels ∧ Bare s'

theorem Hushed.trans {a b c : S} (h : Hushed a b) (h' : Hushed b c) : Hushed a c := ⟨h'.1.trans h.1, h'.2⟩

theorem bare_update {t : Table Define} (k : Str) (f : Define → Define) (hf : ∀ d, d.args = [] → (f d).args = [])
    (h : ∀ p ∈ t, p.2.args = []) : ∀ p ∈ t.update k f, p.2.args = [] := by
  intro p hp
  unfold Table.update at hp
  obtain ⟨q, hq, rfl⟩ := List.mem_map.1 hp
  split
  · exact hf _ (h q hq)
  · exact h q hq

theorem bare_writeDef (r : DRef) (c : Str) (s : S) (h : Bare s) : Bare (writeDef r (fun d => { d with contents := some c }) s) := by
  cases r
  · exact h
  · exact bare_update _ (fun d => { d with contents := some c }) (fun _ h => h) h

theorem hushed_searchDefines (n : Str) (s s' : S) (x : Option (DRef × Define)) (h : Bare s) (e : searchDefines n false s = .ok x s') :
    Hushed s s' ∧ ∀ p ∈ x, p.2.args = [] := by
  unfold searchDefines at e
  dsimp only at e
  simp only [Bool.false_eq_true, if_false] at e
  cases hl : s.defines.lookup (keyOf s n) with
  | none => rw [hl] at e; cases e; exact ⟨⟨rfl, h⟩, by simp⟩
  | some d =>
    have hd : d.args = [] := by
      unfold Table.lookup at hl
      obtain ⟨p, hp, rfl⟩ := Option.map_eq_some_iff.1 hl
      exact h p (List.mem_of_find?_eq_some hp)
    rw [hl] at e
    dsimp only [Option.map_some] at e
    split at e
    · cases e; exact ⟨⟨rfl, h⟩, by simpa using hd⟩
    · cases e; exact ⟨⟨rfl, bare_writeDef _ _ s h⟩, by simpa using hd⟩

theorem addDefine_bare {n : Str} {st s1 : S} {x : Option (DRef × Bool)} (e : addDefine n false { st with defines := [] } = .ok x s1) : Bare s1 := by
  unfold addDefine at e
  split at e
  · cases e; intro p hp; simp at hp
  · rw [M.get_bind] at e
    cases hl : ({ st with defines := [] } : S).labels.lookup (keyOf { st with defines := [] } n) with
    | some _ => rw [hl] at e; cases e; intro p hp; simp at hp
    | none =>
      rw [hl] at e
      cases e
      intro p hp
      rcases mem_insert_iff hp with rfl | hp
      · rfl
      · simp at hp

/-- Expanding a text while no define has parameters changes no label. -/
theorem hushed_knot (n : Nat) : ∀ s d st, Bare st → Hushed st ((knot n).expandFull s d false st).state := by
  induction n with
  | zero => intro s d st h; exact ⟨rfl, h⟩
  | succ n ih =>
    intro s d st h
    show Hushed st (expandFullBody (knot n) s d false st).state
    unfold expandFullBody
    split
    · exact ⟨rfl, h⟩
    · generalize s.length + 1 = f
      generalize ([] : Str) = out
      revert s st out
      induction f with
      | zero => intro s st h out; exact ⟨rfl, h⟩
      | succ f ihf =>
        intro s st h out
        unfold expandLoop
        split
        · exact ⟨rfl, h⟩
        · dsimp only
          generalize (if (hd s == 34) = true then skipQuoted s.tail else s) = q
          generalize out ++ between s q = out
          split
          · rw [M.get_bind, M.bind_apply]
            generalize takeName q = name
            cases hs : searchDefines name false st with
            | stop e s' =>
              unfold searchDefines at hs
              dsimp only at hs
              split at hs
              · cases hs
              · split at hs <;> cases hs
            | ok x s' =>
              obtain ⟨hq, hx⟩ := hushed_searchDefines name st s' x h hs
              dsimp only
              have other : ∀ r : Str, Hushed st ((match searchLabels name st with
                  | some l => expandLoop (knot n) d false f (r.dropWhile (fun c => separators.contains c))
                      (out ++ (fmtInt l.value).take 9 ++ between r (r.dropWhile (fun c => separators.contains c)))
                  | none => expandLoop (knot n) d false f (r.dropWhile (fun c => separators.contains c))
                      (out ++ name ++ between r (r.dropWhile (fun c => separators.contains c)))) s').state := by
                intro r
                cases searchLabels name st <;> exact hq.trans (ihf _ _ hq.2 _)
              match x, hx with
              | none, _ => exact other _
              | some (_, ⟨nm, none, args, ln, fl⟩), _ => exact other _
              | some (_, ⟨nm, some c, args, ln, fl⟩), hx =>
                have ha : args = [] := hx _ rfl
                subst ha
                dsimp only
                rw [if_neg (by simp), M.pure_bind]
                dsimp only
                have he := ih c (d + 1) s' hq.2
                rw [M.bind_apply]
                cases hx : (knot n).expandFull c (d + 1) false s' with
                | stop e s2 => rw [hx] at he; exact hq.trans he
                | ok e s2 =>
                  rw [hx] at he
                  dsimp only
                  have e0 : removeArgSet false = (pure () : M Unit) := rfl
                  rw [e0, M.pure_bind, M.get_bind]
                  have hq2 : Hushed st s2 := hq.trans he
                  split
                  · exact hq2
                  · exact hq2.trans (ihf _ _ hq2.2 _)
          · split
            · exact ihf _ _ h _
            · exact ihf _ _ h _

theorem good_hidden {s : S} (g : Good s) : Good { s with defines := [] } :=
  ⟨g.labels, List.Pairwise.nil, g.labelNames, by simp, fun _ => .inr rfl, g.labelKeys, by simp⟩

theorem tidy_removeDefine (n : Str) : Tidy (removeDefine n) := Tidy.modify fun s => TidyR.mk (sens := rfl) <| fun g =>
  { labelKeys := g.labelKeys
    defineKeys := fun p hp => g.defineKeys p (List.mem_filter.1 hp).1
    labels := g.labels
    defines := g.defines.erase _
    labelNames := g.labelNames
    defineNames := fun p hp => g.defineNames p (List.mem_filter.1 hp).1
    apart := fun k => (g.apart k).imp_right (lookup_erase_none _ k _) }

theorem tidy_addReusable : Tidy addReusable := by
  constructor
  intro s
  unfold addReusable
  split
  · exact .refl s
  · exact Tables.tidy ⟨rfl, rfl, rfl⟩

theorem tidy_setCurrReusable (i : Int) : Tidy (setCurrReusable i) := by
  unfold setCurrReusable; tidy

theorem tidy_searchReusables (i : Int) : Tidy (searchReusables i) := by
  constructor
  intro s
  unfold searchReusables
  split
  · exact Tables.tidy ⟨rfl, rfl, rfl⟩
  · split
    · exact .refl s
    · exact .refl s

theorem tidy_addArgSet : Tidy addArgSet := by unfold addArgSet; tidy
theorem tidy_addArg (n : Str) (v : Option Str) : Tidy (addArg n v) := Tidy.free fun s => ⟨rfl, rfl, rfl⟩
theorem tidy_removeArgSet (b : Bool) : Tidy (removeArgSet b) := by unfold removeArgSet; tidy

theorem tidy_addLabel (n : Str) (v : Int) : Tidy (addLabel n v) := by
  constructor
  intro s
  unfold addLabel
  simp only [M.get_bind]
  split
  · exact .refl s
  · rw [M.bind_apply]
    have h := (tidy_searchDefines (keyOf s n) true).tidy s
    cases hs : searchDefines (keyOf s n) true s with
    | stop e s' => rw [hs] at h; exact h
    | ok a s' =>
      rw [hs] at h
      cases a with
      | some p => exact TidyR.trans h ((tidy_showError _).tidy s')
      | none =>
        obtain ⟨rfl, hd⟩ := searchDefines_misses hs
        rw [keyOf_keyOf] at hd
        dsimp only
        cases hlook : s'.labels.lookup (keyOf s' n) with
        | some l =>
          dsimp only
          split
          · exact (tidy_setLabel s' _ _).trans ((tidy_showWarning _).tidy _)
          · exact .refl s'
        | none => exact tidy_newLabel s' _ _ rfl hd (keyOf_keyOf s' n)

/-! ### The functions that call back -/

/-- The callbacks only take steps. -/
structure RecTidy (k : Rec) : Prop where
  numFull : ∀ s d, Tidy (k.numFull s d)
  expandFull : ∀ s d l, Tidy (k.expandFull s d l)
  handlePreop : ∀ s, Tidy (k.handlePreop s)
  preopIf : ∀ s, Tidy (k.preopIf s)
  lineSec : ∀ s, Tidy (k.lineSec s)
  emitString : ∀ s e, Tidy (k.emitString s e)
  quiet : ∀ s d st, Bare st → Hushed st (k.expandFull s d false st).state

theorem tidy_numFull {k : Rec} (hk : RecTidy k) (s : Str) (d : Int) : Tidy (k.numFull s d) := hk.numFull s d
theorem tidy_expandFull {k : Rec} (hk : RecTidy k) (s : Str) (d : Nat) (l : Bool) : Tidy (k.expandFull s d l) :=
  hk.expandFull s d l
theorem tidy_handlePreop {k : Rec} (hk : RecTidy k) (s : Str) : Tidy (k.handlePreop s) := hk.handlePreop s
theorem tidy_preopIf {k : Rec} (hk : RecTidy k) (s : Str) : Tidy (k.preopIf s) := hk.preopIf s
theorem tidy_lineSec {k : Rec} (hk : RecTidy k) (s : Str) : Tidy (k.lineSec s) := hk.lineSec s
theorem tidy_emitString {k : Rec} (hk : RecTidy k) (s : Str) (e : Es) : Tidy (k.emitString s e) := hk.emitString s e

variable {k : Rec} (hk : RecTidy k)
include hk

theorem tidy_parseNum (s : Str) : Tidy (parseNum k s) := by
  unfold parseNum; tidy

theorem tidy_parseF (s : Str) : Tidy (parseF k s) := by
  unfold parseF; tidy

theorem tidy_expandExpr (s : Str) (l : Bool) : Tidy (expandExpr k s l) := hk.expandFull s 0 l

theorem tidy_evalStr (s : Str) : Tidy (evalStr k s) := by
  unfold evalStr; tidy

theorem tidy_reduceLoop (s out : Str) (q : Nat) : Tidy (reduceLoop k s out q) := by
  fun_induction reduceLoop k s out q <;> tidy
  all_goals solve_by_elim

theorem tidy_reduceString (s : Str) : Tidy (reduceString k s) := by
  unfold reduceString; tidy

theorem tidy_argLoop (f : Nat) (e : Bool) (ps : List Str) (s : Str) : Tidy (argLoop k f e ps s) := by
  induction f generalizing e ps s with
  | zero => unfold argLoop; tidy
  | succ f ih => unfold argLoop; tidy; all_goals exact ih _ _ _

omit hk in
theorem tidy_fillArgs (ps : List Str) : Tidy (fillArgs ps) := by
  induction ps with
  | nil => unfold fillArgs; tidy
  | cons p ps ih => unfold fillArgs; tidy

theorem tidy_parseArgs (s : Str) (d : Define) : Tidy (parseArgs k s d) := by
  unfold parseArgs; tidy

theorem tidy_parseDefineLoop (f : Nat) (s : Str) : Tidy (parseDefineLoop k f s) := by
  induction f generalizing s with
  | zero => unfold parseDefineLoop; tidy
  | succ f ih =>
    unfold parseDefineLoop; tidy
    all_goals exact ih _

theorem tidy_parseDefine (d : Define) : Tidy (parseDefine k d) := by
  unfold parseDefine; tidy

omit hk in
theorem tidy_parsePlus (s : Str) : Tidy (parsePlus s) := by
  unfold parsePlus; tidy

omit hk in
theorem tidy_parseMinus (s : Str) : Tidy (parseMinus s) := by
  unfold parseMinus; tidy

omit hk in
theorem tidy_randByte : Tidy randByte := ⟨fun s => Tables.tidy ⟨rfl, rfl, rfl⟩⟩

omit hk in
theorem tidy_escapeVal (c : Nat) : Tidy (escapeVal c) := by
  unfold escapeVal; tidy

omit hk in
theorem tidy_closeQuote (s : Str) (v : Int) : Tidy (closeQuote s v) := by
  unfold closeQuote; tidy

omit hk in
theorem tidy_parseChar (s : Str) : Tidy (parseChar s) := by
  unfold parseChar; tidy

theorem tidy_parseGetc (s : Str) : Tidy (parseGetc k s) := by
  unfold parseGetc; tidy

theorem tidy_parseMacro (d : Define) (s : Str) : Tidy (parseMacro k d s) := by
  unfold parseMacro; tidy

theorem tidy_parseName (s : Str) : Tidy (parseName k s) := by
  unfold parseName; tidy

omit hk in
theorem tidy_convGeneric (b e : Nat) (s : Str) (n : Nat) : Tidy (convGeneric b e s n) := by
  unfold convGeneric; tidy

omit hk in
theorem tidy_convHex (s : Str) (n : Nat) : Tidy (convHex s n) := by
  unfold convHex; tidy

omit hk in
theorem tidy_convDec (s : Str) (n : Nat) : Tidy (convDec s n) := by
  unfold convDec; tidy

omit hk in
theorem tidy_convBin (s : Str) (n : Nat) : Tidy (convBin s n) := by
  unfold convBin; tidy

omit hk in
theorem tidy_parseDigits (s : Str) : Tidy (parseDigits s) := by
  unfold parseDigits; tidy

theorem tidy_parseSingle (s : Str) : Tidy (parseSingle k s) := by
  unfold parseSingle; tidy

omit hk in
theorem tidy_getOp (d : Int) (f : Nat) (s : Str) : Tidy (getOp d f s) := by
  induction f generalizing s with
  | zero => unfold getOp; tidy
  | succ f ih => unfold getOp; tidy; all_goals exact ih _

theorem tidy_numLoop (d : Int) (f : Nat) (t : Int) (o : Option Op) (s : Str) : Tidy (numLoop k d f t o s) := by
  induction f generalizing t o s with
  | zero => unfold numLoop; tidy
  | succ f ih => unfold numLoop; tidy; all_goals exact ih _ _ _

theorem tidy_numFullBody (s : Str) (d : Int) : Tidy (numFullBody k s d) := by
  unfold numFullBody; tidy

theorem tidy_expandLoop (d : Nat) (l : Bool) (f : Nat) (s o : Str) : Tidy (expandLoop k d l f s o) := by
  induction f generalizing s o with
  | zero => unfold expandLoop; tidy
  | succ f ih => unfold expandLoop; tidy; all_goals exact ih _ _

theorem tidy_expandFullBody (s : Str) (d : Nat) (l : Bool) : Tidy (expandFullBody k s d l) := by
  unfold expandFullBody; tidy

theorem tidy_setDefine (r : DRef) (s : Str) (b : Bool) : Tidy (setDefine k r s b) := by
  constructor
  intro st
  unfold setDefine
  rw [M.get_bind]
  cases hd : derefDef r st with
  | none => exact .refl st
  | some d =>
    dsimp only
    have plain : TidyR st ((M.modify (writeDef r (fun d => { d with contents := some s })) : M Unit) st).state :=
      tidyR_writeDef r (fun d => { d with contents := some s }) (fun _ => rfl) st
    cases b with
    | false => exact plain
    | true =>
      cases hc : d.contents with
      | none => exact plain
      | some c =>
        dsimp only
        rw [M.modify_bind]
        -- the part that runs with the hidden table
        have hidden : ∀ st0 : S, st0.defines = [] → TidyR st0 ((addDefine d.name false >>= fun x =>
            match x with
            | none => (M.ub .nullDeref : M Str)
            | some (r', _) => do
              M.modify (writeDef r' (fun d => { d with contents := some c }))
              expandExpr k s false) st0).state := fun st0 _ => Tidy.tidy (by tidy) st0
        have h1 := hidden { st with defines := [] } rfl
        have hl := addDefine_labels d.name false { st with defines := [] }
        cases ha : addDefine d.name false { st with defines := [] } with
        | stop e s1 =>
          rw [M.bind_stop ha] at h1 ⊢
          exact ⟨fun g => h1.good (good_hidden g), h1.sens⟩
        | ok x s1 =>
          rw [M.bind_ok ha] at h1 ⊢
          rw [ha] at hl
          cases x with
          | none => exact ⟨fun g => h1.good (good_hidden g), h1.sens⟩
          | some p =>
            obtain ⟨r', _⟩ := p
            dsimp only at h1 ⊢
            rw [M.modify_bind] at h1 ⊢
            have hs := hk.quiet s 0 (writeDef r' (fun d => { d with contents := some c }) s1) (bare_writeDef r' c s1 (addDefine_bare ha))
            cases he : expandExpr k s false (writeDef r' (fun d => { d with contents := some c }) s1) with
            | stop e s2 =>
              rw [he] at h1
              rw [M.bind_stop he]
              exact ⟨fun g => h1.good (good_hidden g), h1.sens⟩
            | ok e s2 =>
              rw [he] at h1
              rw [M.bind_ok he, M.modify_bind]
              unfold expandExpr at he
              rw [he] at hs
              refine TidyR.trans (b := { s2 with defines := st.defines }) ?_ (tidyR_writeDef r (fun d => { d with contents := some e }) (fun _ => rfl) _)
              have e0 : s2.caseSens = st.caseSens := h1.sens
              refine ⟨fun g => ?_, e0⟩
              have e1 : s2.labels = st.labels := by
                have hs2 : s2.labels = _ := hs.1
                rw [hs2]
                have : (writeDef r' (fun d => { d with contents := some c }) s1).labels = s1.labels := by cases r' <;> rfl
                rw [this]
                exact hl
              refine ⟨?_, g.defines, ?_, g.defineNames, ?_, ?_, fun p hp => (keyOf_same (s' := { s2 with defines := st.defines }) e0 p.1).trans (g.defineKeys p hp)⟩
              · show Ordered s2.labels; rw [e1]; exact g.labels
              · show ∀ p ∈ s2.labels, _; rw [e1]; exact g.labelNames
              · show ∀ key, s2.labels.lookup key = none ∨ _; rw [e1]; exact g.apart
              · show ∀ p ∈ s2.labels, _
                rw [e1]
                exact fun p hp => (keyOf_same (s' := { s2 with defines := st.defines }) e0 p.1).trans (g.labelKeys p hp)

omit hk in
theorem tidy_writeOut (v : Int) : Tidy (writeOut v) := by
  constructor
  intro s
  unfold writeOut
  split
  · exact .refl s
  · exact Tables.tidy ⟨rfl, rfl, rfl⟩

omit hk in
theorem tidy_advance (n : Int) : Tidy (advance n) := by
  unfold advance; tidy

omit hk in
theorem tidy_writeArg (v : Int) (t : ArgTy) (i o : Int) : Tidy (writeArg v t i o) := by
  unfold writeArg; tidy

theorem tidy_addPassTwoExpr (e : Str) (t : ArgTy) (i o : Int) : Tidy (addPassTwoExpr k e t i o) := by
  unfold addPassTwoExpr; tidy
  all_goals tidy

theorem tidy_addPassTwoOutput (e : Str) (b : Bool) : Tidy (addPassTwoOutput k e b) := by
  unfold addPassTwoOutput; tidy
  all_goals tidy

omit hk in
theorem tidy_showDefine (d : Define) : Tidy (showDefine d) := by
  unfold showDefine; tidy

theorem tidy_runExpr (e : PExpr) : Tidy (runExpr k e) := by
  unfold runExpr; tidy

theorem tidy_runExprs (l : List PExpr) : Tidy (runExprs k l) := by
  induction l with
  | nil => unfold runExprs; tidy
  | cons e l ih => unfold runExprs; tidy

theorem tidy_runOutput (e : POut) : Tidy (runOutput k e) := by
  unfold runOutput; tidy

theorem tidy_runOutputs (l : List POut) : Tidy (runOutputs k l) := by
  induction l with
  | nil => unfold runOutputs; tidy
  | cons e l ih => unfold runOutputs; tidy

theorem tidy_runSecondPass  : Tidy (runSecondPass k) := by
  unfold runSecondPass; tidy

omit hk in
theorem tidy_countData (n : Int) : Tidy (countData n) := by
  unfold countData; tidy

omit hk in
theorem tidy_emitChars (s : Str) : Tidy (emitChars s) := by
  induction s with
  | nil => unfold emitChars; tidy
  | cons c t ih => unfold emitChars; tidy

omit hk in
theorem tidy_echoError (t : Es) (n : Int) : Tidy (echoError t n) := by
  unfold echoError; tidy

theorem tidy_emitDefine (t : Es) (n : Int) (d : Define) (r : Str) : Tidy (emitDefine k t n d r) := by
  unfold emitDefine; tidy
  all_goals tidy

theorem tidy_emitNum (t : Es) (w : Str) (n : Int) : Tidy (emitNum k t w n) := by
  unfold emitNum; tidy

theorem tidy_emitLoop (t : Es) (f : Nat) (e : Bool) (n : Option Int) (o s : Str) : Tidy (emitLoop k t f e n o s) := by
  induction f generalizing e n o s with
  | zero => unfold emitLoop; tidy
  | succ f ih =>
    unfold emitLoop; tidy
    all_goals first | exact ih _ _ _ _ | tidy

theorem tidy_emitStringBody (s : Str) (t : Es) : Tidy (emitStringBody k s t) := by
  unfold emitStringBody; tidy

omit hk in
theorem tidy_matchLoop (p : Str) (m : Match) : Tidy (matchLoop p m) := by
  induction p generalizing m with
  | nil => unfold matchLoop; tidy
  | cons c t ih => unfold matchLoop; tidy; all_goals exact ih _

omit hk in
theorem tidy_matchInstr (i : Instr) (c s : Str) : Tidy (matchInstr i c s) := by
  unfold matchInstr; tidy

omit hk in
theorem tidy_matchInstrs (c s : Str) (l : List Instr) (x : Str) : Tidy (matchInstrs c s l x) := by
  induction l generalizing x with
  | nil => unfold matchInstrs; tidy
  | cons i l ih => unfold matchInstrs; tidy; all_goals exact ih _

omit hk in
theorem tidy_matchArgs (c s : Str) (l : List Opcode) : Tidy (matchArgs c s l) := by
  induction l with
  | nil => unfold matchArgs; tidy
  | cons i l ih => unfold matchArgs; tidy

theorem tidy_writeOperands (il : Bool) (p : Str) (c : List (Str × Str)) (n : Int) (b : Option Str) : Tidy (writeOperands k il p c n b) := by
  induction p generalizing c n b with
  | nil => unfold writeOperands; tidy
  | cons x p ih => unfold writeOperands; tidy; all_goals exact ih _ _ _

omit hk in
theorem tidy_writeBytes (l : List Nat) : Tidy (writeBytes l) := by
  induction l with
  | nil => unfold writeBytes; tidy
  | cons i l ih => unfold writeBytes; tidy

theorem tidy_writeInstr (i : Instr) (c : List (Str × Str)) (x : Option Nat) : Tidy (writeInstr k i c x) := by
  unfold writeInstr; tidy

theorem tidy_doInstr (o : List Opcode) (n r : Str) (x : Option Nat) : Tidy (doInstr k o n r x) := by
  unfold doInstr; tidy

theorem tidy_dirOrg (s : Str) : Tidy (dirOrg k s) := by
  unfold dirOrg; tidy

omit hk in
theorem tidy_writeFill (v : Int) (n : Nat) : Tidy (writeFill v n) := by
  induction n with
  | zero => unfold writeFill; tidy
  | succ n ih => unfold writeFill; tidy

theorem tidy_dirFill (s : Str) : Tidy (dirFill k s) := by
  unfold dirFill; tidy

omit hk in
theorem tidy_addinstrFail (s : Str) : Tidy (addinstrFail s) := by
  unfold addinstrFail; tidy

theorem tidy_dirAddinstr (s : Str) : Tidy (dirAddinstr k s) := by
  unfold dirAddinstr; tidy
  all_goals tidy

theorem tidy_dirEchoFile (s : Str) : Tidy (dirEchoFile k s) := by
  unfold dirEchoFile; tidy
  all_goals tidy

theorem tidy_dirEcho (s : Str) : Tidy (dirEcho k s) := by
  unfold dirEcho; tidy

theorem tidy_dirError (s : Str) : Tidy (dirError k s) := by
  unfold dirError; tidy

omit hk in
theorem tidy_setLastLabel (v : Int) : Tidy (setLastLabel v) := by
  unfold setLastLabel; tidy
  all_goals exact Tidy.modify fun s => tidy_setLabel s _ _

theorem tidy_dirEqu (s : Str) : Tidy (dirEqu k s) := by
  unfold dirEqu; tidy

theorem tidy_dirShow (s : Str) : Tidy (dirShow k s) := by
  unfold dirShow; tidy

theorem tidy_dirOption (f : Nat) (e : Bool) (s : Str) : Tidy (dirOption k f e s) := by
  induction f generalizing e s with
  | zero => unfold dirOption; tidy
  | succ f ih => unfold dirOption; tidy; all_goals exact ih _ _

theorem tidy_dirSeek (s : Str) : Tidy (dirSeek k s) := by
  unfold dirSeek; tidy

theorem tidy_dirAssume (s : Str) : Tidy (dirAssume k s) := by
  unfold dirAssume; tidy

theorem tidy_runDir (d : Dir) (s : Str) : Tidy (runDir k d s) := by
  unfold runDir; tidy

omit hk in
theorem tidy_skipLine (w : List Str) (e f l : Nat) (s : Str) : Tidy (skipLine w e f l s) := by
  induction f generalizing l s with
  | zero => unfold skipLine; tidy
  | succ f ih => unfold skipLine; tidy; all_goals exact ih _ _

omit hk in
theorem tidy_skipLoop (u : Nat) (w : List Str) (f l : Nat) (n : Int) (s : Str) : Tidy (skipLoop u w f l n s) := by
  induction f generalizing l n s with
  | zero => unfold skipLoop; tidy
  | succ f ih => unfold skipLoop; tidy; all_goals exact ih _ _ _

omit hk in
theorem tidy_skipUntil (w : List Str) (b : Bool) (s : Str) : Tidy (skipUntil k w b s) := by
  unfold skipUntil; tidy

theorem tidy_doIf (s : Str) (c : Bool) : Tidy (doIf k s c) := by
  unfold doIf; tidy

theorem tidy_preopIfBody (s : Str) : Tidy (preopIfBody k s) := by
  unfold preopIfBody; tidy

theorem tidy_preIfdef (w : Bool) (s : Str) : Tidy (preIfdef k w s) := by
  unfold preIfdef; tidy

omit hk in
theorem tidy_skipQuietly (w : List Str) (s : Str) : Tidy (skipQuietly k w s) := by
  unfold skipQuietly; tidy

omit hk in
theorem tidy_argDefLoop (f : Nat) (e : Bool) (a : List Str) (s : Str) : Tidy (argDefLoop f e a s) := by
  induction f generalizing e a s with
  | zero => unfold argDefLoop; tidy
  | succ f ih => unfold argDefLoop; tidy; all_goals exact ih _ _ _

omit hk in
theorem tidy_parseArgDefs (r : DRef) (s : Str) : Tidy (parseArgDefs r s) := by
  unfold parseArgDefs; tidy

theorem tidy_defineMacro (r : DRef) (b : Bool) (s : Str) : Tidy (defineMacro k r b s) := by
  unfold defineMacro; tidy

theorem tidy_concatLoop (f : Nat) (e : Bool) (o s : Str) : Tidy (concatLoop k f e o s) := by
  induction f generalizing e o s with
  | zero => unfold concatLoop; tidy
  | succ f ih => unfold concatLoop; tidy; all_goals exact ih _ _ _

theorem tidy_definePlain (r : DRef) (b : Bool) (s : Str) : Tidy (definePlain k r b s) := by
  unfold definePlain; tidy

theorem tidy_preDefine (s : Str) : Tidy (preDefine k s) := by
  unfold preDefine; tidy

theorem tidy_preMacro (s : Str) : Tidy (preMacro k s) := by
  unfold preMacro; tidy

theorem tidy_preDefcont (s : Str) : Tidy (preDefcont k s) := by
  unfold preDefcont; tidy

omit hk in
theorem tidy_firstPassLoop {line : Str → M (Option Str)} (hl : ∀ s, Tidy (line s)) (f : Nat) (s : Str) : Tidy (firstPassLoop line f s) := by
  induction f generalizing s with
  | zero => unfold firstPassLoop; tidy
  | succ f ih => unfold firstPassLoop; tidy; all_goals first | exact hl _ | exact ih _

theorem tidy_lineLoop (f : Nat) (s : Str) : Tidy (lineLoop k f s) := by
  induction f generalizing s with
  | zero => unfold lineLoop; tidy
  | succ f ih => unfold lineLoop; tidy; all_goals exact ih _

theorem tidy_runLine (s : Str) : Tidy (runLine k s) := by
  unfold runLine; tidy

theorem tidy_runFirstPass (s : Str) : Tidy (runFirstPass k s) := by
  unfold runFirstPass; tidy

theorem tidy_preInclude {b : List Nat → M Unit} (hb : ∀ l, Tidy (b l)) (s : Str) : Tidy (preInclude k b s) := by
  unfold preInclude; tidy; all_goals exact hb _

omit hk in
theorem tidy_importBytes (l : List Nat) : Tidy (importBytes l) := by
  induction l with
  | nil => unfold importBytes; tidy
  | cons i l ih => unfold importBytes; tidy

omit hk in
theorem tidy_preImport (s : Str) : Tidy (preImport s) := by
  unfold preImport; tidy

theorem tidy_handlePreopBody {b : List Nat → M Unit} (hb : ∀ l, Tidy (b l)) (s : Str) : Tidy (handlePreopBody k b s) := by
  unfold handlePreopBody; tidy

omit hk in
theorem tidy_setBuf (i : Nat) (v : Option Str) : Tidy (setBuf i v) := by
  unfold setBuf; tidy

theorem tidy_fcBuf (s : Str) : Tidy (fcBuf k s) := by
  unfold fcBuf; tidy

omit hk in
theorem tidy_fcClr (s : Str) : Tidy (fcClr s) := by
  unfold fcClr; tidy

theorem tidy_fcWr (s : Str) : Tidy (fcWr k s) := by
  unfold fcWr; tidy

theorem tidy_fcRun (s : Str) : Tidy (fcRun k s) := by
  unfold fcRun; tidy

theorem tidy_macroLoop (f : Nat) (s : Str) : Tidy (macroLoop k f s) := by
  induction f generalizing s with
  | zero => unfold macroLoop; tidy
  | succ f ih => unfold macroLoop; tidy; all_goals exact ih _

theorem tidy_runMacro (d : Define) (s : Str) : Tidy (runMacro k d s) := by
  unfold runMacro; tidy

theorem tidy_callMacro (d : Define) (s : Str) : Tidy (callMacro k d s) := by
  unfold callMacro; tidy

theorem tidy_opcodeOrMacro (s : Str) : Tidy (opcodeOrMacro k s) := by
  unfold opcodeOrMacro; tidy

theorem tidy_handleDirective (s : Str) : Tidy (handleDirective k s) := by
  unfold handleDirective; tidy

theorem tidy_assign (s : Str) : Tidy (assign k s) := by
  unfold assign; tidy

theorem tidy_lineSecLoop (f : Nat) (s : Str) : Tidy (lineSecLoop k f s) := by
  induction f generalizing s with
  | zero => unfold lineSecLoop; tidy
  | succ f ih => unfold lineSecLoop; tidy; all_goals exact ih _

theorem tidy_lineSecBody (s : Str) : Tidy (lineSecBody k s) := by
  unfold lineSecBody; tidy

theorem tidy_defineIs (n : Str) (v : Int) : Tidy (defineIs k n v) := by
  unfold defineIs; tidy

theorem tidy_writeMask (l : List Nat) : Tidy (writeMask k l) := by
  induction l with
  | nil => unfold writeMask; tidy
  | cons b l ih => unfold writeMask; tidy

theorem tidy_maskPart (g : List (List (Nat × Nat))) : Tidy (maskPart k g) := by
  unfold maskPart; tidy

theorem tidy_bitmapPart (b : Bmp) (r : Rect) : Tidy (bitmapPart k b r) := by
  unfold bitmapPart; tidy

theorem tidy_bitmapStrips (b : Bmp) (r : Rect) (m : Int) (f : Nat) (l w : Int) : Tidy (bitmapStrips k b r m f l w) := by
  induction f generalizing l w with
  | zero => unfold bitmapStrips; tidy
  | succ f ih => unfold bitmapStrips; tidy; all_goals exact ih _ _

theorem tidy_bitmapAll (b : Bmp) (r : Rect) (m w : Int) : Tidy (bitmapAll k b r m w) := by
  unfold bitmapAll; tidy

omit hk in
theorem tidy_writePair (v : Int) : Tidy (writePair v) := by
  unfold writePair; tidy

omit hk in
theorem tidy_writeSmall (v : Int) (m : Msg) : Tidy (writeSmall v m) := by
  unfold writeSmall; tidy

theorem tidy_bitmapSize (w h : Int) : Tidy (bitmapSize k w h) := by
  unfold bitmapSize; tidy

theorem tidy_headerToken (w h : Int) (p : Str) : Tidy (headerToken k w h p) := by
  unfold headerToken; tidy

theorem tidy_headerTokens (w h : Int) (l : List Str) : Tidy (headerTokens k w h l) := by
  induction l with
  | nil => unfold headerTokens; tidy
  | cons p l ih => unfold headerTokens; tidy

theorem tidy_bitmapHeader (r : Rect) : Tidy (bitmapHeader k r) := by
  unfold bitmapHeader; tidy

omit hk in
theorem tidy_imageLabel (b : Option Str) (x : Str) (v : Int) : Tidy (imageLabel b x v) := by
  unfold imageLabel; tidy

theorem tidy_mapNumbers (l : List Str) (i : Nat) (v : Int × Int × Int) : Tidy (mapNumbers k l i v) := by
  induction l generalizing i v with
  | nil => unfold mapNumbers; tidy
  | cons p l ih => unfold mapNumbers; tidy; all_goals exact ih _ _

theorem tidy_mapLoop (b : Bmp) (base : Option Str) (w h p : Int) (f : Nat) (l t c n : Int) : Tidy (mapLoop k b base w h p f l t c n) := by
  induction f generalizing l t c n with
  | zero => unfold mapLoop; tidy
  | succ f ih => unfold mapLoop; tidy; all_goals exact ih _ _ _ _

theorem tidy_bitmapMap (b : Bmp) (base : Option Str) (p : Int) (r : DRef) (c : Str) : Tidy (bitmapMap k b base p r c) := by
  unfold bitmapMap; tidy

theorem tidy_bitmapSingle (b : Bmp) (base : Option Str) (m : Int) : Tidy (bitmapSingle k b base m) := by
  unfold bitmapSingle; tidy

theorem tidy_handleBitmap (l : List Nat) : Tidy (handleBitmap k l) := by
  unfold handleBitmap; tidy


/-! ### main.cpp and export.cpp -/

omit hk in
theorem tidy_bufAt (b : List Nat) (i : Nat) : Tidy (bufAt b i) := by
  unfold bufAt; tidy

omit hk in
theorem tidy_findFieldLoop (h : Nat → Bool) (b : List Nat) (f p : Nat) : Tidy (findFieldLoop h b f p) := by
  induction f generalizing p with
  | zero => unfold findFieldLoop; tidy
  | succ f ih => unfold findFieldLoop; tidy; all_goals exact ih _

omit hk in
theorem tidy_findField (n : Nat) (b : List Nat) : Tidy (findField n b) := by
  unfold findField; tidy

omit hk in
theorem tidy_findFieldFlex (n : Nat) (b : List Nat) : Tidy (findFieldFlex n b) := by
  unfold findFieldFlex; tidy

omit hk in
theorem tidy_patchApp (b : List Nat) : Tidy (patchApp b) := by
  unfold patchApp; tidy

omit hk in
theorem tidy_makeApp (md5 : List Nat → List Nat) (b : List Nat) : Tidy (makeApp md5 b) := by
  unfold makeApp; tidy

omit hk in
theorem tidy_warnN (n : Nat) : Tidy (warnN n) := by
  induction n with
  | zero => unfold warnN; tidy
  | succ n ih => unfold warnN; tidy

omit hk in
theorem tidy_makePrgm (c : Calc) (p : Str) (o : Nat → Nat) (b : List Nat) : Tidy (makePrgm c p o b) := by
  unfold makePrgm; tidy

omit hk in
theorem tidy_writeFile (md5 : List Nat → List Nat) (n : Str) : Tidy (writeFile md5 n) := by
  unfold writeFile; tidy
  all_goals tidy

omit hk in
theorem tidy_outputFile (md5 : List Nat → List Nat) (n : Str) : Tidy (outputFile md5 n) := by
  unfold outputFile; tidy


theorem tidy_symDefines (d : List Str) (a : List (Str × Int)) : Tidy (symDefines k d a) := by
  fun_induction symDefines k d a <;> tidy
  all_goals solve_by_elim

theorem tidy_writeLabels (f : Str) : Tidy (writeLabels k f) := by
  unfold writeLabels; tidy
  all_goals tidy

theorem tidy_labelFile (f : Str) : Tidy (labelFile k f) := by
  unfold labelFile; tidy

theorem tidy_passTwo : Tidy (passTwo k) := by
  unfold passTwo; tidy


omit hk in
/-- Every function of the program keeps the tables tidy. -/
theorem tidy_knot (n : Nat) : RecTidy (knot n) := by
  induction n with
  | zero => constructor <;> first | exact hushed_knot 0 | (intros; exact Tidy.halt _)
  | succ n ih =>
    exact {
      quiet := hushed_knot (n + 1)
      numFull := tidy_numFullBody ih
      expandFull := tidy_expandFullBody ih
      handlePreop := tidy_handlePreopBody ih (tidy_handleBitmap ih)
      preopIf := tidy_preopIfBody ih
      lineSec := tidy_lineSecBody ih
      emitString := tidy_emitStringBody ih }

end Spasm

/-! ### Command line -/

namespace Spasm

theorem tidy_builtin (n c : Str) (a : List Str) : Tidy (builtin n c a) := by
  unfold builtin; tidy

theorem tidy_initStorage : Tidy initStorage := by
  unfold initStorage; tidy

theorem tidy_ensureStorage (o : Opts) : Tidy (ensureStorage o) := by
  unfold ensureStorage; tidy

theorem tidy_passOne (n : Nat) (cwd text : Str) : Tidy (passOne (knot n) cwd text) := by
  have hk := tidy_knot n
  unfold passOne; tidy

theorem tidy_runAssembly (n : Nat) (md5 : List Nat → List Nat) (cwd : Str) (t : Option Str) (o : Str) :
    Tidy (runAssembly (knot n) md5 cwd t o) := by
  have hk := tidy_knot n
  have hr : Tidy (M.modify resetGlobals) := Tidy.free fun s => ⟨rfl, rfl, rfl⟩
  have hp : Tidy printStats := Tidy.free fun s => ⟨rfl, rfl, rfl⟩
  unfold runAssembly; tidy

theorem tidy_optDefine (n : Nat) (o : Opts) (s : Str) : Tidy (optDefine (knot n) o s) := by
  have hk := tidy_knot n
  unfold optDefine; tidy

theorem tidy_optLine (o : Opts) (s : Str) : Tidy (optLine o s) := by
  unfold optLine; tidy

theorem tidy_optFile (o : Opts) (s : Str) : Tidy (optFile o s) := by
  unfold optFile; tidy

theorem tidy_optLoop (n : Nat) (l : List Str) (o : Opts) : Tidy (optLoop (knot n) l o) := by
  have hk := tidy_knot n
  suffices h : ∀ m, ∀ l : List Str, l.length ≤ m → ∀ o, Tidy (optLoop (knot n) l o) from h _ l (Nat.le_refl _) o
  intro m
  induction m with
  | zero =>
    intro l hl o
    cases l with
    | nil => unfold optLoop; exact .pure _
    | cons a as => simp at hl
  | succ m ih =>
    intro l hl o
    cases l with
    | nil => unfold optLoop; exact .pure _
    | cons a as =>
      have h1 : ∀ o, Tidy (optLoop (knot n) as o) := ih as (by simpa using hl)
      have h2 : ∀ d as', as = d :: as' → ∀ o, Tidy (optLoop (knot n) as' o) := by
        rintro d as' rfl
        exact ih as' (by simp at hl; omega)
      unfold optLoop
      cases as with
      | nil => dsimp only; tidy; all_goals exact h1 _
      | cons d as' =>
        have h3 := h2 d as' rfl
        dsimp only; tidy
        all_goals first | exact h1 _ | exact h3 _

theorem tidy_mainBody (n : Nat) (md5 : List Nat → List Nat) (cwd : Str) (args : List Str) (s : S) (hs : s.caseSens = false) (g : Good s) :
    Good (mainBody (knot n) md5 cwd args s).state := by
  unfold mainBody
  split
  · exact g
  · rw [M.modify_bind, M.bind_apply]
    have g0 : Good { s with currFile := b! "Commandline" } := Tables.good (s := s) ⟨rfl, rfl, rfl⟩ g
    have h := (tidy_optLoop n args {}).tidy { s with currFile := b! "Commandline" }
    cases ho : optLoop (knot n) args {} { s with currFile := b! "Commandline" } with
    | stop e s1 =>
      rw [ho] at h
      exact h.good g0
    | ok o s1 =>
      rw [ho] at h
      have g1 : Good s1 := h.good g0
      have c1 : s1.caseSens = false := h.sens.trans hs
      dsimp only
      rw [M.modify_bind]
      have g2 : Good { s1 with caseSens := o.caseSens } := by
        have key : ∀ t, keyOf s1 t = t → keyOf { s1 with caseSens := o.caseSens } t = t := by
          intro t ht
          unfold keyOf at ht ⊢
          rw [c1] at ht
          dsimp only
          split
          · rfl
          · exact ht
        exact ⟨g1.labels, g1.defines, g1.labelNames, g1.defineNames, g1.apart, fun p hp => key _ (g1.labelKeys p hp), fun p hp => key _ (g1.defineKeys p hp)⟩
      refine TidyR.good (Tidy.tidy ?_ _) g2
      split
      · exact Tidy.pure 3
      · tidy

end Spasm
