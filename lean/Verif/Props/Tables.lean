import Verif.Spec.Tables
import Verif.Lemmas.Tidy
import Verif.Lemmas.Names
import Verif.Lemmas.Hex
import Verif.Props.Run

/-
C28, second half: a name is never both a label and a define. C30: the symbol file.
-/

namespace Spasm.Props
open Spasm Spec

theorem strLt_iff : ∀ {a b : Str}, strLt a b = true ↔ a < b
  | _, [] => by simp [strLt]
  | [], b :: bs => by simp [strLt]
  | a :: as, b :: bs => by
    unfold strLt
    rw [List.cons_lt_cons_iff]
    split
    · simp [*]
    · split
      · simp; omega
      · rename_i h1 h2
        have : a = b := by omega
        subst this
        simp [strLt_iff]

theorem ordered_iff {α : Type} {t : Table α} : Ordered t ↔ (t.map (fun p => p.1)).Pairwise (· < ·) := by
  unfold Ordered
  rw [List.pairwise_map]
  simp only [strLt_iff]

theorem lookup_mem {α : Type} {t : Table α} {key : Str} {d : α} (h : t.lookup key = some d) : (key, d) ∈ t := by
  unfold Table.lookup at h
  rw [Option.map_eq_some_iff] at h
  obtain ⟨p, hp, rfl⟩ := h
  have hk : p.1 = key := by simpa using List.find?_some hp
  rw [← hk]
  exact List.mem_of_find?_eq_some hp

theorem lookup_of_mem {α : Type} {t : Table α} {p : Str × α} (h : p ∈ t) : t.lookup p.1 ≠ none := by
  unfold Table.lookup
  rw [ne_eq, Option.map_eq_none_iff, List.find?_eq_none]
  intro h'
  exact h' p h (by simp)

theorem oneMeaning_iff {s : S} : OneMeaning s ↔ Good s := by
  constructor
  · intro h
    have keys : ∀ t : Str, (s.caseSens = false → t.map upperCase = t) → keyOf s t = t := by
      intro t ht
      rw [keyOf_eq]
      unfold nameKey
      cases hc : s.caseSens with
      | true => rfl
      | false => exact ht hc
    refine ⟨ordered_iff.2 h.labelOrder, ordered_iff.2 h.defineOrder, h.labelNames, h.defineNames, ?_, fun p hp => keys _ fun hc => (h.capitals hc).1 p hp,
      fun p hp => keys _ fun hc => (h.capitals hc).2 p hp⟩
    intro key
    cases hl : s.labels.lookup key with
    | none => exact .inl rfl
    | some l =>
      cases hd : s.defines.lookup key with
      | none => exact .inr rfl
      | some d =>
        have h1 := lookup_mem hl
        have h2 := lookup_mem hd
        exact absurd ((h.labelNames _ h1).trans (h.defineNames _ h2).symm) (h.notBoth _ h1 _ h2)
  · intro h
    have keys : ∀ t : Str, keyOf s t = t → s.caseSens = false → t.map upperCase = t := by
      intro t ht hc
      rw [keyOf_eq] at ht
      unfold nameKey at ht
      rw [hc] at ht
      exact ht
    refine ⟨ordered_iff.1 h.labels, ordered_iff.1 h.defines, h.labelNames, h.defineNames, ?_,
      fun hc => ⟨fun p hp => keys _ (h.labelKeys p hp) hc, fun p hp => keys _ (h.defineKeys p hp) hc⟩⟩
    intro p hp q hq e
    have h1 := lookup_of_mem hp
    have h2 := lookup_of_mem hq
    rw [h.labelNames p hp, h.defineNames q hq] at e
    rw [e] at h1
    rcases h.apart q.1 with h' | h'
    · exact h1 h'
    · exact h2 h'

theorem good_start (fs : Str → Option (List Nat)) (mem rand : Nat → Nat) : Good (startState fs mem rand) where
  labels := List.Pairwise.nil
  defines := List.Pairwise.nil
  labelNames _ h := by cases h
  defineNames _ h := by cases h
  apart _ := .inl rfl
  labelKeys _ h := by cases h
  defineKeys _ h := by cases h

/-- C28: however a run goes and however it ends, a name is never both a label and a define, nor defined twice; the
tables hold every label and define under its own name. -/
theorem C28_never_both (fuel : Nat) (md5 : List Nat → List Nat) (fs : Str → Option (List Nat)) (mem rand : Nat → Nat)
    (cwd : Str) (args : List Str) :
    let s := (spasm fuel md5 fs mem rand cwd args).state
    OneMeaning s ∧ ∀ name, labelOf s name = none ∨ defineOf s name = none := by
  have h := tidy_mainBody fuel md5 cwd args _ rfl (good_start fs mem rand)
  refine ⟨oneMeaning_iff.2 h, fun name => ?_⟩
  rw [labelOf_eq, defineOf_eq]
  rcases h.apart (nameKey _ name) with h | h
  · exact .inl (by rw [Option.map_eq_none_iff]; exact h)
  · exact .inr h

/-- A source that defines `b` and then uses it as a label, and defines a label and then a macro of the same name: one
meaning remains for each. -/
example : let s := (asm (b! "#define b 1\na: nop\nb: nop\n#define A 2\n") [b! "a.asm"]).state
    (labelOf s (b! "a")).isSome ∧ defineOf s (b! "a") = none ∧ labelOf s (b! "b") = none ∧ (defineOf s (b! "b")).isSome := by
  decide +kernel

/-! ### C30 -/

theorem hexNumber_append (a b : Str) (v : Nat) : hexNumber (a ++ b) v = (hexNumber a v).bind (hexNumber b) := by
  induction a generalizing v with
  | nil => rfl
  | cons c a ih =>
    simp only [List.cons_append, hexNumber]
    cases nibble c with
    | none => rfl
    | some d => exact ih _

theorem hexAux_spec (f n : Nat) (acc : Str) (h : n < 16 ^ f) (hf : 0 < f) :
    ∃ ds, hexAux f n acc = ds ++ acc ∧ hexNumber ds 0 = some n ∧ ds ≠ [] ∧ (1 < ds.length → ds.head? ≠ some 48) := by
  induction f generalizing n acc with
  | zero => omega
  | succ f ih =>
    unfold hexAux
    split
    · rename_i hn
      refine ⟨[hexDigit n], rfl, ?_, by simp, by simp⟩
      simp [hexNumber, nibble_hexDigit n hn]
    · rename_i hn
      have hf : 0 < f := by
        rcases Nat.eq_zero_or_pos f with rfl | h'
        · simp at h; omega
        · exact h'
      obtain ⟨ds, h1, h2, h3, h4⟩ := ih (n / 16) (hexDigit (n % 16) :: acc) (by rw [Nat.pow_succ] at h; omega) hf
      refine ⟨ds ++ [hexDigit (n % 16)], by rw [h1]; simp, ?_, by simp, ?_⟩
      · rw [hexNumber_append, h2]
        simp only [Option.bind_some, hexNumber, nibble_hexDigit _ (Nat.mod_lt n (by omega) : n % 16 < 16)]
        congr 1; omega
      · intro _
        cases ds with
        | nil => exact absurd rfl h3
        | cons d ds =>
          cases ds with
          | cons _ _ => simpa using h4 (by simp)
          | nil =>
            simp only [hexNumber, Nat.mul_zero, Nat.zero_add, Option.bind_eq_some_iff] at h2
            obtain ⟨x, hx, hx'⟩ := h2
            simp only [Option.some.injEq] at hx'
            simp only [List.cons_append, List.head?_cons, ne_eq, Option.some.injEq]
            rintro rfl
            simp [nibble] at hx
            omega

theorem hexNumber_zeros (n : Nat) (ds : Str) : hexNumber (List.replicate n 48 ++ ds) 0 = hexNumber ds 0 := by
  induction n with
  | zero => rfl
  | succ n ih => rw [List.replicate_succ, List.cons_append]; exact ih

theorem symLine_spec (e : Str × Int) : SymbolLine e (symLine e) := by
  have hlt : (toU32 e.2).toNat < 16 ^ 9 := by unfold toU32; omega
  obtain ⟨ds, h1, h2, h3, h4⟩ := hexAux_spec 9 (toU32 e.2).toNat [] hlt (by omega)
  refine ⟨fmtHexPad 4 (toU32 e.2).toNat, rfl, ?_⟩
  have : fmtHexPad 4 (toU32 e.2).toNat = List.replicate (4 - ds.length) 48 ++ ds := by
    unfold fmtHexPad fmtHex; rw [h1]; simp
  rw [this, hexNumber_zeros, h2]
  refine ⟨rfl, by simp; omega, ?_⟩
  intro hl
  have : 4 - ds.length = 0 := by simp at hl; omega
  rw [this] at hl ⊢
  simp at hl ⊢
  exact h4 (by omega)

theorem toLower_eq (c : Nat) : toLower c = lowerCase c := by
  unfold toLower isUpper lowerCase
  simp only [Bool.and_eq_true, decide_eq_true_eq]

/-- Entries in the order of the symbol file. -/
def SymSorted (l : List (Str × Int)) : Prop := Alphabetical (l.map (·.1))

theorem symSorted_iff (l : List (Str × Int)) : SymSorted l ↔ l.Pairwise (fun a b => caseGt a.1 b.1 = false) := by
  unfold SymSorted Alphabetical
  rw [List.map_map, List.pairwise_map]
  have : ∀ a b : Str × Int, caseGt a.1 b.1 = false ↔ ¬ b.1.map lowerCase < a.1.map lowerCase := by
    intro a b
    unfold caseGt
    rw [← Bool.not_eq_true, strLt_iff]
    have : toLower = lowerCase := funext toLower_eq
    rw [this]
  simp only [this]
  rfl

theorem insertSym_perm (x : Str × Int) (l : List (Str × Int)) : (insertSym x l).Perm (x :: l) := by
  induction l with
  | nil => exact .refl _
  | cons y ys ih =>
    unfold insertSym
    split
    · exact (List.Perm.cons y ih).trans (.swap x y ys)
    · exact .refl _

theorem caseGt_trans {a b c : Str} (h : caseGt a b = false) (h' : caseGt b c = false) : caseGt a c = false := by
  unfold caseGt at *
  rw [← Bool.not_eq_true, strLt_iff, List.not_lt] at *
  exact List.le_trans h h'

theorem insertSym_sorted (x : Str × Int) (l : List (Str × Int)) (h : SymSorted l) : SymSorted (insertSym x l) := by
  rw [symSorted_iff] at *
  induction l with
  | nil => simp [insertSym]
  | cons y ys ih =>
    obtain ⟨h1, h2⟩ := List.pairwise_cons.1 h
    unfold insertSym
    split
    · rename_i hg
      refine List.pairwise_cons.2 ⟨?_, ih h2⟩
      intro z hz
      rcases List.mem_cons.1 ((insertSym_perm x ys).mem_iff.1 hz) with rfl | hz
      · unfold caseGt at hg ⊢
        rw [strLt_iff] at hg
        rw [← Bool.not_eq_true, strLt_iff, List.not_lt]
        exact List.le_of_lt hg
      · exact h1 z hz
    · rename_i hg
      have hg : caseGt x.1 y.1 = false := by simpa using hg
      refine List.pairwise_cons.2 ⟨?_, h⟩
      intro z hz
      rcases List.mem_cons.1 hz with rfl | hz
      · exact hg
      · exact caseGt_trans hg (h1 z hz)

theorem symLabels_spec (t : List (Str × Label)) (acc : List (Str × Int)) (h : SymSorted acc) :
    SymSorted (symLabels t acc) ∧ (symLabels t acc).Perm (t.map (fun p => (p.2.name, p.2.value)) ++ acc) := by
  induction t generalizing acc with
  | nil => exact ⟨h, .refl _⟩
  | cons p t ih =>
    obtain ⟨key, l⟩ := p
    unfold symLabels
    obtain ⟨h1, h2⟩ := ih _ (insertSym_sorted (l.name, l.value) acc h)
    refine ⟨h1, h2.trans ?_⟩
    refine ((insertSym_perm _ _).append_left _).trans ?_
    simp only [List.map_cons, List.cons_append]
    exact List.perm_middle

theorem symDefines_spec {n : Nat} (keys : List Str) (acc l : List (Str × Int)) (s s' : S) (hs : Good s) (h : SymSorted acc)
    (e : symDefines (knot n) keys acc s = .ok l s') :
    SymSorted l ∧ ∃ ds : List (Str × Int), l.Perm (ds ++ acc) ∧ (ds.map (·.1)).Sublist keys := by
  induction keys generalizing acc s with
  | nil => cases e; exact ⟨h, [], .refl _, .slnil⟩
  | cons key keys ih =>
    unfold symDefines at e
    rw [M.get_bind] at e
    have skip : symDefines (knot n) keys acc s = .ok l s' →
        SymSorted l ∧ ∃ ds : List (Str × Int), l.Perm (ds ++ acc) ∧ (ds.map (·.1)).Sublist (key :: keys) := by
      intro e
      obtain ⟨h1, ds, h2, h3⟩ := ih acc s hs h e
      exact ⟨h1, ds, h2, h3.cons _⟩
    cases hd : s.defines.lookup key with
    | none => rw [hd] at e; exact skip e
    | some d =>
      rw [hd] at e
      dsimp only at e
      have hn : d.name = key :=
        hs.defineNames _ (lookup_mem hd)
      have hcall : ∀ c, (do
            match ← parseNum (knot n) c with
            | none => symDefines (knot n) keys acc
            | some v => symDefines (knot n) keys (insertSym (d.name, v) acc) : M _) s = .ok l s' →
          SymSorted l ∧ ∃ ds : List (Str × Int), l.Perm (ds ++ acc) ∧ (ds.map (·.1)).Sublist (key :: keys) := by
        intro c e
        rw [M.bind_eq_ok] at e
        obtain ⟨v, s1, e1, e2⟩ := e
        have g1 : Good s1 := ((tidy_parseNum (tidy_knot n) _).ok e1).good hs
        cases v with
        | none =>
          obtain ⟨h1, ds, h2, h3⟩ := ih acc s1 g1 h e2
          exact ⟨h1, ds, h2, h3.cons _⟩
        | some v =>
          obtain ⟨h1, ds, h2, h3⟩ := ih _ s1 g1 (insertSym_sorted _ _ h) e2
          refine ⟨h1, (key, v) :: ds, ?_, ?_⟩
          · refine h2.trans (((insertSym_perm _ _).append_left _).trans ?_)
            rw [hn]
            exact List.perm_middle
          · simpa using h3
      cases ha : d.args with
      | nil =>
        cases hc : d.contents with
        | none => rw [ha, hc] at e; exact skip e
        | some c => rw [ha, hc] at e; exact hcall c e
      | cons a as => rw [ha] at e; exact skip e

theorem increasing_nodup {l : List Str} (h : l.Pairwise (· < ·)) : l.Nodup :=
  h.imp fun {a b} (h' : a < b) (e : a = b) => List.lt_irrefl b (by rw [e] at h'; exact h')

/-- C30: the symbol file lists every label exactly once, with its value, in case-insensitive alphabetical order; the
other names in it are those of defines, and none is listed twice. -/
theorem C30_symbol_file (n : Nat) (file : Str) (s s' : S) (hs : OneMeaning s) (h : writeLabels (knot n) file s = .ok () s') :
    ∃ entries lines before, s'.log = before ++ [.wrote file lines.flatten] ∧
      List.Forall₂ SymbolLine entries lines ∧ Alphabetical (entries.map (·.1)) ∧ (entries.map (·.1)).Nodup ∧
      (∀ e, IsLabel s e → e ∈ entries) ∧ (∀ e ∈ entries, IsLabel s e ∨ IsDefine s e.1) := by
  have hg := oneMeaning_iff.1 hs
  unfold writeLabels at h
  rw [M.bind_eq_ok] at h
  obtain ⟨sess, s1, e1, h⟩ := h
  have hl : s1.labels = s.labels ∧ s1.defines = s.defines := by cases e1; exact ⟨rfl, rfl⟩
  have g1 : Good s1 := (tidy_startSession.ok e1).good hg
  rw [M.get_bind, M.bind_eq_ok] at h
  obtain ⟨l, s2, e2, h⟩ := h
  rw [M.bind_eq_ok] at h
  obtain ⟨_, s3, e3, h⟩ := h
  cases h
  obtain ⟨a1, a2⟩ := symLabels_spec s1.labels [] (by unfold SymSorted Alphabetical; simp)
  obtain ⟨b1, ds, b2, b3⟩ := symDefines_spec _ _ _ _ _ g1 a1 e2
  have hp : l.Perm (ds ++ s.labels.map (fun p => (p.2.name, p.2.value))) := by
    refine b2.trans (List.Perm.append_left _ ?_)
    rw [← hl.1]; simpa using a2
  refine ⟨l, l.map symLine, s3.log, rfl, ?_, b1, ?_, ?_, ?_⟩
  · rw [List.forall₂_map_right_iff]
    exact List.forall₂_same.2 fun e _ => symLine_spec e
  · refine (hp.map _).nodup_iff.2 ?_
    rw [List.map_append, List.map_map]
    have hn : s.labels.map ((fun e : Str × Int => e.1) ∘ fun p => (p.2.name, p.2.value)) = s.labels.map (fun p => p.1) :=
      List.map_congr_left fun p hp' => hg.labelNames p hp'
    rw [hn]
    refine List.nodup_append.2 ⟨?_, ?_, ?_⟩
    · rw [hl.2] at b3
      exact b3.nodup (increasing_nodup hs.defineOrder)
    · exact increasing_nodup hs.labelOrder
    · intro a ha b hb e
      subst e
      rw [hl.2] at b3
      obtain ⟨q, hq, rfl⟩ := List.mem_map.1 (b3.subset ha)
      obtain ⟨p, hp', he⟩ := List.mem_map.1 hb
      exact hs.notBoth p hp' q hq (by rw [hg.labelNames p hp', hg.defineNames q hq]; exact he)
  · rintro e ⟨p, hp', h1, h2⟩
    refine hp.mem_iff.2 (List.mem_append_right _ (List.mem_map.2 ⟨p, hp', ?_⟩))
    rw [h1, h2]
  · intro e he
    rcases List.mem_append.1 (hp.mem_iff.1 he) with h | h
    · right
      have := b3.subset (List.mem_map_of_mem h)
      rw [hl.2] at this
      obtain ⟨p, hp', h'⟩ := List.mem_map.1 this
      exact ⟨p, hp', by rw [hg.defineNames p hp', h']⟩
    · left
      obtain ⟨p, hp', rfl⟩ := List.mem_map.1 h
      exact ⟨p, hp', rfl, rfl⟩

/-- With -L: three labels and a define among the predefined names, in order, with their values. -/
example : (.wrote (b! "a.lab")
    (b! "__BM_MSK_RGB = $FF00\n__BM_SHD = $0002\n__LINE = $0000\nFALSE = $0000\nFOO = $0002\nK = $0003\nLAST = $FFFFFFFF\nSPASM = $0001\nSPASMVER = $0002\nSTART = $0000\nTRUE = $0001\n") : Ev) ∈
    (asm (b! "start: nop\n nop\nfoo: nop\n#define k 1+2\nlast = -1\n") [b! "-L", b! "a.asm"]).state.log := by
  decide +kernel

end Spasm.Props
