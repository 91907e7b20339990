import Verif.Props.Buffer
import Verif.Lemmas.Export
import Verif.Lemmas.Define

/-
C65: `.assume`.
-/

namespace Spasm.Props
open Spasm Spec

/-- `name` says `ADL`, in small or capital letters. -/
def Adl (name : Str) : Prop := name.map upperCase = b! "ADL"

theorem adl_chars {name : Str} (h : Adl name) : eqCase name (b! "adl") = true ∧ (∀ c ∈ name, Ordinary c ∧ c ≠ 61 ∧ ¬ White c) ∧ name ≠ [] ∧ name.length = 3 := by
  match name, h with
  | [x, y, z], h =>
    have h' : [upperCase x, upperCase y, upperCase z] = [65, 68, 76] := h
    simp only [List.cons.injEq, and_true] at h'
    obtain ⟨hx, hy, hz⟩ := h'
    unfold upperCase at hx hy hz
    have hx : x = 65 ∨ x = 97 := by split at hx <;> omega
    have hy : y = 68 ∨ y = 100 := by split at hy <;> omega
    have hz : z = 76 ∨ z = 108 := by split at hz <;> omega
    rcases hx with rfl | rfl <;> rcases hy with rfl | rfl <;> rcases hz with rfl | rfl <;> decide
  | [], h => cases h
  | [_], h => unfold Adl at h; simp at h
  | [_, _], h => unfold Adl at h; simp at h
  | _ :: _ :: _ :: _ :: _, h => unfold Adl at h; simp at h

theorem balanced_plain {delims : Str} (t : Str) (h : ∀ c ∈ t, Ordinary c ∧ c ∉ delims) : Balanced delims false t := by
  induction t with
  | nil => exact .nil _
  | cons c t ih => exact .char _ c t (h c (by simp)).1 (fun _ => (h c (by simp)).2) (ih fun x hx => h x (by simp [hx]))

/-- The directive finds its operand. -/
theorem assume_reads (k : Nat) (s : S) (dir : Str) (hdir : dir ∈ [b! "assume", b! "ASSUME"]) (b : Str) (c : Nat) (b1 args b4 rest : Str)
    (hb : Blanks b) (hc : c = 32 ∨ c = 9) (hb1 : Blanks b1) (hb4 : Blanks b4) (ha : Balanced [] false args) (hat : Trimmed args)
    (hlen : (args ++ b4).length ≤ 254) (hrest : AtEnd rest) :
    (knot (k + 1)).lineSec (b ++ 46 :: dir ++ c :: (b1 ++ args ++ b4 ++ rest)) s = (do
      let (_, w, e) ← readExpr [61] args
      let v ← if hd e == 61 then parseNum (knot k) e.tail else pure (some 1)
      let st ← M.get
      if !st.mode.ez80 || !eqCase w (b! "adl") || v.isNone then do
        setError E.INVALID_OPTION
        pure (some rest)
      else do
        M.modify fun s => { s with adl := v.getD 1 != 0 }
        pure (some rest) : M (Option Str)) s := by
  have e1 : lineSecBody (knot k) (b ++ 46 :: dir ++ c :: (b1 ++ args ++ b4 ++ rest)) s = runDir (knot k) .assume (skipWs (b1 ++ args ++ b4 ++ rest)) s := by
    simp only [List.mem_cons, List.not_mem_nil, or_false] at hdir
    rcases hdir with rfl | rfl
    · exact lineSec_message _ b (b! "assume") c _ .assume hb hc (by decide) (by decide) (by decide) s
    · exact lineSec_message _ b (b! "ASSUME") c _ .assume hb hc (by decide) (by decide) (by decide) s
  show lineSecBody (knot k) _ s = _
  have e2 : skipWs (b1 ++ args ++ b4 ++ rest) = [] ++ args ++ b4 ++ rest := by
    rw [List.append_assoc, List.append_assoc, skipWs_blanks _ _ hb1]
    obtain ⟨h0, h1, -⟩ := hat
    cases args with
    | nil => exact absurd rfl h0
    | cons x args =>
      have := h1 x (by simp)
      rw [← isSpace_iff] at this
      simp only [List.nil_append, List.cons_append, List.append_assoc]
      exact skipWs_cons _ _ (by unfold isBlank; simp [this])
  rw [e1, e2]
  show dirAssume (knot k) _ s = _
  unfold dirAssume
  rw [M.bind_ok (readExpr_balanced true [] (by decide) (by simp) [] args b4 rest s spec_nb hb4 ha hat (fun _ => hlen) (.inl hrest.isEnd))]

/-- The directive with an option `name`, and a value behind an equals sign. -/
theorem assume_line (k d : Nat) (s : S) (dir : Str) (hdir : dir ∈ [b! "assume", b! "ASSUME"]) (b : Str) (c : Nat) (b1 name b2 b3 a b4 rest : Str) (v : Int)
    (hb : Blanks b) (hc : c = 32 ∨ c = 9) (hb1 : Blanks b1) (hne : name ≠ []) (hname : ∀ x ∈ name, Ordinary x ∧ x ≠ 61 ∧ ¬ White x) (hb2 : Blanks b2) (hb3 : Blanks b3)
    (hb4 : Blanks b4) (hv : Denotes (toI32 s.pc) (visibleLabel s) (visibleText s) d a v) (hd : d < 20) (hk : d < k)
    (hlen : (name ++ b2 ++ [61] ++ b3 ++ a ++ b4).length ≤ 254) (hrest : AtEnd rest) :
    (knot (k + 1)).lineSec (b ++ 46 :: dir ++ c :: (b1 ++ (name ++ b2 ++ [61] ++ b3 ++ a) ++ b4 ++ rest)) s =
      if !s.mode.ez80 || !eqCase name (b! "adl") then .ok (some rest) { errorAt 0x125 s with parseDepth := 0, fwdRef := false }
      else .ok (some rest) { s with adl := v != 0, parseDepth := 0, fwdRef := false } := by
  have hat := trimmed_denotes hv
  have hwhole : Balanced [] false (name ++ b2 ++ [61] ++ b3 ++ a) :=
    balanced_append (balanced_append (balanced_append (balanced_append (balanced_plain name fun x hx => ⟨(hname x hx).1, by simp⟩) (balanced_white hb2))
      (.char _ 61 _ (by decide) (by simp) (.nil _))) (balanced_white hb3)) (balanced_denotes hv)
  have htr : Trimmed (name ++ b2 ++ [61] ++ b3 ++ a) := by
    refine ⟨by simp, ?_, ?_⟩
    · intro x hx
      cases name with
      | nil => exact absurd rfl hne
      | cons y r => cases hx; exact (hname x (by simp)).2.2
    · intro x hx
      rw [getLast?_append_ne hat.1] at hx
      exact hat.2.2 x hx
  rw [assume_reads k s dir hdir b c b1 _ b4 rest hb hc hb1 hb4 hwhole htr hlen hrest]
  have htn : Trimmed name := ⟨hne, fun x hx => (hname x (List.mem_of_head? hx)).2.2, fun x hx => (hname x (List.mem_of_getLast? hx)).2.2⟩
  have e3 := readExpr_balanced true [61] (by decide) (by simp [White]) [] name b2 (61 :: (b3 ++ a)) s spec_nb hb2
    (balanced_plain name fun x hx => ⟨(hname x hx).1, by simpa using (hname x hx).2.1⟩) htn (fun _ => by simp at hlen ⊢; omega) (.inr (.inl (by simp [Spasm.hd])))
  rw [show name ++ b2 ++ [61] ++ b3 ++ a = [] ++ name ++ b2 ++ 61 :: (b3 ++ a) by simp, M.bind_ok e3]
  dsimp only
  have h61 : (Spasm.hd (61 :: (b3 ++ a)) == 61) = true := rfl
  simp only [h61, if_true, List.tail_cons]
  have := C03_value s d k b3 a [] [] v hv hd hk hb3 spec_nb (.inl rfl)
  simp only [List.append_nil] at this
  rw [M.bind_ok this, M.get_bind]
  simp only [Option.isNone_some, Bool.or_false, Option.getD_some]
  cases hx : (!s.mode.ez80 || !eqCase name (b! "adl")) with
  | true => rfl
  | false => rfl

/-- C65: on an eZ80 `.assume adl = value` selects ADL mode for the instructions behind it if the value is not 0, and Z80 mode if
it is. -/
theorem C65_assume (k d : Nat) (s : S) (dir : Str) (hdir : dir ∈ [b! "assume", b! "ASSUME"]) (b : Str) (c : Nat) (b1 name b2 b3 a b4 rest : Str) (v : Int)
    (hb : Blanks b) (hc : c = 32 ∨ c = 9) (hb1 : Blanks b1) (hname : Adl name) (hb2 : Blanks b2) (hb3 : Blanks b3)
    (hb4 : Blanks b4) (hv : Denotes (toI32 s.pc) (visibleLabel s) (visibleText s) d a v) (hd : d < 20) (hk : d < k)
    (hlen : (name ++ b2 ++ [61] ++ b3 ++ a ++ b4).length ≤ 254) (hrest : AtEnd rest) (hez : s.mode.ez80 = true) :
    (knot (k + 1)).lineSec (b ++ 46 :: dir ++ c :: (b1 ++ (name ++ b2 ++ [61] ++ b3 ++ a) ++ b4 ++ rest)) s =
      .ok (some rest) { s with adl := decide (v ≠ 0), parseDepth := 0, fwdRef := false } := by
  obtain ⟨h1, h2, h3, -⟩ := adl_chars hname
  rw [assume_line k d s dir hdir b c b1 name b2 b3 a b4 rest v hb hc hb1 h3 h2 hb2 hb3 hb4 hv hd hk hlen hrest, hez, h1]
  have : (v != 0) = decide (v ≠ 0) := by
    by_cases h : v = 0
    · subst h; rfl
    · simp [h]
  rw [this]
  rfl

/-- C65: `.assume adl` selects ADL mode. -/
theorem C65_assume_alone (k : Nat) (s : S) (dir : Str) (hdir : dir ∈ [b! "assume", b! "ASSUME"]) (b : Str) (c : Nat) (b1 name b4 rest : Str)
    (hb : Blanks b) (hc : c = 32 ∨ c = 9) (hb1 : Blanks b1) (hname : Adl name) (hb4 : Blanks b4) (hlen : b4.length ≤ 251) (hrest : AtEnd rest)
    (hez : s.mode.ez80 = true) :
    (knot (k + 1)).lineSec (b ++ 46 :: dir ++ c :: (b1 ++ name ++ b4 ++ rest)) s = .ok (some rest) { s with adl := true } := by
  obtain ⟨h1, h2, h3, h4⟩ := adl_chars hname
  have htn : Trimmed name := ⟨h3, fun x hx => (h2 x (List.mem_of_head? hx)).2.2, fun x hx => (h2 x (List.mem_of_getLast? hx)).2.2⟩
  rw [assume_reads k s dir hdir b c b1 name b4 rest hb hc hb1 hb4 (balanced_plain name fun x hx => ⟨(h2 x hx).1, by simp⟩) htn (by simp; omega) hrest]
  have e3 := readExpr_balanced true [61] (by decide) (by simp [White]) [] name [] [] s spec_nb spec_nb
    (balanced_plain name fun x hx => ⟨(h2 x hx).1, by simpa using (h2 x hx).2.1⟩) htn (fun _ => by simp; omega) (.inl rfl)
  simp only [List.nil_append, List.append_nil] at e3
  rw [M.bind_ok e3]
  dsimp only
  have h61 : (hd [] == 61) = false := rfl
  simp only [h61, Bool.false_eq_true, if_false]
  rw [M.pure_bind, M.get_bind, hez, h1]
  rfl

theorem map_upper_of_toLower : ∀ {t t' : Str}, t.map toLower = t'.map toLower → t.map upperCase = t'.map upperCase
  | [], [], _ => rfl
  | [], _ :: _, h => by simp at h
  | _ :: _, [], h => by simp at h
  | a :: t, b :: t', h => by
    simp only [List.map_cons, List.cons.injEq] at h ⊢
    exact ⟨upper_of_toLower h.1, map_upper_of_toLower h.2⟩

/-- C65: on a Z80, and with any other word, the directive is an error and changes nothing. -/
theorem C65_refused (k d : Nat) (s : S) (dir : Str) (hdir : dir ∈ [b! "assume", b! "ASSUME"]) (b : Str) (c : Nat) (b1 name b2 b3 a b4 rest : Str) (v : Int)
    (hb : Blanks b) (hc : c = 32 ∨ c = 9) (hb1 : Blanks b1) (hne : name ≠ []) (hname : ∀ x ∈ name, Ordinary x ∧ x ≠ 61 ∧ ¬ White x) (hb2 : Blanks b2) (hb3 : Blanks b3)
    (hb4 : Blanks b4) (hv : Denotes (toI32 s.pc) (visibleLabel s) (visibleText s) d a v) (hd : d < 20) (hk : d < k)
    (hlen : (name ++ b2 ++ [61] ++ b3 ++ a ++ b4).length ≤ 254) (hrest : AtEnd rest) (h : s.mode.ez80 = false ∨ ¬ Adl name) :
    (knot (k + 1)).lineSec (b ++ 46 :: dir ++ c :: (b1 ++ (name ++ b2 ++ [61] ++ b3 ++ a) ++ b4 ++ rest)) s =
      .ok (some rest) { errorAt 0x125 s with parseDepth := 0, fwdRef := false } := by
  rw [assume_line k d s dir hdir b c b1 name b2 b3 a b4 rest v hb hc hb1 hne hname hb2 hb3 hb4 hv hd hk hlen hrest, if_pos]
  rcases h with h | h
  · rw [h]; rfl
  · cases hx : eqCase name (b! "adl") with
    | false => simp
    | true =>
      exfalso
      apply h
      rw [eqCase_iff] at hx
      exact map_upper_of_toLower hx

/-- A state of an eZ80 program with the label `x`, whose value is 3. -/
def withEz80 : S :=
  { (asm (b! "x = 3\n") [b! "-E", b! "a.asm"]).state with session := 1, errors := [], argSets := [], errOccurred := false }

/-- The statement ` .assume ADL = x-3 ; Z80` selects Z80 mode. -/
example : (knot 3).lineSec (b! " .assume ADL = x-3 ; Z80\n") withEz80 = .ok (some (b! "; Z80\n")) { withEz80 with adl := false, parseDepth := 0, fwdRef := false } := by
  have blank : Blanks [32] := by intro c hc; simp at hc; subst hc; exact .inl rfl
  have hx : visibleLabel withEz80 (b! "x") = some 3 := by decide +kernel
  have hv : Denotes (toI32 withEz80.pc) (visibleLabel withEz80) (visibleText withEz80) 0 (b! "x-3") 0 :=
    .join 0 (b! "x") 3 [] .sub [45] [] 0 [51] 3 0 (.one _ _ _ (.plain _ _ _ (spec_label 120 3 (by omega) hx))) spec_nb spec_nb
        (by decide) (by simp) (.plain _ _ _ (spec_digit 51 (by omega))) (by decide)
  exact C65_assume 2 0 withEz80 (b! "assume") (by decide) [32] 32 [] (b! "ADL") [32] [32] (b! "x-3") [32] (b! "; Z80\n") 0 blank (.inl rfl) spec_nb rfl blank blank blank hv
    (by omega) (by omega) (by decide) (.inr ⟨59, _, rfl, by omega⟩) (by decide +kernel)

/-- On a Z80 the same statement is an error. -/
example : (knot 3).lineSec (b! ".ASSUME ADL=1\n") withBuffers = .ok (some (b! "\n")) { errorAt 0x125 withBuffers with parseDepth := 0, fwdRef := false } :=
  C65_refused 2 0 withBuffers (b! "ASSUME") (by decide) [] 32 [] (b! "ADL") [] [] (b! "1") [] (b! "\n") 1 spec_nb (.inl rfl) spec_nb (by decide) (by decide) spec_nb spec_nb spec_nb
    (.one _ _ _ (.plain _ _ _ (spec_digit 49 (by omega)))) (by omega) (by omega) (by decide) (.inr ⟨10, _, rfl, by omega⟩) (.inl (by decide +kernel))

/-- In a whole program: addresses have two bytes in Z80 mode and three in ADL mode. -/
example : (asm (b! ".assume adl=0\n ld hl,1\n.assume adl\n ld hl,1\n") [b! "-E", b! "a.asm"]).state.log =
    [.wrote (b! "a.bin") [0x21, 1, 0, 0x21, 1, 0, 0]] := by decide +kernel

end Spasm.Props
