import Verif.Lemmas.Hex
import Verif.Lemmas.M
import Verif.Spec.Export

/-
Lemmas about write_file.
-/

namespace Spasm
open Spec

theorem takeWhile_dot (e r : Str) (h : 46 ∉ e) :
    (e ++ 46 :: r).takeWhile (fun c => c != 46) = e ∧ (e ++ 46 :: r).dropWhile (fun c => c != 46) = 46 :: r := by
  induction e with
  | nil => exact ⟨rfl, rfl⟩
  | cons c e ih =>
    have hc : (c != 46) = true := by simp at h ⊢; omega
    obtain ⟨h1, h2⟩ := ih (by simp at h; exact h.2)
    simp only [List.cons_append, List.takeWhile_cons, List.dropWhile_cons, hc, if_true, h1, h2]
    exact ⟨trivial, trivial⟩

theorem extOf_stem (stem e : Str) (hs : stem ≠ []) (he : 46 ∉ e) : extOf (stem ++ 46 :: e) = some e := by
  cases stem with
  | nil => exact absurd rfl hs
  | cons c t =>
    have h1 : (t ++ 46 :: e).contains 46 = true := by simp
    have h2 : (t ++ 46 :: e).reverse = e.reverse ++ 46 :: t.reverse := by simp
    rw [List.cons_append]
    unfold extOf
    dsimp only
    rw [if_pos h1, h2, (takeWhile_dot e.reverse t.reverse (by simpa using he)).1, List.reverse_reverse]

theorem prgmOf_stem (stem e : Str) (hs : stem ≠ []) (he : 46 ∉ e) : prgmOf (stem ++ 46 :: e) = stem := by
  cases stem with
  | nil => exact absurd rfl hs
  | cons c t =>
    have h1 : (t ++ 46 :: e).contains 46 = true := by simp
    have h2 : (t ++ 46 :: e).reverse = e.reverse ++ 46 :: t.reverse := by simp
    rw [List.cons_append]
    unfold prgmOf
    dsimp only
    rw [if_pos h1, h2, (takeWhile_dot e.reverse t.reverse (by simpa using he)).2]
    simp

theorem eqCase_iff (a b : Str) : eqCase a b = true ↔ a.map toLower = b.map toLower := by
  unfold eqCase; simp

theorem eqCase_congr {a b : Str} (h : a.map toLower = b.map toLower) (c : Str) : eqCase a c = eqCase b c := by
  unfold eqCase; rw [h]

theorem calcOf_ext (name : Str) (p : Str × Calc) (hp : p ∈ extensions) (h : HasExt name p.1) :
    calcOf name = (p.2, false) := by
  obtain ⟨stem, e, hs, rfl, he, heq⟩ := h
  unfold calcOf
  rw [extOf_stem stem e hs he]
  dsimp only
  have : extensions.find? (fun q => eqCase e q.1) = extensions.find? (fun q => eqCase p.1 q.1) := by
    congr 1; funext q; exact eqCase_congr heq q.1
  rw [this]
  have hall : ∀ p ∈ extensions, extensions.find? (fun q => eqCase p.1 q.1) = some p := by decide
  rw [hall p hp]

/-- The contents of the output file for each type. -/
def fileOf (md5 : List Nat → List Nat) (ct : Calc) (name : Str) (mem : Nat → Nat) (bytes : List Nat) : M (List Nat) :=
  match ct with
  | .t8XK => makeApp md5 bytes
  | .rom => pure (makeRom bytes)
  | .hex => pure (intelHex bytes)
  | .bin => pure bytes
  | c => makePrgm c (prgmOf name) mem bytes

/-- The state in which the exporter works. -/
def exporting (s : S) : S := { s with currFile := b! "exporter", lineNum := -1 }

theorem writeFile_eq (md5 : List Nat → List Nat) (name : Str) (ct : Calc) (s : S) (hc : calcOf name = (ct, false))
    (hg : 0 ≤ s.outPtr) (hg' : s.outPtr ≤ 8000000) :
    writeFile md5 name s = (fileOf md5 ct name s.mem (image s) >>= fun file =>
      M.modify fun s => { s with log := s.log ++ [.wrote name file] }) (exporting s) := by
  unfold writeFile
  rw [M.modify_bind, hc]
  dsimp only
  rw [M.when_false, M.pure_bind, M.get_bind]
  rw [if_neg (show ¬ (s.outPtr > outputBufSize) from by unfold outputBufSize; omega), if_neg (by dsimp only; omega)]
  cases ct <;> rfl

theorem bytes_image (s : S) (h : GoodOutput s) : ∀ b ∈ image s, b < 256 := by
  intro b hb
  obtain ⟨i, _, rfl⟩ := List.mem_map.mp hb
  exact h.2.2 i

theorem length_image (s : S) : (image s).length = s.outPtr.toNat := by simp [image]

/-- A step of the export that only shows warnings and puts problems on record. -/
structure Smooth {α : Type} (m : M α) (P : α → Prop) : Prop where
  run : ∀ s, ∃ a s', m s = .ok a s' ∧ P a

theorem Smooth.bind {α β : Type} {m : M α} {f : α → M β} {P : α → Prop} {Q : β → Prop} (h : Smooth m P)
    (h' : ∀ a, P a → Smooth (f a) Q) : Smooth (m >>= f) Q := by
  constructor
  intro s
  obtain ⟨a, s', e, ha⟩ := h.run s
  rw [M.bind_ok e]
  exact (h' a ha).run s'

theorem Smooth.pure {α : Type} {P : α → Prop} (a : α) (h : P a) : Smooth (Pure.pure a) P := ⟨fun s => ⟨a, s, rfl, h⟩⟩

theorem Smooth.mono {α : Type} {m : M α} {P Q : α → Prop} (h : Smooth m P) (h' : ∀ a, P a → Q a) : Smooth m Q :=
  ⟨fun s => by obtain ⟨a, s', e, ha⟩ := h.run s; exact ⟨a, s', e, h' a ha⟩⟩

abbrev Any {α : Type} : α → Prop := fun _ => True

theorem quiet_get : Smooth M.get Any := ⟨fun s => ⟨s, s, rfl, trivial⟩⟩
theorem quiet_modify (f : S → S) : Smooth (M.modify f) Any := ⟨fun s => ⟨(), f s, rfl, trivial⟩⟩
theorem quiet_when (c : Bool) (m : M Unit) (h : Smooth m Any) : Smooth (M.when c m) Any := by
  cases c
  · exact .pure () trivial
  · exact h

theorem quiet_setError (c : Nat) : Smooth (setError c) Any := by
  unfold setError setProblem
  split
  · exact .pure _ trivial
  · exact quiet_modify _

theorem quiet_setWarning (c : Nat) : Smooth (setWarning c) Any := by
  unfold setWarning setProblem
  split
  · exact .pure _ trivial
  · exact quiet_modify _

theorem quiet_showWarning (m : Msg) : Smooth (showWarning m) Any := by
  unfold showWarning
  exact quiet_modify _

theorem quiet_warnN (n : Nat) : Smooth (warnN n) Any := by
  induction n with
  | zero => exact .pure _ trivial
  | succ n ih => exact .bind (quiet_showWarning _) fun _ _ => ih

theorem quiet_makePrgm (ct : Calc) (prgm : Str) (out : Nat → Nat) (bytes : List Nat) :
    Smooth (makePrgm ct prgm out bytes) (fun f => f = prgmBytes ct (prgmName ct prgm).1 bytes) := by
  unfold makePrgm
  refine .bind (quiet_warnN _) fun _ _ => .bind quiet_get fun s _ => ?_
  have tail : ∀ c1 c2 c3 : Bool, Smooth (do
      M.when c1 (showWarning (.misc 3))
      M.when c2 (showWarning (.misc 4))
      M.when c3 (showWarning (.misc 5))
      pure (prgmBytes ct (prgmName ct prgm).1 bytes) : M (List Nat))
      (fun f => f = prgmBytes ct (prgmName ct prgm).1 bytes) := by
    intro c1 c2 c3
    refine .bind (quiet_when _ _ (quiet_showWarning _)) fun _ _ => ?_
    refine .bind (quiet_when _ _ (quiet_showWarning _)) fun _ _ => ?_
    refine .bind (quiet_when _ _ (quiet_showWarning _)) fun _ _ => ?_
    exact .pure _ rfl
  dsimp only
  split
  · exact .bind (quiet_setWarning _) fun _ _ => tail _ _ _
  split
  · exact .bind (quiet_setWarning _) fun _ _ => tail _ _ _
  · exact tail _ _ _

/-- From the contents to write_file. -/
theorem writes_of_quiet (md5 : List Nat → List Nat) (name : Str) (ct : Calc) (s : S) (P : List Nat → Prop)
    (hc : calcOf name = (ct, false)) (hg : GoodOutput s)
    (hq : Smooth (fileOf md5 ct name s.mem (image s)) P) : ∃ file, Writes (writeFile md5 name s) name file ∧ P file := by
  obtain ⟨file, s', e, hP⟩ := hq.run (exporting s)
  refine ⟨file, ⟨{ s' with log := s'.log ++ [.wrote name file] }, s'.log, ?_, rfl⟩, hP⟩
  rw [writeFile_eq md5 name ct s hc hg.1 hg.2.1, M.bind_ok e]
  rfl

/-- The program types. -/
def Calc.isPrgm (ct : Calc) : Bool := ct.ix < 9

theorem writes_prgm (md5 : List Nat → List Nat) (name stem : Str) (p : Str × Calc) (s : S) (hp : p ∈ extensions)
    (hc : p.2.isPrgm = true) (hs : stem ≠ []) (e : Str) (he : 46 ∉ e) (heq : e.map toLower = p.1.map toLower)
    (hn : name = stem ++ 46 :: e) (hg : GoodOutput s) :
    Writes (writeFile md5 name s) name (prgmBytes p.2 (prgmName p.2 stem).1 (image s)) := by
  obtain ⟨file, h1, h2⟩ := writes_of_quiet md5 name p.2 s
    (fun f => f = prgmBytes p.2 (prgmName p.2 stem).1 (image s))
    (calcOf_ext name p hp ⟨stem, e, hs, hn, he, heq⟩) hg (by
      have : fileOf md5 p.2 name s.mem (image s) = makePrgm p.2 (prgmOf name) s.mem (image s) := by
        revert hc; cases p.2 <;> first | (intro _; rfl) | (intro h; exact absurd h (by decide))
      rw [this, hn, prgmOf_stem stem e hs he]
      exact quiet_makePrgm _ _ _ _)
  rw [← h2]; exact h1

end Spasm
