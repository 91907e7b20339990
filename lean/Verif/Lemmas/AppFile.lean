import Verif.Spec.AppFile
import Verif.Lemmas.Prgm

/-
Lemmas for C68: an application with a good header is accepted, and what it is patched to.
-/

namespace Spasm
open Spec

theorem fieldBytes_append (a b : AppFields) : fieldBytes (a ++ b) = fieldBytes a ++ fieldBytes b := by
  induction a with
  | nil => rfl
  | cons f a ih => simp only [List.cons_append, fieldBytes, ih, List.append_assoc]

theorem length_fieldBytes (a : AppFields) : 2 * a.length ≤ (fieldBytes a).length := by
  induction a with
  | nil => simp
  | cons f a ih => simp only [fieldBytes, List.length_cons, List.cons_append, List.length_append]; omega

theorem bufAt_at (p : List Nat) (v : Nat) (t : List Nat) (n : Nat) (h : n = p.length) (s : S) : bufAt (p ++ v :: t) n s = .ok v s := by
  subst h
  rw [bufAt_ok (by simp), List.getD_eq_getElem?_getD, List.getElem?_append_right (Nat.le_refl _)]
  simp

/-- The search passes over the fields that are not meant. -/
theorem findFieldLoop_fields (hit : Nat → Bool) (id : Nat) (tail : List Nat) (hid : hit id = true) :
    ∀ (before : AppFields) (p : List Nat) (f pnt : Nat), pnt = p.length → (∀ g ∈ before, hit g.1 = false ∧ g.2.length = g.1 % 16) →
      before.length < f → ∀ s, findFieldLoop hit (p ++ (fieldBytes before ++ 0x80 :: id :: tail)) f pnt s =
        .ok (some (pnt + (fieldBytes before).length + 2, id)) s := by
  intro before
  induction before with
  | nil =>
    intro p f pnt hp _ hf s
    obtain ⟨f, rfl⟩ : ∃ g, f = g + 1 := ⟨f - 1, by simp at hf; omega⟩
    have e : p ++ (fieldBytes [] ++ 0x80 :: id :: tail) = (p ++ [0x80]) ++ id :: tail := by simp [fieldBytes]
    rw [findFieldLoop, M.bind_ok (show bufAt (p ++ (fieldBytes [] ++ 0x80 :: id :: tail)) pnt s = .ok 0x80 s from bufAt_at p 0x80 _ pnt hp s)]
    simp only [bne_self_eq_false, Bool.false_eq_true, if_false]
    rw [e, M.bind_ok (bufAt_at (p ++ [0x80]) id tail (pnt + 1) (by simp [hp]) s)]
    simp only [hid, if_true]
    rfl
  | cons g before ih =>
    intro p f pnt hp hb hf s
    obtain ⟨f, rfl⟩ : ∃ g, f = g + 1 := ⟨f - 1, by simp at hf; omega⟩
    obtain ⟨h1, h2⟩ := hb g (by simp)
    have e : p ++ (fieldBytes (g :: before) ++ 0x80 :: id :: tail) = (p ++ [0x80]) ++ g.1 :: (g.2 ++ (fieldBytes before ++ 0x80 :: id :: tail)) := by
      simp [fieldBytes]
    have e' : p ++ (fieldBytes (g :: before) ++ 0x80 :: id :: tail) = (p ++ 0x80 :: g.1 :: g.2) ++ (fieldBytes before ++ 0x80 :: id :: tail) := by
      simp [fieldBytes]
    have e0 : p ++ (fieldBytes (g :: before) ++ 0x80 :: id :: tail) = p ++ 0x80 :: g.1 :: (g.2 ++ (fieldBytes before ++ 0x80 :: id :: tail)) := by
      simp [fieldBytes]
    have r1 : bufAt (p ++ (fieldBytes (g :: before) ++ 0x80 :: id :: tail)) pnt s = .ok 0x80 s := by rw [e0]; exact bufAt_at p _ _ _ hp s
    have r2 : bufAt (p ++ (fieldBytes (g :: before) ++ 0x80 :: id :: tail)) (pnt + 1) s = .ok g.1 s := by
      rw [e]; exact bufAt_at _ _ _ _ (by simp [hp]) s
    rw [findFieldLoop, M.bind_ok r1]
    simp only [bne_self_eq_false, Bool.false_eq_true, if_false]
    rw [M.bind_ok r2]
    simp only [h1, Bool.false_eq_true, if_false]
    rw [e', ih _ f _ (by simp [hp, h2]; omega) (fun x hx => hb x (by simp [hx])) (by simpa using hf) s]
    congr 3
    simp only [fieldBytes, List.cons_append, List.length_cons, List.length_append]
    omega

theorem set_at (p : List Nat) (v w : Nat) (t : List Nat) (n : Nat) (h : n = p.length) : (p ++ v :: t).set n w = p ++ w :: t := by
  subst h
  simp

theorem find_without {before after : AppFields} {p : Nat × List Nat → Bool} {x : Nat} (hp : ∀ c, p (0x81, c) = false) {f : Nat × List Nat}
    (h : (before ++ after).find? p = some f) : (before ++ (0x81, [x]) :: after).find? p = some f := by
  rw [List.find?_append] at h ⊢
  rw [List.find?_cons, hp]
  exact h

/-- A search for a field in an application with spare bytes behind it. -/
theorem find_in_app (hit : Nat → Bool) (len : List Nat) (hlen : len.length = 4) (before after : AppFields) (id : Nat) (content code : List Nat)
    (hid : hit id = true) (hb : ∀ g ∈ before, hit g.1 = false ∧ g.2.length = g.1 % 16) (b : List Nat)
    (eb : b = application len (before ++ (id, content) :: after) code) (s : S) :
    findFieldLoop hit b (b.length + 1) 6 s = .ok (some (6 + (fieldBytes before).length + 2, id)) s := by
  have e : b = ([0x80, 0x0F] ++ len) ++ (fieldBytes before ++ 0x80 :: id :: (content ++ (fieldBytes after ++ code))) := by
    rw [eb]
    unfold application
    rw [fieldBytes_append]
    simp [fieldBytes]
  have hl : before.length < b.length + 1 := by
    have := length_fieldBytes before
    rw [e]
    simp only [List.length_append, List.length_cons]
    omega
  generalize b.length + 1 = f at hl ⊢
  rw [e]
  exact findFieldLoop_fields hit id _ hid before _ f 6 (by simp [hlen]) hb hl s

/-- The bytes of the contents of a field. -/
theorem app_split (len : List Nat) (hlen : len.length = 4) (before after : AppFields) (id : Nat) (content code : List Nat) :
    ∃ p, p.length = 6 + (fieldBytes before).length + 2 ∧ application len (before ++ (id, content) :: after) code = p ++ (content ++ (fieldBytes after ++ code)) := by
  refine ⟨[0x80, 0x0F] ++ len ++ fieldBytes before ++ [0x80, id], by simp [hlen]; omega, ?_⟩
  unfold application
  rw [fieldBytes_append]
  simp [fieldBytes]

theorem length_application (len : List Nat) (fields : AppFields) (code : List Nat) :
    (application len fields code).length = 2 + len.length + (fieldBytes fields).length + code.length := by
  unfold application
  simp only [List.length_append, List.length_cons, List.length_nil]

theorem length_pageField (before after : AppFields) (x y : Nat) :
    (fieldBytes (before ++ (0x81, [x]) :: after)).length = (fieldBytes (before ++ (0x81, [y]) :: after)).length := by
  rw [fieldBytes_append, fieldBytes_append]
  simp [fieldBytes]

theorem highFirst4_be32 (n : Nat) : be32 n = highFirst4 n := rfl

/-- An application with a good header is patched without complaint. -/
theorem patchApp_good (before after : AppFields) (name len code : List Nat) (x : Nat) (hh : GoodHeader before after name) (hlen : len.length = 4)
    (bytes : List Nat) (eb : bytes = application len (before ++ (0x81, [x]) :: after) code) (hf : FitsPages bytes.length) (s : S) :
    patchApp bytes s = .ok (some (application (highFirst4 (bytes.length - 6)) (before ++ (0x81, [pagesOf (bytes.length + 96)]) :: after)
      (code ++ List.replicate 256 0), pagesOf (bytes.length + 96), name)) s := by
  obtain ⟨Z, hZ⟩ : ∃ Z : List Nat, Z = List.replicate 256 0 := ⟨_, rfl⟩
  rw [← hZ]
  have hL : bytes.length = 2 + 4 + (fieldBytes (before ++ (0x81, [x]) :: after)).length + code.length := by
    rw [eb, length_application, hlen]
  obtain ⟨hf1, hf2⟩ := hf
  have hpg : appPages bytes.length = pagesOf (bytes.length + 96) := by
    have : (fieldBytes (before ++ (0x81, [x]) :: after)).length ≠ 0 := by
      have := length_fieldBytes (before ++ (0x81, [x]) :: after)
      simp at this
      omega
    have h0 : bytes.length ≠ 0 := by omega
    unfold appPages pagesOf
    generalize bytes.length = L at *
    split <;> omega
  have hpb : pagesOf (bytes.length + 96) % 256 = pagesOf (bytes.length + 96) := by unfold pagesOf; omega
  have h6 : (bytes.length + 4294967296 - 6) % 4294967296 = bytes.length - 6 := by omega
  have hdrop : (bytes ++ Z).drop 6 = fieldBytes (before ++ (0x81, [x]) :: after) ++ (code ++ Z) := by
    have e : bytes ++ Z = ([0x80, 0x0F] ++ len) ++ (fieldBytes (before ++ (0x81, [x]) :: after) ++ (code ++ Z)) := by
      rw [eb]; unfold application; simp
    rw [e, List.drop_left' (by simp [hlen])]
  have htake : ((bytes ++ Z).take 2 == [0x80, 0x0F]) = true := by
    rw [eb]; unfold application; rfl
  have eb1 : [0x80, 0x0F] ++ be32 (bytes.length - 6) ++ (bytes ++ Z).drop 6 =
      application (highFirst4 (bytes.length - 6)) (before ++ (0x81, [x]) :: after) (code ++ Z) := by
    rw [hdrop]; unfold application; rw [highFirst4_be32]; simp
  have hbl : (highFirst4 (bytes.length - 6)).length = 4 := rfl
  -- the three fields
  have hsz : ∀ y, ∀ f ∈ before ++ (0x81, [y]) :: after, f.2.length = f.1 % 16 := by
    intro y f hf
    rcases List.mem_append.1 hf with h | h
    · exact hh.sizes f (List.mem_append_left _ h)
    · rcases List.mem_cons.1 h with rfl | h
      · simp
      · exact hh.sizes f (List.mem_append_right _ h)
  obtain ⟨-, as1, bs1, e1, h1⟩ := List.find?_eq_some_iff_append.1 (find_without (x := x) (fun _ => rfl) hh.kind)
  obtain ⟨id, content, hn, rfl⟩ := hh.named
  obtain ⟨hid, as2, bs2, e2, h2⟩ := List.find?_eq_some_iff_append.1 (find_without (x := pagesOf (bytes.length + 96)) (fun _ => by simp) hn)
  have hcl : content.length = id % 16 := hsz (pagesOf (bytes.length + 96)) (id, content) (by rw [e2]; simp)
  unfold patchApp
  dsimp only
  rw [← hZ, if_neg (by omega), h6, eb1]
  have hw : decide ((bytes.length + 96) % 16384 ≠ 0 ∧ (bytes.length + 96) % 16384 < 1024 ∧ (bytes.length + 96) / 16384 ≠ 0) = false := by
    rw [decide_eq_false_iff_not]; omega
  rw [hw, M.when_false, M.pure_bind]
  simp only [htake, Bool.not_true, Bool.false_eq_true, if_false]
  have r1 := find_in_app (fun v => v == 0x12) _ hbl as1 bs1 0x12 [1, 4] (code ++ Z) rfl
    (fun g hg => ⟨by simpa using h1 g hg, hsz x g (by rw [e1]; exact List.mem_append_left _ hg)⟩) (application (highFirst4 (bytes.length - 6)) (before ++ (0x81, [x]) :: after) (code ++ Z)) (by rw [e1]) s
  obtain ⟨p1, hp1, q1⟩ := app_split _ hbl as1 bs1 0x12 [1, 4] (code ++ Z)
  have r3 := find_in_app (fun v => v == 0x81) _ hbl before after 0x81 [x] (code ++ Z) rfl
    (fun g hg => ⟨by simpa using hh.pages g hg, hh.sizes g (List.mem_append_left _ hg)⟩) _ rfl s
  obtain ⟨p3, hp3, q3⟩ := app_split _ hbl before after 0x81 [x] (code ++ Z)
  have r4 : ∀ b, b = application (highFirst4 (bytes.length - 6)) (before ++ (0x81, [pagesOf (bytes.length + 96)]) :: after) (code ++ Z) → 
      findFieldFlex 0x40 b s = .ok (some (6 + (fieldBytes as2).length + 2, id)) s := by
    intro b hb
    exact find_in_app (fun v => v / 16 == 0x40 / 16) _ hbl as2 bs2 id content (code ++ Z) (by simpa using hid)
      (fun g hg => ⟨by simpa using h2 g hg, hsz _ g (by rw [e2]; exact List.mem_append_left _ hg)⟩) b (by rw [hb, e2]) s
  obtain ⟨p4, hp4, q4⟩ := app_split _ hbl as2 bs2 id content (code ++ Z)
  rw [M.bind_ok (show findField 0x12 _ s = _ from r1)]
  dsimp only
  have v1 : bufAt (application (highFirst4 (bytes.length - 6)) (before ++ (0x81, [x]) :: after) (code ++ Z))
      (6 + (fieldBytes as1).length + 2) s = .ok 1 s := by
    rw [e1, q1]
    exact bufAt_at p1 1 _ _ hp1.symm s
  have v2 : bufAt (application (highFirst4 (bytes.length - 6)) (before ++ (0x81, [x]) :: after) (code ++ Z))
      (6 + (fieldBytes as1).length + 2 + 1) s = .ok 4 s := by
    rw [e1, q1, show p1 ++ ([1, 4] ++ (fieldBytes bs1 ++ (code ++ Z))) = (p1 ++ [1]) ++ 4 :: (fieldBytes bs1 ++ (code ++ Z)) by simp]
    exact bufAt_at _ 4 _ _ (by simp [hp1]) s
  rw [M.bind_ok v1, M.bind_ok v2, if_neg (by decide), M.bind_ok (show findField 0x81 _ s = _ from r3)]
  dsimp only
  rw [M.bind_ok (show bufAt _ _ s = .ok x s by rw [q3]; exact bufAt_at p3 x _ _ hp3.symm s), hpg, hpb]
  have eset : (application (highFirst4 (bytes.length - 6)) (before ++ (0x81, [x]) :: after) (code ++ Z)).set
      (6 + (fieldBytes before).length + 2) (pagesOf (bytes.length + 96)) =
      application (highFirst4 (bytes.length - 6)) (before ++ (0x81, [pagesOf (bytes.length + 96)]) :: after) (code ++ Z) := by
    rw [q3, show p3 ++ ([x] ++ (fieldBytes after ++ (code ++ Z))) = p3 ++ x :: (fieldBytes after ++ (code ++ Z)) from rfl,
      set_at p3 _ _ _ _ hp3.symm]
    have e5 : p3 = [0x80, 0x0F] ++ highFirst4 (bytes.length - 6) ++ fieldBytes before ++ [0x80, 0x81] := by
      have : p3 ++ ([x] ++ (fieldBytes after ++ (code ++ Z))) =
          ([0x80, 0x0F] ++ highFirst4 (bytes.length - 6) ++ fieldBytes before ++ [0x80, 0x81]) ++ ([x] ++ (fieldBytes after ++ (code ++ Z))) := by
        rw [← q3]
        unfold application
        rw [fieldBytes_append]
        simp [fieldBytes]
      exact List.append_cancel_right this
    rw [e5]
    unfold application
    rw [fieldBytes_append]
    simp [fieldBytes]
  rw [eset, M.bind_ok (r4 _ rfl)]
  dsimp only
  have hc : (if id % 16 ≤ 8 then id % 16 else 8) = min 8 content.length := by rw [hcl]; split <;> omega
  rw [hc, e2, q4]
  have hle : 6 + (fieldBytes as2).length + 2 + min 8 content.length ≤ (p4 ++ (content ++ (fieldBytes bs2 ++ (code ++ Z)))).length := by
    simp only [List.length_append]
    omega
  rw [if_pos hle, List.drop_left' hp4]
  have : (content ++ (fieldBytes bs2 ++ (code ++ Z))).take (min 8 content.length) = content.take 8 := by
    rw [List.take_append_of_le_length (by omega), List.take_eq_take_iff.2]
    omega
  rw [this]
  rfl

theorem header_appFile (name text : List Nat) (n : Nat) (h : n = text.length) : header8xk name n ++ text = appFile name text := by
  subst h
  unfold header8xk appFile le32 lowFirst4
  simp

/-! ### Refusals -/

/-- The search ends at the first byte that is not 80h. -/
theorem findFieldLoop_absent (hit : Nat → Bool) (v : Nat) (tail : List Nat) (hv : v ≠ 0x80) :
    ∀ (fields : AppFields) (p : List Nat) (f pnt : Nat), pnt = p.length → (∀ g ∈ fields, hit g.1 = false ∧ g.2.length = g.1 % 16) →
      fields.length < f → ∀ s, findFieldLoop hit (p ++ (fieldBytes fields ++ v :: tail)) f pnt s = .ok none s := by
  intro fields
  induction fields with
  | nil =>
    intro p f pnt hp _ hf s
    obtain ⟨f, rfl⟩ : ∃ g, f = g + 1 := ⟨f - 1, by simp at hf; omega⟩
    rw [findFieldLoop, M.bind_ok (show bufAt (p ++ (fieldBytes [] ++ v :: tail)) pnt s = .ok v s from bufAt_at p v _ pnt hp s)]
    rw [if_pos (by simpa using hv)]
    rfl
  | cons g before ih =>
    intro p f pnt hp hb hf s
    obtain ⟨f, rfl⟩ : ∃ g, f = g + 1 := ⟨f - 1, by simp at hf; omega⟩
    obtain ⟨h1, h2⟩ := hb g (by simp)
    have e : p ++ (fieldBytes (g :: before) ++ v :: tail) = (p ++ [0x80]) ++ g.1 :: (g.2 ++ (fieldBytes before ++ v :: tail)) := by
      simp [fieldBytes]
    have e' : p ++ (fieldBytes (g :: before) ++ v :: tail) = (p ++ 0x80 :: g.1 :: g.2) ++ (fieldBytes before ++ v :: tail) := by
      simp [fieldBytes]
    have e0 : p ++ (fieldBytes (g :: before) ++ v :: tail) = p ++ 0x80 :: g.1 :: (g.2 ++ (fieldBytes before ++ v :: tail)) := by
      simp [fieldBytes]
    have r1 : bufAt (p ++ (fieldBytes (g :: before) ++ v :: tail)) pnt s = .ok 0x80 s := by rw [e0]; exact bufAt_at p _ _ _ hp s
    have r2 : bufAt (p ++ (fieldBytes (g :: before) ++ v :: tail)) (pnt + 1) s = .ok g.1 s := by
      rw [e]; exact bufAt_at _ _ _ _ (by simp [hp]) s
    rw [findFieldLoop, M.bind_ok r1]
    simp only [bne_self_eq_false, Bool.false_eq_true, if_false]
    rw [M.bind_ok r2]
    simp only [h1, Bool.false_eq_true, if_false]
    rw [e']
    exact ih _ f _ (by simp [hp, h2]; omega) (fun x hx => hb x (by simp [hx])) (by simpa using hf) s

theorem absent_in_app (hit : Nat → Bool) (len : List Nat) (hlen : len.length = 4) (fields : AppFields) (v : Nat) (tail : List Nat) (hv : v ≠ 0x80)
    (hb : ∀ g ∈ fields, hit g.1 = false ∧ g.2.length = g.1 % 16) (b : List Nat) (eb : b = application len fields (v :: tail)) (s : S) :
    findFieldLoop hit b (b.length + 1) 6 s = .ok none s := by
  have hl : fields.length < b.length + 1 := by
    have := length_fieldBytes fields
    rw [eb, length_application]
    omega
  have e : b = ([0x80, 0x0F] ++ len) ++ (fieldBytes fields ++ v :: tail) := by
    rw [eb]; unfold application; simp
  generalize b.length + 1 = f at hl ⊢
  rw [e]
  exact findFieldLoop_absent hit v tail hv fields _ f 6 (by simp [hlen]) hb hl s

/-- The state after an error or a warning has been recorded. -/
def recorded (code : Nat) (warn : Bool) (s : S) : S := { s with errors := ⟨code, s.session, warn, s.lineNum, s.currFile⟩ :: s.errors }

theorem setError_recorded (code : Nat) (h : code ≠ 0) (s : S) : setError code s = .ok () (recorded code false s) := by
  unfold setError setProblem
  rw [if_neg h]
  rfl

/-- An application that lacks something is refused with the error that says so. -/
theorem patchApp_lacking {bs : List Nat} {code : Nat} (h : Lacking bs code) (s : S) : patchApp bs s = .ok none (recorded code false s) := by
  have quiet : ∀ n, FitsPages n → ¬((n + 96) % 16384 ≠ 0 ∧ (n + 96) % 16384 < 97 ∧ n > 16384) ∧
      decide ((n + 96) % 16384 ≠ 0 ∧ (n + 96) % 16384 < 1024 ∧ (n + 96) / 16384 ≠ 0) = false := by
    rintro n ⟨h1, h2⟩
    rw [decide_eq_false_iff_not]
    omega
  have stop : ∀ code, code ≠ 0 → (setError code >>= fun _ => (pure none : M (Option (List Nat × Nat × List Nat)))) s = .ok none (recorded code false s) := by
    intro code hc
    rw [M.bind_ok (setError_recorded code hc s)]
    rfl
  have start : ∀ len fields code, len.length = 4 → code.head? ≠ some 0x80 → FitsPages (application len fields code).length → 
      ∃ v tail, v ≠ 0x80 ∧ code ++ List.replicate 256 0 = v :: tail ∧
      [0x80, 0x0F] ++ be32 (((application len fields code).length + 4294967296 - 6) % 4294967296) ++ (application len fields code ++ List.replicate 256 0).drop 6 =
        application (highFirst4 ((application len fields code).length - 6)) fields (v :: tail) := by
    intro len fields code hlen hc hf
    have hN : (application len fields code).length ≥ 6 := by rw [length_application, hlen]; omega
    have hN2 := hf.1
    have e : application len fields code ++ List.replicate 256 0 = ([0x80, 0x0F] ++ len) ++ (fieldBytes fields ++ (code ++ List.replicate 256 0)) := by
      unfold application
      generalize List.replicate 256 0 = Z
      simp
    rw [e, List.drop_left' (by simp [hlen]), show ((application len fields code).length + 4294967296 - 6) % 4294967296 = (application len fields code).length - 6 by omega]
    generalize (application len fields code).length - 6 = N
    obtain ⟨v, tail, hv, e2⟩ : ∃ v tail, v ≠ 0x80 ∧ code ++ List.replicate 256 0 = v :: tail := by
      cases code with
      | nil => exact ⟨0, List.replicate 255 0, by decide, rfl⟩
      | cons c t => exact ⟨c, t ++ List.replicate 256 0, fun h => hc (by rw [h]; rfl), rfl⟩
    refine ⟨v, tail, hv, e2, ?_⟩
    rw [e2]
    unfold application
    rw [highFirst4_be32]
    simp only [List.append_assoc]
  have htake : ∀ len fields code, ((application len fields code ++ List.replicate 256 0).take 2 == [0x80, 0x0F]) = true := fun _ _ _ => rfl
  unfold patchApp
  dsimp only
  cases h with
  | room _ h1 h2 h3 =>
    rw [if_pos ⟨by omega, by omega, by omega⟩]
    exact stop _ (by decide)
  | length _ h1 h2 =>
    obtain ⟨q1, q2⟩ := quiet _ h1
    rw [if_neg q1, q2, M.when_false, M.pure_bind]
    have : ((bs ++ List.replicate 256 0).take 2 == [0x80, 0x0F]) = false := by
      rw [beq_eq_false_iff_ne]
      intro e
      match bs with
      | [] => exact absurd e (by decide)
      | [a] =>
        have : [a, 0] = [0x80, 0x0F] := e
        simp at this
      | a :: b :: t => exact h2 e
    rw [this]
    exact stop _ (by decide)
  | kind len fields code h1 h2 h3 h4 h5 =>
    obtain ⟨q1, q2⟩ := quiet _ h1
    obtain ⟨v, tail, hv, -, e⟩ := start len fields code h2 h4 h1
    rw [if_neg q1, q2, M.when_false, M.pure_bind, htake, e]
    simp only [Bool.not_true, Bool.false_eq_true, if_false]
    cases hf : fields.find? (fun f => f.1 == 0x12) with
    | none =>
      have := absent_in_app (fun v => v == 0x12) (highFirst4 ((application len fields code).length - 6)) rfl fields v tail hv
        (fun g hg => ⟨by simpa using List.find?_eq_none.1 hf g hg, h3 g hg⟩) _ rfl s
      rw [M.bind_ok (show findField 0x12 _ s = _ from this)]
      exact stop _ (by decide)
    | some f =>
      obtain ⟨hid, as, bs, e1, e2⟩ := List.find?_eq_some_iff_append.1 hf
      obtain ⟨id, content⟩ := f
      have hid : id = 0x12 := by simpa using hid
      subst hid
      have hcl : content.length = 2 := by simpa using h3 (0x12, content) (by rw [e1]; simp)
      obtain ⟨a, b, rfl⟩ : ∃ a b, content = [a, b] := by
        match content, hcl with
        | [a, b], _ => exact ⟨a, b, rfl⟩
      generalize (application len fields code).length - 6 = N
      subst e1
      have r1 := find_in_app (fun v => v == 0x12) (highFirst4 N) rfl as bs 0x12 [a, b] (v :: tail) rfl
        (fun g hg => ⟨by simpa using e2 g hg, h3 g (List.mem_append_left _ hg)⟩) _ rfl s
      obtain ⟨p1, hp1, q1⟩ := app_split (highFirst4 N) rfl as bs 0x12 [a, b] (v :: tail)
      rw [M.bind_ok (show findField 0x12 _ s = _ from r1)]
      dsimp only
      have v1 : bufAt (application (highFirst4 N) (as ++ (0x12, [a, b]) :: bs) (v :: tail)) (6 + (fieldBytes as).length + 2) s = .ok a s := by
        rw [q1]
        exact bufAt_at p1 a _ _ hp1.symm s
      have v2 : bufAt (application (highFirst4 N) (as ++ (0x12, [a, b]) :: bs) (v :: tail)) (6 + (fieldBytes as).length + 2 + 1) s = .ok b s := by
        rw [q1, show p1 ++ ([a, b] ++ (fieldBytes bs ++ v :: tail)) = (p1 ++ [a]) ++ b :: (fieldBytes bs ++ v :: tail) by simp]
        exact bufAt_at _ b _ _ (by simp [hp1]) s
      rw [M.bind_ok v1, M.bind_ok v2, if_pos]
      · exact stop _ (by decide)
      · by_cases ha : a = 1
        · subst ha
          refine .inr fun hb => h5 ?_
          rw [hf, hb]
        · exact .inl ha
  | pages len fields code h1 h2 h3 h4 h5 h6 =>
    obtain ⟨q1, q2⟩ := quiet _ h1
    obtain ⟨v, tail, hv, -, e⟩ := start len fields code h2 h4 h1
    rw [if_neg q1, q2, M.when_false, M.pure_bind, htake, e]
    simp only [Bool.not_true, Bool.false_eq_true, if_false]
    obtain ⟨-, as, bs, e1, e2⟩ := List.find?_eq_some_iff_append.1 h5
    generalize (application len fields code).length - 6 = N
    have r3 := absent_in_app (fun v => v == 0x81) (highFirst4 N) rfl fields v tail hv
        (fun g hg => ⟨by simpa using h6 g hg, h3 g hg⟩) _ rfl s
    subst e1
    have r1 := find_in_app (fun v => v == 0x12) (highFirst4 N) rfl as bs 0x12 [1, 4] (v :: tail) rfl
      (fun g hg => ⟨by simpa using e2 g hg, h3 g (List.mem_append_left _ hg)⟩) _ rfl s
    obtain ⟨p1, hp1, q1⟩ := app_split (highFirst4 N) rfl as bs 0x12 [1, 4] (v :: tail)
    rw [M.bind_ok (show findField 0x12 _ s = _ from r1)]
    dsimp only
    have v1 : bufAt (application (highFirst4 N) (as ++ (0x12, [1, 4]) :: bs) (v :: tail)) (6 + (fieldBytes as).length + 2) s = .ok 1 s := by
      rw [q1]
      exact bufAt_at p1 1 _ _ hp1.symm s
    have v2 : bufAt (application (highFirst4 N) (as ++ (0x12, [1, 4]) :: bs) (v :: tail)) (6 + (fieldBytes as).length + 2 + 1) s = .ok 4 s := by
      rw [q1, show p1 ++ ([1, 4] ++ (fieldBytes bs ++ v :: tail)) = (p1 ++ [1]) ++ 4 :: (fieldBytes bs ++ v :: tail) by simp]
      exact bufAt_at _ 4 _ _ (by simp [hp1]) s
    rw [M.bind_ok v1, M.bind_ok v2, if_neg (by decide), M.bind_ok (show findField 0x81 _ s = _ from r3)]
    exact stop _ (by decide)
  | name len fields code h1 h2 h3 h4 h5 h6 h7 =>
    obtain ⟨q1, q2⟩ := quiet _ h1
    obtain ⟨v, tail, hv, -, e⟩ := start len fields code h2 h4 h1
    rw [if_neg q1, q2, M.when_false, M.pure_bind, htake, e]
    simp only [Bool.not_true, Bool.false_eq_true, if_false]
    obtain ⟨-, as, bs, e1, e2⟩ := List.find?_eq_some_iff_append.1 h5
    obtain ⟨⟨i3, x3⟩, h6⟩ : ∃ f, fields.find? (fun f => f.1 == 0x81) = some f := by
      obtain ⟨f, hf, he⟩ := h6
      cases h : fields.find? (fun f => f.1 == 0x81) with
      | some f => exact ⟨f, rfl⟩
      | none => exact absurd he (by simpa using List.find?_eq_none.1 h f hf)
    obtain ⟨hid, bs3, as3, e3, e4⟩ := List.find?_eq_some_iff_append.1 h6
    have hid : i3 = 0x81 := by simpa using hid
    subst hid
    have hcl : x3.length = 1 := by simpa using h3 (0x81, x3) (by rw [e3]; simp)
    obtain ⟨x, rfl⟩ : ∃ x, x3 = [x] := by
      match x3, hcl with
      | [x], _ => exact ⟨x, rfl⟩
    generalize appPages (application len fields code).length % 256 = P
    generalize (application len fields code).length - 6 = N
    have r4 : ∀ b, b = application (highFirst4 N) (bs3 ++ (0x81, [P]) :: as3) (v :: tail) → findFieldFlex 0x40 b s = .ok none s := by
      intro b hb
      refine absent_in_app (fun v => v / 16 == 0x40 / 16) (highFirst4 N) rfl (bs3 ++ (0x81, [P]) :: as3) v tail hv (fun g hg => ?_) b hb s
      rcases List.mem_append.1 hg with h | h
      · have : g ∈ fields := by rw [e3]; exact List.mem_append_left _ h
        exact ⟨by simpa using h7 g this, h3 g this⟩
      · rcases List.mem_cons.1 h with rfl | h
        · exact ⟨by simp, by simp⟩
        · have : g ∈ fields := by rw [e3]; simp [h]
          exact ⟨by simpa using h7 g this, h3 g this⟩
    have r1 := find_in_app (fun v => v == 0x12) (highFirst4 N) rfl as bs 0x12 [1, 4] (v :: tail) rfl
      (fun g hg => ⟨by simpa using e2 g hg, h3 g (by rw [e1]; exact List.mem_append_left _ hg)⟩) (application (highFirst4 N) fields (v :: tail)) (by rw [e1]) s
    obtain ⟨p1, hp1, q1⟩ := app_split (highFirst4 N) rfl as bs 0x12 [1, 4] (v :: tail)
    have r3 := find_in_app (fun v => v == 0x81) (highFirst4 N) rfl bs3 as3 0x81 [x] (v :: tail) rfl
      (fun g hg => ⟨by simpa using e4 g hg, h3 g (by rw [e3]; exact List.mem_append_left _ hg)⟩) (application (highFirst4 N) fields (v :: tail)) (by rw [e3]) s
    obtain ⟨p3, hp3, q3⟩ := app_split (highFirst4 N) rfl bs3 as3 0x81 [x] (v :: tail)
    rw [M.bind_ok (show findField 0x12 _ s = _ from r1)]
    dsimp only
    have v1 : bufAt (application (highFirst4 N) fields (v :: tail)) (6 + (fieldBytes as).length + 2) s = .ok 1 s := by
      rw [e1, q1]
      exact bufAt_at p1 1 _ _ hp1.symm s
    have v2 : bufAt (application (highFirst4 N) fields (v :: tail)) (6 + (fieldBytes as).length + 2 + 1) s = .ok 4 s := by
      rw [e1, q1, show p1 ++ ([1, 4] ++ (fieldBytes bs ++ v :: tail)) = (p1 ++ [1]) ++ 4 :: (fieldBytes bs ++ v :: tail) by simp]
      exact bufAt_at _ 4 _ _ (by simp [hp1]) s
    rw [M.bind_ok v1, M.bind_ok v2, if_neg (by decide), M.bind_ok (show findField 0x81 _ s = _ from r3)]
    dsimp only
    rw [M.bind_ok (show bufAt _ _ s = .ok x s by rw [e3, q3]; exact bufAt_at p3 x _ _ hp3.symm s)]
    have eset : (application (highFirst4 N) fields (v :: tail)).set (6 + (fieldBytes bs3).length + 2) P =
        application (highFirst4 N) (bs3 ++ (0x81, [P]) :: as3) (v :: tail) := by
      rw [e3, q3, show p3 ++ ([x] ++ (fieldBytes as3 ++ v :: tail)) = p3 ++ x :: (fieldBytes as3 ++ v :: tail) from rfl, set_at p3 _ _ _ _ hp3.symm]
      have e5 : p3 = [0x80, 0x0F] ++ highFirst4 N ++ fieldBytes bs3 ++ [0x80, 0x81] := by
        have : p3 ++ ([x] ++ (fieldBytes as3 ++ v :: tail)) =
            ([0x80, 0x0F] ++ highFirst4 N ++ fieldBytes bs3 ++ [0x80, 0x81]) ++ ([x] ++ (fieldBytes as3 ++ v :: tail)) := by
          rw [← q3]
          unfold application
          rw [fieldBytes_append]
          simp [fieldBytes]
        exact List.append_cancel_right this
      rw [e5]
      unfold application
      rw [fieldBytes_append]
      simp [fieldBytes]
    rw [eset, M.bind_ok (r4 _ rfl)]
    exact stop _ (by decide)

end Spasm
