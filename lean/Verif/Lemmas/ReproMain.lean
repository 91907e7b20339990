import Verif.Lemmas.Repro
import Mathlib.Data.List.TakeWhile
import Verif.Lemmas.Export

/-
The second pass, the output file and the whole program started with different contents of the output buffer and
different random numbers.
-/

namespace Spasm

/-- As `Ind`, for pieces of the program that move the output position. -/
structure Loose {α : Type} (m : M α) : Prop where
  pos : ∀ s, s.randPos ≤ (m s).state.randPos
  sought : ∀ s, (m s).state.sought = false → s.sought = false
  run : ∀ s μ ρ, (m s).state.randPos = s.randPos → ∃ ν, m (swap μ ρ s) = (m s).onState (swap ν ρ) ∧ SameOut s (m s).state μ ν

theorem Ind.loose {α : Type} {m : M α} (h : Ind m) : Loose m :=
  ⟨h.pos, h.sought, fun s μ ρ hp => let ⟨ν, a, b, _⟩ := h.run s μ ρ hp; ⟨ν, a, b⟩⟩

theorem Loose.bind {α β : Type} {m : M α} {f : α → M β} (h : Loose m) (h' : ∀ a, Loose (f a)) : Loose (m >>= f) where
  pos s := by
    have h1 := h.pos s
    rw [M.bind_apply]
    cases hm : m s with
    | ok a t => rw [hm] at h1; exact Nat.le_trans h1 ((h' a).pos t)
    | stop e t => rw [hm] at h1; exact h1
  sought s := by
    have h1 := h.sought s
    rw [M.bind_apply]
    cases hm : m s with
    | ok a t => rw [hm] at h1; exact fun hx => h1 ((h' a).sought t hx)
    | stop e t => rw [hm] at h1; exact h1
  run s μ ρ := by
    have h1 := h.pos s
    have hr := h.run s μ ρ
    rw [M.bind_apply, M.bind_apply]
    cases hm : m s with
    | stop e t =>
      rw [hm] at hr
      intro hp
      obtain ⟨ν, e1, e2⟩ := hr hp
      rw [e1]
      exact ⟨ν, rfl, e2⟩
    | ok a t =>
      rw [hm] at hr h1
      intro hp
      have h2 := (h' a).pos t
      have h1 : s.randPos ≤ t.randPos := h1
      have hp : (f a t).state.randPos = s.randPos := hp
      obtain ⟨ν, e1, e2⟩ := hr (show t.randPos = _ by omega)
      obtain ⟨ξ, f1, f2⟩ := (h' a).run t ν ρ (by omega)
      rw [e1]
      exact ⟨ξ, f1, e2.trans f2⟩

theorem loose_outPtr (p : Int) : Loose (M.modify fun s => { s with outPtr := p }) :=
  ⟨fun _ => Nat.le_refl _, fun _ => id, fun _ μ _ _ => ⟨μ, rfl, fun _ => .inl ⟨rfl, rfl⟩⟩⟩

theorem Loose.get_bind {β : Type} {f : S → M β} (h : ∀ s, Loose (f s)) (hf : ∀ s μ ρ, f (swap μ ρ s) = f s) :
    Loose (M.get >>= f) where
  pos s := (h s).pos s
  sought s := (h s).sought s
  run s μ ρ hp := by
    have := (h s).run s μ ρ hp
    rw [M.get_bind, M.get_bind, hf]
    exact this

/-- As `Ind`, for runs from one state. -/
structure IndAt {α : Type} (m : M α) (s : S) : Prop where
  pos : s.randPos ≤ (m s).state.randPos
  sought : (m s).state.sought = false → s.sought = false
  run : ∀ μ ρ, (m s).state.randPos = s.randPos → ∃ ν, m (swap μ ρ s) = (m s).onState (swap ν ρ) ∧ SameOut s (m s).state μ ν ∧
    ∀ a t, m s = .ok a t → t.sought = false → Agree s μ → Agree t ν

theorem Ind.here {α : Type} {m : M α} (h : Ind m) (s : S) : IndAt m s := ⟨h.pos s, h.sought s, h.run s⟩

theorem Ind.of {α : Type} {m : M α} (h : ∀ s, IndAt m s) : Ind m :=
  ⟨fun s => (h s).pos, fun s => (h s).sought, fun s => (h s).run⟩

theorem IndAt.bind {α β : Type} {m : M α} {f : α → M β} {s : S} (h : IndAt m s) (h' : ∀ a t, m s = .ok a t → IndAt (f a) t) :
    IndAt (m >>= f) s where
  pos := by
    have h1 := h.pos
    rw [M.bind_apply]
    cases hm : m s with
    | ok a t => rw [hm] at h1; exact Nat.le_trans h1 (h' a t hm).pos
    | stop e t => rw [hm] at h1; exact h1
  sought := by
    have h1 := h.sought
    rw [M.bind_apply]
    cases hm : m s with
    | ok a t => rw [hm] at h1; exact fun hx => h1 ((h' a t hm).sought hx)
    | stop e t => rw [hm] at h1; exact h1
  run μ ρ := by
    have h1 := h.pos
    have hr := h.run μ ρ
    rw [M.bind_apply, M.bind_apply]
    cases hm : m s with
    | stop e t =>
      rw [hm] at hr
      intro hp
      obtain ⟨ν, e1, e2, _⟩ := hr hp
      rw [e1]
      exact ⟨ν, rfl, e2, fun _ _ h => by cases h⟩
    | ok a t =>
      rw [hm] at hr h1
      intro hp
      have h2 := (h' a t hm).pos
      have h1 : s.randPos ≤ t.randPos := h1
      have hp : (f a t).state.randPos = s.randPos := hp
      obtain ⟨ν, e1, e2, e3⟩ := hr (show t.randPos = _ by omega)
      obtain ⟨ξ, f1, f2, f3⟩ := (h' a t hm).run ν ρ (by omega)
      rw [e1]
      refine ⟨ξ, f1, e2.trans f2, fun b u hu hx ha => f3 b u hu hx (e3 a t rfl ((h' a t hm).sought ?_) ha)⟩
      rw [show f a t = _ from hu]
      exact hx

/-- Returning to the old output position makes up for having moved it. -/
theorem Loose.restore {α : Type} {m : M α} (h : Loose m) (s : S) (hr : ∀ a t, m s = .ok a t → t.outPtr = s.outPtr) : IndAt m s where
  pos := h.pos s
  sought := h.sought s
  run μ ρ hp := by
    obtain ⟨ν, e1, e2⟩ := h.run s μ ρ hp
    refine ⟨ν, e1, e2, fun a t ht _ ha i hi => ?_⟩
    rw [hr a t ht] at hi
    have := e2.agree (ha i hi)
    rw [ht] at this
    exact this

variable {k : Rec} (hk : RecInd k)
include hk

theorem loose_runExpr (e : PExpr) : Loose (runExpr k e) := by
  unfold runExpr
  refine .bind (Ind.loose (by ind)) fun _ => .bind (Ind.loose (by ind)) fun _ => .bind (ind_parseNum hk _).loose fun x => ?_
  cases x with
  | none => exact (Ind.pure ()).loose
  | some v =>
    dsimp only
    split
    · exact Ind.loose (by ind)
    · exact .bind (loose_outPtr _) fun _ => (ind_writeArg _ _ _ _).loose

theorem loose_runExprs (l : List PExpr) : Loose (runExprs k l) := by
  induction l with
  | nil => exact (Ind.pure ()).loose
  | cons e l ih => exact .bind (loose_runExpr hk e) fun _ => ih

theorem ind_runSecondPass : Ind (runSecondPass k) := by
  refine .of fun s => ?_
  -- the first half, from `s`
  let half (s : S) : M Unit := do
    runExprs k s.exprs
    M.modify fun s' => { s' with outPtr := s.outPtr, exprs := [] }
  have lh : ∀ s, Loose (half s) := fun s => .bind (loose_runExprs hk _) fun _ =>
    ⟨fun _ => Nat.le_refl _, fun _ => id, fun _ μ _ _ => ⟨μ, rfl, fun _ => .inl ⟨rfl, rfl⟩⟩⟩
  have ih : IndAt (half s) s := (lh s).restore s fun a t ht => by
    rw [show half s = (do runExprs k s.exprs; M.modify fun s' => { s' with outPtr := s.outPtr, exprs := [] } : M Unit) from rfl, M.bind_eq_ok] at ht
    obtain ⟨_, u, _, hu⟩ := ht
    cases hu
    rfl
  have all : IndAt (half s >>= fun _ => (do
      runOutputs k s.outputs
      M.modify fun s' => { s' with currFile := s.currFile, outputs := [] } : M Unit)) s :=
    .bind ih fun _ t _ => (Ind.here (by ind) t)
  have e : ∀ u, runSecondPass k u = (half u >>= fun _ => (do
      runOutputs k u.outputs
      M.modify fun s' => { s' with currFile := u.currFile, outputs := [] } : M Unit)) u := by
    intro u
    unfold runSecondPass
    rw [M.get_bind]
    simp only [half, M.bind_assoc]
  refine ⟨?_, ?_, ?_⟩
  · rw [e]; exact all.pos
  · rw [e]; exact all.sought
  · intro μ ρ
    rw [e, e]
    exact all.run μ ρ

theorem ind_passTwo : Ind (passTwo k) := by
  unfold passTwo; ind

/-! ### The output file -/

omit hk

/-- As `IndAt`, for the end of a run: it is known that .seek is not used, that the output produced so far does not depend on
the buffer, and that the final state meets a condition. -/
structure IndEnd {α : Type} (Q : S → Prop) (m : M α) (s : S) : Prop where
  pos : s.randPos ≤ (m s).state.randPos
  sought : (m s).state.sought = false → s.sought = false
  run : ∀ μ ρ, (m s).state.randPos = s.randPos → (m s).state.sought = false → Q (m s).state → Agree s μ →
    ∃ ν, m (swap μ ρ s) = (m s).onState (swap ν ρ)

theorem IndAt.end {α : Type} {Q : S → Prop} {m : M α} {s : S} (h : IndAt m s) : IndEnd Q m s :=
  ⟨h.pos, h.sought, fun μ ρ hp _ _ _ => let ⟨ν, e, _⟩ := h.run μ ρ hp; ⟨ν, e⟩⟩

theorem IndEnd.bind {α β : Type} {Q : S → Prop} {m : M α} {f : α → M β} {s : S} (h : IndAt m s)
    (h' : ∀ a t, m s = .ok a t → IndEnd Q (f a) t) : IndEnd Q (m >>= f) s where
  pos := by
    have h1 := h.pos
    rw [M.bind_apply]
    cases hm : m s with
    | ok a t => rw [hm] at h1; exact Nat.le_trans h1 (h' a t hm).pos
    | stop e t => rw [hm] at h1; exact h1
  sought := by
    have h1 := h.sought
    rw [M.bind_apply]
    cases hm : m s with
    | ok a t => rw [hm] at h1; exact fun hx => h1 ((h' a t hm).sought hx)
    | stop e t => rw [hm] at h1; exact h1
  run μ ρ := by
    have h1 := h.pos
    have hr := h.run μ ρ
    rw [M.bind_apply, M.bind_apply]
    cases hm : m s with
    | stop e t =>
      rw [hm] at hr
      intro hp _ _ _
      obtain ⟨ν, e1, _⟩ := hr hp
      rw [e1]
      exact ⟨ν, rfl⟩
    | ok a t =>
      rw [hm] at hr h1
      intro hp hx hq ha
      have h2 := (h' a t hm).pos
      have h1 : s.randPos ≤ t.randPos := h1
      have hp : (f a t).state.randPos = s.randPos := hp
      obtain ⟨ν, e1, e2, e3⟩ := hr (show t.randPos = _ by omega)
      obtain ⟨ξ, f1⟩ := (h' a t hm).run ν ρ (by omega) hx hq (e3 a t rfl ((h' a t hm).sought hx) ha)
      rw [e1]
      exact ⟨ξ, f1⟩

/-- A last part that does not depend on the buffer. -/
theorem IndEnd.andThen {α β : Type} {Q : S → Prop} {m : M α} {f : α → M β} {s : S} (h : IndEnd (fun _ => True) m s)
    (h' : ∀ a, Ind (f a)) : IndEnd Q (m >>= f) s where
  pos := by
    have h1 := h.pos
    rw [M.bind_apply]
    cases hm : m s with
    | ok a t => rw [hm] at h1; exact Nat.le_trans h1 ((h' a).pos t)
    | stop e t => rw [hm] at h1; exact h1
  sought := by
    have h1 := h.sought
    rw [M.bind_apply]
    cases hm : m s with
    | ok a t => rw [hm] at h1; exact fun hx => h1 ((h' a).sought t hx)
    | stop e t => rw [hm] at h1; exact h1
  run μ ρ := by
    have h1 := h.pos
    have hr := h.run μ ρ
    rw [M.bind_apply, M.bind_apply]
    cases hm : m s with
    | stop e t =>
      rw [hm] at hr
      intro hp hx _ ha
      obtain ⟨ν, e1⟩ := hr hp hx trivial ha
      rw [e1]
      exact ⟨ν, rfl⟩
    | ok a t =>
      rw [hm] at hr h1
      intro hp hx hq ha
      have h2 := (h' a).pos t
      have h1 : s.randPos ≤ t.randPos := h1
      have hp : (f a t).state.randPos = s.randPos := hp
      obtain ⟨ν, e1⟩ := hr (show t.randPos = _ by omega) ((h' a).sought t hx) trivial ha
      obtain ⟨ξ, f1, _⟩ := (h' a).run t ν ρ (by omega)
      rw [e1]
      exact ⟨ξ, f1⟩

/-- The part of write_file that looks at the output. -/
def exportRest (md5 : List Nat → List Nat) (name : Str) (s : S) : M Unit :=
  if s.outPtr > outputBufSize then M.ub .outOfBounds
  else if s.outPtr < 0 ∧ ((calcOf name).1 = .t8XK ∨ (calcOf name).1 = .rom ∨ (calcOf name).1.ix < 9) then M.ub .outOfBounds
  else fileOf md5 (calcOf name).1 name s.mem ((List.range s.outPtr.toNat).map s.mem) >>= fun file =>
    M.modify fun s => { s with log := s.log ++ [.wrote name file] }

theorem writeFile_rest (md5 : List Nat → List Nat) (name : Str) : writeFile md5 name = (do
    M.modify fun s => { s with currFile := b! "exporter", lineNum := -1 }
    M.when (calcOf name).2 (setWarning E.WARN_UNKNOWN_EXTENSION)
    M.get >>= exportRest md5 name) := by
  unfold writeFile exportRest
  cases calcOf name with
  | mk ct u => cases ct <;> rfl

theorem ind_fileOf (md5 : List Nat → List Nat) (ct : Calc) (name : Str) (mem : Nat → Nat) (bytes : List Nat) :
    Ind (fileOf md5 ct name mem bytes) := by
  unfold fileOf; ind

theorem ind_exportRest (md5 : List Nat → List Nat) (name : Str) (s : S) : Ind (exportRest md5 name s) := by
  unfold exportRest; ind

theorem makePrgm_out (ct : Calc) (prgm : Str) (out out' : Nat → Nat) (bytes : List Nat)
    (h : ct = .t8XP → out 0 = out' 0 ∧ out 1 = out' 1) : makePrgm ct prgm out bytes = makePrgm ct prgm out' bytes := by
  unfold makePrgm
  by_cases hc : ct = .t8XP
  · rw [(h hc).1, (h hc).2]
  · simp only [hc, decide_false, Bool.false_and]

theorem exportRest_swap (md5 : List Nat → List Nat) (name : Str) (s : S) (μ ρ : Nat → Nat) (ha : Agree s μ)
    (h8 : (calcOf name).1 = .t8XP → 2 ≤ s.outPtr) : exportRest md5 name (swap μ ρ s) = exportRest md5 name s := by
  have e : (List.range s.outPtr.toNat).map s.mem = (List.range s.outPtr.toNat).map μ :=
    List.map_congr_left fun i hi => ha i (List.mem_range.1 hi)
  have e2 : ∀ b, fileOf md5 (calcOf name).1 name μ b = fileOf md5 (calcOf name).1 name s.mem b := by
    intro b
    unfold fileOf
    split <;> try rfl
    refine (makePrgm_out _ _ _ _ _ fun h => ?_).symm
    have := h8 h
    exact ⟨ha 0 (by omega), ha 1 (by omega)⟩
  unfold exportRest
  show (if s.outPtr > outputBufSize then _ else if s.outPtr < 0 ∧ _ then _ else
    fileOf md5 (calcOf name).1 name μ ((List.range s.outPtr.toNat).map μ) >>= _) = _
  rw [e2, ← e]
  rfl

/-- The name is that of a program for the TI-83 Plus. -/
theorem hasExt_of_calcOf {name : Str} (h : (calcOf name).1 = .t8XP) : Spec.HasExt name (b! "8xp") := by
  unfold calcOf at h
  cases he : extOf name with
  | none => rw [he] at h; cases h
  | some e =>
    rw [he] at h
    dsimp only at h
    cases hf : extensions.find? (fun p => eqCase e p.1) with
    | none => rw [hf] at h; cases h
    | some p =>
      rw [hf] at h
      have hp := List.mem_of_find?_eq_some hf
      have hq := List.find?_some hf
      have hall : ∀ p ∈ extensions, p.2 = .t8XP → p.1 = b! "8XP" := by decide
      have h8 := hall p hp h
      rw [eqCase_iff, h8] at hq
      cases name with
      | nil => cases he
      | cons c t =>
        unfold extOf at he
        dsimp only at he
        split at he
        · rename_i hdot
          cases he
          have hs : t.reverse = t.reverse.takeWhile (fun c => c != 46) ++ t.reverse.dropWhile (fun c => c != 46) :=
            List.takeWhile_append_dropWhile.symm
          cases hd : t.reverse.dropWhile (fun c => c != 46) with
          | nil =>
            exfalso
            rw [hd, List.append_nil] at hs
            have hm : (46 : Nat) ∈ t.reverse.takeWhile (fun c => c != 46) := by
              rw [← hs]; simpa using hdot
            have := List.mem_takeWhile_imp hm
            simp at this
          | cons x r =>
            have hx : x = 46 := by
              have := List.head?_dropWhile_not (fun c : Nat => c != 46) t.reverse
              rw [hd] at this
              simpa using this
            subst hx
            refine ⟨c :: r.reverse, (t.reverse.takeWhile (fun c => c != 46)).reverse, by simp, ?_, ?_, hq⟩
            · have : t = (t.reverse.takeWhile (fun c => c != 46) ++ 46 :: r).reverse := by
                rw [← hd, List.takeWhile_append_dropWhile, List.reverse_reverse]
              rw [List.reverse_append, List.reverse_cons, List.append_assoc] at this
              conv_lhs => rw [this]
              simp
            · intro hm
              have := List.mem_takeWhile_imp (List.mem_reverse.1 hm)
              simp at this
        · cases he

/-- Pieces that leave the output position alone. -/
structure Unmoved {α : Type} (m : M α) : Prop where
  run : ∀ s, (m s).state.outPtr = s.outPtr

theorem Unmoved.bind {α β : Type} {m : M α} {f : α → M β} (h : Unmoved m) (h' : ∀ a, Unmoved (f a)) : Unmoved (m >>= f) := by
  constructor
  intro s
  have h1 := h.run s
  rw [M.bind_apply]
  cases hm : m s with
  | ok a t => rw [hm] at h1; exact ((h' a).run t).trans h1
  | stop e t => rw [hm] at h1; exact h1

theorem Unmoved.when {c : Bool} {m : M Unit} (h : Unmoved m) : Unmoved (M.when c m) := by
  cases c
  · exact ⟨fun _ => rfl⟩
  · exact h

theorem fixed_setWarning (c : Nat) : Unmoved (setWarning c) := ⟨fun s => by unfold setWarning setProblem; split <;> rfl⟩

theorem fixed_warnN (n : Nat) : Unmoved (warnN n) := by
  induction n with
  | zero => exact ⟨fun _ => rfl⟩
  | succ n ih => exact .bind ⟨fun _ => rfl⟩ fun _ => ih

theorem fixed_makePrgm (ct : Calc) (prgm : Str) (out : Nat → Nat) (bytes : List Nat) : Unmoved (makePrgm ct prgm out bytes) := by
  unfold makePrgm
  refine .bind (fixed_warnN _) fun _ => .bind ⟨fun _ => rfl⟩ fun s => ?_
  have tail : ∀ c1 c2 c3 : Bool, Unmoved (do
      M.when c1 (showWarning (.misc 3))
      M.when c2 (showWarning (.misc 4))
      M.when c3 (showWarning (.misc 5))
      pure (prgmBytes ct (prgmName ct prgm).1 bytes) : M (List Nat)) := fun c1 c2 c3 =>
    .bind (.when ⟨fun _ => rfl⟩) fun _ => .bind (.when ⟨fun _ => rfl⟩) fun _ => .bind (.when ⟨fun _ => rfl⟩) fun _ => ⟨fun _ => rfl⟩
  dsimp only
  split
  · exact .bind (fixed_setWarning _) fun _ => tail _ _ _
  split
  · exact .bind (fixed_setWarning _) fun _ => tail _ _ _
  · exact tail _ _ _

/-- The final state of a run is fine if it wrote no program for the TI-83 Plus of fewer than two bytes. -/
def LongEnough (t : S) : Prop := 2 ≤ t.outPtr ∨ ∀ f b, Ev.wrote f b ∈ t.log → ¬ Spec.HasExt f (b! "8xp")

/-- The end of outputFile. -/
theorem outputEnd_state (n : Int) (s : S) : ((do replayFatal n; endSession n : M Unit) s).state.outPtr = s.outPtr ∧
    ∀ e ∈ s.log, e ∈ ((do replayFatal n; endSession n : M Unit) s).state.log := by
  have h1 : ∃ t, replayFatal n s = .ok () t ∧ t.outPtr = s.outPtr ∧ ∀ e ∈ s.log, e ∈ t.log := by
    unfold replayFatal replaySession
    split
    · exact ⟨_, rfl, rfl, fun e he => List.mem_append_left _ he⟩
    · exact ⟨_, rfl, rfl, fun e he => he⟩
  obtain ⟨t, e1, e2, e3⟩ := h1
  rw [M.bind_ok e1]
  have h2 : (endSession n t).state.outPtr = t.outPtr ∧ (endSession n t).state.log = t.log := by
    unfold endSession
    dsimp only
    split <;> exact ⟨rfl, rfl⟩
  rw [h2.1, h2.2]
  exact ⟨e2, e3⟩

/-- A program for the TI-83 Plus is written, whatever its size. -/
theorem exportRest_wrote (md5 : List Nat → List Nat) (name : Str) (s t : S) (hc : (calcOf name).1 = .t8XP) (h0 : 0 ≤ s.outPtr)
    (h1 : s.outPtr ≤ outputBufSize) :
    ∃ file u, exportRest md5 name s t = .ok () u ∧ u.outPtr = t.outPtr ∧ Ev.wrote name file ∈ u.log := by
  unfold exportRest
  rw [if_neg (by omega), if_neg (by omega), hc]
  have e : fileOf md5 .t8XP name s.mem ((List.range s.outPtr.toNat).map s.mem) =
      makePrgm .t8XP (prgmOf name) s.mem ((List.range s.outPtr.toNat).map s.mem) := by
    unfold fileOf
    rfl
  obtain ⟨v, u, e1, _⟩ := (quiet_makePrgm .t8XP (prgmOf name) s.mem ((List.range s.outPtr.toNat).map s.mem)).run t
  have e2 := (fixed_makePrgm .t8XP (prgmOf name) s.mem ((List.range s.outPtr.toNat).map s.mem)).run t
  rw [e, M.bind_ok e1]
  rw [e1] at e2
  exact ⟨v, _, rfl, e2, List.mem_append_right _ (List.mem_singleton.2 rfl)⟩

theorem end_rest (md5 : List Nat → List Nat) (name : Str) (n : Int) (s : S) :
    IndEnd LongEnough ((M.get >>= exportRest md5 name) >>= fun _ => (do replayFatal n; endSession n)) s := by
  have hi : Ind (exportRest md5 name s >>= fun _ => (do replayFatal n; endSession n)) := by
    have := ind_exportRest md5 name s
    ind
  refine ⟨hi.pos s, hi.sought s, fun μ ρ hp hx hq ha => ?_⟩
  have key : exportRest md5 name (swap μ ρ s) = exportRest md5 name s := by
    by_cases hc : (calcOf name).1 = .t8XP
    · by_cases h1 : s.outPtr > outputBufSize
      · unfold exportRest
        rw [if_pos h1, if_pos (show (swap μ ρ s).outPtr > outputBufSize from h1)]
      by_cases h0 : s.outPtr < 0
      · have hd : s.outPtr < 0 ∧ ((calcOf name).1 = .t8XK ∨ (calcOf name).1 = .rom ∨ (calcOf name).1.ix < 9) :=
          ⟨h0, .inr (.inr (by rw [hc]; decide))⟩
        unfold exportRest
        rw [if_neg h1, if_pos hd, if_neg (show ¬ (swap μ ρ s).outPtr > outputBufSize from h1)]
        exact if_pos hd
      refine exportRest_swap md5 name s μ ρ ha fun _ => ?_
      obtain ⟨file, u, e1, e2, e3⟩ := exportRest_wrote md5 name s s hc (by omega) (by omega)
      have hs : ((M.get >>= exportRest md5 name) >>= fun _ => (do replayFatal n; endSession n)) s =
          (do replayFatal n; endSession n : M Unit) u := M.bind_ok e1
      rw [hs] at hq
      obtain ⟨f1, f2⟩ := outputEnd_state n u
      rcases hq with h | h
      · omega
      · exact absurd (hasExt_of_calcOf hc) (h name file (f2 _ e3))
    · exact exportRest_swap md5 name s μ ρ ha fun h => absurd h hc
  obtain ⟨ν, e1, _⟩ := hi.run s μ ρ hp
  refine ⟨ν, ?_⟩
  have l : ((M.get >>= exportRest md5 name) >>= fun _ => (do replayFatal n; endSession n)) (swap μ ρ s) =
      (exportRest md5 name (swap μ ρ s) >>= fun _ => (do replayFatal n; endSession n)) (swap μ ρ s) := rfl
  rw [l, key]
  exact e1

theorem end_outputFile (md5 : List Nat → List Nat) (name : Str) (s : S) : IndEnd LongEnough (outputFile md5 name) s := by
  unfold outputFile
  refine .bind (Ind.here ind_startSession s) fun n t _ => ?_
  rw [writeFile_rest, M.bind_assoc]
  refine .bind (Ind.here (by ind) t) fun _ t _ => ?_
  rw [M.bind_assoc]
  refine .bind (Ind.here (by ind) t) fun _ t _ => ?_
  exact end_rest md5 name n t

/-! ### The whole program -/

theorem IndEnd.exitCode {Q : S → Prop} {m : M Unit} {s : S} (hQ : ∀ t, Q (printStats t).state → Q t) (h : IndEnd Q m s) :
    IndEnd Q (m >>= fun _ => (do printStats; let s ← M.get; pure s.exitCode : M Nat)) s := by
  have e : ∀ u, (m >>= fun _ => (do printStats; let s ← M.get; pure s.exitCode : M Nat)) u =
      match m u with
      | .ok _ t => .ok t.exitCode (printStats t).state
      | .stop e t => .stop e t := fun u => by rw [M.bind_apply]; cases m u <;> rfl
  obtain ⟨h1, h2, h3⟩ := h
  constructor <;> simp only [e]
  · cases hm : m s <;> (rw [hm] at h1; exact h1)
  · cases hm : m s <;> (rw [hm] at h2; exact h2)
  · intro μ ρ
    have := h3 μ ρ
    cases hm : m s with
    | ok x t =>
      rw [hm] at this
      intro a b c d
      obtain ⟨ν, e1⟩ := this a b (hQ t c) d
      rw [e1]
      exact ⟨ν, rfl⟩
    | stop x t =>
      rw [hm] at this
      intro a b c d
      obtain ⟨ν, e1⟩ := this a b c d
      rw [e1]
      exact ⟨ν, rfl⟩

theorem longEnough_printStats (t : S) (h : LongEnough (printStats t).state) : LongEnough t := by
  rcases h with h | h
  · exact .inl h
  · refine .inr fun f b hb => h f b ?_
    show _ ∈ t.log ++ _ ++ _
    exact List.mem_append_left _ (List.mem_append_left _ hb)

theorem IndEnd.get {α : Type} {Q : S → Prop} {f : S → M α} {s : S} (hf : ∀ μ ρ, f (swap μ ρ s) = f s) (h : IndEnd Q (f s) s) :
    IndEnd Q (M.get >>= f) s where
  pos := h.pos
  sought := h.sought
  run μ ρ hp hx hq ha := by
    obtain ⟨ν, e⟩ := h.run μ ρ hp hx hq ha
    refine ⟨ν, ?_⟩
    rw [M.get_bind, M.get_bind, hf]
    exact e

theorem ind_outStart : Ind (M.modify fun s => { s with outPtr := 0 }) where
  pos s := Nat.le_refl _
  sought s := id
  run s μ ρ _ := ⟨μ, rfl, fun _ => .inl ⟨rfl, rfl⟩, fun a t e _ _ i hi => by cases e; exact absurd hi (Nat.not_lt_zero i)⟩

include hk

theorem ind_passOne (cwd text : Str) : Ind (passOne k cwd text) := by
  have h := ind_outStart
  have h2 := ind_runFirstPass hk text
  unfold passOne
  refine .bind h fun _ => ?_
  ind

theorem end_runAssembly (md5 : List Nat → List Nat) (cwd : Str) (text : Option Str) (output : Str) (s : S) :
    IndEnd LongEnough (runAssembly k md5 cwd text output) s := by
  unfold runAssembly
  refine .bind (Ind.here (by unfold resetGlobals; ind) s) fun _ t _ => ?_
  have body : ∀ c : Option Str, IndEnd LongEnough (match c with
      | none => (do
        M.modify fun s => { s with log := s.log ++ [.text (b! "Couldn't open input file")] }
        pure 3 : M Nat)
      | some text => do
        passOne k cwd text
        let s ← M.get
        if s.mode.symtable || s.mode.normal || s.mode.list then do
          passTwo k
          M.when s.mode.symtable (labelFile k output)
          M.when s.mode.normal (outputFile md5 output)
        else pure ()
        printStats
        let s ← M.get
        pure s.exitCode) t := by
    intro c
    cases c with
    | none => exact IndAt.end (Ind.here (by ind) t)
    | some text =>
      dsimp only
      refine .bind (Ind.here (ind_passOne hk cwd text) t) fun _ u _ => ?_
      refine IndEnd.get (fun _ _ => rfl) ?_
      split
      · refine .bind (Ind.here (ind_passTwo hk) u) fun _ v _ => ?_
        refine .bind (Ind.here (.when (ind_labelFile hk output)) v) fun _ w _ => ?_
        cases u.mode.normal with
        | false => exact IndAt.end (Ind.here (by rw [M.when_false]; unfold printStats; ind) w)
        | true => exact (end_outputFile md5 output w).exitCode longEnough_printStats
      · exact IndAt.end (Ind.here (by unfold printStats; ind) u)
  exact IndEnd.get (fun _ _ => rfl) (body _)

omit hk

theorem end_mainBody (n : Nat) (md5 : List Nat → List Nat) (cwd : Str) (args : List Str) (s : S) :
    IndEnd LongEnough (mainBody (knot n) md5 cwd args) s := by
  unfold mainBody
  split
  · exact IndAt.end (Ind.here (Ind.halt _) s)
  refine .bind (Ind.here (by ind) s) fun _ t _ => ?_
  refine .bind (Ind.here (ind_optLoop n _ _) t) fun o t _ => ?_
  refine .bind (Ind.here (by ind) t) fun _ t _ => ?_
  split
  · exact IndAt.end (Ind.here (Ind.pure _) t)
  dsimp only
  refine .bind (Ind.here (ind_ensureStorage o) t) fun _ t _ => ?_
  refine .bind (Ind.here ind_clearSessions t) fun _ t _ => ?_
  exact end_runAssembly (ind_knot n) md5 cwd _ _ t

end Spasm
