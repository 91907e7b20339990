import Verif.Model.State

/-
How the operations of the monad act on a state.
-/

namespace Spasm
namespace M
variable {α β : Type}

@[simp] theorem pure_apply (a : α) (s : S) : (pure a : M α) s = .ok a s := rfl
@[simp] theorem pure'_apply (a : α) (s : S) : (pure' a : M α) s = .ok a s := rfl

theorem bind_apply (m : M α) (f : α → M β) (s : S) :
    (m >>= f) s = match m s with
      | .ok a s' => f a s'
      | .stop e s' => .stop e s' := rfl

theorem bind_ok {m : M α} {f : α → M β} {s s' : S} {a : α} (h : m s = .ok a s') :
    (m >>= f) s = f a s' := by rw [bind_apply, h]

theorem bind_stop {m : M α} {f : α → M β} {s s' : S} {e : Stop} (h : m s = .stop e s') :
    (m >>= f) s = .stop e s' := by rw [bind_apply, h]

@[simp] theorem get_apply (s : S) : get s = .ok s s := rfl
@[simp] theorem modify_apply (f : S → S) (s : S) : modify f s = .ok () (f s) := rfl
@[simp] theorem halt_apply (e : Stop) (s : S) : (halt e : M α) s = .stop e s := rfl
@[simp] theorem ub_apply (u : UB) (s : S) : (ub u : M α) s = .stop (.ub u) s := rfl
@[simp] theorem when_true (m : M Unit) : M.when true m = m := rfl
@[simp] theorem when_false (m : M Unit) : M.when false m = pure () := rfl

@[simp] theorem pure_bind (a : α) (f : α → M β) : (pure a >>= f : M β) = f a := rfl
@[simp] theorem get_bind (f : S → M β) (s : S) : (get >>= f) s = f s s := rfl
@[simp] theorem modify_bind (g : S → S) (f : Unit → M β) (s : S) : (modify g >>= f) s = f () (g s) := rfl
@[simp] theorem halt_bind (e : Stop) (f : α → M β) (s : S) : ((halt e : M α) >>= f) s = .stop e s := rfl
@[simp] theorem ub_bind (u : UB) (f : α → M β) (s : S) : ((ub u : M α) >>= f) s = .stop (.ub u) s := rfl

/-- A successful sequence: both parts succeeded. -/
theorem bind_eq_ok {m : M α} {f : α → M β} {s s'' : S} {b : β} :
    (m >>= f) s = .ok b s'' ↔ ∃ a s', m s = .ok a s' ∧ f a s' = .ok b s'' := by
  rw [bind_apply]
  cases m s with
  | ok a s' =>
    constructor
    · intro h; exact ⟨a, s', rfl, h⟩
    · rintro ⟨a', t, h, h'⟩; cases h; exact h'
  | stop e s' => simp

theorem bind_assoc {γ : Type} (m : M α) (f : α → M β) (g : β → M γ) :
    (m >>= f) >>= g = m >>= fun a => f a >>= g := by
  funext s
  simp only [bind_apply]
  cases m s <;> rfl

instance : LawfulMonad M := LawfulMonad.mk'
  (id_map := by intro α x; funext s; show (match x s with | .ok a s' => _ | .stop e s' => _) = _; cases h : x s <;> rfl)
  (pure_bind := by intros; rfl)
  (bind_assoc := by intros; apply bind_assoc)

end M

@[simp] theorem hd_nil : hd [] = 0 := (rfl)
@[simp] theorem hd_cons (c : Nat) (t : Str) : hd (c :: t) = c := (rfl)

end Spasm
