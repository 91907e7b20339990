import Verif.Lemmas.M
import Verif.Spec.Output
import Verif.Model.PassTwo

namespace Spasm
open Spec

theorem emitted_nil (s : S) : emitted [] s = s := by
  have h : (fun a => if s.outPtr.toNat ≤ a ∧ a < s.outPtr.toNat + ([] : List Nat).length
      then ([] : List Nat).getD (a - s.outPtr.toNat) 0 else s.mem a) = s.mem := by
    funext a
    rw [if_neg (by simp only [List.length_nil]; omega)]
  unfold emitted
  rw [h]
  simp

theorem emitted_append (as bs : List Nat) (s : S) (h : 0 ≤ s.outPtr) :
    emitted bs (emitted as s) = emitted (as ++ bs) s := by
  unfold emitted
  simp only [List.length_append, S.mk.injEq, true_and, and_true]
  refine ⟨?_, by push_cast; omega⟩
  funext a
  have e : (s.outPtr + (as.length : Int)).toNat = s.outPtr.toNat + as.length := by omega
  rw [e]
  by_cases h1 : s.outPtr.toNat + as.length ≤ a ∧ a < s.outPtr.toNat + as.length + bs.length
  · rw [if_pos h1, if_pos (by omega)]
    simp only [List.getD_eq_getElem?_getD]
    rw [List.getElem?_append_right (by omega)]
    congr 2
    omega
  · rw [if_neg h1]
    by_cases h2 : s.outPtr.toNat ≤ a ∧ a < s.outPtr.toNat + as.length
    · rw [if_pos h2, if_pos (by omega)]
      simp only [List.getD_eq_getElem?_getD]
      rw [List.getElem?_append_left (by omega)]
    · rw [if_neg h2, if_neg (by omega)]

theorem writeOut_ok (v : Int) (s : S) (h : HasRoom 1 s) :
    writeOut v s = .ok () (emitted [(v % 256).toNat] s) := by
  obtain ⟨h0, h1⟩ := h
  unfold writeOut outputBufSize emitted
  rw [if_neg (by omega)]
  simp only [List.length_singleton, Res.ok.injEq, true_and, S.mk.injEq, and_true]
  refine ⟨?_, by omega⟩
  funext a
  by_cases ha : a = s.outPtr.toNat
  · subst ha; simp
  · rw [if_neg ha, if_neg (by omega)]

@[simp] theorem hasRoom_emitted (n : Nat) (bs : List Nat) (s : S) (h : 0 ≤ s.outPtr) :
    HasRoom n (emitted bs s) ↔ HasRoom (bs.length + n) s := by
  unfold HasRoom emitted
  simp only
  constructor <;> intro ⟨a, b⟩ <;> constructor <;> push_cast at * <;> omega

theorem setError_apply (c : Nat) (s : S) (h : c ≠ 0) : setError c s = .ok () (errorAt c s) := by
  unfold setError setProblem errorAt
  simp [h]

theorem setWarning_apply (c : Nat) (s : S) (h : c ≠ 0) : setWarning c s = .ok () (warningAt c s) := by
  unfold setWarning setProblem warningAt
  simp [h]

theorem showError_apply (m : Msg) (s : S) : showError m s = .ok () (errorShown m s) := by
  unfold showError errorShown
  simp only [M.modify_apply, Res.ok.injEq, true_and, S.mk.injEq, and_true]
  split <;> omega

@[simp] theorem hasRoom_errorAt (n c : Nat) (s : S) : HasRoom n (errorAt c s) ↔ HasRoom n s := Iff.rfl
@[simp] theorem hasRoom_warningAt (n c : Nat) (s : S) : HasRoom n (warningAt c s) ↔ HasRoom n s := Iff.rfl
@[simp] theorem hasRoom_errorShown (n : Nat) (m : Msg) (s : S) : HasRoom n (errorShown m s) ↔ HasRoom n s := Iff.rfl

end Spasm
