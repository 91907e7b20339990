import Verif.Model.Bitmap
import Verif.Spec.Bitmap
import Mathlib.Tactic.NormNum
import Mathlib.Tactic.Linarith

/-
How far the rounding of `double` can be off.
-/

namespace Spasm
open Spec

theorem roundDouble_near (n j : Nat) (h : n < 2 ^ (53 + j)) :
    2 * roundDouble n ≤ 2 * n + 2 ^ j ∧ 2 * n ≤ 2 * roundDouble n + 2 ^ j := by
  have hu : 2 ^ (n.log2 - 52) ≤ 2 ^ j := by
    refine Nat.pow_le_pow_right (by omega) ?_
    by_cases hn : n = 0
    · subst hn; simp
    · have := (Nat.log2_lt hn).2 h
      omega
  have hpos : 0 < 2 ^ (n.log2 - 52) := Nat.pow_pos (by omega)
  unfold roundDouble
  generalize 2 ^ (n.log2 - 52) = u at hu hpos ⊢
  dsimp only
  have hd := Nat.div_add_mod n u
  have e : n / u * u = n - n % u := by rw [Nat.mul_comm]; omega
  have hle : n % u ≤ n := Nat.mod_le n u
  have hlt : n % u < u := Nat.mod_lt _ (by omega)
  generalize 2 ^ j = z at *
  split
  · rename_i hc
    rw [Nat.add_mul, e]
    omega
  · rename_i hc
    rw [e]
    omega

theorem roundDoubleI_near (n : Int) (j : Nat) (h : n.natAbs < 2 ^ (53 + j)) :
    2 * roundDoubleI n ≤ 2 * n + 2 ^ j ∧ 2 * n ≤ 2 * roundDoubleI n + 2 ^ j := by
  have := roundDouble_near n.natAbs j h
  have e : ((2 : Int) ^ j) = ((2 ^ j : Nat) : Int) := by push_cast; rfl
  rw [e]
  generalize 2 ^ j = z at *
  unfold roundDoubleI
  split <;> omega

theorem luminance_near (r g b : Nat) (hr : r < 256) (hg : g < 256) (hb : b < 256) :
    2550000 * luminance r g b ≤ 18446744073709551616 * (2126 * r + 7152 * g + 722 * b) + 40000000000 ∧
    18446744073709551616 * (2126 * r + 7152 * g + 722 * b) ≤ 2550000 * luminance r g b + 40000000000 := by
  have h1 := roundDouble_near (15379520745375102 * r) 11 (by norm_num; omega)
  have h2 := roundDouble_near (51737691613792432 * g) 11 (by norm_num; omega)
  have h3 := roundDouble_near (5222960478909136 * b) 11 (by norm_num; omega)
  have h4 := roundDouble_near (roundDouble (15379520745375102 * r) + roundDouble (51737691613792432 * g)) 12 (by norm_num at *; omega)
  have h5 := roundDouble_near (roundDouble (roundDouble (15379520745375102 * r) + roundDouble (51737691613792432 * g)) + roundDouble (5222960478909136 * b)) 12
    (by norm_num at *; omega)
  unfold luminance
  norm_num at *
  omega

theorem shadeOf_shade (shades : Nat) (c : Colour) (hs : 1 ≤ shades ∧ shades ≤ 99) (hr : c.red < 256) (hg : c.green < 256) (hb : c.blue < 256) :
    ∃ k, shadeOf shades c.red c.green c.blue = .ok k ∧ Shade shades c k := by
  obtain ⟨l1, l2⟩ := luminance_near c.red c.green c.blue hr hg hb
  unfold shadeOf Shade
  generalize hL : luminance c.red c.green c.blue = L at *
  obtain ⟨w, hw⟩ : ∃ w, 2126 * c.red + 7152 * c.green + 722 * c.blue = w := ⟨_, rfl⟩
  have hw' : ((2126 * c.red + 7152 * c.green + 722 * c.blue : Int)) = (w : Int) := by rw [← hw]; push_cast; rfl
  rw [hw] at l1 l2
  have hwle : w ≤ 2550000 := by omega
  have h1 := roundDoubleI_near (18262276632972455936 - L) 12 (by norm_num; omega)
  generalize hD : roundDoubleI (18262276632972455936 - L) = D at *
  norm_num at h1
  have hDs : ∃ P, D * shades = P := ⟨_, rfl⟩
  obtain ⟨P, hP⟩ := hDs
  have hPb : P ≤ 18262276632972465936 * 99 ∧ -(184467440737195616 * 99) ≤ P := by
    rw [← hP]
    have d1 : D ≤ 18262276632972465936 := by omega
    have d2 : -184467440737195616 ≤ D := by omega
    constructor <;> nlinarith
  have h2 := roundDoubleI_near P 18 (by norm_num; omega)
  dsimp only
  rw [hP]
  generalize hV : roundDoubleI P = V at *
  norm_num at h2
  rw [hw']
  generalize hE : (2524500 - (w : Int)) * shades = E
  -- V is close to the exact value
  have hclose : 2550000 * V ≤ 18446744073709551616 * E + 18446744073709551615 ∧ 18446744073709551616 * E ≤ 2550000 * V + 18446744073709551615 := by
    have a1 : 2550000 * D ≤ 18446744073709551616 * (2524500 - (w : Int)) + 100000000000 := by omega
    have a2 : 18446744073709551616 * (2524500 - (w : Int)) ≤ 2550000 * D + 100000000000 := by omega
    have b1 : 2550000 * P ≤ 18446744073709551616 * E + 100000000000 * 99 := by
      rw [← hP, ← hE]
      nlinarith
    have b2 : 18446744073709551616 * E ≤ 2550000 * P + 100000000000 * 99 := by
      rw [← hP, ← hE]
      nlinarith
    omega
  have hElow : -2524500 ≤ E := by
    rw [← hE]; nlinarith
  have hEhigh : E ≤ 2524500 * 99 := by
    rw [← hE]; nlinarith
  have htd : V < 0 → -18446744073709551616 < V → V.tdiv 18446744073709551616 = 0 := by
    intro h1 h2
    have e : V.tdiv 18446744073709551616 = -((-V).tdiv 18446744073709551616) := by rw [Int.neg_tdiv]; simp
    rw [e, Int.tdiv_eq_ediv_of_nonneg (by omega)]
    omega
  rw [if_neg (by omega)]
  refine ⟨_, rfl, ?_⟩
  split
  · rw [htd (by omega) (by omega)]; rfl
  · by_cases hV0 : 0 ≤ V
    · rw [Int.tdiv_eq_ediv_of_nonneg hV0]
      omega
    · rw [htd (by omega) (by omega)]
      simp
      omega

end Spasm
