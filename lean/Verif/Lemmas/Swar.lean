import Verif.Model.Modp
import Verif.Spec.Text

/-
Lane-by-lane reading of the word operations of modp_ascii.cpp.
-/

namespace Spasm

theorem append_add {w v : Nat} (x₁ x₂ : BitVec w) (y₁ y₂ : BitVec v) (h : y₁.toNat + y₂.toNat < 2 ^ v)
    (h' : x₁.toNat + x₂.toNat < 2 ^ w) :
    (x₁ ++ y₁) + (x₂ ++ y₂) = (x₁ + x₂) ++ (y₁ + y₂) := by
  apply BitVec.eq_of_toNat_eq
  rw [BitVec.toNat_add]
  simp only [BitVec.toNat_append]
  rw [← Nat.shiftLeft_add_eq_or_of_lt y₁.isLt, ← Nat.shiftLeft_add_eq_or_of_lt y₂.isLt,
    ← Nat.shiftLeft_add_eq_or_of_lt (y₁ + y₂).isLt]
  simp only [Nat.shiftLeft_eq, BitVec.toNat_add, Nat.mod_eq_of_lt h, Nat.mod_eq_of_lt h']
  have e : x₁.toNat * 2 ^ v + y₁.toNat + (x₂.toNat * 2 ^ v + y₂.toNat)
      = (x₁.toNat + x₂.toNat) * 2 ^ v + (y₁.toNat + y₂.toNat) := by rw [Nat.add_mul]; omega
  rw [e, Nat.mod_eq_of_lt]
  rw [Nat.pow_add]
  generalize x₁.toNat + x₂.toNat = X at *
  generalize y₁.toNat + y₂.toNat = Y at *
  have : (X + 1) * 2 ^ v ≤ 2 ^ w * 2 ^ v := Nat.mul_le_mul_right _ h'
  rw [Nat.add_mul] at this
  omega

theorem append_sub {w v : Nat} (x₁ x₂ : BitVec w) (y₁ y₂ : BitVec v) (h : y₂.toNat ≤ y₁.toNat)
    (h' : x₂.toNat ≤ x₁.toNat) :
    (x₁ ++ y₁) - (x₂ ++ y₂) = (x₁ - x₂) ++ (y₁ - y₂) := by
  have e : (x₁ ++ y₁) = ((x₁ - x₂) ++ (y₁ - y₂)) + (x₂ ++ y₂) := by
    have hx : (x₁ - x₂).toNat = x₁.toNat - x₂.toNat := BitVec.toNat_sub_of_le h'
    have hy : (y₁ - y₂).toNat = y₁.toNat - y₂.toNat := BitVec.toNat_sub_of_le h
    rw [append_add]
    · rw [BitVec.sub_add_cancel, BitVec.sub_add_cancel]
    · have := y₁.isLt; omega
    · have := x₁.isLt; omega
  rw [e, BitVec.add_sub_cancel]

theorem append_shift {w : Nat} (x mx : BitVec w) (y m : BitVec 8) (h6 : m.getLsbD 6 = false) (h7 : m.getLsbD 7 = false) :
    ((x ++ y) >>> 2) &&& (mx ++ m) = ((x >>> 2) &&& mx) ++ ((y >>> 2) &&& m) := by
  apply BitVec.eq_of_getLsbD_eq
  intro i hi
  simp only [BitVec.getLsbD_and, BitVec.getLsbD_ushiftRight, BitVec.getLsbD_append]
  by_cases h8 : i < 8
  · simp only [h8, if_true]
    by_cases h5 : 2 + i < 8
    · simp only [h5, if_true]
    · have : i = 6 ∨ i = 7 := by omega
      rcases this with rfl | rfl
      · rw [h6]; simp only [Bool.and_false]
      · rw [h7]; simp only [Bool.and_false]
  · have h5 : ¬ (2 + i < 8) := by omega
    simp only [h8, h5, if_false]
    have : 2 + i - 8 = 2 + (i - 8) := by omega
    rw [this]

/-- One lane of the conversion. -/
def lane (k : BitVec 8) (x : BitVec 8) : BitVec 8 :=
  let e := (0x7f#8 &&& x) + k
  let e := (0x7f#8 &&& e) + 0x1a#8
  ((e &&& ~~~x) >>> 2) &&& 0x20#8

theorem lane_all (p : BitVec 8 → Bool) (h : ∀ i : Fin 256, p (BitVec.ofNat 8 i) = true) (x : BitVec 8) : p x = true := by
  have := h ⟨x.toNat, x.isLt⟩
  simpa using this

theorem and7f (x : BitVec 8) : (0x7f#8 &&& x).toNat ≤ 127 := by
  have := lane_all (fun x => decide ((0x7f#8 &&& x).toNat ≤ 127)) (by decide +kernel) x
  simpa using this

theorem lanes (k : BitVec 8) (hk : k.toNat ≤ 64) (a b c d : BitVec 8) :
    let x : BitVec 32 := d ++ (c ++ (b ++ a))
    let kk : BitVec 32 := k ++ (k ++ (k ++ k))
    ((((((0x7f7f7f7f#32 &&& (((0x7f7f7f7f#32 &&& x) + kk))) + 0x1a1a1a1a#32) &&& ~~~x) >>> 2) &&& 0x20202020#32))
      = (lane k d ++ (lane k c ++ (lane k b ++ lane k a)) : BitVec 32) := by
  intro x kk
  have r7 : 0x7f7f7f7f#32 = (0x7f#8 ++ (0x7f#8 ++ (0x7f#8 ++ 0x7f#8)) : BitVec 32) := by decide
  have r1 : 0x1a1a1a1a#32 = (0x1a#8 ++ (0x1a#8 ++ (0x1a#8 ++ 0x1a#8)) : BitVec 32) := by decide
  have r2 : 0x20202020#32 = (0x20#8 ++ (0x20#8 ++ (0x20#8 ++ 0x20#8)) : BitVec 32) := by decide
  have add2 : ∀ (a b c d : BitVec 8) (k : BitVec 8), a.toNat ≤ 127 → b.toNat ≤ 127 → c.toNat ≤ 127 → d.toNat ≤ 127 →
      k.toNat ≤ 64 → (d ++ (c ++ (b ++ a)) : BitVec 32) + (k ++ (k ++ (k ++ k)) : BitVec 32) =
      ((d + k) ++ ((c + k) ++ ((b + k) ++ (a + k))) : BitVec 32) := by
    intro a b c d k ha hb hc hd hk
    have h1 := append_add b k a k (by omega) (by omega)
    have h2 := append_add c k (b ++ a) (k ++ k) (by
      simp only [BitVec.toNat_append]
      rw [← Nat.shiftLeft_add_eq_or_of_lt a.isLt, ← Nat.shiftLeft_add_eq_or_of_lt k.isLt]
      simp only [Nat.shiftLeft_eq]; omega) (by omega)
    have h3 := append_add d k (c ++ (b ++ a)) (k ++ (k ++ k)) (by
      simp only [BitVec.toNat_append]
      rw [← Nat.shiftLeft_add_eq_or_of_lt a.isLt, ← Nat.shiftLeft_add_eq_or_of_lt k.isLt]
      rw [← Nat.shiftLeft_add_eq_or_of_lt (by simp only [Nat.shiftLeft_eq]; omega),
        ← Nat.shiftLeft_add_eq_or_of_lt (by simp only [Nat.shiftLeft_eq]; omega)]
      simp only [Nat.shiftLeft_eq]; omega) (by omega)
    rw [h1] at h2; rw [h2] at h3
    exact h3
  have and2 : ∀ (a b c d a' b' c' d' : BitVec 8), (d ++ (c ++ (b ++ a)) : BitVec 32) &&& (d' ++ (c' ++ (b' ++ a')) : BitVec 32) =
      ((d &&& d') ++ ((c &&& c') ++ ((b &&& b') ++ (a &&& a'))) : BitVec 32) := by
    intro a b c d a' b' c' d'
    have h1 := BitVec.and_append (x₁ := b) (x₂ := b') (y₁ := a) (y₂ := a')
    have h2 := BitVec.and_append (x₁ := c) (x₂ := c') (y₁ := b ++ a) (y₂ := b' ++ a')
    have h3 := BitVec.and_append (x₁ := d) (x₂ := d') (y₁ := c ++ (b ++ a)) (y₂ := c' ++ (b' ++ a'))
    rw [h1] at h2; rw [h2] at h3
    exact h3
  have not2 : ~~~(d ++ (c ++ (b ++ a)) : BitVec 32) = (~~~d ++ (~~~c ++ (~~~b ++ ~~~a)) : BitVec 32) := by
    have h1 := BitVec.not_append (x := b) (y := a)
    have h2 := BitVec.not_append (x := c) (y := b ++ a)
    have h3 := BitVec.not_append (x := d) (y := c ++ (b ++ a))
    rw [h1] at h2; rw [h2] at h3
    exact h3
  have shr : ∀ (a b c d : BitVec 8), ((d ++ (c ++ (b ++ a)) : BitVec 32) >>> 2) &&& (0x20#8 ++ (0x20#8 ++ (0x20#8 ++ 0x20#8)) : BitVec 32) =
      (((d >>> 2) &&& 0x20#8) ++ (((c >>> 2) &&& 0x20#8) ++ (((b >>> 2) &&& 0x20#8) ++ ((a >>> 2) &&& 0x20#8))) : BitVec 32) := by
    intro a b c d
    have asc : ∀ (d c b a : BitVec 8), (d ++ (c ++ (b ++ a)) : BitVec 32) = (((d ++ c) ++ b) ++ a : BitVec 32) := by
      intro d c b a
      apply BitVec.eq_of_toNat_eq
      simp only [BitVec.toNat_append, Nat.shiftLeft_or_distrib, ← Nat.shiftLeft_add, Nat.or_assoc]
    rw [asc, asc, asc]
    have h1 := append_shift d 0x20#8 c 0x20#8 (by decide) (by decide)
    have h2 := append_shift (d ++ c) (0x20#8 ++ 0x20#8) b 0x20#8 (by decide) (by decide)
    have h3 := append_shift ((d ++ c) ++ b) ((0x20#8 ++ 0x20#8) ++ 0x20#8) a 0x20#8 (by decide) (by decide)
    rw [h1] at h2; rw [h2] at h3
    exact h3
  show (((((0x7f7f7f7f#32 &&& (((0x7f7f7f7f#32 &&& (d ++ (c ++ (b ++ a)) : BitVec 32)) + (k ++ (k ++ (k ++ k)) : BitVec 32)))) + 0x1a1a1a1a#32)
    &&& ~~~(d ++ (c ++ (b ++ a)) : BitVec 32)) >>> 2) &&& 0x20202020#32) = _
  rw [r7, r1, r2, and2, add2 _ _ _ _ _ (and7f _) (and7f _) (and7f _) (and7f _) hk, and2,
    add2 _ _ _ _ _ (and7f _) (and7f _) (and7f _) (and7f _) (by decide), not2, and2, shr]
  rfl

end Spasm
