import Verif.Model.Sig
import Verif.Lemmas.Pratt
import Mathlib.NumberTheory.LegendreSymbol.QuadraticReciprocity

/-
The number theory behind siggen: square roots modulo the two primes, and their combination.
-/

namespace Spasm

/-- A square root modulo a prime that is 3 modulo 4. -/
theorem root_mod (p : Nat) (hp : p.Prime) (h4 : p % 4 = 3) (b : Nat)
    (hb : jacobiSym (b : Int) p = 1) : (b ^ ((p + 1) / 4)) ^ 2 % p = b % p := by
  haveI : Fact p.Prime := ⟨hp⟩
  have h := legendreSym.eq_pow p (b : Int)
  rw [jacobiSym.legendreSym.to_jacobiSym, hb] at h
  have e : (p + 1) / 4 * 2 = p / 2 + 1 := by omega
  have : ((b ^ ((p + 1) / 4)) ^ 2 : Nat) ≡ b [MOD p] := by
    rw [← ZMod.natCast_eq_natCast_iff]
    rw [← pow_mul, e, pow_succ, Nat.cast_mul, Nat.cast_pow]
    push_cast at h
    rw [← h, one_mul]
  exact this

/-- The combination of a root modulo p and a root modulo q is a root modulo p * q. -/
theorem crt_root (p q c r s b : Nat) (hp : 0 < p) (hco : Nat.Coprime p q) (hc : q * c % p = 1)
    (hr : r ^ 2 % p = b % p) (hs : s ^ 2 % q = b % q) :
    (((((r : Int) - s) * c) % (p : Int)).toNat * q + s) ^ 2 % (p * q) = b % (p * q) := by
  have hp0 : (p : Int) ≠ 0 := by omega
  generalize ht : (((r : Int) - s) * c) % (p : Int) = t
  have ht0 : 0 ≤ t := by rw [← ht]; exact Int.emod_nonneg _ hp0
  have e1 : (t.toNat * q + s) % p = r % p := by
    have : ((t.toNat * q + s : Nat) : ZMod p) = (r : ZMod p) := by
      have h1 : ((t.toNat : Nat) : ZMod p) = ((t : Int) : ZMod p) := by
        rw [← Int.cast_natCast, Int.toNat_of_nonneg ht0]
      have h2 : ((t : Int) : ZMod p) = ((r : ZMod p) - s) * c := by
        rw [← ht, ZMod.intCast_mod]; push_cast; rfl
      have h3 : (q : ZMod p) * c = 1 := by
        have : ((q * c : Nat) : ZMod p) = ((1 : Nat) : ZMod p) := by
          rw [ZMod.natCast_eq_natCast_iff, Nat.ModEq, hc]
          have : 1 < p := by
            rcases Nat.lt_or_ge 1 p with h | h
            · exact h
            · have : p = 1 := by omega
              subst this; omega
          exact (Nat.mod_eq_of_lt this).symm
        simpa using this
      rw [Nat.cast_add, Nat.cast_mul, h1, h2, mul_assoc, mul_comm (c : ZMod p), h3]
      ring
    rwa [ZMod.natCast_eq_natCast_iff] at this
  have e2 : (t.toNat * q + s) % q = s % q := by
    rw [Nat.mul_comm, Nat.mul_add_mod]
  generalize t.toNat * q + s = x at *
  have g1 : x ^ 2 ≡ b [MOD p] := by
    have : x ^ 2 ≡ r ^ 2 [MOD p] := Nat.ModEq.pow 2 e1
    exact this.trans hr
  have g2 : x ^ 2 ≡ b [MOD q] := by
    have : x ^ 2 ≡ s ^ 2 [MOD q] := Nat.ModEq.pow 2 e2
    exact this.trans hs
  exact (Nat.modEq_and_modEq_iff_modEq_mul hco).1 ⟨g1, g2⟩

/-- The facts about the stored constants. -/
theorem sig_n : leNat nbuf = leNat pbuf * leNat qbuf := by decide +kernel
theorem sig_p14 : leNat p14buf = (leNat pbuf + 1) / 4 := by decide +kernel
theorem sig_q14 : leNat q14buf = (leNat qbuf + 1) / 4 := by decide +kernel
theorem sig_qpowp : leNat qbuf * leNat qpowpbuf % leNat pbuf = 1 := by decide +kernel
theorem sig_p8 : leNat pbuf % 8 = 3 := by decide +kernel
theorem sig_q8 : leNat qbuf % 8 = 7 := by decide +kernel
theorem sig_big : 2 ^ 137 < leNat pbuf ∧ 2 ^ 137 < leNat qbuf := by decide +kernel
theorem sig_ne : leNat pbuf ≠ leNat qbuf := by decide +kernel
theorem sig_p : (leNat pbuf).Prime := by
  have h : leNat pbuf = 13008861940417978637584514274743203260316419139111920661532489703530863799899 := by
    decide +kernel
  rw [h]; exact prime_13008861940417978637584514274743203260316419139111920661532489703530863799899
theorem sig_q : (leNat qbuf).Prime := by
  have h : leNat qbuf = 545757562352748437778195250781205191227156621952501599157677289463253105178519 := by
    decide +kernel
  rw [h]; exact prime_545757562352748437778195250781205191227156621952501599157677289463253105178519

theorem jac_pm (p m : Nat) (hp : p.Prime) (h0 : 0 < m) (hm : m < p) :
    jacobiSym (m : Int) p = 1 ∨ jacobiSym (m : Int) p = -1 := by
  rcases jacobiSym.trichotomy (m : Int) p with h | h | h
  · exfalso
    haveI : Fact p.Prime := ⟨hp⟩
    rw [← jacobiSym.legendreSym.to_jacobiSym, legendreSym.eq_zero_iff] at h
    have : ((m : Nat) : ZMod p) = 0 := by simpa using h
    rw [ZMod.natCast_eq_zero_iff] at this
    exact absurd (Nat.le_of_dvd h0 this) (by omega)
  · exact Or.inl h
  · exact Or.inr h

theorem jac_neg (p n a : Nat) (h4 : p % 4 = 3) (hn : n % p = 0) (ha : a ≤ n) :
    jacobiSym ((n - a : Nat) : Int) p = - jacobiSym (a : Int) p := by
  have h1 : jacobiSym ((n - a : Nat) : Int) p = jacobiSym (-(a : Int)) p := by
    rw [jacobiSym.mod_left, jacobiSym.mod_left (-(a : Int))]
    congr 1
    rw [Int.ofNat_sub ha]
    obtain ⟨k, hk⟩ := Nat.dvd_of_mod_eq_zero hn
    rw [hk, Nat.cast_mul, sub_eq_add_neg, Int.mul_add_emod_self_left]
  rw [h1, jacobiSym.neg _ (Nat.odd_iff.2 (by omega)), ZMod.χ₄_nat_three_mod_four h4]
  ring

theorem jac_two_p (p m : Nat) (h8 : p % 8 = 3) :
    jacobiSym ((m * 2 : Nat) : Int) p = - jacobiSym (m : Int) p := by
  rw [Nat.cast_mul, jacobiSym.mul_left]
  have : jacobiSym ((2 : Nat) : Int) p = -1 := by
    rw [show ((2 : Nat) : Int) = 2 from rfl, jacobiSym.at_two (Nat.odd_iff.2 (by omega)),
      ZMod.χ₈_nat_eq_if_mod_eight]
    simp [h8]; omega
  rw [this]; ring

theorem jac_two_q (p m : Nat) (h8 : p % 8 = 7) :
    jacobiSym ((m * 2 : Nat) : Int) p = jacobiSym (m : Int) p := by
  rw [Nat.cast_mul, jacobiSym.mul_left]
  have : jacobiSym ((2 : Nat) : Int) p = 1 := by
    rw [show ((2 : Nat) : Int) = 2 from rfl, jacobiSym.at_two (Nat.odd_iff.2 (by omega)),
      ZMod.χ₈_nat_eq_if_mod_eight]
    simp [h8]; omega
  rw [this]; ring

end Spasm
