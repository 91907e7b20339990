import Mathlib.NumberTheory.LucasPrimality

/-
Primality of the two factors of TI's 512-bit modulus, by Lucas' test with recursively certified factors. The
modular powers are evaluated by the kernel through repeated squaring.
-/

namespace Spasm

/-- b ^ e % m by repeated squaring; `f` bounds the number of bits of e. -/
def powm (m : Nat) : Nat → Nat → Nat → Nat
  | 0, _, _ => 1 % m
  | f + 1, b, e =>
    if e = 0 then 1 % m
    else
      let h := powm m f (b * b % m) (e / 2)
      if e % 2 = 1 then h * b % m else h

theorem powm_eq (m : Nat) : ∀ (f b e : Nat), e < 2 ^ f → powm m f b e = b ^ e % m := by
  intro f
  induction f with
  | zero => intro b e h; have : e = 0 := by simpa using h
            subst this; simp [powm]
  | succ f ih =>
    intro b e h
    rw [powm]
    by_cases h0 : e = 0
    · rw [if_pos h0, h0]; simp
    rw [if_neg h0]
    dsimp only
    rw [ih _ _ (by rw [Nat.pow_succ] at h; omega)]
    have hp : (b * b % m) ^ (e / 2) % m = b ^ (2 * (e / 2)) % m := by
      rw [← Nat.pow_mod, Nat.pow_mul, Nat.pow_two]
    rw [hp]
    by_cases h1 : e % 2 = 1
    · rw [if_pos h1, Nat.mod_mul_mod, ← Nat.pow_succ]
      congr 2; omega
    · rw [if_neg h1]
      congr 2; omega

theorem pratt (n a : Nat) (fs : List Nat) (hprod : fs.prod = n - 1 ∧ 1 < n ∧ n < 2 ^ 300)
    (h1 : powm n 300 a (n - 1) = 1) (h2 : ∀ f ∈ fs, powm n 300 a ((n - 1) / f) ≠ 1)
    (hf : ∀ f ∈ fs, Nat.Prime f) : Nat.Prime n := by
  obtain ⟨hp, hn, hb⟩ := hprod
  have cast : ∀ e, e < 2 ^ 300 → (powm n 300 a e = 1 ↔ (a : ZMod n) ^ e = 1) := by
    intro e he
    rw [powm_eq n 300 a e he, ← Nat.cast_pow]
    have : (1 : ZMod n) = ((1 : Nat) : ZMod n) := by simp
    rw [this, ZMod.natCast_eq_natCast_iff', Nat.mod_eq_of_lt hn]
  have hle : n - 1 < 2 ^ 300 := by omega
  apply lucas_primality n (a : ZMod n)
  · exact (cast _ hle).mp h1
  · intro q hq hd
    rw [← hp, Prime.dvd_prod_iff hq.prime] at hd
    obtain ⟨f, hfm, hqf⟩ := hd
    have : q = f := (Nat.prime_dvd_prime_iff_eq hq (hf f hfm)).mp hqf
    subst this
    intro h
    exact h2 q hfm ((cast _ (Nat.lt_of_le_of_lt (Nat.div_le_self _ _) hle)).mpr h)

theorem prime_2 : Nat.Prime 2 := by decide
theorem prime_3 : Nat.Prime 3 := by decide
theorem prime_5 : Nat.Prime 5 := by decide
theorem prime_7 : Nat.Prime 7 := by decide
theorem prime_11 : Nat.Prime 11 := by decide
theorem prime_13 : Nat.Prime 13 := by decide
theorem prime_17 : Nat.Prime 17 := by decide
theorem prime_19 : Nat.Prime 19 := by decide
theorem prime_23 : Nat.Prime 23 := by decide
theorem prime_29 : Nat.Prime 29 := by decide
theorem prime_31 : Nat.Prime 31 := by decide
theorem prime_37 : Nat.Prime 37 := by decide
theorem prime_43 : Nat.Prime 43 := by decide
theorem prime_47 : Nat.Prime 47 := by decide
theorem prime_53 : Nat.Prime 53 := by decide
theorem prime_59 : Nat.Prime 59 := by decide
theorem prime_71 : Nat.Prime 71 := by decide
theorem prime_73 : Nat.Prime 73 := by decide
theorem prime_89 : Nat.Prime 89 := by decide

theorem prime_137 : Nat.Prime 137 :=
  pratt 137 3 [2, 2, 2, 17] (by decide +kernel) (by decide +kernel) (by decide +kernel) (by
    simp only [List.mem_cons, List.not_mem_nil, or_false, forall_eq_or_imp, forall_eq]
    exact ⟨prime_2, prime_2, prime_2, prime_17⟩)

theorem prime_241 : Nat.Prime 241 :=
  pratt 241 7 [2, 2, 2, 2, 3, 5] (by decide +kernel) (by decide +kernel) (by decide +kernel) (by
    simp only [List.mem_cons, List.not_mem_nil, or_false, forall_eq_or_imp, forall_eq]
    exact ⟨prime_2, prime_2, prime_2, prime_2, prime_3, prime_5⟩)

theorem prime_15907 : Nat.Prime 15907 :=
  pratt 15907 2 [2, 3, 11, 241] (by decide +kernel) (by decide +kernel) (by decide +kernel) (by
    simp only [List.mem_cons, List.not_mem_nil, or_false, forall_eq_or_imp, forall_eq]
    exact ⟨prime_2, prime_3, prime_11, prime_241⟩)

theorem prime_63629 : Nat.Prime 63629 :=
  pratt 63629 2 [2, 2, 15907] (by decide +kernel) (by decide +kernel) (by decide +kernel) (by
    simp only [List.mem_cons, List.not_mem_nil, or_false, forall_eq_or_imp, forall_eq]
    exact ⟨prime_2, prime_2, prime_15907⟩)

theorem prime_127 : Nat.Prime 127 :=
  pratt 127 3 [2, 3, 3, 7] (by decide +kernel) (by decide +kernel) (by decide +kernel) (by
    simp only [List.mem_cons, List.not_mem_nil, or_false, forall_eq_or_imp, forall_eq]
    exact ⟨prime_2, prime_3, prime_3, prime_7⟩)

theorem prime_5843 : Nat.Prime 5843 :=
  pratt 5843 2 [2, 23, 127] (by decide +kernel) (by decide +kernel) (by decide +kernel) (by
    simp only [List.mem_cons, List.not_mem_nil, or_false, forall_eq_or_imp, forall_eq]
    exact ⟨prime_2, prime_23, prime_127⟩)

theorem prime_853079 : Nat.Prime 853079 :=
  pratt 853079 13 [2, 73, 5843] (by decide +kernel) (by decide +kernel) (by decide +kernel) (by
    simp only [List.mem_cons, List.not_mem_nil, or_false, forall_eq_or_imp, forall_eq]
    exact ⟨prime_2, prime_73, prime_5843⟩)

theorem prime_15355423 : Nat.Prime 15355423 :=
  pratt 15355423 5 [2, 3, 3, 853079] (by decide +kernel) (by decide +kernel) (by decide +kernel) (by
    simp only [List.mem_cons, List.not_mem_nil, or_false, forall_eq_or_imp, forall_eq]
    exact ⟨prime_2, prime_3, prime_3, prime_853079⟩)

theorem prime_4103610882281401 : Nat.Prime 4103610882281401 :=
  pratt 4103610882281401 17 [2, 2, 2, 3, 5, 5, 7, 63629, 15355423] (by decide +kernel) (by decide +kernel) (by decide +kernel) (by
    simp only [List.mem_cons, List.not_mem_nil, or_false, forall_eq_or_imp, forall_eq]
    exact ⟨prime_2, prime_2, prime_2, prime_3, prime_5, prime_5, prime_7, prime_63629, prime_15355423⟩)

theorem prime_164144435291256041 : Nat.Prime 164144435291256041 :=
  pratt 164144435291256041 3 [2, 2, 2, 5, 4103610882281401] (by decide +kernel) (by decide +kernel) (by decide +kernel) (by
    simp only [List.mem_cons, List.not_mem_nil, or_false, forall_eq_or_imp, forall_eq]
    exact ⟨prime_2, prime_2, prime_2, prime_5, prime_4103610882281401⟩)

theorem prime_10794138064752997256161 : Nat.Prime 10794138064752997256161 :=
  pratt 10794138064752997256161 11 [2, 2, 2, 2, 2, 3, 5, 137, 164144435291256041] (by decide +kernel) (by decide +kernel) (by decide +kernel) (by
    simp only [List.mem_cons, List.not_mem_nil, or_false, forall_eq_or_imp, forall_eq]
    exact ⟨prime_2, prime_2, prime_2, prime_2, prime_2, prime_3, prime_5, prime_137, prime_164144435291256041⟩)

theorem prime_173 : Nat.Prime 173 :=
  pratt 173 2 [2, 2, 43] (by decide +kernel) (by decide +kernel) (by decide +kernel) (by
    simp only [List.mem_cons, List.not_mem_nil, or_false, forall_eq_or_imp, forall_eq]
    exact ⟨prime_2, prime_2, prime_43⟩)

theorem prime_1223 : Nat.Prime 1223 :=
  pratt 1223 5 [2, 13, 47] (by decide +kernel) (by decide +kernel) (by decide +kernel) (by
    simp only [List.mem_cons, List.not_mem_nil, or_false, forall_eq_or_imp, forall_eq]
    exact ⟨prime_2, prime_13, prime_47⟩)

theorem prime_44029 : Nat.Prime 44029 :=
  pratt 44029 6 [2, 2, 3, 3, 1223] (by decide +kernel) (by decide +kernel) (by decide +kernel) (by
    simp only [List.mem_cons, List.not_mem_nil, or_false, forall_eq_or_imp, forall_eq]
    exact ⟨prime_2, prime_2, prime_3, prime_3, prime_1223⟩)

theorem prime_6252119 : Nat.Prime 6252119 :=
  pratt 6252119 11 [2, 71, 44029] (by decide +kernel) (by decide +kernel) (by decide +kernel) (by
    simp only [List.mem_cons, List.not_mem_nil, or_false, forall_eq_or_imp, forall_eq]
    exact ⟨prime_2, prime_71, prime_44029⟩)

theorem prime_395809149653 : Nat.Prime 395809149653 :=
  pratt 395809149653 2 [2, 2, 7, 7, 17, 19, 6252119] (by decide +kernel) (by decide +kernel) (by decide +kernel) (by
    simp only [List.mem_cons, List.not_mem_nil, or_false, forall_eq_or_imp, forall_eq]
    exact ⟨prime_2, prime_2, prime_7, prime_7, prime_17, prime_19, prime_6252119⟩)

theorem prime_673 : Nat.Prime 673 :=
  pratt 673 5 [2, 2, 2, 2, 2, 3, 7] (by decide +kernel) (by decide +kernel) (by decide +kernel) (by
    simp only [List.mem_cons, List.not_mem_nil, or_false, forall_eq_or_imp, forall_eq]
    exact ⟨prime_2, prime_2, prime_2, prime_2, prime_2, prime_3, prime_7⟩)

theorem prime_709 : Nat.Prime 709 :=
  pratt 709 2 [2, 2, 3, 59] (by decide +kernel) (by decide +kernel) (by decide +kernel) (by
    simp only [List.mem_cons, List.not_mem_nil, or_false, forall_eq_or_imp, forall_eq]
    exact ⟨prime_2, prime_2, prime_3, prime_59⟩)

theorem prime_257 : Nat.Prime 257 :=
  pratt 257 3 [2, 2, 2, 2, 2, 2, 2, 2] (by decide +kernel) (by decide +kernel) (by decide +kernel) (by
    simp only [List.mem_cons, List.not_mem_nil, or_false, forall_eq_or_imp, forall_eq]
    exact ⟨prime_2, prime_2, prime_2, prime_2, prime_2, prime_2, prime_2, prime_2⟩)

theorem prime_28711 : Nat.Prime 28711 :=
  pratt 28711 3 [2, 3, 3, 5, 11, 29] (by decide +kernel) (by decide +kernel) (by decide +kernel) (by
    simp only [List.mem_cons, List.not_mem_nil, or_false, forall_eq_or_imp, forall_eq]
    exact ⟨prime_2, prime_3, prime_3, prime_5, prime_11, prime_29⟩)

theorem prime_4593761 : Nat.Prime 4593761 :=
  pratt 4593761 6 [2, 2, 2, 2, 2, 5, 28711] (by decide +kernel) (by decide +kernel) (by decide +kernel) (by
    simp only [List.mem_cons, List.not_mem_nil, or_false, forall_eq_or_imp, forall_eq]
    exact ⟨prime_2, prime_2, prime_2, prime_2, prime_2, prime_5, prime_28711⟩)

theorem prime_91875221 : Nat.Prime 91875221 :=
  pratt 91875221 2 [2, 2, 5, 4593761] (by decide +kernel) (by decide +kernel) (by decide +kernel) (by
    simp only [List.mem_cons, List.not_mem_nil, or_false, forall_eq_or_imp, forall_eq]
    exact ⟨prime_2, prime_2, prime_5, prime_4593761⟩)

theorem prime_239 : Nat.Prime 239 :=
  pratt 239 7 [2, 7, 17] (by decide +kernel) (by decide +kernel) (by decide +kernel) (by
    simp only [List.mem_cons, List.not_mem_nil, or_false, forall_eq_or_imp, forall_eq]
    exact ⟨prime_2, prime_7, prime_17⟩)

theorem prime_150571 : Nat.Prime 150571 :=
  pratt 150571 7 [2, 3, 3, 5, 7, 239] (by decide +kernel) (by decide +kernel) (by decide +kernel) (by
    simp only [List.mem_cons, List.not_mem_nil, or_false, forall_eq_or_imp, forall_eq]
    exact ⟨prime_2, prime_3, prime_3, prime_5, prime_7, prime_239⟩)

theorem prime_1471 : Nat.Prime 1471 :=
  pratt 1471 6 [2, 3, 5, 7, 7] (by decide +kernel) (by decide +kernel) (by decide +kernel) (by
    simp only [List.mem_cons, List.not_mem_nil, or_false, forall_eq_or_imp, forall_eq]
    exact ⟨prime_2, prime_3, prime_5, prime_7, prime_7⟩)

theorem prime_76493 : Nat.Prime 76493 :=
  pratt 76493 2 [2, 2, 13, 1471] (by decide +kernel) (by decide +kernel) (by decide +kernel) (by
    simp only [List.mem_cons, List.not_mem_nil, or_false, forall_eq_or_imp, forall_eq]
    exact ⟨prime_2, prime_2, prime_13, prime_1471⟩)

theorem prime_23035255007 : Nat.Prime 23035255007 :=
  pratt 23035255007 5 [2, 76493, 150571] (by decide +kernel) (by decide +kernel) (by decide +kernel) (by
    simp only [List.mem_cons, List.not_mem_nil, or_false, forall_eq_or_imp, forall_eq]
    exact ⟨prime_2, prime_76493, prime_150571⟩)

theorem prime_1087813740303573515159 : Nat.Prime 1087813740303573515159 :=
  pratt 1087813740303573515159 7 [2, 257, 91875221, 23035255007] (by decide +kernel) (by decide +kernel) (by decide +kernel) (by
    simp only [List.mem_cons, List.not_mem_nil, or_false, forall_eq_or_imp, forall_eq]
    exact ⟨prime_2, prime_257, prime_91875221, prime_23035255007⟩)

theorem prime_16609854108225031288727134817 : Nat.Prime 16609854108225031288727134817 :=
  pratt 16609854108225031288727134817 3 [2, 2, 2, 2, 2, 673, 709, 1087813740303573515159] (by decide +kernel) (by decide +kernel) (by decide +kernel) (by
    simp only [List.mem_cons, List.not_mem_nil, or_false, forall_eq_or_imp, forall_eq]
    exact ⟨prime_2, prime_2, prime_2, prime_2, prime_2, prime_673, prime_709, prime_1087813740303573515159⟩)

theorem prime_107 : Nat.Prime 107 :=
  pratt 107 2 [2, 53] (by decide +kernel) (by decide +kernel) (by decide +kernel) (by
    simp only [List.mem_cons, List.not_mem_nil, or_false, forall_eq_or_imp, forall_eq]
    exact ⟨prime_2, prime_53⟩)

theorem prime_857 : Nat.Prime 857 :=
  pratt 857 3 [2, 2, 2, 107] (by decide +kernel) (by decide +kernel) (by decide +kernel) (by
    simp only [List.mem_cons, List.not_mem_nil, or_false, forall_eq_or_imp, forall_eq]
    exact ⟨prime_2, prime_2, prime_2, prime_107⟩)

theorem prime_30853 : Nat.Prime 30853 :=
  pratt 30853 2 [2, 2, 3, 3, 857] (by decide +kernel) (by decide +kernel) (by decide +kernel) (by
    simp only [List.mem_cons, List.not_mem_nil, or_false, forall_eq_or_imp, forall_eq]
    exact ⟨prime_2, prime_2, prime_3, prime_3, prime_857⟩)

theorem prime_3061 : Nat.Prime 3061 :=
  pratt 3061 6 [2, 2, 3, 3, 5, 17] (by decide +kernel) (by decide +kernel) (by decide +kernel) (by
    simp only [List.mem_cons, List.not_mem_nil, or_false, forall_eq_or_imp, forall_eq]
    exact ⟨prime_2, prime_2, prime_3, prime_3, prime_5, prime_17⟩)

theorem prime_176604731711 : Nat.Prime 176604731711 :=
  pratt 176604731711 7 [2, 5, 11, 17, 3061, 30853] (by decide +kernel) (by decide +kernel) (by decide +kernel) (by
    simp only [List.mem_cons, List.not_mem_nil, or_false, forall_eq_or_imp, forall_eq]
    exact ⟨prime_2, prime_5, prime_11, prime_17, prime_3061, prime_30853⟩)

theorem prime_13008861940417978637584514274743203260316419139111920661532489703530863799899 : Nat.Prime 13008861940417978637584514274743203260316419139111920661532489703530863799899 :=
  pratt 13008861940417978637584514274743203260316419139111920661532489703530863799899 2 [2, 3, 173, 176604731711, 395809149653, 10794138064752997256161, 16609854108225031288727134817] (by decide +kernel) (by decide +kernel) (by decide +kernel) (by
    simp only [List.mem_cons, List.not_mem_nil, or_false, forall_eq_or_imp, forall_eq]
    exact ⟨prime_2, prime_3, prime_173, prime_176604731711, prime_395809149653, prime_10794138064752997256161, prime_16609854108225031288727134817⟩)

theorem prime_2753 : Nat.Prime 2753 :=
  pratt 2753 3 [2, 2, 2, 2, 2, 2, 43] (by decide +kernel) (by decide +kernel) (by decide +kernel) (by
    simp only [List.mem_cons, List.not_mem_nil, or_false, forall_eq_or_imp, forall_eq]
    exact ⟨prime_2, prime_2, prime_2, prime_2, prime_2, prime_2, prime_43⟩)

theorem prime_1483 : Nat.Prime 1483 :=
  pratt 1483 2 [2, 3, 13, 19] (by decide +kernel) (by decide +kernel) (by decide +kernel) (by
    simp only [List.mem_cons, List.not_mem_nil, or_false, forall_eq_or_imp, forall_eq]
    exact ⟨prime_2, prime_3, prime_13, prime_19⟩)

theorem prime_97879 : Nat.Prime 97879 :=
  pratt 97879 6 [2, 3, 11, 1483] (by decide +kernel) (by decide +kernel) (by decide +kernel) (by
    simp only [List.mem_cons, List.not_mem_nil, or_false, forall_eq_or_imp, forall_eq]
    exact ⟨prime_2, prime_3, prime_11, prime_1483⟩)

theorem prime_1103 : Nat.Prime 1103 :=
  pratt 1103 5 [2, 19, 29] (by decide +kernel) (by decide +kernel) (by decide +kernel) (by
    simp only [List.mem_cons, List.not_mem_nil, or_false, forall_eq_or_imp, forall_eq]
    exact ⟨prime_2, prime_19, prime_29⟩)

theorem prime_39709 : Nat.Prime 39709 :=
  pratt 39709 6 [2, 2, 3, 3, 1103] (by decide +kernel) (by decide +kernel) (by decide +kernel) (by
    simp only [List.mem_cons, List.not_mem_nil, or_false, forall_eq_or_imp, forall_eq]
    exact ⟨prime_2, prime_2, prime_3, prime_3, prime_1103⟩)

theorem prime_293 : Nat.Prime 293 :=
  pratt 293 2 [2, 2, 73] (by decide +kernel) (by decide +kernel) (by decide +kernel) (by
    simp only [List.mem_cons, List.not_mem_nil, or_false, forall_eq_or_imp, forall_eq]
    exact ⟨prime_2, prime_2, prime_73⟩)

theorem prime_587 : Nat.Prime 587 :=
  pratt 587 2 [2, 293] (by decide +kernel) (by decide +kernel) (by decide +kernel) (by
    simp only [List.mem_cons, List.not_mem_nil, or_false, forall_eq_or_imp, forall_eq]
    exact ⟨prime_2, prime_293⟩)

theorem prime_4661836601 : Nat.Prime 4661836601 :=
  pratt 4661836601 3 [2, 2, 2, 5, 5, 587, 39709] (by decide +kernel) (by decide +kernel) (by decide +kernel) (by
    simp only [List.mem_cons, List.not_mem_nil, or_false, forall_eq_or_imp, forall_eq]
    exact ⟨prime_2, prime_2, prime_2, prime_5, prime_5, prime_587, prime_39709⟩)

theorem prime_281 : Nat.Prime 281 :=
  pratt 281 3 [2, 2, 2, 5, 7] (by decide +kernel) (by decide +kernel) (by decide +kernel) (by
    simp only [List.mem_cons, List.not_mem_nil, or_false, forall_eq_or_imp, forall_eq]
    exact ⟨prime_2, prime_2, prime_2, prime_5, prime_7⟩)

theorem prime_1148729 : Nat.Prime 1148729 :=
  pratt 1148729 3 [2, 2, 2, 7, 73, 281] (by decide +kernel) (by decide +kernel) (by decide +kernel) (by
    simp only [List.mem_cons, List.not_mem_nil, or_false, forall_eq_or_imp, forall_eq]
    exact ⟨prime_2, prime_2, prime_2, prime_7, prime_73, prime_281⟩)

theorem prime_1291 : Nat.Prime 1291 :=
  pratt 1291 2 [2, 3, 5, 43] (by decide +kernel) (by decide +kernel) (by decide +kernel) (by
    simp only [List.mem_cons, List.not_mem_nil, or_false, forall_eq_or_imp, forall_eq]
    exact ⟨prime_2, prime_3, prime_5, prime_43⟩)

theorem prime_28403 : Nat.Prime 28403 :=
  pratt 28403 5 [2, 11, 1291] (by decide +kernel) (by decide +kernel) (by decide +kernel) (by
    simp only [List.mem_cons, List.not_mem_nil, or_false, forall_eq_or_imp, forall_eq]
    exact ⟨prime_2, prime_11, prime_1291⟩)

theorem prime_56807 : Nat.Prime 56807 :=
  pratt 56807 5 [2, 28403] (by decide +kernel) (by decide +kernel) (by decide +kernel) (by
    simp only [List.mem_cons, List.not_mem_nil, or_false, forall_eq_or_imp, forall_eq]
    exact ⟨prime_2, prime_28403⟩)

theorem prime_783070179637 : Nat.Prime 783070179637 :=
  pratt 783070179637 2 [2, 2, 3, 56807, 1148729] (by decide +kernel) (by decide +kernel) (by decide +kernel) (by
    simp only [List.mem_cons, List.not_mem_nil, or_false, forall_eq_or_imp, forall_eq]
    exact ⟨prime_2, prime_2, prime_3, prime_56807, prime_1148729⟩)

theorem prime_197129442127504220667199 : Nat.Prime 197129442127504220667199 :=
  pratt 197129442127504220667199 3 [2, 3, 3, 3, 4661836601, 783070179637] (by decide +kernel) (by decide +kernel) (by decide +kernel) (by
    simp only [List.mem_cons, List.not_mem_nil, or_false, forall_eq_or_imp, forall_eq]
    exact ⟨prime_2, prime_3, prime_3, prime_3, prime_4661836601, prime_783070179637⟩)

theorem prime_1601 : Nat.Prime 1601 :=
  pratt 1601 3 [2, 2, 2, 2, 2, 2, 5, 5] (by decide +kernel) (by decide +kernel) (by decide +kernel) (by
    simp only [List.mem_cons, List.not_mem_nil, or_false, forall_eq_or_imp, forall_eq]
    exact ⟨prime_2, prime_2, prime_2, prime_2, prime_2, prime_2, prime_5, prime_5⟩)

theorem prime_5737 : Nat.Prime 5737 :=
  pratt 5737 5 [2, 2, 2, 3, 239] (by decide +kernel) (by decide +kernel) (by decide +kernel) (by
    simp only [List.mem_cons, List.not_mem_nil, or_false, forall_eq_or_imp, forall_eq]
    exact ⟨prime_2, prime_2, prime_2, prime_3, prime_239⟩)

theorem prime_431 : Nat.Prime 431 :=
  pratt 431 7 [2, 5, 43] (by decide +kernel) (by decide +kernel) (by decide +kernel) (by
    simp only [List.mem_cons, List.not_mem_nil, or_false, forall_eq_or_imp, forall_eq]
    exact ⟨prime_2, prime_5, prime_43⟩)

theorem prime_28447 : Nat.Prime 28447 :=
  pratt 28447 3 [2, 3, 11, 431] (by decide +kernel) (by decide +kernel) (by decide +kernel) (by
    simp only [List.mem_cons, List.not_mem_nil, or_false, forall_eq_or_imp, forall_eq]
    exact ⟨prime_2, prime_3, prime_11, prime_431⟩)

theorem prime_7838517085171 : Nat.Prime 7838517085171 :=
  pratt 7838517085171 2 [2, 3, 5, 1601, 5737, 28447] (by decide +kernel) (by decide +kernel) (by decide +kernel) (by
    simp only [List.mem_cons, List.not_mem_nil, or_false, forall_eq_or_imp, forall_eq]
    exact ⟨prime_2, prime_3, prime_5, prime_1601, prime_5737, prime_28447⟩)

theorem prime_9997628433766911306392609821624522110747959750147131 : Nat.Prime 9997628433766911306392609821624522110747959750147131 :=
  pratt 9997628433766911306392609821624522110747959750147131 14 [2, 3, 5, 17, 23, 23, 89, 2753, 97879, 7838517085171, 197129442127504220667199] (by decide +kernel) (by decide +kernel) (by decide +kernel) (by
    simp only [List.mem_cons, List.not_mem_nil, or_false, forall_eq_or_imp, forall_eq]
    exact ⟨prime_2, prime_3, prime_5, prime_17, prime_23, prime_23, prime_89, prime_2753, prime_97879, prime_7838517085171, prime_197129442127504220667199⟩)

theorem prime_2003 : Nat.Prime 2003 :=
  pratt 2003 5 [2, 7, 11, 13] (by decide +kernel) (by decide +kernel) (by decide +kernel) (by
    simp only [List.mem_cons, List.not_mem_nil, or_false, forall_eq_or_imp, forall_eq]
    exact ⟨prime_2, prime_7, prime_11, prime_13⟩)

theorem prime_48073 : Nat.Prime 48073 :=
  pratt 48073 5 [2, 2, 2, 3, 2003] (by decide +kernel) (by decide +kernel) (by decide +kernel) (by
    simp only [List.mem_cons, List.not_mem_nil, or_false, forall_eq_or_imp, forall_eq]
    exact ⟨prime_2, prime_2, prime_2, prime_3, prime_2003⟩)

theorem prime_3511 : Nat.Prime 3511 :=
  pratt 3511 7 [2, 3, 3, 3, 5, 13] (by decide +kernel) (by decide +kernel) (by decide +kernel) (by
    simp only [List.mem_cons, List.not_mem_nil, or_false, forall_eq_or_imp, forall_eq]
    exact ⟨prime_2, prime_3, prime_3, prime_3, prime_5, prime_13⟩)

theorem prime_37123740430619255364870514048064684427755030292214028372263247 : Nat.Prime 37123740430619255364870514048064684427755030292214028372263247 :=
  pratt 37123740430619255364870514048064684427755030292214028372263247 10 [2, 11, 3511, 48073, 9997628433766911306392609821624522110747959750147131] (by decide +kernel) (by decide +kernel) (by decide +kernel) (by
    simp only [List.mem_cons, List.not_mem_nil, or_false, forall_eq_or_imp, forall_eq]
    exact ⟨prime_2, prime_11, prime_3511, prime_48073, prime_9997628433766911306392609821624522110747959750147131⟩)

theorem prime_373 : Nat.Prime 373 :=
  pratt 373 2 [2, 2, 3, 31] (by decide +kernel) (by decide +kernel) (by decide +kernel) (by
    simp only [List.mem_cons, List.not_mem_nil, or_false, forall_eq_or_imp, forall_eq]
    exact ⟨prime_2, prime_2, prime_3, prime_31⟩)

theorem prime_1051 : Nat.Prime 1051 :=
  pratt 1051 7 [2, 3, 5, 5, 7] (by decide +kernel) (by decide +kernel) (by decide +kernel) (by
    simp only [List.mem_cons, List.not_mem_nil, or_false, forall_eq_or_imp, forall_eq]
    exact ⟨prime_2, prime_3, prime_5, prime_5, prime_7⟩)

theorem prime_8059069 : Nat.Prime 8059069 :=
  pratt 8059069 2 [2, 2, 3, 3, 3, 71, 1051] (by decide +kernel) (by decide +kernel) (by decide +kernel) (by
    simp only [List.mem_cons, List.not_mem_nil, or_false, forall_eq_or_imp, forall_eq]
    exact ⟨prime_2, prime_2, prime_3, prime_3, prime_3, prime_71, prime_1051⟩)

theorem prime_12024130949 : Nat.Prime 12024130949 :=
  pratt 12024130949 2 [2, 2, 373, 8059069] (by decide +kernel) (by decide +kernel) (by decide +kernel) (by
    simp only [List.mem_cons, List.not_mem_nil, or_false, forall_eq_or_imp, forall_eq]
    exact ⟨prime_2, prime_2, prime_373, prime_8059069⟩)

theorem prime_751 : Nat.Prime 751 :=
  pratt 751 3 [2, 3, 5, 5, 5] (by decide +kernel) (by decide +kernel) (by decide +kernel) (by
    simp only [List.mem_cons, List.not_mem_nil, or_false, forall_eq_or_imp, forall_eq]
    exact ⟨prime_2, prime_3, prime_5, prime_5, prime_5⟩)

theorem prime_668229053359727 : Nat.Prime 668229053359727 :=
  pratt 668229053359727 5 [2, 37, 751, 12024130949] (by decide +kernel) (by decide +kernel) (by decide +kernel) (by
    simp only [List.mem_cons, List.not_mem_nil, or_false, forall_eq_or_imp, forall_eq]
    exact ⟨prime_2, prime_37, prime_751, prime_12024130949⟩)

theorem prime_545757562352748437778195250781205191227156621952501599157677289463253105178519 : Nat.Prime 545757562352748437778195250781205191227156621952501599157677289463253105178519 :=
  pratt 545757562352748437778195250781205191227156621952501599157677289463253105178519 7 [2, 11, 668229053359727, 37123740430619255364870514048064684427755030292214028372263247] (by decide +kernel) (by decide +kernel) (by decide +kernel) (by
    simp only [List.mem_cons, List.not_mem_nil, or_false, forall_eq_or_imp, forall_eq]
    exact ⟨prime_2, prime_11, prime_668229053359727, prime_37123740430619255364870514048064684427755030292214028372263247⟩)

end Spasm
