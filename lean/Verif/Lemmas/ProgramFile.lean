import Verif.Lemmas.Prgm
import Verif.Spec.ProgramFile

/-
The program files that the exporter writes, compared with their description.
-/

namespace Spasm
open Spec

/-- The types of the described formats. -/
def formatTypes : List Calc := [.t73P, .t83P, .t8XP, .t8XV, .t86P]

theorem byteOf_nat (n : Nat) : byteOf (n : Int) = n % 256 := by unfold byteOf; omega

theorem byteOf_high (n : Nat) : byteOf ((n : Int) / 256) = n / 256 % 256 := by unfold byteOf; omega

theorem map_cnt (l : List Nat) (h : ∀ b ∈ l, b < 256) : (l.map (fun b : Nat => cnt b)).map (·.1) = l := by
  induction l with
  | nil => rfl
  | cons b l ih =>
    rw [List.map_cons, List.map_cons, ih fun b hb => h b (by simp [hb])]
    have := h b (by simp)
    congr 1
    show (((b : Int)) % 256).toNat = b
    omega

theorem hexPair_eq (b : Nat) (h : b < 256) : hexByte b = hexPair b := by
  have : ∀ b : Fin 256, hexByte b = hexPair b := by decide +kernel
  exact this ⟨b, h⟩

theorem hexPairs_eq (l : List Nat) (h : ∀ b ∈ l, b < 256) : l.flatMap hexByte = l.flatMap hexPair := by
  induction l with
  | nil => rfl
  | cons b l ih =>
    rw [List.flatMap_cons, List.flatMap_cons, ih fun b hb => h b (by simp [hb]), hexPair_eq b (h b (by simp))]

theorem hexPair_byte (b : Nat) : ∀ c ∈ hexByte b, c < 256 := by
  intro c hc
  have : ∀ d, d < 16 → hexDigit d < 256 := by decide
  unfold hexByte at hc
  simp only [List.mem_cons, List.not_mem_nil, or_false] at hc
  rcases hc with rfl | rfl <;> exact this _ (by omega)

/-- The program files, as described. -/
theorem prgmBytes_format (p : Format × Calc) (hp : p ∈ formats.zip formatTypes) (name bs : List Nat) (hn : ∀ c ∈ name, c < 256)
    (hl : name.length < 256) (hb : ∀ b ∈ bs, b < 256) : prgmBytes p.2 name bs = programFile p.1 name bs := by
  obtain ⟨H, c0, k0, k1, hc0, hH, eq, hsum, hk0, hk1⟩ := prgmBytes_split_full p.2 name bs
  have hbody : (prgmBody p.2 bs).map (·.1) = p.1.content bs := by
    have h1 := map_cnt bs hb
    have h2 := map_cnt (bs.flatMap hexByte) (by
      intro c hc
      obtain ⟨b, -, hc⟩ := List.mem_flatMap.1 hc
      exact hexPair_byte b c hc)
    simp only [formats, formatTypes, List.zip_cons_cons, List.zip_nil_right, List.mem_cons, List.not_mem_nil, or_false] at hp
    rcases hp with rfl | rfl | rfl | rfl | rfl <;>
      simp only [prgmBody, reduceCtorEq, if_true, if_false, List.map_append, List.append_nil, List.nil_append, h1, h2, List.map_nil, id] <;>
      first | rfl | (rw [hexPairs_eq bs hb]; rfl)
  have hname : (nameField p.2 name).map (·.1) = p.1.kind name ++ (name.take 8 ++ List.replicate (8 - name.length) 0) ++ p.1.version := by
    have h1 := map_cnt (name.take 8) (fun c hc => hn c (List.mem_of_mem_take hc))
    have hlen : (cnt (name.length : Int)).1 = name.length := by show ((name.length : Int) % 256).toNat = _; omega
    simp only [formats, formatTypes, List.zip_cons_cons, List.zip_nil_right, List.mem_cons, List.not_mem_nil, or_false] at hp
    rcases hp with rfl | rfl | rfl | rfl | rfl <;>
      simp only [nameField, Calc.ix, reduceCtorEq, ge_iff_le, ne_eq, not_false_eq_true, not_true_eq_false, and_self, if_true, if_false, List.map_append, h1,
        List.map_replicate, List.map_cons, List.map_nil, hlen, List.append_nil, List.append_assoc, or_false, false_or, or_true, true_or, Nat.reduceLeDiff] <;> rfl
  have hvar : varSize p.2 bs.length = ((p.1.content bs).length + 2 : Nat) := by
    have := length_prgmBody p.2 bs
    rw [← hbody, List.length_map]
    omega
  have hfix : H = b! "**TI" ++ p.1.mark ++ b! "*" ++ [0x1A, 0x0A, 0] ++ (b! "File generated by spasm" ++ List.replicate 19 0) := by
    rw [hH]
    simp only [formats, formatTypes, List.zip_cons_cons, List.zip_nil_right, List.mem_cons, List.not_mem_nil, or_false] at hp
    rcases hp with rfl | rfl | rfl | rfl | rfl <;> decide
  have hhead : [c0, 0] = lowHigh (2 + (p.1.kind name).length + 8 + p.1.version.length) := by
    rw [hc0]
    simp only [formats, formatTypes, List.zip_cons_cons, List.zip_nil_right, List.mem_cons, List.not_mem_nil, or_false] at hp
    rcases hp with rfl | rfl | rfl | rfl | rfl <;> simp [typeBytes, cnt, lowHigh]
  have hpair : ∀ n : Nat, [byteOf (n : Int), byteOf ((n : Int) / 256)] = lowHigh n := by
    intro n
    rw [byteOf_nat, byteOf_high]
    rfl
  have hlow : [byteOf (varSize p.2 bs.length - 2), byteOf ((varSize p.2 bs.length - 2) / 256)] = lowHigh (p.1.content bs).length := by
    rw [hvar, show (((p.1.content bs).length + 2 : Nat) : Int) - 2 = ((p.1.content bs).length : Nat) by omega, hpair]
  have hentry : [c0, 0, byteOf (varSize p.2 bs.length), byteOf (varSize p.2 bs.length / 256)] ++
      (nameField p.2 name).map (·.1) ++
      [byteOf (varSize p.2 bs.length), byteOf (varSize p.2 bs.length / 256),
       byteOf (varSize p.2 bs.length - 2), byteOf ((varSize p.2 bs.length - 2) / 256)] ++
      (prgmBody p.2 bs).map (·.1) = entryOf p.1 name (p.1.content bs) := by
    unfold entryOf
    rw [← hhead, ← hlow, hbody, hname, hvar, ← hpair ((p.1.content bs).length + 2)]
    simp only [List.append_assoc, List.cons_append, List.nil_append]
  have hdata : dataSize p.2 name bs.length = ((entryOf p.1 name (p.1.content bs)).length : Nat) := by
    have h1 := congrArg List.length hname
    rw [List.length_map, length_nameField] at h1
    have h2 : ((entryOf p.1 name (p.1.content bs)).length : Int) = 4 + (nameField p.2 name).length + 4 + (prgmBody p.2 bs).length := by
      rw [← hentry]
      simp
      omega
    have h3 := length_prgmBody p.2 bs
    rw [h2, h3, length_nameField]
    unfold dataSize
    simp only [formats, formatTypes, List.zip_cons_cons, List.zip_nil_right, List.mem_cons, List.not_mem_nil, or_false] at hp
    rcases hp with rfl | rfl | rfl | rfl | rfl <;> simp [Calc.ix] <;> omega
  rw [hentry] at eq hsum
  have hk : [k0, k1] = lowHigh (entryOf p.1 name (p.1.content bs)).sum := by
    unfold lowHigh
    congr 1
    · omega
    · congr 1
      omega
  rw [eq, hdata, hpair, hk, hfix]
  rfl

theorem progBase_last {path base : Str} (h : LastPart path base) : progBase path = base := by
  obtain ⟨h0, h1, h2, h | ⟨dir, c, hd, hc, h⟩⟩ := h
  · subst h
    cases path with
    | nil => rfl
    | cons a t =>
      unfold progBase
      dsimp only
      rw [if_neg]
      rw [List.any_eq_true]
      rintro ⟨d, hd, hx⟩
      simp only [List.mem_cons, not_or] at h1 h2
      simp only [Bool.or_eq_true, beq_iff_eq] at hx
      rcases hx with rfl | rfl
      · exact h1.2 hd
      · exact h2.2 hd
  · subst h
    cases dir with
    | nil => exact absurd rfl hd
    | cons a t =>
      unfold progBase
      dsimp only [List.cons_append]
      rw [if_pos]
      · rw [List.reverse_append, List.reverse_cons, List.append_assoc]
        have : ∀ l r : Str, (∀ d ∈ l, d ≠ 47 ∧ d ≠ 92) → (l ++ ([c] ++ r)).takeWhile (fun d => !(d == 47 || d == 92)) = l := by
          intro l r
          induction l with
          | nil =>
            intro _
            rcases hc with rfl | rfl <;> rfl
          | cons d l ih =>
            intro hl
            have := hl d (by simp)
            rw [List.cons_append, List.takeWhile_cons_of_pos (by simp [this.1, this.2]), ih fun d hd => hl d (by simp [hd])]
        rw [this]
        · exact List.reverse_reverse _
        · intro d hd
          have hd := List.mem_reverse.1 hd
          exact ⟨fun e => h1 (e ▸ hd), fun e => h2 (e ▸ hd)⟩
      · rw [List.any_eq_true]
        exact ⟨c, by simp, by rcases hc with rfl | rfl <;> rfl⟩

theorem forced_upper (c : Nat) : (if isLower c then c - 32 else c) = upperCase c := by
  unfold isLower upperCase
  simp only [Bool.and_eq_true, decide_eq_true_eq]

theorem alnum_of {c : Nat} (h : Alnum c) : isAlnum c = true := by
  unfold Alnum at h
  unfold isAlnum isAlpha isDigit isUpper isLower
  simp only [Bool.or_eq_true, Bool.and_eq_true, decide_eq_true_eq]
  omega

theorem alphanumeric_force (t : Str) : (alphanumeric false true t).1 = t.map upperCase ∧
    ((∀ c ∈ t.map upperCase, Alnum c) → (alphanumeric false true t).2 = 0) := by
  induction t with
  | nil => exact ⟨rfl, fun _ => rfl⟩
  | cons c t ih =>
    unfold alphanumeric
    simp only [Bool.true_and, Bool.false_eq_true, if_false, forced_upper, List.map_cons]
    refine ⟨by rw [ih.1], fun h => ?_⟩
    rw [if_pos (alnum_of (h _ (by simp))), ih.2 fun c hc => h c (by simp [hc])]

theorem alphanumeric_rest (t : Str) : (alphanumeric true false t).1 = t ∧ ((∀ c ∈ t, Alnum c) → (alphanumeric true false t).2 = 0) := by
  induction t with
  | nil => exact ⟨rfl, fun _ => rfl⟩
  | cons c t ih =>
    unfold alphanumeric
    simp only [Bool.false_and, Bool.false_eq_true, if_false, if_true]
    refine ⟨by rw [ih.1], fun h => ?_⟩
    rw [if_pos (alnum_of (h _ (by simp))), ih.2 fun c hc => h c (by simp [hc])]

theorem alphanumeric_first (t : Str) : (alphanumeric true true t).1 = (t.take 1).map upperCase ++ t.drop 1 ∧
    ((∀ c ∈ (t.take 1).map upperCase ++ t.drop 1, Alnum c) → (alphanumeric true true t).2 = 0) := by
  cases t with
  | nil => exact ⟨rfl, fun _ => rfl⟩
  | cons c t =>
    unfold alphanumeric
    simp only [Bool.true_and, if_true, forced_upper, List.take_succ_cons, List.take_zero, List.map_cons, List.map_nil, List.drop_succ_cons, List.drop_zero]
    have ih := alphanumeric_rest t
    refine ⟨by rw [ih.1]; rfl, fun h => ?_⟩
    rw [if_pos (alnum_of (h _ (by simp))), ih.2 fun c hc => h c (by simp [hc])]

/-- The name that is stored. -/
theorem prgmName_format (p : Format × Calc) (hp : p ∈ formats.zip formatTypes) {path base : Str} (h : LastPart path base) :
    (prgmName p.2 path).1 = p.1.spelt base ∧ ((p.1.checked = true → ∀ c ∈ p.1.spelt base, Alnum c) → (prgmName p.2 path).2 = 0) := by
  simp only [formats, formatTypes, List.zip_cons_cons, List.zip_nil_right, List.mem_cons, List.not_mem_nil, or_false] at hp
  rcases hp with rfl | rfl | rfl | rfl | rfl <;> unfold prgmName <;>
    simp only [reduceCtorEq, if_false, Calc.ix, Nat.reduceLT, if_true, progBase_last h]
  · exact ⟨(alphanumeric_force base).1, fun h => (alphanumeric_force base).2 (h trivial)⟩
  · exact ⟨(alphanumeric_force base).1, fun h => (alphanumeric_force base).2 (h trivial)⟩
  · exact ⟨(alphanumeric_force base).1, fun h => (alphanumeric_force base).2 (h trivial)⟩
  · exact ⟨(alphanumeric_first base).1, fun h => (alphanumeric_first base).2 (h trivial)⟩
  · exact ⟨rfl, fun _ => trivial⟩

/-- A program that needs no remark is exported without one. -/
theorem makePrgm_quiet (p : Format × Calc) (hp : p ∈ formats.zip formatTypes) {path base : Str} (h : LastPart path base) (bs : List Nat) (out : Nat → Nat)
    (hout : ∀ i b, bs[i]? = some b → out i = b) (hb : ∀ b ∈ bs, b < 256) (s : S) (hq : Unremarkable p.1 s.mode.ez80 (p.1.spelt base) bs) :
    makePrgm p.2 path out bs s = .ok (prgmBytes p.2 (p.1.spelt base) bs) s := by
  obtain ⟨h1, h2, h3⟩ := hq
  obtain ⟨n1, n2⟩ := prgmName_format p hp h
  have n2 := n2 fun hc => (h1 hc).1
  unfold makePrgm
  have e : prgmName p.2 path = (p.1.spelt base, 0) := Prod.ext n1 n2
  rw [e]
  dsimp only
  have hsize : prgmSize p.2 bs.length = ((p.1.content bs).length + 2 : Nat) := by
    clear n1 n2 e h1 h2 h3
    simp only [formats, formatTypes, List.zip_cons_cons, List.zip_nil_right, List.mem_cons, List.not_mem_nil, or_false] at hp
    have := length_flatMap_hexByte bs
    have hx := hexPairs_eq bs hb
    rw [hx] at this
    rcases hp with rfl | rfl | rfl | rfl | rfl <;> simp [prgmSize, this] <;> omega
  rw [hsize]
  have s1 : ¬ ((((p.1.content bs).length + 2 : Nat) : Int) > 65535) := by
    split at h2 <;> omega
  have s2 : ¬ ((((p.1.content bs).length + 2 : Nat) : Int) > 24575 ∧ (!s.mode.ez80) = true) := by
    rintro ⟨a, b⟩
    rw [if_neg (by simpa using b)] at h2
    omega
  have s3 : (decide (p.2.ix < 5 ∧ p.2 ≠ .t82P) && !isUpper (hd (p.1.spelt base))) = false := by
    by_cases hc : p.1.checked = true
    · obtain ⟨-, c, hc1, hc2⟩ := h1 hc
      cases hsp : p.1.spelt base with
      | nil => rw [hsp] at hc1; simp at hc1
      | cons a t =>
        rw [hsp] at hc1
        simp at hc1
        subst hc1
        have : isUpper a = true := by unfold isUpper; simpa using hc2
        show (_ && !isUpper a) = false
        rw [this]
        simp
    · clear n1 n2 e h1 h2 h3 s1 s2 hsize
      simp only [formats, formatTypes, List.zip_cons_cons, List.zip_nil_right, List.mem_cons, List.not_mem_nil, or_false] at hp
      rcases hp with rfl | rfl | rfl | rfl | rfl <;> first | exact absurd rfl hc | rfl
  have h8 : p.2 = .t8XP → p.1.ext = b! "8XP" := by
    clear n1 n2 e h1 h2 h3 s1 s2 s3 hsize
    simp only [formats, formatTypes, List.zip_cons_cons, List.zip_nil_right, List.mem_cons, List.not_mem_nil, or_false] at hp
    rcases hp with rfl | rfl | rfl | rfl | rfl <;> simp
  have pre : ∀ x y : Nat, [x, y] <+: bs → out 0 = x ∧ out 1 = y := by
    rintro x y ⟨r, rfl⟩
    exact ⟨hout 0 x rfl, hout 1 y rfl⟩
  have s4 : (decide (p.2 = .t8XP) && !s.mode.ez80 && !((out 0, out 1) == (0xBB, 0x6D)) && !((out 0, out 1) == (0xEF, 0x69))) = false := by
    by_cases hc : p.2 = .t8XP
    · obtain ⟨t, ht, hpre⟩ := h3 (h8 hc)
      cases hz : s.mode.ez80
      · rw [hz] at ht
        simp at ht
        rcases ht with rfl | rfl <;> obtain ⟨a, b⟩ := pre _ _ hpre <;> rw [a, b] <;> simp
      · simp
    · simp [hc]
  have s5 : (decide (p.2 = .t8XP) && s.mode.ez80 && !((out 0, out 1) == (0xEF, 0x7B))) = false := by
    by_cases hc : p.2 = .t8XP
    · obtain ⟨t, ht, hpre⟩ := h3 (h8 hc)
      cases hz : s.mode.ez80
      · simp
      · rw [hz] at ht
        simp at ht
        subst ht
        obtain ⟨a, b⟩ := pre _ _ hpre
        rw [a, b]
        simp
    · simp [hc]
  rw [show warnN 0 = pure () from rfl, M.pure_bind, M.get_bind, if_neg s1, if_neg s2, s3, s4, s5]
  rfl

end Spasm
