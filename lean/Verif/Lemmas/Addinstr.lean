import Verif.Spec.Addinstr
import Verif.Lemmas.Mnemonic
import Verif.Props.Directives

/-
Definitions of instructions: the words of .addinstr and the insertion into the instruction table.
-/

namespace Spasm
open Spec Props

theorem gap_stops {g : Str} (h : Gap g) (r : Str) : Stops [32, 9] (g ++ r) := by
  obtain ⟨c, b, rfl, hc, -⟩ := h
  right; left
  simp
  omega

theorem gap_blanks {g : Str} (h : Gap g) : Blanks g := by
  obtain ⟨c, b, rfl, hc, hb⟩ := h
  intro x hx
  rcases List.mem_cons.1 hx with rfl | hx
  · omega
  · exact hb x hx

theorem lineEnd_stops {rest : Str} (h : Spec.LineEnd rest) (d : Str) : Stops d rest := by
  left
  rcases h with rfl | ⟨c, r, rfl, hc⟩
  · rfl
  · unfold isEnd; simp; omega

/-- A word of a definition. -/
theorem readExpr_word (b w r : Str) (s : S) (hb : Blanks b) (hw : Column w) (hr : Stops [32, 9] r) :
    readExpr [32, 9] (b ++ w ++ r) true s = .ok (true, w, r) s := by
  obtain ⟨ha, ht, hl⟩ := hw
  obtain ⟨c, t, hat, h41, h92, h10, h13, h59⟩ := balanced_start ha ht.1
  have hblank : isBlank c = false := by
    have := ht.2.1 c (by rw [hat]; simp)
    rw [← isSpace_iff] at this
    unfold isBlank; simp [this]
  have hsk : skipWs (b ++ w ++ r) = w ++ r := by
    rw [show b ++ w ++ r = b ++ (w ++ r) by simp, skipWs_blanks b _ hb, hat, List.cons_append, skipWs_cons c _ hblank]
  unfold readExpr
  simp only [hsk]
  have h1 : (isEnd (w ++ r) || hd (w ++ r) == 41) = false := by
    rw [hat]; unfold isEnd hd; simp; omega
  simp only [h1, Bool.false_eq_true, if_false]
  rw [read_balanced true [32, 9] (by decide) ha _ [] r 0 (by omega) (fun h => by simp at h) (by simp; omega) (fun _ => by simpa using hl)]
  obtain ⟨f, hf⟩ : ∃ f, 3 * (w ++ r).length + 3 - w.length = f + 1 := ⟨_, by
    simp only [List.length_append]
    rw [show 3 * (w.length + r.length) + 3 - w.length = (2 * w.length + 3 * r.length + 2) + 1 by omega]⟩
  rw [hf, read_stop true [32, 9] f _ r hr]
  have := dropWhile_trim w [] ht (by simp [Blanks])
  simp only [List.append_nil] at this ⊢
  rw [this]

theorem readExpr_none (b r : Str) (s : S) (hb : Blanks b) (hr : Spec.LineEnd r) : readExpr [32, 9] (b ++ r) true s = .ok (false, [], r) s := by
  have hsk : skipWs (b ++ r) = r := by
    rw [skipWs_blanks b _ hb]
    rcases hr with rfl | ⟨c, r, rfl, hc⟩
    · rfl
    · rw [skipWs_cons]
      unfold isBlank isSpace
      simp
      omega
  unfold readExpr
  simp only [hsk]
  have : isEnd r = true := by
    rcases hr with rfl | ⟨c, r, rfl, hc⟩
    · rfl
    · unfold isEnd; simp; omega
  simp [this]

theorem skipToLineEnd_lineEnd {r : Str} (hr : Spec.LineEnd r) : skipToLineEnd false false r = r := by
  rcases hr with rfl | ⟨c, r, rfl, hc⟩
  · rfl
  · unfold skipToLineEnd
    rw [if_pos (by simp; omega)]

/-! ### The words -/

theorem column_alnum {w : Str} (h : ∀ c ∈ w, Alnum c) (hne : w ≠ []) (hl : w.length ≤ 254) : Column w := by
  refine ⟨?_, ⟨hne, ?_, ?_⟩, hl⟩
  · clear hne hl
    induction w with
    | nil => exact .nil _
    | cons c w ih =>
      have := h c (by simp)
      unfold Alnum at this
      exact .char _ _ _ (by unfold Ordinary; omega) (by simp; omega) (ih fun x hx => h x (by simp [hx]))
  · intro c hc
    have := h c (List.mem_of_mem_head? hc)
    unfold Alnum at this; unfold White; omega
  · intro c hc
    have := h c (List.mem_of_mem_getLast? hc)
    unfold Alnum at this; unfold White; omega

theorem hexBytes_digits {h bs : Str} (hb : HexBytes h bs) : (∀ c ∈ h, IsDigit 16 c) ∧ h.length = 2 * bs.length ∧ (∀ b ∈ bs, b < 256) := by
  induction hb with
  | nil => simp
  | cons h l x y t bs hx hy _ ih =>
    have lt : ∀ {c v : Nat}, digit c = some v → v < 16 := by
      intro c v h
      unfold digit at h
      repeat' split at h
      all_goals (simp at h; try omega)
    refine ⟨?_, ?_, ?_⟩
    · intro c hc
      simp only [List.mem_cons] at hc
      rcases hc with rfl | rfl | hc
      · exact ⟨x, hx, lt hx⟩
      · exact ⟨y, hy, lt hy⟩
      · exact ih.1 c hc
    · simp; omega
    · intro b hb
      simp only [List.mem_append, List.mem_singleton] at hb
      rcases hb with hb | rfl
      · exact ih.2.2 b hb
      · have := lt hx; have := lt hy; omega

theorem hexBytes_value {h bs : Str} (hb : HexBytes h bs) : ∀ V : Int, V % 256 ^ bs.length = (value 16 h : Int) % 256 ^ bs.length →
    instrBytes V 0 bs.length = bs := by
  have step : ∀ (n j : Nat) (V : Int) (l : Str), instrBytes V j n = l → ∀ x : Nat, ((V / 2 ^ (8 * (j + n))) % 256).toNat = x → instrBytes V j (n + 1) = l ++ [x] := by
    intro n
    induction n with
    | zero => intro j V l hl x hx; subst hl; subst hx; rfl
    | succ n ih =>
      intro j V l hl x hx
      unfold instrBytes at hl ⊢
      subst hl
      rw [ih (j + 1) V _ rfl x (by rw [← hx]; congr 4; omega)]
      rfl
  induction hb with
  | nil => intro V _; rfl
  | cons h l x y t bs hx hy ht ih =>
    intro V hV
    have hlen := (hexBytes_digits ht).2.1
    have lt : ∀ {c v : Nat}, digit c = some v → v < 16 := by
      intro c v h
      unfold digit at h
      repeat' split at h
      all_goals (simp at h; try omega)
    have hv : value 16 (h :: l :: t) = (16 * x + y) * 256 ^ bs.length + value 16 t := by
      rw [show value 16 (h :: l :: t) = (digit h).getD 0 * 16 ^ (l :: t).length + ((digit l).getD 0 * 16 ^ t.length + value 16 t) from rfl, hx, hy]
      simp only [Option.getD_some, List.length_cons]
      have e1 : (16 : Nat) ^ t.length = 256 ^ bs.length := by rw [hlen, Nat.pow_mul]
      rw [Nat.pow_succ, e1, Nat.add_mul]
      have : x * (256 ^ bs.length * 16) = 16 * x * 256 ^ bs.length := by
        rw [Nat.mul_comm (256 ^ bs.length) 16, ← Nat.mul_assoc, Nat.mul_comm x 16]
      omega
    have htv : value 16 t < 256 ^ bs.length := by
      have : ∀ u : Str, (∀ c ∈ u, IsDigit 16 c) → value 16 u < 16 ^ u.length := by
        intro u
        induction u with
        | nil => intro _; simp [value]
        | cons c u ih =>
          intro h
          obtain ⟨d, hd, hd'⟩ := h c (by simp)
          have := ih fun x hx => h x (by simp [hx])
          rw [show value 16 (c :: u) = (digit c).getD 0 * 16 ^ u.length + value 16 u from rfl, hd, List.length_cons, Nat.pow_succ]
          simp only [Option.getD_some]
          have : d * 16 ^ u.length ≤ 15 * 16 ^ u.length := Nat.mul_le_mul_right _ (by omega)
          omega
      have := this t (hexBytes_digits ht).1
      rw [hlen, Nat.pow_mul] at this
      exact this
    rw [List.length_append, List.length_singleton] at hV ⊢
    rw [hv] at hV
    have hP : (0 : Int) < 256 ^ bs.length := by positivity
    generalize hPP : (256 : Int) ^ bs.length = P at *
    have e0 : (256 : Int) ^ (bs.length + 1) = P * 256 := by rw [Int.pow_succ, hPP]
    have e3 : (((16 * x + y) * 256 ^ bs.length + value 16 t : Nat) : Int) = (16 * x + y) * P + value 16 t := by
      push_cast; rw [hPP]
    rw [e0, e3] at hV
    have htv' : (value 16 t : Int) < P := by rw [← hPP]; exact_mod_cast htv
    have hb : (16 * x + y : Int) < 256 := by have := lt hx; have := lt hy; omega
    have hsmall : ((16 * x + y) * P + value 16 t : Int) < P * 256 := by nlinarith
    have hnn : (0 : Int) ≤ (16 * x + y) * P + value 16 t := by positivity
    rw [Int.emod_eq_of_lt hnn hsmall] at hV
    -- V = q * (P * 256) + (16x+y) * P + t
    have hdecomp := Int.emod_add_mul_ediv V (P * 256)
    rw [hV] at hdecomp
    generalize V / (P * 256) = q at hdecomp
    refine step bs.length 0 V bs (ih V ?_) (16 * x + y) ?_
    · rw [← hdecomp]
      have : ((16 * (x : Int) + y) * P + value 16 t + P * 256 * q) = value 16 t + P * (16 * x + y + 256 * q) := by ring
      rw [this, Int.add_mul_emod_self_left]
    · have e4 : (2 : Int) ^ (8 * (0 + bs.length)) = P := by
        rw [Nat.zero_add, Int.pow_mul, ← hPP]; rfl
      rw [e4, ← hdecomp]
      have : ((16 * (x : Int) + y) * P + value 16 t + P * 256 * q) = value 16 t + P * (16 * x + y + 256 * q) := by ring
      rw [this, Int.add_mul_ediv_left _ _ (by omega), Int.ediv_eq_zero_of_lt (by omega) htv', Int.zero_add]
      omega

theorem convHex_bytes {h bs : Str} (hb : HexBytes h bs) (hne : bs ≠ []) (hl : bs.length ≤ 4) (s : S) :
    ∃ v, convHex h h.length s = .ok (some v) s ∧ instrBytes v 0 bs.length = bs ∧ v % 256 = value 16 h % 256 := by
  obtain ⟨h1, h2, h3⟩ := hexBytes_digits hb
  have hval : value 16 h < 16 ^ h.length := by
    clear h2 h3 hb hne hl
    induction h with
    | nil => simp [value]
    | cons c u ih =>
      obtain ⟨d, hd, hd'⟩ := h1 c (by simp)
      have := ih fun x hx => h1 x (by simp [hx])
      rw [show value 16 (c :: u) = (digit c).getD 0 * 16 ^ u.length + value 16 u from rfl, hd, List.length_cons, Nat.pow_succ]
      simp only [Option.getD_some]
      have : d * 16 ^ u.length ≤ 15 * 16 ^ u.length := Nat.mul_le_mul_right _ (by omega)
      omega
  have hmax : value 16 h ≤ 4294967295 := by
    have : (16 : Nat) ^ h.length ≤ 16 ^ 8 := Nat.pow_le_pow_right (by decide) (by omega)
    have e : (16 : Nat) ^ 8 = 4294967296 := by decide
    omega
  have hne' : h ≠ [] := by
    intro h0
    rw [h0] at h2
    have : bs.length = 0 := by simp at h2; simp [h2]
    exact hne (List.length_eq_zero_iff.1 this)
  have hs := strtoll_digits 16 (by decide) h [] hne' h1 (.inr rfl) (by simp [hd])
  rw [List.append_nil] at hs
  have hmod : ∀ n ≤ 4, toI32 (value 16 h) % 256 ^ n = (value 16 h : Int) % 256 ^ n := by
    intro n hn
    unfold toI32
    have : n = 0 ∨ n = 1 ∨ n = 2 ∨ n = 3 ∨ n = 4 := by omega
    rcases this with rfl | rfl | rfl | rfl | rfl <;> norm_num <;> omega
  refine ⟨toI32 (value 16 h), ?_, hexBytes_value hb _ (hmod _ hl), hmod 1 (by decide)⟩
  unfold convHex convGeneric
  rw [hs]
  simp only [Nat.lt_irrefl, if_false]
  rw [if_neg (by unfold intMin; omega)]
  rfl

theorem reduce_plain (k : Rec) {w pat : Str} (h : PatternText w pat) (s : S) : reduceString k w s = .ok pat s := by
  obtain ⟨hw, hp, hor⟩ := h
  have loop : ∀ (u out : Str) (q : Nat), (∀ c ∈ u, c ≠ 92) → reduceLoop k u out q s = .ok (u.reverse ++ out, q + u.count 34) s := by
    intro u
    induction u with
    | nil => intro out q _; rfl
    | cons c u ih =>
      intro out q hu
      have hc := hu c (by simp)
      cases u with
      | nil =>
        unfold reduceLoop
        rw [if_neg (by simpa using hc)]
        by_cases h34 : c = 34
        · subst h34; rfl
        · simp [h34]
      | cons d u =>
        unfold reduceLoop
        rw [if_neg (by simpa using hc), ih _ _ (fun x hx => hu x (by simp [hx]))]
        by_cases h34 : c = 34
        · subst h34; simp; omega
        · simp [h34, List.count_cons]
  have hcount : pat.count 34 = 0 := List.count_eq_zero.2 fun h => (hp 34 h).1 rfl
  have tk : ∀ u : Str, (∀ c ∈ u, c ≠ 0) → u.takeWhile (fun c => c != 0) = u := by
    intro u
    induction u with
    | nil => intro _; rfl
    | cons c u ih => intro h; rw [List.takeWhile_cons_of_pos (by simpa using h c (by simp)), ih fun x hx => h x (by simp [hx])]
  unfold reduceString
  rcases hor with rfl | rfl
  · rw [M.bind_ok (loop _ _ _ fun c hc => (hp c hc).2.1)]
    dsimp only
    rw [List.append_nil, List.reverse_reverse, tk _ fun c hc => (hp c hc).2.2, hcount, if_neg (by simp)]
    rfl
  · rw [M.bind_ok (loop _ _ _ (by
      intro c hc
      simp only [List.cons_append, List.mem_cons, List.mem_append, List.not_mem_nil, or_false] at hc
      rcases hc with rfl | hc | rfl
      · decide
      · exact (hp c hc).2.1
      · decide))]
    dsimp only
    rw [List.append_nil, List.reverse_reverse, tk _ (by
      intro c hc
      simp only [List.cons_append, List.mem_cons, List.mem_append, List.not_mem_nil, or_false] at hc
      rcases hc with rfl | hc | rfl
      · decide
      · exact (hp c hc).2.2
      · decide)]
    have : (34 :: pat ++ [34]).count 34 = 2 := by simp [List.count_cons, List.count_append, hcount]
    rw [this, if_pos (by simp [hd])]
    show Res.ok (List.drop 1 (34 :: pat ++ [34]).dropLast) s = _
    rw [List.dropLast_concat]
    rfl

theorem fixWild_one (left : Int) (pat : Str) (h : pat.count 42 ≤ 1) : fixWild left pat = widen left pat := by
  have none : ∀ (l : Int) (p : Str), p.count 42 = 0 → fixWild l p = p ∧ p.map (fun c => if c = 42 then 38 else c) = p := by
    intro l p
    induction p generalizing l with
    | nil => intro _; exact ⟨rfl, rfl⟩
    | cons c p ih =>
      intro hp
      rw [List.count_cons] at hp
      have hc : c ≠ 42 := by rintro rfl; simp at hp
      have := ih l (by omega)
      unfold fixWild
      simp [hc, this.1]
      simpa using this.2
  induction pat generalizing left with
  | nil => unfold widen; simp [fixWild]
  | cons c p ih =>
    unfold fixWild
    by_cases hc : c = 42
    · subst hc
      have h0 : p.count 42 = 0 := by rw [List.count_cons] at h; simp at h; exact h
      rw [(none _ p h0).1]
      unfold widen
      by_cases hl : left = 2
      · simp [hl]
      · rw [if_neg hl, List.map_cons, (none 0 p h0).2]
        simp [hl]
    · rw [List.count_cons] at h
      have := ih left (by omega)
      rw [this]
      unfold widen
      simp only [beq_iff_eq, hc, if_false]
      split <;> simp [hc]

/-! ### The table -/

theorem insertOpcode_entries (o : Opcode) (n : Str) (ops : List Opcode) :
    entriesOf n (insertOpcode o ops) = (if SameText o.name n then o.instrs else []) ++ entriesOf n ops := by
  induction ops with
  | nil =>
    unfold insertOpcode entriesOf
    by_cases h : SameText o.name n <;> simp [h]
  | cons p ps ih =>
    unfold insertOpcode
    have hsame : SameText o.name p.name → (SameText o.name n ↔ SameText p.name n) := by
      intro h
      unfold SameText at *
      rw [h]
    by_cases he : eqCase o.name p.name = true
    · rw [if_pos he]
      rw [eqCase_sameText] at he
      unfold entriesOf
      by_cases h : SameText o.name n
      · have hp := (hsame he).1 h
        simp [h, hp]
      · have hp : ¬ SameText p.name n := fun hp => h ((hsame he).2 hp)
        simp [h, hp]
    · rw [if_neg he]
      rw [eqCase_sameText] at he
      unfold entriesOf at ih ⊢
      by_cases hp : SameText p.name n
      · have ho : ¬ SameText o.name n := by
          intro ho
          exact he (by unfold SameText at *; rw [ho, hp])
        rw [if_neg ho, List.nil_append]
        -- insertion behind `p` does not change the group of `p`
        have key : ∀ qs : List Opcode, ((insertOpcode o qs).takeWhile (fun q => decide (SameText q.name n))).flatMap (·.instrs) =
            (qs.takeWhile (fun q => decide (SameText q.name n))).flatMap (·.instrs) := by
          intro qs
          induction qs with
          | nil => simp [insertOpcode, ho]
          | cons q qs ihq =>
            unfold insertOpcode
            by_cases hq : eqCase o.name q.name = true
            · rw [if_pos hq]
              rw [eqCase_sameText] at hq
              have hqn : ¬ SameText q.name n := fun hqn => ho (by unfold SameText at *; rw [hq, hqn])
              simp [ho, hqn]
            · rw [if_neg hq]
              by_cases hqn : SameText q.name n
              · simp [hqn, ihq]
              · simp [hqn]
        simp [hp, key]
      · simp only [hp, List.dropWhile_cons, decide_false, Bool.not_false, if_true]
        exact ih

theorem insertOpcode_mem (o q : Opcode) (ops : List Opcode) : q ∈ insertOpcode o ops ↔ q = o ∨ q ∈ ops := by
  induction ops with
  | nil => simp [insertOpcode]
  | cons p ps ih =>
    unfold insertOpcode
    split
    · simp
    · simp [ih]; grind

end Spasm
