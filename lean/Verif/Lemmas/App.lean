import Verif.Lemmas.Export

/-
Lemmas about applications: the length of the hex text, the header fields, the size of the signature.
-/

namespace Spasm
open Spec

/-! ### Length of the hex text -/

/-- Characters of the data records for `k` bytes. -/
def recChars (k : Nat) : Nat := 77 * (k / 32) + if k % 32 ≠ 0 then k % 32 * 2 + 13 else 0

theorem length_flatMap_hexByte (bs : List Nat) : (bs.flatMap hexByte).length = 2 * bs.length := by
  induction bs with
  | nil => rfl
  | cons b t ih => rw [List.flatMap_cons, List.length_append, ih, List.length_cons]; simp [hexByte]; omega

theorem length_hexRecord (address : Nat) (data : List Nat) (ha : address < 65536) (hl : data.length < 256) :
    (hexRecord address data).length = 2 * data.length + 13 := by
  rw [hexRecord_eq address data ha hl, List.length_append, List.length_cons, length_flatMap_hexByte]
  simp; omega

theorem length_pageRecord (page : Nat) (h : page < 65536) : (pageRecord page).length = 17 := by
  rw [pageRecord_eq page h, List.length_append, List.length_cons, length_flatMap_hexByte]
  rfl

theorem hexRecords_rest : ∀ (n address : Nat) (bs : List Nat), (hexRecords n address bs).2 = bs.drop (32 * n) := by
  intro n
  induction n with
  | zero => intro address bs; rfl
  | succ n ih =>
    intro address bs
    rw [hexRecords]
    cases bs with
    | nil => simp
    | cons b t =>
      simp only [List.isEmpty_cons, Bool.false_eq_true, if_false]
      rw [ih, List.drop_drop]; congr 1; omega

theorem length_hexRecords : ∀ (n address : Nat) (bs : List Nat), address + 32 * n ≤ 65536 →
    (hexRecords n address bs).1.length = recChars (min bs.length (32 * n)) := by
  intro n
  induction n with
  | zero => intro address bs _; simp [hexRecords, recChars]
  | succ n ih =>
    intro address bs ha
    rw [hexRecords]
    cases bs with
    | nil => simp [recChars]
    | cons b t =>
      simp only [List.isEmpty_cons, Bool.false_eq_true, if_false]
      rw [List.length_append, ih _ _ (by omega), length_hexRecord _ _ (by omega) (by simp; omega),
        List.length_take, List.length_drop]
      have hL : 0 < (b :: t).length := by simp
      generalize (b :: t).length = L at hL
      by_cases h : L < 32
      · have e1 : min 32 L = L := by omega
        have e2 : L - 32 = 0 := by omega
        have e3 : min L (32 * (n + 1)) = L := by omega
        rw [e1, e2, e3]
        simp only [Nat.zero_min, recChars]
        rw [if_pos (show L % 32 ≠ 0 by omega), if_neg (by omega)]; omega
      · have e1 : min 32 L = 32 := by omega
        have e3 : min L (32 * (n + 1)) = 32 + min (L - 32) (32 * n) := by omega
        rw [e1, e3]
        generalize min (L - 32) (32 * n) = m
        unfold recChars
        have e4 : (32 + m) / 32 = 1 + m / 32 := by omega
        have e5 : (32 + m) % 32 = m % 32 := by omega
        rw [e4, e5]; omega

theorem page_step (page L P X Y : Nat) (h : page < Y) (hp : page * P + L ≤ X)
    (hX : Y * P ≤ X) : (page + 1) * P + (L - P) ≤ X := by
  have h4 : (page + 1) * P ≤ Y * P := Nat.mul_le_mul_right _ h
  rw [Nat.succ_mul] at *
  omega

theorem length_hexPages : ∀ (f page : Nat) (bs : List Nat), bs.length < f → page * 16384 + bs.length ≤ 1073741824 →
    (hexPages 0x4000 f page bs).length = recChars bs.length + 17 * pagesOf bs.length := by
  intro f
  induction f with
  | zero => intro page bs h; omega
  | succ f ih =>
    intro page bs hf hp
    rw [hexPages]
    cases bs with
    | nil => simp [recChars, pagesOf]
    | cons b t =>
      simp only [List.isEmpty_cons, Bool.false_eq_true, if_false]
      have hL : 0 < (b :: t).length := by simp
      rw [List.length_append, List.length_append]
      generalize b :: t = bs at *
      have e1 := length_hexRecords 512 0x4000 bs (by omega)
      have e2 := hexRecords_rest 512 0x4000 bs
      generalize hP : 32 * 512 = P at e1 e2
      have hP' : P = 16384 := by omega
      rw [e1, e2]
      clear e1 e2
      have hd : (bs.drop P).length = bs.length - P := List.length_drop
      have h1 : (bs.drop P).length < f := by omega
      have h3 : page < 65536 := by omega
      have h2 : (page + 1) * 16384 + (bs.drop P).length ≤ 1073741824 := by
        rewrite [hd, hP']
        exact page_step page bs.length 16384 1073741824 65536 h3 hp (by decide)
      rw [ih (page + 1) (bs.drop P) h1 h2,
        length_pageRecord _ h3, List.length_drop]
      generalize bs.length = L at *
      unfold recChars pagesOf
      by_cases h : L ≤ P
      · rw [Nat.min_eq_left h]
        have : L - P = 0 := by omega
        rw [this]
        have e : (L + 16383) / 16384 = 1 := by omega
        rw [e]
        simp only [Nat.zero_div, Nat.zero_mod]
        simp
        omega
      · rw [Nat.min_eq_right (by omega)]
        have e1 : (L + 16383) / 16384 = 1 + (L - P + 16383) / 16384 := by omega
        have e2 : L % 32 = (L - P) % 32 := by omega
        have e3 : L / 32 = 512 + (L - P) / 32 := by omega
        have e4 : P / 32 = 512 := by omega
        have e5 : P % 32 = 0 := by omega
        rw [e1, e2, e3, e4, e5]
        simp only [ne_eq, not_true_eq_false, if_false]
        omega

theorem length_intelHex (bytes : List Nat) (h : bytes.length ≤ 1073741824) :
    (intelHex bytes).length = recChars bytes.length + 17 * pagesOf bytes.length + 11 := by
  unfold intelHex
  rw [List.length_append, length_hexPages _ _ _ (by omega) (by omega)]
  rfl

/-! ### The signature -/

theorem length_leBytes : ∀ (f n k : Nat), n < 256 ^ (k + 1) → (leBytes f n).length ≤ k + 1 := by
  intro f
  induction f with
  | zero => intro n k _; simp [leBytes]
  | succ f ih =>
    intro n k h
    rw [leBytes]
    split
    · simp
    · rename_i h'
      cases k with
      | zero => simp at h; omega
      | succ k =>
        rw [List.length_cons]
        have : n / 256 < 256 ^ (k + 1) := by
          rw [Nat.div_lt_iff_lt_mul (by omega)]
          rw [Nat.pow_succ] at h; exact h
        have := ih _ _ this
        omega

theorem sigRoot_lt (m : Nat) : sigRoot m < leNat pbuf * leNat qbuf := by
  unfold sigRoot
  dsimp only
  have hp : 0 < leNat pbuf := by decide +kernel
  have hq : 0 < leNat qbuf := by decide +kernel
  generalize leNat pbuf = p at *
  generalize leNat qbuf = q at *
  have hs : powMod m (leNat q14buf) q < q := Nat.mod_lt _ hq
  have ht : ((((powMod m (leNat p14buf) p : Nat) : Int) - (powMod m (leNat q14buf) q : Nat)) * leNat qpowpbuf %
      (p : Int)).toNat < p := by
    have h1 := Int.emod_nonneg ((((powMod m (leNat p14buf) p : Nat) : Int) - (powMod m (leNat q14buf) q : Nat)) *
      leNat qpowpbuf) (show (p : Int) ≠ 0 by omega)
    have h2 := Int.emod_lt_of_pos ((((powMod m (leNat p14buf) p : Nat) : Int) - (powMod m (leNat q14buf) q : Nat)) *
      leNat qpowpbuf) (show (0 : Int) < p by omega)
    omega
  generalize ((((powMod m (leNat p14buf) p : Nat) : Int) - (powMod m (leNat q14buf) q : Nat)) * leNat qpowpbuf %
      (p : Int)).toNat = t at *
  generalize powMod m (leNat q14buf) q = s at *
  calc t * q + s < t * q + q := by omega
    _ = (t + 1) * q := (Nat.succ_mul t q).symm
    _ ≤ p * q := Nat.mul_le_mul_right q ht

theorem length_siggen (hash : List Nat) : (siggen hash).1.length ≤ 65 := by
  unfold siggen sigNumber
  dsimp only
  apply length_leBytes _ _ 64
  refine Nat.lt_of_lt_of_le (sigRoot_lt _) ?_
  decide +kernel

theorem length_sigBlock (sig : List Nat) (f : Nat) (h : sig.length ≤ 91) : (sigBlock sig f).length = 96 := by
  unfold sigBlock
  dsimp only
  rw [List.length_append, List.length_replicate]
  have : ([0x02, 0x2d, sig.length % 256] ++ sig ++ (if f ≠ 0 then [1, f % 256] else [0])).length ≤ 96 := by
    split <;> simp <;> omega
  omega

theorem bytes_leBytes : ∀ (f n : Nat), ∀ b ∈ leBytes f n, b < 256 := by
  intro f
  induction f with
  | zero => intro n b hb; simp [leBytes] at hb
  | succ f ih =>
    intro n b hb
    rw [leBytes] at hb
    split at hb
    · simp at hb; omega
    · rcases List.mem_cons.mp hb with rfl | hb
      · omega
      · exact ih _ _ hb

theorem bytes_sigBlock (sig : List Nat) (f : Nat) (h : ∀ b ∈ sig, b < 256) : ∀ b ∈ sigBlock sig f, b < 256 := by
  intro b hb
  unfold sigBlock at hb
  dsimp only at hb
  simp only [List.mem_append, List.mem_cons, List.mem_replicate, List.not_mem_nil, or_false] at hb
  rcases hb with ((((rfl | rfl | rfl) | hb)) | hb) | ⟨_, rfl⟩
  · omega
  · omega
  · omega
  · exact h b hb
  · split at hb
    · simp at hb; omega
    · simp at hb; omega
  · omega

/-! ### Header fields -/

/-- No field can start at or after position N, and there is room after it. -/
structure Padded (b : List Nat) (N : Nat) : Prop where
  room : N + 40 ≤ b.length
  none : ∀ i, N ≤ i → b[i]? ≠ some 0x80

theorem bufAt_ok {b : List Nat} {i : Nat} (h : i < b.length) (s : S) : bufAt b i s = .ok (b.getD i 0) s := by
  unfold bufAt
  rw [List.getElem?_eq_getElem h]
  simp [List.getD_eq_getElem?_getD, List.getElem?_eq_getElem h]

/-- The search ends, within the buffer; a hit is a field, and anyone who agrees on the bytes up to the hit
finds the same. -/
theorem findFieldLoop_ok (hit : Nat → Bool) (b : List Nat) (N : Nat) (hb : Padded b N) :
    ∀ (f pnt : Nat), b.length < f + pnt → pnt ≤ N + 17 → ∃ r, (∀ s, findFieldLoop hit b f pnt s = .ok r s) ∧
      (∀ q v, r = some (q, v) → pnt + 2 ≤ q ∧ q ≤ N + 1 ∧ b[q - 1]? = some v ∧ hit v = true ∧ ∀ (b2 : List Nat) (n : Nat),
        (∀ i, pnt ≤ i → i < q → b2[i]? = b[i]?) → q ≤ n + pnt → fieldIn hit n (b2.drop pnt) = some (b2.drop q)) := by
  intro f
  induction f with
  | zero => intro pnt h1 h2; have := hb.room; omega
  | succ f ih =>
    intro pnt h1 h2
    have hroom := hb.room
    have hget : ∀ i, i < b.length → b[i]? = some (b.getD i 0) := by
      intro i hi
      rw [List.getD_eq_getElem?_getD, List.getElem?_eq_getElem hi]; rfl
    by_cases h80 : b.getD pnt 0 = 0x80
    · have hpN : pnt < N := by
        apply Nat.lt_of_not_le
        intro hle
        exact hb.none pnt hle (by rw [hget _ (by omega), h80])
      have hstep : ∀ s, findFieldLoop hit b (f + 1) pnt s =
          (if hit (b.getD (pnt + 1) 0) then (pure (some (pnt + 2, b.getD (pnt + 1) 0)) : M _)
            else findFieldLoop hit b f (pnt + 1 + b.getD (pnt + 1) 0 % 16 + 1)) s := by
        intro s
        rw [findFieldLoop, M.bind_ok (bufAt_ok (by omega) s), h80]
        simp only [bne_self_eq_false, Bool.false_eq_true, if_false]
        rw [M.bind_ok (bufAt_ok (by omega) s)]
      have hdrop : ∀ (b2 : List Nat) (q : Nat), pnt + 2 ≤ q → (∀ i, pnt ≤ i → i < q → b2[i]? = b[i]?) →
          b2.drop pnt = 0x80 :: b.getD (pnt + 1) 0 :: b2.drop (pnt + 2) := by
        intro b2 q hq hag
        have e1 := hag pnt (by omega) (by omega)
        have e2 := hag (pnt + 1) (by omega) (by omega)
        rw [hget _ (by omega)] at e1 e2
        rw [h80] at e1
        obtain ⟨l1, g1⟩ := List.getElem?_eq_some_iff.mp e1
        obtain ⟨l2, g2⟩ := List.getElem?_eq_some_iff.mp e2
        rw [List.drop_eq_getElem_cons l1, g1, List.drop_eq_getElem_cons l2, g2]
      cases hv : hit (b.getD (pnt + 1) 0) with
      | true =>
        refine ⟨some (pnt + 2, b.getD (pnt + 1) 0), ?_, ?_⟩
        · intro s; rw [hstep, hv]; rfl
        · intro q v e
          injection e with e; injection e with e1 e2
          subst e1 e2
          refine ⟨by omega, by omega, ?_, hv, ?_⟩
          · exact hget _ (by omega)
          · intro b2 n hag hn
            obtain ⟨n, rfl⟩ : ∃ m, n = m + 1 := ⟨n - 1, by omega⟩
            rw [hdrop b2 _ (Nat.le_refl _) hag]
            simp only [fieldIn]
            rw [if_pos hv]
      | false =>
        obtain ⟨r, h3, h4⟩ := ih (pnt + 1 + b.getD (pnt + 1) 0 % 16 + 1) (by omega) (by omega)
        refine ⟨r, ?_, ?_⟩
        · intro s; rw [hstep, hv]; exact h3 s
        · intro q v e
          obtain ⟨a1, a2, a3, a4, a5⟩ := h4 q v e
          refine ⟨by omega, a2, a3, a4, ?_⟩
          intro b2 n hag hn
          obtain ⟨n, rfl⟩ : ∃ m, n = m + 1 := ⟨n - 1, by omega⟩
          rw [hdrop b2 q (by omega) hag]
          simp only [fieldIn]
          rw [if_neg (by rw [hv]; decide), List.drop_drop]
          have := a5 b2 n (fun i h1 h2 => hag i (by omega) h2) (by omega)
          rw [← this]
          congr 2; omega
    · refine ⟨none, ?_, fun q v e => by cases e⟩
      intro s
      rw [findFieldLoop, M.bind_ok (bufAt_ok (by omega) s)]
      rw [if_pos (by simp only [bne_iff_ne, ne_eq]; exact h80)]
      rfl

/-- What an accepted application becomes before signing. -/
structure Patched (bytes b : List Nat) (pages : Nat) (name : List Nat) (q : Nat) : Prop where
  length : b.length = bytes.length + 256
  pagesEq : pages = appPages bytes.length
  nameLen : name.length ≤ 8
  bytesOk : ∀ x ∈ b, x < 256
  room : ¬ ((bytes.length + 96) % 16384 ≠ 0 ∧ (bytes.length + 96) % 16384 < 97 ∧ bytes.length > 16384)
  field : 8 ≤ q ∧ q ≤ bytes.length
  page : b[q]? = some (pages % 256)
  head : b.take 6 = [0x80, 0x0F] ++ be32 ((bytes.length + 4294967296 - 6) % 4294967296)
  same : ∀ i, 6 ≤ i → i ≠ q → i < bytes.length → b[i]? = bytes[i]?
  found : ∀ (b2 : List Nat) (n : Nat), (∀ i, 6 ≤ i → i < q → b2[i]? = b[i]?) → q ≤ n + 6 →
    fieldIn (fun v => v == 0x81) n (b2.drop 6) = some (b2.drop q)

theorem quiet_of_ok {α : Type} {m : M α} {r : α} {P : α → Prop} (h : ∀ s, m s = .ok r s) (hP : P r) : Smooth m P :=
  ⟨fun s => ⟨r, s, h s, hP⟩⟩

theorem bytes_be32 (n : Nat) : ∀ x ∈ be32 n, x < 256 := by
  intro x hx
  simp only [be32, List.mem_cons, List.not_mem_nil, or_false] at hx
  rcases hx with rfl | rfl | rfl | rfl <;> omega

theorem quiet_bufAt {b : List Nat} {i : Nat} (h : i < b.length) : Smooth (bufAt b i) Any :=
  ⟨fun s => ⟨_, s, bufAt_ok h s, trivial⟩⟩

theorem quiet_patchApp (bytes : List Nat) (hb : ∀ b ∈ bytes, b < 256) :
    Smooth (patchApp bytes) (fun r => ∀ b pages name, r = some (b, pages, name) → ∃ q, Patched bytes b pages name q) := by
  have bad : ∀ c, Smooth (do setError c; pure none : M (Option (List Nat × Nat × List Nat)))
      (fun r => ∀ b pages name, r = some (b, pages, name) → ∃ q, Patched bytes b pages name q) :=
    fun c => .bind (quiet_setError c) fun _ _ => .pure _ (fun _ _ _ e => by cases e)
  unfold patchApp
  dsimp only
  by_cases hroom : (bytes.length + 96) % 16384 ≠ 0 ∧ (bytes.length + 96) % 16384 < 97 ∧ bytes.length > 16384
  · rw [if_pos hroom]; exact bad _
  rw [if_neg hroom]
  refine .bind (quiet_when _ _ (quiet_setWarning _)) fun _ _ => ?_
  have hZl : (List.replicate 256 0).length = 256 := List.length_replicate
  have hZg : ∀ i, i < 256 → (List.replicate 256 0)[i]? = some 0 := by
    intro i hi; rw [List.getElem?_replicate, if_pos hi]
  have hZm : ∀ x ∈ List.replicate 256 0, x = 0 := fun x hx => List.eq_of_mem_replicate hx
  generalize List.replicate 256 0 = Z at *
  by_cases h80 : (bytes ++ Z).take 2 = [0x80, 0x0F]
  swap
  · rw [if_pos (by simpa using h80)]; exact bad _
  rw [if_neg (by simpa using h80)]
  have hL2 : 2 ≤ bytes.length := by
    have hz0 := hZg 0 (by omega)
    match bytes, h80 with
    | [], h =>
      cases Z with
      | nil => simp at hZl
      | cons z Z => simp at hz0 h; omega
    | [a], h =>
      cases Z with
      | nil => simp at hZl
      | cons z Z => simp at hz0 h; omega
    | a :: b :: t, _ => simp
  generalize hB : [0x80, 0x0F] ++ be32 ((bytes.length + 4294967296 - 6) % 4294967296) ++
    (bytes ++ Z).drop 6 = B
  have hBlen : B.length = bytes.length + 256 := by
    rw [← hB]; simp [be32]; omega
  have hBget : ∀ i, 6 ≤ i → B[i]? = (bytes ++ Z)[i]? := by
    intro i hi
    rw [← hB, List.getElem?_append_right (by simp [be32]; omega), List.getElem?_drop]
    congr 1; simp [be32]; omega
  have hBbytes : ∀ x ∈ B, x < 256 := by
    intro x hx
    rw [← hB] at hx
    rcases List.mem_append.mp hx with hx | hx
    · rcases List.mem_append.mp hx with hx | hx
      · simp at hx; omega
      · exact bytes_be32 _ x hx
    · rcases List.mem_append.mp (List.mem_of_mem_drop hx) with hx | hx
      · exact hb x hx
      · have := hZm x hx; omega
  have hBzero : ∀ i, 6 ≤ i → bytes.length ≤ i → i < bytes.length + 256 → B[i]? = some 0 := by
    intro i h6 h1 h2
    rw [hBget i h6, List.getElem?_append_right h1, hZg _ (by omega)]
  have hpad : Padded B (bytes.length + 6) := by
    refine ⟨by omega, ?_⟩
    intro i hi h
    by_cases hlt : i < bytes.length + 256
    · rw [hBzero i (by omega) (by omega) hlt] at h; cases h
    · rw [List.getElem?_eq_none (by omega)] at h; cases h
  -- program type
  clear hZg hZm
  obtain ⟨r1, f1, g1⟩ := findFieldLoop_ok (fun v => v == 0x12) B _ hpad (B.length + 1) 6 (by omega) (by omega)
  refine .bind (P := fun r => r = r1) (quiet_of_ok f1 rfl) ?_
  intro r hr; rw [hr]; clear hr r
  cases r1 with
  | none => exact bad _
  | some p =>
    obtain ⟨q1, v1⟩ := p
    obtain ⟨a1, a2, -⟩ := g1 q1 v1 rfl
    dsimp only
    refine .bind (quiet_bufAt (by omega)) fun v _ => .bind (quiet_bufAt (by omega)) fun w _ => ?_
    by_cases hvw : v ≠ 1 ∨ w ≠ 4
    · rw [if_pos hvw]; exact bad _
    rw [if_neg hvw]
    -- pages
    obtain ⟨r2, f2, g2⟩ := findFieldLoop_ok (fun v => v == 0x81) B _ hpad (B.length + 1) 6 (by omega) (by omega)
    refine .bind (P := fun r => r = r2) (quiet_of_ok f2 rfl) ?_
    intro r hr; rw [hr]; clear hr r
    cases r2 with
    | none => exact bad _
    | some p =>
      obtain ⟨q, v⟩ := p
      obtain ⟨c1, c2, c3, c4, c5⟩ := g2 q v rfl
      have hv : v = 0x81 := by simpa using c4
      subst hv
      have hq : q ≤ bytes.length := by
        apply Nat.le_of_not_lt
        intro hlt
        rw [hBzero (q - 1) (by omega) (by omega) (by omega)] at c3
        cases c3
      dsimp only
      refine .bind (quiet_bufAt (by omega)) fun _ _ => ?_
      generalize hpg : appPages bytes.length = pages
      have hpad2 : Padded (B.set q (pages % 256)) (bytes.length + 6) := by
        refine ⟨by simp; omega, ?_⟩
        intro i hi h
        rw [List.getElem?_set_ne (by omega)] at h
        exact hpad.none i hi h
      obtain ⟨r3, f3, g3⟩ := findFieldLoop_ok (fun v => v / 16 == 0x40 / 16) (B.set q (pages % 256)) _ hpad2
        ((B.set q (pages % 256)).length + 1) 6 (by omega) (by omega)
      refine .bind (P := fun r => r = r3) (quiet_of_ok f3 rfl) ?_
      intro r hr; rw [hr]; clear hr r
      cases r3 with
      | none => exact bad _
      | some p =>
        obtain ⟨q3, v3⟩ := p
        obtain ⟨d1, d2, -⟩ := g3 q3 v3 rfl
        dsimp only
        rw [if_pos (by rw [List.length_set]; split <;> omega)]
        refine .pure _ ?_
        intro b pages' name e
        injection e with e; injection e with e1 e; injection e with e2 e3
        subst e1 e2
        refine ⟨q, ?_⟩
        constructor
        · simp [hBlen]
        · exact hpg.symm
        · rw [← e3, List.length_take]; split <;> omega
        · intro x hx
          rcases List.mem_or_eq_of_mem_set hx with hx | rfl
          · exact hBbytes x hx
          · omega
        · exact hroom
        · exact ⟨by omega, hq⟩
        · rw [List.getElem?_set_self (by omega)]
        · rw [List.take_set_of_le (by omega), ← hB, List.take_left' (by simp [be32])]
        · intro i h6 hne hi
          rw [List.getElem?_set_ne (by omega), hBget i h6, List.getElem?_append_left hi]
        · intro b2 n hag hn
          apply c5 b2 n _ hn
          intro i h6 hi
          rw [hag i h6 hi, List.getElem?_set_ne (by omega)]

end Spasm
