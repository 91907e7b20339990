import Verif.Lemmas.App

/-
Lemmas about calculator program files and applications as whole files.
-/

namespace Spasm
open Spec

/-- The name field of the variable header with what surrounds it. -/
def nameField (ct : Calc) (name : Str) : List Out :=
  (if ct.ix ≥ 5 then [cnt (if ct.ix ≥ 7 then 0x0C else 0x12), cnt name.length]
      else [cnt (if ct ≠ .t8XV then 6 else 0x15)])
  ++ (name.take 8).map (fun c : Nat => cnt c)
  ++ (if ct ≠ .t85P ∧ ct ≠ .t85S then List.replicate (8 - name.length) (raw 0) else [])
  ++ (if ct = .t8XP ∨ ct = .t8XV then [raw 0, raw 0] else [])

theorem prgmVarHeader_eq (ct : Calc) (name : Str) (size : Int) :
    prgmVarHeader ct name size =
      [if ct = .t85P then cnt (6 + name.length) else cnt ((typeBytes ct).getD 3 0), raw 0, cnt size, cnt (size / 256)]
      ++ nameField ct name ++ [cnt size, cnt (size / 256), cnt (size - 2), cnt ((size - 2) / 256)] := by
  unfold prgmVarHeader nameField
  simp only [List.append_assoc]

/-- The size of the variable: program bytes, prefixes and the two bytes of their length. -/
def varSize (ct : Calc) (n : Nat) : Int := prgmSize ct n + if ct = .t82P then 3 else 0

/-- The length field of the file. -/
def dataSize (ct : Calc) (name : Str) (n : Nat) : Int :=
  if ct = .t85P then varSize ct n + 8 + name.length
  else varSize ct n + 15 + (if ct = .t8XP ∨ ct = .t8XV then 2 else 0) + (if ct = .t86P then 1 else 0)

/-- The first 53 bytes of the file. -/
def fixedHeader (ct : Calc) : List Nat :=
  (b! "**TI") ++ (typeBytes ct).take 3 ++ [42, 0x1A] ++ [if ct = Calc.t85P then 0x0C else 0x0A] ++
    [if ct = Calc.t85P then 0x0A else 0] ++ fileComment

theorem length_fixedHeader (ct : Calc) (h : ct.isPrgm = true) : (fixedHeader ct).length = 53 := by
  cases ct <;> first | rfl | (exact absurd h (by decide))

/-- A byte of a number. -/
def byteOf (v : Int) : Nat := (v % 256).toNat

theorem length_prgmBody (ct : Calc) (bytes : List Nat) :
    ((prgmBody ct bytes).length : Int) = varSize ct bytes.length - 2 := by
  unfold prgmBody varSize prgmSize
  simp only [List.length_append]
  have := length_flatMap_hexByte bytes
  cases ct <;> simp only [reduceCtorEq, if_true, if_false, List.length_map, this, List.length_cons, List.length_nil, trailer83] <;> omega

/-- The file, field by field. -/
theorem prgmBytes_split_full (ct : Calc) (name : Str) (bytes : List Nat) :
    ∃ H c0 k0 k1, c0 = ((if ct = .t85P then cnt (6 + name.length) else cnt ((typeBytes ct).getD 3 0)) : Out).1 ∧ H = (fixedHeader ct).map (fun b => (b % 256)) ∧
    prgmBytes ct name bytes = H ++ [byteOf (dataSize ct name bytes.length), byteOf (dataSize ct name bytes.length / 256)] ++
      ([c0, 0, byteOf (varSize ct bytes.length), byteOf (varSize ct bytes.length / 256)] ++
      (nameField ct name).map (·.1) ++
      [byteOf (varSize ct bytes.length), byteOf (varSize ct bytes.length / 256),
       byteOf (varSize ct bytes.length - 2), byteOf ((varSize ct bytes.length - 2) / 256)] ++
      (prgmBody ct bytes).map (·.1)) ++ [k0, k1] ∧
      k0 + 256 * k1 = ([c0, 0, byteOf (varSize ct bytes.length), byteOf (varSize ct bytes.length / 256)] ++
      (nameField ct name).map (·.1) ++
      [byteOf (varSize ct bytes.length), byteOf (varSize ct bytes.length / 256),
       byteOf (varSize ct bytes.length - 2), byteOf ((varSize ct bytes.length - 2) / 256)] ++
      (prgmBody ct bytes).map (·.1)).sum % 65536 ∧ k0 < 256 ∧ k1 < 256 := by
  have hsum : ∀ l : List Out, (∀ o ∈ l, o.2 = false → o.1 = 0) → chkSum l = (l.map (·.1)).sum := by
    intro l
    induction l with
    | nil => intro _; rfl
    | cons o l ih =>
      intro h
      have ih := ih fun o ho => h o (by simp [ho])
      unfold chkSum at *
      cases ho : o.2 with
      | true => simp [ho, ih]
      | false => simp [ho, ih, h o (by simp) ho]
  have happ : ∀ a b : List Out, chkSum (a ++ b) = chkSum a + chkSum b := by
    intro a b; unfold chkSum; simp
  have hraw : ∀ l : List Nat, chkSum (l.map (fun b : Nat => raw b)) = 0 := by
    intro l
    induction l with
    | nil => rfl
    | cons b l ih => unfold chkSum at *; simpa [raw] using ih
  have hcnt : ∀ v, (cnt v).2 = false → (cnt v).1 = 0 := by intro v h; cases h
  have hN : ∀ o ∈ nameField ct name, o.2 = false → o.1 = 0 := by
    intro o ho
    unfold nameField at ho
    simp only [List.mem_append, List.mem_map] at ho
    rcases ho with ((ho | ⟨c, _, rfl⟩) | ho) | ho
    · split at ho <;> simp at ho
      · rcases ho with rfl | rfl <;> exact hcnt _
      · subst ho; exact hcnt _
    · exact hcnt _
    · split at ho
      · have := List.eq_of_mem_replicate ho; subst this; intro _; rfl
      · simp at ho
    · split at ho <;> simp at ho
      subst ho; intro _; rfl
  have hB : ∀ o ∈ prgmBody ct bytes, o.2 = false → o.1 = 0 := by
    intro o ho
    unfold prgmBody at ho
    simp only [List.mem_append] at ho
    rcases ho with (ho | ho) | ho
    · split at ho
      · simp at ho; rcases ho with rfl | rfl <;> exact hcnt _
      · split at ho <;> simp at ho
        rcases ho with rfl | rfl | rfl <;> exact hcnt _
    · split at ho
      · obtain ⟨_, _, rfl⟩ := List.mem_map.mp ho; exact hcnt _
      · obtain ⟨_, _, rfl⟩ := List.mem_map.mp ho; exact hcnt _
    · split at ho
      · obtain ⟨_, _, rfl⟩ := List.mem_map.mp ho; exact hcnt _
      · simp at ho
  have hHdr : prgmHeader ct name (varSize ct bytes.length) = (fixedHeader ct).map (fun b : Nat => raw b) ++
      [raw (dataSize ct name bytes.length), raw (dataSize ct name bytes.length / 256)] := rfl
  have hc0 : chkSum (prgmHeader ct name (varSize ct bytes.length)) = 0 := by
    rw [hHdr, happ, hraw]; rfl
  refine ⟨_, ((if ct = .t85P then cnt (6 + name.length) else cnt ((typeBytes ct).getD 3 0)) : Out).1,
    chkSum (prgmHeader ct name (varSize ct bytes.length) ++ prgmVarHeader ct name (varSize ct bytes.length) ++
      prgmBody ct bytes) % 256,
    chkSum (prgmHeader ct name (varSize ct bytes.length) ++ prgmVarHeader ct name (varSize ct bytes.length) ++
      prgmBody ct bytes) / 256 % 256, rfl, rfl, ?_, ?_, by omega, by omega⟩
  · have e1 : prgmBytes ct name bytes = ((prgmHeader ct name (varSize ct bytes.length) ++
        prgmVarHeader ct name (varSize ct bytes.length) ++ prgmBody ct bytes).map (·.1)) ++
        [chkSum (prgmHeader ct name (varSize ct bytes.length) ++ prgmVarHeader ct name (varSize ct bytes.length) ++
          prgmBody ct bytes) % 256,
         chkSum (prgmHeader ct name (varSize ct bytes.length) ++ prgmVarHeader ct name (varSize ct bytes.length) ++
          prgmBody ct bytes) / 256 % 256] := rfl
    rw [e1]
    congr 1
    rw [prgmVarHeader_eq, hHdr]
    simp only [List.map_append, List.map_map, List.append_assoc, List.map_cons, List.map_nil]
    congr 1
  · rw [happ, happ, hc0, prgmVarHeader_eq, happ, happ, hsum _ hN, hsum _ hB]
    generalize ((nameField ct name).map (·.1)) = N
    generalize ((prgmBody ct bytes).map (·.1)) = B
    have h1 : ∀ v, chkSum [v, raw 0, cnt (varSize ct bytes.length), cnt (varSize ct bytes.length / 256)] =
        (if v.2 then v.1 else 0) + byteOf (varSize ct bytes.length) + byteOf (varSize ct bytes.length / 256) := by
      intro v
      unfold chkSum
      cases hv : v.2 <;> simp [hv, raw, cnt, byteOf] <;> omega
    have h2 : chkSum [cnt (varSize ct bytes.length), cnt (varSize ct bytes.length / 256),
        cnt (varSize ct bytes.length - 2), cnt ((varSize ct bytes.length - 2) / 256)] =
        byteOf (varSize ct bytes.length) + byteOf (varSize ct bytes.length / 256) +
        byteOf (varSize ct bytes.length - 2) + byteOf ((varSize ct bytes.length - 2) / 256) := by
      unfold chkSum
      simp [cnt, byteOf]; omega
    have h3 : ((if ct = .t85P then cnt (6 + name.length) else cnt ((typeBytes ct).getD 3 0)) : Out).2 = true := by
      split <;> rfl
    rw [h1, h2, h3]
    simp only [List.sum_append, List.sum_cons, List.sum_nil, if_true]
    omega

/-- The file, field by field. -/
theorem prgmBytes_split (ct : Calc) (name : Str) (bytes : List Nat) :
    ∃ H c0 k0 k1, H = (fixedHeader ct).map (fun b => (b % 256)) ∧
    prgmBytes ct name bytes = H ++ [byteOf (dataSize ct name bytes.length), byteOf (dataSize ct name bytes.length / 256)] ++
      ([c0, 0, byteOf (varSize ct bytes.length), byteOf (varSize ct bytes.length / 256)] ++
      (nameField ct name).map (·.1) ++
      [byteOf (varSize ct bytes.length), byteOf (varSize ct bytes.length / 256),
       byteOf (varSize ct bytes.length - 2), byteOf ((varSize ct bytes.length - 2) / 256)] ++
      (prgmBody ct bytes).map (·.1)) ++ [k0, k1] ∧
      k0 + 256 * k1 = ([c0, 0, byteOf (varSize ct bytes.length), byteOf (varSize ct bytes.length / 256)] ++
      (nameField ct name).map (·.1) ++
      [byteOf (varSize ct bytes.length), byteOf (varSize ct bytes.length / 256),
       byteOf (varSize ct bytes.length - 2), byteOf ((varSize ct bytes.length - 2) / 256)] ++
      (prgmBody ct bytes).map (·.1)).sum % 65536 ∧ k0 < 256 ∧ k1 < 256 := by
  obtain ⟨H, c0, k0, k1, -, h⟩ := prgmBytes_split_full ct name bytes
  exact ⟨H, c0, k0, k1, h⟩

theorem length_nameField (ct : Calc) (name : Str) : (nameField ct name).length =
    (if ct.ix ≥ 5 then 2 else 1) + (if ct = .t85P ∨ ct = .t85S then min 8 name.length else 8) +
    (if ct = .t8XP ∨ ct = .t8XV then 2 else 0) := by
  unfold nameField
  cases ct <;> simp [Calc.ix] <;> omega

theorem byteOf_word (v : Int) (h : 0 ≤ v) (h' : v < 65536) : ((byteOf v + 256 * byteOf (v / 256) : Nat) : Int) = v := by
  unfold byteOf; omega

theorem word_append (A B : List Nat) (x y i : Nat) (h : A.length = i) : word (A ++ x :: y :: B) i = x + 256 * y := by
  subst h
  unfold word
  simp only [List.getD_eq_getElem?_getD]
  rw [List.getElem?_append_right (Nat.le_refl _), List.getElem?_append_right (by omega)]
  simp

theorem varSize_pos (ct : Calc) (n : Nat) : 2 ≤ varSize ct n := by
  unfold varSize prgmSize
  cases ct <;> simp <;> omega

/-- Positions and values of the length fields. -/
theorem prgmBytes_words (ct : Calc) (name : Str) (bytes : List Nat) (hc : ct.isPrgm = true) (p : Nat)
    (hp : p = 59 + (nameField ct name).length) :
    ((prgmBytes ct name bytes).length : Int) = p + 4 + varSize ct bytes.length ∧
    word (prgmBytes ct name bytes) 53 = byteOf (dataSize ct name bytes.length) + 256 * byteOf (dataSize ct name bytes.length / 256) ∧
    word (prgmBytes ct name bytes) 57 = byteOf (varSize ct bytes.length) + 256 * byteOf (varSize ct bytes.length / 256) ∧
    word (prgmBytes ct name bytes) p = byteOf (varSize ct bytes.length) + 256 * byteOf (varSize ct bytes.length / 256) ∧
    word (prgmBytes ct name bytes) (p + 2) =
      byteOf (varSize ct bytes.length - 2) + 256 * byteOf ((varSize ct bytes.length - 2) / 256) := by
  obtain ⟨H, c0, k0, k1, hH, e, -⟩ := prgmBytes_split ct name bytes
  have hHl : H.length = 53 := by rw [hH, List.length_map, length_fixedHeader ct hc]
  have hbl := length_prgmBody ct bytes
  have hbl' : ((prgmBody ct bytes).map (·.1)).length = (prgmBody ct bytes).length := List.length_map _
  have hnl : ((nameField ct name).map (·.1)).length = (nameField ct name).length := List.length_map _
  rw [e]
  generalize byteOf (dataSize ct name bytes.length) = d0
  generalize byteOf (dataSize ct name bytes.length / 256) = d1
  generalize byteOf (varSize ct bytes.length) = v0
  generalize byteOf (varSize ct bytes.length / 256) = v1
  generalize byteOf (varSize ct bytes.length - 2) = w0
  generalize byteOf ((varSize ct bytes.length - 2) / 256) = w1
  generalize ((nameField ct name).map (·.1)) = N at *
  generalize ((prgmBody ct bytes).map (·.1)) = B at *
  simp only [List.append_assoc, List.cons_append, List.nil_append]
  refine ⟨?_, ?_, ?_, ?_, ?_⟩
  · simp only [List.length_append, List.length_cons, List.length_nil]
    omega
  · exact word_append H _ d0 d1 53 hHl
  · have := word_append (H ++ [d0, d1, c0, 0]) (N ++ v0 :: v1 :: w0 :: w1 :: (B ++ [k0, k1])) v0 v1 57 (by simp; omega)
    simpa only [List.append_assoc, List.cons_append, List.nil_append] using this
  · have := word_append (H ++ [d0, d1, c0, 0, v0, v1] ++ N) (w0 :: w1 :: (B ++ [k0, k1])) v0 v1 p (by simp; omega)
    simpa only [List.append_assoc, List.cons_append, List.nil_append] using this
  · have := word_append (H ++ [d0, d1, c0, 0, v0, v1] ++ N ++ [v0, v1]) (B ++ [k0, k1]) w0 w1 (p + 2) (by simp; omega)
    simpa only [List.append_assoc, List.cons_append, List.nil_append] using this

/-! ### Applications -/

theorem quiet_makeApp (md5 : List Nat → List Nat) (bytes : List Nat) (hb : ∀ b ∈ bytes, b < 256) :
    Smooth (makeApp md5 bytes) (fun file => file = [] ∨ ∃ b pages name q sig, Patched bytes b pages name q ∧
      sig.length = 96 ∧ (∀ x ∈ sig, x < 256) ∧
      sig = sigBlock (siggen (md5 (b.take bytes.length))).1 (siggen (md5 (b.take bytes.length))).2 ∧
      file = header8xk name (appHexLength (bytes.length + 96) pages) ++ intelHex (b.take bytes.length ++ sig)) := by
  unfold makeApp
  refine .bind (quiet_patchApp bytes hb) ?_
  intro r hr
  cases r with
  | none => exact .pure _ (.inl rfl)
  | some p =>
    obtain ⟨b, pages, name⟩ := p
    obtain ⟨q, hq⟩ := hr b pages name rfl
    dsimp only
    have hs := length_siggen (md5 (b.take bytes.length))
    rw [if_neg (by omega)]
    have hl := length_sigBlock (siggen (md5 (b.take bytes.length))).1 (siggen (md5 (b.take bytes.length))).2 (by omega)
    refine .pure _ (.inr ⟨b, pages, name, q, _, hq, hl, ?_, rfl, ?_⟩)
    · exact bytes_sigBlock _ _ (by unfold siggen; exact bytes_leBytes _ _)
    · congr 2
      rw [List.length_append, hl, List.length_take, hq.length]
      congr 1; omega

theorem length_header8xk (name : List Nat) (len : Nat) (h : name.length ≤ 8) : (header8xk name len).length = 78 := by
  unfold header8xk le32
  simp only [List.length_append, List.length_cons, List.length_nil, List.length_replicate]
  omega

theorem header8xk_len (name : List Nat) (len : Nat) (h : name.length ≤ 8) (rest : List Nat) (hl : len < 4294967296) :
    dword (header8xk name len ++ rest) 74 = len := by
  have e : header8xk name len ++ rest = (b! "**TIFL**" ++ [1, 1, 1, 0x88, 0x01, 0x01, 0x19, 0x97, name.length]
    ++ (name ++ List.replicate (8 - name.length) 0) ++ List.replicate 23 0 ++ [0x73, 0x24]
    ++ List.replicate 24 0) ++ (le32 len ++ rest) := by
    unfold header8xk; simp only [List.append_assoc]
  have hA : (b! "**TIFL**" ++ [1, 1, 1, 0x88, 0x01, 0x01, 0x19, 0x97, name.length]
    ++ (name ++ List.replicate (8 - name.length) 0) ++ List.replicate 23 0 ++ [0x73, 0x24]
    ++ List.replicate 24 0).length = 74 := by
    simp only [List.length_append, List.length_cons, List.length_nil, List.length_replicate]
    omega
  rw [e]
  generalize (b! "**TIFL**" ++ [1, 1, 1, 0x88, 0x01, 0x01, 0x19, 0x97, name.length]
    ++ (name ++ List.replicate (8 - name.length) 0) ++ List.replicate 23 0 ++ [0x73, 0x24]
    ++ List.replicate 24 0) = A at *
  unfold le32 dword
  have h1 := word_append A ([len / 65536 % 256, len / 16777216 % 256] ++ rest) (len % 256) (len / 256 % 256) 74 hA
  have h2 := word_append (A ++ [len % 256, len / 256 % 256]) rest (len / 65536 % 256) (len / 16777216 % 256) 76
    (by simp; omega)
  simp only [List.append_assoc, List.cons_append, List.nil_append] at h1 h2 ⊢
  rw [h1, h2]
  omega

end Spasm
