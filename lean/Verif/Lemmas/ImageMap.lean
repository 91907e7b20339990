import Verif.Props.Bitmap
import Verif.Props.Message
import Verif.Spec.ImageMap
import Verif.Lemmas.Named

/-
Lemmas for C75: several images in one bitmap.
-/

namespace Spasm.Props
open Spasm Spec

/-! ### Parts of a bitmap -/

theorem shadeAt_whole (shades : Nat) (p : Bitmap) (a : Area) :
    shadeAt shades p a = fun x y => shadeAt shades p ⟨0, 0, p.width, p.height⟩ (a.left + x) (a.top + y) := by
  funext x y
  unfold shadeAt
  simp

theorem does_area_strips {s : S} {depth n : Nat} {c : Settings} {p : Bitmap} (hp : BitmapFile p) (h : SettingsAre s depth c) (hs : Settled s)
    (hD : depth ≤ 17) (hk : depth + 3 < n) (hc : 0 < c.columns.toNat) (a : Area) (ha : Within p a) : ∀ (m i f : Nat), m ≤ f →
    (a.width + c.columns.toNat - 1) / c.columns.toNat = i + m →
    Does s (bitmapStrips (knot n) p.model (areaRect p a) c.columns (f + 1) (a.left + i * c.columns.toNat : Nat) ((a.width : Int) - (i * c.columns.toNat : Nat))) ()
      ((List.range m).flatMap fun j => areaBytes c p ⟨a.left + (i + j) * c.columns.toNat, a.top, min c.columns.toNat (a.width - (i + j) * c.columns.toNat), a.height⟩
        fun x y => shadeAt c.shades p ⟨0, 0, p.width, p.height⟩ (a.left + (i + j) * c.columns.toNat + x) (a.top + y))
  | 0, i, f, _, hi => by
    have hle : a.width ≤ i * c.columns.toNat := by
      have := Nat.lt_mul_of_div_lt (show (a.width + c.columns.toNat - 1) / c.columns.toNat < i + 1 by omega) hc
      rw [Nat.add_mul, Nat.one_mul] at this
      omega
    rw [bitmapStrips, if_neg (by omega)]
    exact Does.pure s ()
  | m + 1, i, f, hf, hi => by
    obtain ⟨g, rfl⟩ : ∃ g, f = g + 1 := ⟨f - 1, by omega⟩
    have h1 := ha.right
    have h2 := ha.bottom
    have hlt : i * c.columns.toNat < a.width := by
      have := (Nat.le_div_iff_mul_le hc).1 (show i + 1 ≤ (a.width + c.columns.toNat - 1) / c.columns.toNat by omega)
      rw [Nat.add_mul, Nat.one_mul] at this
      omega
    rw [bitmapStrips, if_pos (by omega)]
    have hcc : c.columns = (c.columns.toNat : Int) := by omega
    have hrect : ({ areaRect p a with left := ((a.left + i * c.columns.toNat : Nat) : Int), right := ((a.left + i * c.columns.toNat : Nat) : Int) + min c.columns ((a.width : Int) - (i * c.columns.toNat : Nat)) } : Rect) =
        areaRect p ⟨a.left + i * c.columns.toNat, a.top, min c.columns.toNat (a.width - i * c.columns.toNat), a.height⟩ := by
      unfold areaRect
      simp only [Rect.mk.injEq]
      refine ⟨trivial, trivial, by omega, trivial⟩
    have hpart := does_part hp h hs hD hk ⟨a.left + i * c.columns.toNat, a.top, min c.columns.toNat (a.width - i * c.columns.toNat), a.height⟩
      ⟨by dsimp only; omega, by dsimp only; omega⟩
    rw [← hrect, shadeAt_whole] at hpart
    have ih := does_area_strips hp h hs hD hk hc a ha m (i + 1) g (by omega) (by omega)
    have e1 : ((a.left + i * c.columns.toNat : Nat) : Int) + c.columns = (a.left + (i + 1) * c.columns.toNat : Nat) := by
      rw [Nat.add_mul, Nat.one_mul]; push_cast; omega
    have e2 : (a.width : Int) - (i * c.columns.toNat : Nat) - c.columns = (a.width : Int) - ((i + 1) * c.columns.toNat : Nat) := by
      rw [Nat.add_mul, Nat.one_mul]; push_cast; omega
    rw [e1, e2]
    have := hpart.bind (g := fun _ => _) ih
    rw [List.range_succ_eq_map, List.flatMap_cons, List.flatMap_map]
    simp only [Nat.add_zero, Nat.succ_eq_add_one]
    have e3 : ∀ j, i + 1 + j = i + (j + 1) := by intro j; omega
    simp only [e3] at this
    exact this

theorem does_area {s : S} {depth n : Nat} {c : Settings} {p : Bitmap} (hp : BitmapFile p) (h : SettingsAre s depth c) (hs : Settled s)
    (hD : depth ≤ 17) (hk : depth + 3 < n) (a : Area) (ha : Within p a) :
    Does s (bitmapAll (knot n) p.model (areaRect p a) c.columns a.width) ()
      (partBytes c p a (shadeAt c.shades p ⟨0, 0, p.width, p.height⟩)) := by
  unfold bitmapAll partBytes
  by_cases hc : 0 < c.columns.toNat ∧ c.columns.toNat < a.width
  · rw [if_pos (by omega), if_pos hc]
    have hm : (a.width + c.columns.toNat - 1) / c.columns.toNat ≤ a.width := by
      rw [Nat.div_le_iff_le_mul_add_pred hc.1]
      have : 1 * a.width ≤ c.columns.toNat * a.width := Nat.mul_le_mul_right _ hc.1
      omega
    have := does_area_strips hp h hs hD hk hc.1 a ha ((a.width + c.columns.toNat - 1) / c.columns.toNat) 0 a.width hm (by omega)
    have e : (areaRect p a).left = ((a.left + 0 * c.columns.toNat : Nat) : Int) := by unfold areaRect; simp
    rw [e]
    simpa using this
  · rw [if_neg (by omega), if_neg hc]
    have hpart := does_part hp h hs hD hk a ha
    rw [shadeAt_whole] at hpart
    exact hpart

theorem partBytes_length (c : Settings) (p : Bitmap) (a : Area) (f g : Nat → Nat → Nat) : (partBytes c p a f).length = (partBytes c p a g).length := by
  unfold partBytes
  split
  · rw [List.length_flatMap, List.length_flatMap]
    exact congrArg List.sum (List.map_congr_left fun i _ => areaBytes_length _ _ _ _ _)
  · exact areaBytes_length _ _ _ _ _

/-! ### Labels -/

/-- The labels of the table are those of `s` and the added ones. -/
def Has (s : S) (tab : Table Label) (adds : List (Str × Int)) : Prop := ∀ t, labelOf { s with labels := tab } t = addedLabel s adds t

theorem has_nil (s : S) : Has s s.labels [] := fun _ => rfl

theorem has_add (s st : S) (nm suffix : Str) (v : Int) (tab : Table Label) (adds : List (Str × Int)) (h : Has s tab adds)
    (hst : Calm { s with labels := tab } st) (hm : s.mode.codeCounter = false) (ha : Addable s [(nm ++ suffix, v)])
    (hd : ∀ e ∈ adds, nameKey s e.1 ≠ nameKey s (nm ++ suffix)) :
    ∃ tab', Has s tab' (adds ++ [(nm ++ suffix, v)]) ∧ imageLabel (some nm) suffix v st = .ok () { st with labels := tab' } := by
  obtain ⟨h1, h2, h3⟩ := ha _ (List.mem_singleton.2 rfl)
  dsimp only at h1 h2 h3
  have hnone : ∀ t, nameKey s t = nameKey s (nm ++ suffix) → adds.find? (fun e => decide (nameKey s e.1 = nameKey s t)) = none := by
    intro t ht
    rw [List.find?_eq_none]
    intro e he
    simpa [ht] using hd e he
  have hl : labelOf { s with labels := tab } (nm ++ suffix) = labelOf s (nm ++ suffix) := by
    rw [h]
    unfold addedLabel
    rw [hnone _ rfl]
  obtain ⟨⟨pc, m, o, d', f', rfl⟩, -, -⟩ := hst
  obtain ⟨tab', ht, hi⟩ := imageLabel_ok { s with labels := tab, pc := pc, mem := m, outPtr := o, parseDepth := d', fwdRef := f' } nm suffix v hm h1 h2
    (by show labelOf { s with labels := tab } (nm ++ suffix) = none ∨ labelOf { s with labels := tab } (nm ++ suffix) = some v
        rw [hl]; exact h3)
  refine ⟨tab', ?_, hi⟩
  intro t
  rw [labelOf_eq]
  show (Table.lookup tab' (nameKey s t)).map Label.value = _
  rw [ht]
  show (if nameKey s t = nameKey s (nm ++ suffix) then some v else (Table.lookup tab (nameKey s t)).map Label.value) = _
  unfold addedLabel
  rw [List.find?_append]
  split
  · rename_i hk
    rw [hnone t hk]
    simp [hk]
  · rename_i hk
    have e2 : (Table.lookup tab (nameKey s t)).map Label.value = addedLabel s adds t := by
      rw [← h t, labelOf_eq]
      rfl
    rw [e2]
    unfold addedLabel
    have e3 : [(nm ++ suffix, v)].find? (fun e => decide (nameKey s e.1 = nameKey s t)) = none := by
      simp [Ne.symm hk]
    rw [e3, Option.or_none]

theorem nameKey_suffix (s : S) (t u : Str) (h : u.map upperCase = u) : nameKey s (t ++ u) = nameKey s t ++ u := by
  unfold nameKey
  split
  · rfl
  · rw [List.map_append, h]

theorem decimalDigits_range (n : Nat) : ∀ c ∈ decimalDigits n, 48 ≤ c ∧ c ≤ 57 := by
  induction n using Nat.strongRecOn with
  | ind n ih =>
    rw [decimalDigits]
    split
    · intro c hc; simp at hc; omega
    · intro c hc
      rcases List.mem_append.1 hc with hc | hc
      · exact ih _ (by omega) c hc
      · simp at hc; omega

theorem decimalDigits_inj (n : Nat) : ∀ m, decimalDigits n = decimalDigits m → n = m := by
  induction n using Nat.strongRecOn with
  | ind n ih =>
    intro m h
    rw [decimalDigits.eq_1 n, decimalDigits.eq_1 m] at h
    have hne : ∀ k, decimalDigits k ≠ [] := by
      intro k; rw [decimalDigits]; split <;> simp
    split at h <;> split at h
    · simp at h; omega
    · have h1 := congrArg List.length h
      have h2 := List.length_pos_iff.2 (hne (m / 10))
      simp only [List.length_append, List.length_singleton] at h1
      omega
    · have h1 := congrArg List.length h
      have h2 := List.length_pos_iff.2 (hne (n / 10))
      simp only [List.length_append, List.length_singleton] at h1
      omega
    · obtain ⟨h1, h2⟩ := List.append_inj' h rfl
      have := ih _ (by omega) _ h1
      simp at h2
      omega

theorem decimal_succ (i : Nat) : decimal ((i : Int) + 1) = decimalDigits (i + 1) := by
  unfold decimal
  rw [if_neg (by omega)]
  rfl

theorem decimal_upper (i : Nat) : (decimal ((i : Int) + 1)).map upperCase = decimal ((i : Int) + 1) := by
  rw [decimal_succ]
  have : ∀ c ∈ decimalDigits (i + 1), upperCase c = id c := by
    intro c hc
    have := decimalDigits_range _ c hc
    unfold upperCase
    rw [if_neg (by omega)]
    rfl
  rw [List.map_congr_left this, List.map_id]

/-- The first labels of a map: the sizes of the images, and the addresses of `k` images. -/
def someLabels (name : Option Str) (width height : Nat) (sizes : List Nat) (pc : Int) (k : Nat) : List (Str × Int) :=
  match name with
  | none => []
  | some t => [(t ++ b! "_WIDTH", (width : Int)), (t ++ b! "_HEIGHT", (height : Int))] ++
      (List.range k).map fun i : Nat => (t ++ decimal ((i : Int) + 1), asInt32 (pc.toNat + (sizes.take i).sum))

theorem someLabels_mem {name : Option Str} {width height : Nat} {sizes : List Nat} {pc : Int} {k : Nat} (hk : k ≤ sizes.length) :
    ∀ e ∈ someLabels name width height sizes pc k, e ∈ mapLabels name width height sizes pc := by
  unfold someLabels mapLabels
  cases name with
  | none => exact fun e he => he
  | some t =>
    intro e he
    simp only [List.mem_append, List.mem_map, List.mem_range] at he ⊢
    rcases he with he | ⟨i, hi, he⟩
    · exact .inl (.inl he)
    · exact .inl (.inr ⟨i, by omega, he⟩)

/-- The number of an image is not among those of the images before. -/
theorem someLabels_new (s : S) (t : Str) (width height : Nat) (sizes : List Nat) (pc : Int) (k : Nat) :
    ∀ e ∈ someLabels (some t) width height sizes pc k, nameKey s e.1 ≠ nameKey s (t ++ decimal ((k : Int) + 1)) := by
  intro e he
  unfold someLabels at he
  rw [nameKey_suffix _ _ _ (decimal_upper k)]
  have hc : ∀ u : Str, u.head? = some 95 → u ≠ decimal ((k : Int) + 1) := by
    intro u hu h
    rw [h, decimal_succ] at hu
    have := decimalDigits_range _ _ (List.mem_of_mem_head? hu)
    omega
  simp only [List.cons_append, List.nil_append, List.mem_cons, List.mem_map, List.mem_range] at he
  rcases he with rfl | rfl | ⟨i, hi, rfl⟩
  · rw [nameKey_suffix _ _ _ (by decide)]
    intro h
    exact hc _ rfl (List.append_cancel_left h)
  · rw [nameKey_suffix _ _ _ (by decide)]
    intro h
    exact hc _ rfl (List.append_cancel_left h)
  · dsimp only
    rw [nameKey_suffix _ _ _ (decimal_upper i)]
    intro h
    have := List.append_cancel_left h
    rw [decimal_succ, decimal_succ] at this
    have := decimalDigits_inj _ _ this
    omega

theorem someLabels_count (s : S) (t : Str) (width height : Nat) (sizes : List Nat) (pc : Int) (k : Nat) :
    ∀ e ∈ someLabels (some t) width height sizes pc k, nameKey s e.1 ≠ nameKey s (t ++ b! "_COUNT") := by
  intro e he
  unfold someLabels at he
  rw [nameKey_suffix _ _ _ (by decide)]
  simp only [List.cons_append, List.nil_append, List.mem_cons, List.mem_map, List.mem_range] at he
  rcases he with rfl | rfl | ⟨i, hi, rfl⟩
  · rw [nameKey_suffix _ _ _ (by decide)]
    intro h
    exact absurd (List.append_cancel_left h) (by decide)
  · rw [nameKey_suffix _ _ _ (by decide)]
    intro h
    exact absurd (List.append_cancel_left h) (by decide)
  · dsimp only
    rw [nameKey_suffix _ _ _ (decimal_upper i)]
    intro h
    have h := List.append_cancel_left h
    rw [decimal_succ] at h
    have := decimalDigits_range (i + 1) 95 (by rw [h]; decide)
    omega

/-! ### The loop over the images -/

/-- The images in the order of the loop, from a position on. -/
inductive Order (p : Bitmap) (m : ImageMap) : Nat → Int → Int → List Area → Prop
  | stop (f : Nat) (left top : Int) : (p.width : Int) ≤ left → Order p m (f + 1) left top []
  | next (f : Nat) (left top : Int) (l : List Area) : left < p.width → top < 0 →
      Order p m f (left + (imageOf p m).width + 2 * m.margin) ((p.height : Int) - (imageOf p m).height - 2 * m.margin) l → Order p m (f + 1) left top l
  | image (f : Nat) (left top : Int) (a : Area) (l : List Area) : left < p.width → 0 ≤ top → Within p a → a.width = (imageOf p m).width → a.height = (imageOf p m).height →
      areaRect p a = ⟨left + m.margin, top + m.margin, left + m.margin + (imageOf p m).width, top + m.margin + (imageOf p m).height⟩ →
      Order p m f left (top - ((imageOf p m).height + 2 * m.margin)) l → Order p m (f + 1) left top (a :: l)

/-- The counter of the loop. -/
def counter : Option Nat → Int
  | none => 0
  | some n => n + 1

theorem has_keep {s : S} {name : Option Str} {width height : Nat} {sizes : List Nat} {k : Nat} {tab : Table Label} (hk : k ≤ sizes.length)
    (h : Has s tab (someLabels name width height sizes s.pc k)) :
    ∀ t, labelOf { s with labels := tab } t = labelOf s t ∨ ∃ e ∈ mapLabels name width height sizes s.pc, nameKey s t = nameKey s e.1 := by
  intro t
  rw [h t]
  unfold addedLabel
  split
  · rename_i e he
    have h1 := List.mem_of_find?_eq_some he
    have h2 := List.find?_some he
    exact .inr ⟨e, someLabels_mem hk e h1, by simpa using Eq.symm (of_decide_eq_true h2)⟩
  · exact .inl rfl

theorem loop_images {s : S} {depth n : Nat} {c : Settings} {p : Bitmap} {m : ImageMap} {header : List Nat} {name : Option Str} {sizes : List Nat}
    (hp : BitmapFile p) (hD : depth ≤ 17) (hk : depth + 3 < n) (hm : s.mode.codeCounter = false)
    (hadd : Addable s (mapLabels name (imageOf p m).width (imageOf p m).height sizes s.pc))
    (hkeep : ∀ tab, (∀ t, labelOf { s with labels := tab } t = labelOf s t ∨
        ∃ e ∈ mapLabels name (imageOf p m).width (imageOf p m).height sizes s.pc, nameKey s t = nameKey s e.1) →
      SettingsAre { s with labels := tab } depth c ∧ HeaderIs { s with labels := tab } depth c (imageOf p m) header ∧ Settled { s with labels := tab })
    (hfew : sizes.length ≤ 9999999) (hpc0 : 0 ≤ s.pc) (f : Nat) (left top : Int) (l : List Area) (ho : Order p m f left top l) :
    ∀ (lim : Option Nat) (k : Nat) (st : S) (tab : Table Label), Calm { s with labels := tab } st →
      Has s tab (someLabels name (imageOf p m).width (imageOf p m).height sizes s.pc k) → k ≤ sizes.length →
      sizes.drop k = (upTo lim l).map (fun a => (header ++ partBytes c p a (shadeAt c.shades p ⟨0, 0, p.width, p.height⟩)).length) →
      st.pc = (s.pc + (sizes.take k).sum) % 4294967296 →
      HasRoom ((upTo lim l).flatMap fun a => header ++ partBytes c p a (shadeAt c.shades p ⟨0, 0, p.width, p.height⟩)).length st →
      ∃ d fw tab', Has s tab' (someLabels name (imageOf p m).width (imageOf p m).height sizes s.pc sizes.length) ∧
        mapLoop (knot n) p.model name (imageOf p m).width (imageOf p m).height m.margin f left top (counter lim) k st =
          .ok (sizes.length : Int) { after ((upTo lim l).flatMap fun a => header ++ partBytes c p a (shadeAt c.shades p ⟨0, 0, p.width, p.height⟩)) d fw st with labels := tab' } := by
  induction ho with
  | stop f left top hle =>
    intro lim k st tab hc ht hks hd _ _
    have e0 : (upTo lim ([] : List Area)) = [] := by cases lim <;> simp [upTo]
    rw [e0] at hd ⊢
    have hkk : k = sizes.length := by
      have := List.drop_eq_nil_iff.1 hd
      omega
    subst hkk
    refine ⟨st.parseDepth, st.fwdRef, tab, ht, ?_⟩
    rw [mapLoop, if_pos (show left ≥ p.model.width from hle)]
    obtain ⟨⟨pc, mm, o, d', f', rfl⟩, h1, h2⟩ := hc
    rw [List.flatMap_nil, after_nil _ _ _ h1]
    rfl
  | next f left top l hlt hneg ho ih =>
    intro lim k st tab hc ht hks hd hpc hroom
    rw [mapLoop, if_neg (by show ¬ left ≥ (p.width : Int); omega), if_pos hneg]
    exact ih lim k st tab hc ht hks hd hpc hroom
  | image f left top a l hlt hnn hw haw hah hrect ho ih =>
    intro lim k st tab hc ht hks hd hpc hroom
    obtain ⟨hset, hhead, hs⟩ := hkeep tab (has_keep hks ht)
    rw [mapLoop, if_neg (by show ¬ left ≥ (p.width : Int); omega), if_neg (by omega)]
    obtain ⟨vc, hvc, hcol⟩ := hset.columns
    have hroom0 : HasRoom ([] : Str).length st := ⟨hroom.1, by have := hroom.2; simp; omega⟩
    obtain ⟨d1, f1, e1⟩ := does_parse hvc (settingName (b! "BM_MIN_W") (by decide)) hs hD hk st hc hroom0
    rw [M.bind_ok e1, ← hcol]
    have hc1 := hc.after [] d1 f1
    by_cases hlim : lim = some 0
    · subst hlim
      have e0 : upTo (some 0) (a :: l) = [] := rfl
      rw [e0] at hd ⊢
      have hkk : k = sizes.length := by
        have := List.drop_eq_nil_iff.1 hd
        omega
      subst hkk
      refine ⟨d1, f1, tab, ht, ?_⟩
      rw [if_pos (show counter (some 0) = 1 from rfl)]
      obtain ⟨⟨pc, mm, o, d', f', rfl⟩, h1, h2⟩ := hc
      rfl
    · have hcount : counter lim ≠ 1 := by
        cases lim with
        | none => simp [counter]
        | some x => simp only [counter]; intro h; apply hlim; congr 1; omega
      rw [if_neg hcount, M.get_bind]
      obtain ⟨lim', hlim1, hlim2⟩ : ∃ lim', upTo lim (a :: l) = a :: upTo lim' l ∧ (if counter lim = 0 then 0 else counter lim - 1) = counter lim' := by
        cases lim with
        | none => exact ⟨none, rfl, rfl⟩
        | some x =>
          cases x with
          | zero => exact absurd rfl hlim
          | succ x => exact ⟨some x, rfl, by simp [counter]; omega⟩
      rw [hlim1] at hd hroom ⊢
      rw [hlim2]
      have hk1 : k < sizes.length := by
        by_contra hcon
        rw [List.drop_eq_nil_iff.2 (by omega)] at hd
        simp at hd
      -- the label
      obtain ⟨tab1, ht1, e2⟩ : ∃ tab1, Has s tab1 (someLabels name (imageOf p m).width (imageOf p m).height sizes s.pc (k + 1)) ∧
          imageLabel name (fmtInt ((k : Int) + 1)) (toI32 (after [] d1 f1 st).pc) (after [] d1 f1 st) = .ok () { after [] d1 f1 st with labels := tab1 } := by
        cases name with
        | none =>
          refine ⟨tab, ht, ?_⟩
          obtain ⟨⟨pc, mm, o, d', f', rfl⟩, h1, h2⟩ := hc
          rfl
        | some t =>
          rw [fmtInt_decimal _ (by omega) (by omega)]
          have hv : toI32 (after [] d1 f1 st).pc = asInt32 (s.pc.toNat + (sizes.take k).sum) := by
            rw [after_nil _ _ _ hc.pc]
            show toI32 st.pc = _
            rw [hpc]
            unfold toI32 asInt32
            split <;> omega
          rw [hv]
          obtain ⟨tab1, h1, h2⟩ := has_add s (after [] d1 f1 st) t (decimal ((k : Int) + 1)) (asInt32 (s.pc.toNat + (sizes.take k).sum)) tab
            _ ht hc1 hm (by
              intro e he
              rw [List.mem_singleton.1 he]
              refine hadd _ ?_
              unfold mapLabels
              simp only [List.mem_append, List.mem_map, List.mem_range]
              exact .inl (.inr ⟨k, hk1, rfl⟩)) (someLabels_new s t _ _ _ _ _)
          refine ⟨tab1, ?_, h2⟩
          have e : someLabels (some t) (imageOf p m).width (imageOf p m).height sizes s.pc (k + 1) =
              someLabels (some t) (imageOf p m).width (imageOf p m).height sizes s.pc k ++ [(t ++ decimal ((k : Int) + 1), asInt32 (s.pc.toNat + (sizes.take k).sum))] := by
            unfold someLabels
            dsimp only
            rw [List.range_succ, List.map_append]
            simp
          rw [e]
          exact h1
      rw [M.bind_ok e2]
      obtain ⟨hset1, hhead1, hs1⟩ := hkeep tab1 (has_keep (by omega) ht1)
      have hc2 : Calm { s with labels := tab1 } { after [] d1 f1 st with labels := tab1 } := by
        obtain ⟨⟨pc, mm, o, d', f', h⟩, h1, h2⟩ := hc1
        rw [h]
        rw [h] at h1 h2
        exact ⟨⟨_, _, _, _, _, rfl⟩, h1, h2⟩
      have hbounds : (imageOf p m).width ≤ 32767 ∧ (imageOf p m).height ≤ 32767 := by
        have h1 := hw.right
        have h2 := hw.bottom
        have h3 := hp.width.2
        have h4 := hp.height.2
        omega
      have hdoes := (does_header hbounds hset1 hhead1 hs1 hD hk (areaRect p a) (by rw [hrect]; dsimp only; omega) (by rw [hrect]; dsimp only; omega)).bind
        (g := fun _ => _) (does_area hp hset1 hs1 hD hk a hw)
      have hlen : (header ++ partBytes c p a (shadeAt c.shades p ⟨0, 0, p.width, p.height⟩)).length ≤
          ((a :: upTo lim' l).flatMap fun a => header ++ partBytes c p a (shadeAt c.shades p ⟨0, 0, p.width, p.height⟩)).length := by
        rw [List.flatMap_cons]
        simp only [List.length_append]
        omega
      have ho1 : ({ after [] d1 f1 st with labels := tab1 } : S).outPtr = st.outPtr := by
        show st.outPtr + ((([] : List Nat).length : Nat) : Int) = _
        simp
      obtain ⟨d2, f2, e3⟩ := hdoes { after [] d1 f1 st with labels := tab1 } hc2
        ⟨by rw [ho1]; exact hroom.1, by rw [ho1]; have := hroom.2; omega⟩
      have ew : (a.width : Int) = ((imageOf p m).width : Int) := by rw [haw]
      rw [hrect, ew] at e3
      rw [← M.bind_assoc, M.bind_ok e3]
      have hst3 : (after (header ++ partBytes c p a (shadeAt c.shades p ⟨0, 0, p.width, p.height⟩)) d2 f2 { after [] d1 f1 st with labels := tab1 } : S) =
          { after (header ++ partBytes c p a (shadeAt c.shades p ⟨0, 0, p.width, p.height⟩)) d2 f2 st with labels := tab1 } := by
        have := after_append [] (header ++ partBytes c p a (shadeAt c.shades p ⟨0, 0, p.width, p.height⟩)) d1 d2 f1 f2 st hroom.1
        rw [List.nil_append] at this
        rw [← this]
        rfl
      rw [hst3]
      have hc3 : Calm { s with labels := tab1 } { after (header ++ partBytes c p a (shadeAt c.shades p ⟨0, 0, p.width, p.height⟩)) d2 f2 st with labels := tab1 } := by
        rw [← hst3]
        exact hc2.after _ _ _
      have hd' : sizes[k] = (header ++ partBytes c p a (shadeAt c.shades p ⟨0, 0, p.width, p.height⟩)).length ∧
          sizes.drop (k + 1) = (upTo lim' l).map (fun a => (header ++ partBytes c p a (shadeAt c.shades p ⟨0, 0, p.width, p.height⟩)).length) := by
        rw [List.drop_eq_getElem_cons hk1, List.map_cons] at hd
        exact List.cons.inj hd
      have hsum : (sizes.take (k + 1)).sum = (sizes.take k).sum + sizes[k] := by
        rw [List.take_succ_eq_append_getElem hk1, List.sum_append]
        simp
      obtain ⟨d3, f3, tab2, ht2, e4⟩ := ih lim' (k + 1) _ tab1 hc3 ht1 (by omega) hd'.2
        (by
          show (st.pc + ((header ++ partBytes c p a (shadeAt c.shades p ⟨0, 0, p.width, p.height⟩)).length : Nat)) % 4294967296 = _
          rw [hpc, hsum, ← hd'.1]
          push_cast
          omega)
        (by
          have hr := hroom
          rw [List.flatMap_cons, List.length_append (as := header ++ _)] at hr
          obtain ⟨hr1, hr2⟩ := hr
          refine ⟨?_, ?_⟩
          · show 0 ≤ st.outPtr + _
            omega
          · show st.outPtr + _ + _ ≤ _
            push_cast at hr2 ⊢
            omega)
      refine ⟨d3, f3, tab2, ht2, ?_⟩
      have ek : ((k + 1 : Nat) : Int) = (k : Int) + 1 := by push_cast; rfl
      rw [ek] at e4
      rw [e4]
      congr 1
      have := after_append (header ++ partBytes c p a (shadeAt c.shades p ⟨0, 0, p.width, p.height⟩))
        ((upTo lim' l).flatMap fun a => header ++ partBytes c p a (shadeAt c.shades p ⟨0, 0, p.width, p.height⟩)) d2 d3 f2 f3 st hroom.1
      rw [List.flatMap_cons, ← this]
      rfl

end Spasm.Props
