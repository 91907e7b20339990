import Verif.Lemmas.MapText

/-
Lemmas for C75: including a bitmap with several images.
-/

namespace Spasm.Props
open Spasm Spec

/-! ### The order of the images -/

theorem mapFits_columns {p : Bitmap} {m : ImageMap} (h : MapFits p m) : 0 < m.columns ∧ m.columns ≤ p.width ∧ m.columns * (p.width / m.columns) = p.width ∧ 0 < p.width / m.columns := by
  obtain ⟨h1, h2, -⟩ := h.width
  have h3 := Nat.pos_of_dvd_of_pos h2 h1
  have h4 := Nat.le_of_dvd h1 h2
  exact ⟨h3, h4, Nat.mul_div_cancel' h2, Nat.div_pos h4 h3⟩

theorem mapFits_rows {p : Bitmap} {m : ImageMap} (h : MapFits p m) : 0 < m.rows ∧ m.rows ≤ p.height ∧ m.rows * (p.height / m.rows) = p.height ∧ 0 < p.height / m.rows := by
  obtain ⟨h1, h2, -⟩ := h.height
  have h3 := Nat.pos_of_dvd_of_pos h2 h1
  have h4 := Nat.le_of_dvd h1 h2
  exact ⟨h3, h4, Nat.mul_div_cancel' h2, Nat.div_pos h4 h3⟩

theorem order_column {p : Bitmap} {m : ImageMap} (h : MapFits p m) (i : Nat) (hi : i < m.columns) (f : Nat) (l : List Area) : ∀ (b j : Nat), j + b = m.rows →
    Order p m f ((i * (p.width / m.columns) : Nat) : Int) ((p.height : Int) - ((m.rows + 1) * (p.height / m.rows) : Nat)) l →
    Order p m (b + f) ((i * (p.width / m.columns) : Nat) : Int) ((p.height : Int) - ((j + 1) * (p.height / m.rows) : Nat))
      ((List.range b).map (fun y => mapArea p m i (j + y)) ++ l)
  | 0, j, hj, ho => by
    have : j = m.rows := by omega
    subst this
    simpa using ho
  | b + 1, j, hj, ho => by
    obtain ⟨-, -, hW, hcw⟩ := mapFits_columns h
    obtain ⟨-, -, hH, hch⟩ := mapFits_rows h
    have hw := h.width.2.2
    have hh := h.height.2.2
    have ih := order_column h i hi f l b (j + 1) (by omega) ho
    have hl : (List.range (b + 1)).map (fun y => mapArea p m i (j + y)) ++ l =
        mapArea p m i j :: ((List.range b).map (fun y => mapArea p m i (j + 1 + y)) ++ l) := by
      rw [List.range_succ_eq_map, List.map_cons, List.map_map, Nat.add_zero]
      refine congrArg (fun z => mapArea p m i j :: (z ++ l)) (List.map_congr_left fun y _ => ?_)
      show mapArea p m i (j + (y + 1)) = _
      congr 1
      omega
    have e : b + 1 + f = b + f + 1 := by omega
    rw [hl, e]
    generalize hcwE : p.width / m.columns = cw at *
    generalize hchE : p.height / m.rows = ch at *
    have h1 : (i + 1) * cw ≤ m.columns * cw := Nat.mul_le_mul_right _ hi
    have h2 : (j + 1) * ch ≤ m.rows * ch := Nat.mul_le_mul_right _ (by omega)
    have h3 : (j + 1 + 1) * ch = (j + 1) * ch + ch := Nat.succ_mul _ _
    have h4 : (j + 1) * ch = j * ch + ch := Nat.succ_mul _ _
    have h5 : (i + 1) * cw = i * cw + cw := Nat.succ_mul _ _
    have ea : mapArea p m i j = ⟨i * cw + m.margin, j * ch + m.margin, cw - 2 * m.margin, ch - 2 * m.margin⟩ := by unfold mapArea; rw [hcwE, hchE]
    have ei : imageOf p m = { p with width := cw - 2 * m.margin, height := ch - 2 * m.margin } := by unfold imageOf; rw [hcwE, hchE]
    refine .image _ _ _ _ _ ?_ ?_ ⟨?_, ?_⟩ ?_ ?_ ?_ ?_
    · omega
    · omega
    · rw [ea]; dsimp only; omega
    · rw [ea]; dsimp only; omega
    · rw [ea, ei]
    · rw [ea, ei]
    · rw [ea, ei]
      unfold areaRect
      dsimp only
      congr 1 <;> omega
    · rw [ei]
      dsimp only
      have : (p.height : Int) - ((j + 1) * ch : Nat) - (((ch - 2 * m.margin : Nat) : Int) + 2 * m.margin) = (p.height : Int) - ((j + 1 + 1) * ch : Nat) := by omega
      rw [this]
      exact ih

theorem order_columns {p : Bitmap} {m : ImageMap} (h : MapFits p m) : ∀ (a i f : Nat), i + a = m.columns → a * (m.rows + 1) + 1 ≤ f →
    Order p m f ((i * (p.width / m.columns) : Nat) : Int) ((p.height : Int) - (imageOf p m).height - 2 * m.margin)
      ((List.range a).flatMap fun x => (List.range m.rows).map fun y => mapArea p m (i + x) y)
  | 0, i, f, hi, hf => by
    obtain ⟨-, -, hW, hcw⟩ := mapFits_columns h
    obtain ⟨f, rfl⟩ : ∃ g, f = g + 1 := ⟨f - 1, by omega⟩
    refine .stop _ _ _ ?_
    have : i = m.columns := by omega
    rw [this, hW]
  | a + 1, i, f, hi, hf => by
    obtain ⟨-, -, hW, hcw⟩ := mapFits_columns h
    obtain ⟨-, -, hH, hch⟩ := mapFits_rows h
    have hw := h.width.2.2
    have hh := h.height.2.2
    have hmul : (a + 1) * (m.rows + 1) = a * (m.rows + 1) + m.rows + 1 := by rw [Nat.succ_mul]; omega
    obtain ⟨g, rfl⟩ : ∃ g, f = m.rows + (g + 1) := ⟨f - m.rows - 1, by omega⟩
    have ih := order_columns h a (i + 1) g (by omega) (by omega)
    have hl : ((List.range (a + 1)).flatMap fun x => (List.range m.rows).map fun y => mapArea p m (i + x) y) =
        (List.range m.rows).map (fun y => mapArea p m i (0 + y)) ++ (List.range a).flatMap fun x => (List.range m.rows).map fun y => mapArea p m (i + 1 + x) y := by
      rw [List.range_succ_eq_map, List.flatMap_cons, List.flatMap_map]
      congr 1
      · refine List.map_congr_left fun y _ => ?_
        rw [Nat.add_zero, Nat.zero_add]
      · congr 1
        funext x
        have : i + x.succ = i + 1 + x := by omega
        rw [this]
    rw [hl]
    have ht : (p.height : Int) - (imageOf p m).height - 2 * m.margin = (p.height : Int) - ((0 + 1) * (p.height / m.rows) : Nat) := by
      unfold imageOf
      dsimp only
      rw [Nat.zero_add, Nat.one_mul]
      omega
    have h1 : (i + 1) * (p.width / m.columns) ≤ m.columns * (p.width / m.columns) := Nat.mul_le_mul_right _ (by omega)
    have h5 : (i + 1) * (p.width / m.columns) = i * (p.width / m.columns) + (p.width / m.columns) := Nat.succ_mul _ _
    have h6 : (m.rows + 1) * (p.height / m.rows) = m.rows * (p.height / m.rows) + p.height / m.rows := Nat.succ_mul _ _
    rw [ht]
    refine order_column h i (by omega) (g + 1) _ m.rows 0 (by omega) (.next _ _ _ _ (by omega) (by omega) ?_)
    have hle : ((i * (p.width / m.columns) : Nat) : Int) + (imageOf p m).width + 2 * m.margin = (((i + 1) * (p.width / m.columns) : Nat) : Int) := by
      unfold imageOf
      dsimp only
      omega
    rw [hle]
    exact ih

/-- All the images in order. -/
theorem order_all {p : Bitmap} {m : ImageMap} (h : MapFits p m) (x : Nat) :
    Order p m ((p.width + 1) * (p.height + 2) + x + 1) 0 ((p.height : Int) - (imageOf p m).height - 2 * m.margin)
      ((List.range m.columns).flatMap fun i => (List.range m.rows).map fun j => mapArea p m i j) := by
  obtain ⟨-, h1, -, -⟩ := mapFits_columns h
  obtain ⟨-, h2, -, -⟩ := mapFits_rows h
  have h3 : m.columns * (m.rows + 1) ≤ (p.width + 1) * (p.height + 2) := Nat.mul_le_mul (by omega) (by omega)
  have := order_columns h m.columns 0 ((p.width + 1) * (p.height + 2) + x + 1) (by omega) (by omega)
  simpa using this

/-! ### The numbers of a map -/

theorem does_decimal {s : S} {n : Nat} {ds : Str} {v : Nat} (h : Decimal ds v) (hv : v ≤ 2147483647) (hs : Settled s) (hk : 3 < n) : Does s (parseF (knot n) ds) (v : Int) [] := by
  intro st hc _
  have nb : Blanks [] := by intro c hc; simp at hc
  have ho : WithCalls st 1 ds (asInt32 (value 10 ds)) :=
    .one _ _ _ (.plain _ 0 _ _ (.plain _ _ _ (spec_decimal ds h.some h.digits (by rw [h.value]; omega))) (by omega))
  obtain ⟨p, hp⟩ := parseF_calls st 1 n [] ds [] _ ho (hc.settled hs) nb nb (by omega) (by omega)
  have e : asInt32 (value 10 ds) = (v : Int) := by
    rw [h.value]
    unfold asInt32
    omega
  rw [e] at hp
  exact ⟨p, false, by rw [after_nil _ _ _ hc.pc]; simpa using hp⟩

theorem does_numbers {s : S} {n : Nat} {text : Str} {c r : Nat} {lim : Option Nat} (h : MapText text c r lim) (hc : c ≤ 2147483647) (hr : r ≤ 2147483647)
    (hs : Settled s) (hk : 3 < n) : Does s (mapNumbers (knot n) (tokens (skipWs text) []) 0 (0, 0, 0)) ((c : Int), (r : Int), counter lim) [] := by
  have sep : ∀ {ds v}, Decimal ds v → ∀ c ∈ ds, c ∉ [44, 59, 120, 32] := by
    intro ds v h c hc
    have := h.digits c hc
    simp; omega
  have sub : ∀ {d}, d ∈ [44, 120, 32] → d ∈ [44, 59, 120, 32] := by
    intro d hd
    simp at hd ⊢; omega
  have skip : ∀ (b ds : Str) (v : Nat) (t : Str), Blanks b → Decimal ds v → skipWs (b ++ (ds ++ t)) = ds ++ t := by
    intro b ds v t hb h
    obtain ⟨y, u, rfl⟩ := List.exists_cons_of_ne_nil h.some
    rw [skipWs_blanks b _ hb, List.cons_append, skipWs_cons y _ (digit_nonblank (h.digits y (by simp)))]
  cases h with
  | all b cs d rs _ _ hb h1 h2 h3 =>
    rw [skip b cs c _ hb h1, tokens_words (.word cs d rs [rs] h1.some (sep h1) (sub h2) (.last rs h3.some (sep h3)))]
    exact (does_decimal h1 hc hs hk).step ((does_decimal h3 hr hs hk).step (Does.pure s _))
  | limited b cs d rs e ls _ _ n hb h1 h2 h3 h4 h5 h6 =>
    rw [skip b cs c _ hb h1, tokens_words (.word cs d _ [rs, ls] h1.some (sep h1) (sub h2)
      (.word rs e ls [ls] h3.some (sep h3) (sub h4) (.last ls h5.some (sep h5))))]
    refine (does_decimal h1 hc hs hk).step ((does_decimal h3 hr hs hk).step ((does_decimal h5 (by omega) hs hk).step ?_))
    have : toI32 ((n : Int) + 1) = counter (some n) := by
      unfold toI32 counter
      dsimp only
      omega
    rw [this]
    exact Does.pure s _

/-! ### The labels -/

/-- The labels with one more of them, if there is a name. -/
def plusLabel (name : Option Str) (suffix : Str) (v : Int) (adds : List (Str × Int)) : List (Str × Int) :=
  match name with
  | none => adds
  | some t => adds ++ [(t ++ suffix, v)]

theorem plus_add (s st : S) (name : Option Str) (suffix : Str) (v : Int) (tab : Table Label) (adds : List (Str × Int)) (h : Has s tab adds)
    (hst : Calm { s with labels := tab } st) (hm : s.mode.codeCounter = false) (ha : ∀ t, name = some t → Addable s [(t ++ suffix, v)])
    (hd : ∀ t, name = some t → ∀ e ∈ adds, nameKey s e.1 ≠ nameKey s (t ++ suffix)) :
    ∃ tab', Has s tab' (plusLabel name suffix v adds) ∧ imageLabel name suffix v st = .ok () { st with labels := tab' } := by
  cases name with
  | none =>
    refine ⟨tab, h, ?_⟩
    obtain ⟨⟨pc, m, o, d', f', rfl⟩, -, -⟩ := hst
    rfl
  | some t => exact has_add s st t suffix v tab adds h hst hm (ha t rfl) (hd t rfl)

theorem setDefine_glob (k : Rec) (s : S) (key text : Str) (d : Define) (h : s.defines.lookup key = some d) :
    setDefine k (.glob key) text false s = .ok () { s with defines := s.defines.update key fun d => { d with contents := some text } } := by
  unfold setDefine
  rw [M.get_bind]
  have hder : derefDef (.glob key) s = some d := h
  rw [hder]
  rfl

theorem mapAreas_length (p : Bitmap) (m : ImageMap) : (mapAreas p m).length ≤ m.columns * m.rows := by
  have h : ((List.range m.columns).flatMap fun i => (List.range m.rows).map fun j => mapArea p m i j).length = m.columns * m.rows := by
    simp [List.length_flatMap]
  unfold mapAreas upTo
  split
  · rw [h]
  · rw [List.length_take, h]; omega

/-- The key of the name of the map. -/
theorem mapKey (s : S) : nameKey s (b! "__BM_MAP") = b! "__BM_MAP" := by
  unfold nameKey
  split
  · rfl
  · decide

theorem handle_map {s : S} {depth n : Nat} {c : Settings} {p : Bitmap} {m : ImageMap} {header text : List Nat} {sizes : List Nat} {df : Define}
    (hp : BitmapFile p) (hfit : MapFits p m) (htext : MapText text m.columns m.rows m.limit)
    (ha : argumentOf s (b! "__BM_MAP") = none) (hl : labelOf s (b! "__BM_MAP") = none) (hdf : defineOf s (b! "__BM_MAP") = some df)
    (hargs : df.args = []) (hcont : df.contents = some text) (hsess : 1 ≤ s.session)
    (hpad : SettingIs s depth (b! "__BM_PAD") none ∧ m.margin = 0 ∨ SettingIs s depth (b! "__BM_PAD") (some (m.margin : Int)))
    (hD : depth ≤ 17) (hk : depth + 3 < n) (hm : s.mode.codeCounter = false)
    (hsizes : sizes = (mapBytes c p m header fun _ _ => 0).map List.length)
    (hadd : Addable s (mapLabels (imageName s) (imageOf p m).width (imageOf p m).height sizes s.pc))
    (hkeep : ∀ tab, (∀ t, labelOf { s with labels := tab } t = labelOf s t ∨
        ∃ e ∈ mapLabels (imageName s) (imageOf p m).width (imageOf p m).height sizes s.pc, nameKey s t = nameKey s e.1) →
      SettingsAre { s with labels := tab } depth c ∧ HeaderIs { s with labels := tab } depth c (imageOf p m) header ∧ Settled { s with labels := tab })
    (hpc : 0 ≤ s.pc ∧ s.pc < 4294967296) (hroom : HasRoom (mapBytes c p m header fun _ _ => 0).flatten.length s) :
    ∃ d f tab, Has s tab (mapLabels (imageName s) (imageOf p m).width (imageOf p m).height sizes s.pc) ∧
      handleBitmap (knot n) p.bytes s = .ok () { after (mapBytes c p m header (shadeAt c.shades p ⟨0, 0, p.width, p.height⟩)).flatten d f s with
        labels := tab, defines := s.defines.update (b! "__BM_MAP") fun d => { d with contents := some (b! "0") } } := by
  obtain ⟨hset, hhead, hs⟩ := hkeep s.labels (fun t => .inl rfl)
  have ho : 0 ≤ s.outPtr ∧ s.outPtr ≤ 8000000 := ⟨hroom.1, by have := hroom.2; omega⟩
  have c0 : Calm s s := ⟨⟨_, _, _, _, _, rfl⟩, hpc, ho.1⟩
  have room : ∀ d f, HasRoom ([] : Str).length (after [] d f s) := by
    intro d f
    rw [after_nil _ _ _ hpc]
    exact ⟨ho.1, by simpa using ho.2⟩
  -- the settings
  obtain ⟨vp, hvp, hvm⟩ : ∃ v, SettingIs s depth (b! "__BM_PAD") v ∧ (if v.getD (-1) = -1 then 0 else v.getD (-1)) = (m.margin : Int) := by
    rcases hpad with ⟨h1, h2⟩ | h1
    · exact ⟨none, h1, by rw [h2]; rfl⟩
    · refine ⟨_, h1, ?_⟩
      show (if (m.margin : Int) = -1 then 0 else (m.margin : Int)) = _
      rw [if_neg (by omega)]
  obtain ⟨vc, hvc, hcol⟩ := hset.columns
  obtain ⟨d1, f1, e1⟩ := does_parse hvp (settingName (b! "BM_PAD") (by decide)) hs hD hk s c0 ⟨ho.1, by simpa using ho.2⟩
  have c1 := c0.after [] d1 f1
  obtain ⟨d2, f2, e2⟩ := does_parse hvc (settingName (b! "BM_MIN_W") (by decide)) hs hD hk _ c1 (room d1 f1)
  rw [after_append _ _ _ _ _ _ _ ho.1, List.append_nil] at e2
  have hbase : ∀ d f, imageBase (after [] d f s) = imageName s := by
    intro d f
    rw [after_nil _ _ _ hpc]
    unfold imageBase imageName toU32
    dsimp only
    cases s.lastLabel with
    | none => rfl
    | some k =>
      dsimp only [Option.bind]
      rw [lookup_eq]
      cases s.labels.find? (fun p => decide (p.1 = k)) <;> rfl
  have hcomp := hp.complete
  have hoff : min (54 + 4 * p.model.nColors) p.bytes.length = p.model.offBits := by
    show min (54 + 4 * p.colours) p.bytes.length = 54 + 4 * p.colours
    omega
  have hmain : ¬ Maintained s (b! "__BM_MAP") := by
    unfold Maintained
    rw [mapKey]
    decide
  have hlook : s.defines.lookup (b! "__BM_MAP") = some df := by
    have := hdf
    rw [defineOf_eq, mapKey] at this
    exact this
  have hu : searchDefines (b! "__BM_MAP") true (after [] d1 f1 s) = .ok (some (.glob (b! "__BM_MAP"), df)) (after [] d1 f1 s) := by
    rw [after_nil _ _ _ hpc]
    generalize hS : ({ s with parseDepth := d1, fwdRef := f1 } : S) = s1
    have hmain1 : ¬ Maintained s1 (b! "__BM_MAP") := by rw [← hS]; exact hmain
    rw [searchDefines_calm _ _ (by rw [keyOf_eq]; exact refreshed_none s1 _ hmain1), keyOf_eq, mapKey]
    have h1 : argumentOf s1 (b! "__BM_MAP") = none := by rw [← hS]; exact ha
    have h2 : s1.defines.lookup (b! "__BM_MAP") = some df := by rw [← hS]; exact hlook
    have h3 := searchLocal_eq s1 (b! "__BM_MAP")
    unfold searchLocal at h3
    rw [keyOf_eq, mapKey, h1] at h3
    unfold findDefine
    cases hfa : findArg (b! "__BM_MAP") s1.argSets 0 with
    | some x => rw [hfa] at h3; cases h3
    | none =>
      dsimp only
      rw [h2]
      rfl
  obtain ⟨hc0, hcw, hW, hcw0⟩ := mapFits_columns hfit
  obtain ⟨hr0, hrh, hH, hch0⟩ := mapFits_rows hfit
  have hwm := hfit.width.2.2
  have hhm := hfit.height.2.2
  have hpw := hp.width.2
  have hph := hp.height.2
  obtain ⟨d3, e3⟩ := parseF_map { s with parseDepth := d2, fwdRef := f2 } n (b! "__BM_MAP") text m.columns m.rows m.limit (settingName (b! "BM_MAP") (by decide)) htext (by omega) df
    ha hl hdf hargs hcont hmain hs hsess (by omega)
  obtain ⟨d4, f4, e4⟩ := does_numbers (s := s) (n := n) htext (by omega) (by omega) hs (by omega) (after [] d3 false s) (c0.after _ _ _) (room _ _)
  rw [after_append _ _ _ _ _ _ _ ho.1, List.append_nil] at e4
  -- the labels before the images
  have hin : ∀ t, imageName s = some t → ∀ e ∈ mapLabels (imageName s) (imageOf p m).width (imageOf p m).height sizes s.pc, Addable s [e] := by
    intro t _ e he e' he'
    rw [List.mem_singleton] at he'
    subst he'
    exact hadd _ he
  obtain ⟨t1, l1, i1⟩ := plus_add s (after [] d4 f4 s) (imageName s) (b! "_WIDTH") (imageOf p m).width s.labels [] (has_nil s) (c0.after _ _ _) hm
    (by
      intro t ht
      refine hin t ht _ ?_
      rw [ht]
      simp [mapLabels])
    (by intro t _ e he; simp at he)
  obtain ⟨t2, l2, i2⟩ := plus_add s { after [] d4 f4 s with labels := t1 } (imageName s) (b! "_HEIGHT") (imageOf p m).height t1 _ l1
    ⟨⟨_, _, _, _, _, rfl⟩, (c0.after [] d4 f4).pc, (c0.after [] d4 f4).out⟩ hm
    (by
      intro t ht
      refine hin t ht _ ?_
      rw [ht]
      simp [mapLabels])
    (by
      intro t ht e he
      rw [ht] at he
      simp only [plusLabel, List.nil_append, List.mem_singleton] at he
      subst he
      dsimp only
      rw [nameKey_suffix _ _ _ (by decide), nameKey_suffix _ _ _ (by decide)]
      intro h
      exact absurd (List.append_cancel_left h) (by decide))
  have l2' : Has s t2 (someLabels (imageName s) (imageOf p m).width (imageOf p m).height sizes s.pc 0) := by
    have : plusLabel (imageName s) (b! "_HEIGHT") ((imageOf p m).height : Int) (plusLabel (imageName s) (b! "_WIDTH") ((imageOf p m).width : Int) []) =
        someLabels (imageName s) (imageOf p m).width (imageOf p m).height sizes s.pc 0 := by
      unfold plusLabel someLabels
      cases imageName s <;> rfl
    rw [← this]
    exact l2
  -- the images
  generalize hL : ((List.range m.columns).flatMap fun i => (List.range m.rows).map fun j => mapArea p m i j) = L
  have hLm : mapAreas p m = upTo m.limit L := by rw [← hL]; rfl
  have hsz : sizes = (upTo m.limit L).map (fun a => (header ++ partBytes c p a (shadeAt c.shades p ⟨0, 0, p.width, p.height⟩)).length) := by
    rw [hsizes]
    unfold mapBytes
    rw [hLm, List.map_map]
    refine List.map_congr_left fun a _ => ?_
    show (header ++ partBytes c p a _).length = _
    rw [List.length_append, List.length_append, partBytes_length]
  have hfew : sizes.length ≤ 9999999 := by
    rw [hsz, List.length_map, ← hLm]
    exact Nat.le_trans (mapAreas_length p m) hfit.few
  have hbytes : (mapBytes c p m header (shadeAt c.shades p ⟨0, 0, p.width, p.height⟩)).flatten =
      (upTo m.limit L).flatMap fun a => header ++ partBytes c p a (shadeAt c.shades p ⟨0, 0, p.width, p.height⟩) := by
    unfold mapBytes
    rw [hLm]
    rfl
  have hlen : ((upTo m.limit L).flatMap fun a => header ++ partBytes c p a (shadeAt c.shades p ⟨0, 0, p.width, p.height⟩)).length =
      (mapBytes c p m header fun _ _ => 0).flatten.length := by
    rw [List.length_flatMap, List.length_flatten, ← hsizes, hsz]
  have hord : Order p m ((p.model.width.toNat + 1) * (p.model.height.toNat + 2) + (counter m.limit).toNat + 1) 0
      ((p.height : Int) - (imageOf p m).height - 2 * m.margin) L := by
    rw [← hL]
    exact order_all hfit _
  have hpce : (after [] d4 f4 s).pc = s.pc := by rw [after_nil _ _ _ hpc]
  obtain ⟨d5, f5, t5, l5, e5⟩ := loop_images hp hD hk hm hadd hkeep hfew hpc.1 _ 0 _ L hord m.limit 0 { after [] d4 f4 s with labels := t2 } t2
    ⟨⟨_, _, _, _, _, rfl⟩, (c0.after [] d4 f4).pc, (c0.after [] d4 f4).out⟩ l2' (by omega) (by rw [List.drop_zero]; exact hsz)
    (by
      show (after [] d4 f4 s).pc = _
      rw [hpce]
      simp only [List.take_zero, List.sum_nil]
      omega)
    (by
      rw [hlen]
      show HasRoom _ ({ after [] d4 f4 s with labels := t2 } : S)
      rw [after_nil _ _ _ hpc]
      exact hroom)
  generalize hB : ((upTo m.limit L).flatMap fun a => header ++ partBytes c p a (shadeAt c.shades p ⟨0, 0, p.width, p.height⟩)) = B at *
  have est : ({ after B d5 f5 { after [] d4 f4 s with labels := t2 } with labels := t5 } : S) = { after B d5 f5 s with labels := t5 } := by
    rw [after_nil _ _ _ hpc]
    rfl
  rw [est] at e5
  obtain ⟨t6, l6, i6⟩ := plus_add s { after B d5 f5 s with labels := t5 } (imageName s) (b! "_COUNT") sizes.length t5 _ l5
    ⟨⟨_, _, _, _, _, rfl⟩, (c0.after B d5 f5).pc, (c0.after B d5 f5).out⟩ hm
    (by
      intro t ht
      refine hin t ht _ ?_
      rw [ht]
      simp [mapLabels])
    (by
      intro t ht
      rw [ht]
      exact someLabels_count s t _ _ _ _ _)
  refine ⟨d5, f5, t6, ?_, ?_⟩
  · have : plusLabel (imageName s) (b! "_COUNT") (sizes.length : Int) (someLabels (imageName s) (imageOf p m).width (imageOf p m).height sizes s.pc sizes.length) =
        mapLabels (imageName s) (imageOf p m).width (imageOf p m).height sizes s.pc := by
      unfold plusLabel someLabels mapLabels
      cases imageName s <;> rfl
    rw [← this]
    exact l6
  · unfold handleBitmap
    rw [M.bind_ok e1, M.bind_ok hu, M.bind_ok e2, bmpOf_file hp]
    dsimp only
    rw [if_neg (by decide), if_neg (by simpa using hoff), M.get_bind, hbase]
    have e3' : parseF (knot n) (b! "__BM_MAP") (after [] d2 f2 s) = .ok (-1) (after [] d3 false s) := by
      rw [after_nil _ _ _ hpc, after_nil _ _ _ hpc]
      exact e3
    rw [M.bind_ok e3', if_neg (by decide), hcont]
    dsimp only
    unfold bitmapMap
    have hred : reduceString (knot n) (skipWs text) (after [] d3 false s) = .ok (skipWs text) (after [] d3 false s) := by
      refine reduceString_plain _ _ _ ?_
      obtain ⟨b, x, rfl, hb, hx, hz⟩ := map_bytes htext
      obtain ⟨y, u, rfl, hy⟩ := hx
      rw [skipWs_blanks b _ hb, skipWs_cons y _ (digit_nonblank hy)]
      intro z h
      have := hz z h
      omega
    rw [M.bind_ok hred, M.bind_ok e4]
    dsimp only
    rw [if_neg (by omega), if_neg (by omega), hvm]
    have hw1 : (p.model.width - (m.columns : Int) * 2 * m.margin).tdiv m.columns = ((imageOf p m).width : Int) := by
      show ((p.width : Int) - (m.columns : Int) * 2 * m.margin).tdiv m.columns = ((p.width / m.columns - 2 * m.margin : Nat) : Int)
      have : (p.width : Int) - (m.columns : Int) * 2 * m.margin = (m.columns : Int) * ((p.width / m.columns - 2 * m.margin : Nat) : Int) := by
        rw [Int.ofNat_sub hwm]
        have hW' : (m.columns : Int) * ((p.width / m.columns : Nat) : Int) = p.width := by exact_mod_cast hW
        rw [Int.mul_sub, hW', Int.mul_assoc]
        push_cast
        rfl
      rw [this, Int.mul_tdiv_cancel_left _ (by omega)]
    have hh1 : (p.model.height - (m.rows : Int) * 2 * m.margin).tdiv m.rows = ((imageOf p m).height : Int) := by
      show ((p.height : Int) - (m.rows : Int) * 2 * m.margin).tdiv m.rows = ((p.height / m.rows - 2 * m.margin : Nat) : Int)
      have : (p.height : Int) - (m.rows : Int) * 2 * m.margin = (m.rows : Int) * ((p.height / m.rows - 2 * m.margin : Nat) : Int) := by
        rw [Int.ofNat_sub hhm]
        have hH' : (m.rows : Int) * ((p.height / m.rows : Nat) : Int) = p.height := by exact_mod_cast hH
        rw [Int.mul_sub, hH', Int.mul_assoc]
        push_cast
        rfl
      rw [this, Int.mul_tdiv_cancel_left _ (by omega)]
    rw [hw1, hh1, M.bind_ok i1, hbytes]
    refine (M.bind_ok i2).trans ((M.bind_ok e5).trans ((M.bind_ok i6).trans ?_))
    exact setDefine_glob (knot n) { after B d5 f5 s with labels := t6 } (b! "__BM_MAP") (b! "0") df hlook

end Spasm.Props
