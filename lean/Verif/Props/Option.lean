import Verif.Props.Defines
import Verif.Props.Message
import Verif.Spec.Option
import Mathlib.Data.List.TakeWhile

/-
C69: `.option`. C70: `.show`. C71: `__LINE` and `__FILE`.
-/

namespace Spasm.Props
open Spasm Spec

/-- The name of a directive, in any case. -/
theorem lineSec_anycase (k : Rec) {w W : Str} (d : Dir) (h : w.map upperCase = W) (hW : ∀ x ∈ W, isSpace x = false) (hl : W.length < 32)
    (hd : (dirNames.find? (fun d => eqCase d.1 W)).map (·.2) = some d) (b t : Str) (c : Nat) (hb : Blanks b) (hc : c = 32 ∨ c = 9) (s : S) :
    lineSecBody k (b ++ 46 :: w ++ c :: t) s = runDir k d (skipWs t) s := by
  have hWW : W.map upperCase = W := by
    rw [← h, List.map_map]
    exact List.map_congr_left fun x _ => upperCase_idem x
  refine lineSec_message k b w c t d hb hc ?_ ?_ ?_ s
  · intro x hx
    rw [← isSpace_upper]
    exact hW _ (by rw [← h]; exact List.mem_map_of_mem hx)
  · rw [← h] at hl; simpa using hl
  · rw [← hd]
    congr 2
    funext d
    exact eqCase_of_upper' (by rw [h, hWW]) d.1

/-! ### `.option` -/

theorem balanced_ordinary {d : Str} {i : Bool} {c : Nat} {t : Str} (h : Balanced d i (c :: t)) (hc : Ordinary c) : Balanced d i t := by
  unfold Ordinary at hc
  cases h with
  | char i c t _ _ h => exact h
  | quoted => omega
  | escaped => omega
  | string => omega
  | paren => omega

theorem balanced_ordinaries {d : Str} {i : Bool} {t : Str} : ∀ {a : Str}, Balanced d i (a ++ t) → (∀ c ∈ a, Ordinary c) → Balanced d i t
  | [], h, _ => h
  | c :: a, h, hc => balanced_ordinaries (balanced_ordinary h (hc c (by simp))) (fun x hx => hc x (by simp [hx]))

theorem nameChar_ordinary {c : Nat} (h : NameChar c) : Ordinary c := by
  rw [← isNameChar_iff] at h
  unfold isNameChar isAlnum isAlpha isUpper isLower isDigit at h
  unfold Ordinary
  simp at h
  omega

theorem nameChar_not_white {c : Nat} (h : NameChar c) : ¬ White c := by
  rw [← isNameChar_iff] at h
  unfold isNameChar isAlnum isAlpha isUpper isLower isDigit at h
  unfold White
  simp at h
  omega

theorem nameChar_not_equals {c : Nat} (h : NameChar c) : c ≠ 61 := by
  rw [← isNameChar_iff] at h
  unfold isNameChar isAlnum isAlpha isUpper isLower isDigit at h
  simp at h
  omega

theorem balanced_name {d : Str} : ∀ {a : Str}, (∀ c ∈ a, NameChar c) → (∀ c ∈ a, c ∉ d) → Balanced d false a
  | [], _, _ => .nil _
  | c :: a, h, hd => .char _ _ _ (nameChar_ordinary (h c (by simp))) (fun _ => hd c (by simp))
      (balanced_name (fun x hx => h x (by simp [hx])) (fun x hx => hd x (by simp [hx])))

theorem trimmed_name {a : Str} (h0 : a ≠ []) (h : ∀ c ∈ a, NameChar c) : Trimmed a :=
  ⟨h0, fun c hc => nameChar_not_white (h c (List.mem_of_mem_head? hc)), fun c hc => nameChar_not_white (h c (List.mem_of_getLast? hc))⟩

/-- Reading the name of an option. -/
theorem readExpr_option (name b r : Str) (s : S) (h0 : name ≠ []) (hn : ∀ c ∈ name, NameChar c) (hb : Blanks b) (hl : (name ++ b).length ≤ 254)
    (hr : r = [] ∨ ∃ t, r = 61 :: t) : readExpr [61] (name ++ b ++ r) true s = .ok (true, name, r) s := by
  have nb : Blanks [] := by intro c hc; simp at hc
  have := readExpr_balanced true [61] (by decide) (by decide) [] name b r s nb hb
    (balanced_name hn (fun c hc => by simpa using nameChar_not_equals (hn c hc))) (trimmed_name h0 hn) (fun _ => hl) (by
      rcases hr with rfl | ⟨t, rfl⟩
      · exact .inl rfl
      · exact .inr (.inl (by simp [hd])))
  simpa using this

/-- One operand of `.option`: the name, the text, and the text it is given. -/
theorem option_operand {a name text : Str} (h : Sets a name text) (ha : Argument a) (hl : a.length ≤ 254) (h0 : name ≠ [])
    (hn : ∀ c ∈ name, NameChar c) (s : S) :
    ∃ e, readExpr [61] a true s = .ok (true, name, e) s ∧ (if isEnd (skipWs (dropChar 61 e)) then [49] else dropChar 61 e) = text := by
  have nb : Blanks [] := by intro c hc; simp at hc
  cases h with
  | bare =>
    refine ⟨[], ?_, rfl⟩
    simpa using readExpr_option a [] [] s h0 hn nb (by simpa using hl) (.inl rfl)
  | nothing _ b hb =>
    refine ⟨[61], readExpr_option name b [61] s h0 hn hb (by simp at hl ⊢; omega) (.inr ⟨_, rfl⟩), rfl⟩
  | text _ b _ hb ht =>
    refine ⟨61 :: text, readExpr_option name b (61 :: text) s h0 hn hb (by simp at hl ⊢; omega) (.inr ⟨_, rfl⟩), ?_⟩
    have hdrop : dropChar 61 (61 :: text) = text := rfl
    rw [hdrop]
    have hbal : Balanced [44] false text := by
      refine balanced_ordinaries (a := name ++ b ++ [61]) (by simpa using ha.balanced) ?_
      intro c hc
      simp only [List.mem_append, List.mem_singleton] at hc
      rcases hc with (hc | hc) | rfl
      · exact nameChar_ordinary (hn c hc)
      · have := hb c hc
        unfold Ordinary; omega
      · unfold Ordinary; omega
    have hlast : ∀ c ∈ text.getLast?, ¬ White c := by
      intro c hc
      refine ha.trimmed.2.2 c ?_
      rw [show name ++ b ++ 61 :: text = (name ++ b ++ [61]) ++ text by simp, List.getLast?_append]
      cases hx : text.getLast? with
      | none => rw [hx] at hc; cases hc
      | some x => rw [hx] at hc; exact hc
    obtain ⟨p, q, hpq, hp, hq⟩ : ∃ p q, text = p ++ q ∧ Blanks p ∧ skipWs text = q := by
      refine ⟨text.takeWhile isBlank, skipWs text, (List.takeWhile_append_dropWhile).symm, ?_, rfl⟩
      intro c hc
      have := List.mem_takeWhile_imp hc
      unfold isBlank isSpace at this
      simp at this
      omega
    rw [hq]
    have hq0 : q ≠ [] := by
      rintro rfl
      rw [List.append_nil] at hpq
      rw [hpq] at ht hlast
      cases hx : p.getLast? with
      | none => simp at hx; exact ht hx
      | some x =>
        have h1 := hlast x hx
        have h2 := hp x (List.mem_of_getLast? hx)
        apply h1; unfold White; omega
    have hqb : Balanced [44] false q := by
      refine balanced_ordinaries (a := p) (by rw [← hpq]; exact hbal) ?_
      intro c hc
      have := hp c hc
      unfold Ordinary; omega
    obtain ⟨c, r, rfl, h1, h2, h3, h4, h5⟩ := balanced_start hqb hq0
    have : isEnd (c :: r) = false := by
      unfold isEnd; simp; omega
    rw [this]; simp

/-- Defining the name of an option. -/
theorem option_define (k : Nat) (s : S) (name text : Str) (hs : WellNamed s) (h : OptionName s name) :
    ∃ r redef T s1, addDefine (optionName name) true s = .ok (some (r, redef)) s1 ∧ setDefine (knot k) r text false s1 = .ok () { s with defines := T } ∧
      (∀ n, ((defineOf { s with defines := T } n).bind Define.text) =
        if nameKey s (optionName name) = nameKey s n then some text else (defineOf s n).bind Define.text) ∧ WellNamed { s with defines := T } := by
  obtain ⟨T, d, e1, e2, e3, e4, e5, e6, e7⟩ := addDefine_plain s (optionName name) (by simp [optionName]) h.noLabel h.noArgument h.ours hs
  refine ⟨_, _, T.update (nameKey s (optionName name)) (fun d => { d with contents := some text }), _, e1, ?_, ?_,
    names_update Define.name _ (fun d => { d with contents := some text }) (fun _ => rfl) e7⟩
  · unfold setDefine
    rw [M.get_bind]
    have hder : derefDef (.glob (nameKey s (optionName name))) { s with defines := T } = some d := e2
    rw [hder]
    rfl
  · intro n
    rw [defineOf_eq]
    show ((Table.update (nameKey s (optionName name)) (fun d => { d with contents := some text }) T).lookup (nameKey s n)).bind _ = _
    rw [Table.lookup_update]
    by_cases hk : nameKey s (optionName name) = nameKey s n
    · rw [if_pos hk.symm, if_pos hk, ← hk, e2]
      show Define.text { d with contents := some text } = _
      unfold Define.text
      rw [if_pos e4]
    · rw [if_neg (fun h => hk h.symm), if_neg hk, e6 _ (fun h => hk h.symm), ← defineOf_eq]

theorem optionName_defines {s : S} {name : Str} (T : Table Define) (h : OptionName s name) : OptionName { s with defines := T } name := by
  obtain ⟨h1, h2, h3, h4, h5⟩ := h
  exact ⟨h1, h2, h3, h4, h5⟩

/-- The loop over the operands. -/
theorem dirOption_runs (k : Nat) {args : List Str} {t : Str} (hj : Joined args t) : ∀ (os : List (Str × Str)) (rest : Str) (s : S) (f : Nat) (e : Bool),
    List.Forall₂ (fun a o => Sets a o.1 o.2) args os → (∀ o ∈ os, OptionName s o.1) → WellNamed s → EndsList rest → args.length < f →
    ∃ T, dirOption (knot k) f e (t ++ rest) s = .ok (some rest) { s with defines := T } ∧
      (∀ n, (defineOf { s with defines := T } n).bind Define.text = optionText (nameKey s) n ((defineOf s n).bind Define.text) os) ∧
      WellNamed { s with defines := T } := by
  have step : ∀ (a : Str) (o : Str × Str) (s : S) (f : Nat) (e e' : Bool) (r u : Str), Argument a → a.length ≤ 254 → Sets a o.1 o.2 → OptionName s o.1 →
      WellNamed s → extractArg e u s = .ok (some a, e', r) s →
      ∃ T, dirOption (knot k) (f + 1) e u s = dirOption (knot k) f e' r { s with defines := T } ∧
        (∀ n, ((defineOf { s with defines := T } n).bind Define.text) =
          if nameKey s (optionName o.1) = nameKey s n then some o.2 else (defineOf s n).bind Define.text) ∧ WellNamed { s with defines := T } := by
    intro a o s f e e' r u ha hl hset hname hw hx
    obtain ⟨c, w, hcw, hc⟩ := hname.letter
    obtain ⟨ex, hr, htext⟩ := option_operand hset ha hl (by rw [hcw]; simp) hname.chars s
    obtain ⟨rf, redef, T, s1, h1, h2, h3, h4⟩ := option_define k s o.1 o.2 hw hname
    refine ⟨T, ?_, h3, h4⟩
    rw [dirOption, M.bind_ok hx]
    dsimp only
    rw [M.bind_ok hr]
    dsimp only
    have halpha : isAlpha (Spasm.hd o.1) = true := by
      rw [hcw]
      show isAlpha c = true
      unfold isAlpha isUpper isLower
      simp; omega
    rw [halpha]
    simp only [Bool.not_true, Bool.false_eq_true, if_false]
    rw [htext]
    have h1' : addDefine ([95, 95] ++ o.1) true s = .ok (some (rf, redef)) s1 := h1
    rw [M.bind_ok h1']
    dsimp only
    rw [M.bind_ok h2]
  have stop : ∀ (f : Nat) (rest : Str) (s : S), EndsList rest → dirOption (knot k) (f + 1) false rest s = .ok (some rest) s := by
    intro f rest s hr
    rw [dirOption, M.bind_ok (extractArg_end hr s)]
    rfl
  induction hj with
  | one b a b' hb hb' ha hl =>
    intro os rest s f e hos hnames hw hr hf
    cases hos with
    | @cons _ o _ _ h1 h2 =>
    cases h2
    obtain ⟨f, rfl⟩ : ∃ m, f = m + 2 := ⟨f - 2, by simp at hf; omega⟩
    obtain ⟨T, g1, g2, g3⟩ := step a o s (f + 1) e false rest _ ha (by simp at hl; omega) h1 (hnames o (by simp)) hw
      (C42_last_argument b a b' rest e s hb hb' ha hl hr)
    refine ⟨T, ?_, ?_, g3⟩
    · rw [g1, stop f rest _ hr]
    · intro n; rw [g2]; rfl
  | more b a b' as t hb hb' ha hl hj ih =>
    intro os rest s f e hos hnames hw hr hf
    cases hos with
    | @cons _ o _ os h1 h2 =>
    obtain ⟨f, rfl⟩ : ∃ m, f = m + 1 := ⟨f - 1, by omega⟩
    have hx := C42_argument b a b' (t ++ rest) e s hb hb' ha hl
    obtain ⟨T, g1, g2, g3⟩ := step a o s f e true (t ++ rest) _ ha (by simp at hl; omega) h1 (hnames o (by simp)) hw hx
    obtain ⟨T', i1, i2, i3⟩ := ih os rest { s with defines := T } f true h2
      (fun p hp => optionName_defines T (hnames p (by simp [hp]))) g3 hr (by simp at hf; omega)
    refine ⟨T', ?_, ?_, i3⟩
    · rw [show b ++ a ++ b' ++ [44] ++ t ++ rest = b ++ a ++ b' ++ [44] ++ (t ++ rest) by simp, g1, i1]
    · intro n
      rw [i2 n, g2 n]
      rfl

/-- C69: `.option` gives each name it lists, with two underscores before it, the text behind its equals sign (`1` if there
is none), exactly as written. Later operands replace earlier ones, and nothing else changes. -/
theorem C69_option (k : Nat) (args : List Str) (os : List (Str × Str)) (b w t rest : Str) (c : Nat) (s : S) (hw : w.map upperCase = b! "OPTION")
    (hb : Blanks b) (hc : c = 32 ∨ c = 9) (hj : Joined args t) (hos : List.Forall₂ (fun a o => Sets a o.1 o.2) args os)
    (hn : ∀ o ∈ os, OptionName s o.1) (hs : WellNamed s) (hr : AtEnd rest) :
    ∃ T, (knot (k + 1)).lineSec (b ++ 46 :: w ++ c :: t ++ rest) s = .ok (some rest) { s with defines := T } ∧
      (∀ n, (defineOf { s with defines := T } n).bind Define.text = optionText (nameKey s) n ((defineOf s n).bind Define.text) os) ∧
      WellNamed { s with defines := T } := by
  obtain ⟨t', hj', hsk⟩ := joined_skip hj
  have e1 : lineSecBody (knot k) (b ++ 46 :: w ++ c :: t ++ rest) s = runDir (knot k) .option (t' ++ rest) s := by
    rw [show b ++ 46 :: w ++ c :: t ++ rest = b ++ 46 :: w ++ c :: (t ++ rest) by simp,
      lineSec_anycase (knot k) .option hw (by decide) (by decide) (by decide) b (t ++ rest) c hb hc s, hsk]
  show ∃ T, lineSecBody (knot k) _ s = _ ∧ _
  rw [e1]
  exact dirOption_runs k hj' os rest s _ true hos hn hs (endsList_of_atEnd hr) (by have := joined_length hj'; simp; omega)

/-- Settings that name `shd` twice, `Clr` and `flag`. -/
example : ∃ T, (knot 1).lineSec (b! "  .Option shd = 4, clr=RGB(1, 2, 3) , shd=5,flag ; done") {} = .ok (some (b! "; done")) { ({} : S) with defines := T } ∧
    (defineOf { ({} : S) with defines := T } (b! "__shd")).bind Define.text = some (b! "5") ∧
    (defineOf { ({} : S) with defines := T } (b! "__CLR")).bind Define.text = some (b! "RGB(1, 2, 3)") ∧
    (defineOf { ({} : S) with defines := T } (b! "__flag")).bind Define.text = some (b! "1") ∧
    (defineOf { ({} : S) with defines := T } (b! "flag")).bind Define.text = none := by
  have b0 : Blanks [] := by intro c hc; cases hc
  have b1 : Blanks [32] := by intro c hc; simp at hc; omega
  have ch : ∀ (l : Str) (t : Str), (∀ c ∈ l, Ordinary c ∧ c ∉ [44]) → Balanced [44] false t → Balanced [44] false (l ++ t) := by
    intro l t h ht
    induction l with
    | nil => exact ht
    | cons c l ih => exact .char _ _ _ (h c (by simp)).1 (fun _ => (h c (by simp)).2) (ih fun x hx => h x (by simp [hx]))
  have ch' : ∀ (l : Str), (∀ c ∈ l, Ordinary c) → Balanced [44] true l := by
    intro l h
    induction l with
    | nil => exact .nil _
    | cons c l ih => exact .char _ _ _ (h c (by simp)) (fun h => by cases h) (ih fun x hx => h x (by simp [hx]))
  have plain : ∀ a : Str, a ≠ [] → (∀ c ∈ a, Ordinary c ∧ c ∉ [44]) → (∀ c ∈ a.head?, ¬ White c) → (∀ c ∈ a.getLast?, ¬ White c) → Argument a :=
    fun a h1 h2 h3 h4 => ⟨by simpa using ch a [] h2 (.nil _), h1, h3, h4⟩
  have hj : Joined [b! "shd = 4", b! "clr=RGB(1, 2, 3)", b! "shd=5", b! "flag"] (b! "shd = 4, clr=RGB(1, 2, 3) , shd=5,flag ") :=
    .more [] (b! "shd = 4") [] _ _ b0 b0 (plain _ (by decide) (by decide) (by decide) (by decide)) (by decide)
      (.more [32] (b! "clr=RGB(1, 2, 3)") [32] _ _ b1 b1
        ⟨ch (b! "clr=RGB") _ (by decide) (.paren _ (b! "1, 2, 3") [] (ch' _ (by decide)) (.nil _)), by decide, by decide, by decide⟩ (by decide)
        (.more [32] (b! "shd=5") [] _ _ b1 b0 (plain _ (by decide) (by decide) (by decide) (by decide)) (by decide)
          (.one [] (b! "flag") [32] b0 b1 (plain _ (by decide) (by decide) (by decide) (by decide)) (by decide))))
  have hset : List.Forall₂ (fun a o => Sets a o.1 o.2) [b! "shd = 4", b! "clr=RGB(1, 2, 3)", b! "shd=5", b! "flag"]
      [(b! "shd", b! " 4"), (b! "clr", b! "RGB(1, 2, 3)"), (b! "shd", b! "5"), (b! "flag", b! "1")] :=
    .cons (.text (b! "shd") [32] (b! " 4") b1 (by decide)) (.cons (.text (b! "clr") [] (b! "RGB(1, 2, 3)") b0 (by decide))
      (.cons (.text (b! "shd") [] (b! "5") b0 (by decide)) (.cons (.bare (b! "flag")) .nil)))
  have hname : ∀ o ∈ [(b! "shd", b! " 4"), (b! "clr", b! "RGB(1, 2, 3)"), (b! "shd", b! "5"), (b! "flag", b! "1")], OptionName ({} : S) o.1 := by
    intro o ho
    simp only [List.mem_cons, List.not_mem_nil, or_false] at ho
    rcases ho with rfl | rfl | rfl | rfl
    · exact ⟨⟨115, b! "hd", rfl, by decide⟩, by simp only [← isNameChar_iff]; decide, rfl, rfl, by decide⟩
    · exact ⟨⟨99, b! "lr", rfl, by decide⟩, by simp only [← isNameChar_iff]; decide, rfl, rfl, by decide⟩
    · exact ⟨⟨115, b! "hd", rfl, by decide⟩, by simp only [← isNameChar_iff]; decide, rfl, rfl, by decide⟩
    · exact ⟨⟨102, b! "lag", rfl, by decide⟩, by simp only [← isNameChar_iff]; decide, rfl, rfl, by decide⟩
  obtain ⟨T, h1, h2, -⟩ := C69_option 0 _ _ (b! "  ") (b! "Option") _ (b! "; done") 32 ({} : S) (by decide) (by intro c hc; simp at hc; omega) (.inl rfl)
    hj hset hname (by intro p hp; cases hp) (.inr ⟨59, _, rfl, by decide⟩)
  exact ⟨T, h1, (h2 _).trans (by decide), (h2 _).trans (by decide), (h2 _).trans (by decide), (h2 _).trans (by decide)⟩

/-- C69, refusals: an operand that does not start with a letter is reported, and it and the operands behind it have no effect. -/
theorem C69_refused (k : Nat) (a b w t rest : Str) (c : Nat) (s : S) (hw : w.map upperCase = b! "OPTION") (hb : Blanks b) (hc : c = 32 ∨ c = 9)
    (ha : Argument a) (hl : a.length ≤ 254) (hfirst : ∀ x ∈ a.head?, ¬ ((65 ≤ x ∧ x ≤ 90) ∨ (97 ≤ x ∧ x ≤ 122)))
    (hplain : Balanced [61] false a) (ht : t = a ++ 44 :: rest) :
    (knot (k + 1)).lineSec (b ++ 46 :: w ++ c :: t) s = .ok (some rest) (errorAt 0x125 s) := by
  subst ht
  have nb : Blanks [] := by intro c hc; cases hc
  have hsk : skipWs (a ++ 44 :: rest) = a ++ 44 :: rest := by
    obtain ⟨hne, hw, -⟩ := ha.trimmed
    cases a with
    | nil => exact absurd rfl hne
    | cons x a =>
      have := hw x rfl
      rw [← isSpace_iff] at this
      exact skipWs_cons _ _ (by unfold isBlank; simp [this])
  show lineSecBody (knot k) _ s = _
  rw [lineSec_anycase (knot k) .option hw (by decide) (by decide) (by decide) b _ c hb hc s, hsk]
  show dirOption (knot k) _ true _ s = _
  have hx := C42_argument [] a [] rest true s nb nb ha (by simpa using hl)
  simp only [List.nil_append, List.append_nil] at hx
  rw [show a ++ 44 :: rest = a ++ [44] ++ rest by simp, dirOption, M.bind_ok hx]
  dsimp only
  have hr := readExpr_balanced true [61] (by decide) (by decide) [] a [] [] s nb nb hplain ha.trimmed (fun _ => by simpa using hl) (.inl rfl)
  simp only [List.nil_append, List.append_nil] at hr
  rw [M.bind_ok hr]
  dsimp only
  have halpha : isAlpha (Spasm.hd a) = false := by
    cases a with
    | nil => rfl
    | cons x a =>
      have := hfirst x rfl
      show isAlpha x = false
      unfold isAlpha isUpper isLower
      simp; omega
  rw [halpha]
  rfl

/-! ### `.show` -/

theorem list_commas : ∀ l : List Str, List.intercalate [44, 32] l = commaList l
  | [] => rfl
  | [a] => by simp [List.intercalate, commaList]
  | a :: b :: l => by
    have := list_commas (b :: l)
    unfold List.intercalate at this ⊢
    rw [List.intersperse_cons_cons]
    simp only [List.flatten_cons, this, commaList]
    simp

theorem showDefine_prints (d : Define) (s : S) : showDefine d s = .ok () { s with log := s.log ++ [.text (shownLine d)] } := by
  unfold showDefine shownLine
  show Res.ok () _ = Res.ok () _
  dsimp only
  rw [list_commas]
  have : (if d.args.isEmpty = true then [] else [40] ++ commaList d.args ++ [41]) = (if d.args = [] then [] else [40] ++ commaList d.args ++ [41]) := by
    cases d.args <;> rfl
  rw [this]
  cases d.contents <;> rfl

theorem searchDefines_shown (s : S) (name : Str) (hm : ¬ Maintained s name) :
    ∃ r, searchDefines name true s = .ok r s ∧ r.map (·.2) = shownDefine s name := by
  refine ⟨_, searchDefines_calm name s (by rw [keyOf_eq]; exact refreshed_none s name hm), ?_⟩
  rw [keyOf_eq, findDefine_eq]
  rfl

/-- Reading the operand of `.show`. -/
theorem show_reads (k : Rec) (b w name b' rest : Str) (c : Nat) (s : S) (hw : w.map upperCase = b! "SHOW") (hb : Blanks b) (hc : c = 32 ∨ c = 9)
    (h0 : name ≠ []) (hn : ∀ x ∈ name, NameChar x) (hb' : Blanks b') (hl : (name ++ b').length ≤ 254) (hr : AtEnd rest) :
    lineSecBody k (b ++ 46 :: w ++ c :: name ++ b' ++ rest) s = dirShow k (name ++ b' ++ rest) s ∧
      readExpr [] (name ++ b' ++ rest) true s = .ok (true, name, rest) s := by
  have nb : Blanks [] := by intro c hc; cases hc
  constructor
  · have hsk := (name_skipWs h0 hn (b' ++ rest)).1
    rw [show b ++ 46 :: w ++ c :: name ++ b' ++ rest = b ++ 46 :: w ++ c :: (name ++ (b' ++ rest)) by simp,
      lineSec_anycase k .show_ hw (by decide) (by decide) (by decide) b _ c hb hc s, hsk]
    simp [runDir]
  · have := readExpr_balanced true [] (by simp) (by simp) [] name b' rest s nb hb' (balanced_name hn (by simp)) (trimmed_name h0 hn) (fun _ => hl)
      (AtEnd.stops hr [])
    simpa using this

/-- C70: `.show` prints the define or macro argument of its name: the name, its parameters and its text. Nothing else changes. -/
theorem C70_show (k : Nat) (b w name b' rest : Str) (c : Nat) (d : Define) (s : S) (hw : w.map upperCase = b! "SHOW") (hb : Blanks b) (hc : c = 32 ∨ c = 9)
    (h0 : name ≠ []) (hn : ∀ x ∈ name, NameChar x) (hb' : Blanks b') (hl : (name ++ b').length ≤ 254) (hr : AtEnd rest)
    (hm : ¬ Maintained s name) (hd : shownDefine s name = some d) :
    (knot (k + 1)).lineSec (b ++ 46 :: w ++ c :: name ++ b' ++ rest) s = .ok (some rest) { s with log := s.log ++ [.text (shownLine d)] } := by
  obtain ⟨e1, e2⟩ := show_reads (knot k) b w name b' rest c s hw hb hc h0 hn hb' hl hr
  show lineSecBody (knot k) _ s = _
  rw [e1]
  obtain ⟨r, e3, e4⟩ := searchDefines_shown s name hm
  rw [hd] at e4
  obtain ⟨⟨rf, d'⟩, rfl, rfl⟩ := Option.map_eq_some_iff.1 e4
  unfold dirShow
  rw [M.bind_ok e2]
  dsimp only
  rw [M.bind_ok e3]
  dsimp only
  rw [M.bind_ok (showDefine_prints d' s)]
  rfl

/-- The request of a `.show` for a name that is not defined yet, kept for the second pass: the place of the statement and the name. -/
def showAt (s : S) (name : Str) : POut := ⟨toI32 s.pc, s.lineNum, s.currReusable - 1, name, true, s.currFile⟩

/-- C70: a name that is not defined yet is kept for the second pass. Nothing else changes. -/
theorem C70_later (k : Nat) (b w name b' rest : Str) (c : Nat) (s : S) (hw : w.map upperCase = b! "SHOW") (hb : Blanks b) (hc : c = 32 ∨ c = 9)
    (h0 : name ≠ []) (hn : ∀ x ∈ name, NameChar x) (hb' : Blanks b') (hl : (name ++ b').length ≤ 254) (hr : AtEnd rest)
    (hd : shownDefine s name = none) :
    (knot (k + 1)).lineSec (b ++ 46 :: w ++ c :: name ++ b' ++ rest) s = .ok (some rest) { s with outputs := s.outputs ++ [showAt s name] } := by
  obtain ⟨e1, e2⟩ := show_reads (knot k) b w name b' rest c s hw hb hc h0 hn hb' hl hr
  show lineSecBody (knot k) _ s = _
  rw [e1]
  have hnone : argumentOf s name = none ∧ defineOf s name = none := by
    unfold shownDefine at hd
    cases ha : argumentOf s name with
    | some d => rw [ha] at hd; cases hd
    | none => rw [ha] at hd; exact ⟨rfl, hd⟩
  unfold dirShow
  rw [M.bind_ok e2]
  dsimp only
  rw [M.bind_ok (searchDefines_none name s hnone.1 hnone.2)]
  rfl

/-- C70: the second pass prints the define that the name has at the end of the source, or reports that there is none. Apart
from that it only goes to the place of the statement. -/
theorem C70_printed (k : Rec) (o : POut) (s : S) (ho : o.isShow = true) (hm : ¬ Maintained s o.expr) :
    runOutput k o s = .ok () (match shownDefine s o.expr with
      | some d => { s with pc := o.pc % 4294967296, lineNum := o.line, currFile := o.file, currReusable := o.reusable + 1, log := s.log ++ [.text (shownLine d)] }
      | none => errorAt 0x106 { s with pc := o.pc % 4294967296, lineNum := o.line, currFile := o.file, currReusable := o.reusable + 1 }) := by
  unfold runOutput
  rw [M.modify_bind]
  show (setCurrReusable o.reusable >>= _) _ = _
  unfold setCurrReusable
  rw [M.modify_bind, ho]
  simp only [if_true]
  obtain ⟨r, e1, e2⟩ := searchDefines_shown { s with pc := toU32 o.pc, lineNum := o.line, currFile := o.file, currReusable := o.reusable + 1 } o.expr hm
  rw [M.bind_ok e1]
  have e3 : shownDefine { s with pc := toU32 o.pc, lineNum := o.line, currFile := o.file, currReusable := o.reusable + 1 } o.expr = shownDefine s o.expr := rfl
  rw [e3] at e2
  rw [← e2]
  cases r with
  | none => rfl
  | some p => exact showDefine_prints p.2 _

/-! ### Examples -/

/-- The operand `5x=1` names no option; the error is reported and the operands behind it are read as a statement. -/
example : (knot 1).lineSec (b! " .option 5x,c") {} = .ok (some (b! "c")) (errorAt 0x125 {}) :=
  C69_refused 0 (b! "5x") [32] (b! "option") (b! "5x,c") (b! "c") 32 {} (by decide) (by intro c hc; simp at hc; omega) (.inl rfl)
    ⟨.char _ _ _ (by decide) (by decide) (.char _ _ _ (by decide) (by decide) (.nil _)), by decide, by decide, by decide⟩ (by decide) (by decide)
    (.char _ _ _ (by decide) (by decide) (.char _ _ _ (by decide) (by decide) (.nil _))) rfl

/-- A state in which `f(x,y)` is defined. -/
def shownState : S := { ({} : S) with defines := [(b! "F", { name := b! "F", contents := some (b! "x+y"), args := [b! "x", b! "y"], line := 3, file := b! "a.asm" })] }

theorem shownState_chars : ∀ x ∈ b! "f", NameChar x := by intro x hx; simp at hx; unfold NameChar Alnum; omega

example : (knot 1).lineSec (b! " .SHOW f ; now") shownState = .ok (some (b! "; now")) { shownState with log := [.text (b! "F(x, y): x+y\n")] } :=
  C70_show 0 [32] (b! "SHOW") (b! "f") [32] (b! "; now") 32 _ shownState (by decide) (by intro c hc; simp at hc; omega) (.inl rfl) (by decide)
    shownState_chars (by intro c hc; simp at hc; omega) (by decide) (.inr ⟨59, _, rfl, by simp⟩) (by decide +kernel) rfl

example : (knot 1).lineSec (b! " .show f") {} = .ok (some []) { ({} : S) with outputs := [⟨0, 0, -1, b! "f", true, []⟩] } :=
  C70_later 0 [32] (b! "show") (b! "f") [] [] 32 {} (by decide) (by intro c hc; simp at hc; omega) (.inl rfl) (by decide)
    shownState_chars (by intro c hc; cases hc) (by decide) (.inl rfl) rfl

example (k : Rec) : runOutput k ⟨256, 9, 0, b! "f", true, b! "b.asm"⟩ shownState =
    .ok () { shownState with pc := 256, lineNum := 9, currFile := b! "b.asm", currReusable := 1, log := [.text (b! "F(x, y): x+y\n")] } :=
  C70_printed k ⟨256, 9, 0, b! "f", true, b! "b.asm"⟩ shownState rfl (by decide +kernel)

example : (asm (b! " .show k\n#define k(a) 1\n .option x=5\n .show __x\n") [b! "a.asm"]).state.log =
    [.text (b! "__X: 5\n"), .text (b! "K(a):  1\n"), .wrote (b! "a.bin") []] := by decide +kernel

/-- C69 is violated when the option is the name of a label: the program dereferences a null pointer. -/
theorem C69_label :
    (match asm (b! "__x:\n .option x=1\n") [b! "a.asm"] with
     | .stop (.ub .nullDeref) _ => true
     | _ => false) = true := by decide +kernel

end Spasm.Props
