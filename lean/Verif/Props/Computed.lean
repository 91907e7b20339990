import Verif.Spec.Computed
import Verif.Props.MacroDef
import Verif.Props.Message
import Verif.Props.Bitmap

/-
C63: definitions whose text is computed.
-/

namespace Spasm.Props
open Spasm Spec

/-! ### Replacing words -/

theorem skipQuoted_string {b : Str} (h : StringBody b) (t : Str) : skipQuoted (b ++ 34 :: t) = t := by
  induction h with
  | nil =>
    cases t with
    | nil => rfl
    | cons c t => rw [List.nil_append, skipQuoted, if_pos (by decide)]
  | char c b h1 h2 h ih =>
    cases hx : b ++ 34 :: t with
    | nil => simp at hx
    | cons d u => rw [List.cons_append, hx, skipQuoted, if_neg (by simpa using h1), if_neg (by simpa using h2), ← hx, ih]
  | escape c b h ih =>
    rw [List.cons_append, List.cons_append, skipQuoted, if_neg (by decide), if_pos (by decide), ih]

/-- What the loop does with a word. -/
def Treated (k : Rec) (depth : Nat) (l : Bool) (s : S) (f : Str → Str) (w : Str) : Prop :=
  (searchDefines w l s = .ok none s ∧ searchLabels w s = none ∧ f w = w) ∨
  (∃ lb, searchDefines w l s = .ok none s ∧ searchLabels w s = some lb ∧ f w = (fmtInt lb.value).take 9) ∨
  (∃ r nm c ln fl, searchDefines w l s = .ok (some (r, ⟨nm, some c, [], ln, fl⟩)) s ∧ k.expandFull c (depth + 1) l s = .ok (f w) s)

theorem rewritten_dropSeps {f : Str → Str} {t t' : Str} (h : Rewritten f t t') :
    ∃ t'', t' = between t (t.dropWhile (fun c => separators.contains c)) ++ t'' ∧ Rewritten f (t.dropWhile fun c => separators.contains c) t'' := by
  have hsep : ∀ c ∈ separators, ¬ NameChar c ∧ c ≠ 34 := by
    intro c hc
    refine ⟨fun hn => ?_, by rintro rfl; revert hc; decide⟩
    have h1 := separators_not_name c hc
    rw [(isNameChar_iff c).2 hn] at h1
    cases h1
  induction h with
  | nil => exact ⟨[], rfl, .nil⟩
  | char c t t' hc hq h ih =>
    by_cases hs : c ∈ separators
    · obtain ⟨t'', e1, e2⟩ := ih
      have hd : (c :: t).dropWhile (fun c => separators.contains c) = t.dropWhile (fun c => separators.contains c) := by
        rw [List.dropWhile_cons, if_pos (by simpa using hs)]
      rw [hd]
      have hb : between (c :: t) (t.dropWhile (fun c => separators.contains c)) = c :: between t (t.dropWhile (fun c => separators.contains c)) := by
        have h1 := List.takeWhile_append_dropWhile (p := fun c => separators.contains c) (l := t)
        generalize t.dropWhile (fun c => separators.contains c) = v at h1
        rw [← h1, ← List.cons_append, between_append, between_append]
      exact ⟨t'', by rw [hb, e1]; rfl, e2⟩
    · have hd : (c :: t).dropWhile (fun c => separators.contains c) = c :: t := by
        rw [List.dropWhile_cons, if_neg (by simpa using hs)]
      rw [hd]
      exact ⟨_, by simp [between], .char c t t' hc hq h⟩
  | word w t t' hw hn ht h ih =>
    obtain ⟨c, r, rfl⟩ := List.exists_cons_of_ne_nil hw
    have hs : c ∉ separators := fun h => (hsep c h).1 (hn c (by simp))
    have hd : (c :: r ++ t).dropWhile (fun c => separators.contains c) = c :: r ++ t := by
      rw [List.cons_append, List.dropWhile_cons, if_neg (by simpa using hs)]
    rw [hd]
    exact ⟨_, by simp [between], .word _ t t' hw hn ht h⟩
  | string b t t' hb hh h ih =>
    have hd : (34 :: b ++ 34 :: t).dropWhile (fun c => separators.contains c) = 34 :: b ++ 34 :: t := by
      rw [List.cons_append, List.dropWhile_cons, if_neg (by decide)]
    rw [hd]
    exact ⟨_, by simp [between], .string b t t' hb hh h⟩

theorem expandLoop_quote (k : Rec) (depth : Nat) (l : Bool) (f : Nat) (b t out : Str) (s : S) (hb : StringBody b) (ht : t ≠ []) (hh : t.head? ≠ some 34) :
    expandLoop k depth l (f + 1) (34 :: b ++ 34 :: t) out s = expandLoop k depth l (f + 1) t (out ++ (34 :: b ++ [34])) s := by
  have h1 : (34 :: b ++ 34 :: t).isEmpty = false := rfl
  have h2 : t.isEmpty = false := by
    cases t with
    | nil => exact absurd rfl ht
    | cons => rfl
  have h3 : (Spasm.hd (34 :: b ++ 34 :: t) == 34) = true := rfl
  have h4 : (Spasm.hd t == 34) = false := by
    cases t with
    | nil => exact absurd rfl ht
    | cons c t => simpa using hh
  have h5 : (34 :: b ++ 34 :: t).tail = b ++ 34 :: t := rfl
  have h6 : between (34 :: b ++ 34 :: t) t = 34 :: b ++ [34] := by
    rw [show 34 :: b ++ 34 :: t = (34 :: b ++ [34]) ++ t by simp, between_append]
  have h7 : between t t = [] := by simp [between]
  conv => lhs; rw [expandLoop]
  conv => rhs; rw [expandLoop]
  simp only [h1, h2, h3, h4, h5, skipQuoted_string hb, h6, h7, Bool.false_eq_true, if_false, if_true, List.append_nil]

theorem expandLoop_rewritten (k : Rec) (depth : Nat) (l : Bool) (s : S) (hgo : s.errOccurred = false) (g : Str → Str)
    (H : ∀ w, w ≠ [] → (∀ c ∈ w, NameChar c) → Treated k depth l s g w) : ∀ (f : Nat) (t t' out : Str), t.length < f →
    Rewritten g t t' → expandLoop k depth l f t out s = .ok (out ++ t') s := by
  intro f
  induction f with
  | zero => intro t t' out h; omega
  | succ f ih =>
    have fin : ∀ (u u' o : Str), u.length < f → Rewritten g u u' →
        expandLoop k depth l f (u.dropWhile fun c => separators.contains c) (o ++ between u (u.dropWhile fun c => separators.contains c)) s =
          .ok (o ++ u') s := by
      intro u u' o hu hs
      obtain ⟨u'', e1, e2⟩ := rewritten_dropSeps hs
      have hsuf := List.dropWhile_suffix (fun c => separators.contains c) (l := u)
      rw [ih _ u'' _ (by have := hsuf.length_le; omega) e2, e1]
      simp
    have plain : ∀ (t t' out : Str), t.length < f + 1 → Rewritten g t t' → t.head? ≠ some 34 →
        expandLoop k depth l (f + 1) t out s = .ok (out ++ t') s := by
      intro t t' out hf h h34
      rw [expandLoop]
      cases h with
      | nil => simp [M.pure_apply]
      | char c t t' hc hc34 hs =>
        have hnc : isNameChar c = false := by
          cases hb : isNameChar c with
          | false => rfl
          | true => exact absurd ((isNameChar_iff c).1 hb) hc
        have hq : (Spasm.hd (c :: t) == 34) = false := by simpa using hc34
        simp only [List.isEmpty_cons, Bool.false_eq_true, if_false, hq]
        have hname : takeName (c :: t) = [] := by unfold takeName; rw [List.takeWhile_cons, hnc]; rfl
        rw [hname]
        simp only [List.length_nil, Nat.lt_irrefl, if_false, gt_iff_lt]
        have hb : between (c :: t) (c :: t) = [] := by simp [between]
        rw [hb, List.append_nil, fin t t' (out ++ [c]) (by simp at hf; omega) hs]
        simp
      | string b t t' => simp at h34
      | word w t t' hw hn ht hs =>
        obtain ⟨c, r, rfl⟩ := List.exists_cons_of_ne_nil hw
        have hq : (Spasm.hd (c :: r ++ t) == 34) = false := by simpa using h34
        obtain ⟨hn1, hn2⟩ := takeName_stop (c :: r) t hn ht
        have hb : between (c :: r ++ t) (c :: r ++ t) = [] := by simp [between]
        have he : (c :: r ++ t).isEmpty = false := rfl
        simp only [he, Bool.false_eq_true, if_false, hq, hn1, hn2, hb, List.append_nil]
        have hlen : (c :: r).length > 0 := by simp
        simp only [hlen, if_true, M.get_bind]
        have hf' : t.length < f := by simp at hf; omega
        rcases H (c :: r) hw hn with ⟨h1, h2, h3⟩ | ⟨lb, h1, h2, h3⟩ | ⟨r', nm, x, ln, fl, h1, h2⟩
        · rw [M.bind_ok h1, h2]
          dsimp only
          rw [fin t t' _ hf' hs, h3]
          simp
        · rw [M.bind_ok h1, h2]
          dsimp only
          rw [fin t t' _ hf' hs, h3]
          simp
        · rw [M.bind_ok h1]
          dsimp only
          simp only [List.length_nil, Nat.lt_irrefl, gt_iff_lt, if_false]
          rw [M.pure_bind]
          dsimp only
          rw [M.bind_ok h2]
          show (removeArgSet false >>= _) s = _
          rw [show removeArgSet false = pure () from rfl, M.pure_bind, M.get_bind, hgo]
          simp only [Bool.false_eq_true, if_false]
          rw [fin t t' _ hf' hs]
          simp
    intro t t' out hf h
    cases h with
    | string b t t' hb hh hs =>
      cases t with
      | nil =>
        have hnil : ∀ u u' : Str, Rewritten g u u' → u = [] → u' = [] := by
          intro u u' hu he
          cases hu with
          | nil => rfl
          | char => cases he
          | string => simp at he
          | word w _ _ hw => simp at he; exact absurd he.1 hw
        have := hnil _ _ hs rfl
        subst this
        · rw [expandLoop]
          have h1 : (34 :: b ++ [34]).isEmpty = false := rfl
          have h3 : (Spasm.hd (34 :: b ++ [34]) == 34) = true := rfl
          have h5 : (34 :: b ++ [34]).tail = b ++ [34] := rfl
          have h6 : between (34 :: b ++ [34]) [] = 34 :: b ++ [34] := by simp [between]
          simp only [h1, h3, h5, skipQuoted_body hb, h6, Bool.false_eq_true, if_false, if_true]
          rw [if_neg (by show ¬ (([] : Str).length > 0); simp)]
          have := fin [] [] (out ++ (34 :: b ++ [34])) (by simp at hf ⊢; omega) .nil
          simpa using this
      | cons c t =>
        rw [expandLoop_quote k depth l f b _ out s hb (by simp) hh, plain _ t' _ (by simp at hf ⊢; omega) hs hh]
        simp
    | nil => exact plain _ _ _ hf .nil (by simp)
    | char c t t' hc hc34 hs => exact plain _ _ _ hf (.char c t t' hc hc34 hs) (by simpa using hc34)
    | word w t t' hw hn ht hs =>
      refine plain _ _ _ hf (.word w t t' hw hn ht hs) ?_
      obtain ⟨c, r, rfl⟩ := List.exists_cons_of_ne_nil hw
      have := hn c (by simp)
      intro he
      cases he
      rw [← isNameChar_iff] at this
      cases this

/-! ### Redefinitions -/

theorem setDefine_again (k : Nat) (s : S) (name text out : Str) (d : Define) (old : Str) (h0 : name ≠ [])
    (hd : s.defines.lookup (nameKey s name) = some d) (hn : d.name = nameKey s name) (hl : labelOf s name = none) (hm : ¬ Maintained s name)
    (hc : d.contents = some old) (hgo : s.errOccurred = false) (hold : Unmoved s name old) (hlab : SmallLabels s) (hx : Rewritten (replaced s name old) text out) :
    setDefine (knot (k + 2)) (.glob (nameKey s name)) text true s =
      .ok () { s with defines := s.defines.update (nameKey s name) (fun d => { d with contents := some out }) } := by
  unfold setDefine
  rw [M.get_bind]
  have hder : derefDef (.glob (nameKey s name)) s = some d := hd
  rw [hder]
  dsimp only
  rw [hc]
  dsimp only
  rw [M.modify_bind, hn]
  have hl' : s.labels.lookup (nameKey s name) = none := by rw [labelOf_eq, Option.map_eq_none_iff] at hl; exact hl
  have hadd : addDefine (nameKey s name) false { s with defines := [] } = .ok (some (.glob (nameKey s name), false))
      { s with defines := [(nameKey s name, { name := nameKey s name, contents := none, args := [], line := s.lineNum, file := s.currFile })] } := by
    unfold addDefine
    rw [if_neg (by simpa using nameKey_ne h0), M.get_bind]
    have hkk : keyOf { s with defines := [] } (nameKey s name) = nameKey s name := by rw [keyOf_eq]; exact nameKey_idem s name
    rw [hkk]
    dsimp only
    rw [hl']
    dsimp only
    have : searchDefines (nameKey s name) false { s with defines := [] } = .ok none { s with defines := [] } := by
      unfold searchDefines
      simp [Table.lookup_nil]
    rw [M.bind_ok this]
    rfl
  rw [M.bind_ok hadd]
  dsimp only
  rw [M.modify_bind]
  generalize hT : ({ s with
      defines := Table.update (nameKey s name) (fun d : Define => { d with contents := some old })
        [(nameKey s name, { name := nameKey s name, contents := none, args := [], line := s.lineNum, file := s.currFile })] } : S) = u
  have hT1 : u.defines.lookup (nameKey s name) = some { name := nameKey s name, contents := some old, args := [], line := s.lineNum, file := s.currFile } := by
    rw [← hT]
    dsimp only
    rw [Table.lookup_update, if_pos rfl, Table.lookup_cons, if_pos rfl]
    rfl
  have hT2 : ∀ x, x ≠ nameKey s name → u.defines.lookup x = none := by
    intro x hx
    rw [← hT]
    dsimp only
    rw [Table.lookup_update, if_neg hx, Table.lookup_cons, if_neg (Ne.symm hx)]
    rfl
  have hk : ∀ w, keyOf u w = nameKey s w := by intro w; rw [keyOf_eq, ← hT]; rfl
  have hgo' : u.errOccurred = false := by rw [← hT]; exact hgo
  have hlu : u.labels = s.labels := by rw [← hT]
  have hr : refreshed (nameKey s name) u = none := by
    have : refreshed (nameKey u name) u = none := refreshed_none u name (by rw [← hT]; exact hm)
    rwa [← keyOf_eq, hk] at this
  have hsd : ∀ w, searchDefines w false u = .ok ((u.defines.lookup (nameKey s w)).map (fun d => (DRef.glob (nameKey s w), d))) u := by
    intro w
    unfold searchDefines
    by_cases he : nameKey s w = nameKey s name
    · simp [hk, he, hT1, hr]
    · simp [hk, hT2 _ he]
  have hsl : ∀ w, searchLabels w u = s.labels.lookup (nameKey s w) := by
    intro w
    unfold searchLabels
    rw [hk, hlu]
  have hcold : expandFullBody (knot k) old 1 false u = .ok old u := by
    unfold expandFullBody
    rw [if_neg (by omega)]
    have := expandLoop_plain (knot k) 1 false u old ?_ (old.length + 1) [] old [] (by omega) rfl (.inr (.inl (by simp)))
    · simpa using this
    · intro w hw
      obtain ⟨h1, h2⟩ := hold w hw
      constructor
      · rw [hsd, hT2 _ h2]; rfl
      · rw [hsl]
        rw [labelOf_eq, Option.map_eq_none_iff] at h1
        exact h1
  have hexp : expandExpr (knot (k + 2)) text false u = .ok out u := by
    show expandFullBody (knot (k + 1)) text 0 false u = _
    unfold expandFullBody
    rw [if_neg (by omega)]
    have := expandLoop_rewritten (knot (k + 1)) 0 false u hgo' (replaced s name old) ?_ (text.length + 1) text out [] (by omega) hx
    · simpa using this
    · intro w hw hch
      unfold Treated replaced
      by_cases he : nameKey s w = nameKey s name
      · rw [if_pos he]
        refine .inr (.inr ⟨_, _, old, _, _, by rw [hsd, he, hT1]; rfl, hcold⟩)
      · rw [if_neg he]
        have hno : searchDefines w false u = .ok none u := by rw [hsd, hT2 _ he]; rfl
        cases hlw : s.labels.lookup (nameKey s w) with
        | none =>
          refine .inl ⟨hno, by rw [hsl, hlw], ?_⟩
          rw [labelOf_eq, hlw]
          rfl
        | some lb =>
          have hlo : labelOf s w = some lb.value := by rw [labelOf_eq, hlw]; rfl
          refine .inr (.inl ⟨lb, hno, by rw [hsl, hlw], ?_⟩)
          rw [hlo]
          dsimp only
          have := hlab w lb.value hlo
          rw [fmtInt_decimal _ this.1 this.2]
  refine Eq.trans (congrArg (expandExpr (knot (k + 2)) text false >>= _) hT) ?_
  rw [M.bind_ok hexp, ← hT]
  rfl

/-- C63: a new definition of a name may use the text it had before. Its own name in the new text means the old text, and
labels are replaced by their values. -/
theorem C63_redefine (k : Nat) (s : S) (name old text out rest t : Str) (hs : WellNamed s) (hgo : s.errOccurred = false)
    (h : Redefinable s name old text out) (ht : Written (b! "DEFINE") name text rest t) (hr : Spec.LineEnd rest) :
    ∃ s', (knot (k + 4)).lineSec t s = .ok (some rest) s' ∧ NowMeans name out s s' ∧ WellNamed s' := by
  obtain ⟨b, w, c, b1, rfl, hb, hw, hc, hb1⟩ := ht
  rw [lineSec_preop (k + 2) b _ hb]
  have hne : text ≠ [] := by rintro rfl; exact h.visible (by intro c hc; cases hc)
  have hfollow : Follows (text ++ rest) := by
    intro x hx
    cases text with
    | cons y text => exact h.apart x hx
    | nil => exact absurd rfl hne
  obtain ⟨hn1, hn2⟩ := takeName_append name (text ++ rest) h.chars hfollow
  obtain ⟨hs1, hs2⟩ := name_skipWs h.nonempty h.chars (text ++ rest)
  have hassoc : b1 ++ name ++ text ++ rest = b1 ++ (name ++ (text ++ rest)) := by simp
  rw [hassoc]
  have hsp : isSpace c = true := by rcases hc with rfl | rfl <;> rfl
  have hf := (findPre_word hw (by decide) c hsp (b1 ++ (name ++ (text ++ rest)))).1
  have ha := preop_args hw (by decide) c hc b1 _ hb1 hs1
  unfold handlePreopBody
  dsimp only
  rw [hf, ha]
  show ∃ s', preDefine (knot (k + 2)) (name ++ (text ++ rest)) s = _ ∧ _
  unfold preDefine
  rw [if_neg (by rw [hs2]; simp), hn1, hn2]
  obtain ⟨T, d, e1, e2, e3, e4, e5, e6, e7⟩ := addDefine_plain s name h.nonempty h.noLabel h.noArgument h.ours hs
  have hsome : (defineOf s name).isSome = true := by
    have := h.before
    cases hx : defineOf s name with
    | none => rw [hx] at this; cases this
    | some => rfl
  have hset := setDefine_again k { s with defines := T, lastDefine := some (nameKey s name) } name text out d old h.nonempty e2 e3 h.noLabel h.ours
    (by rw [e5]; exact h.before) hgo h.settled h.labels h.result
  refine ⟨{ s with defines := T.update (nameKey s name) (fun d => { d with contents := some out }), lastDefine := some (nameKey s name) }, ?_, ?_, ?_⟩
  · rw [M.bind_ok e1]
    dsimp only
    rw [M.modify_bind, if_neg (by simpa using hfollow.not40)]
    unfold definePlain
    have he : isEnd (skipWs (text ++ rest)) = false := by
      obtain ⟨b, u, rfl, h1, h2, h3⟩ := h.line.split
      have hu : u ≠ [] := by rintro rfl; exact h.visible (by simpa using h1)
      rw [List.append_assoc, skipWs_blanks _ _ h1]
      cases h2 with
      | nil => exact absurd rfl hu
      | char c t hc _ =>
        rw [List.cons_append, skipWs_cons _ _ (h3 c (by simp))]
        unfold isEnd; simp; omega
      | quoted => rfl
      | escaped => rfl
      | string => rfl
    rw [if_neg (by rw [he]; simp)]
    obtain ⟨f, w, e, h1, h2, h3⟩ := readExpr_define text rest { s with defines := T, lastDefine := some (nameKey s name) } h.line h.short hr h.plain
    rw [M.bind_ok h1]
    dsimp only
    rw [if_neg (by rw [h2]; simp), if_neg (by rw [h3]; simp), skipToLineEnd_text h.line rest hr, between_append, hsome]
    rw [M.bind_ok (by exact hset)]
    rfl
  · constructor
    · rw [defineOf_eq]
      show ((Table.update (nameKey s name) (fun d => { d with contents := some out }) T).lookup (nameKey s name)).bind _ = _
      rw [Table.lookup_update, if_pos rfl, e2]
      show Define.text { d with contents := some out } = _
      unfold Define.text
      rw [if_pos e4]
    · intro other ho
      rw [defineOf_eq, defineOf_eq]
      show (Table.update (nameKey s name) (fun d => { d with contents := some out }) T).lookup (nameKey s other) = _
      rw [Table.lookup_update, if_neg ho, e6 _ ho]
    · rfl
  · exact names_update Define.name _ (fun d => { d with contents := some out }) (fun _ => rfl) e7

/-- C63: `#defcont` adds its line, with the line break, to the text of the latest definition. -/
theorem C63_defcont (k : Nat) (s : S) (name old text nl out l rest : Str) (d : Define) (hs : WellNamed s) (hgo : s.errOccurred = false) (h0 : name ≠ [])
    (hlast : s.lastDefine = some (nameKey s name)) (hd : defineOf s name = some d) (hc : d.contents = some old) (hl : labelOf s name = none) (hm : ¬ Maintained s name)
    (hch : ∀ c ∈ name, NameChar c)
    (hold : Unmoved s name old) (hlab : SmallLabels s) (hline : ContLine text l) (hnl : NewLine nl)
    (hx : Rewritten (replaced s name old) (text ++ nl) out) :
    ∃ s', (knot (k + 4)).lineSec (l ++ nl ++ rest) s = .ok (some (10 :: rest)) s' ∧ NowContinues name (old ++ 32 :: out) d s s' ∧ WellNamed s' := by
  obtain ⟨b, w, c, b1, rfl, hb, hw, hc', hb1, hne, hh, htx⟩ := hline
  rw [show b ++ 35 :: (w ++ c :: (b1 ++ text)) ++ nl ++ rest = b ++ 35 :: (w ++ c :: (b1 ++ (text ++ (nl ++ rest)))) by simp,
    lineSec_preop (k + 2) b _ hb]
  have hsp : isSpace c = true := by rcases hc' with rfl | rfl <;> rfl
  have hs1 : skipWs (text ++ (nl ++ rest)) = text ++ (nl ++ rest) := by
    cases text with
    | nil => exact absurd rfl hne
    | cons x text =>
      rw [List.cons_append, skipWs_cons]
      have := hh x rfl
      rw [← isSpace_iff] at this
      unfold isBlank; simp [this]
  have hf := (findPre_word hw (by decide) c hsp (b1 ++ (text ++ (nl ++ rest)))).1
  have ha := preop_args hw (by decide) c hc' b1 _ hb1 hs1
  unfold handlePreopBody
  dsimp only
  rw [hf, ha]
  show ∃ s', preDefcont (knot (k + 2)) (text ++ (nl ++ rest)) s = _ ∧ _
  unfold preDefcont
  rw [M.get_bind, hlast]
  dsimp only
  rw [defineOf_eq] at hd
  have hname : d.name = nameKey s name := hs _ (lookup_mem' hd)
  rw [hd]
  dsimp only
  have hnext : skipToNextLine (text ++ (nl ++ rest)) = rest := by rw [skipToNextLine_plain htx, skipToNextLine_newline hnl]
  have hbet : between (text ++ (nl ++ rest)) rest = text ++ nl := by rw [← List.append_assoc, between_append]
  have hback : back (text ++ (nl ++ rest)) rest = 10 :: rest := by
    unfold back
    rcases hnl with rfl | rfl
    · rw [if_pos (by simp; omega), show text ++ ([10] ++ rest) = text ++ (10 :: rest) by simp]
      have : ∀ a : Str, (a ++ 10 :: rest).length - rest.length - 1 = a.length := by intro a; simp; omega
      rw [this]
      simp
    · rw [if_pos (by simp; omega), show text ++ ([13, 10] ++ rest) = (text ++ [13]) ++ (10 :: rest) by simp]
      have : ∀ a : Str, (a ++ 10 :: rest).length - rest.length - 1 = a.length := by intro a; simp; omega
      rw [this]
      simp
  rw [hnext, hbet, hback]
  have hold' : nameKey s (nameKey s name) = nameKey s name := nameKey_idem s name
  have hch' : ∀ c ∈ nameKey s name, NameChar c := by
    intro c hc
    unfold nameKey at hc
    split at hc
    · exact hch c hc
    · obtain ⟨x, hx, rfl⟩ := List.mem_map.1 hc
      have := hch x hx
      rw [← isNameChar_iff] at this ⊢
      unfold upperCase
      split
      · rw [isNameChar_iff]
        unfold NameChar Alnum
        omega
      · exact this
  have hx' : Rewritten (replaced s name old) (d.name ++ [32] ++ (text ++ nl)) (old ++ 32 :: out) := by
    rw [hname, List.append_assoc]
    have h1 : replaced s name old (nameKey s name) = old := by unfold replaced; rw [if_pos hold']
    have := Rewritten.word (f := replaced s name old) (nameKey s name) (32 :: (text ++ nl)) (32 :: out) (nameKey_ne h0) hch'
      (by intro c hc; cases hc; rw [← isNameChar_iff]; decide) (.char 32 _ _ (by rw [← isNameChar_iff]; decide) (by decide) hx)
    rw [h1] at this
    exact this
  rw [M.bind_ok (setDefine_again k s name _ _ d old h0 hd hname hl hm hc hgo hold hlab hx')]
  refine ⟨_, rfl, ⟨?_, ?_, rfl⟩, ?_⟩
  · rw [defineOf_eq]
    show (Table.update _ (fun d : Define => { d with contents := some (old ++ 32 :: out) }) _).lookup (nameKey s name) = _
    rw [Table.lookup_update, if_pos rfl, hd]
    rfl
  · intro o ho
    rw [defineOf_eq, defineOf_eq]
    show (Table.update _ (fun d : Define => { d with contents := some (old ++ 32 :: out) }) _).lookup (nameKey s o) = _
    rw [Table.lookup_update, if_neg ho]
  · exact names_update Define.name _ (fun d => { d with contents := some (old ++ 32 :: out) }) (fun _ => rfl) hs

/-! ### Functions -/

theorem flat_append {a b : Str} (ha : Flat a) (hb : Flat b) : Flat (a ++ b) := by
  induction ha with
  | nil => exact hb
  | char c t hc _ ih => exact .char c _ hc ih
  | quoted c t hc _ ih => exact .quoted c _ hc ih
  | escaped c t _ ih => exact .escaped c _ ih
  | string b' t hb' _ ih => rw [List.append_assoc, List.cons_append]; exact .string b' _ hb' ih

theorem flat_letters {a : Str} (h : ∀ c ∈ a, Ordinary c) : Flat a := by
  induction a with
  | nil => exact .nil
  | cons c t ih => exact .char c t (h c (by simp)) (ih fun x hx => h x (by simp [hx]))

theorem readExpr_function (b2 f b3 X : Str) (s : S) (hb2 : Blanks b2) (hf : ∀ c ∈ f, (65 ≤ c ∧ c ≤ 90) ∨ (97 ≤ c ∧ c ≤ 122)) (hf0 : f ≠ []) (hb3 : Blanks b3)
    (hl : (f ++ b3).length ≤ 254) : readExpr [40] (b2 ++ f ++ b3 ++ 40 :: X) true s = .ok (true, f, 40 :: X) s := by
  obtain ⟨c, r, rfl⟩ := List.exists_cons_of_ne_nil hf0
  have hc := hf c (by simp)
  have hsk : skipWs (b2 ++ (c :: r) ++ b3 ++ 40 :: X) = c :: r ++ b3 ++ 40 :: X := by
    rw [List.append_assoc, List.append_assoc, skipWs_blanks _ _ hb2, List.cons_append, skipWs_cons]
    · simp
    · unfold isBlank isSpace; simp; omega
  unfold readExpr
  simp only [hsk]
  have he : (isEnd (c :: r ++ b3 ++ 40 :: X) || hd (c :: r ++ b3 ++ 40 :: X) == 41) = false := by
    unfold isEnd; simp; omega
  rw [he]
  simp only [Bool.false_eq_true, if_false]
  have hflat : Flat (c :: r ++ b3) := by
    refine flat_letters ?_
    intro x hx
    rcases List.mem_append.1 hx with hx | hx
    · have := hf x hx
      unfold Ordinary; omega
    · have := hb3 x hx
      unfold Ordinary; omega
  rw [read_flat hflat _ [] _ (by simp; omega) (by simpa using hl)]
  obtain ⟨g, hg⟩ : ∃ g, 3 * (c :: r ++ b3 ++ 40 :: X).length + 3 - (c :: r ++ b3).length = g + 1 := ⟨_, by
    simp only [List.length_append]
    rw [show 3 * ((c :: r).length + b3.length + (40 :: X).length) + 3 - ((c :: r).length + b3.length) =
      (2 * ((c :: r).length + b3.length) + 3 * (40 :: X).length + 2) + 1 by omega]⟩
  rw [hg, read_stop true [40] g _ _ (.inr (.inl (by simp)))]
  have htrim : (((c :: r ++ b3).reverse ++ []).dropWhile isSpace).reverse = c :: r := by
    rw [List.append_nil, List.reverse_append, List.dropWhile_append_of_pos]
    · have hlast : ∀ l : Str, (∀ x ∈ l, isSpace x = false) → l.dropWhile isSpace = l := by
        intro l hl
        cases l with
        | nil => rfl
        | cons x l => rw [List.dropWhile_cons, hl x (by simp)]; rfl
      rw [hlast]
      · simp
      · intro x hx
        have := hf x (by simpa [or_comm] using hx)
        unfold isSpace; simp; omega
    · intro x hx
      have := hb3 x (by simpa using hx)
      unfold isSpace; simp; omega
  simp only [htrim]

theorem letters_of_upper {f F : Str} (h : f.map upperCase = F) (hF : ∀ c ∈ F, 65 ≤ c ∧ c ≤ 90) : ∀ c ∈ f, (65 ≤ c ∧ c ≤ 90) ∨ (97 ≤ c ∧ c ≤ 122) := by
  intro c hc
  have := hF (upperCase c) (by rw [← h]; exact List.mem_map_of_mem hc)
  unfold upperCase at this
  split at this <;> omega

theorem visible_defined (s : S) (name : Str) (T : Table Define) (hl : labelOf s name = none) (q : Option Str)
    (hT : ∀ key, key ≠ nameKey s name → T.lookup key = s.defines.lookup key)
    (hd : ∀ x, (defineOf s name).bind Define.text = some x → (T.lookup (nameKey s name)).bind Define.text = some x) (p : Int) (w : Bool) :
    (∀ t v, visibleLabel s t = some v → visibleLabel { s with defines := T, lastDefine := q, parseDepth := p, fwdRef := w } t = some v) ∧
    ∀ t e, visibleText s t = some e → visibleText { s with defines := T, lastDefine := q, parseDepth := p, fwdRef := w } t = some e := by
  refine ⟨fun t v h => h, fun t e h => ?_⟩
  unfold visibleText at h ⊢
  split at h
  · rename_i hc
    rw [if_pos (by exact hc)]
    unfold nameText at h ⊢
    have ha : argumentOf { s with defines := T, lastDefine := q, parseDepth := p, fwdRef := w } t = argumentOf s t := rfl
    have hlb : labelOf { s with defines := T, lastDefine := q, parseDepth := p, fwdRef := w } t = labelOf s t := rfl
    rw [ha, hlb]
    cases hx : argumentOf s t with
    | some d => rw [hx] at h; exact h
    | none =>
      rw [hx] at h
      dsimp only at h ⊢
      split at h
      · rename_i hl'
        rw [if_pos hl']
        rw [defineOf_eq]
        show (T.lookup (nameKey s t)).bind Define.text = some e
        by_cases he : nameKey s t = nameKey s name
        · rw [he]
          refine hd e ?_
          rw [defineOf_eq, ← he, ← defineOf_eq]
          exact h
        · rw [hT _ he, ← defineOf_eq]
          exact h
      · cases h
  · cases h

/-- A definition by a function, up to the function. -/
theorem function_line (k : Nat) (s : S) (F name args l rest : Str) (hl : FunctionLine F name args l) (hF : ∀ c ∈ F, 65 ≤ c ∧ c ≤ 90) (hF0 : F ≠ [])
    (hF1 : F.length ≤ 10) (h0 : name ≠ []) (hch : ∀ c ∈ name, NameChar c) (T : Table Define) (redef : Bool)
    (e1 : addDefine name true s = .ok (some (.glob (nameKey s name), redef)) { s with defines := T }) :
    ∃ f Y, f.map upperCase = F ∧ isEnd (skipWs Y) = false ∧ (∀ s, readExpr [40] Y true s = .ok (true, f, 40 :: (args ++ 41 :: rest)) s) ∧
      (knot (k + 2)).lineSec (l ++ rest) s = definePlain (knot k) (.glob (nameKey s name)) redef Y { s with defines := T, lastDefine := some (nameKey s name) } := by
  obtain ⟨b, w, c, b1, c1, b2, f, b3, rfl, hb, hw, hc, hb1, hc1, hb2, hf, hb3, hlen⟩ := hl
  have hfl := letters_of_upper hf hF
  have hf0 : f ≠ [] := by rintro rfl; exact hF0 (by rw [← hf]; rfl)
  have hflen : f.length = F.length := by rw [← hf]; simp
  have hcb : Blanks (c1 :: b2) := by
    intro x hx
    rcases List.mem_cons.1 hx with rfl | hx
    · omega
    · exact hb2 x hx
  refine ⟨f, c1 :: (b2 ++ f ++ b3 ++ 40 :: (args ++ 41 :: rest)), hf, ?_, ?_, ?_⟩
  · rw [show c1 :: (b2 ++ f ++ b3 ++ 40 :: (args ++ 41 :: rest)) = (c1 :: b2) ++ (f ++ b3 ++ 40 :: (args ++ 41 :: rest)) by simp, skipWs_blanks _ _ hcb]
    obtain ⟨x, r, rfl⟩ := List.exists_cons_of_ne_nil hf0
    have := hfl x (by simp)
    rw [List.cons_append, List.cons_append, skipWs_cons _ _ (by unfold isBlank isSpace; simp; omega)]
    unfold isEnd
    simp
    omega
  · intro s
    have := readExpr_function (c1 :: b2) f b3 (args ++ 41 :: rest) s hcb hfl hf0 hb3 (by simp; omega)
    rw [show c1 :: (b2 ++ f ++ b3 ++ 40 :: (args ++ 41 :: rest)) = (c1 :: b2) ++ f ++ b3 ++ 40 :: (args ++ 41 :: rest) by simp]
    exact this
  · generalize hY : c1 :: (b2 ++ f ++ b3 ++ 40 :: (args ++ 41 :: rest)) = Y
    have hYh : ∀ x ∈ Y.head?, ¬ NameChar x := by
      rw [← hY]
      intro x hx
      cases hx
      rw [← isNameChar_iff]
      rcases hc1 with rfl | rfl <;> decide
    rw [show b ++ 35 :: (w ++ c :: (b1 ++ name ++ c1 :: (b2 ++ f ++ b3 ++ 40 :: (args ++ [41])))) ++ rest = b ++ 35 :: (w ++ c :: (b1 ++ (name ++ Y))) by
      rw [← hY]; simp]
    rw [lineSec_preop k b _ hb]
    obtain ⟨hn1, hn2⟩ := takeName_stop name Y hch hYh
    obtain ⟨hs1, hs2⟩ := name_skipWs h0 hch Y
    have hsp : isSpace c = true := by rcases hc with rfl | rfl <;> rfl
    have hfp := (findPre_word hw (by decide) c hsp (b1 ++ (name ++ Y))).1
    have ha := preop_args hw (by decide) c hc b1 _ hb1 hs1
    unfold handlePreopBody
    dsimp only
    rw [hfp, ha]
    show preDefine (knot k) (name ++ Y) s = _
    unfold preDefine
    rw [if_neg (by rw [hs2]; simp), hn1, hn2, M.bind_ok e1]
    dsimp only
    have h40 : (hd Y == 40) = false := by
      rw [← hY]
      show (c1 == 40) = false
      rcases hc1 with rfl | rfl <;> rfl
    rw [M.modify_bind, h40]
    rfl

/-- The state after a computed definition. -/
theorem computed_state (k : Nat) (s : S) (name x : Str) (T : Table Define) (d : Define) (h : Computable s name x) (e2 : T.lookup (nameKey s name) = some d)
    (e3 : d.name = nameKey s name) (e4 : d.args = []) (e5 : d.contents = (defineOf s name).bind (fun d => d.contents))
    (e6 : ∀ key, key ≠ nameKey s name → T.lookup key = s.defines.lookup key) (e7 : ∀ p ∈ T, p.2.name = p.1) (pd : Int) (fw redef : Bool) :
    ∃ s', setDefine (knot (k + 1)) (.glob (nameKey s name)) x redef
        { s with defines := T, lastDefine := some (nameKey s name), parseDepth := pd, fwdRef := fw } = .ok () s' ∧
      NowComputed name x s s' ∧ WellNamed s' := by
  have hl' : s.labels.lookup (nameKey s name) = none := by
    have := h.noLabel
    rw [labelOf_eq, Option.map_eq_none_iff] at this; exact this
  refine ⟨_, setDefine_plain k _ (nameKey s name) x d redef (nameKey_idem s name) (nameKey_ne h.nonempty) e2 e3 hl' ?_, ⟨?_, ?_, rfl⟩, ?_⟩
  · intro _ hd w hw
    exact h.again (e5 ▸ hd) w hw
  · rw [defineOf_eq]
    show ((Table.update (nameKey s name) (fun d : Define => { d with contents := some x }) T).lookup (nameKey s name)).bind _ = _
    rw [Table.lookup_update, if_pos rfl, e2]
    show Define.text { d with contents := some x } = _
    unfold Define.text
    rw [if_pos e4]
  · intro other ho
    rw [defineOf_eq, defineOf_eq]
    show (Table.update (nameKey s name) (fun d : Define => { d with contents := some x }) T).lookup (nameKey s other) = _
    rw [Table.lookup_update, if_neg ho, e6 _ ho]
  · exact names_update Define.name _ (fun d => { d with contents := some x }) (fun _ => rfl) e7

theorem kept_text (s : S) (name : Str) (T : Table Define) (d : Define) (e2 : T.lookup (nameKey s name) = some d) (e4 : d.args = [])
    (e5 : d.contents = (defineOf s name).bind (fun d => d.contents)) (x : Str) (h : (defineOf s name).bind Define.text = some x) :
    (T.lookup (nameKey s name)).bind Define.text = some x := by
  rw [e2]
  cases hd : defineOf s name with
  | none => rw [hd] at h; cases h
  | some d0 =>
    rw [hd] at h e5
    have h' : Define.text d0 = some x := h
    unfold Define.text at h'
    split at h'
    · show Define.text d = some x
      unfold Define.text
      rw [if_pos e4, e5]
      exact h'
    · cases h'

/-- C63: `#define name eval(e)` gives the name the value of the expression, written as a number. -/
theorem C63_eval (k : Nat) (s : S) (hs : WellNamed s) (hset : Settled s) (name b4 a b5 l rest : Str) (dep : Nat) (v : Int)
    (hl : FunctionLine (b! "EVAL") name (b4 ++ a ++ b5) l) (hb4 : Blanks b4) (hb5 : Blanks b5) (ha : Balanced [41] false a) (hat : Trimmed a)
    (hlen : (a ++ b5).length ≤ 254) (hv : Denotes (toI32 s.pc) (visibleLabel s) (visibleText s) dep a v) (hd : dep < 20) (hk : dep < k + 1)
    (h1 : -2147483648 < v) (h2 : v ≤ 2147483647) (hc : ∀ x, NumberText v x → Computable s name x) :
    ∃ x s', (knot (k + 3)).lineSec (l ++ rest) s = .ok (some rest) s' ∧ NumberText v x ∧ NowComputed name x s s' ∧ WellNamed s' := by
  have hx := fmtEval_number v ⟨by omega, h2⟩
  have h := hc _ hx
  obtain ⟨T, d, e1, e2, e3, e4, e5, e6, e7⟩ := addDefine_plain s name h.nonempty h.noLabel h.noArgument h.ours hs
  obtain ⟨f, Y, hf, hY, hread, hline⟩ := function_line (k + 1) s (b! "EVAL") name (b4 ++ a ++ b5) l rest hl (by decide) (by decide) (by decide) h.nonempty h.chars T _ e1
  have heval : eqCase f (b! "eval") = true := by rw [eqCase_iff, hf]; decide
  refine ⟨fmtEval v, ?_⟩
  obtain ⟨s', g1, g2, g3⟩ := computed_state k s name (fmtEval v) T d h e2 e3 e4 e5 e6 e7 0 false (defineOf s name).isSome
  refine ⟨s', ?_, hx, g2, g3⟩
  rw [hline]
  unfold definePlain
  rw [if_neg (by rw [hY]; simp), M.bind_ok (hread _)]
  dsimp only
  rw [if_pos heval]
  have hdrop : dropChar 40 (40 :: (b4 ++ a ++ b5 ++ 41 :: rest)) = b4 ++ a ++ b5 ++ 41 :: rest := rfl
  rw [hdrop, M.bind_ok (readExpr_balanced true [41] (by decide) (by simp [White]) b4 a b5 (41 :: rest) _ hb4 hb5 ha hat (fun _ => hlen) (.inr (.inr rfl)))]
  dsimp only
  have hev : evalStr (knot (k + 1)) a { s with defines := T, lastDefine := some (nameKey s name) } =
      .ok (fmtEval v) { s with defines := T, lastDefine := some (nameKey s name), parseDepth := 0, fwdRef := false } := by
    unfold evalStr
    have hss : startSession ({ s with defines := T, lastDefine := some (nameKey s name) } : S) =
      .ok (s.session + 1) { s with defines := T, lastDefine := some (nameKey s name), session := s.session + 1 } := rfl
    rw [M.bind_ok hss]
    obtain ⟨m1, m2⟩ := visible_defined { s with session := s.session + 1 } name T h.noLabel (some (nameKey s name)) e6 (kept_text s name T d e2 e4 e5) s.parseDepth s.fwdRef
    have nb : Blanks [] := by intro c hc; simp at hc
    have hset' : ∀ t e, visibleText s t = some e → visibleText { s with session := s.session + 1 } t = some e := by
      intro t e hx
      unfold visibleText at hx ⊢
      split at hx
      · rename_i hc
        rw [if_pos]
        · exact hx
        · refine ⟨⟨hc.1.1, fun e he => ?_⟩, hc.2⟩
          have := hc.1.2 e he
          show e.sess ≤ s.session + 1
          omega
      · cases hx
    have hval := C03_value ({ s with defines := T, lastDefine := some (nameKey s name), session := s.session + 1 } : S) dep (k + 1) [] a [] [] v
      (Denotes_mono (fun t v h => m1 t v h) (fun t e h => m2 t e (hset' t e h)) hv) hd hk nb nb (.inl rfl)
    simp only [List.nil_append, List.append_nil] at hval
    rw [M.bind_ok hval]
    rw [M.bind_ok (endSession_clean _ _ (fun e he => by
      have := hset.2 e he
      omega))]
    dsimp only
    rw [if_neg (by unfold intMin; omega), M.pure_apply]
    show Res.ok _ _ = _
    congr 1
    simp
  rw [M.bind_ok hev, M.bind_ok g1]
  rfl

theorem concat_loop (k depth : Nat) (s : S) (name : Str) (T : Table Define) (d : Define) (q : Option Str) (hl : labelOf s name = none)
    (e2 : T.lookup (nameKey s name) = some d) (e4 : d.args = []) (e5 : d.contents = (defineOf s name).bind (fun d => d.contents))
    (e6 : ∀ key, key ≠ nameKey s name → T.lookup key = s.defines.lookup key) (hk : depth ≤ k + 1) (hdep : depth ≤ 20) :
    ∀ (args : List Str) (t m : Str), Joined args t → Concat s depth args m → (defineOf s name = none → ∀ a ∈ args, nameKey s a ≠ nameKey s name) →
    ∀ (f : Nat) (e : Bool) (out rest : Str) (pd : Int) (fw : Bool), args.length < f → EndsList rest → ∃ pd' fw',
      concatLoop (knot (k + 1)) f e out (t ++ rest) { s with defines := T, lastDefine := q, parseDepth := pd, fwdRef := fw } =
        .ok (out ++ m, rest) { s with defines := T, lastDefine := q, parseDepth := pd', fwdRef := fw' } := by
  have one : ∀ (a m : Str) (args : List Str), Concat s depth (a :: args) m → (defineOf s name = none → nameKey s a ≠ nameKey s name) → ∃ x m', m = x ++ m' ∧ Concat s depth args m' ∧
      ∀ (f : Nat) (e e' : Bool) (out t r : Str) pd fw, extractArg e t { s with defines := T, lastDefine := q, parseDepth := pd, fwdRef := fw } =
          .ok (some a, e', r) { s with defines := T, lastDefine := q, parseDepth := pd, fwdRef := fw } →
        ∃ pd' fw', concatLoop (knot (k + 1)) (f + 1) e out t { s with defines := T, lastDefine := q, parseDepth := pd, fwdRef := fw } =
          concatLoop (knot (k + 1)) f e' (out ++ x) r { s with defines := T, lastDefine := q, parseDepth := pd', fwdRef := fw' } := by
    intro a m args hc hself
    cases hc with
    | string body cs args m hb hc =>
      refine ⟨cs, m, rfl, hc, fun f e e' out t r pd fw hext => ?_⟩
      obtain ⟨pd', fw', h⟩ := reduceString_chars k hb { s with defines := T, lastDefine := q, parseDepth := pd, fwdRef := fw }
      refine ⟨pd', fw', ?_⟩
      rw [concatLoop, M.bind_ok hext]
      have h34 : (Spasm.hd (34 :: body ++ [34]) == 34) = true := rfl
      dsimp only
      simp only [h34, if_true]
      rw [M.bind_ok h]
    | text _ x args m hx hh hx' hc =>
      refine ⟨x, m, rfl, hc, fun f e e' out t r pd fw hext => ⟨pd, fw, ?_⟩⟩
      have hx2 := (visible_defined s name T hl q e6 (kept_text s name T d e2 e4 e5) pd fw).2 a x hx
      rw [concatLoop, M.bind_ok hext]
      generalize ({ s with defines := T, lastDefine := q, parseDepth := pd, fwdRef := fw } : S) = u at hx2 ⊢
      have hne : (Spasm.hd a == 34) = false := by
        cases a with
        | nil => rfl
        | cons c a => simpa using hh
      dsimp only
      simp only [hne, Bool.false_eq_true, if_false]
      unfold visibleText at hx2
      split at hx2
      · rename_i hcond
        have hs := searchDefines_calm a u (by rw [keyOf_eq]; exact refreshed_none u a hcond.2)
        rw [keyOf_eq] at hs
        have hf := findDefine_eq u a
        obtain ⟨r, d', hfd, hd'⟩ : ∃ r d', findDefine (nameKey u a) u = some (r, d') ∧ d'.contents = some x := by
          have key : ∃ d', (findDefine (nameKey u a) u).map (·.2) = some d' ∧ d'.contents = some x := by
            unfold nameText at hx2
            have htext : ∀ d' : Define, Define.text d' = some x → d'.contents = some x := by
              intro d' h
              unfold Define.text at h
              split at h
              · exact h
              · cases h
            cases harg : argumentOf u a with
            | some d' =>
              rw [harg] at hx2 hf
              exact ⟨d', hf, htext d' hx2⟩
            | none =>
              rw [harg] at hx2 hf
              dsimp only at hx2 hf
              split at hx2
              · cases hdf : defineOf u a with
                | none => rw [hdf] at hx2; cases hx2
                | some d' =>
                  rw [hdf] at hx2 hf
                  exact ⟨d', hf, htext d' hx2⟩
              · cases hx2
          obtain ⟨d', k1, k2⟩ := key
          cases hfd : findDefine (nameKey u a) u with
          | none => rw [hfd] at k1; cases k1
          | some p =>
            rw [hfd] at k1
            obtain ⟨r, d''⟩ := p
            cases k1
            exact ⟨r, d'', rfl, k2⟩
        rw [M.bind_ok hs, hfd]
        dsimp only
        rw [hd']
        dsimp only
        rw [M.bind_ok (reduceString_plain _ x u hx')]
      · cases hx2
    | number dep _ v args m ha hdf hh hv hdl h1 h2 hc =>
      refine ⟨decimal v, m, rfl, hc, fun f e e' out t r pd fw hext => ⟨0, false, ?_⟩⟩
      rw [concatLoop, M.bind_ok hext]
      have hne : (Spasm.hd a == 34) = false := by
        cases a with
        | nil => rfl
        | cons c a => simpa using hh
      dsimp only
      simp only [hne, Bool.false_eq_true, if_false]
      obtain ⟨m1, m2⟩ := visible_defined s name T hl q e6 (kept_text s name T d e2 e4 e5) pd fw
      have hnk : nameKey s a ≠ nameKey s name := by
        cases hdn : defineOf s name with
        | none => exact hself hdn
        | some d0 =>
          intro he
          rw [defineOf_eq] at hdf hdn
          rw [he, hdn] at hdf
          cases hdf
      have hno := searchDefines_none a { s with defines := T, lastDefine := q, parseDepth := pd, fwdRef := fw } ha (by
        rw [defineOf_eq] at hdf ⊢
        show T.lookup (nameKey s a) = none
        rw [e6 _ hnk]
        exact hdf)
      rw [M.bind_ok hno]
      dsimp only
      have nb : Blanks [] := by intro c hc; simp at hc
      have hval := C03_value { s with defines := T, lastDefine := q, parseDepth := pd, fwdRef := fw } dep (k + 1) [] a [] [] v
        (Denotes_mono m1 m2 hv) (by omega) (by omega) nb nb (.inl rfl)
      simp only [List.nil_append, List.append_nil] at hval
      rw [M.bind_ok hval]
      dsimp only
      rw [fmtInt_decimal v h1 h2]
      rfl
  intro args t m hj
  induction hj generalizing m with
  | one b a b' hb hb' ha hlen =>
    intro hc hself f e out rest pd fw hf hr
    obtain ⟨f, rfl⟩ : ∃ n, f = n + 2 := ⟨f - 2, by simp at hf; omega⟩
    obtain ⟨x, m', rfl, hc', h⟩ := one a m [] hc (fun h => hself h a (by simp))
    cases hc'
    obtain ⟨pd', fw', h⟩ := h (f + 1) e false out _ rest pd fw (C42_last_argument b a b' rest e _ hb hb' ha hlen hr)
    refine ⟨pd', fw', ?_⟩
    rw [h, concatLoop, M.bind_ok (extractArg_end hr _)]
    simp [M.pure_apply]
  | more b a b' args t hb hb' ha hlen hj ih =>
    intro hc hself f e out rest pd fw hf hr
    obtain ⟨f, rfl⟩ : ∃ n, f = n + 1 := ⟨f - 1, by simp at hf; omega⟩
    obtain ⟨x, m', rfl, hc', h⟩ := one a m args hc (fun h => hself h a (by simp))
    obtain ⟨pd', fw', h⟩ := h f e true out _ (t ++ rest) pd fw (C42_argument b a b' _ e _ hb hb' ha hlen)
    obtain ⟨pd2, fw2, h2⟩ := ih m' hc' (fun h a ha => hself h a (by simp [ha])) f true (out ++ x) rest pd' fw' (by simp at hf; omega) hr
    refine ⟨pd2, fw2, ?_⟩
    rw [show b ++ a ++ b' ++ [44] ++ t ++ rest = b ++ a ++ b' ++ [44] ++ (t ++ rest) by simp, h, h2, List.append_assoc]

/-- C63: `#define name concat(…)` gives the name the text made up of the operands, in their order. The closing parenthesis is
left to the next statement. -/
theorem C63_concat (k depth : Nat) (s : S) (hs : WellNamed s) (name u l rest x : Str) (args : List Str)
    (hl : FunctionLine (b! "CONCAT") name u l) (hj : Joined args u) (hx : Concat s depth args x) (hk : depth ≤ k + 1) (hdep : depth ≤ 20)
    (hself : defineOf s name = none → ∀ a ∈ args, nameKey s a ≠ nameKey s name) (h : Computable s name x) :
    ∃ s', (knot (k + 3)).lineSec (l ++ rest) s = .ok (some (41 :: rest)) s' ∧ NowComputed name x s s' ∧ WellNamed s' := by
  obtain ⟨T, d, e1, e2, e3, e4, e5, e6, e7⟩ := addDefine_plain s name h.nonempty h.noLabel h.noArgument h.ours hs
  obtain ⟨f, Y, hf, hY, hread, hline⟩ := function_line (k + 1) s (b! "CONCAT") name u l rest hl (by decide) (by decide) (by decide) h.nonempty h.chars T _ e1
  have hconcat : eqCase f (b! "concat") = true := by rw [eqCase_iff, hf]; decide
  have hneval : eqCase f (b! "eval") = false := by
    rw [← Bool.not_eq_true, eqCase_iff, hf]; decide
  have hdrop : dropChar 40 (40 :: (u ++ 41 :: rest)) = u ++ 41 :: rest := rfl
  have hlen : args.length < (u ++ 41 :: rest).length + 2 := by
    have := joined_length hj
    simp; omega
  obtain ⟨pd, fw, hcl⟩ := concat_loop k depth s name T d (some (nameKey s name)) h.noLabel e2 e4 e5 e6 hk hdep args u x hj hx hself
    ((u ++ 41 :: rest).length + 2) true [] (41 :: rest) s.parseDepth s.fwdRef hlen (.inr ⟨41, rest, rfl, by decide⟩)
  obtain ⟨s', g1, g2, g3⟩ := computed_state k s name x T d h e2 e3 e4 e5 e6 e7 pd fw (defineOf s name).isSome
  refine ⟨s', ?_, g2, g3⟩
  rw [hline]
  unfold definePlain
  rw [if_neg (by rw [hY]; simp), M.bind_ok (hread _)]
  dsimp only
  rw [hneval, hconcat, hdrop]
  simp only [Bool.false_eq_true, if_false, if_true]
  rw [M.bind_ok (by exact hcl)]
  dsimp only
  rw [List.nil_append, M.bind_ok g1]
  rfl

/-! ### Cases -/

/-- A state with the define `n`, whose text is ` 1`, and the label `x`, whose value is 5. -/
def sampleNames : S :=
  { defines := [(b! "N", { name := b! "N", contents := some (b! " 1"), args := [], line := 1, file := [] })],
    labels := [(b! "X", { name := b! "X", value := 5 })], lastDefine := some (b! "N") }

theorem sample_key (w : Str) : nameKey sampleNames w = w.map upperCase := rfl

theorem sample_label (w : Str) (h : w.map upperCase ≠ b! "X") : labelOf sampleNames w = none := by
  rw [labelOf_eq, sample_key]
  show (Table.lookup [(b! "X", ({ name := b! "X", value := 5 } : Label))] (w.map upperCase)).map _ = _
  rw [Table.lookup_cons, if_neg (Ne.symm h)]
  rfl

theorem sample_x (w : Str) (h : w.map upperCase = b! "X") : labelOf sampleNames w = some 5 := by
  rw [labelOf_eq, sample_key, h]
  rfl

theorem word_sub {t w : Str} (h : Word t w) : w ≠ [] ∧ ∀ c ∈ w, c ∈ t := by
  obtain ⟨h0, -, p, q, rfl, -⟩ := h
  exact ⟨h0, fun c hc => by simp [hc]⟩

/-- A text without the letters `n` and `x`. -/
theorem sample_unmoved (name t : Str) (hn : name.map upperCase = b! "N" ∨ name.map upperCase = b! "M") (h : ∀ c ∈ t, upperCase c ≠ 78 ∧ upperCase c ≠ 77 ∧ upperCase c ≠ 88) :
    Unmoved sampleNames name t := by
  intro w hw
  obtain ⟨h0, h1⟩ := word_sub hw
  have key : ∀ x, (x = 78 ∨ x = 77 ∨ x = 88) → w.map upperCase ≠ [x] := by
    intro x hx he
    obtain ⟨c, r, rfl⟩ := List.exists_cons_of_ne_nil h0
    have := h c (h1 c (by simp))
    simp at he
    omega
  refine ⟨sample_label w (key 88 (by omega)), ?_⟩
  rw [sample_key, sample_key]
  rcases hn with hn | hn <;> rw [hn]
  · exact key 78 (by omega)
  · exact key 77 (by omega)

theorem sample_small : SmallLabels sampleNames := by
  intro w v h
  by_cases hx : w.map upperCase = b! "X"
  · rw [sample_x w hx] at h; cases h; omega
  · rw [sample_label w hx] at h; cases h

theorem sample_letter (c : Nat) (h : c = 110 ∨ c = 120 ∨ c = 109) : ∀ x ∈ [c], NameChar x := by
  intro x hx
  rw [← isNameChar_iff]
  simp at hx
  subst hx
  rcases h with rfl | rfl | rfl <;> rfl

/-- ` n+x` becomes `  1+5`. -/
theorem sample_rewritten (t : Str) (ht : t = [] ∨ t = [10]) : Rewritten (replaced sampleNames (b! "n") (b! " 1")) (b! "+x" ++ t) (b! "+5" ++ t) := by
  have h5 : replaced sampleNames (b! "n") (b! " 1") (b! "x") = b! "5" := by
    unfold replaced
    rw [sample_x _ (by decide)]
    decide +kernel
  have hnl : Rewritten (replaced sampleNames (b! "n") (b! " 1")) t t := by
    rcases ht with rfl | rfl
    · exact .nil
    · exact .char 10 [] [] (by rw [← isNameChar_iff]; decide) (by decide) .nil
  have h := Rewritten.word (f := replaced sampleNames (b! "n") (b! " 1")) (b! "x") t t (by decide) (sample_letter _ (by decide))
    (by
      intro c hc
      rcases ht with rfl | rfl
      · cases hc
      · cases hc; rw [← isNameChar_iff]; decide) hnl
  rw [h5] at h
  exact .char 43 _ _ (by rw [← isNameChar_iff]; decide) (by decide) h

/-- A case for C63_redefine. -/
example : ∃ s', (knot 4).lineSec (b! "#define n n+x\n nop") sampleNames = .ok (some (b! "\n nop")) s' ∧ (defineOf s' (b! "N")).bind Define.text = some (b! "  1+5") := by
  have none_ : Blanks [] := by intro c hc; cases hc
  have hn : replaced sampleNames (b! "n") (b! " 1") (b! "n") = b! " 1" := rfl
  have hr : Rewritten (replaced sampleNames (b! "n") (b! " 1")) (b! " n+x") (b! "  1+5") := by
    have h := Rewritten.word (f := replaced sampleNames (b! "n") (b! " 1")) (b! "n") _ _ (by decide) (sample_letter _ (by decide))
      (by intro c hc; cases hc; rw [← isNameChar_iff]; decide) (sample_rewritten [] (.inl rfl))
    rw [hn] at h
    exact .char 32 _ _ (by rw [← isNameChar_iff]; decide) (by decide) h
  have hline : LineText (b! " n+x") := lineText_plain _ (by decide)
  have hre : Redefinable sampleNames (b! "n") (b! " 1") (b! " n+x") (b! "  1+5") :=
    { nonempty := by decide, chars := sample_letter _ (by decide), noLabel := rfl, noArgument := rfl, ours := by decide,
      apart := by intro c hc; cases hc; rw [← isNameChar_iff]; decide
      line := hline, short := by decide
      plain := by
        refine not_computed fun c hc => ?_
        revert c
        decide
      visible := by intro h; have := h 110 (by decide); omega
      before := rfl, settled := sample_unmoved _ _ (by decide) (by decide), labels := sample_small, result := hr }
  obtain ⟨s', h1, h2, -⟩ := C63_redefine 0 sampleNames (b! "n") (b! " 1") (b! " n+x") (b! "  1+5") (b! "\n nop") (b! "#define n n+x\n nop")
    (by intro p hp; simp [sampleNames] at hp; rw [hp]) rfl hre ⟨[], b! "define", 32, [], rfl, none_, by decide, .inl rfl, none_⟩ (.inr ⟨_, _, rfl, by decide⟩)
  refine ⟨s', h1, ?_⟩
  rw [← h2.this, h2.rest]
  rfl

/-- A case for C63_defcont. -/
example : ∃ s', (knot 4).lineSec (b! "#defcont +x\n nop") sampleNames = .ok (some (b! "\n nop")) s' ∧ ((defineOf s' (b! "N")).bind fun d => d.contents) = some (b! " 1 +5\n") := by
  have none_ : Blanks [] := by intro c hc; cases hc
  obtain ⟨s', h1, h2, -⟩ := C63_defcont 0 sampleNames (b! "n") (b! " 1") (b! "+x") [10] (b! "+5\n") (b! "#defcont +x") (b! " nop") _
    (by intro p hp; simp [sampleNames] at hp; rw [hp]) rfl (by decide) rfl rfl rfl rfl (by decide) (sample_letter _ (by decide))
    (sample_unmoved _ _ (by decide) (by decide)) sample_small
    ⟨[], b! "defcont", 32, [], rfl, none_, by decide, .inl rfl, none_, by decide, by intro c hc; cases hc; unfold White; omega, by decide⟩ (.inl rfl)
    (sample_rewritten [10] (.inr rfl))
  refine ⟨s', h1, ?_⟩
  have : defineOf s' (b! "N") = defineOf s' (b! "n") := by rw [h2.rest]; rfl
  rw [this, h2.this]
  rfl

theorem sample_n : Denotes (toI32 sampleNames.pc) (visibleLabel sampleNames) (visibleText sampleNames) 1 (b! "n+1") 2 := by
  have lit := atom_digit (toI32 sampleNames.pc) (visibleLabel sampleNames)
  have none_ : Blanks [] := by intro c hc; cases hc
  have blank : Blanks [32] := by intro x hx; simp at hx; simp [hx]
  have d1 := Denotes.one (text := visibleText sampleNames) 0 _ _ (.plain 0 _ _ (.atom _ _ (lit 49 (by omega) (by omega))))
  have d2 := Denotes.one (text := visibleText sampleNames) 1 _ _ (.plain 1 _ _ (.named 0 (b! "n") [32] (b! "1") [] _
    ⟨⟨110, [], rfl, by decide, by simp⟩, by decide⟩ (by decide +kernel) blank none_ d1))
  have d3 := Prefixed.plain (text := visibleText sampleNames) 0 _ _ (.atom _ _ (lit 49 (by omega) (by omega)))
  exact .join 1 _ _ [] .add (b! "+") [] 0 _ _ 2 d2 none_ none_ (by decide) (by decide) d3 (by decide)

/-- A case for C63_eval. -/
example : ∃ x s', (knot 4).lineSec (b! "#define n eval( n+1 )\n nop") sampleNames = .ok (some (b! "\n nop")) s' ∧ NumberText 2 x ∧
    (defineOf s' (b! "n")).bind Define.text = some x := by
  have none_ : Blanks [] := by intro c hc; cases hc
  have blank : Blanks [32] := by intro x hx; simp at hx; simp [hx]
  have hbal : ∀ t : Str, (∀ c ∈ t, Ordinary c) → Balanced [41] false t := by
    intro t ht
    induction t with
    | nil => exact .nil _
    | cons c t ih => exact .char _ c t (ht c (by simp)) (by intro _; have := ht c (by simp); unfold Ordinary at this; simp; omega) (ih fun x hx => ht x (by simp [hx]))
  obtain ⟨x, s', h1, h2, h3, -⟩ := C63_eval 1 sampleNames (by intro p hp; simp [sampleNames] at hp; rw [hp]) (by decide) (b! "n") [32] (b! "n+1") [32]
    (b! "#define n eval( n+1 )") (b! "\n nop") 1 2
    ⟨[], b! "define", 32, [], 32, [], b! "eval", [], rfl, none_, by decide, .inl rfl, none_, .inl rfl, none_, by decide, none_, by decide⟩
    blank blank (hbal _ (by unfold Ordinary; decide)) (by unfold Trimmed; simp [White]) (by decide) sample_n
    (by omega) (by omega) (by omega) (by omega) (by
      intro x hx
      refine ⟨by decide, sample_letter _ (by decide), rfl, rfl, by decide, fun _ => sample_unmoved _ _ (by decide) ?_⟩
      obtain ⟨ds, -, hds, -, rfl⟩ := NumberText.digits hx
      intro c hc
      have hc' : c = 36 ∨ c ∈ ds := by simpa using hc
      rcases hc' with rfl | hc'
      · decide
      · obtain ⟨v, hv1, hv2⟩ := hds c hc'
        unfold digit at hv1
        unfold upperCase
        grind)
  exact ⟨x, s', h1, h2, h3.this⟩

/-- A case for C63_concat. -/
example : ∃ s', (knot 4).lineSec (b! "#define m concat(\"a-\", n, n+1)\n nop") sampleNames = .ok (some (b! ")\n nop")) s' ∧
    (defineOf s' (b! "M")).bind Define.text = some (b! "a- 12") := by
  have none_ : Blanks [] := by intro c hc; cases hc
  have blank : Blanks [32] := by intro x hx; simp at hx; simp [hx]
  have hchars : Chars (b! "a-") (b! "a-") := .char 97 _ _ (by decide) (by decide) (by decide) (by decide) (.char 45 _ _ (by decide) (by decide) (by decide) (by decide) .nil)
  have hc : Concat sampleNames 2 [b! "\"a-\"", b! "n", b! "n+1"] (b! "a-" ++ (b! " 1" ++ (b! "2" ++ []))) := by
    refine .string (b! "a-") (b! "a-") _ _ hchars (.text (b! "n") (b! " 1") _ _ (by decide +kernel) (by decide) (by decide) ?_)
    have := Concat.number (s := sampleNames) (depth := 2) 1 (b! "n+1") 2 [] [] rfl rfl (by decide) sample_n (by omega) (by omega) (by omega) .nil
    have h2 : decimal 2 = b! "2" := by
      unfold decimal decimalDigits
      rfl
    rw [h2] at this
    exact this
  have hs : Argument (b! "\"a-\"") := ⟨.string _ (b! "a-") [] (chars_stringBody hchars) (.nil _), by unfold Trimmed; simp [White]⟩
  have hj : Joined [b! "\"a-\"", b! "n", b! "n+1"] ([] ++ b! "\"a-\"" ++ [] ++ [44] ++ ([32] ++ b! "n" ++ [] ++ [44] ++ ([32] ++ b! "n+1" ++ []))) :=
    .more _ _ _ _ _ none_ none_ hs (by decide) (.more _ _ _ _ _ blank none_ (spec_argument _ (by decide) (by unfold Ordinary; simp [White])) (by decide)
      (.one _ _ _ blank none_ (spec_argument _ (by decide) (by unfold Ordinary; simp [White])) (by decide)))
  obtain ⟨s', h1, h2, -⟩ := C63_concat 1 2 sampleNames (by intro p hp; simp [sampleNames] at hp; rw [hp]) (b! "m") _ (b! "#define m concat(\"a-\", n, n+1)") (b! "\n nop") _ _
    ⟨[], b! "define", 32, [], 32, [], b! "concat", [], rfl, none_, by decide, .inl rfl, none_, .inl rfl, none_, by decide, none_, by decide⟩ hj hc (by omega) (by omega)
    (by intro _; decide)
    ⟨by decide, sample_letter _ (by decide), rfl, rfl, by decide, fun h => absurd rfl h⟩
  refine ⟨s', h1, ?_⟩
  rw [show b! "a- 12" = b! "a-" ++ (b! " 1" ++ (b! "2" ++ [])) from rfl, ← h2.this, h2.rest]
  rfl

/-! ### Where the texts are wrong -/

/-- C63, hexadecimal digits: the value of `eval(…)` is written in hexadecimal, and its digits are taken for names. With a label
`a`, whose value is 5, the definition of a name for the second time by `eval(10)` gives 5. -/
theorem C63_digit_for_label :
    (asm (b! "a = 5\n#define n 1\n#define n eval(10)\n .db n\n") [b! "a.asm"]).state.log = [.wrote (b! "a.bin") [5]] ∧
    (asm (b! "a = 5\n#define n eval(10)\n .db n\n") [b! "a.asm"]).state.log = [.wrote (b! "a.bin") [10]] := by
  decide +kernel

/-- C63, the name of the define itself as a digit: counting with a define that is called `b` fails when it comes to 11. -/
theorem C63_digit_for_itself :
    (asm (b! "#define b 1\n#define b eval(b+10)\n .db b\n") [b! "a.asm"]).state.log = [.printed 259 false] ∧
    exitStatus (asm (b! "#define b 1\n#define b eval(b+10)\n .db b\n") [b! "a.asm"]) = some 3 := by
  decide +kernel

/-- C63, comments: a comment behind `#defcont` becomes part of the text, and what further lines add is lost in it. -/
theorem C63_comment_kept :
    (asm (b! "#define a 1\n#defcont +2 ; two\n#defcont +3\n .db a\n") [b! "a.asm"]).state.log = [.wrote (b! "a.bin") [3]] := by
  decide +kernel

/-- C63, large labels: only nine characters of the value of a label are put into the text of a name that is defined again.
A label with the value 1000000000 counts as 100000000. -/
theorem C63_value_cut :
    (asm (b! "x = 1000000000\n#define s 1\n#define s x/100000000\n .db s\n") [b! "a.asm"]).state.log = [.wrote (b! "a.bin") [1]] ∧
    (asm (b! "x = 1000000000\n#define s x/100000000\n .db s\n") [b! "a.asm"]).state.log = [.wrote (b! "a.bin") [10]] := by
  decide +kernel

end Spasm.Props
