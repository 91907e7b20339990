import Verif.Lemmas.Define
import Verif.Props.Run

/-
C28, first half: the table of defines is a map.
-/

namespace Spasm.Props
open Spasm Spec

theorem addDefine_plain (s : S) (name : Str) (h0 : name ≠ []) (hl : labelOf s name = none) (ha : argumentOf s name = none)
    (hm : ¬ Maintained s name) (hw : WellNamed s) :
    ∃ T d, addDefine name true s = .ok (some (.glob (nameKey s name), (defineOf s name).isSome)) { s with defines := T } ∧
      T.lookup (nameKey s name) = some d ∧ d.name = nameKey s name ∧ d.args = [] ∧
      d.contents = (defineOf s name).bind (fun d => d.contents) ∧
      (∀ key, key ≠ nameKey s name → T.lookup key = s.defines.lookup key) ∧ ∀ p ∈ T, p.2.name = p.1 := by
  have hl' : s.labels.lookup (nameKey s name) = none := by
    rw [labelOf_eq, Option.map_eq_none_iff] at hl; exact hl
  have hr : refreshed (keyOf s (nameKey s name)) s = none := by
    rw [keyOf_eq, nameKey_idem]; exact refreshed_none s name hm
  have hfind : findDefine (nameKey s name) s = (s.defines.lookup (nameKey s name)).map (fun d => (DRef.glob (nameKey s name), d)) := by
    unfold findDefine
    have h := searchLocal_eq s name
    unfold searchLocal at h
    rw [keyOf_eq, ha, Option.map_eq_none_iff] at h
    rw [h]
  have hs : searchDefines (nameKey s name) true s =
      .ok ((s.defines.lookup (nameKey s name)).map (fun d => (DRef.glob (nameKey s name), d))) s := by
    rw [searchDefines_calm _ _ hr, keyOf_eq, nameKey_idem, hfind]
  rw [defineOf_eq]
  cases hd : s.defines.lookup (nameKey s name) with
  | none =>
    refine ⟨_, _, by
      unfold addDefine
      rw [if_neg (by simpa using h0), M.get_bind, keyOf_eq, hl']
      dsimp only
      rw [M.bind_ok hs, hd]
      rfl, Table.lookup_insert_self _ _ _, rfl, rfl, rfl, fun key hk => Table.lookup_insert_ne _ _ _ _ hk, ?_⟩
    intro p hp
    rcases mem_insert_iff hp with rfl | hp
    · rfl
    · exact hw p hp
  | some d =>
    refine ⟨s.defines.update (nameKey s name) (fun d => { d with args := [] }), { d with args := [] }, by
      unfold addDefine
      rw [if_neg (by simpa using h0), M.get_bind, keyOf_eq, hl']
      dsimp only
      rw [M.bind_ok hs, hd]
      rfl, ?_, ?_, rfl, rfl, ?_, ?_⟩
    · rw [Table.lookup_update, if_pos rfl, hd]; rfl
    · exact hw _ (lookup_mem' hd)
    · intro key hk; rw [Table.lookup_update, if_neg hk]
    · exact names_update Define.name _ (fun d => { d with args := [] }) (fun _ => rfl) hw

theorem setDefine_plain (k : Nat) (s : S) (key text : Str) (d : Define) (redef : Bool) (hk : nameKey s key = key) (hk0 : key ≠ [])
    (hd : s.defines.lookup key = some d) (hn : d.name = key) (hl : s.labels.lookup key = none)
    (hw : redef = true → d.contents ≠ none → ∀ w, Word text w → labelOf s w = none ∧ nameKey s w ≠ key) :
    setDefine (knot (k + 1)) (.glob key) text redef s =
      .ok () { s with defines := s.defines.update key (fun d => { d with contents := some text }) } := by
  unfold setDefine
  rw [M.get_bind]
  have hder : derefDef (.glob key) s = some d := hd
  rw [hder]
  dsimp only
  cases redef with
  | false => rfl
  | true =>
    cases hc : d.contents with
    | none => rfl
    | some c =>
      dsimp only
      rw [M.modify_bind, hn]
      have hadd : addDefine key false { s with defines := [] } = .ok (some (.glob key, false))
          { s with defines := [(key, { name := key, contents := none, args := [], line := s.lineNum, file := s.currFile })] } := by
        unfold addDefine
        rw [if_neg (by simpa using hk0), M.get_bind]
        have hkk : keyOf { s with defines := [] } key = key := by rw [keyOf_eq]; exact hk
        rw [hkk]
        dsimp only
        rw [hl]
        dsimp only
        have : searchDefines key false { s with defines := [] } = .ok none { s with defines := [] } := by
          unfold searchDefines
          simp [Table.lookup_nil]
        rw [M.bind_ok this]
        rfl
      rw [M.bind_ok hadd]
      dsimp only
      rw [M.modify_bind]
      have hexp : ∀ T : Table Define, (∀ x, x ≠ key → T.lookup x = none) →
          expandExpr (knot (k + 1)) text false { s with defines := T } = .ok text { s with defines := T } := by
        intro T hT
        show expandFullBody (knot k) text 0 false { s with defines := T } = _
        unfold expandFullBody
        rw [if_neg (by omega)]
        have := expandLoop_plain (knot k) 0 false { s with defines := T } text ?_ (text.length + 1) [] text [] (by omega) rfl
          (.inr (.inl (by simp)))
        · simpa using this
        · intro w hww
          obtain ⟨h1, h2⟩ := hw rfl (by rw [hc]; simp) w hww
          constructor
          · unfold searchDefines
            have hkw : keyOf { s with defines := T } w = nameKey s w := keyOf_eq _ _
            rw [hkw]
            simp only [Bool.false_eq_true, if_false, hT _ h2, Option.map_none]
          · unfold searchLabels
            have hkw : keyOf { s with defines := T } w = nameKey s w := keyOf_eq _ _
            rw [hkw]
            rw [labelOf_eq, Option.map_eq_none_iff] at h1
            exact h1
      have h2 := hexp (Table.update key (fun d => { d with contents := some c })
        [(key, { name := key, contents := none, args := [], line := s.lineNum, file := s.currFile })]) (by
          intro x hx
          rw [Table.lookup_update, if_neg hx, Table.lookup_cons, if_neg (Ne.symm hx)]
          rfl)
      refine (M.bind_ok h2).trans ?_
      rfl

theorem given_blank {text : Str} (h : Blanks text) : given text = [49] := if_pos h

theorem given_text {text : Str} (h : ¬ Blanks text) : given text = text := if_neg h

theorem lineEnd_skipWs {rest : Str} (h : LineEnd rest) : skipWs rest = rest := by
  rcases h with rfl | ⟨c, r, rfl, h⟩
  · rfl
  · exact skipWs_cons _ _ (by rcases h with rfl | rfl | rfl <;> rfl)

theorem definePlain_ok (k : Nat) (s : S) (key text rest : Str) (d : Define) (redef : Bool) (hk : nameKey s key = key) (hk0 : key ≠ [])
    (hd : s.defines.lookup key = some d) (hn : d.name = key) (hl : s.labels.lookup key = none)
    (hw : redef = true → d.contents ≠ none → ∀ w, Word text w → labelOf s w = none ∧ nameKey s w ≠ key)
    (ht : LineText text) (hlen : text.length ≤ 254) (hc : ¬ Computed text) (hr : LineEnd rest) :
    ∃ b, Blanks b ∧ definePlain (knot (k + 1)) (.glob key) redef (text ++ rest) s =
      .ok (some (b ++ rest)) { s with defines := s.defines.update key (fun d => { d with contents := some (given text) }) } := by
  unfold definePlain
  by_cases hb : Blanks text
  · refine ⟨text, hb, ?_⟩
    have he : isEnd (skipWs (text ++ rest)) = true := by
      rw [skipWs_blanks _ _ hb, lineEnd_skipWs hr]
      rcases hr with rfl | ⟨c, r, rfl, h⟩
      · rfl
      · rcases h with rfl | rfl | rfl <;> rfl
    rw [if_pos he, given_blank hb, M.bind_ok (setDefine_plain k s key [49] d false hk hk0 hd hn hl (fun h => by cases h))]
    rfl
  · refine ⟨[], (by intro c hc; cases hc), ?_⟩
    have he : isEnd (skipWs (text ++ rest)) = false := by
      obtain ⟨b, u, rfl, h1, h2, h3⟩ := ht.split
      have hu : u ≠ [] := by rintro rfl; exact hb (by simpa using h1)
      rw [List.append_assoc, skipWs_blanks _ _ h1]
      cases h2 with
      | nil => exact absurd rfl hu
      | char c t hc _ =>
        rw [List.cons_append, skipWs_cons _ _ (h3 c (by simp))]
        unfold isEnd; simp; omega
      | quoted => rfl
      | escaped => rfl
      | string => rfl
    rw [if_neg (by rw [he]; simp)]
    obtain ⟨f, w, e, h1, h2, h3⟩ := readExpr_define text rest s ht hlen hr hc
    rw [M.bind_ok h1]
    dsimp only
    rw [if_neg (by rw [h2]; simp), if_neg (by rw [h3]; simp), skipToLineEnd_text ht rest hr, between_append, given_text hb,
      M.bind_ok (setDefine_plain k s key text d redef hk hk0 hd hn hl hw)]
    rfl

theorem nameKey_ne {s : S} {name : Str} (h : name ≠ []) : nameKey s name ≠ [] := by
  unfold nameKey
  split
  · exact h
  · simpa using h

theorem name_skipWs {name : Str} (h0 : name ≠ []) (hn : ∀ c ∈ name, NameChar c) (r : Str) :
    skipWs (name ++ r) = name ++ r ∧ isEnd (name ++ r) = false := by
  cases name with
  | nil => exact absurd rfl h0
  | cons c name =>
    have := hn c (by simp)
    have h1 : isBlank c = false := by
      rw [← isNameChar_iff] at this
      unfold isNameChar isAlnum isAlpha isUpper isLower isDigit at this
      unfold isBlank isSpace
      simp at this ⊢
      omega
    have h2 : isEnd (c :: name ++ r) = false := by
      rw [← isNameChar_iff] at this
      unfold isNameChar isAlnum isAlpha isUpper isLower isDigit at this
      unfold isEnd
      simp at this ⊢
      omega
    exact ⟨skipWs_cons _ _ h1, h2⟩

theorem preop_args {w W : Str} (h : w.map upperCase = W) (hW : ∀ x ∈ W, isSpace x = false) (c : Nat) (hc : c = 32 ∨ c = 9)
    (b1 t : Str) (hb1 : Blanks b1) (ht : skipWs t = t) :
    skipWs ((w ++ c :: (b1 ++ t)).dropWhile (fun c => !isSpace c)) = t := by
  have hsp : isSpace c = true := by rcases hc with rfl | rfl <;> rfl
  rw [(findPre_word h hW c hsp (b1 ++ t)).2, show c :: (b1 ++ t) = (c :: b1) ++ t from rfl, skipWs_blanks, ht]
  intro x hx
  rcases List.mem_cons.1 hx with rfl | hx
  · rcases hc with rfl | rfl <;> simp
  · exact hb1 x hx

/-- C28: `#define` makes a name stand for the text behind it. -/
theorem C28_define (k : Nat) (s : S) (name text rest t : Str) (hs : WellNamed s) (h : Definable s name text)
    (ht : Written (b! "DEFINE") name text rest t) (hr : LineEnd rest) :
    ∃ b s', (knot (k + 3)).lineSec t s = .ok (some (b ++ rest)) s' ∧ Blanks b ∧ NowMeans name (given text) s s' ∧ WellNamed s' := by
  obtain ⟨b, w, c, b1, rfl, hb, hw, hc, hb1⟩ := ht
  rw [lineSec_preop (k + 1) b _ hb]
  have hfollow : Follows (text ++ rest) := by
    intro x hx
    cases text with
    | cons y text => exact h.apart x hx
    | nil =>
      rcases hr with rfl | ⟨c, r, rfl, hc'⟩
      · simp at hx
      · simp at hx
        subst hx
        rw [← isNameChar_iff]
        rcases hc' with rfl | rfl | rfl <;> decide
  obtain ⟨hn1, hn2⟩ := takeName_append name (text ++ rest) h.chars hfollow
  obtain ⟨hs1, hs2⟩ := name_skipWs h.nonempty h.chars (text ++ rest)
  have hassoc : b1 ++ name ++ text ++ rest = b1 ++ (name ++ (text ++ rest)) := by simp
  rw [hassoc]
  have hsp : isSpace c = true := by rcases hc with rfl | rfl <;> rfl
  have hf := (findPre_word hw (by decide) c hsp (b1 ++ (name ++ (text ++ rest)))).1
  have ha := preop_args hw (by decide) c hc b1 _ hb1 hs1
  unfold handlePreopBody
  dsimp only
  rw [hf, ha]
  show ∃ b s', preDefine (knot (k + 1)) (name ++ (text ++ rest)) s = _ ∧ _
  unfold preDefine
  rw [if_neg (by rw [hs2]; simp), hn1, hn2]
  obtain ⟨T, d, e1, e2, e3, e4, e5, e6, e7⟩ := addDefine_plain s name h.nonempty h.noLabel h.noArgument h.ours hs
  have hl' : s.labels.lookup (nameKey s name) = none := by
    have := h.noLabel
    rw [labelOf_eq, Option.map_eq_none_iff] at this; exact this
  obtain ⟨b', hb', hp⟩ := definePlain_ok k { s with defines := T, lastDefine := some (nameKey s name) } (nameKey s name) text rest d
    (defineOf s name).isSome (nameKey_idem s name) (nameKey_ne h.nonempty) e2 e3 hl' (fun _ hd => h.again (e5 ▸ hd)) h.line h.short h.plain hr
  refine ⟨b', { s with defines := T.update (nameKey s name) (fun d => { d with contents := some (given text) }), lastDefine := some (nameKey s name) },
    ?_, hb', ?_, ?_⟩
  · rw [M.bind_ok e1]
    dsimp only
    rw [M.modify_bind, if_neg (by simpa using hfollow.not40)]
    exact hp
  · constructor
    · rw [defineOf_eq]
      show ((Table.update (nameKey s name) (fun d => { d with contents := some (given text) }) T).lookup (nameKey s name)).bind _ = _
      rw [Table.lookup_update, if_pos rfl, e2]
      show Define.text { d with contents := some (given text) } = _
      unfold Define.text
      rw [if_pos e4]
    · intro other ho
      rw [defineOf_eq, defineOf_eq]
      show (Table.update (nameKey s name) (fun d => { d with contents := some (given text) }) T).lookup (nameKey s other) = _
      rw [Table.lookup_update, if_neg ho, e6 _ ho]
    · rfl
  · exact names_update Define.name _ (fun d => { d with contents := some (given text) }) (fun _ => rfl) e7

/-- C28: `#undef` and `#undefine` remove a define. -/
theorem C28_undef (k : Nat) (s : S) (name rest t word : Str) (h0 : name ≠ []) (hn : ∀ c ∈ name, NameChar c)
    (hword : word = b! "UNDEF" ∨ word = b! "UNDEFINE") (ht : Written word name [] rest t) (hr : ∀ c ∈ rest.head?, ¬ NameChar c) :
    ∃ s', (knot (k + 2)).lineSec t s = .ok (some rest) s' ∧ NowUndefined name s s' ∧ (WellNamed s → WellNamed s') := by
  obtain ⟨b, w, c, b1, rfl, hb, hw, hc, hb1⟩ := ht
  rw [lineSec_preop k b _ hb]
  have hn1 : takeName (name ++ rest) = name ∧ skipNameEnd (name ++ rest) = rest := by
    have h1 : ∀ c ∈ name, isNameChar c = true := fun c hc => (isNameChar_iff c).2 (hn c hc)
    unfold takeName skipNameEnd
    rw [List.takeWhile_append_of_pos h1, List.dropWhile_append_of_pos h1]
    cases rest with
    | nil => simp
    | cons x r =>
      have : ¬ isNameChar x = true := fun h => hr x (by simp) ((isNameChar_iff x).1 h)
      rw [List.takeWhile_cons_of_neg this, List.dropWhile_cons_of_neg this]
      simp
  obtain ⟨hs1, hs2⟩ := name_skipWs h0 hn rest
  have hassoc : b1 ++ name ++ [] ++ rest = b1 ++ (name ++ rest) := by simp
  rw [hassoc]
  have hsp : isSpace c = true := by rcases hc with rfl | rfl <;> rfl
  have hW : ∀ x ∈ word, isSpace x = false := by rcases hword with rfl | rfl <;> decide
  have hf := (findPre_word hw hW c hsp (b1 ++ (name ++ rest))).1
  have ha := preop_args hw hW c hc b1 _ hb1 hs1
  have hres : handlePreopBody (knot k) (handleBitmap (knot k)) (w ++ c :: (b1 ++ (name ++ rest))) s =
      .ok (some rest) { s with defines := s.defines.erase (nameKey s name) } := by
    unfold handlePreopBody
    dsimp only
    rw [hf, ha]
    rcases hword with rfl | rfl
    · show (if isEnd (name ++ rest) = true then _ else _ : M _) s = _
      rw [if_neg (by rw [hs2]; simp), hn1.1, hn1.2, ← keyOf_eq]
      rfl
    · show (if isEnd (name ++ rest) = true then _ else _ : M _) s = _
      rw [if_neg (by rw [hs2]; simp), hn1.1, hn1.2, ← keyOf_eq]
      rfl
  refine ⟨_, hres, ⟨?_, ?_, rfl⟩, fun hs p hp => hs p (List.mem_filter.1 hp).1⟩
  · rw [defineOf_eq]
    exact Table.lookup_erase_self _ _
  · intro other ho
    rw [defineOf_eq, defineOf_eq]
    exact Table.lookup_erase_ne _ _ _ ho

/-- C28: a label cannot be redefined as a define; the statement is reported and has no other effect. -/
theorem C28_conflict (k : Nat) (s : S) (name text rest t : Str) (h0 : name ≠ []) (hn : ∀ c ∈ name, NameChar c)
    (hl : labelOf s name ≠ none) (ha : ∀ c ∈ text.head?, ¬ NameChar c) (hline : LineText text)
    (ht : Written (b! "DEFINE") name text rest t) (hr : LineEnd rest) :
    (knot (k + 2)).lineSec t s = .ok (some rest) (errorShown .labelConflict s) := by
  obtain ⟨b, w, c, b1, rfl, hb, hw, hc, hb1⟩ := ht
  rw [lineSec_preop k b _ hb]
  have hfollow : ∀ x ∈ (text ++ rest).head?, ¬ isNameChar x = true := by
    intro x hx
    cases text with
    | cons y text => exact fun h => ha x hx ((isNameChar_iff x).1 h)
    | nil =>
      rcases hr with rfl | ⟨c, r, rfl, hc'⟩
      · simp at hx
      · simp at hx
        subst hx
        rcases hc' with rfl | rfl | rfl <;> decide
  have hn1 : takeName (name ++ (text ++ rest)) = name := by
    have h1 : ∀ c ∈ name, isNameChar c = true := fun c hc => (isNameChar_iff c).2 (hn c hc)
    unfold takeName
    rw [List.takeWhile_append_of_pos h1]
    cases hx : text ++ rest with
    | nil => simp
    | cons x r => rw [List.takeWhile_cons_of_neg (hfollow x (by rw [hx]; rfl))]; simp
  obtain ⟨hs1, hs2⟩ := name_skipWs h0 hn (text ++ rest)
  have hassoc : b1 ++ name ++ text ++ rest = b1 ++ (name ++ (text ++ rest)) := by simp
  rw [hassoc]
  have hsp : isSpace c = true := by rcases hc with rfl | rfl <;> rfl
  have hf := (findPre_word hw (by decide) c hsp (b1 ++ (name ++ (text ++ rest)))).1
  have ha' := preop_args hw (by decide) c hc b1 _ hb1 hs1
  have hend : skipToLineEnd false false (name ++ (text ++ rest)) = rest := by
    rw [← List.append_assoc]
    refine skipToLineEnd_text ?_ rest hr
    clear hn1 hs1 hs2 hassoc hf ha' hl h0
    induction name with
    | nil => exact hline
    | cons x name ih =>
      refine .char x _ ?_ (ih fun c hc => hn c (by simp [hc]))
      have := (isNameChar_iff x).2 (hn x (by simp))
      unfold isNameChar isAlnum isAlpha isUpper isLower isDigit at this
      simp at this
      omega
  obtain ⟨l, hl'⟩ : ∃ l, s.labels.lookup (nameKey s name) = some l := by
    rw [labelOf_eq] at hl
    cases h : s.labels.lookup (nameKey s name) with
    | none => rw [h] at hl; exact absurd rfl hl
    | some l => exact ⟨l, rfl⟩
  have hadd : addDefine name true s = .ok none (errorShown .labelConflict s) := by
    unfold addDefine
    rw [if_neg (by simpa using h0), M.get_bind, keyOf_eq, hl']
    show Res.ok none { s with exitCode := if s.exitCode < 2 then 2 else s.exitCode, log := s.log ++ [.error .labelConflict] } = _
    unfold errorShown
    congr 2
    split <;> omega
  unfold handlePreopBody
  dsimp only
  rw [hf, ha']
  show preDefine (knot k) (name ++ (text ++ rest)) s = _
  unfold preDefine
  rw [if_neg (by rw [hs2]; simp), hn1, M.bind_ok hadd]
  dsimp only
  rw [hend]
  rfl

/-- Statements one after the other. -/
def statements (k : Nat) : List Str → M Unit
  | [] => pure ()
  | t :: ts => do
    let _ ← (knot k).lineSec t
    statements k ts

theorem latest_old (key : Str → Str) (name : Str) (cs : List Change) (a b : Option Str) (h : a = b) :
    latest key name a cs = latest key name b cs := by rw [h]

/-- C28: after any sequence of definitions and removals, a name has the text of the most recent definition that was not
undone since, and nothing but the defines has changed. -/
theorem C28_history_partial (k : Nat) (cs : List Change) : ∀ (ts : List Str) (s : S), WellNamed s → (∀ c ∈ cs, Permitted s c) →
    List.Forall₂ Change.Statement cs ts →
    ∃ s', statements (k + 3) ts s = .ok () s' ∧
      (∀ name, (defineOf s' name).bind Define.text = latest (nameKey s) name ((defineOf s name).bind Define.text) cs) ∧
      s' = { s with defines := s'.defines, lastDefine := s'.lastDefine } := by
  induction cs with
  | nil =>
    intro ts s _ _ hts
    cases hts
    exact ⟨s, rfl, fun _ => rfl, rfl⟩
  | cons c cs ih =>
    intro ts s hs hp hts
    cases hts with
    | @cons _ t _ ts h1 h2 =>
    have hstep : ∃ r s1, (knot (k + 3)).lineSec t s = .ok r s1 ∧ WellNamed s1 ∧
        s1 = { s with defines := s1.defines, lastDefine := s1.lastDefine } ∧
        ∀ name, latest (nameKey s) name ((defineOf s name).bind Define.text) (c :: cs) =
          latest (nameKey s) name ((defineOf s1 name).bind Define.text) cs := by
      have hpc := hp c (by simp)
      cases c with
      | define name text =>
        obtain ⟨rest, hr, hw⟩ := h1
        obtain ⟨hd, hwords⟩ := hpc
        obtain ⟨b, s1, e, _, hm, hwn⟩ := C28_define k s name text rest t hs
          { nonempty := hd.nonempty, chars := hd.chars, noLabel := hd.noLabel, noArgument := hd.noArgument, ours := hd.ours,
            apart := hd.apart, line := hd.line, short := hd.short, plain := hd.plain, again := fun _ => hwords } hw hr
        refine ⟨_, s1, e, hwn, hm.rest, fun other => ?_⟩
        show latest _ _ (if nameKey s name = nameKey s other then some (given text) else _) cs = _
        refine latest_old _ _ _ _ _ ?_
        by_cases ho : nameKey s name = nameKey s other
        · rw [if_pos ho, ← hm.this, defineOf_eq, defineOf_eq]
          have : ∀ x, nameKey s1 x = nameKey s x := fun x => by rw [hm.rest]; rfl
          rw [this, this, ho]
        · rw [if_neg ho, hm.others other (Ne.symm ho)]
      | undef name =>
        obtain ⟨rest, word, hr, hword, hw⟩ := h1
        obtain ⟨s1, e, hm, hwn⟩ := C28_undef (k + 1) s name rest t word hpc.1 hpc.2 hword hw hr
        refine ⟨_, s1, e, hwn hs, ?_, fun other => ?_⟩
        · rw [hm.rest]
        · show latest _ _ (if nameKey s name = nameKey s other then none else _) cs = _
          refine latest_old _ _ _ _ _ ?_
          by_cases ho : nameKey s name = nameKey s other
          · rw [if_pos ho]
            have h' := hm.this
            rw [defineOf_eq] at h'
            rw [defineOf_eq]
            have : ∀ x, nameKey s1 x = nameKey s x := fun x => by rw [hm.rest]; rfl
            rw [this] at h' ⊢
            rw [← ho, h']; rfl
          · rw [if_neg ho, hm.others other (Ne.symm ho)]
    obtain ⟨r, s1, e1, hwn, hs1, hl⟩ := hstep
    obtain ⟨s', e2, hn, hs'⟩ := ih ts s1 hwn (fun c hc => by
      have := hp c (by simp [hc])
      cases c with
      | define name text =>
        have hd := this.1
        have h1 : ∀ x, labelOf s1 x = labelOf s x := fun x => by rw [hs1]; rfl
        have h2 : ∀ x, nameKey s1 x = nameKey s x := fun x => by rw [hs1]; rfl
        refine ⟨?_, fun w hw => ?_⟩
        · rw [show ({ s1 with defines := [] } : S) = { s with defines := [], lastDefine := s1.lastDefine } by rw [hs1]]
          exact ⟨hd.nonempty, hd.chars, hd.noLabel, hd.noArgument, hd.ours, hd.apart, hd.line, hd.short, hd.plain, hd.again⟩
        · rw [h1, h2, h2]; exact this.2 w hw
      | undef name => exact this) h2
    refine ⟨s', ?_, fun name => ?_, ?_⟩
    · unfold statements
      rw [M.bind_ok e1]
      exact e2
    · rw [hn name, hl name]
      have : nameKey s1 = nameKey s := by funext x; rw [hs1]; rfl
      rw [this]
    · rw [hs', hs1]

theorem not_computed {t : Str} (h : ∀ c ∈ t, upperCase c ≠ 65) : ¬ Computed t := by
  rintro ⟨b, w, b', r, rfl, -, -, hw, -⟩
  have : 65 ∈ w.map upperCase := by rcases hw with hw | hw <;> rw [hw] <;> decide
  obtain ⟨c, hc, h'⟩ := List.mem_map.1 this
  exact h c (by simp [hc]) h'

theorem word_chars {t w : Str} (h : Word t w) : ∃ c ∈ t, c ∈ w ∧ NameChar c := by
  obtain ⟨h0, h1, p, q, rfl, -⟩ := h
  cases w with
  | nil => exact absurd rfl h0
  | cons c w => exact ⟨c, by simp, by simp, h1 c (by simp)⟩

/-- C28 fails when a definition is repeated with a text that mentions a label: the label's present value is stored. -/
theorem C28_label_frozen :
    ((defineOf (asm (b! " nop\na: nop\n#define k 1\n#define k a+1\n") [b! "a.asm"]).state (b! "k")).bind Define.text) =
      some (b! " 1+1") := by
  decide +kernel

/-- C28 fails when a definition is repeated with a text that mentions the name itself: its old text is stored. -/
theorem C28_self_frozen :
    ((defineOf (asm (b! "#define k 1\n#define k k+1\n") [b! "a.asm"]).state (b! "k")).bind Define.text) =
      some (b! "  1+1") := by
  decide +kernel

/-- C28 fails for texts with a semicolon in a character constant: the text is cut. -/
theorem C28_semicolon_cut :
    ((defineOf (asm (b! "#define k ';'+1\n") [b! "a.asm"]).state (b! "k")).bind Define.text) = some (b! " '") := by
  decide +kernel

/-- C28 fails for a string that ends with a backslash: the comment becomes part of the text. -/
theorem C28_comment_kept :
    ((defineOf (asm (b! "#define k \"a\\\\\" ; no\n") [b! "a.asm"]).state (b! "k")).bind Define.text) =
      some (b! " \"a\\\\\" ; no") := by
  decide +kernel

/-- Defining `k`, redefining it in the other case, removing it and defining `j`. -/
example : ∃ s', statements 3 [b! "#define k 1\n", b! " #DEFINE K\t2 ; two\n", b! "#define k", b! "#undef k", b! "#define j 4"] {} = .ok () s' ∧
    ((defineOf s' (b! "k")).bind Define.text) = none ∧ ((defineOf s' (b! "J")).bind Define.text) = some (b! " 4") := by
  have blank : ∀ c : Nat, c = 32 → Blanks [c] := by rintro c rfl x hx; simp at hx; simp [hx]
  have none_ : Blanks [] := by intro c hc; cases hc
  have plain : ∀ name text : Str, name ≠ [] → (∀ c ∈ name, c = 75 ∨ c = 107 ∨ c = 106) →
      (∀ c ∈ text, c = 32 ∨ c = 9 ∨ (49 ≤ c ∧ c ≤ 57)) → (∀ c ∈ text.head?, c = 32 ∨ c = 9) → text.length ≤ 254 →
      Permitted ({} : S) (.define name text) := by
    intro name text h0 h1 h2 h3 h4
    refine ⟨⟨h0, ?_, rfl, rfl, ?_, ?_, ?_, h4, ?_, ?_⟩, ?_⟩
    · intro c hc
      rw [← isNameChar_iff]
      rcases h1 c hc with rfl | rfl | rfl <;> rfl
    · intro h
      cases name with
      | nil => exact h0 rfl
      | cons c name =>
        have hu : upperCase c = 95 := by
          rcases h with h | h
          · exact (List.cons.inj h).1
          · exact (List.cons.inj h).1
        rcases h1 c (by simp) with rfl | rfl | rfl <;> exact absurd hu (by decide)
    · intro c hc
      rw [← isNameChar_iff]
      rcases h3 c hc with rfl | rfl <;> decide
    · clear h4 h3
      induction text with
      | nil => exact .nil
      | cons c t ih => exact .char c t (by have := h2 c (by simp); omega) (ih fun c hc => h2 c (by simp [hc]))
    · refine not_computed fun c hc => ?_
      have := h2 c hc
      unfold upperCase
      split <;> omega
    · intro h; exact absurd rfl h
    · intro w hw
      refine ⟨rfl, ?_⟩
      obtain ⟨c, hct, hcw, hcn⟩ := word_chars hw
      have hc : 49 ≤ c ∧ c ≤ 57 := by
        rw [← isNameChar_iff] at hcn
        rcases h2 c hct with rfl | rfl | h
        · exact absurd hcn (by decide)
        · exact absurd hcn (by decide)
        · exact h
      intro e
      have hm : upperCase c ∈ name.map upperCase := by
        have : w.map upperCase = name.map upperCase := e
        rw [← this]
        exact List.mem_map_of_mem hcw
      obtain ⟨d, hd, hd'⟩ := List.mem_map.1 hm
      have hcu : upperCase c = c := if_neg (by omega)
      rw [hcu] at hd'
      rcases h1 d hd with rfl | rfl | rfl <;> (have : c = _ := hd'.symm; simp [upperCase] at this; omega)
  have h := C28_history_partial 0 [.define (b! "k") (b! " 1"), .define (b! "K") (b! "\t2 "), .define (b! "k") [], .undef (b! "k"), .define (b! "j") (b! " 4")]
    [b! "#define k 1\n", b! " #DEFINE K\t2 ; two\n", b! "#define k", b! "#undef k", b! "#define j 4"] {} (by intro p hp; cases hp)
    (by
      intro c hc
      simp only [List.mem_cons, List.not_mem_nil, or_false] at hc
      rcases hc with rfl | rfl | rfl | rfl | rfl
      · exact plain _ _ (by decide) (by decide) (by decide) (by decide) (by decide)
      · exact plain _ _ (by decide) (by decide) (by decide) (by decide) (by decide)
      · exact plain _ _ (by decide) (by decide) (by decide) (by decide) (by decide)
      · exact ⟨by decide, by intro c hc; rw [← isNameChar_iff]; revert c; decide⟩
      · exact plain _ _ (by decide) (by decide) (by decide) (by decide) (by decide))
    (.cons ⟨b! "\n", .inr ⟨10, [], rfl, by decide⟩, [], b! "define", 32, [], rfl, none_, rfl, by decide, none_⟩
      (.cons ⟨b! "; two\n", .inr ⟨59, _, rfl, by decide⟩, [32], b! "DEFINE", 32, [], rfl, blank 32 rfl, rfl, by decide, none_⟩
        (.cons ⟨[], .inl rfl, [], b! "define", 32, [], rfl, none_, rfl, by decide, none_⟩
          (.cons ⟨[], _, by simp, .inl rfl, [], b! "undef", 32, [], rfl, none_, rfl, by decide, none_⟩
            (.cons ⟨[], .inl rfl, [], b! "define", 32, [], rfl, none_, rfl, by decide, none_⟩ .nil)))))
  obtain ⟨s', h1, h2, -⟩ := h
  exact ⟨s', h1, by rw [h2]; decide, by rw [h2]; decide⟩

end Spasm.Props
