import Verif.Spec.MacroDef
import Verif.Lemmas.Cond
import Verif.Props.Defines
import Verif.Props.Macro
import Verif.Props.Cond

/-
C62: definitions of macros.
-/

namespace Spasm.Props
open Spasm Spec

theorem eqCase_iff (a b : Str) : eqCase a b = true ↔ a.map upperCase = b.map upperCase := by
  refine ⟨upper_of_eqCase, fun h => ?_⟩
  unfold eqCase
  have : ∀ x y, upperCase x = upperCase y → toLower x = toLower y := by
    intro x y h
    unfold upperCase at h
    unfold toLower isUpper
    simp only [Bool.and_eq_true, decide_eq_true_eq]
    split at h <;> split at h <;> split <;> split <;> omega
  simp only [beq_iff_eq]
  induction a generalizing b with
  | nil => cases b with
    | nil => rfl
    | cons => simp at h
  | cons x a ih => cases b with
    | nil => simp at h
    | cons y b =>
      simp only [List.map_cons, List.cons.injEq] at h ⊢
      exact ⟨this _ _ h.1, ih b h.2⟩

theorem sameParam (s : S) (w a : Str) : (if s.caseSens then w == a else eqCase w a) = true ↔ nameKey s w = nameKey s a := by
  unfold nameKey
  cases s.caseSens with
  | true => simp
  | false => simpa using eqCase_iff w a

theorem argDefLoop_ok (s : S) {ps : List Str} {t : Str} (h : Joined ps t) : ∀ (acc : List Str) (f : Nat) (e : Bool) (r : Str),
    ((acc ++ ps).map (nameKey s)).Nodup → (acc ++ ps).length ≤ 16 → ps.length < f → EndsList r →
    argDefLoop f e acc (t ++ r) s = .ok (some (acc ++ ps, r)) s := by
  have step : ∀ (acc : List Str) (p u w : Str) (e e' : Bool) (f : Nat) (ps : List Str), extractArg e u s = .ok (some p, e', w) s →
      ((acc ++ p :: ps).map (nameKey s)).Nodup → (acc ++ p :: ps).length ≤ 16 →
      argDefLoop (f + 1) e acc u s = argDefLoop f e' (acc ++ [p]) w s := by
    intro acc p u w e e' f ps hx hnd hlen
    rw [argDefLoop, M.bind_ok hx]
    dsimp only
    rw [M.get_bind, if_neg (by simp at hlen; omega), if_neg]
    simp only [List.any_eq_true, not_exists, not_and]
    intro a ha h
    have := (sameParam s p a).1 h
    rw [List.map_append, List.nodup_append] at hnd
    exact hnd.2.2 (nameKey s a) (List.mem_map_of_mem ha) (nameKey s p) (by simp) this.symm
  induction h with
  | one b a b' hb hb' ha hl =>
    intro acc f e r hnd hlen hf hr
    obtain ⟨f, rfl⟩ : ∃ m, f = m + 2 := ⟨f - 2, by simp at hf; omega⟩
    rw [step acc a _ r e false (f + 1) [] (C42_last_argument b a b' r e s hb hb' ha hl hr) hnd hlen, argDefLoop, M.bind_ok (extractArg_end hr s)]
    rfl
  | more b a b' as t hb hb' ha hl hj ih =>
    intro acc f e r hnd hlen hf hr
    obtain ⟨f, rfl⟩ : ∃ m, f = m + 1 := ⟨f - 1, by simp at hf; omega⟩
    rw [show b ++ a ++ b' ++ [44] ++ t ++ r = b ++ a ++ b' ++ [44] ++ (t ++ r) by simp,
      step acc a _ (t ++ r) e true f as (C42_argument b a b' (t ++ r) e s hb hb' ha hl) hnd hlen,
      ih (acc ++ [a]) f true r (by simpa using hnd) (by simpa using hlen) (by simp at hf; omega) hr]
    simp

theorem paramText_follows {params : List Str} {t : Str} (h : ParamText params t) : ∀ c ∈ t.head?, ¬ NameChar c := by
  have paren : ∀ (b u : Str), Blanks b → ∀ c ∈ (b ++ 40 :: u).head?, ¬ NameChar c := by
    intro b u hb c hc
    cases b with
    | nil => cases hc; unfold NameChar Alnum; omega
    | cons x b =>
      have hx := hb x (by simp)
      cases hc
      unfold NameChar Alnum
      omega
  cases h with
  | none b t hb h1 h2 => exact h1
  | empty b b1 t hb _ => simpa using paren b (b1 ++ 41 :: t) hb
  | list b ps u t hb _ => simpa using paren b (u ++ 41 :: t) hb

theorem parseArgDefs_ok (s : S) (key : Str) (T : Table Define) (d : Define) (hT : T.lookup key = some d) (hn : ∀ p ∈ T, p.2.name = p.1) (f : Nat)
    (ps : List Str) (t u x : Str) (st : S) (hst : st = { s with defines := T })
    (hrun : argDefLoop (x.length + 2) false [] x { s with defines := T.update key (fun d => { d with args := [] }) } =
      .ok (some (ps, u)) { s with defines := T.update key (fun d => { d with args := [] }) }) :
    ∃ T', parseArgDefs (.glob key) x st = .ok (some (dropChar 41 u)) { s with defines := T' } ∧ T'.lookup key = some { d with args := ps } ∧
      (∀ o, o ≠ key → T'.lookup o = T.lookup o) ∧ ∀ p ∈ T', p.2.name = p.1 := by
  subst hst
  refine ⟨(T.update key (fun d => { d with args := [] })).update key (fun d => { d with args := ps }), ?_, ?_, ?_, ?_⟩
  · unfold parseArgDefs
    rw [M.modify_bind]
    show (argDefLoop (x.length + 2) false [] x >>= _) { s with defines := T.update key (fun d => { d with args := [] }) } = _
    rw [M.bind_ok hrun]
    rfl
  · rw [Table.lookup_update, if_pos rfl, Table.lookup_update, if_pos rfl, hT]
    rfl
  · intro o ho
    rw [Table.lookup_update, if_neg ho, Table.lookup_update, if_neg ho]
  · exact names_update Define.name _ (fun d => { d with args := ps }) (fun _ => rfl) (names_update Define.name _ (fun d => { d with args := [] }) (fun _ => rfl) hn)

theorem params_read (s : S) (key : Str) (T : Table Define) (d : Define) (hT : T.lookup key = some d) (hargs : d.args = []) (hn : ∀ p ∈ T, p.2.name = p.1)
    (params : List Str) (t nl r : Str) (h : ParamText params t) (ht : ∀ c ∈ t, c ≠ 10 ∧ c ≠ 13) (hnl : NewLine nl)
    (hnd : (params.map (nameKey s)).Nodup) (hlen : params.length ≤ 16) :
    ∃ T' e, (if hd (skipWs (t ++ nl ++ r)) == 40 then parseArgDefs (.glob key) (skipWs (t ++ nl ++ r)).tail else pure (some (skipWs (t ++ nl ++ r))) : M (Option Str))
        { s with defines := T } = .ok (some e) { s with defines := T' } ∧ skipToNextLine e = r ∧ T'.lookup key = some { d with args := params } ∧
      (∀ o, o ≠ key → T'.lookup o = T.lookup o) ∧ ∀ p ∈ T', p.2.name = p.1 := by
  have hk : nameKey { s with defines := T.update key (fun d => { d with args := [] }) } = nameKey s := rfl
  cases h with
  | none b t hb h1 h2 =>
    have hsk : skipWs (b ++ t ++ nl ++ r) = t ++ nl ++ r := by
      rw [List.append_assoc, List.append_assoc, skipWs_blanks b _ hb, ← List.append_assoc]
      cases t with
      | nil => rcases hnl with rfl | rfl <;> rfl
      | cons c t =>
        have := (h2 c rfl).2
        unfold White at this
        rw [List.cons_append, List.cons_append, skipWs_cons]
        rw [← Bool.not_eq_true, isBlank_iff]
        omega
    have h40 : (Spasm.hd (t ++ nl ++ r) == 40) = false := by
      cases t with
      | nil => rcases hnl with rfl | rfl <;> rfl
      | cons c t => simpa using (h2 c rfl).1
    refine ⟨T, t ++ nl ++ r, ?_, ?_, ?_, fun _ _ => rfl, hn⟩
    · rw [hsk, h40]
      rfl
    · rw [List.append_assoc, skipToNextLine_plain (fun c hc => ht c (by simp [hc])), skipToNextLine_newline hnl]
    · rw [hT, ← hargs]
  | empty b b1 t hb hb1 =>
    have hsk : skipWs (b ++ [40] ++ b1 ++ [41] ++ t ++ nl ++ r) = 40 :: (b1 ++ 41 :: (t ++ nl ++ r)) := by
      rw [show b ++ [40] ++ b1 ++ [41] ++ t ++ nl ++ r = b ++ 40 :: (b1 ++ 41 :: (t ++ nl ++ r)) by simp, skipWs_blanks b _ hb, skipWs_cons _ _ rfl]
    have hrun : argDefLoop ((b1 ++ 41 :: (t ++ nl ++ r)).length + 2) false [] (b1 ++ 41 :: (t ++ nl ++ r)) { s with defines := T.update key (fun d => { d with args := [] }) } =
      .ok (some ([], 41 :: (t ++ nl ++ r))) { s with defines := T.update key (fun d => { d with args := [] }) } := by
      rw [argDefLoop]
      have hx : ∀ st, extractArg false (b1 ++ 41 :: (t ++ nl ++ r)) st = .ok (none, false, 41 :: (t ++ nl ++ r)) st := by
        intro st
        rw [← extractArg_end (r := 41 :: (t ++ nl ++ r)) (.inr ⟨_, _, rfl, by omega⟩) st]
        unfold extractArg readExpr
        rw [skipWs_blanks _ _ hb1]
      rw [M.bind_ok (hx _)]
      rfl
    obtain ⟨T', a1, a2, a3, a4⟩ := parseArgDefs_ok s key T d hT hn 0 [] t _ _ _ rfl hrun
    refine ⟨T', t ++ nl ++ r, ?_, ?_, a2, a3, a4⟩
    · rw [hsk]
      exact a1
    · rw [List.append_assoc, skipToNextLine_plain (fun c hc => ht c (by simp [hc])), skipToNextLine_newline hnl]
  | list b ps u t hb hj =>
    have hsk : skipWs (b ++ [40] ++ u ++ [41] ++ t ++ nl ++ r) = 40 :: (u ++ 41 :: (t ++ nl ++ r)) := by
      rw [show b ++ [40] ++ u ++ [41] ++ t ++ nl ++ r = b ++ 40 :: (u ++ 41 :: (t ++ nl ++ r)) by simp, skipWs_blanks b _ hb, skipWs_cons _ _ rfl]
    have hrun := argDefLoop_ok { s with defines := T.update key (fun d => { d with args := [] }) } hj [] ((u ++ 41 :: (t ++ nl ++ r)).length + 2) false (41 :: (t ++ nl ++ r))
      (by rw [hk]; exact hnd) hlen (by have := joined_length hj; simp; omega) (.inr ⟨_, _, rfl, by omega⟩)
    obtain ⟨T', a1, a2, a3, a4⟩ := parseArgDefs_ok s key T d hT hn 0 params t _ _ _ rfl hrun
    refine ⟨T', t ++ nl ++ r, ?_, ?_, a2, a3, a4⟩
    · rw [hsk]
      exact a1
    · rw [List.append_assoc, skipToNextLine_plain (fun c hc => ht c (by simp [hc])), skipToNextLine_newline hnl]

theorem addDefine_fresh (s : S) (name : Str) (h0 : name ≠ []) (hl : labelOf s name = none) (ha : argumentOf s name = none)
    (hm : ¬ Maintained s name) (hd : defineOf s name = none) :
    addDefine name true s = .ok (some (.glob (nameKey s name), false))
      { s with defines := s.defines.insert (nameKey s name) { name := nameKey s name, contents := none, args := [], line := s.lineNum, file := s.currFile } } := by
  have hl' : s.labels.lookup (nameKey s name) = none := by
    rw [labelOf_eq, Option.map_eq_none_iff] at hl; exact hl
  have hr : refreshed (keyOf s (nameKey s name)) s = none := by
    rw [keyOf_eq, nameKey_idem]; exact refreshed_none s name hm
  rw [defineOf_eq] at hd
  have hfind : findDefine (nameKey s name) s = none := by
    unfold findDefine
    have h := searchLocal_eq s name
    unfold searchLocal at h
    rw [keyOf_eq, ha, Option.map_eq_none_iff] at h
    rw [h, hd]
    rfl
  have hs : searchDefines (nameKey s name) true s = .ok none s := by
    rw [searchDefines_calm _ _ hr, keyOf_eq, nameKey_idem, hfind]
  unfold addDefine
  rw [if_neg (by simpa using h0), M.get_bind, keyOf_eq, hl']
  dsimp only
  rw [M.bind_ok hs]
  rfl

theorem addDefine_again (s : S) (name : Str) (h0 : name ≠ []) (hl : labelOf s name = none) (ha : argumentOf s name = none)
    (hm : ¬ Maintained s name) (d : Define) (hd : defineOf s name = some d) :
    addDefine name true s = .ok (some (.glob (nameKey s name), true))
      { s with defines := s.defines.update (nameKey s name) (fun d => { d with args := [] }) } := by
  have hl' : s.labels.lookup (nameKey s name) = none := by
    rw [labelOf_eq, Option.map_eq_none_iff] at hl; exact hl
  have hr : refreshed (keyOf s (nameKey s name)) s = none := by
    rw [keyOf_eq, nameKey_idem]; exact refreshed_none s name hm
  rw [defineOf_eq] at hd
  have hfind : findDefine (nameKey s name) s = some (.glob (nameKey s name), d) := by
    unfold findDefine
    have h := searchLocal_eq s name
    unfold searchLocal at h
    rw [keyOf_eq, ha, Option.map_eq_none_iff] at h
    rw [h, hd]
    rfl
  have hs : searchDefines (nameKey s name) true s = .ok (some (.glob (nameKey s name), d)) s := by
    rw [searchDefines_calm _ _ hr, keyOf_eq, nameKey_idem, hfind]
  unfold addDefine
  rw [if_neg (by simpa using h0), M.get_bind, keyOf_eq, hl']
  dsimp only
  rw [M.bind_ok hs]
  rfl

theorem macroName_chars {name : Str} (h : Name name) : ∀ c ∈ name, NameChar c := by
  obtain ⟨⟨c, r, rfl, h1, h2⟩, -⟩ := h
  intro x hx
  rcases List.mem_cons.1 hx with rfl | hx
  · unfold NameChar Alnum; omega
  · exact h2 x hx

theorem lineText_plain (t : Str) (h : ∀ c ∈ t, c ≠ 34 ∧ c ≠ 39 ∧ c ≠ 92 ∧ c ≠ 10 ∧ c ≠ 13 ∧ c ≠ 59) : LineText t := by
  induction t with
  | nil => exact .nil
  | cons c t ih => exact .char c t (h c (by simp)) (ih fun x hx => h x (by simp [hx]))

/-- C62: `#macro` makes a name a macro with the parameters in parentheses and the lines up to `#endmacro`. -/
theorem C62_macro (k : Nat) (s : S) (hs : WellNamed s) (hgo : s.errOccurred = false) (name : Str) (hname : Name name) (hl : labelOf s name = none)
    (ha : argumentOf s name = none) (hm : ¬ Maintained s name) (params : List Str) (hnd : (params.map (nameKey s)).Nodup) (hlen : params.length ≤ 16)
    (l body e rest : Str) (hline : MacroLine name params l) (hbody : MacroBody body) (he : EndMacro e) (hrest : Spec.LineEnd rest) :
    ∃ s', (knot (k + 3)).lineSec (l ++ body ++ e ++ rest) s = .ok (some rest) s' ∧ NowMacro name params body s s' ∧ WellNamed s' := by
  obtain ⟨b, w, c, b1, t, nl, rfl, hb, hw, hc, hb1, ht, ht', hnl⟩ := hline
  obtain ⟨b2, w2, b3, rfl, hb2, hw2, hb3⟩ := he
  obtain ⟨sts, hlines, hnest⟩ := hbody
  have hname0 : name ≠ [] := by obtain ⟨⟨_, _, h, _⟩, _⟩ := hname; rw [h]; simp
  have hnc : ∀ c ∈ name, NameChar c := macroName_chars hname
  have hfol := paramText_follows ht
  have hassoc : b ++ 35 :: (w ++ c :: (b1 ++ name ++ t)) ++ nl ++ body ++ (b2 ++ w2 ++ b3) ++ rest =
      b ++ 35 :: (w ++ c :: (b1 ++ (name ++ (t ++ nl ++ (body ++ (b2 ++ w2 ++ (b3 ++ rest))))))) := by simp
  rw [hassoc, lineSec_preop (k + 1) b _ hb]
  have hfol' : ∀ c ∈ (t ++ nl ++ (body ++ (b2 ++ w2 ++ (b3 ++ rest)))).head?, ¬ NameChar c := by
    cases t with
    | cons x t => exact hfol
    | nil =>
      intro x hx
      rcases hnl with rfl | rfl <;> cases hx <;> unfold NameChar Alnum <;> omega
  generalize hX : t ++ nl ++ (body ++ (b2 ++ w2 ++ (b3 ++ rest))) = X at hfol'
  obtain ⟨hn1, hn2⟩ := takeName_stop name X hnc hfol'
  obtain ⟨hs1, hs2⟩ := name_skipWs hname0 hnc X
  have hsp : isSpace c = true := by rcases hc with rfl | rfl <;> rfl
  have hf := (findPre_word hw (by decide) c hsp (b1 ++ (name ++ X))).1
  have hargs := preop_args hw (by decide) c hc b1 _ hb1 hs1
  unfold handlePreopBody
  dsimp only
  rw [hf, hargs]
  show ∃ s', preMacro (knot (k + 1)) (name ++ X) s = _ ∧ _
  unfold preMacro
  rw [if_neg (by rw [hs2]; simp), hn1, hn2]
  obtain ⟨T, d, e1, e2, e3, e4, e5, e6, e7⟩ := addDefine_plain s name hname0 hl ha hm hs
  have e8 : defineOf s name = none → d.file = s.currFile ∧ d.line = s.lineNum := by
    intro hd
    have e9 := addDefine_fresh s name hname0 hl ha hm hd
    rw [e1] at e9
    have hT : T = s.defines.insert (nameKey s name) { name := nameKey s name, contents := none, args := [], line := s.lineNum, file := s.currFile } := by
      have := congrArg (fun r : Res (Option (DRef × Bool)) => r.state.defines) e9
      exact this
    rw [hT, Table.lookup_insert_self] at e2
    cases e2
    exact ⟨rfl, rfl⟩
  have e10 : ∀ d0, defineOf s name = some d0 → d.file = d0.file ∧ d.line = d0.line := by
    intro d0 hd
    have e9 := addDefine_again s name hname0 hl ha hm d0 hd
    rw [e1] at e9
    have hT : T = s.defines.update (nameKey s name) (fun d => { d with args := [] }) := by
      have := congrArg (fun r : Res (Option (DRef × Bool)) => r.state.defines) e9
      exact this
    rw [defineOf_eq] at hd
    rw [hT, Table.lookup_update, if_pos rfl, hd] at e2
    cases e2
    exact ⟨rfl, rfl⟩
  obtain ⟨T', e', p1, p2, p3, p4, p5⟩ := params_read s (nameKey s name) T d e2 e4 e7 params t nl (body ++ (b2 ++ w2 ++ (b3 ++ rest))) ht ht' hnl hnd hlen
  rw [hX] at p1
  have hR : Begins (b! "#endmacro") (b2 ++ w2 ++ (b3 ++ rest)) := ⟨b2, w2, b3 ++ rest, rfl, hb2, hw2⟩
  have hp : Plainly (b2 ++ w2 ++ (b3 ++ rest)) := plainly_hash hb2 hw2
  have hif : lineHasWord (b2 ++ w2 ++ (b3 ++ rest)) (b! "#IF") = false := noWord_of (by decide) (by decide) hR (by decide)
  have hskip := skipUntil_finds (knot (k + 1)) [b! "#endmacro"] (by decide) true
    { s with defines := T'.update (nameKey s name) (fun d => { d with line := d.line + 1 }), lineNum := s.lineNum + 1 } hgo sts body
    (b2 ++ w2 ++ (b3 ++ rest)) (b! "#endmacro") hlines hnest (by simp) hR hif (by intro c hc; have := hp c hc; omega)
  rw [if_pos rfl] at hskip
  have hset := setDefine_plain k { s with defines := T'.update (nameKey s name) (fun d => { d with line := d.line + 1 }), lineNum := s.lineNum + 1 + (body.count 10 : Nat) }
    (nameKey s name) body { d with args := params, line := d.line + 1 } false (nameKey_idem s name) (nameKey_ne hname0)
    (by show (T'.update (nameKey s name) (fun d => { d with line := d.line + 1 })).lookup (nameKey s name) = _
        rw [Table.lookup_update, if_pos rfl, p3]; rfl)
    e3 (by rw [labelOf_eq, Option.map_eq_none_iff] at hl; exact hl) (by intro h; cases h)
  have hend : skipToLineEnd false false (b2 ++ w2 ++ (b3 ++ rest)) = rest := by
    rw [show b2 ++ w2 ++ (b3 ++ rest) = b2 ++ w2 ++ b3 ++ rest by simp]
    refine skipToLineEnd_text (lineText_plain _ ?_) rest hrest
    intro c hc
    rcases List.mem_append.1 hc with hc | hc
    · rcases List.mem_append.1 hc with hc | hc
      · have := hb2 c hc
        omega
      · have h1 : upperCase c ∈ (b! "#endmacro").map upperCase := by
          rw [← show w2.map upperCase = _ from hw2]
          exact List.mem_map_of_mem hc
        have h2 : ∀ y ∈ (b! "#endmacro").map upperCase, y = 35 ∨ (65 ≤ y ∧ y ≤ 90) := by decide
        have h3 := h2 _ h1
        unfold upperCase at h3
        split at h3 <;> omega
    · have := hb3 c hc
      omega
  refine ⟨{ s with
      defines := (T'.update (nameKey s name) (fun d => { d with line := d.line + 1 })).update (nameKey s name) (fun d => { d with contents := some body }),
      lineNum := s.lineNum + 1 + (body.count 10 : Nat) }, ?_, ?_, ?_⟩
  · rw [M.bind_ok e1]
    dsimp only
    cases hq : (hd (skipWs X) == 40) <;>
    · rw [hq] at p1
      simp only [Bool.false_eq_true, if_false, if_true] at p1 ⊢
      rw [M.bind_ok p1]
      dsimp only
      rw [p2, M.modify_bind, M.modify_bind]
      show (skipUntil _ _ _ _ >>= _) { s with defines := T'.update (nameKey s name) (fun d => { d with line := d.line + 1 }), lineNum := s.lineNum + 1 } = _
      rw [M.bind_ok hskip, between_append]
      show (setDefine _ _ _ _ >>= _) { s with defines := T'.update (nameKey s name) (fun d => { d with line := d.line + 1 }), lineNum := s.lineNum + 1 + (body.count 10 : Nat) } = _
      rw [M.bind_ok hset, hend]
      rfl
  · refine ⟨⟨{ d with args := params, line := d.line + 1, contents := some body }, ?_, rfl, rfl, ?_, ?_⟩, ?_, rfl⟩
    · rw [defineOf_eq]
      show (Table.update (nameKey s name) (fun d : Define => { d with contents := some body }) _).lookup (nameKey s name) = _
      rw [Table.lookup_update, if_pos rfl, Table.lookup_update, if_pos rfl, p3]
      rfl
    · intro h
      have := e8 h
      exact ⟨this.1, by show d.line + 1 = _; rw [this.2]⟩
    · intro d0 h
      have := e10 d0 h
      exact ⟨this.1, by show d.line + 1 = _; rw [this.2]⟩
    · intro o ho
      rw [defineOf_eq, defineOf_eq]
      show (Table.update (nameKey s name) (fun d : Define => { d with contents := some body }) _).lookup (nameKey s o) = _
      rw [Table.lookup_update, if_neg ho, Table.lookup_update, if_neg ho, p4 _ ho, e6 _ ho]
  · exact names_update Define.name _ (fun d => { d with contents := some body }) (fun _ => rfl)
      (names_update Define.name _ (fun d => { d with line := d.line + 1 }) (fun _ => rfl) p5)

/-- A case for C62: a macro with two parameters and a conditional group inside. -/
example : ∃ s', (knot 3).lineSec (b! "#Macro put (x, y) ; two bytes\n#ifdef a\n .db x\n#endif\n .db y\n#ENDMACRO\n nop\n") {} = .ok (some (b! "\n nop\n")) s' ∧
    s'.lineNum = ({} : S).lineNum + 5 ∧
    ∃ d, defineOf s' (b! "Put") = some d ∧ d.args = [b! "x", b! "y"] ∧ d.contents = some (b! "#ifdef a\n .db x\n#endif\n .db y\n") := by
  have blank : Blanks [32] := by intro x hx; simp at hx; simp [hx]
  have none_ : Blanks [] := by intro c hc; cases hc
  have hp : Name (b! "put") := ⟨⟨112, b! "ut", rfl, by decide, by
    intro x hx; simp at hx; unfold NameChar; rcases hx with rfl | rfl <;> decide⟩, by decide⟩
  have hj : Joined [b! "x", b! "y"] ([] ++ b! "x" ++ [] ++ [44] ++ ([32] ++ b! "y" ++ [])) :=
    .more _ _ _ _ _ none_ none_ (spec_argument _ (by decide) (by unfold Ordinary; simp [White])) (by decide)
      (.one _ _ _ blank none_ (spec_argument _ (by decide) (by unfold Ordinary; simp [White])) (by decide))
  have hl : MacroLine (b! "put") [b! "x", b! "y"] (b! "#Macro put (x, y) ; two bytes\n") :=
    ⟨[], b! "Macro", 32, [], b! " (x, y) ; two bytes", [10], rfl, none_, by decide, .inl rfl, none_, .list [32] _ _ (b! " ; two bytes") blank hj, by decide, .inl rfl⟩
  have hb : MacroBody (b! "#ifdef a\n .db x\n#endif\n .db y\n") :=
    ⟨_, lines_plain [(b! "#ifdef a", []), (b! " .db x", []), (b! "#endif", []), (b! " .db y", [])] (by decide), nesting_depth _ (by decide) _ _ _ (by decide)⟩
  obtain ⟨s', h1, h2, -⟩ := C62_macro 0 {} (by intro p hp; cases hp) rfl (b! "put") hp rfl rfl (by decide) [b! "x", b! "y"] (by decide) (by decide)
    _ _ (b! "#ENDMACRO") (b! "\n nop\n") hl hb ⟨[], b! "#ENDMACRO", [], rfl, none_, by unfold SameText; decide, none_⟩ (.inr ⟨_, _, rfl, by decide⟩)
  obtain ⟨d, d1, d2, d3, -⟩ := h2.this
  refine ⟨s', h1, by rw [h2.rest]; rfl, d, ?_, d3, d2⟩
  rw [← d1, h2.rest]
  rfl

/-- C62, the names of labels: a macro that has the name of a label is not defined, and the rest of the file is not assembled.
The byte behind the macro is missing in the program, which is written all the same. -/
theorem C62_rest_lost :
    (asm (b! "x:\n#macro x\n#endmacro\n .db 1\n") [b! "a.asm"]).state.log = [.error .labelConflict, .wrote (b! "a.bin") []] := by
  decide +kernel

/-- C62, macros inside macros: a macro ends at the `#endmacro` of a macro inside it. The rest of the outer macro is assembled
where it stands. -/
theorem C62_inside :
    (asm (b! "#macro x\n#macro y\n .db 1\n#endmacro\n .db 2\n#endmacro\n") [b! "a.asm"]).state.log = [.wrote (b! "a.bin") [2]] := by
  decide +kernel

end Spasm.Props
