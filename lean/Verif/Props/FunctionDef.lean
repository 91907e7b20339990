import Verif.Spec.FunctionDef
import Verif.Props.MacroDef
import Verif.Props.Calls

/-
C77: `#define` with parameters defines a function.
-/

namespace Spasm.Props
open Spasm Spec

theorem function_params (s : S) (key : Str) (T : Table Define) (d : Define) (hT : T.lookup key = some d) (hn : ∀ p ∈ T, p.2.name = p.1)
    (params : List Str) (u r : Str) (h : Joined params u ∨ (params = [] ∧ Blanks u)) (hnd : (params.map (nameKey s)).Nodup) (hlen : params.length ≤ 16) :
    ∃ T', parseArgDefs (.glob key) (u ++ 41 :: r) { s with defines := T } = .ok (some r) { s with defines := T' } ∧
      T'.lookup key = some { d with args := params } ∧ (∀ o, o ≠ key → T'.lookup o = T.lookup o) ∧ ∀ p ∈ T', p.2.name = p.1 := by
  have hrun : argDefLoop ((u ++ 41 :: r).length + 2) false [] (u ++ 41 :: r) { s with defines := T.update key (fun d => { d with args := [] }) } =
      .ok (some (params, 41 :: r)) { s with defines := T.update key (fun d => { d with args := [] }) } := by
    rcases h with hj | ⟨rfl, hb⟩
    · exact argDefLoop_ok { s with defines := T.update key (fun d => { d with args := [] }) } hj [] _ false (41 :: r)
        hnd hlen (by have := joined_length hj; simp; omega) (.inr ⟨_, _, rfl, by omega⟩)
    · rw [argDefLoop]
      have hx : ∀ st, extractArg false (u ++ 41 :: r) st = .ok (none, false, 41 :: r) st := by
        intro st
        rw [← extractArg_end (r := 41 :: r) (.inr ⟨_, _, rfl, by omega⟩) st]
        unfold extractArg readExpr
        rw [skipWs_blanks _ _ hb]
      rw [M.bind_ok (hx _)]
      rfl
  obtain ⟨T', a1, a2, a3, a4⟩ := parseArgDefs_ok s key T d hT hn 0 params [] _ _ _ rfl hrun
  exact ⟨T', a1, a2, a3, a4⟩

theorem lineText_isEnd {text : Str} (h : LineText text) (h0 : text ≠ []) (rest : Str) : isEnd (text ++ rest) = false := by
  cases h with
  | nil => exact absurd rfl h0
  | char c t hc _ => unfold isEnd; simp; omega
  | quoted => rfl
  | escaped => rfl
  | string => rfl

/-- The statement up to the text of the function. -/
theorem function_start (k : Nat) (s : S) (name : Str) (params : List Str) (text rest t : Str) (hs : WellNamed s) (h : FunctionDefinable s name params text)
    (ht : FunctionWritten name params text rest t) :
    ∃ (T : Table Define) (d : Define), T.lookup (nameKey s name) = some { d with args := params } ∧ d.name = nameKey s name ∧
      d.contents = (defineOf s name).bind (fun d => d.contents) ∧ (∀ o, o ≠ nameKey s name → T.lookup o = s.defines.lookup o) ∧ (∀ p ∈ T, p.2.name = p.1) ∧
      (knot (k + 3)).lineSec t s =
        (if isEnd (text ++ rest) then do
          showError .emptyMacro
          pure (some (text ++ rest))
        else do
          let e := skipToLineEnd false false (text ++ rest)
          setDefine (knot (k + 1)) (.glob (nameKey s name)) (between (text ++ rest) e) (defineOf s name).isSome
          pure (some e) : M (Option Str)) { s with defines := T, lastDefine := some (nameKey s name) } := by
  obtain ⟨b, w, c, b1, u, rfl, hb, hw, hc, hb1, hu⟩ := ht
  rw [lineSec_preop (k + 1) b _ hb]
  have hassoc : b1 ++ name ++ [40] ++ u ++ [41] ++ text ++ rest = b1 ++ (name ++ (40 :: (u ++ 41 :: (text ++ rest)))) := by simp
  rw [hassoc]
  generalize hX : 40 :: (u ++ 41 :: (text ++ rest)) = X
  have hfol : ∀ c ∈ X.head?, ¬ NameChar c := by
    rw [← hX]
    intro c hc
    cases hc
    unfold NameChar Alnum
    omega
  obtain ⟨hn1, hn2⟩ := takeName_stop name X h.chars hfol
  obtain ⟨hs1, hs2⟩ := name_skipWs h.nonempty h.chars X
  have hsp : isSpace c = true := by rcases hc with rfl | rfl <;> rfl
  have hf := (findPre_word hw (by decide) c hsp (b1 ++ (name ++ X))).1
  have ha := preop_args hw (by decide) c hc b1 _ hb1 hs1
  obtain ⟨T, d, e1, e2, e3, e4, e5, e6, e7⟩ := addDefine_plain s name h.nonempty h.noLabel h.noArgument h.ours hs
  obtain ⟨T', p1, p2, p3, p4⟩ := function_params { s with lastDefine := some (nameKey s name) } (nameKey s name) T d e2 e7 params u (text ++ rest) hu
    h.different h.few
  refine ⟨T', d, p2, e3, e5, fun o ho => by rw [p3 o ho, e6 o ho], p4, ?_⟩
  unfold handlePreopBody
  dsimp only
  rw [hf, ha]
  show preDefine (knot (k + 1)) (name ++ X) s = _
  unfold preDefine
  rw [if_neg (by rw [hs2]; simp), hn1, hn2, M.bind_ok e1]
  dsimp only
  rw [M.modify_bind, ← hX, if_pos (by rfl)]
  unfold defineMacro
  show (parseArgDefs (.glob (nameKey s name)) (u ++ 41 :: (text ++ rest)) >>= _) { s with defines := T, lastDefine := some (nameKey s name) } = _
  rw [M.bind_ok p1]

/-- C77: `#define name(params) text` makes the name a function with these parameters and this text. -/
theorem C77_function (k : Nat) (s : S) (name : Str) (params : List Str) (text rest t : Str) (hs : WellNamed s) (h : FunctionDefinable s name params text)
    (h0 : text ≠ []) (ht : FunctionWritten name params text rest t) (hr : Spec.LineEnd rest) :
    ∃ s', (knot (k + 3)).lineSec t s = .ok (some rest) s' ∧ NowFunction name params text s s' ∧ WellNamed s' := by
  obtain ⟨T, d, e1, e2, e3, e4, e5, e6⟩ := function_start k s name params text rest t hs h ht
  have hl' : s.labels.lookup (nameKey s name) = none := by
    have := h.noLabel
    rw [labelOf_eq, Option.map_eq_none_iff] at this; exact this
  have hset := setDefine_plain k { s with defines := T, lastDefine := some (nameKey s name) } (nameKey s name) text { d with args := params }
    (defineOf s name).isSome (nameKey_idem s name) (nameKey_ne h.nonempty) e1 e2 hl' (fun _ hd => h.again (e3 ▸ hd))
  refine ⟨{ s with defines := T.update (nameKey s name) (fun d => { d with contents := some text }), lastDefine := some (nameKey s name) }, ?_, ?_, ?_⟩
  · rw [e6, if_neg (by rw [lineText_isEnd h.line h0]; simp)]
    rw [skipToLineEnd_text h.line rest hr, between_append, M.bind_ok hset]
    rfl
  · refine ⟨⟨{ d with args := params, contents := some text }, ?_, rfl, rfl⟩, ?_, rfl⟩
    · rw [defineOf_eq]
      show (Table.update (nameKey s name) (fun d : Define => { d with contents := some text }) T).lookup (nameKey s name) = _
      rw [Table.lookup_update, if_pos rfl, e1]
      rfl
    · intro o ho
      rw [defineOf_eq, defineOf_eq]
      show (Table.update (nameKey s name) (fun d : Define => { d with contents := some text }) T).lookup (nameKey s o) = _
      rw [Table.lookup_update, if_neg ho, e4 _ ho]
  · exact names_update Define.name _ (fun d => { d with contents := some text }) (fun _ => rfl) e5

/-- C77, without a text: an error is shown. The name has the parameters, and keeps the text it had. -/
theorem C77_empty (k : Nat) (s : S) (name : Str) (params : List Str) (rest t : Str) (hs : WellNamed s) (h : FunctionDefinable s name params [])
    (ht : FunctionWritten name params [] rest t) (hr : Spec.LineEnd rest) :
    ∃ s', (knot (k + 3)).lineSec t s = .ok (some rest) s' ∧ s'.log = s.log ++ [.error .emptyMacro] ∧ s'.exitCode = max s.exitCode 2 ∧
      (∃ d, defineOf s' name = some d ∧ d.args = params ∧ d.contents = (defineOf s name).bind (fun d => d.contents)) ∧
      ∀ other, nameKey s other ≠ nameKey s name → defineOf s' other = defineOf s other := by
  obtain ⟨T, d, e1, e2, e3, e4, e5, e6⟩ := function_start k s name params [] rest t hs h ht
  have he : isEnd ([] ++ rest) = true := by
    rcases hr with rfl | ⟨c, r, rfl, h⟩
    · rfl
    · rcases h with rfl | rfl | rfl <;> rfl
  rw [if_pos he] at e6
  refine ⟨_, e6, ?_, ?_, ⟨{ d with args := params }, ?_, rfl, e3⟩, ?_⟩
  · rfl
  · show (if s.exitCode < 2 then 2 else s.exitCode) = max s.exitCode 2
    split <;> omega
  · rw [defineOf_eq]
    exact e1
  · intro o ho
    rw [defineOf_eq, defineOf_eq]
    exact e4 _ ho

/-- C77, what expressions see: behind the definition the name stands for the function wherever an expression mentions it.
What a call with arguments is worth is then C56. -/
theorem C77_visible (s s' : S) (name : Str) (params : List Str) (text : Str) (h : FunctionDefinable s name params text)
    (hn : NowFunction name params text s s') : (scopeOf s').func name = some (params, text) := by
  obtain ⟨d, d1, d2, d3⟩ := hn.this
  have ha : argumentOf s' name = none := by
    rw [hn.rest]; exact h.noArgument
  have hl : labelOf s' name = none := by
    rw [hn.rest]; exact h.noLabel
  have hm : ¬ Maintained s' name := by
    rw [hn.rest]; exact h.ours
  show visibleFunc s' name = _
  unfold visibleFunc
  rw [if_pos ⟨ha, hl, hm⟩, d1]
  show d.contents.map (fun c => (d.args, c)) = _
  rw [d2, d3]
  rfl

theorem lineText_of_plain (t : Str) (h : ∀ c ∈ t, c ≠ 34 ∧ c ≠ 39 ∧ c ≠ 92 ∧ c ≠ 10 ∧ c ≠ 13 ∧ c ≠ 59) : LineText t := by
  induction t with
  | nil => exact .nil
  | cons c t ih => exact .char c t (h c (by simp)) (ih (fun x hx => h x (by simp [hx])))

/-- A function of two parameters; it is known under the name in capitals, too. -/
example : ∃ s', (knot 3).lineSec (b! " #Define area(w, h) (w*h)+1 ; size\n nop\n") {} = .ok (some (b! "; size\n nop\n")) s' ∧
    ∃ d, defineOf s' (b! "AREA") = some d ∧ d.args = [b! "w", b! "h"] ∧ d.contents = some (b! " (w*h)+1 ") := by
  have blank : Blanks [32] := by intro x hx; simp at hx; simp [hx]
  have none_ : Blanks [] := by intro c hc; cases hc
  have hj : Joined [b! "w", b! "h"] ([] ++ b! "w" ++ [] ++ [44] ++ ([32] ++ b! "h" ++ [])) :=
    .more _ _ _ _ _ none_ none_ (spec_argument _ (by decide) (by unfold Ordinary; simp [White])) (by decide)
      (.one _ _ _ blank none_ (spec_argument _ (by decide) (by unfold Ordinary; simp [White])) (by decide))
  have hd : FunctionDefinable ({} : S) (b! "area") [b! "w", b! "h"] (b! " (w*h)+1 ") :=
    { nonempty := by decide
      chars := by intro c hc; unfold NameChar Alnum; simp at hc; omega
      noLabel := rfl
      noArgument := rfl
      ours := by decide
      different := by decide
      few := by decide
      line := lineText_of_plain _ (by decide)
      again := by intro h; exact absurd rfl h }
  obtain ⟨s', h1, h2, -⟩ := C77_function 0 {} (b! "area") [b! "w", b! "h"] (b! " (w*h)+1 ") (b! "; size\n nop\n") _ (by intro p hp; cases hp) hd
    (by decide) ⟨[32], b! "Define", 32, [], _, rfl, blank, by decide, .inl rfl, none_, .inl hj⟩ (.inr ⟨59, _, rfl, by simp⟩)
  obtain ⟨d, d1, d2, d3⟩ := h2.this
  refine ⟨s', h1, d, ?_, d3, d2⟩
  rw [← d1, h2.rest]
  rfl

/-- The two cases in whole runs: the value of a call, and the error. -/
example : (asm (b! "#define area(w, h) (w*h)+1\n .db area(3,4),AREA(2,2)\n") [b! "a.asm"]).state.log = [.wrote (b! "a.bin") [13, 5]] := by decide +kernel

example : (asm (b! "#define none(x)\n nop\n") [b! "a.asm"]).state.log = [.error .emptyMacro, .wrote (b! "a.bin") [0]] := by decide +kernel

end Spasm.Props
