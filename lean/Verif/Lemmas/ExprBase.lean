import Verif.Lemmas.Literal
import Verif.Spec.Expr
import Verif.Lemmas.Names
import Verif.Props.Literals

namespace Spasm
open Spec

/-! ### Characters -/

theorem isNameChar_iff (c : Nat) : isNameChar c = true ↔ NameChar c := by
  unfold isNameChar NameChar
  simp only [Bool.or_eq_true, isAlnum_iff, beq_iff_eq, or_assoc]

theorem isBlank_of (c : Nat) (h : c = 32 ∨ c = 9 ∨ c = 11 ∨ c = 12) : isBlank c = true := by
  rcases h with rfl | rfl | rfl | rfl <;> decide

theorem skipWs_blanks (b t : Str) (h : Blanks b) : skipWs (b ++ t) = skipWs t := by
  unfold skipWs
  induction b with
  | nil => rfl
  | cons c b ih =>
    rw [List.cons_append, List.dropWhile_cons, if_pos (isBlank_of c (h c (by simp)))]
    exact ih (fun x hx => h x (by simp [hx]))

theorem skipWs_cons (c : Nat) (t : Str) (h : isBlank c = false) : skipWs (c :: t) = c :: t := by
  unfold skipWs; rw [List.dropWhile_cons, h]; simp

theorem skipWs_nil : skipWs [] = [] := rfl

theorem skipWs_idem (t : Str) : skipWs (skipWs t) = skipWs t := by
  induction t with
  | nil => rfl
  | cons c t ih =>
    by_cases h : isBlank c = true
    · have : skipWs (c :: t) = skipWs t := by unfold skipWs; rw [List.dropWhile_cons, if_pos h]
      rw [this, ih]
    · simp only [Bool.not_eq_true] at h
      rw [skipWs_cons c t h, skipWs_cons c t h]

/-! ### What may follow an operand -/

/-- Characters that can start an operand: `'`, `$`, `%`, `(`, a digit, a letter, `_`. -/
def Starter (c : Nat) : Prop := c = 39 ∨ c = 36 ∨ c = 37 ∨ c = 40 ∨ c = 95 ∨ Alnum c

/-- ... or a prefix -/
def Starter' (c : Nat) : Prop := Starter c ∨ c = 43 ∨ c = 45 ∨ c = 126

theorem Starter.nonblank {c : Nat} (h : Starter' c) : isBlank c = false := by
  unfold Starter' Starter Alnum at h
  unfold isBlank isSpace
  simp only [Bool.and_eq_false_iff, Bool.or_eq_false_iff, beq_eq_false_iff_ne, bne_eq_false_iff_eq,
    decide_eq_false_iff_not]
  omega

/-- The operator of the model. -/
def opOf : BinOp → Op
  | .add => .add | .sub => .sub | .mul => .mul | .div => .div | .mod => .mod | .xor => .xor
  | .bitand => .land | .bitor => .lor | .shl => .lshift | .shr => .rshift | .land => .and | .lor => .or
  | .le => .lte | .ge => .gte | .lt => .lt | .gt => .gt | .eq => .eq | .ne => .ne

/-- Reading an operator followed by a blank or the start of an operand. -/
theorem matchOp_spelled (op : BinOp) (t : Str) (c : Nat) (r : Str) (h : t ∈ BinOp.spelled op)
    (hc : c ≠ 60 ∧ c ≠ 62 ∧ c ≠ 61 ∧ c ≠ 38 ∧ c ≠ 124) : matchOp (t ++ c :: r) = some (opOf op, c :: r) := by
  obtain ⟨h1, h2, h3, h4, h5⟩ := hc
  have e1 : (60 == c) = false := by simpa using fun h => h1 h.symm
  have e2 : (62 == c) = false := by simpa using fun h => h2 h.symm
  have e3 : (61 == c) = false := by simpa using fun h => h3 h.symm
  have e4 : (38 == c) = false := by simpa using fun h => h4 h.symm
  have e5 : (124 == c) = false := by simpa using fun h => h5 h.symm
  cases op <;> simp only [BinOp.spelled, List.mem_cons, List.not_mem_nil, or_false] at h
  all_goals first
    | (subst h; simp [matchOp, mathDefs, List.find?, List.isPrefixOf, e1, e2, e3, e4, e5, opOf])
    | (rcases h with rfl | rfl <;> simp [matchOp, mathDefs, List.find?, List.isPrefixOf, e1, e2, e3, e4, e5, opOf])

theorem spelled_head (op : BinOp) (t : Str) (h : t ∈ BinOp.spelled op) :
    ∃ c r, t = c :: r ∧ c ∈ [43, 45, 42, 47, 37, 94, 38, 124, 60, 62, 61, 33] ∧ (c = 33 ↔ op = .ne) := by
  cases op <;> simp only [BinOp.spelled, List.mem_cons, List.not_mem_nil, or_false] at h
  all_goals first
    | (subst h; exact ⟨_, _, rfl, by decide, by decide⟩)
    | (rcases h with rfl | rfl <;> exact ⟨_, _, rfl, by decide, by decide⟩)

theorem fits_eq (v w : Int) (h : fits v = some w) : OpRes.ofInt v = .val w := by
  unfold fits at h
  split at h
  · rename_i h'
    simp only [Option.some.injEq] at h
    subst h
    unfold OpRes.ofInt inI32 intMin intMax
    rw [if_pos (by simp; omega)]
  · simp at h

theorem bitvec_toInt (v : Int) : (BitVec.ofInt 32 v).toInt = toI32 v := by
  rw [BitVec.toInt_ofInt]
  unfold toI32
  simp only [Int.bmod, Nat.reducePow]
  split <;> omega

/-- The model's operators compute the specified values. -/
theorem applyOp_binary (op : BinOp) (a b v : Int) (h : binary op a b = some v) :
    applyOp (some (opOf op)) a b = .val v := by
  unfold applyOp
  cases op <;> simp only [opOf, binary] at h ⊢ <;> simp only [reduceCtorEq, Option.some.injEq, or_self, false_and,
    true_or, or_true, true_and, if_false]
  case add => exact fits_eq _ _ h
  case sub => exact fits_eq _ _ h
  case mul => exact fits_eq _ _ h
  case div =>
    split at h
    · simp at h
    · rename_i hb
      rw [if_neg hb]
      rw [if_neg ?_]
      · exact fits_eq _ _ h
      · rintro ⟨rfl, rfl⟩
        simp [intMin, fits] at h
  case mod =>
    split at h
    · simp at h
    · rename_i hb
      simp only [not_or] at hb
      rw [if_neg hb.1, if_neg (show ¬ (a = intMin ∧ b = -1) from hb.2)]
      exact fits_eq _ _ h
  case shl =>
    split at h
    · rename_i hb
      rw [if_neg (by omega)]
      simp only [Option.some.injEq] at h
      rw [← h, bitvec_toInt]
    · simp at h
  case shr =>
    split at h
    · rename_i hb
      rw [if_neg (by omega)]
      simp only [Option.some.injEq] at h
      rw [← h]
    · simp at h
  all_goals
    simp only [Option.some.injEq] at h
    rw [← h]
  case land => unfold truth boolInt; simp
  case lor => unfold truth boolInt; simp
  case ne => unfold truth boolInt; simp
  case xor => rfl
  case bitand => rfl
  case bitor => rfl
  all_goals (unfold truth boolInt; simp)

/-! ### Operands -/

/-- The state while an expression is evaluated: `p` nested calls are active. -/
def evalState (s : S) (p : Int) : S := { s with parseDepth := p, fwdRef := false }

/-- The text after an operand: nothing that could continue a word or start an argument list. -/
def Follows (rest : Str) : Prop := ∀ c ∈ rest.head?, ¬ NameChar c ∧ c ≠ 40

theorem Follows.endsWord {rest : Str} (h : Follows rest) : EndsWord rest :=
  fun c hc ha => (h c hc).1 (Or.inl ha)

theorem Follows.not40 {rest : Str} (h : Follows rest) : hd rest ≠ 40 := by
  cases rest with
  | nil => simp
  | cons c r => exact (h c (by simp)).2

theorem takeName_append (t rest : Str) (ht : ∀ c ∈ t, NameChar c) (hr : Follows rest) :
    takeName (t ++ rest) = t ∧ skipNameEnd (t ++ rest) = rest := by
  have h1 : ∀ c ∈ t, isNameChar c = true := fun c hc => (isNameChar_iff c).2 (ht c hc)
  have h2 : rest.takeWhile isNameChar = [] ∧ rest.dropWhile isNameChar = rest := by
    cases rest with
    | nil => simp
    | cons c r =>
      have : isNameChar c = false := by
        have := (hr c (by simp)).1
        rw [← isNameChar_iff] at this
        simpa using this
      simp [this]
  unfold takeName skipNameEnd
  exact ⟨by rw [List.takeWhile_append_of_pos h1, h2.1]; simp, by rw [List.dropWhile_append_of_pos h1, h2.2]⟩

/-- Atoms evaluate to what they stand for, without any effect. -/
theorem parseSingle_atom (k : Rec) (s : S) (t : Str) (v : Int) (rest : Str)
    (h : Atom (toI32 s.pc) (visibleLabel s) t v) (hr : Follows rest) :
    parseSingle k (t ++ rest) s = .ok (some (rest, v)) s := by
  cases h with
  | literal base ds text hl hds hm => exact Props.C01_literal_value k base ds t rest s hl hr.endsWord hds hm
  | here =>
    show (if isXDigit (hd rest) then _ else _ : M _) s = _
    have : isXDigit (hd rest) = false := by
      cases rest with
      | nil => rfl
      | cons c r =>
        have hc := hr.endsWord c (by simp)
        unfold Alnum at hc
        unfold isXDigit isDigit
        simp only [hd_cons, Bool.or_eq_false_iff, Bool.and_eq_false_iff, decide_eq_false_iff_not]
        omega
    simp only [this]
    rfl
  | char c h1 h2 h3 =>
    show parseChar (c :: 39 :: rest) s = _
    unfold parseChar
    have hb : (c == 92) = false := by simpa using h1
    simp only [hb, Bool.false_eq_true, if_false]
    unfold closeQuote charVal
    simp [h3]
  | escape c v hv =>
    simp only [escapes, List.mem_cons, List.not_mem_nil, or_false, Prod.mk.injEq] at hv
    rcases hv with h | h | h | h | h | h | h | h | h | h <;> obtain ⟨rfl, rfl⟩ := h <;> rfl
  | label t v hn hl =>
    obtain ⟨⟨c, r, rfl, hc, hx⟩, hne⟩ := hn
    have hal : ∀ x ∈ c :: r, NameChar x := by
      intro x hx'
      rcases List.mem_cons.1 hx' with rfl | hx'
      · unfold NameChar Alnum; omega
      · exact hx x hx'
    have htw := takeName_append (c :: r) rest hal hr
    have reach : parseSingle k (c :: r ++ rest) s = parseName k (c :: r ++ rest) s := by
      unfold parseSingle
      simp only [List.cons_append, hd_cons]
      rw [if_neg, if_neg, if_neg, if_neg, if_neg, if_pos]
      · unfold isAlpha isUpper isLower; simp; omega
      all_goals simp; omega
    rw [reach]
    unfold parseName
    rw [htw.1, htw.2]
    unfold visibleLabel at hl
    split at hl
    · rename_i hloc
      have hloc' : searchLocal (c :: r) s = none := by rw [searchLocal_eq]; exact hloc
      rw [← searchLabels_eq] at hl
      obtain ⟨l, hl1, hl2⟩ := Option.map_eq_some_iff.1 hl
      have hne' : (c :: r == [95]) = false := by simpa using hne
      simp only [M.get_bind, hloc', hl1, Option.isSome_none, Option.isSome_some, Bool.false_eq_true, if_false, if_true,
        M.pure_bind, hne', hl2, M.pure_apply]
    · simp at hl

theorem Name_start {t : Str} (hn : Name t) :
    ∃ c r, t = c :: r ∧ Starter c ∧ c ≠ 40 ∧ (c = 95 → ∃ c' r', r = c' :: r' ∧ NameChar c') := by
  obtain ⟨⟨c, r, rfl, hc, hx⟩, hne⟩ := hn
  refine ⟨c, r, rfl, by unfold Starter Alnum; omega, by omega, ?_⟩
  intro h95
  cases r with
  | nil => subst h95; exact absurd rfl hne
  | cons c' r' => exact ⟨c', r', rfl, hx c' (by simp)⟩

theorem Atom_start {pc : Int} {label : Str → Option Int} {t : Str} {v : Int} (h : Atom pc label t v) :
    ∃ c r, t = c :: r ∧ Starter c ∧ c ≠ 40 ∧ (c = 95 → ∃ c' r', r = c' :: r' ∧ NameChar c') := by
  cases h with
  | literal base ds text hl hds hm =>
    obtain ⟨hne, hal, hf⟩ := hl
    obtain ⟨d, ds', rfl⟩ := List.exists_cons_of_ne_nil hne
    have hd := hal d (by simp)
    have h40 : d ≠ 40 ∧ d ≠ 95 := by unfold Alnum at hd; omega
    rcases hf with ⟨_, rfl, _⟩ | ⟨_, rfl⟩ | ⟨_, hf⟩
    · exact ⟨_, _, rfl, by unfold Starter; omega, by omega, by omega⟩
    · exact ⟨_, _, rfl, by unfold Starter; omega, by omega, by omega⟩
    · have : ∃ r, t = d :: r := by
        rcases hf with ⟨_, h | h⟩ | ⟨_, h | h⟩ | ⟨_, h | h⟩ | ⟨_, h, _⟩ <;> exact ⟨_, h⟩
      obtain ⟨r, rfl⟩ := this
      exact ⟨d, r, rfl, by unfold Starter; simp [hd], h40.1, fun h => absurd h h40.2⟩
  | here => exact ⟨_, _, rfl, by unfold Starter; omega, by omega, by omega⟩
  | char => exact ⟨_, _, rfl, by unfold Starter; omega, by omega, by omega⟩
  | escape => exact ⟨_, _, rfl, by unfold Starter; omega, by omega, by omega⟩
  | label t v hn hl =>
    obtain ⟨⟨c, r, rfl, hc, hx⟩, hne⟩ := hn
    refine ⟨c, r, rfl, by unfold Starter Alnum; omega, by omega, ?_⟩
    intro h95
    cases r with
    | nil => subst h95; exact absurd rfl hne
    | cons c' r' => exact ⟨c', r', rfl, hx c' (by simp)⟩

theorem Operand_start {pc : Int} {label : Str → Option Int} {text : Str → Option Str} {d : Nat} {t : Str} {v : Int}
    (h : Operand pc label text d t v) :
    ∃ c r, t = c :: r ∧ Starter c ∧ (c = 95 → ∃ c' r', r = c' :: r' ∧ NameChar c') := by
  cases h with
  | atom t v h =>
    obtain ⟨c, r, h1, h2, _, h4⟩ := Atom_start h
    exact ⟨c, r, h1, h2, h4⟩
  | paren d b t b' v => exact ⟨40, b ++ t ++ b' ++ [41], by simp, by unfold Starter; omega, by omega⟩
  | named d t b e b' v hn => obtain ⟨c, r, h1, h2, _, h4⟩ := Name_start hn; exact ⟨c, r, h1, h2, h4⟩

theorem Prefixed_start {pc : Int} {label : Str → Option Int} {text : Str → Option Str} {d : Nat} {t : Str} {v : Int}
    (h : Prefixed pc label text d t v) : ∃ c r, t = c :: r ∧ Starter' c := by
  cases h with
  | plain d t v h => obtain ⟨c, r, h1, h2, _⟩ := Operand_start h; exact ⟨c, r, h1, Or.inl h2⟩
  | plus d b t v => exact ⟨43, b ++ t, by simp, by unfold Starter'; simp⟩
  | minus d b t v => exact ⟨45, b ++ t, by simp, by unfold Starter'; simp⟩
  | invert d b t v => exact ⟨126, b ++ t, by simp, by unfold Starter'; simp⟩

theorem Denotes_start {pc : Int} {label : Str → Option Int} {text : Str → Option Str} {d : Nat} {t : Str} {v : Int}
    (h : Denotes pc label text d t v) : ∃ c r, t = c :: r ∧ Starter' c := by
  refine Denotes.rec (pc := pc) (label := label) (text := text) (motive_1 := fun _ _ _ _ => True)
    (motive_2 := fun _ _ _ _ => True) (motive_3 := fun _ t _ _ => ∃ c r, t = c :: r ∧ Starter' c)
    ?_ ?_ ?_ ?_ ?_ ?_ ?_ ?_ ?_ h
  all_goals try (intros; trivial)
  · intro d t v h _; exact Prefixed_start h
  · intro d₁ t₁ v₁ b op optext b' d₂ t₂ v₂ v h1 _ _ _ _ _ _ ih _
    obtain ⟨c, r, h1, h2⟩ := ih
    exact ⟨c, r ++ b ++ optext ++ b' ++ t₂, by simp [h1], h2⟩

/-! ### The loop -/

theorem skipWs_length (t : Str) : (skipWs t).length ≤ t.length :=
  (List.dropWhile_suffix _).length_le

/-- The budget of getOp does not matter once it exceeds the length of the text. -/
theorem getOp_fuel (depth : Int) : ∀ (f f' : Nat) (t t' : Str), skipWs t = skipWs t' →
    t.length < f → t'.length < f' → getOp depth f t = getOp depth f' t'
  | 0, _, _, _, _, h, _ => absurd h (by omega)
  | _ + 1, 0, _, _, _, _, h => absurd h (by omega)
  | f + 1, f' + 1, t, t', h, hf, hf' => by
    unfold getOp
    rw [h]
    dsimp only
    cases hm : matchOp (skipWs t') with
    | some p => rfl
    | none =>
      dsimp only
      by_cases h41 : hd (skipWs t') == 41
      · have hlen : (skipWs t').length ≤ t'.length := skipWs_length t'
        have hlen' : (skipWs t').length ≤ t.length := by rw [← h]; exact skipWs_length t
        have hne : (skipWs t').tail.length < (skipWs t').length := by
          cases hs : skipWs t' with
          | nil => rw [hs] at h41; simp at h41
          | cons c r => simp
        have := getOp_fuel depth f f' (skipWs t').tail (skipWs t').tail rfl (by omega) (by omega)
        rw [this]
      · simp only [h41, Bool.false_eq_true, if_false]

/-- The rest of the loop, once an operand has been combined to `total`. -/
def afterOperand (k : Rec) (depth : Int) (f : Nat) (total : Int) (rest : Str) : M (Option (Str × Int)) := do
  match ← getOp depth (rest.length + 1) rest with
  | .fail => pure none
  | .done s => pure (some (s, total))
  | .op o s => numLoop k depth f total (some o) s

theorem afterOperand_skipWs (k : Rec) (depth : Int) (f : Nat) (total : Int) (r r' : Str)
    (h : skipWs r = skipWs r') : afterOperand k depth f total r = afterOperand k depth f total r' := by
  unfold afterOperand
  rw [getOp_fuel depth (r.length + 1) (r'.length + 1) r r' h (by omega) (by omega)]

/-- The evaluation of an operand without its prefix, as in parse_num_full. -/
def operandM (k : Rec) (depth : Int) (s : Str) : M (Option (Str × Int)) :=
  if hd s == 40 then k.numFull s.tail (depth + 1) else parseSingle k s

/-- One step of the loop for an operand with value `v`. -/
theorem numLoop_step (k : Rec) (depth : Int) (f : Nat) (total : Int) (op : Option Op) (t rest r' : Str) (s s' : S)
    (inv neg : Bool) (v : Int) (hu : unary t = (inv, neg, rest))
    (ho : operandM k depth rest s = .ok (some (r', v)) s') (hneg : neg = true → v ≠ intMin) (hinv : ¬ (inv = true ∧ neg = true)) :
    numLoop k depth (f + 1) total op t s =
      (match applyOp op total (if inv then icpl v else if neg then -v else v) with
       | .err c => (do setError c; pure none : M (Option (Str × Int)))
       | .ub u => M.ub u
       | .val w => afterOperand k depth f w r') s' := by
  have hn : numLoop k depth (f + 1) total op t = (do
      let r ← operandM k depth rest
      match r with
      | none => pure none
      | some (s, v) =>
        let v := if inv then icpl v else v
        if neg && v == intMin then M.ub .signedOverflow
        else
          let v := if neg then -v else v
          match applyOp op total v with
          | .err c => do
            setError c
            pure none
          | .ub u => M.ub u
          | .val total => afterOperand k depth f total s) := by
    rw [numLoop, hu]
    unfold operandM
    dsimp only
    split <;> rfl
  rw [hn, M.bind_ok ho]
  simp only
  cases neg with
  | false =>
    simp only [Bool.false_and, Bool.false_eq_true, if_false]
  | true =>
    cases inv with
    | true => simp at hinv
    | false =>
      have : (v == intMin) = false := by simpa using hneg rfl
      simp only [this, Bool.false_eq_true, if_false, Bool.and_false, if_true]

theorem getLast?_append_ne {l l' : Str} (h : l' ≠ []) : (l ++ l').getLast? = l'.getLast? := by
  rw [List.getLast?_append]
  obtain ⟨c, r, rfl⟩ := List.exists_cons_of_ne_nil h
  rw [List.getLast?_eq_some_getLast (by simp)]
  rfl

/-- What must hold of the text after an expression. -/
def Rest (t rest : Str) : Prop := Follows rest ∨ t.getLast? = some 41

theorem Atom_last {pc : Int} {label : Str → Option Int} {t : Str} {v : Int} (h : Atom pc label t v) :
    t.getLast? ≠ some 41 := by
  intro h41
  have key : ∀ (ds : Str) (x : Nat), (ds ++ [x]).getLast? = some 41 → x = 41 := by
    intro ds x h; simpa using h
  cases h with
  | literal base ds text hl hds hm =>
    obtain ⟨hne, hal, hf⟩ := hl
    have hds' : ds.getLast? ≠ some 41 := by
      intro h
      have := hal 41 (List.mem_of_getLast? h)
      unfold Alnum at this; omega
    rcases hf with ⟨_, rfl, _⟩ | ⟨_, rfl⟩ | ⟨_, hf⟩
    · rw [List.getLast?_cons_of_ne_nil hne] at h41; exact hds' h41
    · rw [List.getLast?_cons_of_ne_nil hne] at h41; exact hds' h41
    · rcases hf with ⟨_, h | h⟩ | ⟨_, h | h⟩ | ⟨_, h | h⟩ | ⟨_, h, _⟩
      all_goals first
        | (rw [h] at h41; have := key _ _ h41; omega)
        | (rw [h] at h41; exact hds' h41)
  | here => simp at h41
  | char => simp at h41
  | escape => simp at h41
  | label t v hn hl =>
    obtain ⟨⟨c, r, rfl, hc, hx⟩, hne⟩ := hn
    have := List.mem_of_getLast? h41
    rcases List.mem_cons.1 this with h | h
    · omega
    · have := hx 41 h
      unfold NameChar Alnum at this; omega

theorem unary_plain (t : Str) (c : Nat) (r : Str) (h : t = c :: r) (hc : Starter c) :
    unary t = (false, false, t) := by
  subst h
  unfold unary
  unfold Starter Alnum at hc
  have h1 : (c == 126) = false := by simp; omega
  have h2 : (c == 45) = false := by simp; omega
  have h3 : (c == 43) = false := by simp; omega
  simp only [hd_cons, h1, h2, h3, Bool.or_self, Bool.false_and, Bool.false_eq_true, if_false]

theorem unary_sign (c : Nat) (hc : c = 45 ∨ c = 43) (b t : Str) (hb : Blanks b) (d : Nat) (r : Str) (ht : t = d :: r)
    (hd' : Starter d) (h95 : d = 95 → ∃ c' r', r = c' :: r' ∧ NameChar c') :
    unary ([c] ++ b ++ t) = (false, c == 45, t) := by
  have hnb := Starter.nonblank (Or.inl hd')
  have hsk : skipWs (b ++ t) = t := by rw [skipWs_blanks b t hb, ht, skipWs_cons d r hnb]
  have hcond : ((hd ([c] ++ b ++ t) == 45 || hd ([c] ++ b ++ t) == 43) &&
      hd ([c] ++ b ++ t).tail != hd ([c] ++ b ++ t) &&
      (hd ([c] ++ b ++ t).tail != 95 || isNameChar (hd ([c] ++ b ++ t).tail.tail))) = true := by
    have e : [c] ++ b ++ t = c :: (b ++ t) := rfl
    rw [e]
    simp only [hd_cons, List.tail_cons, Bool.and_eq_true, Bool.or_eq_true, beq_iff_eq, bne_iff_ne]
    refine ⟨⟨hc, ?_⟩, ?_⟩
    · cases b with
      | nil => rw [ht]; simp only [List.nil_append, hd_cons]; unfold Starter Alnum at hd'; omega
      | cons x b =>
        have := hb x (by simp)
        simp only [List.cons_append, hd_cons]; omega
    · cases b with
      | nil =>
        rw [ht]
        simp only [List.nil_append, hd_cons, List.tail_cons]
        by_cases h : d = 95
        · right
          obtain ⟨c', r', rfl, hn⟩ := h95 h
          simp only [hd_cons]
          exact (isNameChar_iff c').2 hn
        · left; exact h
      | cons x b =>
        left
        have := hb x (by simp)
        simp only [List.cons_append, hd_cons]; omega
  unfold unary
  rw [if_neg, if_pos hcond]
  · have e : ([c] ++ b ++ t).tail = b ++ t := rfl
    rw [e, hsk]
    rfl
  · rcases hc with rfl | rfl <;> simp

theorem unary_invert (b t : Str) (hb : Blanks b) (d : Nat) (r : Str) (ht : t = d :: r)
    (hd' : Starter d) : unary ([126] ++ b ++ t) = (true, false, t) := by
  have hnb := Starter.nonblank (Or.inl hd')
  have hsk : skipWs (b ++ t) = t := by rw [skipWs_blanks b t hb, ht, skipWs_cons d r hnb]
  show (true, false, skipWs (b ++ t)) = _
  rw [hsk]

theorem blanks_follow (b : Str) (c : Nat) (r : Str) (hb : Blanks b) (hc : b = [] → ¬ NameChar c ∧ c ≠ 40) :
    Follows (b ++ c :: r) := by
  intro x hx
  cases b with
  | nil => simp at hx; subst hx; exact hc rfl
  | cons y b =>
    simp at hx; subst hx
    have := hb y (by simp)
    unfold NameChar Alnum; omega

end Spasm
