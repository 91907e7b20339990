import Verif.Props.Directives
import Verif.Spec.Symbols
import Verif.Lemmas.LineSec
import Verif.Lemmas.Names

/-
C08: anonymous labels.
-/

namespace Spasm.Props
open Spec

/-- An expression that consists of one operand without prefix. -/
theorem parseNum_single (n : Nat) (s s1 : S) (b : Str) (c : Nat) (r b' rest : Str) (v : Int) (hb : Blanks b)
    (hb' : Blanks b') (hrest : AtEnd rest) (hc : Starter' c) (hc40 : c ≠ 40)
    (hu : unary (c :: r ++ (b' ++ rest)) = (false, false, c :: r ++ (b' ++ rest)))
    (hs : parseSingle (knot n) (c :: r ++ (b' ++ rest)) (evalState s 1) = .ok (some (b' ++ rest, v)) s1) :
    parseNum (knot (n + 1)) (b ++ (c :: r) ++ b' ++ rest) s = .ok (some v) { s1 with parseDepth := s1.parseDepth - 1 } := by
  have e : b ++ (c :: r) ++ b' ++ rest = b ++ (c :: r ++ (b' ++ rest)) := by simp
  rw [e, parseNum_start n s b (c :: r ++ (b' ++ rest)) c (r ++ (b' ++ rest)) hb rfl hc]
  have hg : getOp 0 ((b' ++ rest).length + 1) (b' ++ rest) s1 =
      .ok (.done rest) { s1 with parseDepth := s1.parseDepth - 1 } := by
    rw [getOp, hrest.skipWs hb']
    simp only [hrest.isEnd, if_true]
    rfl
  have ho : operandM (knot n) 0 (c :: r ++ (b' ++ rest)) (evalState s 1) = .ok (some (b' ++ rest, v)) s1 := by
    unfold operandM
    rw [if_neg (by simpa using hc40)]
    exact hs
  rw [M.bind_ok (a := some (rest, v)) (s' := { s1 with parseDepth := s1.parseDepth - 1 })]
  · rfl
  · rw [numLoop_step (knot n) 0 _ 0 none _ _ _ _ _ false false v hu ho (by simp) (by simp)]
    show afterOperand (knot n) 0 _ v (b' ++ rest) s1 = _
    unfold afterOperand
    rw [M.bind_ok hg]
    rfl

/-- An expression whose first operand fails. -/
theorem parseNum_fails (n : Nat) (s s1 : S) (b : Str) (c : Nat) (r : Str) (hb : Blanks b)
    (hc : Starter' c) (hc40 : c ≠ 40) (hu : unary (c :: r) = (false, false, c :: r))
    (hs : parseSingle (knot n) (c :: r) (evalState s 1) = .ok none s1) :
    parseNum (knot (n + 1)) (b ++ (c :: r)) s = .ok none s1 := by
  rw [parseNum_start n s b (c :: r) c r hb rfl hc]
  rw [M.bind_ok (a := none) (s' := s1)]
  · rfl
  · rw [numLoop, hu]
    dsimp only
    rw [if_neg (by simpa using hc40), M.bind_ok hs]
    rfl

theorem searchReusables_ok (addrs : List Nat) (c i : Nat) (a : Nat) (s : S) (h : Anonymous addrs c s) (ha : addrs[i]? = some a) :
    searchReusables i s = .ok (asInt32 a) s := by
  obtain ⟨hi, _⟩ := List.getElem?_eq_some_iff.1 ha
  unfold searchReusables
  rw [if_neg (by rw [h.total]; omega), if_neg (by omega), h.addr i a ha, toI32_eq_asInt32]

theorem takeWhile_signs (x y : Nat) (r : Str) (hxy : y ≠ x) : ∀ m : Nat,
    (List.replicate m x ++ y :: r).takeWhile (fun c => c == x) = List.replicate m x ∧
    (List.replicate m x ++ y :: r).dropWhile (fun c => c == x) = y :: r
  | 0 => by simp [hxy]
  | m + 1 => by
    obtain ⟨h1, h2⟩ := takeWhile_signs x y r hxy m
    simp only [List.replicate_succ, List.cons_append]
    rw [List.takeWhile_cons, List.dropWhile_cons]
    simp [h1, h2]

theorem parseSingle_plus (k : Rec) (m : Nat) (r : Str) (addrs : List Nat) (c : Nat) (s : S) (h : Anonymous addrs c s) :
    (∀ a, addrs[c + m]? = some a →
      parseSingle k (43 :: List.replicate m 43 ++ 95 :: r) s = .ok (some (r, asInt32 a)) s) ∧
    (addrs[c + m]? = none →
      parseSingle k (43 :: List.replicate m 43 ++ 95 :: r) s = .ok none (errorAt 0x100 s)) := by
  obtain ⟨h1, h2⟩ := takeWhile_signs 43 95 r (by decide) (m + 1)
  have e : 43 :: List.replicate m 43 ++ 95 :: r = List.replicate (m + 1) 43 ++ 95 :: r := by rw [List.replicate_succ]
  have hi : getCurrReusable s + ((List.replicate (m + 1) 43).length : Nat) = ((c + m : Nat) : Int) := by
    unfold getCurrReusable; rw [h.passed, List.length_replicate]; push_cast; omega
  constructor
  · intro a ha
    obtain ⟨hlt, _⟩ := List.getElem?_eq_some_iff.1 ha
    show parsePlus _ s = _
    unfold parsePlus
    rw [e, M.get_bind, h1, h2]
    rw [hi, if_neg (show ¬ (hd (95 :: r) != 95) = true by simp), if_neg (by rw [h.total]; omega),
      M.bind_ok (searchReusables_ok addrs c (c + m) a s h ha)]
    rfl
  · intro ha
    have hge := List.getElem?_eq_none_iff.1 ha
    show parsePlus _ s = _
    unfold parsePlus
    rw [e, M.get_bind, h1, h2]
    rw [hi, if_neg (show ¬ (hd (95 :: r) != 95) = true by simp), if_pos (by rw [h.total]; omega),
      M.bind_ok (show setError E.LOCAL_LABEL_FORWARD_REF s = .ok () (errorAt 0x100 s) from setError_apply _ s (by decide))]
    rfl

theorem minusLoop_eq (r : Str) : ∀ (m i : Nat), minusLoop (List.replicate m 45 ++ 95 :: r) i =
    (List.replicate (m - i) 45 ++ 95 :: r, ((i - m : Nat) : Int))
  | 0, i => by simp [minusLoop]
  | m + 1, 0 => by
    rw [List.replicate_succ, List.cons_append, minusLoop]
    simp [List.replicate_succ]
  | m + 1, i + 1 => by
    rw [List.replicate_succ, List.cons_append, minusLoop, if_pos (by simp)]
    have : ((i + 1 : Nat) : Int) - 1 = (i : Nat) := by push_cast; omega
    rw [this, minusLoop_eq r m i]
    rw [show m + 1 - (i + 1) = m - i by omega, show i + 1 - (m + 1) = i - m by omega]

theorem parseSingle_minus (k : Rec) (m : Nat) (r : Str) (addrs : List Nat) (c : Nat) (s : S) (h : Anonymous addrs c s) :
    (∀ a, m + 1 ≤ c → addrs[c - (m + 1)]? = some a →
      parseSingle k (45 :: List.replicate m 45 ++ 95 :: r) s = .ok (some (r, asInt32 a)) s) ∧
    (c < m + 1 →
      parseSingle k (45 :: List.replicate m 45 ++ 95 :: r) s = .ok none (errorAt E.LOCAL_LABEL_SYNTAX s)) := by
  have err : setError E.LOCAL_LABEL_SYNTAX s = .ok () (errorAt E.LOCAL_LABEL_SYNTAX s) := setError_apply _ s (by decide)
  constructor
  · intro a hm ha
    have hi : getCurrReusable s = ((c - 1 : Nat) : Int) := by unfold getCurrReusable; rw [h.passed]; omega
    show parseMinus _ s = _
    unfold parseMinus
    rw [M.get_bind, List.cons_append, List.tail_cons, hi, minusLoop_eq r m (c - 1)]
    have e1 : m - (c - 1) = 0 := by omega
    have e2 : c - 1 - m = c - (m + 1) := by omega
    rw [e1, e2]
    dsimp only
    rw [if_neg, M.bind_ok (searchReusables_ok addrs c _ a s h ha)]
    · rfl
    · simp
  · intro hm
    show parseMinus _ s = _
    unfold parseMinus
    rw [M.get_bind, List.cons_append, List.tail_cons]
    cases c with
    | zero =>
      have hneg : ∀ (t : Str), minusLoop t (getCurrReusable s) = (t, getCurrReusable s) := by
        intro t
        have : getCurrReusable s = -1 := by unfold getCurrReusable; rw [h.passed]; rfl
        rw [this]
        cases t with
        | nil => rfl
        | cons x t => rw [minusLoop, if_neg (by simp)]
      rw [hneg]
      dsimp only
      rw [if_pos, M.bind_ok err]
      · rfl
      · have : getCurrReusable s = -1 := by unfold getCurrReusable; rw [h.passed]; rfl
        rw [this]; simp
    | succ c =>
      have hi : getCurrReusable s = (c : Int) := by unfold getCurrReusable; rw [h.passed]; push_cast; omega
      rw [hi, minusLoop_eq r m c]
      obtain ⟨j, hj⟩ : ∃ j, m - c = j + 1 := ⟨m - c - 1, by omega⟩
      rw [hj, List.replicate_succ]
      dsimp only
      rw [if_pos (by simp), M.bind_ok err]
      rfl

theorem anonymous_eval {addrs : List Nat} {c : Nat} {s : S} (h : Anonymous addrs c s) (p : Int) :
    Anonymous addrs c (evalState s p) := ⟨h.total, h.passed, h.addr⟩

theorem unary_signs (x m : Nat) (r : Str) (hx : x = 43 ∨ x = 45) (hr : Follows r) :
    unary (x :: List.replicate m x ++ 95 :: r) = (false, false, x :: List.replicate m x ++ 95 :: r) := by
  unfold unary
  rw [if_neg (by simp; omega), if_neg]
  cases m with
  | zero =>
    have : isNameChar (hd r) = false := by
      cases r with
      | nil => rfl
      | cons y r =>
        have := (hr y (by simp)).1
        rw [hd_cons, Bool.eq_false_iff]
        intro hn
        exact this ((isNameChar_iff y).1 hn)
    simp [this]
  | succ m => simp [List.replicate_succ]

/-- C08, forward: `+_` is the first anonymous label after the point of use, `++_` the second, and so on. When there is
no such label (yet), the reference is reported as a forward reference. -/
theorem C08_forward (n m : Nat) (b b' rest : Str) (addrs : List Nat) (c : Nat) (s : S) (h : Anonymous addrs c s)
    (hb : Blanks b) (hb' : Blanks b') (hrest : AtEnd rest) :
    (∀ a, addrs[c + m]? = some a →
      parseNum (knot (n + 1)) (b ++ (43 :: List.replicate m 43 ++ [95]) ++ b' ++ rest) s =
        .ok (some (asInt32 a)) { s with parseDepth := 0, fwdRef := false }) ∧
    (addrs[c + m]? = none →
      parseNum (knot (n + 1)) (b ++ (43 :: List.replicate m 43 ++ [95]) ++ b' ++ rest) s =
        .ok none (errorAt 0x100 { s with parseDepth := 1, fwdRef := false })) := by
  have hf : Follows (b' ++ rest) := hrest.follows hb'
  have e : 43 :: List.replicate m 43 ++ [95] = 43 :: (List.replicate m 43 ++ [95]) := rfl
  have e2 : 43 :: (List.replicate m 43 ++ [95]) ++ (b' ++ rest) = 43 :: List.replicate m 43 ++ 95 :: (b' ++ rest) := by simp
  obtain ⟨h1, h2⟩ := parseSingle_plus (knot n) m (b' ++ rest) addrs c (evalState s 1) (anonymous_eval h 1)
  constructor
  · intro a ha
    rw [e, parseNum_single n s (evalState s 1) b 43 (List.replicate m 43 ++ [95]) b' rest (asInt32 a) hb hb' hrest
      (by unfold Starter'; simp) (by decide) (by rw [e2]; exact unary_signs 43 m _ (Or.inl rfl) hf)
      (by rw [e2]; exact h1 a ha)]
    rfl
  · intro ha
    have e3 : b ++ (43 :: List.replicate m 43 ++ [95]) ++ b' ++ rest = b ++ (43 :: (List.replicate m 43 ++ 95 :: (b' ++ rest))) := by
      simp
    have hu := unary_signs 43 m (b' ++ rest) (Or.inl rfl) hf
    have h2 := h2 ha
    rw [List.cons_append] at hu h2
    rw [e3, parseNum_fails n s _ b 43 (List.replicate m 43 ++ 95 :: (b' ++ rest)) hb (by unfold Starter'; simp) (by decide) hu h2]
    rfl

/-- C08, backward: `-_` is the last anonymous label before the point of use, `--_` the one before it, and so on. When
there are too many signs, the reference is reported as an error. -/
theorem C08_backward (n m : Nat) (b b' rest : Str) (addrs : List Nat) (c : Nat) (s : S) (h : Anonymous addrs c s)
    (hb : Blanks b) (hb' : Blanks b') (hrest : AtEnd rest) :
    (∀ a, m + 1 ≤ c → addrs[c - (m + 1)]? = some a →
      parseNum (knot (n + 1)) (b ++ (45 :: List.replicate m 45 ++ [95]) ++ b' ++ rest) s =
        .ok (some (asInt32 a)) { s with parseDepth := 0, fwdRef := false }) ∧
    (c < m + 1 →
      parseNum (knot (n + 1)) (b ++ (45 :: List.replicate m 45 ++ [95]) ++ b' ++ rest) s =
        .ok none (errorAt 0x101 { s with parseDepth := 1, fwdRef := false })) := by
  have hf : Follows (b' ++ rest) := hrest.follows hb'
  have e : 45 :: List.replicate m 45 ++ [95] = 45 :: (List.replicate m 45 ++ [95]) := rfl
  have e2 : 45 :: (List.replicate m 45 ++ [95]) ++ (b' ++ rest) = 45 :: List.replicate m 45 ++ 95 :: (b' ++ rest) := by simp
  obtain ⟨h1, h2⟩ := parseSingle_minus (knot n) m (b' ++ rest) addrs c (evalState s 1) (anonymous_eval h 1)
  constructor
  · intro a hm ha
    rw [e, parseNum_single n s (evalState s 1) b 45 (List.replicate m 45 ++ [95]) b' rest (asInt32 a) hb hb' hrest
      (by unfold Starter'; simp) (by decide) (by rw [e2]; exact unary_signs 45 m _ (Or.inr rfl) hf)
      (by rw [e2]; exact h1 a hm ha)]
    rfl
  · intro ha
    have e3 : b ++ (45 :: List.replicate m 45 ++ [95]) ++ b' ++ rest = b ++ (45 :: (List.replicate m 45 ++ 95 :: (b' ++ rest))) := by
      simp
    have hu := unary_signs 45 m (b' ++ rest) (Or.inr rfl) hf
    have h2 := h2 ha
    rw [List.cons_append] at hu h2
    rw [e3, parseNum_fails n s _ b 45 (List.replicate m 45 ++ 95 :: (b' ++ rest)) hb (by unfold Starter'; simp) (by decide) hu h2]
    rfl

theorem parseSingle_underscore (k : Rec) (r : Str) (hr : Follows r) (addrs : List Nat) (c : Nat) (s : S) (h : Anonymous addrs c s) :
    (∀ a, addrs[c]? = some a → parseSingle k (95 :: r) s = .ok (some (r, asInt32 a)) s) ∧
    (addrs[c]? = none → parseSingle k (95 :: r) s = .ok none (errorAt 0x100 s)) := by
  obtain ⟨ht1, ht2⟩ := takeName_append [95] r (by intro x hx; simp at hx; subst hx; unfold NameChar; omega) hr
  have hi : getCurrReusable s + 1 = (c : Int) := by unfold getCurrReusable; rw [h.passed]; omega
  have hd := searchDefines_calm [95] s (by unfold keyOf; split <;> rfl)
  have key : parseSingle k (95 :: r) s = (if (c : Int) < s.totalReusables then do
      let v ← searchReusables c
      pure (some (r, v))
    else do
      setError E.LOCAL_LABEL_FORWARD_REF
      pure none : M (Option (Str × Int))) s := by
    show parseName k ([95] ++ r) s = _
    unfold parseName
    rw [ht1, ht2, M.get_bind]
    dsimp only
    rw [hi]
    simp only [beq_self_eq_true, if_true]
    cases searchLocal [95] s with
    | some d => rfl
    | none =>
      dsimp only
      cases searchLabels [95] s with
      | some l => rfl
      | none =>
        simp only [Option.isSome_none, Bool.false_eq_true, if_false, M.bind_assoc]
        rw [M.bind_ok hd]
        rfl
  constructor
  · intro a ha
    obtain ⟨hlt, _⟩ := List.getElem?_eq_some_iff.1 ha
    rw [key, if_pos (by rw [h.total]; omega), M.bind_ok (searchReusables_ok addrs c c a s h ha)]
    rfl
  · intro ha
    have hge := List.getElem?_eq_none_iff.1 ha
    rw [key, if_neg (by rw [h.total]; omega),
      M.bind_ok (show setError E.LOCAL_LABEL_FORWARD_REF s = .ok () (errorAt 0x100 s) from setError_apply _ s (by decide))]
    rfl

/-- C08: `_` alone is the first anonymous label after the point of use, like `+_`. -/
theorem C08_next (n : Nat) (b b' rest : Str) (addrs : List Nat) (c : Nat) (s : S) (h : Anonymous addrs c s)
    (hb : Blanks b) (hb' : Blanks b') (hrest : AtEnd rest) :
    (∀ a, addrs[c]? = some a →
      parseNum (knot (n + 1)) (b ++ [95] ++ b' ++ rest) s =
        .ok (some (asInt32 a)) { s with parseDepth := 0, fwdRef := false }) ∧
    (addrs[c]? = none →
      parseNum (knot (n + 1)) (b ++ [95] ++ b' ++ rest) s =
        .ok none (errorAt 0x100 { s with parseDepth := 1, fwdRef := false })) := by
  have hf : Follows (b' ++ rest) := hrest.follows hb'
  obtain ⟨h1, h2⟩ := parseSingle_underscore (knot n) (b' ++ rest) hf addrs c (evalState s 1) (anonymous_eval h 1)
  have hst : Starter' 95 := by unfold Starter' Starter; simp
  constructor
  · intro a ha
    rw [parseNum_single n s (evalState s 1) b 95 [] b' rest (asInt32 a) hb hb' hrest hst (by decide)
      (by unfold unary; simp) (h1 a ha)]
    rfl
  · intro ha
    have e3 : b ++ [95] ++ b' ++ rest = b ++ (95 :: (b' ++ rest)) := by simp
    rw [e3, parseNum_fails n s _ b 95 (b' ++ rest) hb hst (by decide) (by unfold unary; simp) (h2 ha)]
    rfl

theorem labelEnd_cases {rest after : Str} (h : LabelEnd rest after) :
    Follows rest ∧ hd rest ≠ 40 ∧ dropChar 58 rest = after := by
  rcases h with rfl | ⟨rfl, h⟩
  · refine ⟨?_, by simp, rfl⟩
    intro c hc
    simp at hc; subst hc
    unfold NameChar Alnum; omega
  · refine ⟨fun c hc => ⟨(h c hc).1, (h c hc).2.1⟩, ?_, ?_⟩
    · cases rest with
      | nil => simp
      | cons c r => exact (h c rfl).2.1
    · cases rest with
      | nil => rfl
      | cons c r => unfold dropChar; rw [if_neg (by simpa using (h c rfl).2.2)]

theorem lineSec_anonymous (k : Rec) (rest after : Str) (hr : LabelEnd rest after) (s : S) :
    lineSecBody k (95 :: rest) s = (addReusable >>= fun _ => lineSecBody k after) s := by
  obtain ⟨hf, hp, hda⟩ := labelEnd_cases hr
  obtain ⟨ht1, ht2⟩ := takeName_append [95] rest (by intro x hx; simp at hx; subst hx; unfold NameChar; omega) hf
  have e : (95 :: rest : Str) = [95] ++ rest := rfl
  have hle : after.length ≤ rest.length := hda ▸ dropChar_length 58 rest
  unfold lineSecBody
  rw [lineSecLoop]
  dsimp only
  rw [if_neg (show ¬ isEnd (95 :: rest) = true by simp [isEnd]), if_pos (show (isAlpha (hd (95 :: rest)) || hd (95 :: rest) == 95) = true by simp),
    e, ht2, ht1, if_neg (by simpa using hp)]
  simp only [beq_self_eq_true, if_true, hda]
  have hfu := lineSecLoop_fuel k (rest.length + 1) (after.length + 1) after (by omega) (by omega)
  show (addReusable >>= fun _ => lineSecLoop k (rest.length + 1) after) s = _
  rw [hfu]

/-- C08: a line that starts with `_` defines the next anonymous label at the current address (up to 4096 of them). The
rest of the line is then run; nothing else changes. -/
theorem C08_defined (n : Nat) (rest after : Str) (hr : LabelEnd rest after) (addrs : List Nat) (s : S) (pc : Nat)
    (hpc : s.pc = pc) (h : Anonymous addrs addrs.length s) (hlen : addrs.length < 4096) :
    ∃ s1, Anonymous (addrs ++ [pc]) (addrs.length + 1) s1 ∧
      (∃ g i j, s1 = { s with reusables := g, currReusable := i, totalReusables := j }) ∧
      (knot (n + 1)).lineSec (95 :: rest) s = (knot (n + 1)).lineSec after s1 := by
  have ha : addReusable s = .ok () { s with
      reusables := fun i => if i = s.currReusable then s.pc else s.reusables i,
      currReusable := s.currReusable + 1, totalReusables := s.currReusable + 1 } := by
    unfold addReusable
    rw [if_neg (by rw [h.passed]; omega)]
  refine ⟨{ s with
    reusables := fun i => if i = s.currReusable then s.pc else s.reusables i,
    currReusable := s.currReusable + 1, totalReusables := s.currReusable + 1 }, ⟨?_, ?_, ?_⟩, ⟨_, _, _, rfl⟩, ?_⟩
  · show s.currReusable + 1 = _
    rw [h.passed]; simp
  · show s.currReusable + 1 = _
    rw [h.passed]; simp
  · intro i a hi
    show (if (i : Int) = s.currReusable then s.pc else s.reusables i) = a
    rw [h.passed]
    by_cases hlt : i < addrs.length
    · rw [if_neg (by omega)]
      rw [List.getElem?_append_left hlt] at hi
      exact h.addr i a hi
    · have := (List.getElem?_eq_some_iff.1 hi).1
      simp at this
      have hii : i = addrs.length := by omega
      subst hii
      simp at hi
      rw [if_pos rfl, hpc, hi]
  · show lineSecBody (knot n) (95 :: rest) s = lineSecBody (knot n) after { s with
      reusables := fun i => if i = s.currReusable then s.pc else s.reusables i,
      currReusable := s.currReusable + 1, totalReusables := s.currReusable + 1 }
    rw [lineSec_anonymous (knot n) rest after hr s, M.bind_ok ha]

/-- The array of anonymous labels has no check: the 4097th label is written behind its end. -/
theorem C08_too_many (n : Nat) (rest after : Str) (hr : LabelEnd rest after) (addrs : List Nat) (s : S)
    (h : Anonymous addrs addrs.length s) (hlen : 4096 ≤ addrs.length) :
    (knot (n + 1)).lineSec (95 :: rest) s = .stop (.ub .outOfBounds) s := by
  have ha : addReusable s = .stop (.ub .outOfBounds) s := by
    unfold addReusable
    rw [if_pos (by rw [h.passed]; omega)]
  show lineSecBody (knot n) (95 :: rest) s = _
  rw [lineSec_anonymous (knot n) rest after hr s, M.bind_stop ha]

/-- Two anonymous labels before the point of use and two after it. -/
def fourLabels : S :=
  { reusables := fun i => if i = 0 then 100 else if i = 1 then 200 else if i = 2 then 300 else if i = 3 then 400 else 0,
    currReusable := 2, totalReusables := 4 }

example : Anonymous [100, 200, 300, 400] 2 fourLabels := by
  refine ⟨rfl, rfl, ?_⟩
  intro i a h
  have hi := (List.getElem?_eq_some_iff.1 h).1
  simp at hi
  have : i = 0 ∨ i = 1 ∨ i = 2 ∨ i = 3 := by omega
  rcases this with rfl | rfl | rfl | rfl <;> simp at h <;> subst h <;> rfl

example : returns (parseNum (knot 3) (b! " ++_ ") fourLabels) (fun r _ => r == some 400) = true ∧
    returns (parseNum (knot 3) (b! "_") fourLabels) (fun r _ => r == some 300) = true ∧
    returns (parseNum (knot 3) (b! "--_") fourLabels) (fun r _ => r == some 100) = true ∧
    returns (parseNum (knot 3) (b! "---_") fourLabels) (fun r s => r == none && s.errors.map (·.code) == [0x101]) = true ∧
    returns (parseNum (knot 3) (b! "+++_") fourLabels) (fun r s => r == none && s.errors.map (·.code) == [0x100]) = true := by
  decide +kernel

example : Anonymous [] 0 ({} : S) := ⟨rfl, rfl, by simp⟩

example : LabelEnd (b! ": nop") (b! " nop") ∧ LabelEnd (b! " nop") (b! " nop") := by
  refine ⟨Or.inl rfl, Or.inr ⟨rfl, ?_⟩⟩
  intro c hc
  simp at hc; subst hc
  unfold NameChar Alnum; omega

/-- Through both passes. -/
example : (asm (b! "_ .dw _,+_,-_\n nop\n_ .dw --_,-_,++_\n_ nop\n_\n") [b! "a.asm"]).state.log =
    [.wrote (b! "a.bin") [7, 0, 7, 0, 0, 0, 0, 0, 0, 7, 0, 14, 0, 0]] := by decide +kernel

end Spasm.Props
