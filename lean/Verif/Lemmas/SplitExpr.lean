import Verif.Lemmas.Split

/-
Expressions of the specification are balanced texts without commas.
-/

namespace Spasm
open Spec

/-- Delimiters that do not occur in expressions. -/
def Commas (delims : Str) : Prop := ∀ c ∈ delims, c = 44

theorem balanced_append {delims : Str} {i : Bool} {a b : Str} (ha : Balanced delims i a) (hb : Balanced delims i b) :
    Balanced delims i (a ++ b) := by
  induction ha with
  | nil => exact hb
  | char i c t h1 h2 _ ih => exact .char i c _ h1 h2 (ih hb)
  | quoted i c t h1 _ ih => exact .quoted i c _ h1 (ih hb)
  | escaped i c t _ ih => exact .escaped i c _ (ih hb)
  | string i b' t h1 _ ih => simpa using Balanced.string i b' _ h1 (ih hb)
  | paren i u t hu _ _ ih => simpa using Balanced.paren i u _ hu (ih hb)

/-- A character of a token. -/
def Token (c : Nat) : Prop := Ordinary c ∧ c ≠ 44

theorem balanced_tokens {delims : Str} (hd : Commas delims) (i : Bool) : ∀ t : Str, (∀ c ∈ t, Token c) → Balanced delims i t
  | [], _ => .nil i
  | c :: t, h => .char i c t (h c (by simp)).1 (fun _ hc => (h c (by simp)).2 (hd c hc))
      (balanced_tokens hd i t fun x hx => h x (by simp [hx]))

theorem token_alnum {c : Nat} (h : Alnum c) : Token c := by unfold Alnum at h; unfold Token Ordinary; omega
theorem token_name {c : Nat} (h : NameChar c) : Token c := by
  unfold NameChar Alnum at h; unfold Token Ordinary; omega
theorem token_blank {b : Str} (h : Blanks b) : ∀ c ∈ b, Token c := by
  intro c hc
  have := h c hc
  unfold Token Ordinary; omega

theorem literal_tokens {base : Nat} {ds t : Str} (h : Literal base ds t) : ∀ c ∈ t, Token c ∧ ¬ White c := by
  obtain ⟨-, h1, h2⟩ := h
  have hd : ∀ c ∈ ds, Token c ∧ ¬ White c := fun c hc =>
    ⟨token_alnum (h1 c hc), by have := h1 c hc; unfold Alnum at this; unfold White; omega⟩
  have hs : ∀ x : Nat, (x = 104 ∨ x = 72 ∨ x = 98 ∨ x = 66 ∨ x = 100 ∨ x = 68 ∨ x = 36 ∨ x = 37) → Token x ∧ ¬ White x := by
    intro x hx
    unfold Token Ordinary White; omega
  intro c hc
  rcases h2 with ⟨_, rfl, _⟩ | ⟨_, rfl⟩ | ⟨_, h2⟩
  · rcases List.mem_cons.1 hc with rfl | hc
    · exact hs _ (by omega)
    · exact hd c hc
  · rcases List.mem_cons.1 hc with rfl | hc
    · exact hs _ (by omega)
    · exact hd c hc
  · rcases h2 with ⟨_, rfl | rfl⟩ | ⟨_, rfl | rfl⟩ | ⟨_, rfl | rfl⟩ | ⟨_, rfl, _⟩
    all_goals first
      | exact hd c hc
      | (rcases List.mem_append.1 hc with hc | hc
         · exact hd c hc
         · simp at hc; exact hs c (by omega))

/-- A piece of an expression: balanced at every level and ending in a character that is not white. -/
def Piece (t : Str) : Prop :=
  (∀ delims, Commas delims → ∀ i, Balanced delims i t) ∧ t ≠ [] ∧ ∀ c ∈ t.getLast?, ¬ White c

theorem Piece.after {a t : Str} (ha : ∀ c ∈ a, Token c) (ht : Piece t) : Piece (a ++ t) :=
  ⟨fun d hd i => balanced_append (balanced_tokens hd i a ha) (ht.1 d hd i), by simp [ht.2.1],
    by rw [getLast?_append_ne ht.2.1]; exact ht.2.2⟩

theorem Piece.of_tokens {t : Str} (hne : t ≠ []) (h : ∀ c ∈ t, Token c ∧ ¬ White c) : Piece t :=
  ⟨fun _ hd i => balanced_tokens hd i t fun c hc => (h c hc).1, hne, fun c hc => (h c (List.mem_of_getLast? hc)).2⟩

theorem piece_name {t : Str} (hn : Name t) : Piece t := by
  obtain ⟨⟨c, r, rfl, hc, hx⟩, hne⟩ := hn
  refine .of_tokens (by simp) fun x hx' => ?_
  have : NameChar x := by
    rcases List.mem_cons.1 hx' with rfl | hx'
    · unfold NameChar Alnum; omega
    · exact hx x hx'
  refine ⟨token_name this, ?_⟩
  unfold NameChar Alnum at this; unfold White; omega

theorem piece_atom {pc : Int} {label : Str → Option Int} {t : Str} {v : Int} (h : Atom pc label t v) : Piece t := by
  cases h with
  | literal base ds text hl hds hm =>
    have hne : t ≠ [] := by
      obtain ⟨c, r, h, -⟩ := Atom_start (.literal base ds t hl hds hm : Atom pc label t _)
      rw [h]; simp
    exact .of_tokens hne (literal_tokens hl)
  | here =>
    refine .of_tokens (by simp) fun c hc => ?_
    simp at hc; subst hc
    unfold Token; decide
  | char c h1 h2 h3 => exact ⟨fun d hd i => .quoted i c [] h1 (.nil i), by simp, by intro x hx; simp at hx; subst hx; decide⟩
  | escape c v hv => exact ⟨fun d hd i => .escaped i c [] (.nil i), by simp, by intro x hx; simp at hx; subst hx; decide⟩
  | label t v hn hl => exact piece_name hn

theorem spelled_tokens {op : BinOp} {t : Str} (h : t ∈ BinOp.spelled op) : ∀ c ∈ t, Token c := by
  unfold Token Ordinary
  revert t
  cases op <;> decide

theorem piece_denotes {pc : Int} {label : Str → Option Int} {text : Str → Option Str} {d : Nat} {t : Str} {v : Int} (h : Denotes pc label text d t v) :
    Piece t := by
  refine Denotes.rec (pc := pc) (label := label) (text := text) (motive_1 := fun _ t _ _ => Piece t)
    (motive_2 := fun _ t _ _ => Piece t) (motive_3 := fun _ t _ _ => Piece t)
    ?_ ?_ ?_ ?_ ?_ ?_ ?_ ?_ ?_ h
  · intro t v h; exact piece_atom h
  · intro d b t b' v hb hb' _ ih
    refine ⟨fun dl hd i => ?_, by simp, ?_⟩
    · have := Balanced.paren i (b ++ t ++ b') [] (balanced_append (balanced_append (balanced_tokens hd true b (token_blank hb))
        (ih.1 dl hd true)) (balanced_tokens hd true b' (token_blank hb'))) (.nil i)
      simpa using this
    · intro x hx
      rw [getLast?_append_ne (by simp)] at hx
      simp at hx; subst hx; decide
  · intro d t b e b' v hn _ _ _ _ _; exact piece_name hn
  · intro d t v _ ih; exact ih
  all_goals try
    (intro d b t v hb _ ih
     exact ih.after (a := _ ++ b) (fun c hc => by
       rcases List.mem_append.1 hc with hc | hc
       · simp at hc; subst hc; unfold Token; decide
       · exact token_blank hb c hc))
  · intro d b t v hb _ _ ih
    exact ih.after (a := _ ++ b) (fun c hc => by
       rcases List.mem_append.1 hc with hc | hc
       · simp at hc; subst hc; unfold Token; decide
       · exact token_blank hb c hc)
  · intro d t v _ ih; exact ih
  · intro d₁ t₁ v₁ b op optext b' d₂ t₂ v₂ v h1 hb hb' hop _ _ _ ih1 ih2
    have h2 := ih2.after (a := b ++ optext ++ b') (fun c hc => by
      rcases List.mem_append.1 hc with hc | hc
      · rcases List.mem_append.1 hc with hc | hc
        · exact token_blank hb c hc
        · exact spelled_tokens hop c hc
      · exact token_blank hb' c hc)
    refine ⟨fun dl hd i => ?_, by simp [ih2.2.1], ?_⟩
    · have := balanced_append (ih1.1 dl hd i) (h2.1 dl hd i)
      simpa using this
    · rw [getLast?_append_ne ih2.2.1]; exact ih2.2.2

theorem starter_notWhite {c : Nat} (h : Starter' c) : ¬ White c := by
  unfold Starter' Starter Alnum at h
  unfold White; omega

/-- An expression is an argument. -/
theorem argument_denotes {pc : Int} {label : Str → Option Int} {text : Str → Option Str} {d : Nat} {t : Str} {v : Int} (h : Denotes pc label text d t v) :
    Argument t := by
  have hp := piece_denotes h
  obtain ⟨c, r, hc, hs⟩ := Denotes_start h
  exact ⟨hp.1 [44] (fun c hc => by simpa using hc) false, hp.2.1, by rw [hc]; intro x hx; simp at hx; subst hx; exact starter_notWhite hs,
    hp.2.2⟩

theorem balanced_denotes {pc : Int} {label : Str → Option Int} {text : Str → Option Str} {d : Nat} {t : Str} {v : Int} (h : Denotes pc label text d t v) :
    Balanced [] false t := (piece_denotes h).1 [] (fun c hc => by simp at hc) false

/-- A piece of an expression with blanks behind it is one code line. -/
theorem codeLine_piece {t b' : Str} (h : Piece t) (hst : ∃ c r, t = c :: r ∧ Starter' c) (hb : Blanks b') :
    codeLine (t ++ b') = (t ++ b', []) := by
  obtain ⟨c, r, hc, hs⟩ := hst
  have hbal : Balanced [] false (t ++ b') :=
    balanced_append (h.1 [] (fun c hc => by simp at hc) false) (balanced_tokens (fun c hc => by simp at hc) false b' (token_blank hb))
  have hne : nextExpr [92, 59, 13, 10] (t ++ b') = [] := by
    unfold nextExpr
    have hsk : skipWs (t ++ b') = t ++ b' := by rw [hc]; exact skipWs_cons c _ (Starter.nonblank hs)
    simp only [hsk]
    rw [if_neg]
    · have := next_balanced [92, 59, 13, 10] (by intro c hc; simpa using hc) hbal (3 * (t ++ b').length + 3) [] [] 0 (by omega)
      rw [List.append_nil] at this
      rw [show ({ con := [], rest := t ++ b' } : Scan) = ⟨[], t ++ b', false, false, 0, 0⟩ from rfl, this]
      obtain ⟨f, hf⟩ : ∃ f, 3 * (t ++ b').length + 3 - (t ++ b').length = f + 1 := ⟨2 * (t ++ b').length + 2, by omega⟩
      rw [hf, next_stop _ f _ [] 0 (.inl rfl)]
    · rw [hc]
      unfold Starter' Starter Alnum at hs
      simp [isEnd]
      omega
  unfold codeLine nextCodeLine
  rw [hne]
  rfl

/-- An expression with blanks behind it is one code line. -/
theorem codeLine_denotes {pc : Int} {label : Str → Option Int} {text : Str → Option Str} {d : Nat} {t b' : Str} {v : Int}
    (h : Denotes pc label text d t v) (hb : Blanks b') : codeLine (t ++ b') = (t ++ b', []) :=
  codeLine_piece (piece_denotes h) (Denotes_start h) hb

theorem trimmed_denotes {pc : Int} {label : Str → Option Int} {text : Str → Option Str} {d : Nat} {t : Str} {v : Int} (h : Denotes pc label text d t v) :
    Trimmed t := (argument_denotes h).trimmed

end Spasm
