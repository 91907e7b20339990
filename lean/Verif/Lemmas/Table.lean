import Verif.Model.Storage

/-
Symbol tables are maps.
-/

namespace Spasm.Table
variable {α : Type}

theorem lookup_nil (k : Str) : lookup ([] : Table α) k = none := rfl

theorem lookup_cons (p : Str × α) (t : Table α) (k : Str) :
    lookup (p :: t) k = if p.1 = k then some p.2 else lookup t k := by
  unfold lookup
  rw [List.find?_cons]
  by_cases h : p.1 = k
  · rw [beq_iff_eq.mpr h, if_pos h]; rfl
  · rw [beq_eq_false_iff_ne.mpr h, if_neg h]

theorem lookup_insert_self (k : Str) (v : α) (t : Table α) : lookup (insert k v t) k = some v := by
  induction t with
  | nil => simp [insert, lookup_cons]
  | cons p t ih =>
    obtain ⟨k', v'⟩ := p
    unfold insert
    by_cases h : k = k'
    · subst h; simp [lookup_cons]
    · rw [beq_eq_false_iff_ne.mpr h]
      simp only [Bool.false_eq_true, if_false]
      split
      · simp [lookup_cons]
      · rw [lookup_cons, if_neg (Ne.symm h)]; exact ih

theorem lookup_insert_ne (k k2 : Str) (v : α) (t : Table α) (h2 : k2 ≠ k) :
    lookup (insert k v t) k2 = lookup t k2 := by
  induction t with
  | nil => simp [insert, lookup_cons, h2.symm, lookup_nil]
  | cons p t ih =>
    obtain ⟨k', v'⟩ := p
    unfold insert
    by_cases h : k = k'
    · subst h; simp [lookup_cons, h2.symm]
    · rw [beq_eq_false_iff_ne.mpr h]
      simp only [Bool.false_eq_true, if_false]
      split
      · rw [lookup_cons, if_neg h2.symm]
      · rw [lookup_cons, lookup_cons, ih]

theorem insert_length {k : Str} {t : Table α} (h : lookup t k = none) (v : α) : (insert k v t).length = t.length + 1 := by
  induction t with
  | nil => rfl
  | cons p t ih =>
    obtain ⟨k', v'⟩ := p
    rw [lookup_cons] at h
    by_cases hk : k' = k
    · rw [if_pos hk] at h; cases h
    · rw [if_neg hk] at h
      unfold insert
      rw [beq_eq_false_iff_ne.mpr (Ne.symm hk)]
      simp only [Bool.false_eq_true, if_false]
      split
      · rfl
      · rw [List.length_cons, ih h, List.length_cons]

theorem update_length (k : Str) (f : α → α) (t : Table α) : (update k f t).length = t.length := by
  simp [update]

theorem lookup_erase_self (k : Str) (t : Table α) : lookup (erase k t) k = none := by
  induction t with
  | nil => rfl
  | cons p t ih =>
    unfold erase at ih ⊢
    rw [List.filter_cons]
    by_cases h : p.1 = k
    · simp only [bne_iff_ne, ne_eq, h, not_true_eq_false, if_false]; exact ih
    · rw [if_pos (bne_iff_ne.mpr h), lookup_cons, if_neg h]; exact ih

theorem lookup_erase_ne (k k2 : Str) (t : Table α) (h2 : k2 ≠ k) : lookup (erase k t) k2 = lookup t k2 := by
  induction t with
  | nil => rfl
  | cons p t ih =>
    unfold erase at ih ⊢
    rw [List.filter_cons]
    by_cases h : p.1 = k
    · simp only [bne_iff_ne, ne_eq, h, not_true_eq_false, if_false]
      rw [lookup_cons, if_neg (by rw [h]; exact h2.symm)]; exact ih
    · rw [if_pos (bne_iff_ne.mpr h), lookup_cons, lookup_cons, ih]

theorem lookup_update (k k2 : Str) (f : α → α) (t : Table α) :
    lookup (update k f t) k2 = if k2 = k then (lookup t k2).map f else lookup t k2 := by
  induction t with
  | nil => simp [update, lookup_nil]
  | cons p t ih =>
    unfold update at ih ⊢
    rw [List.map_cons, lookup_cons, lookup_cons, ih]
    by_cases h : p.1 = k
    · by_cases h2 : k2 = k
      · subst h2; simp [h]
      · simp [h, h2, Ne.symm h2]
    · by_cases h2 : k2 = k
      · subst h2; simp [h]
      · by_cases h3 : p.1 = k2 <;> simp [h, h2, h3]

end Spasm.Table
