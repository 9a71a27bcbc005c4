import Verif.Model.Py
/-! Helper lemmas about dictionaries. -/
namespace Model.Dict
variable {κ α : Type} [DecidableEq κ]

@[simp] theorem get?_nil (k : κ) : get? ([] : Dict κ α) k = none := rfl

theorem get?_set (d : Dict κ α) (k k' : κ) (v : α) :
    get? (set d k v) k' = if k = k' then some v else get? d k' := by
  induction d with
  | nil => simp [set, get?]
  | cons p r ih =>
    obtain ⟨a, b⟩ := p
    simp only [set]
    split
    · rename_i h; subst h
      simp only [get?]
      split <;> rfl
    · rename_i h
      simp only [get?, ih]
      by_cases h2 : a = k'
      · subst h2
        rw [if_pos rfl, if_pos rfl, if_neg (fun e => h e.symm)]
      · rw [if_neg h2, if_neg h2]

@[simp] theorem get?_set_self (d : Dict κ α) (k : κ) (v : α) : get? (set d k v) k = some v := by
  simp [get?_set]

theorem get?_set_ne (d : Dict κ α) {k k' : κ} (v : α) (h : k ≠ k') : get? (set d k v) k' = get? d k' := by
  simp [get?_set, h]

theorem keys_set (d : Dict κ α) (k : κ) (v : α) :
    keys (set d k v) = if k ∈ keys d then keys d else keys d ++ [k] := by
  induction d with
  | nil => simp [set, keys]
  | cons p r ih =>
    obtain ⟨a, b⟩ := p
    simp only [set]
    split
    · rename_i h; subst h; simp [keys]
    · rename_i h
      simp only [keys, List.map_cons] at ih ⊢
      rw [ih]
      have : ¬ k = a := fun e => h e.symm
      by_cases hk : k ∈ List.map Prod.fst r <;> simp [hk, this]

theorem get?_isSome_iff (d : Dict κ α) (k : κ) : (get? d k).isSome ↔ k ∈ keys d := by
  induction d with
  | nil => simp [keys]
  | cons p r ih =>
    obtain ⟨a, b⟩ := p
    simp only [get?, keys, List.map_cons, List.mem_cons]
    split
    · rename_i h; simp [h]
    · rename_i h
      rw [ih]
      constructor
      · exact Or.inr
      · rintro (e | e)
        · exact absurd e.symm h
        · exact e

theorem get?_eq_none_iff (d : Dict κ α) (k : κ) : get? d k = none ↔ k ∉ keys d := by
  rw [← get?_isSome_iff]; cases get? d k <;> simp

theorem mem_of_get? {d : Dict κ α} {k : κ} {v : α} (h : get? d k = some v) : (k, v) ∈ d := by
  induction d with
  | nil => simp at h
  | cons p r ih =>
    obtain ⟨a, b⟩ := p
    simp only [get?] at h
    split at h
    · rename_i e; cases h; subst e; exact List.mem_cons_self
    · exact List.mem_cons_of_mem _ (ih h)

theorem nodup_set {d : Dict κ α} {k : κ} {v : α} (h : (keys d).Nodup) : (keys (set d k v)).Nodup := by
  rw [keys_set]
  split
  · exact h
  · rename_i hk
    rw [List.nodup_append]
    refine ⟨h, by simp, ?_⟩
    intro a ha b hb
    simp at hb; subst hb
    intro e; subst e; exact hk ha

theorem get?_erase (d : Dict κ α) (k k' : κ) : get? (erase d k) k' = if k = k' then none else get? d k' := by
  induction d with
  | nil => simp [erase]
  | cons p r ih =>
    obtain ⟨a, b⟩ := p
    simp only [erase, List.filter_cons] at ih ⊢
    by_cases e : a = k
    · subst e
      simp only [ne_eq, not_true_eq_false, decide_false, Bool.false_eq_true, if_false, get?]
      rw [ih]
      by_cases hk : a = k' <;> simp [hk]
    · simp only [ne_eq, e, not_false_eq_true, decide_true, if_true, get?]
      rw [ih]
      by_cases hk : a = k'
      · subst hk; rw [if_pos rfl, if_pos rfl, if_neg (fun e' => e e'.symm)]
      · rw [if_neg hk, if_neg hk]

theorem get?_erase_self (d : Dict κ α) (k : κ) : get? (erase d k) k = none := by simp [get?_erase]

theorem get?_erase_ne (d : Dict κ α) {k k' : κ} (h : k ≠ k') : get? (erase d k) k' = get? d k' := by simp [get?_erase, h]

theorem get?_erase_some {d : Dict κ α} {k k' : κ} {v : α} (h : get? (erase d k) k' = some v) : k ≠ k' ∧ get? d k' = some v := by
  rw [get?_erase] at h
  split at h
  · cases h
  · rename_i hn; exact ⟨hn, h⟩

theorem keys_erase_sublist (d : Dict κ α) (k : κ) : (keys (erase d k)).Sublist (keys d) := List.filter_sublist.map _

theorem nodup_erase {d : Dict κ α} {k : κ} (h : (keys d).Nodup) : (keys (erase d k)).Nodup :=
  (keys_erase_sublist d k).nodup h

end Model.Dict
