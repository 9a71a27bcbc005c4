import Verif.Model.Listen
/-! Lemmas about `Model/Listen.lean`. -/
namespace Model.Listen
variable {σ : Type}

/-- The listener has the callback. -/
def Callback.present : Callback σ → Bool
  | .missing => false
  | _ => true

/-- Indices of the coroutines among the futures. -/
def taskIds : List (Fut σ) → List Nat
  | [] => []
  | .ready _ _ :: fs => taskIds fs
  | .task i _ :: fs => i :: taskIds fs

theorem runTasks_ids (fs : List (Fut σ)) (w : σ) : (runTasks fs w).2.map Prod.fst = taskIds fs := by
  induction fs generalizing w with
  | nil => rfl
  | cons f fs ih => cases f <;> simp [runTasks, taskIds, ih]

theorem speak_ids_ge (k : Nat) (ls : List (Callback σ)) (w : σ) :
    (∀ a ∈ (speak k ls w).2.1, k ≤ a.1) ∧ (∀ i ∈ taskIds (speak k ls w).2.2, k ≤ i) := by
  induction ls generalizing k w with
  | nil => simp [speak, taskIds]
  | cons c ls ih =>
    cases c with
    | missing =>
      simp only [speak]
      exact ⟨fun a h => Nat.le_of_succ_le ((ih (k+1) w).1 a h), fun a h => Nat.le_of_succ_le ((ih (k+1) w).2 a h)⟩
    | async f =>
      simp only [speak, taskIds, List.mem_cons]
      refine ⟨fun a h => Nat.le_of_succ_le ((ih (k+1) w).1 a h), fun a h => ?_⟩
      rcases h with h | h
      · omega
      · exact Nat.le_of_succ_le ((ih (k+1) w).2 a h)
    | sync f =>
      simp only [speak, List.mem_cons]
      refine ⟨fun a h => ?_, fun a h => ?_⟩
      · rcases h with h | h
        · rw [h]; exact Nat.le_refl _
        · exact Nat.le_of_succ_le ((ih (k+1) (f w).1).1 a h)
      · have hh : a ∈ taskIds (speak (k+1) ls (f w).1).2.2 := by
          cases hf : (f w).2 with
          | ok v => rw [hf] at h; exact h
          | error x => rw [hf] at h; exact h
        exact Nat.le_of_succ_le ((ih (k+1) (f w).1).2 a hh)

/-- Every listener with the callback is called exactly once. -/
theorem speak_count (k i : Nat) (ls : List (Callback σ)) (w : σ) :
    ((speak k ls w).2.1.map Prod.fst).count (k + i) + (taskIds (speak k ls w).2.2).count (k + i)
      = if (ls[i]?).any Callback.present then 1 else 0 := by
  induction ls generalizing k w i with
  | nil => simp [speak, taskIds]
  | cons c ls ih =>
    have hz (w' : σ) : ((speak (k+1) ls w').2.1.map Prod.fst).count k = 0 ∧ (taskIds (speak (k+1) ls w').2.2).count k = 0 := by
      have h := speak_ids_ge (k+1) ls w'
      constructor
      · rw [List.count_eq_zero]; intro hm
        obtain ⟨a, ha, e⟩ := List.mem_map.1 hm
        have := h.1 a ha; omega
      · rw [List.count_eq_zero]; intro hm
        have := h.2 _ hm; omega
    cases i with
    | zero =>
      cases c with
      | missing => simp [speak, Callback.present, hz]
      | async f => simp [speak, taskIds, Callback.present, hz]
      | sync f => cases hf : (f w).2 <;> simp [speak, hf, taskIds, Callback.present, hz]
    | succ i =>
      have e : k + (i + 1) = (k + 1) + i := by omega
      have ne : ¬ (k = k + 1 + i) := by omega
      rw [e]
      cases c with
      | missing => simpa [speak] using ih (k+1) i w
      | async f => simpa [speak, taskIds, List.count_cons, ne] using ih (k+1) i w
      | sync f => cases hf : (f w).2 <;> simpa [speak, hf, taskIds, List.count_cons, ne] using ih (k+1) i (f w).1

theorem ask_count (ls : List (Callback σ)) (w : σ) (i : Nat) :
    ((ask ls w).2.1.map Prod.fst).count i = if (ls[i]?).any Callback.present then 1 else 0 := by
  have h := speak_count 0 i ls w
  simp only [Nat.zero_add] at h
  simp only [ask, List.map_append, List.count_append, runTasks_ids]
  exact h

/-- What gather returns is truthy somewhere exactly if some call answered so. -/
theorem gather_ok (fs : List (Fut σ)) (w : σ) (vs : List Ret) (h : gather fs w = .ok vs) :
    (∀ v, v ∈ vs ↔ (∃ i, Fut.ready i v ∈ fs) ∨ ∃ i, (i, Except.ok v) ∈ (runTasks fs w).2) := by
  induction fs generalizing w vs with
  | nil => cases h; simp [runTasks]
  | cons f fs ih =>
    cases f with
    | ready i r =>
      simp only [gather] at h
      cases hg : gather fs w with
      | error e => rw [hg] at h; cases h
      | ok l =>
        rw [hg] at h; cases h
        intro v
        simp only [List.mem_cons, ih w l hg v, runTasks, Fut.ready.injEq]
        constructor
        · rintro (h | ⟨j, h⟩ | ⟨j, h⟩)
          · exact Or.inl ⟨i, Or.inl ⟨rfl, h⟩⟩
          · exact Or.inl ⟨j, Or.inr h⟩
          · exact Or.inr ⟨j, h⟩
        · rintro (⟨j, h | h⟩ | ⟨j, h⟩)
          · exact Or.inl h.2
          · exact Or.inr (Or.inl ⟨j, h⟩)
          · exact Or.inr (Or.inr ⟨j, h⟩)
    | task i f =>
      simp only [gather] at h
      cases hf : (f w).2 with
      | error e => rw [hf] at h; cases h
      | ok r =>
        rw [hf] at h
        simp only at h
        cases hg : gather fs (f w).1 with
        | error e => rw [hg] at h; cases h
        | ok l =>
          rw [hg] at h; cases h
          intro v
          simp only [List.mem_cons, ih _ l hg v, runTasks, hf, Prod.mk.injEq, Except.ok.injEq]
          constructor
          · rintro (h | ⟨j, h⟩ | ⟨j, h⟩)
            · exact Or.inr ⟨i, Or.inl ⟨rfl, h⟩⟩
            · exact Or.inl ⟨j, Or.inr h⟩
            · exact Or.inr ⟨j, Or.inr h⟩
          · rintro (⟨j, h | h⟩ | ⟨j, h | h⟩)
            · cases h
            · exact Or.inr (Or.inl ⟨j, h⟩)
            · exact Or.inl h.2
            · exact Or.inr (Or.inr ⟨j, h⟩)

theorem gather_error (fs : List (Fut σ)) (w : σ) (x : PyErr) (h : gather fs w = .error x) : ∃ i, (i, Except.error x) ∈ (runTasks fs w).2 := by
  induction fs generalizing w with
  | nil => cases h
  | cons f fs ih =>
    cases f with
    | ready i r =>
      simp only [gather] at h
      cases hg : gather fs w with
      | error e => rw [hg] at h; cases h; exact ih w hg
      | ok l => rw [hg] at h; cases h
    | task i f =>
      simp only [gather] at h
      cases hf : (f w).2 with
      | error e => rw [hf] at h; cases h; exact ⟨i, by simp [runTasks, hf]⟩
      | ok r =>
        rw [hf] at h; simp only at h
        cases hg : gather fs (f w).1 with
        | error e =>
          rw [hg] at h; cases h
          obtain ⟨j, hj⟩ := ih _ hg
          exact ⟨j, by simp [runTasks, hj]⟩
        | ok l => rw [hg] at h; cases h

theorem speak_ready (k : Nat) (ls : List (Callback σ)) (w : σ) (i : Nat) (v : Ret) :
    Fut.ready i v ∈ (speak k ls w).2.2 ↔ (i, Except.ok v) ∈ (speak k ls w).2.1 := by
  induction ls generalizing k w with
  | nil => simp [speak]
  | cons c ls ih =>
    cases c with
    | missing => simpa [speak] using ih (k+1) w
    | async f => simpa [speak] using ih (k+1) w
    | sync f =>
      simp only [speak, List.mem_cons, Prod.mk.injEq]
      cases hf : (f w).2 with
      | ok r => simp only [List.mem_cons, Fut.ready.injEq, ih, Except.ok.injEq]
      | error x =>
        simp only [ih]
        constructor
        · exact Or.inr
        · rintro (h | h)
          · cases h.2
          · exact h

theorem ask_ok (ls : List (Callback σ)) (w : σ) (vs : List Ret) (h : (ask ls w).2.2 = .ok vs) (v : Ret) :
    v ∈ vs ↔ ∃ i, (i, Except.ok v) ∈ (ask ls w).2.1 := by
  simp only [ask] at h ⊢
  rw [gather_ok _ _ _ h v]
  simp only [speak_ready, List.mem_append]
  constructor
  · rintro (⟨i, h⟩ | ⟨i, h⟩)
    · exact ⟨i, Or.inl h⟩
    · exact ⟨i, Or.inr h⟩
  · rintro ⟨i, h | h⟩
    · exact Or.inl ⟨i, h⟩
    · exact Or.inr ⟨i, h⟩

theorem ask_error (ls : List (Callback σ)) (w : σ) (x : PyErr) (h : (ask ls w).2.2 = .error x) : ∃ i, (i, Except.error x) ∈ (ask ls w).2.1 := by
  simp only [ask] at h ⊢
  obtain ⟨i, hi⟩ := gather_error _ _ _ h
  exact ⟨i, List.mem_append.2 (Or.inr hi)⟩

end Model.Listen
