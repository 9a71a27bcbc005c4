import Verif.Lemmas.NodeInterview
/-!
# Property theorems C99: interviewing a node
-/
namespace Props.NodeInterview
open Model Model.Listen Model.NodeInterview

/-- **C99.** When `Node.interview()` returns, every supported class has been interviewed by it, one after the other, in the order of the node information; each of these
interviews has ended, none of them with an exception other than a timeout. For every schedule, also if other interviews overlap. -/
theorem C99_all (ids : List Nat) (ops : List Op) (n : Nat) (h : (run (fresh ids) ops).calls[n]? = some (.done (.ok ()))) :
    ∃ rs : List (Nat × Py Ret), rs.length = ids.length ∧ mine n (run (fresh ids) ops).trace = visits n 0 rs ∧
      ∀ (i j : Nat) (r : Py Ret), rs[i]? = some (j, r) → Passes r ∧ CallOf (run (fresh ids) ops).classes i j (some r) := by
  have hinv := inv_run ids ops
  obtain ⟨rs, h1, h2, h3⟩ := hinv.calls n _ h
  refine ⟨rs, h3, h2, fun i j r hi => ⟨h1 _ (List.mem_of_getElem? hi), ?_⟩⟩
  refine hinv.ended n i j r ?_
  have : ∀ (rs : List (Nat × Py Ret)) (k i : Nat), rs[i]? = some (j, r) → Ev.ended n (k + i) j r ∈ visits n k rs := by
    intro rs
    induction rs with
    | nil => intro k i hi; simp at hi
    | cons p rs ih =>
      intro k i hi
      cases i with
      | zero => simp at hi; subst hi; simp [visits]
      | succ i =>
        simp only [List.getElem?_cons_succ] at hi
        have := ih (k + 1) i hi
        rw [show k + 1 + i = k + (i + 1) by omega] at this
        simp only [visits]
        exact List.mem_cons_of_mem _ (List.mem_cons_of_mem _ this)
  have hm := this rs 0 i hi
  rw [← h2, Nat.zero_add] at hm
  exact (List.mem_filter.mp hm).1

/-- **C99.** If it raises, then it raises what the interview of a class raised, which was no timeout; the classes before that one have been interviewed and those after it have not. -/
theorem C99_raises (ids : List Nat) (ops : List Op) (n : Nat) (e : PyErr) (h : (run (fresh ids) ops).calls[n]? = some (.done (.error e))) :
    e ≠ .timeout ∧ ∃ (rs : List (Nat × Py Ret)) (i j : Nat), (∀ p ∈ rs, Passes p.2) ∧ i = rs.length ∧ i < ids.length ∧
      mine n (run (fresh ids) ops).trace = visits n 0 rs ++ [.began n i j, .ended n i j (.error e)] ∧ CallOf (run (fresh ids) ops).classes i j (some (.error e)) := by
  have hinv := inv_run ids ops
  obtain ⟨rs, i, j, h1, h2, h3, h4, h5⟩ := hinv.calls n _ h
  refine ⟨h5, rs, i, j, h1, h3, h4, h2, hinv.ended n i j _ ?_⟩
  have hm : Ev.ended n i j (.error e) ∈ mine n (run (fresh ids) ops).trace := by rw [h2]; simp
  exact (List.mem_filter.mp hm).1

/-- **C99.** At any time in between: it is at one class, the classes before it have been interviewed and those after it have not. -/
theorem C99_running (ids : List Nat) (ops : List Op) (n i j : Nat) (h : (run (fresh ids) ops).calls[n]? = some (.running i j)) :
    i < ids.length ∧ CallOf (run (fresh ids) ops).classes i j none ∧ ∃ rs : List (Nat × Py Ret), (∀ p ∈ rs, Passes p.2) ∧ i = rs.length ∧
      mine n (run (fresh ids) ops).trace = visits n 0 rs ++ [.began n i j] := by
  have hinv := inv_run ids ops
  obtain ⟨rs, h1, h2, h3, h4⟩ := hinv.calls n _ h
  exact ⟨h4, hinv.cur n i j h, rs, h1, h3, h2⟩

/-- **C99.** What it begins is a new call of interview() of the class, whatever calls there were before. -/
theorem C99_begins (s : State) (o : Op) (n i j : Nat) (h : Ev.began n i j ∈ (step s o).trace) (hno : Ev.began n i j ∉ s.trace) :
    ∃ c, s.classes[i]? = some c ∧ j = c.calls.length ∧ (step s o).classes[i]? = some (Interview.step c .interview) := by
  cases o with
  | interview => exact begin_new _ _ _ h hno
  | enter => exact absurd h hno
  | leave => exact absurd h hno
  | cls k o =>
    simp only [step] at h
    split at h
    · exact absurd h hno
    · split at h <;> exact absurd h hno
  | resume k =>
    simp only [step] at h ⊢
    split at h
    · split at h
      · exact absurd h hno
      · split at h
        · exact absurd h hno
        · have hno' : ∀ x y (r : Py Ret), Ev.began n i j ∉ s.trace ++ [.ended k x y r] := by
            intro x y r hm
            simp only [List.mem_append, List.mem_singleton, reduceCtorEq, or_false] at hm
            exact hno hm
          split at h
          · exact begin_new _ _ _ h (hno' _ _ _)
          · exact begin_new _ _ _ h (hno' _ _ _)
          · exact absurd h (hno' _ _ _)
    · exact absurd h hno

/-- **C99.** It does not hang: when the interview of the class it is at has ended, it goes on with the next class, ends or raises. -/
theorem C99_continues (s : State) (n i j : Nat) (c : Interview.State) (r : Py Ret) (h : s.calls[n]? = some (.running i j)) (hc : s.classes[i]? = some c)
    (hr : result c j = some r) :
    (∃ j', (step s (.resume n)).calls[n]? = some (.running (i + 1) j')) ∨ (s.classes.length ≤ i + 1 ∧ (step s (.resume n)).calls[n]? = some (.done (.ok ()))) ∨
    ∃ e, r = .error e ∧ e ≠ .timeout ∧ (step s (.resume n)).calls[n]? = some (.done (.error e)) := by
  have hlt := (List.getElem?_eq_some_iff.mp h).1
  have hb : ∀ s' : State, s'.calls = s.calls → s'.classes = s.classes →
      (∃ j', (begin s' n (i + 1)).calls[n]? = some (.running (i + 1) j')) ∨ (s.classes.length ≤ i + 1 ∧ (begin s' n (i + 1)).calls[n]? = some (.done (.ok ()))) := by
    intro s' e1 e2
    unfold begin
    rw [e2]
    split
    · rename_i hno
      right
      exact ⟨List.getElem?_eq_none_iff.mp hno, by dsimp only; rw [e1]; exact List.getElem?_set_self hlt⟩
    · left
      exact ⟨_, by dsimp only; rw [e1]; exact List.getElem?_set_self hlt⟩
  simp only [step, h, hc, hr]
  split
  · rcases hb { s with trace := s.trace ++ [.ended n i j (.ok _)] } rfl rfl with h | h
    · exact .inl h
    · exact .inr (.inl h)
  · rcases hb { s with trace := s.trace ++ [.ended n i j (.error .timeout)] } rfl rfl with h | h
    · exact .inl h
    · exact .inr (.inl h)
  · rename_i e hne
    exact .inr (.inr ⟨e, rfl, fun he => hne (by rw [he]), List.getElem?_set_self hlt⟩)

/-- **C99.** With the storage lock, whatever is interviewed while it is held: listeners are not told before it is left, and then exactly once if a class was updated and not
at all otherwise. -/
theorem C99_lock (s : State) (ops : List Op) (ho : ∀ o ∈ ops, o ≠ .enter ∧ o ≠ .leave) :
    let s1 := run (step s .enter) ops
    s1.updates = s.updates ∧ (Updated s.classes s1.classes → (step s1 .leave).updates = s.updates + 1) ∧
      (¬ Updated s.classes s1.classes → (step s1 .leave).updates = s.updates) := by
  intro s1
  obtain ⟨b, ⟨-, -, g⟩, g2, g3⟩ := locked_run (cs := s.classes) (b := False) (s := step s .enter) ops ho (grown_refl _) (.inl ⟨rfl, id⟩)
  have hu : s1.updates = s.updates := g3.trans (by simp [step, State.store, Node.storageStep])
  refine ⟨hu, fun h => ?_, fun h => ?_⟩
  · have hd : s1.storage = .lockedDirty := by
      rcases g2 with ⟨-, hb⟩ | ⟨h, -⟩
      · exact absurd (g.mp h) hb
      · exact h
    simp [step, State.store, hd, Node.storageStep, hu]
  · have hd : s1.storage = .lockedClean := by
      rcases g2 with ⟨h, -⟩ | ⟨-, hb⟩
      · exact h
      · exact absurd (g.mpr hb) h
    simp [step, State.store, hd, Node.storageStep, hu]

/-- A node with three classes: one is interviewed, the second does not tell its version, the third one times out. Two classes are updated, listeners are told once. -/
def example99 : List Op :=
  [.enter, .interview, .cls 0 (.versionAnswer 0 (.ok 2)), .cls 0 (.bodyEnds 0 (.ok (.bool true))), .resume 0, .cls 1 (.versionAnswer 0 (.error .timeout)), .resume 0,
   .cls 2 (.versionAnswer 0 (.ok 1)), .cls 2 (.bodyEnds 0 (.error .timeout)), .resume 0, .leave]

example : let s := run (fresh [0x25, 0x31, 0x70]) example99
    s.calls = [.done (.ok ())] ∧ s.updates = 1 ∧ s.classes.map (·.interviewed) = [true, false, false] ∧
    s.trace = visits 0 0 [(0, .ok (.bool true)), (0, .ok .none), (0, .ok (.bool false))] := by decide +kernel

/-- The interview of the first class raises. -/
example : let s := run (fresh [0x25, 0x31]) [.interview, .cls 0 (.versionAnswer 0 (.ok 2)), .cls 0 (.bodyEnds 0 (.error .value)), .resume 0]
    s.calls = [.done (.error .value)] ∧ s.trace = [.began 0 0 0, .ended 0 0 0 (.error .value)] := by decide +kernel

end Props.NodeInterview
