import Verif.Spec.NodeInterview
import Verif.Lemmas.Conn
/-! Helper lemmas about interviews of nodes. -/
namespace Model.NodeInterview
open Model.Listen

theorem run_append (s : State) (a b : List Op) : run s (a ++ b) = run (run s a) b := by simp [run]
theorem run_snoc (s : State) (a : List Op) (o : Op) : run s (a ++ [o]) = step (run s a) o := by simp [run]

theorem mine_append (n : Nat) (a b : List Ev) : mine n (a ++ b) = mine n a ++ mine n b := by simp [mine]

theorem visits_snoc (n i j : Nat) (r : Py Ret) (rs : List (Nat × Py Ret)) :
    visits n i (rs ++ [(j, r)]) = visits n i rs ++ [.began n (i + rs.length) j, .ended n (i + rs.length) j r] := by
  induction rs generalizing i with
  | nil => rfl
  | cons p rs ih =>
    obtain ⟨j', r'⟩ := p
    simp only [List.cons_append, visits, ih, List.length_cons]
    rw [show i + 1 + rs.length = i + (rs.length + 1) by omega]

theorem step_only (c : Interview.State) (o : Interview.Op) (j : Nat) (x : Interview.Call) (h : c.calls[j]? = some x) :
    ∃ y, (Interview.step c o).calls[j]? = some y ∧ y.only = x.only ∧ (∀ how r, x.pc = .done how r → y = x) := by
  have hlt : j < c.calls.length := (List.getElem?_eq_some_iff.mp h).1
  have keep : ∀ l, (c.calls ++ l)[j]? = some x := fun l => by rw [List.getElem?_append_left hlt]; exact h
  have set : ∀ i y z, c.calls[i]? = some z → y.only = z.only → (∀ how r, z.pc ≠ .done how r) →
      ∃ y', (c.calls.set i y)[j]? = some y' ∧ y'.only = x.only ∧ (∀ how r, x.pc = .done how r → y' = x) := by
    intro i y z hz hy hp
    by_cases e : i = j
    · subst e
      rw [h] at hz; cases hz
      exact ⟨y, List.getElem?_set_self hlt, hy, fun how r hd => absurd hd (hp how r)⟩
    · exact ⟨x, by rw [List.getElem?_set_ne e]; exact h, rfl, fun _ _ _ => rfl⟩
  cases o with
  | interview =>
    simp only [Interview.step]
    split
    · split <;> exact ⟨x, keep _, rfl, fun _ _ _ => rfl⟩
    · exact ⟨x, keep _, rfl, fun _ _ _ => rfl⟩
  | requestVersion =>
    simp only [Interview.step]
    split <;> exact ⟨x, keep _, rfl, fun _ _ _ => rfl⟩
  | versionAnswer i r =>
    simp only [Interview.step]
    split
    · exact ⟨x, h, rfl, fun _ _ _ => rfl⟩
    · rename_i z hz
      split
      · rename_i hp
        have hp' : ∀ how r, z.pc ≠ .done how r := by intro how r e; rw [hp] at e; cases e
        split
        · exact set i _ z hz rfl hp'
        · exact set i _ z hz rfl hp'
        · split
          · exact set i _ z hz rfl hp'
          · split <;> exact set i _ z hz rfl hp'
      · exact ⟨x, h, rfl, fun _ _ _ => rfl⟩
  | bodyEnds i r =>
    simp only [Interview.step]
    split
    · exact ⟨x, h, rfl, fun _ _ _ => rfl⟩
    · rename_i z hz
      split
      · rename_i hp
        have hp' : ∀ how r, z.pc ≠ .done how r := by intro how r e; rw [hp] at e; cases e
        split <;> exact set i _ z hz rfl hp'
      · exact ⟨x, h, rfl, fun _ _ _ => rfl⟩
  | load v b => exact ⟨x, h, rfl, fun _ _ _ => rfl⟩

/-- A new call of interview() of a class. -/
theorem interview_new (c : Interview.State) : ∃ pc, (Interview.step c .interview).calls = c.calls ++ [⟨false, pc⟩] := by
  simp only [Interview.step]
  split
  · split <;> exact ⟨_, rfl⟩
  · exact ⟨_, rfl⟩

theorem CallOf.set {cs : List Interview.State} {i j i' : Nat} {r : Option (Py Ret)} {c : Interview.State} (h : CallOf cs i j r) (hc : cs[i']? = some c) (o : Interview.Op) :
    CallOf (cs.set i' (Interview.step c o)) i j r := by
  obtain ⟨d, x, h1, h2, h3, h4⟩ := h
  by_cases e : i' = i
  · subst e
    rw [hc] at h1; cases h1
    obtain ⟨y, hy, ho, hd⟩ := step_only c o j x h2
    refine ⟨_, y, List.getElem?_set_self (List.getElem?_eq_some_iff.mp hc).1, hy, ho.trans h3, fun r' hr => ?_⟩
    obtain ⟨how, hp⟩ := h4 r' hr
    rw [hd how r' hp]
    exact ⟨how, hp⟩
  · exact ⟨d, x, by rw [List.getElem?_set_ne e]; exact h1, h2, h3, h4⟩

/-- The progress of call `n`, as seen in its part of the trace. `m` is the number of classes. -/
def Progress (m n : Nat) (evs : List Ev) : Pc → Prop
  | .running i j => ∃ rs, (∀ p ∈ rs, Passes p.2) ∧ evs = visits n 0 rs ++ [.began n i j] ∧ i = rs.length ∧ i < m
  | .done (.ok ()) => ∃ rs, (∀ p ∈ rs, Passes p.2) ∧ evs = visits n 0 rs ∧ rs.length = m
  | .done (.error e) => ∃ rs i j, (∀ p ∈ rs, Passes p.2) ∧ evs = visits n 0 rs ++ [.began n i j, .ended n i j (.error e)] ∧ i = rs.length ∧ i < m ∧ e ≠ .timeout

structure Inv (m : Nat) (s : State) : Prop where
  size : s.classes.length = m
  calls : ∀ (n : Nat) (pc : Pc), s.calls[n]? = some pc → Progress m n (mine n s.trace) pc
  none : ∀ n, s.calls.length ≤ n → mine n s.trace = []
  cur : ∀ (n i j : Nat), s.calls[n]? = some (.running i j) → CallOf s.classes i j Option.none
  began : ∀ n i j, Ev.began n i j ∈ s.trace → CallOf s.classes i j Option.none
  ended : ∀ n i j r, Ev.ended n i j r ∈ s.trace → CallOf s.classes i j (some r)

theorem get_set {cs : List Pc} {c : Pc} {m i : Nat} {x : Pc} (h : (cs.set m c)[i]? = some x) : (m ≠ i ∧ cs[i]? = some x) ∨ (m = i ∧ x = c ∧ i < cs.length) := by
  by_cases hi : m = i
  · subst hi
    have := (List.getElem?_eq_some_iff.mp h).1
    rw [List.length_set] at this
    rw [List.getElem?_set_self this] at h
    exact .inr ⟨rfl, (Option.some.inj h).symm, this⟩
  · rw [List.getElem?_set_ne hi] at h; exact .inl ⟨hi, h⟩

/-- What holds of the other calls when call `n` is about to begin with class `i`. -/
structure Pre (m : Nat) (s : State) (n i : Nat) : Prop where
  size : s.classes.length = m
  lt : n < s.calls.length
  calls : ∀ (k : Nat) (pc : Pc), k ≠ n → s.calls[k]? = some pc → Progress m k (mine k s.trace) pc
  none : ∀ k, s.calls.length ≤ k → mine k s.trace = []
  cur : ∀ (k i j : Nat), k ≠ n → s.calls[k]? = some (.running i j) → CallOf s.classes i j Option.none
  began : ∀ n i j, Ev.began n i j ∈ s.trace → CallOf s.classes i j Option.none
  ended : ∀ n i j r, Ev.ended n i j r ∈ s.trace → CallOf s.classes i j (some r)
  here : ∃ rs, (∀ p ∈ rs, Passes p.2) ∧ mine n s.trace = visits n 0 rs ∧ i = rs.length ∧ i ≤ m

theorem Pre.begin {m : Nat} {s : State} {n i : Nat} (h : Pre m s n i) : Inv m (begin s n i) := by
  obtain ⟨rs, hr, hm, hi, him⟩ := h.here
  unfold NodeInterview.begin
  split
  · rename_i hc
    have hlen := List.getElem?_eq_none_iff.mp hc
    have hsz := h.size
    refine ⟨h.size, fun k pc hk => ?_, fun k hk => ?_, fun k i' j' hk => ?_, h.began, h.ended⟩
    · rcases get_set hk with ⟨hne, hk⟩ | ⟨rfl, rfl, -⟩
      · exact h.calls k pc (Ne.symm hne) hk
      · exact ⟨rs, hr, hm, by omega⟩
    · exact h.none k (by simpa using hk)
    · rcases get_set hk with ⟨hne, hk⟩ | ⟨-, e, -⟩
      · exact h.cur k i' j' (Ne.symm hne) hk
      · cases e
  · rename_i c hc
    have hlt := (List.getElem?_eq_some_iff.mp hc).1
    have hsz := h.size
    obtain ⟨pc, hnew⟩ := interview_new c
    have hcall : CallOf (s.classes.set i (Interview.step c .interview)) i c.calls.length Option.none :=
      ⟨_, _, List.getElem?_set_self hlt, by rw [hnew]; exact List.getElem?_concat_length, rfl, fun r hr => by cases hr⟩
    have hm1 : mine n [Ev.began n i c.calls.length] = [Ev.began n i c.calls.length] := by simp [mine]
    have hm2 : ∀ k, k ≠ n → mine k [Ev.began n i c.calls.length] = [] := fun k hk => by simp [mine, Ne.symm hk]
    refine ⟨by simp [hsz], fun k pc hk => ?_, fun k hk => ?_, fun k i' j' hk => ?_, fun n' i' j' hm' => ?_, fun n' i' j' r' hm' => ?_⟩
    · dsimp only at hk ⊢
      rw [mine_append]
      rcases get_set hk with ⟨hne, hk⟩ | ⟨rfl, rfl, -⟩
      · rw [hm2 k (Ne.symm hne), List.append_nil]
        exact h.calls k pc (Ne.symm hne) hk
      · exact ⟨rs, hr, by rw [hm1, hm], hi, by omega⟩
    · dsimp only at hk ⊢
      rw [List.length_set] at hk
      rw [mine_append, h.none k hk, hm2 k (by have := h.lt; omega)]; rfl
    · dsimp only at hk ⊢
      rcases get_set hk with ⟨hne, hk⟩ | ⟨-, e, -⟩
      · exact (h.cur k i' j' (Ne.symm hne) hk).set hc _
      · cases e; exact hcall
    · dsimp only at hm' ⊢
      rcases List.mem_append.mp hm' with hm' | hm'
      · exact (h.began n' i' j' hm').set hc _
      · simp at hm'
        obtain ⟨-, rfl, rfl⟩ := hm'
        exact hcall
    · dsimp only at hm' ⊢
      rcases List.mem_append.mp hm' with hm' | hm'
      · exact (h.ended n' i' j' r' hm').set hc _
      · simp at hm'

theorem Inv.of_eq {m : Nat} {s s' : State} (h : Inv m s) (h1 : s'.classes = s.classes) (h2 : s'.calls = s.calls) (h3 : s'.trace = s.trace) : Inv m s' := by
  obtain ⟨a, b, c, d, e, f⟩ := h
  exact ⟨by rw [h1]; exact a, by rw [h2, h3]; exact b, by rw [h2, h3]; exact c, by rw [h1, h2]; exact d, by rw [h1, h3]; exact e, by rw [h1, h3]; exact f⟩

theorem Inv.step {m : Nat} {s : State} (h : Inv m s) (o : Op) : Inv m (step s o) := by
  cases o with
  | enter => exact h.of_eq rfl rfl rfl
  | leave => exact h.of_eq rfl rfl rfl
  | cls i o =>
    simp only [NodeInterview.step]
    split
    · exact h
    · rename_i c hc
      have h' : Inv m { s with classes := s.classes.set i (Interview.step c o) } :=
        ⟨by simp [h.size], h.calls, h.none, fun n i' j' hk => (h.cur n i' j' hk).set hc o, fun n i' j' hk => (h.began n i' j' hk).set hc o,
          fun n i' j' r hk => (h.ended n i' j' r hk).set hc o⟩
      split
      · exact h'.of_eq rfl rfl rfl
      · exact h'
  | interview =>
    simp only [NodeInterview.step]
    refine Pre.begin ⟨h.size, by simp, fun k pc hk hp => ?_, fun k hk => ?_, fun k i j hk hp => ?_, h.began, h.ended,
      ⟨[], by simp, h.none _ (Nat.le_refl _), rfl, Nat.zero_le _⟩⟩
    · dsimp only at hp
      by_cases hlt : k < s.calls.length
      · rw [List.getElem?_append_left hlt] at hp; exact h.calls k pc hp
      · rw [List.getElem?_append_right (by omega)] at hp
        have := (List.getElem?_eq_some_iff.mp hp).1
        simp at this; omega
    · exact h.none k (by simp at hk; omega)
    · dsimp only at hp
      by_cases hlt : k < s.calls.length
      · rw [List.getElem?_append_left hlt] at hp; exact h.cur k i j hp
      · rw [List.getElem?_append_right (by omega)] at hp
        have := (List.getElem?_eq_some_iff.mp hp).1
        simp at this; omega
  | resume n =>
    simp only [NodeInterview.step]
    split
    · rename_i i j hn
      split
      · exact h
      · rename_i c hc
        split
        · exact h
        · rename_i r hr
          obtain ⟨rs, hp, hm, hi, him⟩ := h.calls n _ hn
          have hlt := (List.getElem?_eq_some_iff.mp hn).1
          obtain ⟨c', x, g1, g2, g3, -⟩ := h.cur n i j hn
          rw [hc] at g1; cases g1
          have hx : ∃ how, x.pc = .done how r := by
            simp only [result, g2] at hr
            split at hr
            · rename_i how r' e; cases hr; exact ⟨how, e⟩
            · cases hr
          have hend : CallOf s.classes i j (some r) := ⟨c, x, hc, g2, g3, fun r' e => by cases e; exact hx⟩
          have hm1 : mine n [Ev.ended n i j r] = [Ev.ended n i j r] := by simp [mine]
          have hm2 : ∀ k, k ≠ n → mine k [Ev.ended n i j r] = [] := fun k hk => by simp [mine, Ne.symm hk]
          have pre : Passes r → Pre m { s with trace := s.trace ++ [.ended n i j r] } n (i + 1) := by
            intro hpass
            refine ⟨h.size, hlt, fun k pc hk hpc => ?_, fun k hk => ?_, fun k i' j' _ hk => h.cur k i' j' hk, fun n' i' j' hm' => ?_, fun n' i' j' r' hm' => ?_,
              ⟨rs ++ [(j, r)], ?_, ?_, by simp [hi], by omega⟩⟩
            · dsimp only; rw [mine_append, hm2 k hk, List.append_nil]; exact h.calls k pc hpc
            · dsimp only at hk ⊢; rw [mine_append, h.none k hk, hm2 k (by omega)]; rfl
            · rcases List.mem_append.mp hm' with hm' | hm'
              · exact h.began n' i' j' hm'
              · simp at hm'
            · rcases List.mem_append.mp hm' with hm' | hm'
              · exact h.ended n' i' j' r' hm'
              · simp at hm'
                obtain ⟨-, rfl, rfl, rfl⟩ := hm'
                exact hend
            · intro p hp'
              rcases List.mem_append.mp hp' with hp' | hp'
              · exact hp p hp'
              · simp at hp'; subst hp'; exact hpass
            · dsimp only
              rw [mine_append, hm, hm1, visits_snoc, ← hi]; simp [hi]
          split
          · exact (pre (.inl ⟨_, rfl⟩)).begin
          · exact (pre (.inr rfl)).begin
          · rename_i e hne
            refine ⟨h.size, fun k pc hk => ?_, fun k hk => ?_, fun k i' j' hk => ?_, fun n' i' j' hm' => ?_, fun n' i' j' r' hm' => ?_⟩
            · dsimp only at hk ⊢
              rw [mine_append]
              rcases get_set hk with ⟨hne, hk⟩ | ⟨rfl, rfl, -⟩
              · rw [hm2 k (Ne.symm hne), List.append_nil]
                exact h.calls k pc hk
              · refine ⟨rs, i, j, hp, by rw [hm1, hm]; simp, hi, him, fun he => ?_⟩
                subst he; exact hne rfl
            · dsimp only at hk ⊢
              rw [List.length_set] at hk
              rw [mine_append, h.none k hk, hm2 k (by omega)]; rfl
            · rcases get_set hk with ⟨hne, hk⟩ | ⟨-, e, -⟩
              · exact h.cur k i' j' hk
              · cases e
            · rcases List.mem_append.mp hm' with hm' | hm'
              · exact h.began n' i' j' hm'
              · simp at hm'
            · rcases List.mem_append.mp hm' with hm' | hm'
              · exact h.ended n' i' j' r' hm'
              · simp at hm'
                obtain ⟨-, rfl, rfl, rfl⟩ := hm'
                exact hend
    · exact h

theorem inv_fresh (ids : List Nat) : Inv ids.length (fresh ids) :=
  ⟨by simp [fresh], fun n pc h => by simp [fresh] at h, fun n _ => rfl, fun n i j h => by simp [fresh] at h, fun n i j h => by simp [fresh] at h,
    fun n i j r h => by simp [fresh] at h⟩

theorem inv_run (ids : List Nat) (ops : List Op) : Inv ids.length (run (fresh ids) ops) := by
  induction ops using Conn.snoc_ind with
  | nil => exact inv_fresh ids
  | snoc ops o ih => rw [run_snoc]; exact ih.step o

theorem begin_new (s : State) (n k : Nat) {m i j : Nat} (h : Ev.began m i j ∈ (begin s n k).trace) (hno : Ev.began m i j ∉ s.trace) :
    ∃ c, s.classes[i]? = some c ∧ j = c.calls.length ∧ (begin s n k).classes[i]? = some (Interview.step c .interview) := by
  unfold begin at h ⊢
  split at h
  · exact absurd h hno
  · rename_i c hc
    have hlt := (List.getElem?_eq_some_iff.mp hc).1
    simp only [List.mem_append, List.mem_singleton, Ev.began.injEq] at h
    rcases h with h | ⟨rfl, rfl, rfl⟩
    · exact absurd h hno
    · simp only [hc]
      exact ⟨c, rfl, rfl, List.getElem?_set_self hlt⟩

theorem told_step (c : Interview.State) (o : Interview.Op) : c.told ≤ (Interview.step c o).told := by
  cases o with
  | interview => simp only [Interview.step]; split <;> (try split) <;> exact Nat.le_refl _
  | requestVersion => simp only [Interview.step]; split <;> exact Nat.le_refl _
  | load v b => exact Nat.le_refl _
  | versionAnswer i r =>
    simp only [Interview.step]
    split
    · exact Nat.le_refl _
    · split
      · split
        · exact Nat.le_refl _
        · exact Nat.le_refl _
        · split
          · exact Nat.le_succ _
          · split <;> exact Nat.le_succ _
      · exact Nat.le_refl _
  | bodyEnds i r =>
    simp only [Interview.step]
    split
    · exact Nat.le_refl _
    · split
      · split
        · exact Nat.le_refl _
        · exact Nat.le_refl _
        · exact Nat.le_succ _
      · exact Nat.le_refl _

theorem told_interview (c : Interview.State) : (Interview.step c .interview).told = c.told := by
  simp only [Interview.step]; split <;> (try split) <;> rfl

/-- Notifications of the classes since `cs`: none of them has fewer, and `b` says whether one has more. -/
def Grown (cs cs' : List Interview.State) (b : Prop) : Prop :=
  (∀ (i : Nat) (c : Interview.State), cs[i]? = some c → ∃ c', cs'[i]? = some c' ∧ c.told ≤ c'.told) ∧ cs'.length = cs.length ∧ (Updated cs cs' ↔ b)

theorem grown_refl (cs : List Interview.State) : Grown cs cs False :=
  ⟨fun i c h => ⟨c, h, Nat.le_refl _⟩, rfl, ⟨fun ⟨i, c, c', h1, h2, h3⟩ => by rw [h1] at h2; cases h2; omega, False.elim⟩⟩

theorem Grown.set {cs cs' : List Interview.State} {b : Prop} (h : Grown cs cs' b) {i : Nat} {c x : Interview.State} (hc : cs'[i]? = some c) (hx : c.told ≤ x.told) :
    Grown cs (cs'.set i x) (b ∨ c.told < x.told) := by
  have hlt := (List.getElem?_eq_some_iff.mp hc).1
  obtain ⟨h1, h2, h3⟩ := h
  refine ⟨fun k d hd => ?_, by simpa using h2, ?_⟩
  · obtain ⟨d', e1, e2⟩ := h1 k d hd
    by_cases hk : i = k
    · subst hk
      rw [hc] at e1; cases e1
      exact ⟨x, List.getElem?_set_self hlt, by omega⟩
    · exact ⟨d', by rw [List.getElem?_set_ne hk]; exact e1, e2⟩
  · rw [← h3]
    constructor
    · rintro ⟨k, d, d', e1, e2, e3⟩
      by_cases hk : i = k
      · subst hk
        rw [List.getElem?_set_self hlt] at e2; cases e2
        by_cases hlt' : d.told < c.told
        · exact .inl ⟨_, d, c, e1, hc, hlt'⟩
        · exact .inr (by omega)
      · rw [List.getElem?_set_ne hk] at e2
        exact .inl ⟨k, d, d', e1, e2, e3⟩
    · rintro (⟨k, d, d', e1, e2, e3⟩ | hg)
      · by_cases hk : i = k
        · subst hk
          rw [hc] at e2; cases e2
          exact ⟨_, d, x, e1, List.getElem?_set_self hlt, by omega⟩
        · exact ⟨k, d, d', e1, by rw [List.getElem?_set_ne hk]; exact e2, e3⟩
      · have hl : i < cs.length := by rw [← h2]; exact hlt
        obtain ⟨d', e1, e2⟩ := h1 i cs[i] (List.getElem?_eq_getElem hl)
        rw [hc] at e1; cases e1
        exact ⟨i, _, x, List.getElem?_eq_getElem hl, List.getElem?_set_self hlt, by omega⟩

theorem begin_grown {cs : List Interview.State} {b : Prop} (s : State) (n i : Nat) (h : Grown cs s.classes b) :
    Grown cs (begin s n i).classes b ∧ (begin s n i).storage = s.storage ∧ (begin s n i).updates = s.updates := by
  unfold begin
  split
  · exact ⟨h, rfl, rfl⟩
  · rename_i c hc
    have := h.set hc (x := Interview.step c .interview) (by rw [told_interview]; exact Nat.le_refl _)
    rw [told_interview] at this
    simp only [Nat.lt_irrefl, or_false] at this
    exact ⟨this, rfl, rfl⟩

/-- While the lock is held nothing is told, and the status says whether a class was updated. -/
theorem locked_step {cs : List Interview.State} {b : Prop} {s : State} (o : Op) (ho : o ≠ .enter ∧ o ≠ .leave) (h : Grown cs s.classes b)
    (hs : (s.storage = .lockedClean ∧ ¬ b) ∨ (s.storage = .lockedDirty ∧ b)) :
    ∃ b', Grown cs (step s o).classes b' ∧ ((step s o).storage = .lockedClean ∧ ¬ b' ∨ (step s o).storage = .lockedDirty ∧ b') ∧ (step s o).updates = s.updates := by
  cases o with
  | enter => exact absurd rfl ho.1
  | leave => exact absurd rfl ho.2
  | interview =>
    obtain ⟨h1, h2, h3⟩ := begin_grown { s with calls := s.calls ++ [.done (.ok ())] } s.calls.length 0 h
    exact ⟨b, h1, by rw [step, h2]; exact hs, h3⟩
  | resume n =>
    simp only [step]
    split
    · split
      · exact ⟨b, h, hs, rfl⟩
      · split
        · exact ⟨b, h, hs, rfl⟩
        · have hb : ∀ (t : List Ev) (i : Nat), ∃ b', Grown cs (begin { s with trace := t } n i).classes b' ∧
              ((begin { s with trace := t } n i).storage = .lockedClean ∧ ¬ b' ∨ (begin { s with trace := t } n i).storage = .lockedDirty ∧ b') ∧
              (begin { s with trace := t } n i).updates = s.updates := by
            intro t i
            obtain ⟨h1, h2, h3⟩ := begin_grown { s with trace := t } n i h
            exact ⟨b, h1, by rw [h2]; exact hs, h3⟩
          split
          · exact hb _ _
          · exact hb _ _
          · exact ⟨b, h, hs, rfl⟩
    · exact ⟨b, h, hs, rfl⟩
  | cls i o =>
    simp only [step]
    split
    · exact ⟨b, h, hs, rfl⟩
    · rename_i c hc
      have hg := h.set hc (told_step c o)
      split
      · rename_i hlt
        refine ⟨_, hg, ?_, ?_⟩
        · right
          refine ⟨?_, .inr hlt⟩
          rcases hs with ⟨e, -⟩ | ⟨e, -⟩ <;> simp [State.store, e, Node.storageStep]
        · rcases hs with ⟨e, -⟩ | ⟨e, -⟩ <;> simp [State.store, e, Node.storageStep]
      · rename_i hlt
        refine ⟨_, hg, ?_, rfl⟩
        rcases hs with ⟨e, hb⟩ | ⟨e, hb⟩
        · exact .inl ⟨e, fun h => h.elim hb hlt⟩
        · exact .inr ⟨e, .inl hb⟩

theorem locked_run {cs : List Interview.State} (ops : List Op) : ∀ {b : Prop} {s : State}, (∀ o ∈ ops, o ≠ .enter ∧ o ≠ .leave) → Grown cs s.classes b →
    ((s.storage = .lockedClean ∧ ¬ b) ∨ (s.storage = .lockedDirty ∧ b)) →
    ∃ b', Grown cs (run s ops).classes b' ∧ ((run s ops).storage = .lockedClean ∧ ¬ b' ∨ (run s ops).storage = .lockedDirty ∧ b') ∧ (run s ops).updates = s.updates := by
  induction ops with
  | nil => intro b s _ h hs; exact ⟨b, h, hs, rfl⟩
  | cons o ops ih =>
    intro b s ho h hs
    obtain ⟨b', h1, h2, h3⟩ := locked_step o (ho o List.mem_cons_self) h hs
    obtain ⟨b'', g1, g2, g3⟩ := ih (fun x hx => ho x (List.mem_cons_of_mem _ hx)) h1 h2
    exact ⟨b'', g1, g2, g3.trans h3⟩

end Model.NodeInterview
