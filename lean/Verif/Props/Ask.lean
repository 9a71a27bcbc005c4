import Verif.Lemmas.Conn
import Verif.Spec.Ask
/-!
# Property theorems C147: asking listeners
-/
namespace Props.Ask
open Model Model.Listen Model.Ask

theorem run_snoc (s : State) (a : List Op) (o : Op) : run s (a ++ [o]) = step (run s a) o := by simp [run]

/-- The number of the listener of a future. -/
def idx : Fut → Nat
  | .ready i _ => i
  | .task i _ => i

private def key : Fut → Nat × Option Ret
  | .ready i v => (i, some v)
  | .task i _ => (i, none)

private def Ph (n : Nat) (t : List Ev) (futs : List Fut) : Phase → Prop
  | .speaking _ => ∀ i r, Fut.task i (some r) ∉ futs
  | .waiting => (∀ i e, Fut.task i (some (.error e)) ∉ futs) ∧ values futs = none
  | .done (.ok rs) => values futs = some rs
  | .done (.error e) => FirstError n t e

private structure CallInv (n : Nat) (m : List Nat) (t : List Ev) (c : Call) : Prop where
  told : ∃ p, p ≤ m.length ∧ toldBy n t = m.take p ∧ (∀ f ∈ c.futs, idx f < p) ∧ ∀ i, c.phase = .speaking i → i = p
  asked : asked n t = c.futs.map key
  ended : ∀ i r, Ev.ended n i r ∈ t ↔ Fut.task i (some r) ∈ c.futs
  nodup : (c.futs.map idx).Nodup
  phase : Ph n t c.futs c.phase

private def evOf : Ev → Nat
  | .told n _ _ _ => n
  | .ended n _ _ => n

private theorem toldBy_snoc (n : Nat) (t : List Ev) (m i l : Nat) (k : Kind) : toldBy n (t ++ [.told m i l k]) = toldBy n t ++ if m = n then [l] else [] := by
  simp only [toldBy, List.filterMap_append, List.filterMap_cons, List.filterMap_nil]
  split <;> rename_i h <;> split at h <;> simp_all

private theorem toldBy_ended (n : Nat) (t : List Ev) (m i : Nat) (r : Py Ret) : toldBy n (t ++ [.ended m i r]) = toldBy n t := by
  simp [toldBy]

private theorem asked_ended (n : Nat) (t : List Ev) (m i : Nat) (r : Py Ret) : asked n (t ++ [.ended m i r]) = asked n t := by
  simp [Ask.asked]

private theorem asked_snoc (n : Nat) (t : List Ev) (m i l : Nat) (k : Kind) : asked n (t ++ [.told m i l k]) = asked n t ++ if m = n then (newFut i k).map key else [] := by
  rcases k with _ | r | _
  · simp [Ask.asked, newFut]
  · rcases r with e | v
    · simp [Ask.asked, newFut]
    · by_cases h : m = n <;> simp [Ask.asked, newFut, h, key]
  · by_cases h : m = n <;> simp [Ask.asked, newFut, h, key]

private theorem first_mono {n : Nat} {t : List Ev} {e : PyErr} (h : FirstError n t e) (l : List Ev) : FirstError n (t ++ l) e := by
  obtain ⟨t1, t2, i, rfl, h⟩ := h
  exact ⟨t1, t2 ++ l, i, by simp, h⟩

private theorem ph_mono {n : Nat} {t : List Ev} {fs : List Fut} {p : Phase} (h : Ph n t fs p) (l : List Ev) : Ph n (t ++ l) fs p := by
  rcases p with _ | _ | (e | rs)
  · exact h
  · exact h
  · exact first_mono h l
  · exact h

/-- What happens to another call. -/
private theorem other {n : Nat} {m m' : List Nat} {t : List Ev} {c : Call} (h : CallInv n m t c) (hm : ∃ x, m' = m ++ x) {l : List Ev} (hl : ∀ e ∈ l, evOf e ≠ n) (hl1 : l.length ≤ 1) :
    CallInv n m' (t ++ l) c := by
  obtain ⟨⟨p, a, b, d, e⟩, h2, h3, h4, h5⟩ := h
  obtain ⟨x0, rfl⟩ := hm
  have a' : p ≤ (m ++ x0).length := by rw [List.length_append]; omega
  have b' : toldBy n t = (m ++ x0).take p := by rw [b, List.take_append_of_le_length a]
  rcases l with _ | ⟨x, _ | ⟨y, l⟩⟩
  · rw [List.append_nil]; exact ⟨⟨p, a', b', d, e⟩, h2, h3, h4, h5⟩
  · have hx := hl x (by simp)
    cases x with
    | told k i ll kd =>
      have hk : k ≠ n := hx
      refine ⟨⟨p, a', ?_, d, e⟩, ?_, fun i r => ?_, h4, ph_mono h5 _⟩
      · rw [toldBy_snoc, if_neg hk, List.append_nil, b']
      · rw [asked_snoc, if_neg hk, List.append_nil, h2]
      · rw [← h3]; simp
    | ended k i r =>
      have hk : k ≠ n := hx
      refine ⟨⟨p, a', ?_, d, e⟩, ?_, fun i' r' => ?_, h4, ph_mono h5 _⟩
      · rw [toldBy_ended, b']
      · rw [asked_ended, h2]
      · rw [← h3]; simp [Ne.symm hk]
  · simp at hl1

private structure Inv (s : State) : Prop where
  calls : ∀ n c, s.calls[n]? = some c → CallInv n s.listeners s.trace c
  none : ∀ e ∈ s.trace, evOf e < s.calls.length

private theorem filterMap_nil {α β : Type} {f : α → Option β} {l : List α} (h : ∀ x ∈ l, f x = none) : l.filterMap f = [] := by
  rw [List.filterMap_eq_nil_iff]; exact h

private theorem inv_set {s : State} (h : Inv s) {n : Nat} {c c' : Call} (hc : s.calls[n]? = some c) {l : List Ev} (hl : ∀ e ∈ l, evOf e = n) (hl1 : l.length ≤ 1)
    (h' : CallInv n s.listeners (s.trace ++ l) c') : Inv { s with calls := s.calls.set n c', trace := s.trace ++ l } := by
  have hlt := (List.getElem?_eq_some_iff.mp hc).1
  refine ⟨fun k d hd => ?_, fun e he => ?_⟩
  · by_cases e : n = k
    · subst e
      rw [List.getElem?_set_self hlt] at hd
      cases hd
      exact h'
    · rw [List.getElem?_set_ne e] at hd
      exact other (h.calls k d hd) ⟨[], by simp⟩ (fun x hx => by rw [hl x hx]; exact e) hl1
  · rw [List.length_set]
    rcases List.mem_append.mp he with he | he
    · exact h.none e he
    · rw [hl e he]; exact hlt

private theorem settle_ph {n : Nat} {t : List Ev} {fs : List Fut} (h : ∀ i e, Fut.task i (some (.error e)) ∉ fs) : Ph n t fs (settle fs) := by
  unfold settle
  split
  · rename_i rs hv; exact hv
  · rename_i hv; exact ⟨h, hv⟩

private theorem idx_newFut {i : Nat} {k : Kind} {f : Fut} (h : f ∈ newFut i k) : idx f = i := by
  rcases k with _ | (e | v) | _ <;> simp [newFut] at h <;> subst h <;> rfl

private theorem newFut_nodup (i : Nat) (k : Kind) : ((newFut i k).map idx).Nodup := by
  rcases k with _ | (e | v) | _ <;> simp [newFut]

private theorem inv_step {s : State} (h : Inv s) (o : Op) : Inv (step s o) := by
  cases o with
  | add l =>
    refine ⟨fun n c hc => ?_, h.none⟩
    have := other (h.calls n c hc) (m' := s.listeners ++ [l]) ⟨[l], rfl⟩ (l := []) (by simp) (by simp)
    rw [List.append_nil] at this
    exact this
  | ask =>
    refine ⟨fun n c hc => ?_, fun e he => Nat.lt_of_lt_of_le (h.none e he) (by simp [step])⟩
    simp only [step] at hc ⊢
    rcases Nat.lt_or_ge n s.calls.length with hl | hl
    · rw [List.getElem?_append_left hl] at hc
      exact h.calls n c hc
    · rw [List.getElem?_append_right hl] at hc
      have hc := List.mem_singleton.mp (List.mem_of_getElem? hc)
      subst hc
      have hno : ∀ e ∈ s.trace, evOf e ≠ n := fun e he => Nat.ne_of_lt (Nat.lt_of_lt_of_le (h.none e he) hl)
      refine ⟨⟨0, Nat.zero_le _, ?_, by simp, fun i hi => by injection hi with hi; exact hi.symm⟩, ?_, fun i r => ?_, by simp, by simp [Ph]⟩
      · refine filterMap_nil fun x hx => ?_
        have := hno x hx
        cases x with
        | told m i l k => exact if_neg this
        | ended m i r => rfl
      · refine filterMap_nil fun x hx => ?_
        have := hno x hx
        cases x with
        | told m i l k =>
          rcases k with _ | (e | v) | _
          · rfl
          · rfl
          · exact if_neg this
          · exact if_neg this
        | ended m i r => rfl
      · simp only [List.not_mem_nil, iff_false]
        intro hm
        exact hno _ hm rfl
  | next n k =>
    simp only [step]
    split
    · exact h
    · rename_i c hc
      obtain ⟨⟨p, a, b, d, e⟩, h2, h3, h4, h5⟩ := h.calls n c hc
      split
      · rename_i i hp
        have hi := e i hp
        subst hi
        rw [hp] at h5
        split
        · rename_i ll hll
          have hlt : i < s.listeners.length := (List.getElem?_eq_some_iff.mp hll).1
          refine inv_set h hc (l := [.told n i ll k]) (by simp [evOf]) (by simp) ⟨⟨i + 1, hlt, ?_, ?_, ?_⟩, ?_, ?_, ?_, ?_⟩
          · rw [toldBy_snoc, if_pos rfl, b, List.take_add_one, hll]; rfl
          · intro f hf
            rcases List.mem_append.mp hf with hf | hf
            · exact Nat.lt_succ_of_lt (d f hf)
            · rw [idx_newFut hf]; exact Nat.lt_succ_self _
          · intro j hj; injection hj with hj; exact hj.symm
          · rw [asked_snoc, if_pos rfl, h2, List.map_append]
          · intro j r
            have : Fut.task j (some r) ∉ newFut i k := by rcases k with _ | (e | v) | _ <;> simp [newFut]
            simp only [List.mem_append, this, or_false]
            rw [← h3]; simp
          · rw [List.map_append, List.nodup_append]
            refine ⟨h4, newFut_nodup i k, ?_⟩
            intro x hx y hy hxy
            obtain ⟨f, hf, rfl⟩ := List.mem_map.mp hx
            obtain ⟨g, hg, rfl⟩ := List.mem_map.mp hy
            have := d f hf
            rw [hxy, idx_newFut hg] at this
            omega
          · intro j r hm
            rcases List.mem_append.mp hm with hm | hm
            · exact h5 j r hm
            · rcases k with _ | (e | v) | _ <;> simp [newFut] at hm
        · have := inv_set h hc (c' := ⟨settle c.futs, c.futs⟩) (l := []) (by simp) (by simp)
            (by
              rw [List.append_nil]
              refine ⟨⟨i, a, b, d, fun j hj => ?_⟩, h2, h3, h4, settle_ph fun i e => h5 i _⟩
              exfalso; revert hj
              simp only [settle]
              split <;> simp)
          rw [List.append_nil] at this
          exact this
      · exact h
  | ends n i r =>
    simp only [step]
    split
    · exact h
    · rename_i c hc
      obtain ⟨⟨p, a, b, d, e⟩, h2, h3, h4, h5⟩ := h.calls n c hc
      split
      · exact h
      · rename_i hns
        split
        · rename_i hm
          have hidx : (c.futs.map fun f => if f = .task i none then Fut.task i (some r) else f).map idx = c.futs.map idx := by
            rw [List.map_map]
            refine List.map_congr_left fun f _ => ?_
            simp only [Function.comp]
            split
            · rename_i hf; rw [hf]; rfl
            · rfl
          have hk : (c.futs.map fun f => if f = .task i none then Fut.task i (some r) else f).map key = c.futs.map key := by
            rw [List.map_map]
            refine List.map_congr_left fun f _ => ?_
            simp only [Function.comp]
            split
            · rename_i hf; rw [hf]; rfl
            · rfl
          have hmem : ∀ j q, Fut.task j (some q) ∈ (c.futs.map fun f => if f = .task i none then Fut.task i (some r) else f) ↔
              Fut.task j (some q) ∈ c.futs ∨ (j = i ∧ q = r) := by
            intro j q
            rw [List.mem_map]
            constructor
            · rintro ⟨f, hf, he⟩
              split at he
              · injection he with e1 e2; injection e2 with e2; exact .inr ⟨e1.symm, e2.symm⟩
              · exact .inl (he ▸ hf)
            · rintro (hj | ⟨rfl, rfl⟩)
              · exact ⟨_, hj, by simp⟩
              · exact ⟨_, hm, by simp⟩
          refine inv_set h hc (l := [.ended n i r]) (by simp [evOf]) (by simp) ⟨⟨p, a, ?_, ?_, ?_⟩, ?_, ?_, ?_, ?_⟩
          · rw [toldBy_ended, b]
          · intro f hf
            obtain ⟨g, hg, rfl⟩ := List.mem_map.mp hf
            split
            · rename_i hg'; have := d g hg; rw [hg'] at this; exact this
            · exact d g hg
          · intro j hj
            exfalso; revert hj
            dsimp only
            split
            · simp only [settle]; split <;> simp
            · simp
            · intro hj; exact hns j hj
          · rw [asked_ended, h2]; exact hk.symm
          · intro j q
            rw [hmem, ← h3]
            simp
          · dsimp only; rw [hidx]; exact h4
          · dsimp only
            cases hp : c.phase with
            | speaking j => exact absurd hp (hns j)
            | waiting =>
              rw [hp] at h5
              cases r with
              | ok v =>
                refine settle_ph fun j e he => ?_
                rcases (hmem _ _).mp he with he | ⟨-, he⟩
                · exact h5.1 j e he
                · cases he
              | error e' => exact ⟨s.trace, [], i, by simp, fun j e'' hm' => h5.1 j e'' ((h3 j _).mp hm')⟩
            | done q =>
                rw [hp] at h5
                cases q with
                | error e => exact first_mono h5 _
                | ok rs =>
                  exfalso
                  have : ∀ fs : List Fut, Fut.task i none ∈ fs → values fs = none := by
                    intro fs
                    induction fs with
                    | nil => intro h; cases h
                    | cons f fs ih =>
                      intro h
                      rcases List.mem_cons.mp h with h | h
                      · subst h; rfl
                      · have := ih h
                        cases f with
                        | ready _ _ => simp [values, this]
                        | task _ q =>
                          rcases q with _ | (_ | _)
                          · rfl
                          · rfl
                          · simp [values, this]
                  exact absurd (this _ hm) (by rw [show values c.futs = some rs from h5]; simp)
        · exact h

private theorem inv_run (ops : List Op) : Inv (run fresh ops) := by
  induction ops using Conn.snoc_ind with
  | nil => exact ⟨fun n c h => by simp [run, fresh] at h, fun e h => by simp [run, fresh] at h⟩
  | snoc ops o ih => rw [run_snoc]; exact inv_step ih o

/-- The listeners are those that were registered. -/
theorem listeners_run (ops : List Op) : (run fresh ops).listeners = registered ops := by
  induction ops using Conn.snoc_ind with
  | nil => rfl
  | snoc ops o ih =>
    rw [run_snoc, registered, List.filterMap_append, ← registered, ← ih]
    generalize run fresh ops = s
    cases o with
    | add l => rfl
    | ask => simp [step]
    | next n k =>
      simp only [step, List.filterMap_cons_none, List.filterMap_nil, List.append_nil]
      split
      · rfl
      · split
        · split <;> rfl
        · rfl
    | ends n i r =>
      simp only [step, List.filterMap_cons_none, List.filterMap_nil, List.append_nil]
      split
      · rfl
      · split
        · rfl
        · split <;> rfl

/-- **C147.** Every call of `ask` comes to the listeners one after the other in the order in which they were registered, and to none twice. For every schedule, also if
calls overlap. -/
theorem C147_order (ops : List Op) (n : Nat) (c : Call) (h : (run fresh ops).calls[n]? = some c) :
    ∃ p, toldBy n (run fresh ops).trace = (registered ops).take p ∧ p ≤ (registered ops).length ∧ ∀ i, c.phase = .speaking i → i = p := by
  obtain ⟨p, a, b, -, e⟩ := ((inv_run ops).calls n c h).told
  rw [listeners_run] at a b
  exact ⟨p, b, a, e⟩

/-- **C147.** The number of a listener, by which coroutines and answers are named, is its place among the registered ones. -/
theorem C147_numbers (ops : List Op) (n i l : Nat) (k : Kind) (h : Ev.told n i l k ∈ (run fresh ops).trace) : (registered ops)[i]? = some l := by
  have key : Ev.told n i l k ∈ (run fresh ops).trace → (run fresh ops).listeners[i]? = some l := by
    clear h
    induction ops using Conn.snoc_ind with
    | nil => intro h; simp [run, fresh] at h
    | snoc ops o ih =>
      rw [run_snoc]
      revert ih
      generalize run fresh ops = s
      intro ih
      cases o with
      | add x =>
        intro h
        have := ih h
        simp only [step]
        rw [List.getElem?_append_left (List.getElem?_eq_some_iff.mp this).1]
        exact this
      | ask => exact ih
      | next m k' =>
        simp only [step]
        split
        · exact ih
        · split
          · split
            · rename_i l' hl'
              intro h
              rcases List.mem_append.mp h with h | h
              · exact ih h
              · rw [List.mem_singleton] at h
                cases h
                exact hl'
            · exact ih
          · exact ih
      | ends m j r =>
        simp only [step]
        split
        · exact ih
        · split
          · exact ih
          · split
            · intro h
              rcases List.mem_append.mp h with h | h
              · exact ih h
              · rw [List.mem_singleton] at h; cases h
            · exact ih
  rw [← listeners_run]
  exact key h

/-- **C147.** When the call has told the last listener it has come to all there are then. -/
theorem C147_everyone (ops : List Op) (o : Op) (n i : Nat) (c c' : Call) (h : (run fresh ops).calls[n]? = some c) (hc : c.phase = .speaking i)
    (h' : (step (run fresh ops) o).calls[n]? = some c') (hc' : ∀ j, c'.phase ≠ .speaking j) :
    toldBy n (run fresh ops).trace = registered ops := by
  obtain ⟨p, b, a, e⟩ := C147_order ops n c h
  have hi := e i hc
  subst hi
  have hlt := (List.getElem?_eq_some_iff.mp h).1
  have same : (step (run fresh ops) o).calls[n]? = (run fresh ops).calls[n]? → False := by
    intro he
    rw [he, h] at h'
    cases h'
    exact hc' i hc
  cases o with
  | add l => exact (same rfl).elim
  | ask => exact (same (by simp only [step]; rw [List.getElem?_append_left hlt])).elim
  | next m k =>
    by_cases hm : m = n
    · subst hm
      by_cases hl : i < (run fresh ops).listeners.length
      · simp only [step, h, hc, List.getElem?_eq_getElem hl] at h'
        rw [List.getElem?_set_self hlt] at h'
        cases h'
        exact (hc' _ rfl).elim
      · rw [listeners_run] at hl
        rw [b, List.take_of_length_le (by omega)]
    · refine (same ?_).elim
      simp only [step]
      split
      · rfl
      · split
        · split <;> exact List.getElem?_set_ne hm
        · rfl
  | ends m j r =>
    refine (same ?_).elim
    by_cases hm : m = n
    · subst hm
      simp only [step, h, hc]
    · simp only [step]
      split
      · rfl
      · split
        · rfl
        · split
          · exact List.getElem?_set_ne hm
          · rfl

private theorem values_some {fs : List Fut} : ∀ {rs : List Ret}, values fs = some rs → rs.length = fs.length ∧ ∀ (k : Nat) f v, fs[k]? = some f → rs[k]? = some v →
    (∃ i, f = .ready i v) ∨ ∃ i, f = .task i (some (.ok v)) := by
  induction fs with
  | nil => intro rs h; simp only [values, Option.some.injEq] at h; subst h; exact ⟨rfl, fun k f v h => by simp at h⟩
  | cons f fs ih =>
    intro rs h
    have key : ∀ v0, (values fs).map (v0 :: ·) = some rs → ((∃ i, f = .ready i v0) ∨ ∃ i, f = .task i (some (.ok v0))) →
        rs.length = (f :: fs).length ∧ ∀ (k : Nat) g v, (f :: fs)[k]? = some g → rs[k]? = some v → (∃ i, g = .ready i v) ∨ ∃ i, g = .task i (some (.ok v)) := by
      intro v0 h hf
      obtain ⟨l, hl, rfl⟩ := Option.map_eq_some_iff.mp h
      obtain ⟨e1, e2⟩ := ih hl
      refine ⟨by simp [e1], fun k g v hg hv => ?_⟩
      cases k with
      | zero => simp at hg hv; subst hg hv; exact hf
      | succ k => simp only [List.getElem?_cons_succ] at hg hv; exact e2 k g v hg hv
    cases f with
    | ready i v => exact key v h (.inl ⟨i, rfl⟩)
    | task i q =>
      rcases q with _ | (_ | v)
      · cases h
      · cases h
      · exact key v h (.inr ⟨i, rfl⟩)

private theorem values_none {fs : List Fut} (h : values fs = none) (he : ∀ i e, Fut.task i (some (.error e)) ∉ fs) : ∃ i, Fut.task i none ∈ fs := by
  induction fs with
  | nil => cases h
  | cons f fs ih =>
    have hi : values fs = none → ∃ i, Fut.task i none ∈ f :: fs := fun h =>
      (ih h fun i e hm => he i e (List.mem_cons_of_mem _ hm)).imp fun i hm => List.mem_cons_of_mem _ hm
    cases f with
    | ready i v => exact hi (by simpa [values] using h)
    | task i q =>
      rcases q with _ | (e | v)
      · exact ⟨i, by simp⟩
      · exact (he i e (by simp)).elim
      · exact hi (by simpa [values] using h)

/-- **C147.** When it returns, it returns the answers of all listeners that have the method and did not raise, in the order of the listeners, those of coroutines included
whenever they have ended. -/
theorem C147_answers (ops : List Op) (n : Nat) (c : Call) (rs : List Ret) (h : (run fresh ops).calls[n]? = some c) (hc : c.phase = .done (.ok rs)) :
    rs.length = (asked n (run fresh ops).trace).length ∧
      ∀ (k : Nat) p v, (asked n (run fresh ops).trace)[k]? = some p → rs[k]? = some v → Answered n (run fresh ops).trace p v := by
  obtain ⟨-, h2, h3, -, h5⟩ := (inv_run ops).calls n c h
  rw [hc] at h5
  obtain ⟨e1, e2⟩ := values_some h5
  refine ⟨by rw [h2, e1, List.length_map], fun k p v hp hv => ?_⟩
  rw [h2, List.getElem?_map] at hp
  obtain ⟨f, hf, rfl⟩ := Option.map_eq_some_iff.mp hp
  rcases e2 k f v hf hv with ⟨i, rfl⟩ | ⟨i, rfl⟩
  · exact .inl rfl
  · exact .inr ⟨rfl, (h3 i _).mpr (List.mem_of_getElem? hf)⟩

/-- **C147.** If it raises, it raises what the first coroutine that failed has raised. -/
theorem C147_raises (ops : List Op) (n : Nat) (c : Call) (e : PyErr) (h : (run fresh ops).calls[n]? = some c) (hc : c.phase = .done (.error e)) :
    FirstError n (run fresh ops).trace e := by
  have h5 := ((inv_run ops).calls n c h).phase
  rw [hc] at h5
  exact h5

private theorem same_idx {fs : List Fut} (h : (fs.map idx).Nodup) {f g : Fut} (hf : f ∈ fs) (hg : g ∈ fs) (he : idx f = idx g) : f = g := by
  induction fs with
  | nil => cases hf
  | cons x fs ih =>
    rw [List.map_cons, List.nodup_cons] at h
    rcases List.mem_cons.mp hf with rfl | hf' <;> rcases List.mem_cons.mp hg with rfl | hg'
    · rfl
    · exact (h.1 (by rw [he]; exact List.mem_map.mpr ⟨g, hg', rfl⟩)).elim
    · exact (h.1 (by rw [← he]; exact List.mem_map.mpr ⟨f, hf', rfl⟩)).elim
    · exact ih h.2 hf' hg'

private theorem not_both {fs : List Fut} (h : (fs.map idx).Nodup) {i : Nat} {r : Py Ret} (h1 : Fut.task i none ∈ fs) (h2 : Fut.task i (some r) ∈ fs) : False := by
  have := same_idx h h1 h2 rfl
  cases this

/-- **C147.** While it waits none of the coroutines has failed, and there is one that has not ended: it does not wait longer than for the last one. -/
theorem C147_waits (ops : List Op) (n : Nat) (c : Call) (h : (run fresh ops).calls[n]? = some c) (hc : c.phase = .waiting) :
    (∃ i, (i, none) ∈ asked n (run fresh ops).trace ∧ ¬ Ended n i (run fresh ops).trace) ∧ ∀ i e, Ev.ended n i (.error e) ∉ (run fresh ops).trace := by
  obtain ⟨-, h2, h3, h4, h5⟩ := (inv_run ops).calls n c h
  rw [hc] at h5
  refine ⟨?_, fun i e hm => h5.1 i e ((h3 i _).mp hm)⟩
  obtain ⟨i, hi⟩ := values_none h5.2 h5.1
  refine ⟨i, by rw [h2]; exact List.mem_map.mpr ⟨_, hi, rfl⟩, ?_⟩
  rintro ⟨r, hr⟩
  exact not_both h4 hi ((h3 i r).mp hr)

/-- **C147.** Whatever the others did, also if one of them has made the call raise, a coroutine that was begun runs to its own end. -/
theorem C147_independent (ops : List Op) (n i : Nat) (r : Py Ret) (c : Call) (h : (run fresh ops).calls[n]? = some c) (hs : ∀ j, c.phase ≠ .speaking j)
    (hi : (i, none) ∈ asked n (run fresh ops).trace) (hn : ¬ Ended n i (run fresh ops).trace) :
    (step (run fresh ops) (.ends n i r)).trace = (run fresh ops).trace ++ [.ended n i r] := by
  obtain ⟨-, h2, h3, h4, h5⟩ := (inv_run ops).calls n c h
  rw [h2] at hi
  obtain ⟨f, hf, he⟩ := List.mem_map.mp hi
  have hm : Fut.task i none ∈ c.futs := by
    cases f with
    | ready j v => cases he
    | task j q =>
      injection he with e1 e2
      subst e1
      cases q with
      | none => exact hf
      | some q => exact (hn ⟨q, (h3 j q).mpr hf⟩).elim
  simp only [step, h, if_pos hm]

/-- **C147.** Each coroutine ends once for each call, with one result. -/
theorem C147_once (ops : List Op) (n i : Nat) (r r' : Py Ret) (h : Ev.ended n i r ∈ (run fresh ops).trace) (h' : Ev.ended n i r' ∈ (run fresh ops).trace) : r = r' := by
  have hlt : n < (run fresh ops).calls.length := (inv_run ops).none _ h
  obtain ⟨-, -, h3, h4, -⟩ := (inv_run ops).calls n _ (List.getElem?_eq_getElem hlt)
  have := same_idx h4 ((h3 i r).mp h) ((h3 i r').mp h') rfl
  cases this
  rfl

/-- The second listener is a coroutine that awaits, the third raises, the fourth has no such method, and the fifth is registered by the first one when it is told. The second
call is made while the first waits, and one of the coroutines for it raises while the other goes on. -/
def example147 : List Op :=
  [.add 10, .add 11, .add 12, .add 13, .ask, .add 14, .next 0 (.sync (.ok (.bool true))), .next 0 .async, .next 0 (.sync (.error .key)), .next 0 .missing, .next 0 .async, .next 0 .missing,
   .ask, .next 1 (.sync (.ok .none)), .next 1 .async, .next 1 (.sync (.error .key)), .next 1 .missing, .ends 0 4 (.ok (.bool false)), .next 1 .async, .next 1 .missing,
   .ends 1 4 (.error .value), .ends 0 1 (.ok .none), .ends 1 1 (.ok .none)]

example : let s := run fresh example147
    s.calls.map (·.phase) = [.done (.ok [.bool true, .none, .bool false]), .done (.error .value)] ∧ toldBy 0 s.trace = [10, 11, 12, 13, 14] ∧
    asked 0 s.trace = [(0, some (.bool true)), (1, none), (4, none)] ∧ Ev.ended 1 1 (.ok .none) ∈ s.trace := by decide +kernel

/-- A call that waits. -/
example : let s := run fresh (example147.take 21)
    s.calls.map (·.phase) = [.waiting, .done (.error .value)] := by decide +kernel

end Props.Ask
