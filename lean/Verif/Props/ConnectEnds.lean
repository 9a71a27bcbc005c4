import Verif.Lemmas.GatewayEnds
import Verif.Props.Connect
/-!
# Property theorems C159: connect() ends also when nothing arrives any more
-/
namespace Props.Connect
open Model Model.Connect Spec.Silence
open Spec (Bytes)

/-! ## What a call awaits is there -/

theorem gw_sizes (s : Gateway.State) (o : Gateway.Op) : s.jobs.length ≤ (Gateway.step s o).jobs.length ∧ s.conn.sends.length ≤ (Gateway.step s o).conn.sends.length := by
  refine ⟨?_, (Gateway.grow_of (Gateway.step_c s o)).1⟩
  rcases Gateway.step_keeps s o with e | ⟨x, -, e | ⟨a, e⟩⟩
  · rw [e]; exact Nat.le_refl _
  · rw [e]; simp
  · rw [e]; simp

theorem gw_sizes_run (l : List Gateway.Op) : ∀ s : Gateway.State, s.jobs.length ≤ (Gateway.run s l).jobs.length ∧ s.conn.sends.length ≤ (Gateway.run s l).conn.sends.length := by
  induction l with
  | nil => intro s; exact ⟨Nat.le_refl _, Nat.le_refl _⟩
  | cons o l ih => intro s; exact ⟨Nat.le_trans (gw_sizes s o).1 (ih _).1, Nat.le_trans (gw_sizes s o).2 (ih _).2⟩

theorem setMode_job (s : Gateway.State) (m : Int) : (Gateway.step s (.setMode m)).jobs.length = s.jobs.length + 1 := by
  simp only [Gateway.step, Gateway.State.addJob, List.length_append, List.length_singleton, Gateway.startAsk_keeps]

theorem setup_job (s : Gateway.State) (order : List Nat) : (Gateway.step s (.setup order)).jobs.length = s.jobs.length + 1 := by
  simp only [Gateway.step]
  split
  · simp only [Gateway.State.addJob, List.length_append, List.length_singleton, Gateway.setupLoop_keeps]
  · split
    · simp only [Gateway.State.addJob, List.length_append, List.length_singleton]
    · simp only [Gateway.State.addJob, List.length_append, List.length_singleton, Gateway.startAsk_keeps]

theorem send_entry (s : Gateway.State) (m : Msg) : s.conn.sends.length < (Gateway.step s (.conn (.send m 0 0 3))).conn.sends.length := by
  have e : (Gateway.step s (.conn (.send m 0 0 3))).conn = Conn.step s.conn (.send m 0 0 3) := by
    simp only [Gateway.step, Gateway.external, if_true]
  rw [e, ToNode.send_length]
  exact Nat.lt_succ_self _

/-- What a call awaits. -/
def There (g : Gateway.State) : Pc → Prop
  | .mode j | .nodes j => j < g.jobs.length
  | .telling k => k < g.conn.sends.length
  | _ => True

theorem There.grow {g g' : Gateway.State} {pc : Pc} (h : There g pc) (h1 : g.jobs.length ≤ g'.jobs.length) (h2 : g.conn.sends.length ≤ g'.conn.sends.length) : There g' pc := by
  cases pc with
  | mode j => exact Nat.lt_of_lt_of_le h h1
  | nodes j => exact Nat.lt_of_lt_of_le h h1
  | telling k => exact Nat.lt_of_lt_of_le h h2
  | _ => trivial

section
attribute [local irreducible] Gateway.step setDestination

theorem put {c : List Pc} {g g' : Gateway.State} (h : ∀ (i : Nat) (pc : Pc), c[i]? = some pc → There g pc) (h1 : g.jobs.length ≤ g'.jobs.length)
    (h2 : g.conn.sends.length ≤ g'.conn.sends.length) (m : Nat) {x : Pc} (hx : There g' x) : ∀ (i : Nat) (pc : Pc), (c.set m x)[i]? = some pc → There g' pc := by
  intro i pc hi
  rcases set_cases hi with ⟨-, rfl⟩ | ⟨-, hi⟩
  · exact hx
  · exact (h i pc hi).grow h1 h2

theorem there_step (s : State) (o : Op) (h : ∀ (i : Nat) (pc : Pc), s.calls[i]? = some pc → There s.gw pc) : ∀ (i : Nat) (pc : Pc), (step s o).calls[i]? = some pc → There (step s o).gw pc := by
  cases o with
  | connect =>
    intro i pc hi
    simp only [step] at hi
    by_cases hl : i < s.calls.length
    · rw [List.getElem?_append_left hl] at hi; exact h i pc hi
    · rw [List.getElem?_append_right (Nat.le_of_not_lt hl), List.getElem?_singleton] at hi
      split at hi
      · cases hi; trivial
      · cases hi
  | gw o => exact fun i pc hi => (h i pc hi).grow (gw_sizes s.gw o).1 (gw_sizes s.gw o).2
  | opened m a =>
    simp only [step, opened]
    split
    · split
      · have sz := gw_sizes_run [.conn .connect, .setMode 1] s.gw
        refine put h sz.1 sz.2 m ?_
        show s.gw.jobs.length < (Gateway.step (Gateway.step s.gw (.conn .connect)) (.setMode 1)).jobs.length
        rw [setMode_job]
        exact Nat.lt_succ_of_le (gw_sizes s.gw _).1
      · exact put h (Nat.le_refl _) (Nat.le_refl _) m trivial
    · exact h
  | listened m ok =>
    simp only [step, listened]
    generalize setDestination = msg
    split
    · split
      · split
        · exact put h (Nat.le_refl _) (Nat.le_refl _) m trivial
        · rename_i c
          exact put h (gw_sizes s.gw _).1 (gw_sizes s.gw _).2 m (send_entry s.gw c)
      · exact put h (Nat.le_refl _) (Nat.le_refl _) m trivial
    · exact h
  | resume m order =>
    simp only [step, proceed]
    split
    · split
      · exact h
      · exact put h (Nat.le_refl _) (Nat.le_refl _) m trivial
      · exact put h (Nat.le_refl _) (Nat.le_refl _) m trivial
    · split
      · exact h
      · refine put h (gw_sizes s.gw _).1 (gw_sizes s.gw _).2 m ?_
        show s.gw.jobs.length < (Gateway.step s.gw (.setup order)).jobs.length
        rw [setup_job]
        exact Nat.lt_succ_self _
      · exact put h (Nat.le_refl _) (Nat.le_refl _) m trivial
    · split
      · exact h
      · exact put h (Nat.le_refl _) (Nat.le_refl _) m trivial
      · exact put h (Nat.le_refl _) (Nat.le_refl _) m trivial
    · exact h

end

theorem there (ops : List Op) : ∀ (i : Nat) (pc : Pc), At ops i pc → There (run init ops).gw pc := by
  induction ops using Conn.snoc_ind with
  | nil => intro i pc h; cases h
  | snoc ops o ih =>
    unfold At
    rw [run_snoc]
    exact there_step _ o ih

/-! ## Nothing arrives any more -/

/-- Turns of the gateway, which is all of a state of `connect()` that they change. -/
theorem turns (l : List Gateway.Op) : ∀ s : State, run s (l.map .gw) = { s with gw := Gateway.run s.gw l } := by
  induction l with
  | nil => intro s; rfl
  | cons o l ih =>
    intro s
    exact ih (step s (.gw o))

/-- The call can be continued to this point or to any of these. -/
def Reaches (ok : Bool) (ops : List Op) (i : Nat) (P : Pc → Prop) : Prop :=
  ∃ l, (∀ o ∈ l, connectTurn ok o = true) ∧ ∃ pc, At (ops ++ l) i pc ∧ P pc

theorem Reaches.trans {ok : Bool} {ops : List Op} {i : Nat} {P Q : Pc → Prop} (h : Reaches ok ops i P) (g : ∀ l pc, At (ops ++ l) i pc → P pc → Reaches ok (ops ++ l) i Q) : Reaches ok ops i Q := by
  obtain ⟨l, t, pc, ha, hp⟩ := h
  obtain ⟨l', t', pc', ha', hq⟩ := g l pc ha hp
  refine ⟨l ++ l', ?_, pc', by rw [← List.append_assoc]; exact ha', hq⟩
  intro o ho
  rcases List.mem_append.1 ho with ho | ho
  · exact t o ho
  · exact t' o ho

theorem gw_turns {ok : Bool} {l : List Gateway.Op} (h : ∀ o ∈ l, gatewayTurn ok o = true) : ∀ o ∈ l.map Op.gw, connectTurn ok o = true := by
  intro o ho
  obtain ⟨x, hx, rfl⟩ := List.mem_map.1 ho
  exact h x hx

theorem lt_of_at {ops : List Op} {i : Nat} {pc : Pc} (h : At ops i pc) : i < (run init ops).calls.length := (List.getElem?_eq_some_iff.1 h).1

/-- Coroutine `j` of the gateway can end; the call is still where it was. -/
theorem job_turn (ok : Bool) {ops : List Op} {i j : Nat} {pc : Pc} (h : At ops i pc) (hj : j < (run init ops).gw.jobs.length) :
    ∃ l, (∀ o ∈ l, connectTurn ok o = true) ∧ At (ops ++ l) i pc ∧ ∃ r, jobResult (run init (ops ++ l)).gw j = some r := by
  obtain ⟨g, e, -⟩ := gw_run ops
  rw [e] at hj
  obtain ⟨l, t, r, hr⟩ := Gateway.job_ends ok g hj
  refine ⟨l.map .gw, gw_turns t, ?_, r, ?_⟩
  · unfold At; rw [run_append, turns]; exact h
  · rw [run_append, turns, e]
    have : Gateway.run Gateway.init (g ++ l) = Gateway.run (Gateway.run Gateway.init g) l := by simp [Gateway.run]
    rw [this] at hr
    simp only [jobResult, hr]

theorem send_turn (ok : Bool) {ops : List Op} {i k : Nat} {pc : Pc} (h : At ops i pc) (hk : k < (run init ops).gw.conn.sends.length) :
    ∃ l, (∀ o ∈ l, connectTurn ok o = true) ∧ At (ops ++ l) i pc ∧ ∃ r, Gateway.sendResult (run init (ops ++ l)).gw k = some r := by
  obtain ⟨g, e, -⟩ := gw_run ops
  rw [e] at hk
  obtain ⟨l, t, -, r, hr⟩ := Gateway.send_done ok g hk
  refine ⟨l.map .gw, gw_turns t, ?_, r, ?_⟩
  · unfold At; rw [run_append, turns]; exact h
  · rw [run_append, turns, e]
    have : Gateway.run Gateway.init (g ++ l) = Gateway.run (Gateway.run Gateway.init g) l := by simp [Gateway.run]
    rw [this] at hr
    exact hr

/-- The call has ended. -/
def Over : Pc → Prop
  | .done _ => True
  | _ => False

theorem proceeds {ops : List Op} {i : Nat} {pc : Pc} (l : List Op) (o : Op) (x : Pc)
    (hs : (step (run init (ops ++ l)) o).calls = (run init (ops ++ l)).calls.set i x) (hl : At (ops ++ l) i pc) : At (ops ++ (l ++ [o])) i x := by
  unfold At
  rw [← List.append_assoc, run_snoc, hs]
  exact List.getElem?_set_self (lt_of_at hl)

theorem snoc_turns {ok : Bool} {l : List Op} {o : Op} (h : ∀ o ∈ l, connectTurn ok o = true) (ho : connectTurn ok o = true) : ∀ x ∈ l ++ [o], connectTurn ok x = true := by
  intro x hx
  rcases List.mem_append.1 hx with hx | hx
  · exact h x hx
  · rw [List.mem_singleton.1 hx]; exact ho

theorem nodes_end (ok : Bool) {ops : List Op} {i j : Nat} (h : At ops i (.nodes j)) : Reaches ok ops i Over := by
  obtain ⟨l, t, ha, r, hr⟩ := job_turn ok h (there ops i _ h)
  have ha' : (run init (ops ++ l)).calls[i]? = some (.nodes j) := ha
  cases r with
  | ok v =>
    refine ⟨l ++ [.resume i []], snoc_turns t rfl, .done (.ok ()), proceeds l _ _ ?_ ha, trivial⟩
    simp only [step, proceed, ha', hr, State.goto]
  | error e =>
    refine ⟨l ++ [.resume i []], snoc_turns t rfl, .done (.error e), proceeds l _ _ ?_ ha, trivial⟩
    simp only [step, proceed, ha', hr, State.goto]

theorem telling_end (ok : Bool) {ops : List Op} {i k : Nat} (h : At ops i (.telling k)) : Reaches ok ops i Over := by
  obtain ⟨l, t, ha, r, hr⟩ := send_turn ok h (there ops i _ h)
  have ha' : (run init (ops ++ l)).calls[i]? = some (.telling k) := ha
  cases r with
  | ok v =>
    refine Reaches.trans (P := fun pc => ∃ j, pc = .nodes j) ⟨l ++ [.resume i []], snoc_turns t rfl, .nodes (run init (ops ++ l)).gw.jobs.length, proceeds l _ _ ?_ ha, _, rfl⟩ ?_
    · simp only [step, proceed, ha', hr, State.goto]
    · rintro l' pc hp ⟨j, rfl⟩
      exact nodes_end ok hp
  | error e =>
    refine ⟨l ++ [.resume i []], snoc_turns t rfl, .done (.error e), proceeds l _ _ ?_ ha, trivial⟩
    simp only [step, proceed, ha', hr, State.goto]

section
attribute [local irreducible] setDestination

theorem listening_end (ok : Bool) {ops : List Op} {i : Nat} (h : At ops i .listening) : Reaches ok ops i Over := by
  have h0 : At (ops ++ []) i .listening := by rw [List.append_nil]; exact h
  have ha' : (run init (ops ++ [])).calls[i]? = some .listening := h0
  cases ok with
  | false =>
    refine ⟨[] ++ [.listened i false], snoc_turns (by simp) rfl, .done (.error .runtime), proceeds [] _ _ ?_ h0, trivial⟩
    simp only [step, listened, ha', State.goto, Bool.false_eq_true, if_false]
  | true =>
    cases hm : setDestination with
    | error e =>
      refine ⟨[] ++ [.listened i true], snoc_turns (by simp) rfl, .done (.error e), proceeds [] _ _ ?_ h0, trivial⟩
      simp only [step, listened, ha', State.goto, if_true, hm]
    | ok m =>
      refine Reaches.trans (P := fun pc => ∃ k, pc = .telling k) ⟨[] ++ [.listened i true], snoc_turns (by simp) rfl, .telling (run init (ops ++ [])).gw.conn.sends.length, proceeds [] _ _ ?_ h0, _, rfl⟩ ?_
      · simp only [step, listened, ha', State.goto, if_true, hm]
      · rintro l' pc hp ⟨k, rfl⟩
        exact telling_end true hp

end

theorem mode_end (ok : Bool) {ops : List Op} {i j : Nat} (h : At ops i (.mode j)) : Reaches ok ops i Over := by
  obtain ⟨l, t, ha, r, hr⟩ := job_turn ok h (there ops i _ h)
  have ha' : (run init (ops ++ l)).calls[i]? = some (.mode j) := ha
  cases r with
  | ok v =>
    refine Reaches.trans (P := fun pc => pc = .listening) ⟨l ++ [.resume i []], snoc_turns t rfl, .listening, proceeds l _ _ ?_ ha, rfl⟩ ?_
    · simp only [step, proceed, ha', hr, State.goto]
    · rintro l' pc hp rfl
      exact listening_end ok hp
  | error e =>
    refine ⟨l ++ [.resume i []], snoc_turns t rfl, .done (.error e), proceeds l _ _ ?_ ha, trivial⟩
    simp only [step, proceed, ha', hr, State.goto]

theorem opening_end (ok : Bool) {ops : List Op} {i : Nat} (h : At ops i .opening) : Reaches ok ops i Over := by
  have h0 : At (ops ++ []) i .opening := by rw [List.append_nil]; exact h
  have ha' : (run init (ops ++ [])).calls[i]? = some .opening := h0
  cases ok with
  | false =>
    refine ⟨[] ++ [.opened i none], snoc_turns (by simp) rfl, .done (.error .runtime), proceeds [] _ _ ?_ h0, trivial⟩
    simp only [step, opened, ha', State.goto]
  | true =>
    refine Reaches.trans (P := fun pc => ∃ j, pc = .mode j) ⟨[] ++ [.opened i (some [])], snoc_turns (by simp) rfl, .mode (run init (ops ++ [])).gw.jobs.length, proceeds [] _ _ ?_ h0, _, rfl⟩ ?_
    · simp only [step, opened, ha', State.goto]
    · rintro l' pc hp ⟨j, rfl⟩
      exact mode_end true hp

/-- **C159.** From every state that can be reached, a call of `connect()` can end without anything arriving, both when sockets can be opened and when they can not. -/
theorem C159_ends (ok : Bool) (ops : List Op) (i : Nat) (h : i < (run init ops).calls.length) :
    ∃ l, (∀ o ∈ l, connectTurn ok o = true) ∧ ∃ r, At (ops ++ l) i (.done r) := by
  have key : Reaches ok ops i Over := by
    have ha : At ops i (run init ops).calls[i] := List.getElem?_eq_getElem h
    cases hx : (run init ops).calls[i] with
    | opening => rw [hx] at ha; exact opening_end ok ha
    | mode j => rw [hx] at ha; exact mode_end ok ha
    | listening => rw [hx] at ha; exact listening_end ok ha
    | telling k => rw [hx] at ha; exact telling_end ok ha
    | nodes j => rw [hx] at ha; exact nodes_end ok ha
    | done r => rw [hx] at ha; exact ⟨[], by simp, .done r, by rw [List.append_nil]; exact ha, trivial⟩
  obtain ⟨l, t, pc, hp, ho⟩ := key
  cases pc with
  | done r => exact ⟨l, t, r, hp⟩
  | _ => cases ho

/-! ## All of them -/

theorem set_done {c : List Pc} {i m : Nat} {r : Py Unit} {x y : Pc} (h : c[i]? = some (.done r)) (hm : c[m]? = some y) (hy : ∀ r, y ≠ .done r) : (c.set m x)[i]? = some (.done r) := by
  have : m ≠ i := by
    rintro rfl
    rw [h] at hm
    exact hy r (Option.some.inj hm).symm
  rw [List.getElem?_set_ne this]
  exact h

section
attribute [local irreducible] Gateway.step setDestination

theorem done_step (s : State) (o : Op) {i : Nat} {r : Py Unit} (h : s.calls[i]? = some (.done r)) : (step s o).calls[i]? = some (.done r) := by
  cases o with
  | connect =>
    simp only [step]
    rw [List.getElem?_append_left (List.getElem?_eq_some_iff.1 h).1]; exact h
  | gw o => exact h
  | opened m a =>
    simp only [step, opened]
    split
    · rename_i hm
      split <;> exact set_done h hm (by simp)
    · exact h
  | listened m ok =>
    simp only [step, listened]
    generalize setDestination = msg
    split
    · rename_i hm
      split
      · split <;> exact set_done h hm (by simp)
      · exact set_done h hm (by simp)
    · exact h
  | resume m order =>
    simp only [step, proceed]
    split
    · rename_i hm
      split <;> first | exact h | exact set_done h hm (by simp)
    · rename_i hm
      split <;> first | exact h | exact set_done h hm (by simp)
    · rename_i hm
      split <;> first | exact h | exact set_done h hm (by simp)
    · exact h

theorem calls_step (ok : Bool) (s : State) (o : Op) (h : connectTurn ok o = true) : (step s o).calls.length = s.calls.length := by
  cases o with
  | connect => cases h
  | gw o => rfl
  | opened m a =>
    simp only [step, opened]
    split
    · split <;> simp [State.goto]
    · rfl
  | listened m ok =>
    simp only [step, listened]
    generalize setDestination = msg
    split
    · split
      · split <;> simp [State.goto]
      · simp [State.goto]
    · rfl
  | resume m order =>
    simp only [step, proceed]
    split
    · split <;> simp [State.goto]
    · split <;> simp [State.goto]
    · split <;> simp [State.goto]
    · rfl

end

theorem calls_run (ok : Bool) (l : List Op) : ∀ s : State, (∀ o ∈ l, connectTurn ok o = true) → (run s l).calls.length = s.calls.length := by
  induction l with
  | nil => intro s _; rfl
  | cons o l ih =>
    intro s h
    rw [show run s (o :: l) = run (step s o) l from rfl, ih _ fun x hx => h x (List.mem_cons_of_mem _ hx), calls_step ok s o (h o List.mem_cons_self)]

theorem done_run (l : List Op) : ∀ (s : State) {i : Nat} {r : Py Unit}, s.calls[i]? = some (.done r) → (run s l).calls[i]? = some (.done r) := by
  induction l with
  | nil => intro s i r h; exact h
  | cons o l ih => intro s i r h; exact ih _ (done_step s o h)

theorem some_end (ok : Bool) (ops : List Op) : ∀ n, n ≤ (run init ops).calls.length →
    ∃ l, (∀ o ∈ l, connectTurn ok o = true) ∧ ∀ i, i < n → ∃ r, At (ops ++ l) i (.done r) := by
  intro n
  induction n with
  | zero => intro _; exact ⟨[], by simp, fun i hi => absurd hi (Nat.not_lt_zero _)⟩
  | succ n ih =>
    intro hn
    obtain ⟨l, t, h⟩ := ih (Nat.le_of_succ_le hn)
    obtain ⟨l', t', r, h'⟩ := C159_ends ok (ops ++ l) n (by rw [run_append, calls_run ok l _ t]; exact hn)
    refine ⟨l ++ l', ?_, ?_⟩
    · intro o ho
      rcases List.mem_append.1 ho with ho | ho
      · exact t o ho
      · exact t' o ho
    · intro i hi
      rw [← List.append_assoc]
      rcases Nat.lt_succ_iff_lt_or_eq.1 hi with hi | rfl
      · obtain ⟨r', hr⟩ := h i hi
        refine ⟨r', ?_⟩
        unfold At
        rw [run_append]
        exact done_run l' _ hr
      · exact ⟨r, h'⟩

/-- **C159.** All calls of `connect()` can end together, without anything arriving and without further calls. -/
theorem C159_all (ok : Bool) (ops : List Op) :
    ∃ l, (∀ o ∈ l, connectTurn ok o = true) ∧ (run init (ops ++ l)).calls.length = (run init ops).calls.length ∧
      ∀ i, i < (run init ops).calls.length → ∃ r, At (ops ++ l) i (.done r) := by
  obtain ⟨l, t, h⟩ := some_end ok ops _ (Nat.le_refl _)
  exact ⟨l, t, by rw [run_append]; exact calls_run ok l _ t, h⟩

/-! ## The theorems are not vacuous -/

/-- A call that has just been made, one that waits for the mode of the gateway, and one whose registration is not acknowledged: none of them has ended. -/
def three : List Op := [.connect, .connect, .connect, .opened 1 (some []), .opened 2 (some [])] ++
  wait3 ++ [.gw (.conn (.timer 1)), .gw (.conn (.resume 1)), .gw (.conn (.cancelled 1))] ++ noReport 1 1 ++ [.resume 2 [], .listened 2 true]

example : (run init three).calls = [.opening, .mode 0, .telling 2] := by decide +kernel

/-- All operations after the first two of a gateway that never answers are such turns, and the call returns. -/
example : ((silent []).drop 1).all (connectTurn true) = true ∧ (run init (silent [])).calls = [.done (.ok ())] := by decide +kernel

/-- A packet is not such a turn. -/
example (b : Bytes) : connectTurn true (.gw (.conn (.packet b))) = false := rfl

end Props.Connect
