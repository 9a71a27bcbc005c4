import Verif.Lemmas.Silence
import Verif.Lemmas.AskTime
/-!
# Lemmas: what coroutines of the gateway await
-/
namespace Model.Gateway
open Spec.Silence

/-- What a coroutine awaits is there. -/
def Awaited (c : Conn.State) : Job → Prop
  | .sent k => k < c.sends.length
  | .ask _ t k => t < c.w.tasks.length ∧ k < c.sends.length
  | .report _ _ t | .setup _ _ t | .connect _ t => ∃ d, Waiter.Far 1 d t c.w
  | .opening _ _ | .done _ => True

/-- Nothing goes away. -/
def Grow (c c' : Conn.State) : Prop := c.sends.length ≤ c'.sends.length ∧ ∃ ws, c'.w = Waiter.run c.w ws

theorem Grow.refl (c : Conn.State) : Grow c c := ⟨Nat.le_refl _, [], rfl⟩

theorem grow_of {R : Nat → PyErr → Prop} {c c' : Conn.State} (h : CEvo R c c') : Grow c c' := by
  induction h with
  | refl => exact .refl _
  | op o _ _ ih =>
    obtain ⟨h1, ws, h2⟩ := ih
    rename_i c' _ _
    obtain ⟨ws', h3, -⟩ := Conn.step_w c' o
    refine ⟨Nat.le_trans h1 (by rcases Conn.step_seq c' o with ⟨-, h⟩ | ⟨-, h⟩ <;> omega), ws ++ ws', ?_⟩
    rw [h3, h2, Waiter.run_append]
  | transmit b _ ih =>
    obtain ⟨h1, ws, h2⟩ := ih
    rename_i c' _
    obtain ⟨e1, -, -, e2, -⟩ := Conn.transmit_sends c' b
    exact ⟨by rw [e1]; exact h1, ws, by rw [e2, h2]⟩
  | raised t e _ _ ih =>
    obtain ⟨h1, ws, h2⟩ := ih
    exact ⟨h1, ws ++ [.sendRaise t e], by rw [Waiter.run_append, ← h2]; rfl⟩

theorem Awaited.grow {c c' : Conn.State} {j : Job} (h : Awaited c j) (g : Grow c c') : Awaited c' j := by
  obtain ⟨g1, ws, g2⟩ := g
  have len : ∀ (ws : List Waiter.Op) (w : Waiter.State), w.tasks.length ≤ (Waiter.run w ws).tasks.length := by
    intro ws
    induction ws with
    | nil => intro w; exact Nat.le_refl _
    | cons o ws ih => intro w; exact Nat.le_trans (Waiter.length_step w o) (ih _)
  have far : ∀ {t : Nat}, (∃ d, Waiter.Far 1 d t c.w) → ∃ d, Waiter.Far 1 d t c'.w := fun ⟨d, hd⟩ => ⟨d, by rw [g2]; exact hd.run ws⟩
  cases j with
  | sent k => exact Nat.lt_of_lt_of_le h g1
  | ask a t k => exact ⟨Nat.lt_of_lt_of_le h.1 (by rw [g2]; exact len ws _), Nat.lt_of_lt_of_le h.2 g1⟩
  | report n todo t => exact far h
  | setup n todo t => exact far h
  | connect n t => exact far h
  | opening n k => trivial
  | done r => trivial

theorem startSend_awaited (s : State) (cmd : Msg) : Awaited (startSend s cmd).1.conn (startSend s cmd).2 := by
  unfold startSend afterSend
  split
  · trivial
  · show s.conn.sends.length < (Conn.send s.conn cmd 0 0 3).sends.length
    have := ToNode.send_length s.conn cmd 0 0 3
    simp only [Conn.step] at this
    omega

theorem startSend_job (s : State) (cmd : Msg) : (∃ r, (startSend s cmd).2 = .done r) ∨ ∃ k, (startSend s cmd).2 = .sent k := by
  unfold startSend afterSend
  split
  · exact .inl ⟨_, rfl⟩
  · exact .inr ⟨_, rfl⟩

theorem startAsk_awaited (s : State) (a : Ask) (cmd : Msg) (hid timeout : Nat) : Awaited (startAsk s a cmd hid timeout).1.conn (startAsk s a cmd hid timeout).2 := by
  unfold startAsk afterAskSend
  split
  · trivial
  · have h1 := ToNode.send_length { s.conn with w := Waiter.step s.conn.w (.call .adapter hid timeout) } cmd 0 0 3
    simp only [Conn.step] at h1
    refine ⟨?_, ?_⟩
    · simp only [(Conn.send_frame _ _ _ _ _).2]
      simp [Waiter.step, Waiter.add_tasks]
    · simp only [h1]; omega

attribute [local irreducible] startSend startAsk

theorem startNm_awaited (s : State) (c : Nm) : Awaited (startNm s c).1.conn (startNm s c).2 := by
  simp only [startNm]
  split
  · trivial
  · split
    · trivial
    · split
      · exact startSend_awaited { s with nmSeq := s.nmSeq + 1 } _
      · exact startAsk_awaited { s with nmSeq := s.nmSeq + 1 } _ _ _ _

theorem ipOfNode_awaited (s : State) (n : Nat) (s' : State) (t : Nat) (h : ipOfNode s n = (s', .ok t)) : ∃ d, Waiter.Far 1 d t s'.conn.w := by
  unfold ipOfNode lookup at h
  split at h
  · cases h
  · cases h
    exact ⟨_, _, Waiter.call_task _ _ _ _, by simp [Waiter.Pc.rank], .inl (Nat.le_refl _), by simp [Waiter.Pc.rank], fun _ => ⟨_, rfl⟩⟩

/-- A loop goes on with fewer nodes. -/
theorem reportLoop_awaited (todo : List Nat) : ∀ s, Awaited (reportLoop s todo).1.conn (reportLoop s todo).2 ∧
    ((∃ r, (reportLoop s todo).2 = .done r) ∨ ∃ n l t, (reportLoop s todo).2 = .report n l t ∧ l.length < todo.length) := by
  induction todo with
  | nil => intro s; exact ⟨trivial, .inl ⟨_, rfl⟩⟩
  | cons n todo ih =>
    intro s
    simp only [reportLoop]
    split
    · obtain ⟨h1, h2 | ⟨m, l, t, h2, h3⟩⟩ := ih s
      · exact ⟨h1, .inl h2⟩
      · exact ⟨h1, .inr ⟨m, l, t, h2, Nat.lt_succ_of_lt h3⟩⟩
    · split
      · exact ⟨trivial, .inl ⟨_, rfl⟩⟩
      · rename_i s' t h
        exact ⟨ipOfNode_awaited s n s' t h, .inr ⟨n, todo, t, rfl, Nat.lt_succ_self _⟩⟩

theorem setupLoop_awaited (todo : List Nat) : ∀ s, Awaited (setupLoop s todo).1.conn (setupLoop s todo).2 ∧
    ((∃ r, (setupLoop s todo).2 = .done r) ∨ ∃ n l t, (setupLoop s todo).2 = .setup n l t ∧ l.length < todo.length) := by
  induction todo with
  | nil => intro s; exact ⟨trivial, .inl ⟨_, rfl⟩⟩
  | cons n todo ih =>
    intro s
    simp only [setupLoop]
    split
    · exact ⟨trivial, .inl ⟨_, rfl⟩⟩
    · obtain ⟨h1, h2 | ⟨m, l, t, h2, h3⟩⟩ := ih s
      · exact ⟨h1, .inl h2⟩
      · exact ⟨h1, .inr ⟨m, l, t, h2, Nat.lt_succ_of_lt h3⟩⟩
    · split
      · exact ⟨trivial, .inl ⟨_, rfl⟩⟩
      · rename_i s' t h
        exact ⟨ipOfNode_awaited s n s' t h, .inr ⟨n, todo, t, rfl, Nat.lt_succ_self _⟩⟩

theorem connectToNode_awaited (s : State) (n : Nat) : Awaited (Gateway.connectToNode s n).1.conn (Gateway.connectToNode s n).2 := by
  simp only [Gateway.connectToNode]
  split
  · trivial
  · split
    · trivial
    · rename_i s' t h
      exact ipOfNode_awaited s n s' t h

/-- After an answer a coroutine is done, sends, or looks up addresses. -/
theorem afterAsk_awaited (s : State) (a : Ask) (r : Py Msg) (order : List Nat) : Awaited (afterAsk s a r order).1.conn (afterAsk s a r order).2 ∧
    ((∃ r', (afterAsk s a r order).2 = .done r') ∨ (∃ k, (afterAsk s a r order).2 = .sent k) ∨ ∃ n l t, (afterAsk s a r order).2 = .setup n l t) := by
  unfold afterAsk
  split
  · exact ⟨trivial, .inl ⟨_, rfl⟩⟩
  · exact ⟨trivial, .inl ⟨_, rfl⟩⟩
  · split <;> exact ⟨trivial, .inl ⟨_, rfl⟩⟩
  · exact ⟨trivial, .inl ⟨_, rfl⟩⟩
  · split
    · rename_i s' l _
      obtain ⟨h1, h2 | ⟨n, l, t, h2, -⟩⟩ := setupLoop_awaited (iter l order) s'
      · exact ⟨h1, .inl h2⟩
      · exact ⟨h1, .inr (.inr ⟨n, l, t, h2⟩)⟩
    · exact ⟨trivial, .inl ⟨_, rfl⟩⟩
  · exact ⟨trivial, .inl ⟨_, rfl⟩⟩
  · split
    · exact ⟨trivial, .inl ⟨_, rfl⟩⟩
    · split
      · exact ⟨trivial, .inl ⟨_, rfl⟩⟩
      · rename_i cmd _
        refine ⟨startSend_awaited s cmd, ?_⟩
        rcases startSend_job s cmd with h | h
        · exact .inl h
        · exact .inr (.inl h)
  · exact ⟨trivial, .inl ⟨_, rfl⟩⟩
  · exact ⟨trivial, .inl ⟨_, rfl⟩⟩

/-- How coroutines come and change. -/
def Jobs (s s' : State) : Prop := s'.jobs = s.jobs ∨ ∃ j, Awaited s'.conn j ∧ (s'.jobs = s.jobs ++ [j] ∨ ∃ i, s'.jobs = s.jobs.set i j)

attribute [local irreducible] setupLoop reportLoop afterAsk Gateway.connectToNode startNm

theorem startSend_keeps (s : State) (cmd : Msg) : (startSend s cmd).1.jobs = s.jobs := by
  unfold startSend afterSend
  split <;> rfl

theorem startAsk_keeps (s : State) (a : Ask) (cmd : Msg) (hid timeout : Nat) : (startAsk s a cmd hid timeout).1.jobs = s.jobs := by
  unfold startAsk afterAskSend
  split <;> rfl

theorem startNm_keeps (s : State) (c : Nm) : (startNm s c).1.jobs = s.jobs := by
  unfold startNm
  split
  · rfl
  · dsimp only
    split
    · rfl
    · split
      · exact startSend_keeps _ _
      · exact startAsk_keeps _ _ _ _ _

theorem ipOfNode_keeps (s : State) (n : Nat) : (ipOfNode s n).1.jobs = s.jobs := by
  unfold ipOfNode lookup
  split <;> rfl

theorem reportLoop_keeps (todo : List Nat) : ∀ s, (reportLoop s todo).1.jobs = s.jobs := by
  induction todo with
  | nil => intro s; unfold reportLoop; rfl
  | cons n todo ih =>
    intro s
    unfold reportLoop
    split
    · exact ih s
    · have := ipOfNode_keeps s n
      split <;> (rename_i h; rw [h] at this; exact this)

theorem setupLoop_keeps (todo : List Nat) : ∀ s, (setupLoop s todo).1.jobs = s.jobs := by
  induction todo with
  | nil => intro s; unfold setupLoop; rfl
  | cons n todo ih =>
    intro s
    unfold setupLoop
    split
    · rfl
    · exact ih s
    · have := ipOfNode_keeps s n
      split <;> (rename_i h; rw [h] at this; exact this)

theorem connectToNode_keeps (s : State) (n : Nat) : (Gateway.connectToNode s n).1.jobs = s.jobs := by
  unfold Gateway.connectToNode
  split
  · rfl
  · have := ipOfNode_keeps s n
    split <;> (rename_i h; rw [h] at this; exact this)

theorem afterAsk_keeps (s : State) (a : Ask) (r : Py Msg) (order : List Nat) : (afterAsk s a r order).1.jobs = s.jobs := by
  unfold afterAsk
  split
  · rfl
  · rfl
  · split
    · rename_i h; unfold storeList at h; dsimp only at h; split at h <;> cases h <;> rfl
    · rename_i h; unfold storeList at h; dsimp only at h; split at h <;> cases h <;> rfl
  · rfl
  · split
    · rename_i h
      rw [setupLoop_keeps]
      unfold storeList at h; dsimp only at h; split at h <;> cases h <;> rfl
    · rename_i h; unfold storeList at h; dsimp only at h; split at h <;> cases h <;> rfl
  · rfl
  · split
    · rfl
    · split
      · rfl
      · exact startSend_keeps _ _
  · rfl
  · rfl

theorem told_keeps (k : Nat) (l : List Msg) : ∀ s : State, (l.foldl (fun s m => onMessageReceived s k m) s).jobs = s.jobs := by
  induction l with
  | nil => intro s; rfl
  | cons m l ih =>
    intro s
    rw [List.foldl_cons, ih]
    unfold onMessageReceived
    dsimp only
    split <;> rfl

theorem step_keeps (s : State) (o : Op) : Jobs s (step s o) := by
  have add : ∀ (x : State) (j : Job), x.jobs = s.jobs → Awaited x.conn j → Jobs s (x.addJob j) := fun x j e h =>
    .inr ⟨j, h, .inl (by simp only [State.addJob, e])⟩
  have put : ∀ (x : State) (i : Nat) (j : Job), x.jobs = s.jobs → Awaited x.conn j → Jobs s (x.setJob i j) := fun x i j e h =>
    .inr ⟨j, h, .inr ⟨i, by simp only [State.setJob, e]⟩⟩
  cases o with
  | nm c => exact add _ _ (startNm_keeps s c) (startNm_awaited s c)
  | setMode mode => exact add _ _ (startAsk_keeps ..) (startAsk_awaited ..)
  | setup order =>
    simp only [step]
    split
    · exact add _ _ (setupLoop_keeps ..) (setupLoop_awaited _ _).1
    · split
      · exact add _ _ rfl trivial
      · exact add _ _ (startAsk_keeps ..) (startAsk_awaited ..)
  | connectToNode n => exact add _ _ (connectToNode_keeps s n) (connectToNode_awaited s n)
  | opened i ok =>
    simp only [step]
    split
    · split
      · exact put _ i _ rfl trivial
      · exact put _ i _ rfl trivial
    · exact .inl rfl
  | unsolicited pkt sender order =>
    simp only [step, onUnsolicitedMessage]
    split
    · exact .inl rfl
    · split
      · rename_i m _
        simp only [handleNodeListReport]
        split
        · exact add _ _ rfl trivial
        · exact add _ _ (reportLoop_keeps ..) (reportLoop_awaited _ _).1
      · split
        · exact .inl rfl
        · split
          · split
            · split <;> exact .inl rfl
            · exact .inl rfl
          · exact .inl rfl
  | job i order =>
    simp only [step, stepJob]
    split
    · exact .inl rfl
    · split
      · exact .inl rfl
      · exact put _ i _ rfl trivial
      · exact put _ i _ rfl trivial
    · split
      · exact put _ i _ (afterAsk_keeps ..) (afterAsk_awaited ..).1
      · split <;> exact .inl rfl
    · split
      · exact .inl rfl
      · exact put _ i _ rfl trivial
      · exact put _ i _ (reportLoop_keeps ..) (reportLoop_awaited _ _).1
    · split
      · exact .inl rfl
      · exact put _ i _ rfl trivial
      · exact put _ i _ (setupLoop_keeps ..) (setupLoop_awaited _ _).1
    · split
      · exact .inl rfl
      · exact put _ i _ rfl trivial
      · split
        · exact put _ i _ rfl trivial
        · exact put _ i _ rfl trivial
    · exact .inl rfl
    · exact .inl rfl
  | conn o =>
    simp only [step]
    split <;> exact .inl rfl
  | link k o =>
    simp only [step]
    split
    · exact .inl rfl
    · exact .inl (told_keeps _ _ _)

/-- What coroutines await is there. -/
def AllAwaited (s : State) : Prop := ∀ (i : Nat) (j : Job), s.jobs[i]? = some j → Awaited s.conn j

theorem AllAwaited.step {s : State} (h : AllAwaited s) (o : Op) : AllAwaited (step s o) := by
  have g := grow_of (step_c s o)
  intro i j hj
  rcases step_keeps s o with e | ⟨x, hx, e | ⟨a, e⟩⟩
  · rw [e] at hj; exact (h i j hj).grow g
  · rw [e] at hj
    rcases Nat.lt_or_ge i s.jobs.length with hlt | hge
    · rw [List.getElem?_append_left hlt] at hj; exact (h i j hj).grow g
    · rw [List.getElem?_append_right hge] at hj
      rcases Nat.eq_zero_or_pos (i - s.jobs.length) with hz | hz
      · rw [hz] at hj; cases hj; exact hx
      · rw [List.getElem?_eq_none (by simp only [List.length_cons, List.length_nil]; omega)] at hj; cases hj
  · rw [e, List.getElem?_set] at hj
    split at hj
    · split at hj
      · cases hj; exact hx
      · cases hj
    · exact (h i j hj).grow g

theorem awaited_run (ops : List Op) : AllAwaited (run init ops) := by
  induction ops using Conn.snoc_ind with
  | nil => intro i j hj; simp [run, init] at hj
  | snoc ops o ih => rw [run_snoc]; exact ih.step o

/-! ## They end -/

/-- Coroutine `i` can end. -/
def CanEnd (ok : Bool) (ops : List Op) (i : Nat) : Prop := ∃ l, (∀ o ∈ l, gatewayTurn ok o = true) ∧ ∃ r, (run init (ops ++ l)).jobs[i]? = some (.done r)

theorem CanEnd.after {ok : Bool} {ops l : List Op} {i : Nat} (h : CanEnd ok (ops ++ l) i) (hl : ∀ o ∈ l, gatewayTurn ok o = true) : CanEnd ok ops i := by
  obtain ⟨l', h1, r, h2⟩ := h
  refine ⟨l ++ l', fun o ho => ?_, r, by rw [← List.append_assoc]; exact h2⟩
  rcases List.mem_append.mp ho with ho | ho
  · exact hl o ho
  · exact h1 o ho

theorem CanEnd.now {ok : Bool} {ops : List Op} {i : Nat} {r : Py Ret} (h : (run init ops).jobs[i]? = some (.done r)) : CanEnd ok ops i :=
  ⟨[], by simp, r, by rw [List.append_nil]; exact h⟩

/-- Its turn. -/
theorem CanEnd.turn {ok : Bool} {ops : List Op} {i : Nat} (h : CanEnd ok (ops ++ [.job i []]) i) : CanEnd ok ops i := h.after (by simp [gatewayTurn])

/-- A waiting call ends, and nothing happens to coroutines meanwhile. -/
theorem wait_done (ok : Bool) (ops : List Op) {t d : Nat} (h : Waiter.Far 1 d t (run init ops).conn.w) :
    ∃ l, (∀ o ∈ l, gatewayTurn ok o = true) ∧ (run init (ops ++ l)).jobs = (run init ops).jobs ∧ ∃ r, taskDone (run init (ops ++ l)) t = some r := by
  have hws := Waiter.turnsFor_turn t d
  obtain ⟨u, r, hu, hr⟩ := Waiter.far_ends h (by omega) _ (List.Sublist.refl (Waiter.turnsFor t d))
  have e := lift_run _ (run init ops) hws
  refine ⟨(Waiter.turnsFor t d).map lift, fun o ho => ?_, ?_, r, ?_⟩
  · obtain ⟨w, hw, rfl⟩ := List.mem_map.mp ho
    exact lift_turn (hws w hw)
  · rw [run_append, e]
  · rw [run_append, e]; unfold taskDone; simp only [hu, hr]

theorem conn_turns (os : List Conn.Op) : ∀ s : State, (∀ o ∈ os, connTurn o = true) → run s (os.map .conn) = { s with conn := Conn.run s.conn os } := by
  induction os with
  | nil => intro s _; rfl
  | cons o os ih =>
    intro s h
    have hx : external o = true := by
      have := h o (List.mem_cons_self ..)
      cases o with
      | waiter w => cases w <;> first | rfl | cases this
      | _ => rfl
    rw [List.map_cons, run_cons, ih _ fun x hx => h x (List.mem_cons_of_mem _ hx)]
    simp only [step, hx, if_true]
    rfl

/-- A send ends, and nothing happens to coroutines meanwhile. -/
theorem send_done (ok : Bool) (ops : List Op) {k : Nat} (h : k < (run init ops).conn.sends.length) :
    ∃ l, (∀ o ∈ l, gatewayTurn ok o = true) ∧ (run init (ops ++ l)).jobs = (run init ops).jobs ∧ ∃ r, sendResult (run init (ops ++ l)) k = some r := by
  obtain ⟨n, t', r, h4, h5⟩ := Conn.send_ends _ k _ (List.getElem?_eq_getElem h)
  have e := conn_turns (Conn.turnsFor k n) (run init ops) (Conn.turnsFor_turn k n)
  refine ⟨(Conn.turnsFor k n).map .conn, fun o ho => ?_, ?_, r, ?_⟩
  · obtain ⟨w, hw, rfl⟩ := List.mem_map.mp ho
    exact Conn.turnsFor_turn k n w hw
  · rw [run_append, e]
  · rw [run_append, e]; unfold sendResult; simp only [h4, h5]

theorem opening_ends (ok : Bool) (ops : List Op) {i n k : Nat} (h : (run init ops).jobs[i]? = some (.opening n k)) : CanEnd ok ops i := by
  refine CanEnd.after (l := [.opened i ok]) ?_ (by simp [gatewayTurn])
  have hlt := (List.getElem?_eq_some_iff.mp h).1
  have : ∃ r, (run init (ops ++ [.opened i ok])).jobs[i]? = some (.done r) := by
    rw [run_snoc]
    simp only [step, h]
    split
    · exact ⟨_, List.getElem?_set_self hlt⟩
    · exact ⟨_, List.getElem?_set_self hlt⟩
  exact .now this.choose_spec

theorem sent_ends (ok : Bool) (ops : List Op) {i k : Nat} (h : (run init ops).jobs[i]? = some (.sent k)) : CanEnd ok ops i := by
  obtain ⟨l, h1, h2, r, h3⟩ := send_done ok ops (awaited_run ops i _ h)
  refine CanEnd.after ?_ h1
  rw [← h2] at h
  have hlt := (List.getElem?_eq_some_iff.mp h).1
  refine CanEnd.turn ?_
  have : ∃ r, (run init (ops ++ l ++ [.job i []])).jobs[i]? = some (.done r) := by
    rw [run_snoc]
    simp only [step, stepJob, h, h3]
    cases r with
    | ok b => exact ⟨_, List.getElem?_set_self hlt⟩
    | error e => exact ⟨_, List.getElem?_set_self hlt⟩
  exact .now this.choose_spec

theorem connect_ends' (ok : Bool) (ops : List Op) {i n t : Nat} (h : (run init ops).jobs[i]? = some (.connect n t)) : CanEnd ok ops i := by
  obtain ⟨d, hd⟩ := awaited_run ops i _ h
  obtain ⟨l, h1, h2, r, h3⟩ := wait_done ok ops hd
  refine CanEnd.after ?_ h1
  rw [← h2] at h
  have hlt := (List.getElem?_eq_some_iff.mp h).1
  refine CanEnd.turn ?_
  have : (∃ r, (run init (ops ++ l ++ [.job i []])).jobs[i]? = some (.done r)) ∨ ∃ m k, (run init (ops ++ l ++ [.job i []])).jobs[i]? = some (.opening m k) := by
    rw [run_snoc]
    simp only [step, stepJob, h, h3]
    cases r with
    | error e => exact .inl ⟨_, List.getElem?_set_self hlt⟩
    | ok a =>
      dsimp only
      cases advertised a with
      | none => exact .inl ⟨_, List.getElem?_set_self hlt⟩
      | some ip => exact .inr ⟨n, _, List.getElem?_set_self hlt⟩
  rcases this with ⟨r, hr⟩ | ⟨m, k, hk⟩
  · exact .now hr
  · exact opening_ends ok _ hk

theorem report_ends (ok : Bool) (b : Nat) : ∀ (ops : List Op) {i n t : Nat} {todo : List Nat}, todo.length ≤ b → (run init ops).jobs[i]? = some (.report n todo t) → CanEnd ok ops i := by
  induction b using Nat.strongRecOn with
  | ind b ih =>
    intro ops i n t todo hb h
    obtain ⟨d, hd⟩ := awaited_run ops i _ h
    obtain ⟨l, h1, h2, r, h3⟩ := wait_done ok ops hd
    refine CanEnd.after ?_ h1
    rw [← h2] at h
    have hlt := (List.getElem?_eq_some_iff.mp h).1
    refine CanEnd.turn ?_
    have : (∃ r, (run init (ops ++ l ++ [.job i []])).jobs[i]? = some (.done r)) ∨
        ∃ m todo' k, (run init (ops ++ l ++ [.job i []])).jobs[i]? = some (.report m todo' k) ∧ todo'.length < todo.length := by
      rw [run_snoc]
      simp only [step, stepJob, h, h3]
      cases r with
      | error e => exact .inl ⟨_, List.getElem?_set_self hlt⟩
      | ok a =>
        dsimp only
        have hl := reportLoop_keeps todo { run init (ops ++ l) with nodes := (run init (ops ++ l)).nodes.set n (advertised a) }
        have hj := (reportLoop_awaited todo { run init (ops ++ l) with nodes := (run init (ops ++ l)).nodes.set n (advertised a) }).2
        generalize reportLoop _ todo = x at *
        simp only [State.setJob, hl, List.getElem?_set_self hlt]
        rcases hj with ⟨r, e⟩ | ⟨m, l', k, e, hk⟩
        · exact .inl ⟨r, by rw [e]⟩
        · exact .inr ⟨m, l', k, by rw [e], hk⟩
    rcases this with ⟨r, hr⟩ | ⟨m, todo', k, hk, hlen⟩
    · exact .now hr
    · exact ih todo'.length (by omega) _ (Nat.le_refl _) hk

theorem setup_ends (ok : Bool) (b : Nat) : ∀ (ops : List Op) {i n t : Nat} {todo : List Nat}, todo.length ≤ b → (run init ops).jobs[i]? = some (.setup n todo t) → CanEnd ok ops i := by
  induction b using Nat.strongRecOn with
  | ind b ih =>
    intro ops i n t todo hb h
    obtain ⟨d, hd⟩ := awaited_run ops i _ h
    obtain ⟨l, h1, h2, r, h3⟩ := wait_done ok ops hd
    refine CanEnd.after ?_ h1
    rw [← h2] at h
    have hlt := (List.getElem?_eq_some_iff.mp h).1
    refine CanEnd.turn ?_
    have : (∃ r, (run init (ops ++ l ++ [.job i []])).jobs[i]? = some (.done r)) ∨
        ∃ m todo' k, (run init (ops ++ l ++ [.job i []])).jobs[i]? = some (.setup m todo' k) ∧ todo'.length < todo.length := by
      rw [run_snoc]
      simp only [step, stepJob, h, h3]
      cases r with
      | error e => exact .inl ⟨_, List.getElem?_set_self hlt⟩
      | ok a =>
        dsimp only
        have hl := setupLoop_keeps todo { run init (ops ++ l) with nodes := (run init (ops ++ l)).nodes.set n (advertised a) }
        have hj := (setupLoop_awaited todo { run init (ops ++ l) with nodes := (run init (ops ++ l)).nodes.set n (advertised a) }).2
        generalize setupLoop _ todo = x at *
        simp only [State.setJob, hl, List.getElem?_set_self hlt]
        rcases hj with ⟨r, e⟩ | ⟨m, l', k, e, hk⟩
        · exact .inl ⟨r, by rw [e]⟩
        · exact .inr ⟨m, l', k, by rw [e], hk⟩
    rcases this with ⟨r, hr⟩ | ⟨m, todo', k, hk, hlen⟩
    · exact .now hr
    · exact ih todo'.length (by omega) _ (Nat.le_refl _) hk

/-- With an answer, or an exception. -/
theorem answered_ends (ok : Bool) (ops : List Op) {i t k : Nat} {a : Ask} (h : (run init ops).jobs[i]? = some (.ask a t k)) {r : Py Msg} (hr : taskDone (run init ops) t = some r) : CanEnd ok ops i := by
  have hlt := (List.getElem?_eq_some_iff.mp h).1
  refine CanEnd.turn ?_
  have e : (run init (ops ++ [.job i []])).jobs[i]? = some (afterAsk (run init ops) a r []).2 := by
    rw [run_snoc]
    simp only [step, stepJob, h, hr, State.setJob, afterAsk_keeps]
    exact List.getElem?_set_self hlt
  rcases (afterAsk_awaited (run init ops) a r []).2 with ⟨x, hx⟩ | ⟨x, hx⟩ | ⟨n, l, x, hx⟩
  · rw [hx] at e; exact .now e
  · rw [hx] at e; exact sent_ends ok _ e
  · rw [hx] at e; exact setup_ends ok l.length _ (Nat.le_refl _) e

theorem asked_ends (ok : Bool) (ops : List Op) {i t k : Nat} {a : Ask} (h : (run init ops).jobs[i]? = some (.ask a t k)) : CanEnd ok ops i := by
  obtain ⟨l, h1, h2, r, h3⟩ := send_done ok ops (awaited_run ops i _ h).2
  refine CanEnd.after ?_ h1
  rw [← h2] at h
  cases hd : taskDone (run init (ops ++ l)) t with
  | some x => exact answered_ends ok _ h hd
  | none =>
    have hi := (awaited_run _ i _ h).1
    refine CanEnd.turn ?_
    have e : run init (ops ++ l ++ [.job i []]) =
        { run init (ops ++ l) with conn := { (run init (ops ++ l)).conn with w := Waiter.step (run init (ops ++ l)).conn.w (System.sendEnded r t) } } := by
      rw [run_snoc]
      simp only [step, stepJob, h, hd, h3]
      cases r <;> rfl
    obtain ⟨ws, ew⟩ := run_waiter (ops ++ l)
    obtain ⟨_, inv⟩ := Waiter.inv_run ws
    rw [← ew] at inv
    obtain ⟨u, hu, hp⟩ := Waiter.sent_task inv hi r
    obtain ⟨ws', ew'⟩ := run_waiter (ops ++ l ++ [.job i []])
    obtain ⟨_, inv'⟩ := Waiter.inv_run ws'
    rw [← ew'] at inv'
    have hu' : (run init (ops ++ l ++ [.job i []])).conn.w.tasks[t]? = some u := by rw [e]; exact hu
    obtain ⟨l', g1, g2, r', g3⟩ := wait_done ok _ (Waiter.far_of inv' hu' hp)
    refine CanEnd.after ?_ g1
    refine answered_ends ok _ (a := a) (k := k) ?_ g3
    rw [g2, e]
    exact h

/-- Every coroutine of the gateway can end. -/
theorem job_ends (ok : Bool) (ops : List Op) {i : Nat} (h : i < (run init ops).jobs.length) : CanEnd ok ops i := by
  have hj := List.getElem?_eq_getElem h
  cases hx : (run init ops).jobs[i] with
  | sent k => rw [hx] at hj; exact sent_ends ok ops hj
  | ask a t k => rw [hx] at hj; exact asked_ends ok ops hj
  | report n todo t => rw [hx] at hj; exact report_ends ok _ ops (Nat.le_refl _) hj
  | setup n todo t => rw [hx] at hj; exact setup_ends ok _ ops (Nat.le_refl _) hj
  | connect n t => rw [hx] at hj; exact connect_ends' ok ops hj
  | opening n k => rw [hx] at hj; exact opening_ends ok ops hj
  | done r => rw [hx] at hj; exact .now hj

/-- Without calls and messages there are no further coroutines. -/
theorem turn_jobs {ok : Bool} (s : State) (o : Op) (h : gatewayTurn ok o = true) : (step s o).jobs.length = s.jobs.length := by
  cases o with
  | opened i b =>
    simp only [step]
    split
    · split <;> exact List.length_set ..
    · rfl
  | job i order =>
    simp only [step, stepJob]
    split
    · rfl
    · split <;> first | rfl | exact List.length_set ..
    · split
      · simp only [State.setJob, afterAsk_keeps, List.length_set]
      · split <;> rfl
    · split
      · rfl
      · exact List.length_set ..
      · simp only [State.setJob, reportLoop_keeps, List.length_set]
    · split
      · rfl
      · exact List.length_set ..
      · simp only [State.setJob, setupLoop_keeps, List.length_set]
    · split
      · rfl
      · exact List.length_set ..
      · split <;> exact List.length_set ..
    · rfl
    · rfl
  | conn o =>
    simp only [step]
    split <;> rfl
  | link k o =>
    simp only [step]
    split
    · rfl
    · rw [told_keeps]
  | _ => cases h

theorem turns_jobs {ok : Bool} (l : List Op) : ∀ s : State, (∀ o ∈ l, gatewayTurn ok o = true) → (run s l).jobs.length = s.jobs.length := by
  induction l with
  | nil => intro s _; rfl
  | cons o l ih =>
    intro s h
    rw [run_cons, ih _ fun x hx => h x (List.mem_cons_of_mem _ hx), turn_jobs s o (h o (List.mem_cons_self ..))]

theorem done_run (l : List Op) : ∀ (s : State) {i : Nat} {r : Py Ret}, s.jobs[i]? = some (.done r) → (run s l).jobs[i]? = some (.done r) := by
  induction l with
  | nil => intro s i r h; exact h
  | cons o l ih => intro s i r h; exact ih _ (jobs_done s o i r h)

/-- All of them. -/
theorem all_end (ok : Bool) (ops : List Op) : ∀ n, n ≤ (run init ops).jobs.length →
    ∃ l, (∀ o ∈ l, gatewayTurn ok o = true) ∧ ∀ i < n, ∃ r, (run init (ops ++ l)).jobs[i]? = some (.done r) := by
  intro n
  induction n with
  | zero => intro _; exact ⟨[], by simp, fun i hi => absurd hi (Nat.not_lt_zero i)⟩
  | succ n ih =>
    intro h
    obtain ⟨l, h1, h2⟩ := ih (by omega)
    have hl := turns_jobs l (run init ops) h1
    rw [← run_append] at hl
    obtain ⟨l', h3, r, h4⟩ := job_ends ok (ops ++ l) (i := n) (by omega)
    refine ⟨l ++ l', fun o ho => ?_, fun i hi => ?_⟩
    · rcases List.mem_append.mp ho with ho | ho
      · exact h1 o ho
      · exact h3 o ho
    · rw [← List.append_assoc]
      rcases Nat.lt_succ_iff_lt_or_eq.mp hi with hi | rfl
      · obtain ⟨r, hr⟩ := h2 i hi
        exact ⟨r, by rw [run_append]; exact done_run l' _ hr⟩
      · exact ⟨r, h4⟩

end Model.Gateway
