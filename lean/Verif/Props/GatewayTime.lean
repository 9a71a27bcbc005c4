import Verif.Props.GatewayCalls
import Verif.Props.Ends
/-!
# How long the gateway's queries take

Property C121: a query that gets no report neither gives up before its time nor waits longer.
-/
namespace Props.GatewayTime
open Spec Model Model.Gateway Props.Gateway Props.GatewayCalls

/-- How many seconds a query waits for its report, counted from the end of its send. -/
def patience : Nm → Option Nat
  | .getFailedNodeList => some 3
  | .getMultiChannelEndPoints _ => some 3
  | .getMultiChannelCapability .. => some 3
  | .getNodeList => some 3
  | .getNodeInfo _ => some 3
  | .removeFailedNode _ => some 10
  | _ => none

/-- The type of its report. -/
def report : Nm → Option Nat
  | .getNodeList => some 0x5202
  | c => reportOf c

theorem waits {c : Nm} {T hid : Nat} (hp : patience c = some T) (hr : report c = some hid) : c.waitsFor = some (hid, T) := by
  cases c <;> simp only [patience, report, reportOf, Option.some.injEq, reduceCtorEq] at hp hr <;> subst hp <;> subst hr <;> rfl

/-- **C121.** A query that returns although no report of its type has arrived since it was called was called at least its time ago. -/
theorem C121_not_early (ops ops' : List Op) (c : Nm) (T hid : Nat) (r : Ret) (hp : patience c = some T) (hh : report c = some hid) :
    let s := run init ops
    let s' := run (step s (.nm c)) ops'
    ¬ (c = .getNodeList ∧ s.nodes ≠ []) →
    s'.jobs[s.jobs.length]? = some (.done (.ok r)) →
    (∀ b m, .conn (.packet b) ∈ ops' → Delivers b m → m.hid ≠ hid) → s.conn.now + T ≤ s'.conn.now := by
  intro s s' hc hj hno
  obtain ⟨x, hx, h⟩ := asked ops ops' c hid T hc (waits hp hh)
  rw [show (Gateway.run (Gateway.step (run init ops) (.nm c)) ops').jobs[(run init ops).jobs.length]? = _ from hj] at hx
  cases hx
  rcases h with ⟨t, k, h1, -⟩ | ⟨e, h1⟩ | ⟨h1, -⟩ | ⟨m, ⟨b, hb, hd⟩, hm, -⟩
  · cases h1
  · cases h1
  · exact h1
  · exact absurd hm (hno b m hb hd)

/-! ## It ends in time -/

/-- The query `i` with the waiting call `t` and the send `k` has ended or waits. -/
def Pending (a : Ask) (timeout i t k : Nat) (s : State) : Prop :=
  (∃ r, s.jobs[i]? = some (.done r)) ∨ (s.jobs[i]? = some (.ask a t k) ∧ Ends.Begun t timeout s.conn.w)

theorem done_keep {s : State} {i : Nat} {r : Py Ret} (h : s.jobs[i]? = some (.done r)) (op : Op) : (step s op).jobs[i]? = some (.done r) := by
  by_cases hj : ∀ order, op ≠ .job i order
  · exact jobs_keep s op i _ h hj (by simp)
  · obtain ⟨order, rfl⟩ : ∃ order, op = .job i order := Classical.byContradiction (fun h => hj (fun o e => h ⟨o, e⟩))
    simp only [Gateway.step, stepJob, h]

theorem done_run {i : Nat} {r : Py Ret} (ops : List Op) : ∀ {s : State}, s.jobs[i]? = some (.done r) → (run s ops).jobs[i]? = some (.done r) := by
  induction ops with
  | nil => intro s h; exact h
  | cons op ops ih => intro s h; exact ih (done_keep h op)

theorem job_turn {s : State} {a : Ask} (ha : a.Query) {i t k : Nat} (h : s.jobs[i]? = some (.ask a t k)) (order : List Nat) (r : Py Msg) (hd : taskDone s t = some r) :
    ∃ x, (step s (.job i order)).jobs[i]? = some (.done x) := by
  have hlen := (List.getElem?_eq_some_iff.mp h).1
  obtain ⟨x, hx⟩ := ended_done ha r
  refine ⟨x, ?_⟩
  simp only [Gateway.step, stepJob, h, hd]
  obtain ⟨c, d, n, j, hf⟩ := afterAsk_frame s a r order
  have := afterAsk_ended s ha r order
  rw [hf] at this ⊢
  rw [← hx, ← this]
  exact List.getElem?_set_self hlen

theorem Pending.step {a : Ask} (ha : a.Query) {timeout i t k : Nat} {s : State} (h : Pending a timeout i t k s) (op : Op) : Pending a timeout i t k (Gateway.step s op) := by
  rcases h with ⟨r, h⟩ | ⟨h, hb⟩
  · exact .inl ⟨r, done_keep h op⟩
  · have hb' : Ends.Begun t timeout (Gateway.step s op).conn.w := by
      obtain ⟨ws, e, -⟩ := step_w s op
      rw [e]
      exact hb.run ws
    by_cases hj : ∀ order, op ≠ .job i order
    · exact .inr ⟨jobs_keep s op i _ h hj (by simp), hb'⟩
    · obtain ⟨order, rfl⟩ : ∃ order, op = .job i order := Classical.byContradiction (fun h => hj (fun o e => h ⟨o, e⟩))
      cases hd : taskDone s t with
      | some r => exact .inl (job_turn ha h order r hd)
      | none =>
        refine .inr ⟨?_, hb'⟩
        simp only [Gateway.step, stepJob, h, hd]
        split <;> exact h

theorem Pending.run {a : Ask} (ha : a.Query) {timeout i t k : Nat} (ops : List Op) : ∀ {s : State}, Pending a timeout i t k s → Pending a timeout i t k (run s ops) := by
  induction ops with
  | nil => intro s h; exact h
  | cons op ops ih => intro s h; exact ih (h.step ha op)

/-- The operation of the gateway that is an operation of a waiting call. -/
def gwOp : Waiter.Op → Op
  | .tick => .conn .tick
  | o => .conn (.waiter o)

/-- Time passes, or the event loop gives a waiting call a turn. -/
def turn : Waiter.Op → Bool
  | .tick => true
  | .timer _ => true
  | .resume _ => true
  | .cancelDone _ => true
  | _ => false

theorem gwOp_inj {o o' : Waiter.Op} (h : turn o = true) (h' : turn o' = true) (e : gwOp o = gwOp o') : o = o' := by
  cases o <;> cases o' <;> simp_all [turn, gwOp]

theorem turn_step (s : State) {o : Waiter.Op} (h : turn o = true) : (step s (gwOp o)).conn.w = Waiter.step s.conn.w o := by
  cases o <;> first | (simp only [turn, Bool.false_eq_true] at h; done) | rfl

/-- The waiting calls of the gateway have the turns the gateway has. -/
theorem turns (ops : List Op) : ∀ s : State, ∃ ws, (run s ops).conn.w = Waiter.run s.conn.w ws ∧
    ∀ l, (∀ o ∈ l, turn o = true) → List.Sublist (l.map gwOp) ops → List.Sublist l ws := by
  induction ops with
  | nil => intro s; exact ⟨[], rfl, fun l _ h => by cases l with | nil => exact .slnil | cons o l => cases h⟩
  | cons op ops ih =>
    intro s
    obtain ⟨ws, h1, h2⟩ := ih (step s op)
    by_cases ho : ∃ o, turn o = true ∧ op = gwOp o
    · obtain ⟨o, ht, rfl⟩ := ho
      refine ⟨o :: ws, by rw [run_cons, h1, turn_step s ht]; rfl, ?_⟩
      intro l hl hs
      cases l with
      | nil => exact List.nil_sublist _
      | cons o' l =>
        rw [List.map_cons] at hs
        generalize hg : gwOp o' = g at hs
        cases hs with
        | cons _ hs => subst hg; exact (h2 (o' :: l) hl hs).cons _
        | cons_cons _ hs =>
          cases gwOp_inj ht (hl o' (.head _)) hg.symm
          exact (h2 l (fun o ho => hl o (.tail _ ho)) hs).cons_cons _
    · obtain ⟨ws', h3, -⟩ := step_w s op
      refine ⟨ws' ++ ws, by rw [run_cons, h1, h3, Waiter.run_append], ?_⟩
      intro l hl hs
      refine (h2 l hl ?_).trans (List.sublist_append_right _ _)
      cases l with
      | nil => exact List.nil_sublist _
      | cons o' l =>
        rw [List.map_cons] at hs
        generalize hg : gwOp o' = g at hs
        cases hs with
        | cons _ hs => rw [List.map_cons, hg]; exact hs
        | cons_cons _ hs => exact absurd ⟨o', hl o' (.head _), hg.symm⟩ ho

theorem pending_start (s : State) (c : Nm) (hid timeout : Nat) (hc : ¬ (c = .getNodeList ∧ s.nodes ≠ [])) (hw : c.waitsFor = some (hid, timeout)) :
    Pending (if c = .getNodeList then .list else .nm c) timeout s.jobs.length s.conn.w.tasks.length s.conn.sends.length (step s (.nm c)) := by
  obtain ⟨k, j, hfr⟩ := startNm_frame s c
  have hj : (Gateway.step s (.nm c)).jobs[s.jobs.length]? = some (startNm s c).2 := by
    simp only [Gateway.step, State.addJob, hfr]; simp
  have hcw : (Gateway.step s (.nm c)).conn.w = (startNm s c).1.conn.w := rfl
  unfold Pending
  rw [hj, hcw]
  simp only [startNm, if_neg hc, hw]
  split
  · exact .inl ⟨_, rfl⟩
  · simp only [startAsk, afterAskSend]
    split
    · exact .inl ⟨_, rfl⟩
    · refine .inr ⟨rfl, ?_⟩
      simp only
      rw [(Conn.send_frame _ _ _ _ _).2]
      exact .inl ⟨_, Waiter.call_task _ .adapter hid timeout, rfl, .inr ⟨_, rfl⟩, rfl⟩

/-- The event loop gives the query its turns: its send has ended and it continues; `T` seconds pass; the timer of its waiting call fires, which runs and is cancelled; the query
continues. Any number of other things may happen in between. -/
def TurnsFor (i t T : Nat) (ops : List Op) : Prop :=
  ∃ order, List.Sublist (List.map gwOp (List.replicate T .tick ++ [.timer t, .resume t, .cancelDone t]) ++ [.job i order]) ops

/-- **C121.** A query ends once its send has ended and, after that, its time has passed and it had its turns, whatever else happens. -/
theorem C121_ends (ops ops1 ops2 : List Op) (c : Nm) (T : Nat) (order : List Nat) (hp : patience c = some T) :
    let s := run init ops
    let s1 := run (step s (.nm c)) ops1
    sendResult s1 s.conn.sends.length ≠ none →
    TurnsFor s.jobs.length s.conn.w.tasks.length T ops2 →
    ∃ r, (run (step s1 (.job s.jobs.length order)) ops2).jobs[s.jobs.length]? = some (.done r) := by
  intro s s1 hsend hturns
  by_cases hc : c = .getNodeList ∧ s.nodes ≠ []
  · obtain ⟨rfl, hn⟩ := hc
    have h0 := (C87_cached s hn).1
    have h1 : (step s (.nm .getNodeList)).jobs[s.jobs.length]? = some (.done (.ok (.nodes s.nodes.keys))) := by rw [h0]; simp
    exact ⟨_, done_run ops2 (done_keep (done_run ops1 h1) _)⟩
  · obtain ⟨hid, hh⟩ : ∃ hid, report c = some hid := by
      cases c <;> simp only [patience, reduceCtorEq] at hp <;> exact ⟨_, rfl⟩
    have hw := waits hp hh
    have ha : Ask.Query (if c = .getNodeList then .list else .nm c) := by split <;> trivial
    have h1 := (pending_start s c hid T hc hw).run ha ops1
    generalize (if c = Nm.getNodeList then Ask.list else Ask.nm c) = a at ha h1
    rcases h1 with ⟨r, h1⟩ | ⟨h1, hb⟩
    · exact ⟨r, done_run ops2 (done_keep h1 _)⟩
    · cases hd : taskDone s1 s.conn.w.tasks.length with
      | some r =>
        obtain ⟨x, hx⟩ := job_turn ha h1 order r hd
        exact ⟨x, done_run ops2 hx⟩
      | none =>
        -- the waiting call learns how the send ended
        have hfar : Waiter.Far 1 ((step s1 (.job s.jobs.length order)).conn.w.now + T) s.conn.w.tasks.length (step s1 (.job s.jobs.length order)).conn.w := by
          obtain ⟨x, hx⟩ : ∃ x, sendResult s1 s.conn.sends.length = some x := Option.ne_none_iff_exists'.mp hsend
          have key : ∀ o : Waiter.Op, (∃ b, o = .sendDone s.conn.w.tasks.length b) ∨ (∃ e, o = .sendRaise s.conn.w.tasks.length e) →
              (step s1 (.job s.jobs.length order)).conn.w = Waiter.step s1.conn.w o →
              Waiter.Far 1 ((step s1 (.job s.jobs.length order)).conn.w.now + T) s.conn.w.tasks.length (step s1 (.job s.jobs.length order)).conn.w := by
            intro o ho hw
            rw [hw]
            rcases hb with ⟨u, hu, hpc, hk, hto⟩ | hb
            · rcases ho with ⟨b, rfl⟩ | ⟨e, rfl⟩
              · refine Ends.far_mono (Ends.sendDone_far hu hpc hk b) ?_
                rw [hto]
                exact Nat.add_le_add_right (Waiter.now_step _ _) _
              · refine ⟨{ u with pc := .done (.error e) }, ?_, by simp [Waiter.Pc.rank], .inr rfl, by simp [Waiter.Pc.rank], fun h => absurd rfl h⟩
                simp only [Waiter.step, show s1.conn.w.tasks[s.conn.w.tasks.length]? = some u from hu, hpc, ne_eq, not_true_eq_false, if_false]
                exact List.getElem?_set_self (Waiter.lt_of_getElem? hu)
            · exact Ends.far_mono (hb.step o) (Nat.add_le_add_right (Waiter.now_step _ _) _)
          cases x with
          | ok b => exact key (.sendDone _ b) (.inl ⟨b, rfl⟩) (by simp only [Gateway.step, stepJob, show s1.jobs[s.jobs.length]? = some (.ask a _ _) from h1, hd, hx])
          | error e => exact key (.sendRaise _ e) (.inr ⟨e, rfl⟩) (by simp only [Gateway.step, stepJob, show s1.jobs[s.jobs.length]? = some (.ask a _ _) from h1, hd, hx])
        have h2 : (step s1 (.job s.jobs.length order)).jobs[s.jobs.length]? = some (.ask a s.conn.w.tasks.length s.conn.sends.length) := by
          simp only [Gateway.step, stepJob, show s1.jobs[s.jobs.length]? = some (.ask a _ _) from h1, hd]
          split <;> exact h1
        generalize step s1 (.job s.jobs.length order) = s2 at hfar h2 ⊢
        obtain ⟨order2, hsub⟩ := hturns
        obtain ⟨p, q, rfl, hp1, hp2⟩ := List.append_sublist_iff.mp hsub
        obtain ⟨q1, q2, rfl, -⟩ := sublist_cons hp2
        rw [run_append, run_append, run_cons]
        -- the waiting call is over before the last turn
        have hover : ∃ u r, (run s2 p).conn.w.tasks[s.conn.w.tasks.length]? = some u ∧ u.pc = .done r := by
          obtain ⟨ws, e, hws⟩ := turns p s2
          rw [e]
          refine Waiter.far_ends hfar (Nat.le_refl _) ws (hws _ ?_ hp1)
          intro o ho
          simp only [List.mem_append, List.mem_replicate, List.mem_cons, List.not_mem_nil, or_false] at ho
          rcases ho with ⟨-, rfl⟩ | rfl | rfl | rfl <;> rfl
        have hpend : (∃ r, (run (run s2 p) q1).jobs[s.jobs.length]? = some (.done r)) ∨
            (run (run s2 p) q1).jobs[s.jobs.length]? = some (.ask a s.conn.w.tasks.length s.conn.sends.length) := by
          have : Pending a T s.jobs.length s.conn.w.tasks.length s.conn.sends.length (run (run s2 p) q1) :=
            Pending.run ha q1 (Pending.run ha p (.inr ⟨h2, .inr hfar⟩))
          rcases this with h | ⟨h, -⟩
          · exact .inl h
          · exact .inr h
        rcases hpend with ⟨r, h⟩ | h
        · exact ⟨r, done_run q2 (done_keep h _)⟩
        · obtain ⟨u, r, hu, hr⟩ := hover
          have hu' : ∃ u, (run (run s2 p) q1).conn.w.tasks[s.conn.w.tasks.length]? = some u ∧ ∃ r, u.pc = .done r := by
            have hfar4 : Waiter.Far 4 0 s.conn.w.tasks.length (run s2 p).conn.w :=
              ⟨u, hu, by rw [hr]; exact Nat.le_refl _, .inr (by rw [hr]; rfl), by rw [hr]; simp [Waiter.Pc.rank], fun h => absurd (by rw [hr]; rfl) h⟩
            obtain ⟨ws, e, -⟩ := turns q1 (run s2 p)
            obtain ⟨u', hu', h4, -⟩ := hfar4.run ws
            rw [← e] at hu'
            refine ⟨u', hu', ?_⟩
            cases hpc : u'.pc with
            | done r => exact ⟨r, rfl⟩
            | _ => rw [hpc] at h4; simp [Waiter.Pc.rank] at h4
          obtain ⟨u', hu', r', hr'⟩ := hu'
          obtain ⟨x, hx⟩ := job_turn ha h order2 r' (by simp only [taskDone, hu', hr'])
          exact ⟨x, done_run q2 hx⟩

/-- What happens when the gateway acknowledges the command `c` and never reports: after `n` seconds the query has its turns. -/
def unanswered (c : Nm) (n : Nat) : List Op :=
  [.conn .connect, .nm c, .conn (.packet ack), .conn (.resume 0), .job 0 []] ++ List.replicate n (.conn .tick) ++
    [.conn (.waiter (.timer 0)), .conn (.waiter (.resume 0)), .conn (.waiter (.cancelDone 0)), .job 0 []]

/-- The bounds are met: 3 seconds are needed and enough, 10 for a removal. -/
example : ∀ c ∈ [Nm.getFailedNodeList, .getMultiChannelEndPoints 5, .getMultiChannelCapability 5 1, .getNodeList, .getNodeInfo 5],
    (run init (unanswered c 2)).jobs.all (fun j => match j with | .ask .. => true | _ => false) = true ∧
    (run init (unanswered c 3)).jobs.all (fun j => match j with | .done (.ok _) => true | _ => false) = true := by
  decide +kernel

example : (run init (unanswered (.removeFailedNode 5) 9)).jobs = [.ask (.nm (.removeFailedNode 5)) 0 0] ∧
    (run init (unanswered (.removeFailedNode 5) 10)).jobs = [.done (.ok (.num 2))] := by
  decide +kernel

/-- The same for setting the mode and for the look-up of an address. -/
example : let run (n : Nat) := run init ([.conn .connect, .setMode 1, .conn (.packet ack), .conn (.resume 0), .job 0 []] ++ List.replicate n (.conn .tick) ++
      [.conn (.waiter (.timer 0)), .conn (.waiter (.resume 0)), .conn (.waiter (.cancelDone 0)), .job 0 []])
    (run 2).jobs = [.ask (.mode 1) 0 0] ∧ (run 3).jobs = [.done (.ok (.bool false))] := by
  decide +kernel

example : let run (n : Nat) := run init ([.conn .connect, .connectToNode 5] ++ List.replicate n (.conn .tick) ++
      [.conn (.waiter (.timer 0)), .conn (.waiter (.resume 0)), .conn (.waiter (.cancelDone 0)), .job 0 []])
    (run 2).jobs = [.connect 5 0] ∧ (run 3).jobs = [.done (.error .timeout)] := by
  decide +kernel

end Props.GatewayTime
