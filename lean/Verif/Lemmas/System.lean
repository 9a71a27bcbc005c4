import Verif.Model.System
import Verif.Lemmas.ToNode
import Verif.Lemmas.Waiter
import Verif.Lemmas.Application
/-!
# Lemmas about asking a node
-/
namespace Model.App

/-- What one step does to the table: at most one new object is entered, and it is a new one. -/
def Enters (s s' : State) : Prop :=
  s'.objs = s.objs ∧ (∀ p ∈ s'.nodes, p ∈ s.nodes) ∨ s'.objs = s.objs + 1 ∧ ∃ nd : Nd, nd.obj = s.objs ∧ ∀ p ∈ s'.nodes, p ∈ s.nodes ∨ p.2 = nd

theorem enters_refl {s s' : State} (h1 : s'.objs = s.objs) (h2 : s'.nodes = s.nodes) : Enters s s' := .inl ⟨h1, fun p hp => by rw [← h2]; exact hp⟩

theorem load_nodes (i : Nat) (k : Kind) (rest : List Nat) : ∀ (s : State) (new : List Nd), (load s i k new rest).nodes = s.nodes ∧ (load s i k new rest).objs = s.objs := by
  induction rest with
  | nil =>
    intro s new
    unfold load
    split
    · split <;> exact ⟨rfl, rfl⟩
    · exact ⟨rfl, rfl⟩
  | cons n rest ih =>
    intro s new
    unfold load
    split
    · exact ih s new
    · split
      · exact ih s new
      · exact ⟨rfl, rfl⟩

theorem announce_nodes (i : Nat) (k : Kind) (size : Nat) (todo : List Nd) (s : State) : (announce s i k size todo).nodes = s.nodes ∧ (announce s i k size todo).objs = s.objs := by
  cases todo <;> (simp only [announce]; split <;> exact ⟨rfl, rfl⟩)

theorem remove_enters (i : Nat) (all : List Str) (list : List Nat) (todo : List Str) (s : State) : (remove s i all list todo).objs = s.objs ∧
    ∀ p ∈ (remove s i all list todo).nodes, p ∈ s.nodes := by
  cases todo with
  | nil =>
    simp only [remove]
    split
    · obtain ⟨h1, h2⟩ := load_nodes i .update list s []
      exact ⟨h2, fun p hp => by rw [← h1]; exact hp⟩
    · exact ⟨rfl, fun p hp => hp⟩
  | cons k todo =>
    simp only [remove]
    split
    · refine ⟨rfl, fun p hp => ?_⟩
      exact (List.mem_filter.mp hp).1
    · exact ⟨rfl, fun p hp => hp⟩

theorem enters_answer (s : State) (i : Nat) (a : Ans) : Enters s (answer s i a) := by
  unfold answer
  split
  case h_2 => exact .inl (remove_enters _ _ _ _ _)
  case h_5 => exact .inl (remove_enters _ _ _ _ _)
  case h_9 =>
    split
    · exact enters_refl rfl rfl
    · rename_i k n rest new x hpc _ _ _
      right
      refine ⟨?_, ⟨s.objs, n, 0, x⟩, rfl, fun p hp => ?_⟩
      · split
        · rfl
        · exact (load_nodes _ _ _ _ _).2
      · have hp' : p ∈ s.nodes.set (Nd.id ⟨s.objs, n, 0, x⟩) ⟨s.objs, n, 0, x⟩ := by
          split at hp
          · exact hp
          · rw [(load_nodes _ _ _ _ _).1] at hp; exact hp
        obtain ⟨k', v⟩ := p
        exact (Lemmas.App.mem_set hp').imp id (·.2)
  case h_11 =>
    split
    · exact enters_refl (load_nodes _ _ _ _ _).2 (load_nodes _ _ _ _ _).1
    · exact enters_refl rfl rfl
  case h_13 =>
    split
    · exact enters_refl rfl rfl
    · rename_i k nd ep count rest new x hpc _ _ _
      right
      refine ⟨?_, ⟨s.objs, nd.root, ep, x⟩, rfl, fun p hp => ?_⟩
      · split
        · exact (load_nodes _ _ _ _ _).2
        · rfl
      · have hp' : p ∈ s.nodes.set (Nd.id ⟨s.objs, nd.root, ep, x⟩) ⟨s.objs, nd.root, ep, x⟩ := by
          split at hp
          · rw [(load_nodes _ _ _ _ _).1] at hp; exact hp
          · exact hp
        obtain ⟨k', v⟩ := p
        exact (Lemmas.App.mem_set hp').imp id (·.2)
  all_goals first
    | exact enters_refl rfl rfl
    | exact enters_refl (load_nodes _ _ _ _ _).2 (load_nodes _ _ _ _ _).1
    | exact enters_refl (announce_nodes _ _ _ _ _).2 (announce_nodes _ _ _ _ _).1

theorem enters_step (s : State) (o : Op) : Enters s (step s o) := by
  cases o with
  | start k => exact enters_refl rfl rfl
  | answer i a => exact enters_answer s i a

/-- The objects in the table are told apart by their numbers. -/
def Objs (s : State) : Prop := (∀ p ∈ s.nodes, p.2.obj < s.objs) ∧ ∀ p ∈ s.nodes, ∀ q ∈ s.nodes, p.2.obj = q.2.obj → p.2 = q.2

theorem Objs.step {s : State} (h : Objs s) (o : Op) : Objs (App.step s o) := by
  rcases enters_step s o with ⟨h1, h2⟩ | ⟨h1, nd, h2, h3⟩
  · exact ⟨fun p hp => by rw [h1]; exact h.1 p (h2 p hp), fun p hp q hq => h.2 p (h2 p hp) q (h2 q hq)⟩
  · refine ⟨fun p hp => ?_, fun p hp q hq e => ?_⟩
    · rcases h3 p hp with h' | h'
      · have := h.1 p h'; omega
      · rw [h', h2]; omega
    · rcases h3 p hp with h4 | h4 <;> rcases h3 q hq with h5 | h5
      · exact h.2 p h4 q h5 e
      · have := h.1 p h4; rw [e, h5, h2] at this; omega
      · have := h.1 q h5; rw [← e, h4, h2] at this; omega
      · rw [h4, h5]

/-- An object that is not new was in the table before. -/
theorem old_step {s s1 : State} (o : Op) (hle : s.objs ≤ s1.objs) (hold : ∀ p ∈ s1.nodes, p.2.obj < s.objs → ∃ q ∈ s.nodes, q.2 = p.2) :
    s.objs ≤ (App.step s1 o).objs ∧ ∀ p ∈ (App.step s1 o).nodes, p.2.obj < s.objs → ∃ q ∈ s.nodes, q.2 = p.2 := by
  rcases enters_step s1 o with ⟨h1, h2⟩ | ⟨h1, nd, h2, h3⟩
  · exact ⟨by omega, fun p hp hlt => hold p (h2 p hp) hlt⟩
  · refine ⟨by omega, fun p hp hlt => ?_⟩
    rcases h3 p hp with h' | h'
    · exact hold p h' hlt
    · rw [h', h2] at hlt; omega

end Model.App

namespace Model.Waiter

/-- A call that has ended stays as it is. -/
theorem done_stays (s : State) (o : Op) {i : Nat} {t : Task} {r : Res} (ht : s.tasks[i]? = some t) (hp : t.pc = .done r) : (step s o).tasks[i]? = some t := by
  by_cases hn : o.target = some i
  · cases o <;> simp only [Op.target, Option.some.injEq, reduceCtorEq] at hn <;> subst hn <;> simp [step, ht, hp]
  · exact step_task_other s o i t ht hn

/-- A call of `Node.sendAndReceive` that has gone beyond its send. -/
theorem node_sent (ops : List Op) : ∀ (s : State) (i : Nat) (t : Task), s.tasks[i]? = some t → t.kind = .node → t.pc = .sending →
    ∀ (u : Task) (m : Msg), (run s ops).tasks[i]? = some u → u.pc = .done (.ok m) → .sendDone i true ∈ ops := by
  induction ops with
  | nil => intro s i t ht _ hp u m hu hd; rw [show (run s []).tasks = s.tasks from rfl, ht] at hu; cases hu; rw [hp] at hd; cases hd
  | cons o ops ih =>
    intro s i t ht hk hp u m hu hd
    rw [run_cons] at hu
    have stay : ∀ t' : Task, (step s o).tasks[i]? = some t' → t'.kind = .node → t'.pc = .sending → .sendDone i true ∈ o :: ops :=
      fun t' h1 h2 h3 => List.mem_cons_of_mem _ (ih (step s o) i t' h1 h2 h3 u m hu hd)
    have ended : ∀ (t' : Task) (e : PyErr), (step s o).tasks[i]? = some t' → t'.pc = .done (.error e) → .sendDone i true ∈ o :: ops := by
      intro t' e h1 h2
      exfalso
      have : ∀ (ops : List Op) (s : State), s.tasks[i]? = some t' → (run s ops).tasks[i]? = some t' := by
        intro ops
        induction ops with
        | nil => intro s h; exact h
        | cons o ops ih =>
          intro s h
          rw [run_cons]
          exact ih _ (done_stays s o h h2)
      rw [this ops _ h1] at hu
      cases hu
      rw [h2] at hd; cases hd
    by_cases hn : o.target = some i
    · cases o with
      | sendDone j ok =>
        cases hn
        cases ok with
        | true => exact List.mem_cons_self
        | false => exact ended { t with pc := .done (.error .timeout) } .timeout (by simp [step, ht, hp, hk, getElem?_set_some ht]) rfl
      | sendRaise j e => cases hn; exact ended { t with pc := .done (.error e) } e (by simp [step, ht, hp, getElem?_set_some ht]) rfl
      | timer j => cases hn; exact stay t (by simp [step, ht, hp]) hk hp
      | resume j => cases hn; exact stay t (by simp [step, ht, hp]) hk hp
      | cancelDone j => cases hn; exact stay t (by simp [step, ht, hp]) hk hp
      | kill j => cases hn; exact ended { t with pc := .done (.error .cancelled) } .cancelled (by simp [step, ht, hp, getElem?_set_some ht]) rfl
      | _ => cases hn
    · exact stay t (step_task_other s o i t ht hn) hk hp

end Model.Waiter

namespace Model.ToNode

/-- A call that returned has been sent, and continued after that. -/
theorem returned (ops : List Op) : ∀ (i : Nat) (c : Call) (r : Bool), (run init ops).calls[i]? = some c → c.pc = .done (.ok r) →
    ∃ pre post d k m, ops = pre ++ .resume i :: post ∧ (run init pre).calls[i]? = some d ∧ d.pc = .sending k m ∧
      (step (run init pre) (.resume i)).calls[i]? = some c ∧ c = { d with pc := .done (.ok r) } := by
  induction ops using Conn.snoc_ind with
  | nil => intro i c r h; simp [run, init] at h
  | snoc ops o ih =>
    intro i c r h hp
    rw [run_snoc] at h
    by_cases hc : (run init ops).calls[i]? = some c
    · obtain ⟨pre, post, d, k, m, h1, h2⟩ := ih i c r hc hp
      exact ⟨pre, post ++ [o], d, k, m, by rw [h1]; simp, h2⟩
    · have hproc : ∀ (s : State) (j : Nat), (proceed s j).calls[i]? = some c → s.calls[i]? ≠ some c →
          j = i ∧ ∃ d k m, s.calls[i]? = some d ∧ d.pc = .sending k m ∧ c = { d with pc := .done (.ok r) } := by
        intro s j h hne
        unfold proceed at h
        split at h
        · exact absurd h hne
        · rename_i d hd
          split at h
          · split at h
            · rcases get_set h with ⟨-, h'⟩ | ⟨-, h'⟩
              · exact absurd h' hne
              · rw [h'] at hp; cases hp
            · rcases get_set h with ⟨-, h'⟩ | ⟨-, h'⟩
              · exact absurd h' hne
              · rw [h'] at hp; cases hp
            · exact absurd h hne
          · rename_i k m hpc
            split at h
            · rcases get_set h with ⟨-, h'⟩ | ⟨h1, h'⟩
              · exact absurd h' hne
              · subst h1
                rw [h'] at hp
                cases hp
                exact ⟨rfl, d, k, m, hd, hpc, h'⟩
            · exact absurd h hne
          · exact absurd h hne
      cases o with
      | gw o => exact absurd h hc
      | resume j =>
        obtain ⟨rfl, d, k, m, h1, h2, h3⟩ := hproc _ j h hc
        exact ⟨ops, [], d, k, m, rfl, h1, h2, h, h3⟩
      | send node cmd src dst timeout =>
        simp only [step, sendToNode] at h
        by_cases hx : ((run init ops).calls ++ [(⟨node, cmd, src, dst, timeout, .connecting (run init ops).gw.jobs.length⟩ : Call)])[i]? = some c
        · rcases Nat.lt_or_ge i (run init ops).calls.length with hi | hi
          · rw [List.getElem?_append_left hi] at hx; exact absurd hx hc
          · rw [List.getElem?_append_right hi] at hx
            have := List.mem_of_getElem? hx
            simp at this; rw [this] at hp; cases hp
        · obtain ⟨rfl, d, k, m, h1, h2, h3⟩ := hproc _ _ h hx
          simp only [List.getElem?_concat_length, Option.some.injEq] at h1
          rw [← h1] at h2; cases h2

end Model.ToNode

namespace Model.Waiter

theorem length_step (s : State) (o : Op) : s.tasks.length ≤ (step s o).tasks.length := by
  cases h : s.tasks.length with
  | zero => exact Nat.zero_le _
  | succ n =>
    obtain ⟨t, ht⟩ : ∃ t, s.tasks[n]? = some t := ⟨_, List.getElem?_eq_getElem (by omega)⟩
    by_cases hn : o.target = some n
    · cases o <;> simp only [Op.target, Option.some.injEq, reduceCtorEq] at hn <;> subst hn <;> simp only [step, ht, finish]
      · split
        · omega
        · split
          · split
            · simp [add_tasks]; omega
            · simp; omega
          · simp; omega
          · omega
      · split
        · omega
        · simp; omega
      · split
        · simp; omega
        · omega
      · split
        · split
          · omega
          · split
            · simp; omega
            · simp; omega
            · split
              · simp; omega
              · omega
        · omega
      · split
        · simp; omega
        · omega
      · split
        · omega
        · simp; omega
        · split
          · omega
          · split <;> simp <;> omega
    · have := (List.getElem?_eq_some_iff.mp (step_task_other s o n t ht hn)).1
      omega

end Model.Waiter

namespace Model.ToNode

/-- The arguments of a call. -/
def Same (c d : Call) : Prop := d.node = c.node ∧ d.cmd = c.cmd ∧ d.sourceEP = c.sourceEP ∧ d.destEP = c.destEP ∧ d.timeout = c.timeout

theorem proceed_same (s : State) (j : Nat) {i : Nat} {c : Call} (h : s.calls[i]? = some c) : ∃ d, (proceed s j).calls[i]? = some d ∧ Same c d := by
  have hset : ∀ (c' : Call), s.calls[j]? = some c' → ∀ pc, ∃ d, (s.calls.set j { c' with pc := pc })[i]? = some d ∧ Same c d := by
    intro c' hc' pc
    by_cases hj : j = i
    · subst hj
      rw [h] at hc'; cases hc'
      exact ⟨_, List.getElem?_set_self (List.getElem?_eq_some_iff.mp h).1, rfl, rfl, rfl, rfl, rfl⟩
    · exact ⟨c, by rw [List.getElem?_set_ne hj]; exact h, rfl, rfl, rfl, rfl, rfl⟩
  have hs : ∃ d, s.calls[i]? = some d ∧ Same c d := ⟨c, h, rfl, rfl, rfl, rfl, rfl⟩
  unfold proceed
  split
  · exact hs
  · rename_i c' hc'
    split
    · split
      · exact hset c' hc' _
      · exact hset c' hc' _
      · exact hs
    · split
      · exact hset c' hc' _
      · exact hs
    · exact hs

theorem step_same (s : State) (o : Op) {i : Nat} {c : Call} (h : s.calls[i]? = some c) : ∃ d, (step s o).calls[i]? = some d ∧ Same c d := by
  cases o with
  | gw o => exact ⟨c, h, rfl, rfl, rfl, rfl, rfl⟩
  | resume j => exact proceed_same s j h
  | send node cmd src dst timeout =>
    refine proceed_same _ _ ?_
    rw [List.getElem?_append_left (List.getElem?_eq_some_iff.mp h).1]; exact h

theorem run_same (ops : List Op) : ∀ (s : State) {i : Nat} {c : Call}, s.calls[i]? = some c → ∃ d, (run s ops).calls[i]? = some d ∧ Same c d := by
  induction ops with
  | nil => intro s i c h; exact ⟨c, h, rfl, rfl, rfl, rfl, rfl⟩
  | cons o ops ih =>
    intro s i c h
    obtain ⟨d, h1, a1, a2, a3, a4, a5⟩ := step_same s o h
    obtain ⟨e, h2, b1, b2, b3, b4, b5⟩ := ih _ h1
    exact ⟨e, h2, b1.trans a1, b2.trans a2, b3.trans a3, b4.trans a4, b5.trans a5⟩

/-- A new call. -/
theorem send_new (s : State) (node : Nat) (cmd : Msg) (src dst : Int) (timeout : Nat) :
    ∃ c, (step s (.send node cmd src dst timeout)).calls[s.calls.length]? = some c ∧ c.node = node ∧ c.cmd = cmd ∧ c.sourceEP = src ∧ c.destEP = dst ∧ c.timeout = timeout := by
  obtain ⟨d, h, h'⟩ := proceed_same ⟨Gateway.step s.gw (.connectToNode node), s.calls ++ [⟨node, cmd, src, dst, timeout, .connecting s.gw.jobs.length⟩]⟩ s.calls.length
    (i := s.calls.length) (c := ⟨node, cmd, src, dst, timeout, .connecting s.gw.jobs.length⟩) (by simp)
  exact ⟨d, h, h'⟩

end Model.ToNode

namespace Model.System
open Model.App (Nd)

theorem run_cons (s : State) (op : Op) (ops : List Op) : run s (op :: ops) = run (step s op) ops := rfl
theorem run_append (s : State) (a b : List Op) : run s (a ++ b) = run (run s a) b := List.foldl_append
theorem run_snoc (s : State) (a : List Op) (op : Op) : run s (a ++ [op]) = step (run s a) op := by rw [run_append]; rfl

/-- What an operation is for the gateway. -/
def netOps : Op → List ToNode.Op
  | .ask nd cmd _ _ => [.send nd.root cmd 0 nd.ep 3]
  | .net o => [o]
  | _ => []

theorem step_net (s : State) (o : Op) : (step s o).net = ToNode.run s.net (netOps o) := by
  cases o with
  | ask nd cmd hid timeout => rfl
  | net o => rfl
  | sent a => simp only [step]; split <;> (try split) <;> (try split) <;> rfl
  | deliver i => simp only [step]; split <;> (try split) <;> (try split) <;> (try split) <;> rfl
  | app o => rfl
  | waiter obj o => simp only [step]; split <;> rfl

theorem run_net (ops : List Op) : ∀ s : State, (run s ops).net = ToNode.run s.net (ops.flatMap netOps) := by
  induction ops with
  | nil => intro s; rfl
  | cons o ops ih => intro s; rw [run_cons, ih, step_net, List.flatMap_cons, ToNode.run_append]

theorem net_split (g : Gateway.Op) (ops : List Op) : ∀ x y : List ToNode.Op, ops.flatMap netOps = x ++ .gw g :: y →
    ∃ pre post, ops = pre ++ .net (.gw g) :: post ∧ pre.flatMap netOps = x := by
  induction ops with
  | nil => intro x y h; simp at h
  | cons o ops ih =>
    intro x y h
    rw [List.flatMap_cons] at h
    have cons : ∀ a, netOps o = [a] → ∃ pre post, o :: ops = pre ++ .net (.gw g) :: post ∧ pre.flatMap netOps = x := by
      intro a ha
      rw [ha] at h
      cases x with
      | nil =>
        simp only [List.cons_append, List.nil_append, List.cons.injEq] at h
        obtain ⟨rfl, h⟩ := h
        cases o with
        | net o => simp only [netOps, List.cons.injEq, and_true] at ha; subst ha; exact ⟨[], ops, rfl, rfl⟩
        | _ => simp [netOps] at ha
      | cons b x =>
        simp only [List.cons_append, List.nil_append, List.cons.injEq] at h
        obtain ⟨rfl, h⟩ := h
        obtain ⟨pre, post, h1, h2⟩ := ih x y h
        exact ⟨o :: pre, post, by rw [h1]; rfl, by rw [List.flatMap_cons, ha, h2]; rfl⟩
    have nil : netOps o = [] → ∃ pre post, o :: ops = pre ++ .net (.gw g) :: post ∧ pre.flatMap netOps = x := by
      intro ha
      rw [ha] at h
      obtain ⟨pre, post, h1, h2⟩ := ih x y h
      exact ⟨o :: pre, post, by rw [h1]; rfl, by rw [List.flatMap_cons, ha, h2]; rfl⟩
    cases o with
    | ask nd cmd hid timeout => exact cons _ rfl
    | net o => exact cons _ rfl
    | sent a => exact nil rfl
    | deliver i => exact nil rfl
    | app o => exact nil rfl
    | waiter obj o => exact nil rfl

/-- The node object that is handed a message, and what is offered to its waiting calls. -/
def handedTo (s : State) (i : Nat) : Option (Nd × Msg) :=
  if i ∈ s.delivered then none
  else
    match s.net.gw.told[i]? with
    | none => none
    | some t =>
      match (Wire.received s.app.nodes s.app.own (fun _ => .ok (.bool true)) (.ok ()) t).1 with
      | [.handed nd] => (offered t.message).map fun m => (nd, m)
      | _ => none

/-- What an operation is for the waiting calls of a node object. -/
def waitOps (obj : Nat) (s : State) : Op → List Waiter.Op
  | .ask nd _ hid timeout => if nd.obj = obj then [.call .node hid timeout] else []
  | .sent a =>
    match s.asks[a]? with
    | none => []
    | some q =>
      match s.net.calls[q.call]? with
      | none => []
      | some c =>
        match c.pc with
        | .done r => if q.nd.obj = obj then [sendEnded r q.task] else []
        | _ => []
  | .deliver i =>
    match handedTo s i with
    | some (nd, m) => if nd.obj = obj then [.message m] else []
    | none => []
  | .waiter x o => if x = obj ∧ own o = true then [o] else []
  | _ => []

theorem wait_waiters (s : State) (x obj : Nat) (o : Waiter.Op) : (s.wait x o).waiters obj = Waiter.run (s.waiters obj) (if x = obj then [o] else []) := by
  simp only [State.wait]
  by_cases h : x = obj
  · subst h; simp [Waiter.run]
  · simp [h, Ne.symm h, Waiter.run]

theorem step_waiters (s : State) (o : Op) (obj : Nat) : (step s o).waiters obj = Waiter.run (s.waiters obj) (waitOps obj s o) := by
  cases o with
  | ask nd cmd hid timeout => simp only [step, waitOps]; rw [wait_waiters]
  | net o => rfl
  | app o => rfl
  | sent a =>
    rcases hq : s.asks[a]? with _ | q
    · simp only [step, waitOps, hq]; rfl
    · rcases hc : s.net.calls[q.call]? with _ | c
      · simp only [step, waitOps, hq, hc]; rfl
      · cases hp : c.pc with
        | done r => simp only [step, waitOps, hq, hc, hp]; rw [wait_waiters]
        | _ => simp only [step, waitOps, hq, hc, hp]; rfl
  | deliver i =>
    by_cases hd : i ∈ s.delivered
    · simp only [step, waitOps, handedTo, if_pos hd]; rfl
    · rcases ht : s.net.gw.told[i]? with _ | t
      · simp only [step, waitOps, handedTo, if_neg hd, ht]; rfl
      · simp only [step, waitOps, handedTo, if_neg hd, ht]
        generalize (Wire.received s.app.nodes s.app.own (fun _ => .ok (.bool true)) (.ok ()) t).1 = acts
        generalize offered t.message = off
        split
        · cases off with
          | none => rfl
          | some m => simp only [Option.map_some]; rw [wait_waiters]
        · rename_i h1
          split
          · rename_i h2
            split at h2
            · exact absurd rfl (h1 _)
            · cases h2
          · rfl
  | waiter x o =>
    simp only [step, waitOps]
    split
    · rename_i h
      rw [wait_waiters]
      simp [h]
    · rename_i h
      simp [h, Waiter.run]

/-- What happens to the waiting calls of a node object in a schedule. -/
def waitProj (obj : Nat) : State → List Op → List Waiter.Op
  | _, [] => []
  | s, o :: ops => waitOps obj s o ++ waitProj obj (step s o) ops

theorem run_waiters (obj : Nat) (ops : List Op) : ∀ s : State, (run s ops).waiters obj = Waiter.run (s.waiters obj) (waitProj obj s ops) := by
  induction ops with
  | nil => intro s; rfl
  | cons o ops ih => intro s; rw [run_cons, ih, step_waiters, waitProj, Waiter.run_append]

theorem mem_waitProj (obj : Nat) (w : Waiter.Op) (ops : List Op) : ∀ s : State, w ∈ waitProj obj s ops →
    ∃ pre o post, ops = pre ++ o :: post ∧ w ∈ waitOps obj (run s pre) o := by
  induction ops with
  | nil => intro s h; cases h
  | cons o ops ih =>
    intro s h
    rcases List.mem_append.mp h with h | h
    · exact ⟨[], o, ops, rfl, h⟩
    · obtain ⟨pre, o', post, h1, h2⟩ := ih _ h
      exact ⟨o :: pre, o', post, by rw [h1]; rfl, h2⟩

theorem message_op {obj : Nat} {s : State} {o : Op} {m : Msg} (h : .message m ∈ waitOps obj s o) :
    ∃ i nd, o = .deliver i ∧ handedTo s i = some (nd, m) ∧ nd.obj = obj := by
  cases o with
  | ask nd cmd hid timeout => simp only [waitOps] at h; split at h <;> simp at h
  | net o => cases h
  | app o => cases h
  | sent a =>
    simp only [waitOps] at h
    split at h
    · cases h
    · split at h
      · cases h
      · split at h
        · split at h
          · rename_i r _ _
            cases r <;> simp [sendEnded] at h
          · cases h
        · cases h
  | deliver i =>
    simp only [waitOps] at h
    split at h
    · rename_i nd m' hh
      split at h
      · rename_i e
        simp only [List.mem_singleton, Waiter.Op.message.injEq] at h
        subst h
        exact ⟨i, nd, rfl, hh, e⟩
      · cases h
    · cases h
  | waiter x o =>
    simp only [waitOps] at h
    split at h
    · rename_i e
      simp only [List.mem_singleton] at h
      subst h
      simp [own] at e
    · cases h

theorem sendDone_op {obj : Nat} {s : State} {o : Op} {i : Nat} {b : Bool} (h : .sendDone i b ∈ waitOps obj s o) :
    ∃ a q c, o = .sent a ∧ s.asks[a]? = some q ∧ q.nd.obj = obj ∧ q.task = i ∧ s.net.calls[q.call]? = some c ∧ c.pc = .done (.ok b) := by
  cases o with
  | ask nd cmd hid timeout => simp only [waitOps] at h; split at h <;> simp at h
  | net o => cases h
  | app o => cases h
  | sent a =>
    simp only [waitOps] at h
    split at h
    · cases h
    · rename_i q hq
      split at h
      · cases h
      · rename_i c hc
        split at h
        · rename_i r hr
          split at h
          · rename_i e
            cases r with
            | error x => simp [sendEnded] at h
            | ok b' =>
              simp only [sendEnded, List.mem_singleton, Waiter.Op.sendDone.injEq] at h
              obtain ⟨rfl, rfl⟩ := h
              exact ⟨a, q, c, rfl, hq, e, rfl, hc, hr⟩
          · cases h
        · cases h
  | deliver j =>
    simp only [waitOps] at h
    split at h
    · split at h <;> simp at h
    · cases h
  | waiter x o =>
    simp only [waitOps] at h
    split at h
    · rename_i e
      simp only [List.mem_singleton] at h
      subst h
      simp [own] at e
    · cases h

/-- The calls are told apart by their numbers. -/
structure Inv (s : State) : Prop where
  task : ∀ (a : Nat) (q : Ask), s.asks[a]? = some q → q.task < (s.waiters q.nd.obj).tasks.length
  uniq : ∀ (a b : Nat) (q r : Ask), s.asks[a]? = some q → s.asks[b]? = some r → q.nd.obj = r.nd.obj → q.task = r.task → a = b
  objs : App.Objs s.app

theorem step_asks (s : State) (o : Op) : (step s o).asks = s.asks ∨ ∃ nd cmd hid timeout, o = .ask nd cmd hid timeout ∧
    (step s o).asks = s.asks ++ [⟨nd, (s.waiters nd.obj).tasks.length, s.net.calls.length⟩] := by
  cases o with
  | ask nd cmd hid timeout => exact .inr ⟨nd, cmd, hid, timeout, rfl, rfl⟩
  | net o => exact .inl rfl
  | app o => exact .inl rfl
  | sent a => left; simp only [step]; split <;> (try split) <;> (try split) <;> rfl
  | deliver i => left; simp only [step]; split <;> (try split) <;> (try split) <;> (try split) <;> rfl
  | waiter obj o => left; simp only [step]; split <;> rfl

theorem step_app (s : State) (o : Op) : (step s o).app = s.app ∨ ∃ o', (step s o).app = App.step s.app o' := by
  cases o with
  | ask nd cmd hid timeout => exact .inl rfl
  | net o => exact .inl rfl
  | app o => exact .inr ⟨o, rfl⟩
  | sent a => left; simp only [step]; split <;> (try split) <;> (try split) <;> rfl
  | deliver i => left; simp only [step]; split <;> (try split) <;> (try split) <;> (try split) <;> rfl
  | waiter obj o => left; simp only [step]; split <;> rfl

theorem length_waiters (s : State) (o : Op) (obj : Nat) : (s.waiters obj).tasks.length ≤ ((step s o).waiters obj).tasks.length := by
  rw [step_waiters]
  generalize waitOps obj s o = ws
  generalize s.waiters obj = w
  induction ws generalizing w with
  | nil => exact Nat.le_refl _
  | cons x ws ih => exact Nat.le_trans (Waiter.length_step w x) (ih _)

theorem Inv.step {s : State} (h : Inv s) (o : Op) : Inv (System.step s o) := by
  have hobjs : App.Objs (System.step s o).app := by
    rcases step_app s o with e | ⟨o', e⟩
    · rw [e]; exact h.objs
    · rw [e]; exact h.objs.step o'
  rcases step_asks s o with e | ⟨nd, cmd, hid, timeout, rfl, e⟩
  · refine ⟨fun a q hq => ?_, fun a b q r hq hr => ?_, hobjs⟩
    · rw [e] at hq
      exact Nat.lt_of_lt_of_le (h.task a q hq) (length_waiters s o _)
    · rw [e] at hq hr
      exact h.uniq a b q r hq hr
  · have hget : ∀ (a : Nat) (q : Ask), (System.step s (.ask nd cmd hid timeout)).asks[a]? = some q →
        s.asks[a]? = some q ∨ a = s.asks.length ∧ q = ⟨nd, (s.waiters nd.obj).tasks.length, s.net.calls.length⟩ := by
      intro a q hq
      rw [e] at hq
      rcases Nat.lt_or_ge a s.asks.length with hl | hl
      · rw [List.getElem?_append_left hl] at hq; exact .inl hq
      · rw [List.getElem?_append_right hl] at hq
        have h1 := (List.getElem?_eq_some_iff.mp hq).1
        have h2 := List.mem_of_getElem? hq
        simp at h1 h2
        exact .inr ⟨by omega, h2⟩
    have hlen : ((System.step s (.ask nd cmd hid timeout)).waiters nd.obj).tasks.length = (s.waiters nd.obj).tasks.length + 1 := by
      rw [step_waiters]
      simp [waitOps, Waiter.run, Waiter.step, Waiter.add_tasks]
    refine ⟨fun a q hq => ?_, fun a b q r hq hr e1 e2 => ?_, hobjs⟩
    · rcases hget a q hq with hq | ⟨-, rfl⟩
      · exact Nat.lt_of_lt_of_le (h.task a q hq) (length_waiters s _ _)
      · rw [hlen]; exact Nat.lt_succ_self _
    · rcases hget a q hq with hq | ⟨ha, rfl⟩ <;> rcases hget b r hr with hr | ⟨hb, rfl⟩
      · exact h.uniq a b q r hq hr e1 e2
      · have := h.task a q hq; rw [e1, e2] at this; exact absurd this (Nat.lt_irrefl _)
      · have := h.task b r hr; rw [← e1, ← e2] at this; exact absurd this (Nat.lt_irrefl _)
      · rw [ha, hb]

theorem Inv.run {s : State} (h : Inv s) (ops : List Op) : Inv (System.run s ops) := by
  induction ops generalizing s with
  | nil => exact h
  | cons o ops ih => exact ih (h.step o)

theorem inv_init (own : Nat) : Inv (init own) :=
  ⟨by intro a q h; simp [init] at h, by intro a b q r h; simp [init] at h, by constructor <;> simp [init, App.fresh]⟩

theorem run_asks (ops : List Op) : ∀ (s : State) (a : Nat) (q : Ask), s.asks[a]? = some q → (run s ops).asks[a]? = some q := by
  induction ops with
  | nil => intro s a q h; exact h
  | cons o ops ih =>
    intro s a q h
    rw [run_cons]
    refine ih _ a q ?_
    rcases step_asks s o with e | ⟨_, _, _, _, _, e⟩ <;> rw [e]
    · exact h
    · rw [List.getElem?_append_left (List.getElem?_eq_some_iff.mp h).1]; exact h

/-- The application is one application. -/
theorem app_run (own : Nat) (ops : List Op) : ∃ os, (run (init own) ops).app = App.run (App.fresh own) os := by
  induction ops using Conn.snoc_ind with
  | nil => exact ⟨[], rfl⟩
  | snoc ops o ih =>
    obtain ⟨os, h⟩ := ih
    rw [run_snoc]
    rcases step_app (run (init own) ops) o with e | ⟨o', e⟩
    · exact ⟨os, by rw [e, h]⟩
    · exact ⟨os ++ [o'], by rw [e, h]; simp [App.run]⟩

/-- A node object in the table with the number of one that was there before is that one. -/
theorem same_object {s : State} (hs : Inv s) {nd : Nd} (hnd : ∃ k, (k, nd) ∈ s.app.nodes) (ops : List Op) {k' : Str} {nd' : Nd} (h : (k', nd') ∈ (run s ops).app.nodes)
    (ho : nd'.obj = nd.obj) : nd' = nd := by
  have hold : ∀ (ops : List Op), s.app.objs ≤ (run s ops).app.objs ∧ ∀ p ∈ (run s ops).app.nodes, p.2.obj < s.app.objs → ∃ q ∈ s.app.nodes, q.2 = p.2 := by
    intro ops
    induction ops using Conn.snoc_ind with
    | nil => exact ⟨Nat.le_refl _, fun p hp _ => ⟨p, hp, rfl⟩⟩
    | snoc ops o ih =>
      rw [run_snoc]
      rcases step_app (run s ops) o with e | ⟨o', e⟩
      · rw [e]; exact ih
      · rw [e]; exact App.old_step o' ih.1 ih.2
  obtain ⟨k, hk⟩ := hnd
  obtain ⟨q, h1, h2⟩ := (hold ops).2 _ h (by rw [ho]; exact hs.objs.1 _ hk)
  have := hs.objs.2 q h1 (k, nd) hk (by rw [h2]; exact ho)
  exact h2.symm.trans this

end Model.System
