import Verif.Spec.Silence
import Verif.Lemmas.Ends
import Verif.Lemmas.Delivery
import Verif.Props.System
/-!
# Lemmas: calls end also when nothing arrives
-/
namespace Model

/-! ## A send on a connection -/

namespace Conn
open Spec.Silence

/-- What has to happen for send `i` to end, if it waits until `d` at most. -/
def turnsFor (i n : Nat) : List Op := .resume i :: (List.replicate n .tick ++ [.timer i, .resume i, .cancelled i])

theorem turnsFor_turn (i n : Nat) : ∀ o ∈ turnsFor i n, connTurn o = true := by
  intro o ho
  simp only [turnsFor, List.mem_cons, List.mem_append, List.not_mem_nil, or_false] at ho
  rcases ho with rfl | ho | rfl | rfl | rfl
  · rfl
  · rw [List.eq_of_mem_replicate ho]; rfl
  all_goals rfl


/-- It is at least so far, and will not begin again. -/
def Settled (r d i : Nat) (s : State) : Prop := ∃ t, s.sends[i]? = some t ∧ r ≤ t.pc.rank ∧ (t.pc = .waiting → t.inner = false ∧ t.deadline ≤ d) ∧ (t.pc = .timedOut → t.inner = false)

theorem settle (s : State) (i : Nat) (t : Send) (h : s.sends[i]? = some t) : ∃ d, Settled 1 d i (step s (.resume i)) := by
  have hlt := (List.getElem?_eq_some_iff.mp h).1
  simp only [step, h]
  split
  · split
    · exact ⟨s.now + t.delay.toNat, _, List.getElem?_set_self hlt, by simp [Pc.rank], fun _ => ⟨rfl, Nat.le_refl _⟩, by simp⟩
    · exact ⟨0, _, List.getElem?_set_self hlt, by simp [Pc.rank], by simp, by simp⟩
  · rename_i h1
    split
    · exact ⟨0, _, List.getElem?_set_self hlt, by simp [Pc.rank], by simp, by simp⟩
    · rename_i h2
      refine ⟨t.deadline, t, h, by cases t.pc <;> simp [Pc.rank], fun hp => ⟨?_, Nat.le_refl _⟩, fun hp => absurd hp h2⟩
      cases hi : t.inner with
      | false => rfl
      | true => exact absurd ⟨hi, .inl hp⟩ h1

theorem ticks_settled (n : Nat) : ∀ (s : State) {r d i : Nat}, Settled r d i s → Settled r d i (run s (List.replicate n .tick)) ∧ (run s (List.replicate n .tick)).now = s.now + n := by
  induction n with
  | zero => intro s r d i h; exact ⟨h, rfl⟩
  | succ n ih =>
    intro s r d i h
    obtain ⟨h1, h2⟩ := ih (step s .tick) (r := r) (d := d) (i := i) h
    exact ⟨h1, by rw [List.replicate_succ, run_cons, h2]; show s.w.now + 1 + n = s.w.now + (n + 1); omega⟩

theorem settled_ends {s : State} {d i : Nat} (h : Settled 1 d i s) (hd : d ≤ s.now) : ∃ t r, (run s [.timer i, .resume i, .cancelled i]).sends[i]? = some t ∧ t.pc = .done r := by
  -- the timer
  have h2 : Settled 2 d i (step s (.timer i)) := by
    obtain ⟨t, ht, a1, a2, a3⟩ := h
    have hlt := (List.getElem?_eq_some_iff.mp ht).1
    simp only [step, ht]
    split
    · rename_i hp
      exact ⟨_, List.getElem?_set_self hlt, by simp [Pc.rank], by simp, fun _ => (a2 hp.1).1⟩
    · rename_i hp
      refine ⟨t, ht, ?_, a2, a3⟩
      cases hq : t.pc with
      | waiting => exact absurd ⟨hq, Nat.le_trans (a2 hq).2 hd⟩ hp
      | _ => simp [Pc.rank]
  -- its turn
  have h3 : Settled 3 d i (step (step s (.timer i)) (.resume i)) := by
    obtain ⟨t, ht, a1, a2, a3⟩ := h2
    generalize step s (.timer i) = s2 at *
    have hlt := (List.getElem?_eq_some_iff.mp ht).1
    simp only [step, ht]
    split
    · rename_i hp
      rcases hp.2 with hq | hq
      · rw [hq] at a1; simp [Pc.rank] at a1
      · rw [a3 hq] at hp; exact absurd hp.1 (by simp)
    · split
      · exact ⟨_, List.getElem?_set_self hlt, by simp [Pc.rank], by simp, by simp⟩
      · rename_i hp
        refine ⟨t, ht, ?_, a2, a3⟩
        cases hq : t.pc with
        | waiting => rw [hq] at a1; simp [Pc.rank] at a1
        | timedOut => exact absurd hq hp
        | _ => simp [Pc.rank]
  obtain ⟨t, ht, a1, a2, a3⟩ := h3
  show ∃ t r, (step (step (step s (.timer i)) (.resume i)) (.cancelled i)).sends[i]? = some t ∧ t.pc = .done r
  generalize step (step s (.timer i)) (.resume i) = s3 at *
  have hlt := (List.getElem?_eq_some_iff.mp ht).1
  simp only [step, ht]
  split
  · split
    · exact ⟨_, _, List.getElem?_set_self hlt, rfl⟩
    · exact ⟨_, _, List.getElem?_set_self hlt, rfl⟩
  · rename_i hp
    cases hq : t.pc with
    | done r => exact ⟨t, r, ht, hq⟩
    | cancelling => exact absurd hq hp
    | _ => rw [hq] at a1; simp [Pc.rank] at a1

/-- A send ends also when nothing arrives. -/
theorem send_ends (s : State) (i : Nat) (t : Send) (h : s.sends[i]? = some t) : ∃ n t' r, (run s (turnsFor i n)).sends[i]? = some t' ∧ t'.pc = .done r := by
  obtain ⟨d, hd⟩ := settle s i t h
  obtain ⟨h1, h2⟩ := ticks_settled d _ hd
  refine ⟨d, ?_⟩
  obtain ⟨t', r, h3⟩ := settled_ends h1 (by rw [h2]; omega)
  refine ⟨t', r, ?_⟩
  rw [turnsFor, run_cons, run_append]
  exact h3

end Conn

/-! ## A waiting call -/

namespace Waiter
open Spec.Silence

def turnsFor (i n : Nat) : List Op := List.replicate n .tick ++ [.timer i, .resume i, .cancelDone i]

theorem turnsFor_turn (i n : Nat) : ∀ o ∈ turnsFor i n, o = .tick ∨ waiterTurn o = true := by
  intro o ho
  simp only [turnsFor, List.mem_cons, List.mem_append, List.not_mem_nil, or_false] at ho
  rcases ho with ho | rfl | rfl | rfl
  · exact .inl (List.eq_of_mem_replicate ho)
  all_goals exact .inr rfl

end Waiter

/-! ## connectToNode -/

namespace Gateway
open Spec.Silence

/-- Coroutines of connectToNode that look up an address wait for it. -/
def Looks (s : State) : Prop := ∀ (i n t : Nat), s.jobs[i]? = some (Job.connect n t) → ∃ d, Waiter.Far 1 d t s.conn.w

theorem Looks.step {s : State} (h : Looks s) (o : Op) : Looks (step s o) := by
  obtain ⟨ws, e, -⟩ := step_w s o
  have keep : ∀ (i n t : Nat), s.jobs[i]? = some (Job.connect n t) → ∃ d, Waiter.Far 1 d t (Gateway.step s o).conn.w := by
    intro i n t hj
    obtain ⟨d, hd⟩ := h i n t hj
    exact ⟨d, by rw [e]; exact hd.run ws⟩
  have put : ∀ (a : Nat) (j : Job), (Gateway.step s o).jobs = s.jobs.set a j → (∀ n t, j ≠ Job.connect n t) → Looks (Gateway.step s o) := by
    intro a j hj hn i n t hi
    rw [hj, List.getElem?_set] at hi
    split at hi
    · split at hi
      · exact absurd (Option.some.inj hi) (hn n t)
      · cases hi
    · exact keep i n t hi
  cases step_linkEffect s o with
  | quiet hcc hl hj ho ha =>
    rcases hj with hj | ⟨j, hj, hc⟩ | ⟨m, y, j, g1, g2, g3, hj, hc⟩
    · intro i n t hi; rw [hj] at hi; exact keep i n t hi
    · intro i n t hi
      rw [hj] at hi
      rcases Nat.lt_or_ge i s.jobs.length with hlt | hge
      · rw [List.getElem?_append_left hlt] at hi; exact keep i n t hi
      · rw [List.getElem?_append_right hge] at hi
        rcases Nat.eq_zero_or_pos (i - s.jobs.length) with hz | hz
        · rw [hz] at hi
          simp only [List.getElem?_cons_zero, Option.some.injEq] at hi
          rw [hi] at hc; cases hc
        · rw [List.getElem?_eq_none (by simp only [List.length_cons, List.length_nil]; omega)] at hi; cases hi
    · exact put m j hj fun n t e => by rw [e] at hc; cases hc
  | start m j ho hcc hl hjs hj =>
    subst ho
    intro i n t hi
    rcases Nat.lt_or_ge i s.jobs.length with hlt | hge
    · rw [hjs, List.getElem?_append_left hlt] at hi; exact keep i n t hi
    · have hi2 := hi
      rw [hjs, List.getElem?_append_right hge] at hi
      rcases Nat.eq_zero_or_pos (i - s.jobs.length) with hz | hz
      · have hil : i = s.jobs.length := by omega
        subst hil
        simp only [Gateway.step, Gateway.connectToNode] at hi2 ⊢
        cases hc : s.conns.get? m with
        | some k => rw [hc] at hi2; simp [State.addJob] at hi2
        | none =>
          rw [hc] at hi2
          simp only [ipOfNode, lookup] at hi2 ⊢
          cases hs : solicitation m with
          | error e => rw [hs] at hi2; simp [State.addJob] at hi2
          | ok b =>
            rw [hs] at hi2
            simp only [State.addJob, List.getElem?_append_right (Nat.le_refl _), Nat.sub_self, List.getElem?_cons_zero, Option.some.injEq, Job.connect.injEq] at hi2
            obtain ⟨-, rfl⟩ := hi2
            simp only [State.addJob]
            refine ⟨_, _, Waiter.call_task _ _ _ _, by simp [Waiter.Pc.rank], .inl (Nat.le_refl _), by simp [Waiter.Pc.rank], fun _ => ⟨_, rfl⟩⟩
      · rw [List.getElem?_eq_none (by simp only [List.length_cons, List.length_nil]; omega)] at hi; cases hi
  | create a m t l hx' hn' hcc hl hj ho msg hm ha => exact put a _ hj (by simp)
  | fail a m y e hx' hn' hcc hl hj ho => exact put a _ hj (by simp)
  | opened a m v hx' hcc hl hj ho ha => exact put a _ hj (by simp)

theorem Looks.run {s : State} (h : Looks s) (os : List Op) : Looks (run s os) := by
  induction os generalizing s with
  | nil => exact h
  | cons o os ih => exact ih (h.step o)

/-- What happens to the waiting calls of the gateway's own connection. -/
def lift : Waiter.Op → Op
  | .tick => .conn .tick
  | o => .conn (.waiter o)

theorem lift_run (ws : List Waiter.Op) : ∀ s : State, (∀ o ∈ ws, o = .tick ∨ waiterTurn o = true) →
    run s (ws.map lift) = { s with conn := { s.conn with w := Waiter.run s.conn.w ws } } := by
  induction ws with
  | nil => intro s _; rfl
  | cons o ws ih =>
    intro s h
    have h1 : step s (lift o) = { s with conn := { s.conn with w := Waiter.step s.conn.w o } } := by
      rcases h o (List.mem_cons_self ..) with rfl | h
      · rfl
      · cases o <;> first | rfl | cases h
    show run (step s (lift o)) (ws.map lift) = _
    rw [ih _ fun x hx => h x (List.mem_cons_of_mem _ hx), h1]
    rfl

theorem lift_turn {ok : Bool} {o : Waiter.Op} (h : o = .tick ∨ waiterTurn o = true) : gatewayTurn ok (lift o) = true := by
  rcases h with rfl | h
  · rfl
  · cases o <;> first | rfl | cases h

/-- A call of connectToNode ends also when nothing arrives. -/
theorem connect_ends (ok : Bool) {s : State} (h : Looks s) {n j : Nat} (hc : ConnectCall s n j) : ∃ os, (∀ o ∈ os, gatewayTurn ok o = true) ∧ ∃ r, (run s os).jobs[j]? = some (.done r) := by
  obtain ⟨x, hx, hc⟩ := hc
  rcases hc with hc | ⟨e, rfl⟩ | ⟨k, rfl, -⟩
  · -- opening
    have op : ∀ (s : State) (m k : Nat), s.jobs[j]? = some (.opening m k) → ∃ os, (∀ o ∈ os, gatewayTurn ok o = true) ∧ ∃ r, (run s os).jobs[j]? = some (.done r) := by
      intro s m k hj
      refine ⟨[.opened j ok], by simp [gatewayTurn], ?_⟩
      have hlt := (List.getElem?_eq_some_iff.mp hj).1
      show ∃ r, (step s (.opened j ok)).jobs[j]? = some (.done r)
      simp only [step, hj]
      split
      · exact ⟨_, by simp only [State.setJob]; exact List.getElem?_set_self hlt⟩
      · exact ⟨_, by simp only [State.setJob]; exact List.getElem?_set_self hlt⟩
    cases x with
    | opening m k => exact op s m k hx
    | connect m t =>
      obtain ⟨d, hd⟩ := h j m t hx
      have hws := Waiter.turnsFor_turn t d
      obtain ⟨u, r, hu, hr⟩ := Waiter.far_ends hd (by omega) _ (List.Sublist.refl (Waiter.turnsFor t d))
      have e := lift_run _ s hws
      generalize hs1 : run s ((Waiter.turnsFor t d).map lift) = s1 at e
      have hj1 : s1.jobs[j]? = some (.connect m t) := by rw [e]; exact hx
      have hlt := (List.getElem?_eq_some_iff.mp hj1).1
      have ht : taskDone s1 t = some r := by
        rw [e]; unfold taskDone; simp only [hu, hr]
      have hturn : ∀ o ∈ (Waiter.turnsFor t d).map lift ++ [.job j []], gatewayTurn ok o = true := by
        intro o ho
        rcases List.mem_append.mp ho with ho | ho
        · obtain ⟨w, hw, rfl⟩ := List.mem_map.mp ho
          exact lift_turn (hws w hw)
        · simp at ho; subst ho; rfl
      have hstep : (∃ r, (stepJob s1 j []).jobs[j]? = some (.done r)) ∨ ∃ m' k, (stepJob s1 j []).jobs[j]? = some (.opening m' k) := by
        simp only [stepJob, hj1, ht]
        cases r with
        | error e => exact .inl ⟨_, List.getElem?_set_self hlt⟩
        | ok a =>
          dsimp only
          cases advertised a with
          | none => exact .inl ⟨_, List.getElem?_set_self hlt⟩
          | some ip => exact .inr ⟨m, s1.links.length, List.getElem?_set_self hlt⟩
      have er : ∀ os, run s ((Waiter.turnsFor t d).map lift ++ [.job j []] ++ os) = run (stepJob s1 j []) os := by
        intro os
        simp only [run, List.foldl_append] at hs1 ⊢
        rw [hs1]; rfl
      rcases hstep with ⟨r, hr⟩ | ⟨m', k, hk⟩
      · exact ⟨_, hturn, r, by have := er []; rw [List.append_nil] at this; rw [this]; exact hr⟩
      · obtain ⟨os, h1, r, h2⟩ := op _ m' k hk
        refine ⟨_ ++ os, fun o ho => ?_, r, by rw [er]; exact h2⟩
        rcases List.mem_append.mp ho with ho | ho
        · exact hturn o ho
        · exact h1 o ho
    | _ => cases hc
  · exact ⟨[], by simp, _, hx⟩
  · exact ⟨[], by simp, _, hx⟩

theorem link_turns (k : Nat) (os : List Conn.Op) : ∀ (s : State) (l : Link), s.links[k]? = some l → ∃ l', (run s (os.map (.link k))).links[k]? = some l' ∧ l'.conn = Conn.run l.conn os := by
  induction os with
  | nil => intro s l h; exact ⟨l, h, rfl⟩
  | cons o os ih =>
    intro s l h
    obtain ⟨l1, h1, -, -, h2⟩ := step_link_node k s (.link k o) l h
    obtain ⟨l2, h3, h4⟩ := ih _ l1 h1
    exact ⟨l2, h3, by rw [h4, h2]; simp [linkOps, Conn.run]⟩

end Gateway

/-! ## sendToNode -/

namespace ToNode
open Spec.Silence

theorem gw_turns (os : List Gateway.Op) : ∀ s : State, run s (os.map .gw) = { s with gw := Gateway.run s.gw os } := by
  induction os with
  | nil => intro s; rfl
  | cons o os ih => intro s; rw [List.map_cons, run_cons, ih]; rfl

theorem looks_step {s : State} (h : Gateway.Looks s.gw) (o : Op) : Gateway.Looks (step s o).gw := by
  have hp : ∀ (x : State) (i : Nat), Gateway.Looks x.gw → Gateway.Looks (proceed x i).gw := by
    intro x i hx
    rw [proceed_gw]
    split
    · exact hx.step _
    · exact hx
  cases o with
  | gw o => exact h.step o
  | resume i => exact hp s i h
  | send node cmd src dst timeout => exact hp _ _ (h.step (.connectToNode node))

/-- A call of sendToNode ends also when nothing arrives. -/
theorem call_ends (ok : Bool) {s : State} (h : Inv s) (hl : Gateway.Looks s.gw) {i : Nat} {c : Call} (hc : s.calls[i]? = some c) :
    ∃ os, (∀ o ∈ os, netTurn ok o = true) ∧ ∃ d r, (run s os).calls[i]? = some d ∧ d.pc = .done r := by
  -- a call that sends
  have sends : ∀ (s : State), Inv s → ∀ (c : Call) (k m : Nat), s.calls[i]? = some c → c.pc = .sending k m →
      ∃ os, (∀ o ∈ os, netTurn ok o = true) ∧ ∃ d r, (run s os).calls[i]? = some d ∧ d.pc = .done r := by
    intro s h c k m hc hp
    have hok := h.calls i c hc
    rw [CallOk, hp] at hok
    obtain ⟨l, h1, -, h3⟩ := hok
    obtain ⟨n, t', r, h4, h5⟩ := Conn.send_ends l.conn m _ (List.getElem?_eq_getElem h3)
    obtain ⟨l', h6, h7⟩ := Gateway.link_turns k (Conn.turnsFor m n) s.gw l h1
    refine ⟨((Conn.turnsFor m n).map (Gateway.Op.link k)).map .gw ++ [.resume i], fun o ho => ?_, { c with pc := .done r }, r, ?_, rfl⟩
    · rcases List.mem_append.mp ho with ho | ho
      · simp only [List.mem_map] at ho
        obtain ⟨_, ⟨x, hx, rfl⟩, rfl⟩ := ho
        exact Conn.turnsFor_turn m n x hx
      · simp at ho; subst ho; rfl
    · have hlt := (List.getElem?_eq_some_iff.mp hc).1
      have hr : linkResult (Gateway.run s.gw ((Conn.turnsFor m n).map (Gateway.Op.link k))) k m = some r := by
        unfold linkResult; rw [h6]; dsimp only; rw [h7, h4]; dsimp only; rw [h5]
      rw [run_snoc, gw_turns]
      simp only [step, proceed, hc, hp, hr]
      exact List.getElem?_set_self hlt
  cases hp : c.pc with
  | done r => exact ⟨[], by simp, c, r, hc, hp⟩
  | sending k m => exact sends s h c k m hc hp
  | connecting j =>
    have hok := h.calls i c hc
    rw [CallOk, hp] at hok
    obtain ⟨os, h1, r, h2⟩ := Gateway.connect_ends ok hl hok
    have hlt := (List.getElem?_eq_some_iff.mp hc).1
    have hcc := hok.run os h.links
    have hturn : ∀ o ∈ os.map Op.gw ++ [.resume i], netTurn ok o = true := by
      intro o ho
      rcases List.mem_append.mp ho with ho | ho
      · obtain ⟨x, hx, rfl⟩ := List.mem_map.mp ho
        exact h1 x hx
      · simp at ho; subst ho; rfl
    have hrun : run s (os.map Op.gw ++ [.resume i]) = proceed { s with gw := Gateway.run s.gw os } i := by rw [run_snoc, gw_turns]; rfl
    have hinv : Inv (run s (os.map Op.gw ++ [.resume i])) := by
      have all : ∀ (l : List Op) (s : State), Inv s → Inv (run s l) := by
        intro l
        induction l with
        | nil => intro s h; exact h
        | cons o l ih => intro s h; exact ih _ (h.step o)
      exact all _ s h
    have hcall : ∃ d, (run s (os.map Op.gw ++ [.resume i])).calls[i]? = some d ∧ ((∃ r, d.pc = .done r) ∨ ∃ k m, d.pc = .sending k m) := by
      rw [hrun]
      simp only [proceed, hc, hp, h2]
      obtain ⟨x, hx, hcx⟩ := hcc
      rw [h2] at hx
      cases hx
      rcases hcx with hcx | ⟨e, he⟩ | ⟨k, hk, -⟩
      · cases hcx
      · cases he
        exact ⟨_, List.getElem?_set_self hlt, .inl ⟨_, rfl⟩⟩
      · cases hk
        exact ⟨_, List.getElem?_set_self hlt, .inr ⟨_, _, rfl⟩⟩
    obtain ⟨d, hd, ⟨r', hr'⟩ | ⟨k, m, hkm⟩⟩ := hcall
    · exact ⟨_, hturn, d, r', hd, hr'⟩
    · obtain ⟨os2, h3, h4⟩ := sends _ hinv d k m hd hkm
      refine ⟨_ ++ os2, fun o ho => ?_, by rw [run_append]; exact h4⟩
      rcases List.mem_append.mp ho with ho | ho
      · exact hturn o ho
      · exact h3 o ho

end ToNode

/-! ## Node.sendAndReceive -/

namespace Waiter

/-- A call that is not sending waits, or has ended. -/
theorem far_of {tag : Nat → Nat} {s : State} (h : Inv tag s) {i : Nat} {t : Task} (ht : s.tasks[i]? = some t) (hp : t.pc ≠ .sending) : Far 1 t.deadline i s := by
  refine ⟨t, ht, ?_, .inl (Nat.le_refl _), ?_, fun hr => ?_⟩
  · cases hq : t.pc with
    | sending => exact absurd hq hp
    | _ => simp [Pc.rank]
  · cases hq : t.pc with
    | sending => exact absurd hq hp
    | _ => simp [Pc.rank]
  · cases hf : t.fut with
    | some f => exact ⟨f, rfl⟩
    | none =>
      rcases (h.kind i t ht hf).2 with e | ⟨r, e⟩
      · exact absurd e hp
      · rw [e] at hr; exact absurd rfl hr

/-- After its send a call does not send. -/
theorem sent_task {tag : Nat → Nat} {s : State} (h : Inv tag s) {i : Nat} (hi : i < s.tasks.length) (r : Py Bool) :
    ∃ t, (step s (System.sendEnded r i)).tasks[i]? = some t ∧ t.pc ≠ .sending := by
  have ht := List.getElem?_eq_getElem hi
  generalize s.tasks[i] = t at ht
  by_cases hp : t.pc = .sending
  · cases r with
    | error e =>
      simp only [System.sendEnded, step, ht, hp]
      exact ⟨_, List.getElem?_set_self hi, by simp⟩
    | ok b =>
      simp only [System.sendEnded, step, ht, hp, ne_eq, not_true_eq_false, if_false]
      split
      · split
        · refine ⟨_, List.getElem?_set_self ?_, by simp⟩
          simp only [addWaitingSession]; split <;> exact hi
        · exact ⟨_, List.getElem?_set_self hi, by simp⟩
      · exact ⟨_, List.getElem?_set_self hi, by simp⟩
      · rename_i h1 h2
        exact absurd (h.kind i t ht h1).1 h2
  · refine ⟨t, ?_, hp⟩
    cases r <;> simp [System.sendEnded, step, ht, hp]

end Waiter

namespace System
open Spec.Silence

/-- What is known. -/
structure Fit (s : State) : Prop where
  inv : Inv s
  net : ToNode.Inv s.net
  looks : Gateway.Looks s.net.gw
  waits : ∀ obj, ∃ tag, Waiter.Inv tag (s.waiters obj)
  calls : ∀ (a : Nat) (q : Ask), s.asks[a]? = some q → q.call < s.net.calls.length

theorem fit_init (own : Nat) : Fit (init own) :=
  ⟨inv_init own, ToNode.inv_init, by intro i n t h; simp [init, ToNode.init, Gateway.init] at h, fun obj => ⟨_, Waiter.inv_init⟩, by intro a q h; simp [init] at h⟩

theorem net_length (s : State) (o : Op) : s.net.calls.length ≤ (step s o).net.calls.length := by
  rw [step_net]
  rcases Nat.eq_zero_or_pos s.net.calls.length with h | h
  · omega
  · obtain ⟨d, h1, -⟩ := ToNode.run_same (netOps o) s.net (List.getElem?_eq_getElem (Nat.sub_lt h Nat.one_pos))
    have := (List.getElem?_eq_some_iff.mp h1).1
    omega

theorem Fit.step {s : State} (h : Fit s) (o : Op) : Fit (System.step s o) := by
  have hn : ∀ (l : List ToNode.Op) (x : ToNode.State), ToNode.Inv x → Gateway.Looks x.gw → ToNode.Inv (ToNode.run x l) ∧ Gateway.Looks (ToNode.run x l).gw := by
    intro l
    induction l with
    | nil => intro x h1 h2; exact ⟨h1, h2⟩
    | cons o l ih => intro x h1 h2; exact ih _ (h1.step o) (ToNode.looks_step h2 o)
  have hw : ∀ (l : List Waiter.Op) (x : Waiter.State), (∃ tag, Waiter.Inv tag x) → ∃ tag, Waiter.Inv tag (Waiter.run x l) := by
    intro l
    induction l with
    | nil => intro x h; exact h
    | cons o l ih => intro x ⟨tag, h⟩; exact ih _ (h.step o)
  refine ⟨h.inv.step o, by rw [step_net]; exact (hn _ _ h.net h.looks).1, by rw [step_net]; exact (hn _ _ h.net h.looks).2, fun obj => by rw [step_waiters]; exact hw _ _ (h.waits obj), ?_⟩
  intro a q hq
  rcases step_asks s o with e | ⟨nd, cmd, hid, timeout, rfl, e⟩
  · rw [e] at hq
    exact Nat.lt_of_lt_of_le (h.calls a q hq) (net_length s o)
  · rw [e] at hq
    rcases Nat.lt_or_ge a s.asks.length with hl | hl
    · rw [List.getElem?_append_left hl] at hq
      exact Nat.lt_of_lt_of_le (h.calls a q hq) (net_length s _)
    · rw [List.getElem?_append_right hl] at hq
      have h2 := List.mem_of_getElem? hq
      simp only [List.mem_singleton] at h2
      subst h2
      obtain ⟨c, hc, -⟩ := ToNode.send_new s.net nd.root cmd 0 nd.ep 3
      exact (List.getElem?_eq_some_iff.mp hc).1

theorem Fit.run {s : State} (h : Fit s) (os : List Op) : Fit (System.run s os) := by
  induction os generalizing s with
  | nil => exact h
  | cons o os ih => exact ih (h.step o)

theorem net_turns (os : List ToNode.Op) : ∀ s : State, run s (os.map .net) = { s with net := ToNode.run s.net os } := by
  induction os with
  | nil => intro s; rfl
  | cons o os ih => intro s; rw [List.map_cons, run_cons, ih]; rfl

theorem wait_turns (obj : Nat) (ws : List Waiter.Op) : ∀ s : State, (∀ o ∈ ws, o = .tick ∨ waiterTurn o = true) →
    (run s (ws.map (.waiter obj))).waiters obj = Waiter.run (s.waiters obj) ws := by
  induction ws with
  | nil => intro s _; rfl
  | cons o ws ih =>
    intro s h
    rw [List.map_cons, run_cons, ih _ fun x hx => h x (List.mem_cons_of_mem _ hx), step_waiters]
    have : own o = true := by
      rcases h o (List.mem_cons_self ..) with rfl | h
      · rfl
      · cases o <;> first | rfl | cases h
    simp [waitOps, this, Waiter.run]

/-- A call of sendToNode ends also when nothing arrives. -/
theorem send_ends (ok : Bool) {s : State} (h : Fit s) {k : Nat} (hk : k < s.net.calls.length) :
    ∃ os, (∀ o ∈ os, systemTurn ok o = true) ∧ ∃ d r, (run s os).net.calls[k]? = some d ∧ d.pc = .done r := by
  obtain ⟨os, h1, d, r, h2, h3⟩ := ToNode.call_ends ok h.net h.looks (List.getElem?_eq_getElem hk)
  refine ⟨os.map .net, fun o ho => ?_, d, r, by rw [net_turns]; exact h2, h3⟩
  obtain ⟨x, hx, rfl⟩ := List.mem_map.mp ho
  exact h1 x hx

/-- A call of sendAndReceive ends also when nothing arrives. -/
theorem ask_ends (ok : Bool) {s : State} (h : Fit s) {a : Nat} {q : Ask} (hq : s.asks[a]? = some q) :
    ∃ os, (∀ o ∈ os, systemTurn ok o = true) ∧ ∃ u r, ((run s os).waiters q.nd.obj).tasks[q.task]? = some u ∧ u.pc = .done r := by
  obtain ⟨os, h1, d, r, h2, h3⟩ := send_ends ok h (h.calls a q hq)
  have f1 := h.run os
  have hq1 := run_asks os s a q hq
  have hstep : (step (run s os) (.sent a)).waiters q.nd.obj = Waiter.step ((run s os).waiters q.nd.obj) (sendEnded r q.task) := by
    rw [step_waiters]
    simp [waitOps, hq1, h2, h3, Waiter.run]
  obtain ⟨tag, hi⟩ := f1.waits q.nd.obj
  obtain ⟨t, ht, hp⟩ := Waiter.sent_task hi (f1.inv.task a q hq1) r
  rw [← hstep] at ht
  obtain ⟨tag2, hi2⟩ := (f1.step (.sent a)).waits q.nd.obj
  have hf := Waiter.far_of hi2 ht hp
  obtain ⟨u, r', hu, hr⟩ := Waiter.far_ends hf (n := t.deadline) (by omega) _ (List.Sublist.refl (Waiter.turnsFor q.task t.deadline))
  refine ⟨os ++ .sent a :: (Waiter.turnsFor q.task t.deadline).map (.waiter q.nd.obj), fun o ho => ?_, u, r', ?_, hr⟩
  · rcases List.mem_append.mp ho with ho | ho
    · exact h1 o ho
    · rcases List.mem_cons.mp ho with rfl | ho
      · rfl
      · obtain ⟨x, hx, rfl⟩ := List.mem_map.mp ho
        rcases Waiter.turnsFor_turn _ _ x hx with rfl | hx
        · rfl
        · cases x <;> first | rfl | cases hx
  · rw [run_append, run_cons, wait_turns _ _ _ (Waiter.turnsFor_turn _ _)]
    exact hu

end System

end Model
