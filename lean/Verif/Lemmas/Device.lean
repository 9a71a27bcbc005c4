import Verif.Model.Device
import Verif.Spec.System
import Verif.Lemmas.System
import Verif.Lemmas.Origin
/-!
# Lemmas about node objects with their command classes
-/
namespace Model.System
open Model.App (Nd)
open Spec.System

/-- The told message `i`, which is `m` with the command `c`, is handed to the node object. -/
def Hands (s : State) (i : Nat) (nd : Nd) (m c : Msg) : Prop :=
  i ∉ s.delivered ∧ ∃ t, s.net.gw.told[i]? = some t ∧ t.message = some m ∧ offered (some m) = some c ∧
    (Wire.received s.app.nodes s.app.own (fun _ => .ok (.bool true)) (.ok ()) t).1 = [.handed nd]

theorem hands_origin {own : Nat} {ops : List Op} {i : Nat} {nd : Nd} {m c : Msg} (h : Hands (run (init own) ops) i nd m c) :
    (nd.id, nd) ∈ (run (init own) ops).app.nodes ∧ Wraps m c ∧
    ∃ before o after, ops = before ++ .net (.gw o) :: after ∧ FromNode (run (init own) before).net.gw o nd.root nd.ep m := by
  obtain ⟨-, t, ht, hm, hoff, hrec⟩ := h
  have hget : ∃ ep : Nat, t.sourceEP = some (ep : Int) ∧ (run (init own) ops).app.nodes.get? (App.key t.node ep) = some nd := by
    simp only [Wire.received] at hrec
    split at hrec
    · rename_i ep hep
      refine ⟨ep, hep, ?_⟩
      simp only [App.messageReceived] at hrec
      split at hrec
      · rename_i nd3 hg
        simp only [List.cons.injEq, App.Act.handed.injEq, and_true] at hrec
        rw [hg, hrec]
      · split at hrec <;> simp at hrec
    · split at hrec <;> simp at hrec
  obtain ⟨ep, hep, hg⟩ := hget
  have hmem := Dict.mem_of_get? hg
  obtain ⟨os, hos⟩ := app_run own ops
  have hkey : App.key t.node ep = nd.id := by
    rw [hos] at hmem
    exact (Lemmas.App.w_run own os).ids _ _ hmem
  refine ⟨by rw [← hkey]; exact hmem, ?_, ?_⟩
  · simp only [offered] at hoff
    split at hoff
    · rename_i hsup
      exact .inr ⟨hsup, hoff⟩
    · cases hoff; exact .inl rfl
  · obtain ⟨k1, k2⟩ := Lemmas.App.key_inj hkey
    have hn : (run (init own) ops).net = ToNode.run ToNode.init (ops.flatMap netOps) := run_net ops _
    rw [hn] at ht
    obtain ⟨x, o, y, h1, h2⟩ := ToNode.origin _ i t ht nd.root nd.ep m ⟨k1, by rw [hep, k2], hm⟩
    obtain ⟨before, after, h3, h4⟩ := net_split o _ x y h1
    refine ⟨before, o, after, h3, ?_⟩
    rw [show (run (init own) before).net = ToNode.run ToNode.init (before.flatMap netOps) from run_net before _, h4]
    exact h2

theorem deliver_delivered (s : State) (i : Nat) : (step s (.deliver i)).delivered = s.delivered ∨ (step s (.deliver i)).delivered = s.delivered ++ [i] := by
  simp only [step]
  split
  · exact .inl rfl
  · split
    · exact .inl rfl
    · right
      split
      · split <;> rfl
      · rfl

theorem step_delivered (s : State) (o : Op) : ∀ i ∈ s.delivered, i ∈ (step s o).delivered := by
  intro i hi
  cases o with
  | deliver j => rcases deliver_delivered s j with h | h <;> rw [h] <;> simp [hi]
  | ask nd cmd hid timeout => exact hi
  | net o => exact hi
  | app o => exact hi
  | sent a => simp only [step]; split <;> (try split) <;> (try split) <;> exact hi
  | waiter obj o => simp only [step]; split <;> exact hi

theorem run_delivered (ops : List Op) : ∀ (s : State), ∀ i ∈ s.delivered, i ∈ (run s ops).delivered := by
  induction ops with
  | nil => intro s i hi; exact hi
  | cons o ops ih => intro s i hi; exact ih _ i (step_delivered s o i hi)

theorem hands_delivered {s : State} {i : Nat} {nd : Nd} {m c : Msg} (h : Hands s i nd m c) : (step s (.deliver i)).delivered = s.delivered ++ [i] := by
  obtain ⟨h1, t, ht, hm, hoff, hrec⟩ := h
  simp only [step, if_neg h1, ht, hrec, hm, hoff]
  rfl

end Model.System

namespace Model.Listen

theorem speak_const (f : List (Option (Py Ret))) : ∀ (i : Nat) (d : Device.Dev), (speak i (Device.callbacks f) d).1 = d ∧
    ∀ x ∈ (speak i (Device.callbacks f) d).2.2, ∃ k r, x = .ready k r := by
  induction f with
  | nil => intro i d; exact ⟨rfl, by intro x h; cases h⟩
  | cons a f ih =>
    intro i d
    cases a with
    | none => exact ih (i + 1) d
    | some r =>
      refine ⟨(ih (i + 1) d).1, fun x hx => ?_⟩
      cases r with
      | ok v =>
        rcases List.mem_cons.mp hx with rfl | hx
        · exact ⟨_, _, rfl⟩
        · exact (ih (i + 1) d).2 x hx
      | error e => exact (ih (i + 1) d).2 x hx

theorem runTasks_ready {σ : Type} (fs : List (Fut σ)) (d : σ) (h : ∀ x ∈ fs, ∃ k r, x = Fut.ready k r) : (runTasks fs d).1 = d := by
  induction fs with
  | nil => rfl
  | cons x fs ih =>
    obtain ⟨k, r, rfl⟩ := h x List.mem_cons_self
    exact ih (fun y hy => h y (List.mem_cons_of_mem _ hy))

theorem ask_const (f : List (Option (Py Ret))) (d : Device.Dev) : (ask (Device.callbacks f) d).1 = d := by
  obtain ⟨h1, h2⟩ := speak_const f 0 d
  simp only [ask]
  rw [runTasks_ready _ _ h2, h1]

end Model.Listen

namespace Model.Device
open Model.App (Nd)
open Model.Classes
open Model.System (Hands)
open Spec.System

theorem run_cons (s : State) (op : Op) (ops : List Op) : run s (op :: ops) = run (step s op) ops := rfl
theorem run_append (s : State) (a b : List Op) : run s (a ++ b) = run (run s a) b := List.foldl_append
theorem run_snoc (s : State) (a : List Op) (op : Op) : run s (a ++ [op]) = step (run s a) op := by rw [run_append]; rfl

/-! ## One step -/

theorem askNode_user (nd : Nd) (h : Heard) (w : Node.World Dev) (m : Msg) : (Node.askNode (env nd h) w m).1.user = w.user := by
  simp only [Node.askNode, env, Listen.ask_const]

theorem askClass_user (nd : Nd) (h : Heard) (w : Node.World Dev) (cls : Nat) (name : String) (m : Msg) : (Node.askClass (env nd h) w cls name m).1.user = w.user := by
  simp only [Node.askClass, env, Listen.ask_const]

theorem fallback_user (nd : Nd) (h : Heard) (w : Node.World Dev) (t : Bool) (m : Msg) : (Node.fallback (env nd h) w t m).1.user = w.user := by
  unfold Node.fallback
  split
  · rfl
  · exact askNode_user nd h w m

/-- What the command class of a message does to the object. -/
def classDoes (m : Msg) (d : Dev) : Dev :=
  match Node.nameOf m, handler m.cmdClass m.hid with
  | some _, some f => (f m d).1
  | _, _ => d

theorem classHandle_user (nd : Nd) (h : Heard) (w : Node.World Dev) (m : Msg) : (Node.classHandle (env nd h) w m.cmdClass m).1.user = classDoes m w.user := by
  unfold Node.classHandle classDoes
  cases hn : Node.nameOf m with
  | none => rfl
  | some name =>
    simp only [show (env nd h).handler = handler from rfl]
    cases hf : handler m.cmdClass m.hid with
    | none => exact askClass_user nd h w _ name m
    | some f =>
      simp only
      split
      · rfl
      · split
        · rfl
        · exact askClass_user nd h _ _ name m

/-- What handling a message does to the object. -/
theorem handlePlain_user (nd : Nd) (h : Heard) (w : Waiter.State) (d : Dev) (m : Msg) :
    (Node.handlePlain (env nd h) ⟨w, d, []⟩ m).1.user = match (Waiter.messageReceived w m).2 with
      | .error _ => d
      | .ok _ => if supports nd m.cmdClass then classDoes m d else d := by
  simp only [Node.handlePlain]
  generalize Waiter.messageReceived w m = o
  obtain ⟨w', r⟩ := o
  cases r with
  | error e => rfl
  | ok taken =>
    simp only [show (env nd h).supported = supports nd from rfl]
    split
    · generalize hw : (⟨w', d, [] ++ [.offered (.ok taken)]⟩ : Node.World Dev) = w2
      have hd : w2.user = d := by rw [← hw]
      have hu := classHandle_user nd h w2 m
      rw [hd] at hu
      split
      · exact hu
      · exact hu
      · rw [fallback_user]; exact hu
    · rw [fallback_user]

/-- What the handlers that are called at once do to an object. -/
inductive Does (m : Msg) (d : Dev) : Dev → Prop
  | same : Does m d d
  | config : m.hid = 0x7006 → Does m d { d with config := (Config.report d.config m).1 }
  | name : m.hid = 0x5902 → Does m d (nameReport m d).1
  | commands : m.hid = 0x5906 → Does m d (commandsReport m d).1

theorem classDoes_does (m : Msg) (d : Dev) : Does m d (classDoes m d) := by
  unfold classDoes
  split
  · rename_i f _ hf
    simp only [handler] at hf
    split at hf
    · simp only [builtin] at hf
      split at hf
      · rename_i hh; cases hf; exact .config hh
      · split at hf
        · cases hf; exact .same
        · split at hf
          · rename_i hh; cases hf; exact .name hh
          · split at hf
            · rename_i hh; cases hf; exact .commands hh
            · cases hf
    · cases hf
  · exact .same

theorem finish_devs (s : State) (told : Nat) (nd : Nd) (m : Msg) (r : Py Bool) : (finish s told nd m r).devs = s.devs := by
  unfold finish State.send
  split
  · split
    · rfl
    · split <;> rfl
  · rfl

/-- Nothing happens to the gateway but a send. -/
def Sys (s s' : System.State) : Prop := ∃ os, s' = System.run s os ∧ ∀ g, .net (.gw g) ∉ os

theorem Sys.refl (s : System.State) : Sys s s := ⟨[], rfl, by simp⟩
theorem Sys.trans {a b c : System.State} (h1 : Sys a b) (h2 : Sys b c) : Sys a c := by
  obtain ⟨x, rfl, hx⟩ := h1
  obtain ⟨y, rfl, hy⟩ := h2
  exact ⟨x ++ y, by rw [System.run_append], fun g hg => (List.mem_append.mp hg).elim (hx g) (hy g)⟩

/-- Nothing happens but sends. -/
def Sends (s s' : System.State) : Prop := ∃ os, s' = System.run s os ∧ ∀ o ∈ os, ∃ node cmd src dst timeout, o = .net (.send node cmd src dst timeout)

theorem Sends.refl (s : System.State) : Sends s s := ⟨[], rfl, by simp⟩
theorem Sends.sys {a b : System.State} (h : Sends a b) : Sys a b := by
  obtain ⟨os, e, h⟩ := h
  refine ⟨os, e, fun g hg => ?_⟩
  obtain ⟨_, _, _, _, _, e⟩ := h _ hg
  cases e
theorem Sends.delivered {a b : System.State} (h : Sends a b) : b.delivered = a.delivered := by
  obtain ⟨os, rfl, h⟩ := h
  induction os using Conn.snoc_ind with
  | nil => rfl
  | snoc os o ih =>
    rw [System.run_snoc]
    obtain ⟨_, _, _, _, _, rfl⟩ := h o (by simp)
    exact ih (fun x hx => h x (by simp [hx]))
theorem Sends.send (s : State) (nd : Nd) (cmd : Msg) : Sends s.sys (s.send nd cmd).sys := ⟨[.net (.send nd.root cmd 0 nd.ep 3)], rfl, by simp⟩

theorem Sys.deliver (s : System.State) (i : Nat) : Sys s (System.step s (.deliver i)) := ⟨[.deliver i], rfl, by simp⟩

theorem finish_sys (s : State) (told : Nat) (nd : Nd) (m : Msg) (r : Py Bool) : Sends s.sys (finish s told nd m r).sys := by
  unfold finish
  split
  · split
    · exact .refl _
    · split
      · exact .refl _
      · exact Sends.send s nd _
  · exact .refl _

theorem finish_tasks (s : State) (told : Nat) (nd : Nd) (m : Msg) (r : Py Bool) : (finish s told nd m r).tasks = s.tasks := by
  unfold finish State.send
  split
  · split
    · rfl
    · split <;> rfl
  · rfl

/-- The call `k` is a report on the supervised command `m`, to the end point. -/
def Reports (s : System.State) (k : Nat) (nd : Nd) (m : Msg) : Prop :=
  m.hid = 0x6C01 ∧ ∃ b : Bool, ∃ rep c, Node.report m (if b then 0xFF else 0x00) = .ok rep ∧ s.net.calls[k]? = some c ∧ c.node = nd.root ∧ c.cmd = rep ∧ c.sourceEP = 0 ∧ c.destEP = nd.ep

/-- No more than one answer is sent. -/
def Answered (s s' : State) (told : Nat) (nd : Nd) (m : Msg) : Prop :=
  s'.answers = s.answers ∨ ∃ k, s'.answers = s.answers ++ [⟨told, k⟩] ∧ Reports s'.sys k nd m

theorem finish_answered (s : State) (told : Nat) (nd : Nd) (m : Msg) (r : Py Bool) : Answered s (finish s told nd m r) told nd m := by
  unfold finish
  split
  · rename_i hm
    split
    · exact .inl rfl
    · rename_i b
      split
      · exact .inl rfl
      · rename_i rep hrep
        obtain ⟨c, c1, c2, c3, c4, c5, -⟩ := ToNode.send_new s.sys.net nd.root rep 0 nd.ep 3
        exact .inr ⟨_, rfl, hm, b, rep, c, hrep, c1, c2, c3, c4, c5⟩
  · exact .inl rfl

/-- Entering where a handler is changes nothing but the tasks. -/
structure Enters (put : State → Option (Nat × Nat) → State) (f : List Task → Option (Nat × Nat) → List Task) : Prop where
  sys : ∀ s pc, (put s pc).sys = s.sys
  devs : ∀ s pc, (put s pc).devs = s.devs
  answers : ∀ s pc, (put s pc).answers = s.answers
  tasks : ∀ s pc, (put s pc).tasks = f s.tasks pc

/-- What a handler of a group information report does when it starts or continues. -/
theorem goOn_effect {put f} (hp : Enters put f) (s : State) (told : Nat) (nd : Nd) (m : Msg) (h : Nat) (o : Agi.Op) (s' : State) (hs' : s' = goOn s told nd m h o put) :
    Sends s.sys s'.sys ∧
    (∃ os : List Agi.Op, (∀ x ∈ os, ∃ i e, x = .sent i (.error e)) ∧
      s'.devs = fun x => if x = nd.obj then { s.devs nd.obj with agi := Agi.run (s.devs nd.obj).agi (o :: os) } else s.devs x) ∧
    ∃ pc, s'.tasks = f s.tasks pc ∧ (s'.answers = s.answers ∨ pc = none ∧ Answered s s' told nd m) := by
  simp only [goOn] at hs'
  generalize ha : Agi.step (s.devs nd.obj).agi o = a at hs'
  obtain ⟨a1, a2⟩ := a
  have hdevs : (s.put nd.obj { s.devs nd.obj with agi := a1 }).devs = fun x => if x = nd.obj then { s.devs nd.obj with agi := Agi.run (s.devs nd.obj).agi [o] } else s.devs x := by
    simp only [State.put, Agi.run, List.foldl_cons, List.foldl_nil, ha]
  have stop : s' = put (s.put nd.obj { s.devs nd.obj with agi := a1 }) none → Sends s.sys s'.sys ∧
    (∃ os : List Agi.Op, (∀ x ∈ os, ∃ i e, x = .sent i (.error e)) ∧
      s'.devs = fun x => if x = nd.obj then { s.devs nd.obj with agi := Agi.run (s.devs nd.obj).agi (o :: os) } else s.devs x) ∧
    ∃ pc, s'.tasks = f s.tasks pc ∧ (s'.answers = s.answers ∨ pc = none ∧ Answered s s' told nd m) := fun e =>
    ⟨by rw [e, hp.sys]; exact .refl _, ⟨[], by simp, by rw [e, hp.devs, hdevs]⟩, none, by rw [e, hp.tasks]; rfl, .inl (by rw [e, hp.answers]; rfl)⟩
  cases a2 with
  | some r =>
    simp only at hs'
    refine ⟨?_, ⟨[], by simp, by rw [hs', finish_devs, hp.devs, hdevs]⟩, none, by rw [hs', finish_tasks, hp.tasks]; rfl, .inr ⟨rfl, ?_⟩⟩
    · rw [hs']
      have := finish_sys (put (s.put nd.obj { s.devs nd.obj with agi := a1 }) none) told nd m (r.map Listen.Ret.truthy)
      rw [hp.sys] at this
      exact this
    · have := finish_answered (put (s.put nd.obj { s.devs nd.obj with agi := a1 }) none) told nd m (r.map Listen.Ret.truthy)
      rw [← hs'] at this
      simp only [Answered, hp.answers] at this
      exact this
  | none =>
    simp only at hs'
    generalize List.drop (s.devs nd.obj).agi.sent.length a1.sent = l at hs'
    match l with
    | [x] =>
      simp only at hs'
      generalize groupCmd x = g at hs'
      cases g with
      | ok cmd =>
        simp only at hs'
        refine ⟨?_, ⟨[], by simp, ?_⟩, some (h, s.sys.net.calls.length), ?_, .inl ?_⟩
        · rw [hs', hp.sys]; exact Sends.send _ nd cmd
        · rw [hs', hp.devs]; exact hdevs
        · rw [hs', hp.tasks]; rfl
        · rw [hs', hp.answers]; rfl
      | error e =>
        simp only at hs'
        refine ⟨?_, ⟨[.sent h (.error e)], by simp, ?_⟩, none, ?_, .inl ?_⟩
        · rw [hs', hp.sys]; exact .refl _
        · rw [hs', hp.devs]
          simp only [State.put, Agi.run, List.foldl_cons, List.foldl_nil, ha]
          funext x
          by_cases hx : x = nd.obj <;> simp [hx]
        · rw [hs', hp.tasks]; rfl
        · rw [hs', hp.answers]; rfl
    | [] => exact stop hs'
    | _ :: _ :: _ => exact stop hs'

theorem enters_add (told : Nat) (nd : Nd) (m : Msg) :
    Enters (fun s pc => { s with tasks := s.tasks ++ [⟨told, nd, m, pc⟩] }) (fun l pc => l ++ [⟨told, nd, m, pc⟩]) := ⟨fun _ _ => rfl, fun _ _ => rfl, fun _ _ => rfl, fun _ _ => rfl⟩

theorem enters_set (j told : Nat) (nd : Nd) (m : Msg) :
    Enters (fun s pc => { s with tasks := s.tasks.set j ⟨told, nd, m, pc⟩ }) (fun l pc => l.set j ⟨told, nd, m, pc⟩) := ⟨fun _ _ => rfl, fun _ _ => rfl, fun _ _ => rfl, fun _ _ => rfl⟩

/-- What an operation does to what the objects hold. -/
inductive Change (s : State) (op : Op) : (Nat → Dev) → Prop
  | none : Change s op s.devs
  | does (i : Nat) (nd : Nd) (m c : Msg) (d : Dev) : Hands s.sys i nd m c → Does c (s.devs nd.obj) d → Change s op fun x => if x = nd.obj then d else s.devs x
  | agi (obj : Nat) (o : Agi.Op) (os : List Agi.Op) :
      ((∃ i nd m c l, Hands s.sys i nd m c ∧ nd.obj = obj ∧ c.hid = 0x5904 ∧ infoGroups c = .ok l ∧ o = .info l) ∨ ∃ i r, o = .sent i r) →
      (∀ x ∈ os, ∃ i e, x = .sent i (.error e)) → Change s op fun x => if x = obj then { s.devs obj with agi := Agi.run (s.devs obj).agi (o :: os) } else s.devs x
  | load (obj : Nat) (config groups) : op = .load obj config groups →
      Change s op fun x => if x = obj then { s.devs obj with config := config, agi := { (s.devs obj).agi with groups := groups } } else s.devs x
  | sensor (obj : Nat) (v) : op = .sensor obj v → Change s op fun x => if x = obj then { s.devs obj with sensor := v } else s.devs x

/-- What an operation does to the tasks and answers. -/
inductive Tells (s s' : State) : Prop
  | none : s'.tasks = s.tasks → s'.answers = s.answers → Tells s s'
  | now (i nd m c) : Hands s.sys i nd m c → i ∈ s'.sys.delivered → s'.tasks = s.tasks → Answered s s' i nd m → Tells s s'
  | start (i nd m c pc) : Hands s.sys i nd m c → i ∈ s'.sys.delivered → s'.tasks = s.tasks ++ [⟨i, nd, m, pc⟩] →
      (s'.answers = s.answers ∨ pc = Option.none ∧ Answered s s' i nd m) → Tells s s'
  | resume (j t pc) : s.tasks[j]? = some t → t.pc.isSome = true → s'.tasks = s.tasks.set j { t with pc := pc } →
      (s'.answers = s.answers ∨ pc = Option.none ∧ Answered s s' t.told t.nd t.msg) → Tells s s'

theorem deliver_cases (s : State) (i : Nat) (h : Heard) : deliver s i h = { s with sys := System.step s.sys (.deliver i) } ∨
    ∃ nd m c, Hands s.sys i nd m c ∧ deliver s i h = handle s i nd m c h := by
  unfold deliver
  split
  · rename_i hd
    left
    simp only [System.step, if_pos hd]
  · rename_i hd
    split
    · rename_i ht
      left
      simp only [System.step, if_neg hd, ht]
    · rename_i t ht
      simp only
      split
      · rename_i nd hrec
        split
        · rename_i m c hm hc
          right
          exact ⟨nd, m, c, ⟨hd, t, ht, hm, hc ▸ (by rw [hm]), hrec⟩, rfl⟩
        · exact .inl rfl
      · exact .inl rfl

theorem Sys.delivered {a b : System.State} (h : Sys a b) : ∀ i ∈ a.delivered, i ∈ b.delivered := by
  obtain ⟨os, rfl, -⟩ := h
  exact System.run_delivered os a

theorem handle_effect (s : State) (op : Op) (i : Nat) (nd : Nd) (m c : Msg) (h : Heard) (hh : Hands s.sys i nd m c) :
    Change s op (handle s i nd m c h).devs ∧ Tells s (handle s i nd m c h) ∧ Sends (System.step s.sys (.deliver i)) (handle s i nd m c h).sys := by
  have hdel : i ∈ (System.step s.sys (.deliver i)).delivered := by rw [System.hands_delivered hh]; simp
  unfold handle
  simp only
  split
  · exact ⟨.none, .none rfl rfl, .refl _⟩
  · split
    · rename_i hc
      unfold start
      split
      · exact ⟨.none, .none rfl rfl, .refl _⟩
      · rename_i l hl
        generalize hs' : goOn { s with sys := System.step s.sys (.deliver i) } i nd m _ (.info l) _ = s'
        obtain ⟨h1, ⟨os, h2, h3⟩, pc, h4, h5⟩ := goOn_effect (enters_add i nd m) _ i nd m _ _ s' hs'.symm
        refine ⟨?_, ?_, h1⟩
        · rw [h3]
          exact .agi nd.obj (.info l) os (.inl ⟨i, nd, m, c, l, hh, rfl, hc.1, hl, rfl⟩) h2
        · exact .start i nd m c pc hh (by rw [h1.delivered]; exact hdel) h4 h5
    · generalize ha : Node.handlePlain (env nd h) ⟨s.sys.waiters nd.obj, s.devs nd.obj, []⟩ c = a
      have hu := handlePlain_user nd h (s.sys.waiters nd.obj) (s.devs nd.obj) c
      rw [ha] at hu
      refine ⟨?_, .now i nd m c hh (by rw [(finish_sys _ _ _ _ _).delivered]; exact hdel) (finish_tasks _ _ _ _ _) (finish_answered _ _ _ _ _), finish_sys _ _ _ _ _⟩
      rw [finish_devs]
      refine .does i nd m c _ hh ?_
      rw [hu]
      split
      · exact .same
      · split
        · exact classDoes_does c _
        · exact .same

/-- What an operation does. -/
theorem step_effect (s : State) (o : Op) : Change s o (step s o).devs ∧ Tells s (step s o) ∧
    (Sys s.sys (step s o).sys ∨ ∃ g, o = .sys (.net (.gw g)) ∧ (step s o).sys = System.step s.sys (.net (.gw g))) := by
  cases o with
  | deliver i h =>
    simp only [step]
    rcases deliver_cases s i h with e | ⟨nd, m, c, hh, e⟩
    · rw [e]; exact ⟨.none, .none rfl rfl, .inl (Sys.deliver _ _)⟩
    · rw [e]
      obtain ⟨h1, h2, h3⟩ := handle_effect s (.deliver i h) i nd m c h hh
      exact ⟨h1, h2, .inl ((Sys.deliver _ _).trans h3.sys)⟩
  | resume j =>
    simp only [step]
    have same : Change s (.resume j) s.devs ∧ Tells s s ∧ (Sys s.sys s.sys ∨ ∃ g, Op.resume j = .sys (.net (.gw g)) ∧ s.sys = System.step s.sys (.net (.gw g))) :=
      ⟨.none, .none rfl rfl, .inl (.refl _)⟩
    split
    · rename_i told nd m h k ht
      split
      · split
        · rename_i r _
          generalize hs' : goOn s told nd m h (.sent h r) _ = s'
          obtain ⟨h1, ⟨os, h2, h3⟩, pc, h4, h5⟩ := goOn_effect (enters_set j told nd m) _ told nd m _ _ s' hs'.symm
          refine ⟨?_, .resume j _ pc ht rfl h4 h5, .inl h1.sys⟩
          rw [h3]
          exact .agi nd.obj (.sent h r) os (.inr ⟨h, r, rfl⟩) h2
        · exact same
      · exact same
    · exact same
  | sys o =>
    cases o with
    | net o =>
      cases o with
      | gw g => exact ⟨.none, .none rfl rfl, .inr ⟨g, rfl, rfl⟩⟩
      | resume i => exact ⟨.none, .none rfl rfl, .inl ⟨[.net (.resume i)], rfl, by simp⟩⟩
      | send node cmd src dst timeout => exact ⟨.none, .none rfl rfl, .inl ⟨[.net (.send node cmd src dst timeout)], rfl, by simp⟩⟩
    | deliver i => exact ⟨.none, .none rfl rfl, .inl (.refl _)⟩
    | ask nd cmd hid timeout => exact ⟨.none, .none rfl rfl, .inl ⟨[.ask nd cmd hid timeout], rfl, by simp⟩⟩
    | sent a => exact ⟨.none, .none rfl rfl, .inl ⟨[.sent a], rfl, by simp⟩⟩
    | app o => exact ⟨.none, .none rfl rfl, .inl ⟨[.app o], rfl, by simp⟩⟩
    | waiter x o => exact ⟨.none, .none rfl rfl, .inl ⟨[.waiter x o], rfl, by simp⟩⟩
  | load obj config groups => exact ⟨.load obj config groups rfl, .none rfl rfl, .inl (.refl _)⟩
  | sensor obj v => exact ⟨.sensor obj v rfl, .none rfl rfl, .inl (.refl _)⟩

/-! ## Histories -/

/-- A history here is a history of the system, with the same arrivals. -/
theorem sys_run (own : Nat) (ops : List Op) : ∃ os, (run (init own) ops).sys = System.run (System.init own) os ∧
    ∀ x g y, os = x ++ .net (.gw g) :: y → ∃ pre post, ops = pre ++ .sys (.net (.gw g)) :: post ∧ (run (init own) pre).sys = System.run (System.init own) x := by
  induction ops using Conn.snoc_ind with
  | nil => exact ⟨[], rfl, by intro x g y h; simp at h⟩
  | snoc ops o ih =>
    obtain ⟨os, h1, h2⟩ := ih
    rw [run_snoc]
    rcases (step_effect (run (init own) ops) o).2.2 with ⟨new, h3, h4⟩ | ⟨g, rfl, h3⟩
    · refine ⟨os ++ new, by rw [h3, h1, System.run_append], fun x g y e => ?_⟩
      rcases List.append_eq_append_iff.mp e with ⟨z, -, e2⟩ | ⟨z, e1, e2⟩
      · exact absurd (by rw [e2]; simp) (h4 g)
      · cases z with
        | nil =>
          simp only [List.nil_append] at e2
          exact absurd (by rw [← e2]; simp) (h4 g)
        | cons a z =>
          simp only [List.cons_append, List.cons.injEq] at e2
          obtain ⟨rfl, e2⟩ := e2
          obtain ⟨pre, post, p1, p2⟩ := h2 x g z e1
          exact ⟨pre, post ++ [o], by rw [p1]; simp, p2⟩
    · refine ⟨os ++ [.net (.gw g)], by rw [h3, h1, System.run_snoc], fun x g' y e => ?_⟩
      rcases List.append_eq_append_iff.mp e with ⟨z, e1, e2⟩ | ⟨z, e1, e2⟩
      · cases z with
        | nil =>
          simp only [List.nil_append, List.cons.injEq] at e2
          obtain ⟨e3, -⟩ := e2
          cases e3
          refine ⟨ops, [], rfl, ?_⟩
          rw [h1, e1]; simp
        | cons a z => simp at e2
      · cases z with
        | nil =>
          simp only [List.nil_append, List.cons.injEq] at e2
          obtain ⟨e3, -⟩ := e2
          cases e3
          refine ⟨ops, [], rfl, ?_⟩
          rw [h1, e1]; simp
        | cons a z =>
          simp only [List.cons_append, List.cons.injEq] at e2
          obtain ⟨rfl, e2⟩ := e2
          obtain ⟨pre, post, p1, p2⟩ := h2 x g' z e1
          exact ⟨pre, post ++ [.sys (.net (.gw g))], by rw [p1]; simp, p2⟩

theorem step_delivered (s : State) (o : Op) (i : Nat) (h : i ∈ (step s o).sys.delivered) : i ∈ s.sys.delivered ∨ (∃ x, o = .deliver i x) ∧ i < s.sys.net.gw.told.length := by
  cases o with
  | deliver j x =>
    simp only [step] at h
    have h' : i ∈ (System.step s.sys (.deliver j)).delivered := by
      rcases deliver_cases s j x with e | ⟨nd, m, c, hh, e⟩
      · rw [e] at h; exact h
      · rw [e, ((handle_effect s (.deliver j x) j nd m c x hh).2.2).delivered] at h; exact h
    simp only [System.step] at h'
    split at h'
    · exact .inl h'
    · split at h'
      · exact .inl h'
      · rename_i t ht
        have : i ∈ s.sys.delivered ++ [j] := by
          split at h'
          · split at h' <;> exact h'
          · exact h'
        rcases List.mem_append.mp this with h1 | h1
        · exact .inl h1
        · rw [List.mem_singleton.mp h1]
          exact .inr ⟨⟨x, rfl⟩, (List.getElem?_eq_some_iff.mp ht).1⟩
  | resume j =>
    simp only [step] at h
    split at h
    · rename_i told nd m hh k ht
      split at h
      · split at h
        · rename_i r _
          left
          have := (goOn_effect (enters_set j told nd m) s told nd m hh (.sent hh r) _ rfl).1.delivered
          rw [this] at h
          exact h
        · exact .inl h
      · exact .inl h
    · exact .inl h
  | sys o =>
    cases o with
    | deliver j => exact .inl h
    | net o => exact .inl h
    | ask nd cmd hid timeout => exact .inl h
    | app o => exact .inl h
    | sent a =>
      left
      simp only [step, System.step] at h
      split at h
      · exact h
      · split at h
        · exact h
        · split at h <;> exact h
    | waiter x o =>
      left
      simp only [step, System.step] at h
      split at h <;> exact h
  | load obj config groups => exact .inl h
  | sensor obj v => exact .inl h

/-- What has been told stays. -/
theorem told_append (own : Nat) (ops l : List Op) : ∃ new, (run (init own) (ops ++ l)).sys.net.gw.told = (run (init own) ops).sys.net.gw.told ++ new := by
  induction l using Conn.snoc_ind with
  | nil => exact ⟨[], by simp⟩
  | snoc l o ih =>
    obtain ⟨x, h1⟩ := ih
    suffices h : ∃ new, (run (init own) (ops ++ l ++ [o])).sys.net.gw.told = (run (init own) (ops ++ l)).sys.net.gw.told ++ new by
      obtain ⟨y, h2⟩ := h
      exact ⟨x ++ y, by rw [← List.append_assoc, h2, h1, List.append_assoc]⟩
    generalize ops ++ l = ops
    obtain ⟨os, e, -⟩ := sys_run own ops
    have hs : ∃ os', (run (init own) (ops ++ [o])).sys = System.run (System.init own) (os ++ os') := by
      rw [run_snoc]
      rcases (step_effect (run (init own) ops) o).2.2 with ⟨new, h3, -⟩ | ⟨g, -, h3⟩
      · exact ⟨new, by rw [h3, e, System.run_append]⟩
      · exact ⟨[.net (.gw g)], by rw [h3, e, System.run_snoc]⟩
    obtain ⟨os', e'⟩ := hs
    rw [e', e, System.run_net, System.run_net, List.flatMap_append]
    exact ToNode.told_append _ _

/-- A message is delivered by its operation, after it was told. -/
theorem delivered_op (own : Nat) (ops : List Op) (i : Nat) (h : i ∈ (run (init own) ops).sys.delivered) :
    ∃ a x b, ops = a ++ .deliver i x :: b ∧ i < (run (init own) a).sys.net.gw.told.length := by
  induction ops using Conn.snoc_ind with
  | nil => cases h
  | snoc ops o ih =>
    rw [run_snoc] at h
    rcases step_delivered _ o i h with h | ⟨⟨x, rfl⟩, h'⟩
    · obtain ⟨a, x, b, e, h⟩ := ih h
      exact ⟨a, x, b ++ [o], by rw [e]; simp, h⟩
    · exact ⟨ops, x, [], rfl, h'⟩

end Model.Device
