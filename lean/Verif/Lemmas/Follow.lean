import Verif.Lemmas.Lookups
import Verif.Lemmas.Startup
/-! Helper lemmas: an update of the node list with an adapter that answers truthfully. -/
namespace Lemmas.App
open Model Model.App Spec.App Spec.Peer

/-- What has been seen since describes the network. -/
def Honest (net : Net) (t0 : List Ev) (s : State) : Prop := ∃ evs, s.trace = t0 ++ evs ∧ Reports net evs

theorem Honest.see {net : Net} {t0 : List Ev} {s : State} (h : Honest net t0 s) {e : Ev} (he : Truthful net e) : Honest net t0 (s.see e) := by
  obtain ⟨evs, h1, h2⟩ := h
  refine ⟨evs ++ [e], by simp only [State.see, h1, List.append_assoc], fun x hx => ?_⟩
  rcases List.mem_append.1 hx with hx | hx
  · exact h2 x hx
  · rw [List.mem_singleton.1 hx]; exact he

theorem Honest.since {net : Net} {s0 s : State} (h : Honest net s0.trace s) : Reports net (since s0 s) := by
  obtain ⟨evs, h1, h2⟩ := h
  rw [Spec.App.since, h1, List.drop_left]
  exact h2

/-- How many questions are needed for the nodes of a list that are not known. -/
def toAsk (own : Nat) (net : Net) (known : Nat → Bool) (l : List Nat) : Nat := costs own net (l.filter fun n => !known n)

/-- How many questions the update still asks. -/
def asks (own : Nat) (net : Net) (known : Nat → Bool) : Pc → Nat
  | .info _ n rest _ => cost net n + toAsk own net known rest
  | .eps _ nd rest _ => 1 + net.eps nd.root + toAsk own net known rest
  | .cap _ _ _ count rest _ => 1 + count + toAsk own net known rest
  | _ => 0

/-- The nodes still to be looked at: whether they are in the table is as it was. -/
structure Todo (net : Net) (known : Nat → Bool) (t : Dict Str Nd) (rest : List Nat) : Prop where
  sub : ∀ m ∈ rest, m ∈ net.list
  nodup : rest.Nodup
  known : ∀ m ∈ rest, t.mem (key m 0) = known m

/-- Where the update is while it loads the new nodes. -/
def Loads (own : Nat) (net : Net) (known : Nat → Bool) (t : Dict Str Nd) : Pc → Prop
  | .info k n rest _ => k = .update ∧ n ∈ net.list ∧ n ≠ own ∧ n ∉ rest ∧ Todo net known t rest
  | .eps k nd rest _ => k = .update ∧ nd.root ∈ net.list ∧ nd.root ≠ own ∧ nd.info = net.info nd.root ∧ multiChannel (net.info nd.root) = true ∧ Todo net known t rest
  | .cap k nd ep count rest _ => k = .update ∧ nd.root ∈ net.list ∧ nd.root ≠ own ∧ nd.info = net.info nd.root ∧ multiChannel (net.info nd.root) = true ∧ 1 ≤ ep ∧
      ep + count = net.eps nd.root ∧ Todo net known t rest
  | .addedAll k _ => k = .update
  | .done r => r = .ok ()
  | _ => False

theorem Loads.asking {own : Nat} {net : Net} {known : Nat → Bool} {t : Dict Str Nd} {pc : Pc} (h : Loads own net known t pc) (hr : asks own net known pc ≠ 0) : Asking own net pc := by
  cases pc with
  | info => exact ⟨h.2.1, h.2.2.1⟩
  | eps => exact ⟨h.2.1, h.2.2.1⟩
  | cap => exact ⟨h.2.1, h.2.2.1, h.2.2.2.1, h.2.2.2.2.1, h.2.2.2.2.2.1, h.2.2.2.2.2.2.1⟩
  | _ => exact absurd rfl hr

/-- Where the update is, after a step. -/
structure Came (own : Nat) (net : Net) (known : Nat → Bool) (t0 : List Ev) (i r : Nat) (s : State) : Prop where
  at_ : ∃ pc, s.calls[i]? = some pc ∧ Loads own net known s.nodes pc ∧ asks own net known pc = r
  honest : Honest net t0 s

theorem goto_at {s : State} {i : Nat} {x : Pc} (h : s.calls[i]? = some x) (pc : Pc) : (s.goto i pc).calls[i]? = some pc := by
  have := (List.getElem?_eq_some_iff.1 h).1
  simp [State.goto, this]

theorem came_goto {own : Nat} {net : Net} {known : Nat → Bool} {t0 : List Ev} {i : Nat} {s : State} {x : Pc} (hc : s.calls[i]? = some x) (ht : Honest net t0 s) {pc : Pc}
    (hg : Loads own net known s.nodes pc) : Came own net known t0 i (asks own net known pc) (s.goto i pc) :=
  ⟨⟨pc, goto_at hc pc, hg, rfl⟩, ht⟩

theorem Todo.tail {net : Net} {known : Nat → Bool} {t : Dict Str Nd} {n : Nat} {rest : List Nat} (h : Todo net known t (n :: rest)) : n ∉ rest ∧ Todo net known t rest :=
  ⟨(List.nodup_cons.1 h.nodup).1, fun m hm => h.sub m (.tail _ hm), (List.nodup_cons.1 h.nodup).2, fun m hm => h.known m (.tail _ hm)⟩

theorem Todo.set {net : Net} {known : Nat → Bool} {t : Dict Str Nd} {rest : List Nat} (h : Todo net known t rest) {k : Str} (hk : ∀ m ∈ rest, key m 0 ≠ k) (nd : Nd) :
    Todo net known (t.set k nd) rest := by
  refine ⟨h.sub, h.nodup, fun m hm => ?_⟩
  rw [← h.known m hm, Dict.mem, Dict.mem, Dict.get?_set, if_neg (fun e => hk m hm e.symm)]

theorem came_load {net : Net} {known : Nat → Bool} {t0 : List Ev} {i : Nat} (rest : List Nat) : ∀ (s : State) (new : List Nd) (x : Pc), s.calls[i]? = some x → Honest net t0 s →
    Todo net known s.nodes rest → Came s.own net known t0 i (toAsk s.own net known rest) (load s i .update new rest) := by
  induction rest with
  | nil =>
    intro s new x hc ht _
    unfold load
    dsimp only
    split
    · exact came_goto (pc := .done (.ok ())) hc ht rfl
    · exact came_goto (pc := .addedAll .update new) (s := s.see (.addedAll i new)) hc (ht.see trivial) rfl
  | cons n rest ih =>
    intro s new x hc ht hr
    obtain ⟨hn, hr'⟩ := hr.tail
    have hk := hr.known n (.head _)
    unfold load
    by_cases hkn : known n = true
    · rw [hkn] at hk
      rw [if_pos ⟨rfl, hk⟩, show toAsk s.own net known (n :: rest) = toAsk s.own net known rest by simp [toAsk, hkn]]
      exact ih s new x hc ht hr'
    · have hkn' : known n = false := by simpa using hkn
      rw [if_neg (by rw [hk]; simp [hkn']), show toAsk s.own net known (n :: rest) = costs s.own net (n :: rest.filter fun n => !known n) by simp [toAsk, hkn'], costs_cons]
      by_cases ho : n = s.own
      · rw [if_pos ho, if_pos ho, Nat.zero_add]
        exact ih s new x hc ht hr'
      · rw [if_neg ho, if_neg ho]
        exact came_goto (pc := .info .update n rest new) hc ht ⟨rfl, hr.sub n (.head _), ho, hn, hr'⟩

/-- A truthful answer is one question less. -/
theorem came_answer {own : Nat} {net : Net} {known : Nat → Bool} {t0 : List Ev} {i : Nat} (hacc : AllAccepted own net) {s : State} (hown : s.own = own) {pc : Pc} (hc : s.calls[i]? = some pc)
    (hg : Loads own net known s.nodes pc) (ht : Honest net t0 s) {r : Nat} (hr : asks own net known pc = r + 1) : Came own net known t0 i r (answer s i (truth net pc)) := by
  subst hown
  unfold answer
  rw [hc]
  cases pc with
  | info k n rest new =>
    obtain ⟨rfl, h1, h2, h2', h3⟩ := hg
    obtain ⟨⟨x, hx⟩, -⟩ := hacc n h1 h2
    simp only [truth, hx]
    simp only [asks, cost] at hr
    have ht' : Honest net t0 (s.see (.gotInfo i n (net.info n))) := ht.see rfl
    have h3' := h3.set (k := Nd.id ⟨s.objs, n, 0, net.info n⟩) (fun m hm e => h2' (by have h : m = n := (key_inj e).1; rw [← h]; exact hm)) ⟨s.objs, n, 0, net.info n⟩
    by_cases hm : multiChannel (net.info n) = true
    · rw [if_pos hm]
      rw [if_pos hm] at hr
      have := came_goto (own := s.own) (net := net) (known := known) (t0 := t0) (s := { s.see (.gotInfo i n (net.info n)) with
        objs := s.objs + 1, nodes := s.nodes.set (Nd.id ⟨s.objs, n, 0, net.info n⟩) ⟨s.objs, n, 0, net.info n⟩ }) hc ht'
        (pc := .eps .update ⟨s.objs, n, 0, net.info n⟩ rest (new ++ [⟨s.objs, n, 0, net.info n⟩])) ⟨rfl, h1, h2, rfl, hm, h3'⟩
      have e : asks s.own net known (.eps .update ⟨s.objs, n, 0, net.info n⟩ rest (new ++ [⟨s.objs, n, 0, net.info n⟩])) = r := by simp only [asks]; omega
      rw [e] at this
      exact this
    · rw [if_neg hm]
      rw [if_neg hm] at hr
      have := came_load (net := net) (known := known) (t0 := t0) rest { s.see (.gotInfo i n (net.info n)) with
        objs := s.objs + 1, nodes := s.nodes.set (Nd.id ⟨s.objs, n, 0, net.info n⟩) ⟨s.objs, n, 0, net.info n⟩ } (new ++ [⟨s.objs, n, 0, net.info n⟩]) _ hc ht' h3'
      have e : toAsk s.own net known rest = r := by omega
      rw [← e]
      exact this
  | eps k nd rest new =>
    obtain ⟨rfl, h1, h2, h3, h4, h5⟩ := hg
    simp only [truth]
    simp only [asks] at hr
    have ht' : Honest net t0 (s.see (.gotEps i nd.root (net.eps nd.root))) := ht.see rfl
    cases hn : net.eps nd.root with
    | zero =>
      rw [hn] at ht' hr
      have := came_load (net := net) (known := known) (t0 := t0) rest (s.see (.gotEps i nd.root 0)) new _ hc ht' h5
      have e : toAsk s.own net known rest = r := by omega
      rw [← e]
      exact this
    | succ c =>
      rw [hn] at ht' hr
      have := came_goto (own := s.own) (net := net) (known := known) (t0 := t0) (s := s.see (.gotEps i nd.root (c + 1))) hc ht' (pc := .cap .update nd 1 c rest new)
        ⟨rfl, h1, h2, h3, h4, Nat.le_refl _, by omega, h5⟩
      have e : asks s.own net known (.cap .update nd 1 c rest new) = r := by simp only [asks]; omega
      rw [e] at this
      exact this
  | cap k nd ep count rest new =>
    obtain ⟨rfl, h1, h2, h3, h4, h5, h6, h7⟩ := hg
    obtain ⟨x, hx⟩ := (hacc nd.root h1 h2).2 h4 ep h5 (by omega)
    simp only [truth, hx]
    simp only [asks] at hr
    have ht' : Honest net t0 (s.see (.gotCap i nd.root ep (net.cap nd.root ep))) := ht.see rfl
    have h7' := h7.set (k := Nd.id ⟨s.objs, nd.root, ep, net.cap nd.root ep⟩) (fun m _ e => by have h : 0 = ep := (key_inj e).2; omega) ⟨s.objs, nd.root, ep, net.cap nd.root ep⟩
    cases count with
    | zero =>
      have := came_load (net := net) (known := known) (t0 := t0) rest { s.see (.gotCap i nd.root ep (net.cap nd.root ep)) with
        objs := s.objs + 1, nodes := s.nodes.set (Nd.id ⟨s.objs, nd.root, ep, net.cap nd.root ep⟩) ⟨s.objs, nd.root, ep, net.cap nd.root ep⟩ }
        (new ++ [⟨s.objs, nd.root, ep, net.cap nd.root ep⟩]) _ hc ht' h7'
      have e : toAsk s.own net known rest = r := by omega
      rw [← e]
      exact this
    | succ c =>
      have := came_goto (own := s.own) (net := net) (known := known) (t0 := t0) (s := { s.see (.gotCap i nd.root ep (net.cap nd.root ep)) with
        objs := s.objs + 1, nodes := s.nodes.set (Nd.id ⟨s.objs, nd.root, ep, net.cap nd.root ep⟩) ⟨s.objs, nd.root, ep, net.cap nd.root ep⟩ }) hc ht'
        (pc := .cap .update nd (ep + 1) c rest (new ++ [⟨s.objs, nd.root, ep, net.cap nd.root ep⟩])) ⟨rfl, h1, h2, h3, h4, by omega, by omega, h7'⟩
      have e : asks s.own net known (.cap .update nd (ep + 1) c rest (new ++ [⟨s.objs, nd.root, ep, net.cap nd.root ep⟩])) = r := by simp only [asks]; omega
      rw [e] at this
      exact this
  | _ => simp only [asks] at hr; omega

end Lemmas.App

namespace Model.Boot
open Spec Spec.App Spec.Peer Props.Gateway
open Model.Gateway (StillOpen Nm)
open Model.App (Pc Ans Nd key)
open Lemmas.App (Honest Came Todo Loads toAsk asks truth Asking)

theorem times_add {α : Type} (f : α → α) (m n : Nat) (x : α) : times f (m + n) x = times f n (times f m x) := by
  induction m generalizing x with
  | zero => rw [Nat.zero_add]; rfl
  | succ m ih => rw [Nat.add_right_comm]; exact ih (f x)

/-- A call of the application that waits for what it asked for. -/
def waiting (wt : Nat → Option Nat) (u i : Nat) (app : App.State) (g : Gateway.State) : State := issue ⟨g, app, wt, u⟩ i

theorem issue_waiting (wt : Nat → Option Nat) (u i : Nat) (g : Gateway.State) (app : App.State) (x : Option Nat) :
    issue ⟨g, app, fun j => if j = i then x else wt j, u⟩ i = waiting wt u i app g := by
  unfold waiting issue
  have h : ∀ y : Option Nat, (fun j : Nat => if j = i then y else if j = i then x else wt j) = fun j : Nat => if j = i then y else wt j := by
    intro y; funext j; split <;> rfl
  cases (app.calls[i]?).bind query with
  | none => exact congrArg (fun f => State.mk g app f u) (h none)
  | some c => exact congrArg (fun f => State.mk (Gateway.step g (.nm c)) app f u) (h _)

theorem waiting_query {wt : Nat → Option Nat} {u i : Nat} {app : App.State} {g : Gateway.State} {pc : Pc} {c : Nm} (hc : app.calls[i]? = some pc) (hq : query pc = some c) :
    waiting wt u i app g = ⟨Gateway.step g (.nm c), app, fun j => if j = i then some g.jobs.length else wt j, u⟩ := by
  unfold waiting issue
  rw [show (app.calls[i]?).bind query = some c by rw [hc]; exact hq]

theorem waiting_none {wt : Nat → Option Nat} {u i : Nat} {app : App.State} {g : Gateway.State} {pc : Pc} (hc : app.calls[i]? = some pc) (hq : query pc = none) :
    waiting wt u i app g = ⟨g, app, fun j => if j = i then none else wt j, u⟩ := by
  unfold waiting issue
  rw [show (app.calls[i]?).bind query = none by rw [hc]; exact hq]

theorem waiting_resume {wt : Nat → Option Nat} {u i : Nat} {g : Gateway.State} {app : App.State} {pc : Pc} {j : Nat} {r : Py Gateway.Ret} {order : List Nat} {a : Ans} (hc : app.calls[i]? = some pc)
    (hj : g.jobs[j]? = some (.done r)) (ha : answerOf pc r order = some a) :
    step ⟨g, app, fun n => if n = i then some j else wt n, u⟩ (.resume i order) = waiting wt u i (App.answer { app with own := ownId g } i a) g := by
  simp only [step, hc, if_true, hj, ha, goOn]
  exact issue_waiting wt u i g _ _

theorem waiting_asked {wt : Nat → Option Nat} {u i : Nat} {g : Gateway.State} {app : App.State} (r : Py Unit) :
    step ⟨g, app, fun n => if n = i then none else wt n, u⟩ (.asked i r) = waiting wt u i (App.answer { app with own := ownId g } i (.asked r)) g := by
  simp only [step, if_true, goOn]
  exact issue_waiting wt u i g _ _

/-- The state between two turns: `q` questions have been asked since the gateway was in state `gz`. -/
structure Mid (s0 : App.State) (gz : Gateway.State) (wt : Nat → Option Nat) (u q : Nat) (p : State × Nat) (app : App.State) (g : Gateway.State) : Prop where
  eq : p = (waiting wt u s0.calls.length app g, g.conn.out.length)
  quiet : StillOpen g
  nm : g.nmSeq = gz.nmSeq + q
  out : g.conn.out.length = gz.conn.out.length + q
  id : g.nodeId = gz.nodeId
  nodes : g.nodes = gz.nodes
  upd : g.listUpdated = gz.listUpdated
  own : s0.own = ownId gz
  told : ∃ answers : List Ans, app = App.run s0 (.start .update :: answers.map (.answer s0.calls.length))

variable {s0 : App.State} {gz : Gateway.State} {wt : Nat → Option Nat} {u q : Nat} {p : State × Nat} {app : App.State} {g : Gateway.State}

theorem Mid.appOwn (h : Mid s0 gz wt u q p app g) : app.own = s0.own := by
  obtain ⟨answers, rfl⟩ := h.told
  exact Lemmas.App.run_own _ _

theorem Mid.same (h : Mid s0 gz wt u q p app g) {g' : Gateway.State} (hid : g'.nodeId = gz.nodeId) : ({ app with own := ownId g' } : App.State) = app := by
  have : ownId g' = app.own := by rw [h.appOwn, h.own]; simp only [ownId, hid]
  rw [this]

theorem told_answer (a : Ans) (h : ∃ answers : List Ans, app = App.run s0 (.start .update :: answers.map (.answer s0.calls.length))) :
    ∃ answers : List Ans, App.answer app s0.calls.length a = App.run s0 (.start .update :: answers.map (.answer s0.calls.length)) := by
  obtain ⟨answers, e⟩ := h
  refine ⟨answers ++ [a], ?_⟩
  rw [List.map_append, ← List.cons_append, Lemmas.App.run_append, ← e]
  rfl

/-- A question is answered. -/
theorem mid_question {w : Network} (hw : w.Regular) (order : List Nat) {list : List Nat} (hl : ∀ n ∈ list, n ∈ w.nodes) (h : Mid s0 gz wt u q p app g) {pc : Pc}
    (hc : app.calls[s0.calls.length]? = some pc) (hg : Asking w.own.toNat (w.net list) pc) (hq : gz.nmSeq + q < 255) :
    ∃ g', Mid s0 gz wt u (q + 1) (turnOf w order s0.calls.length p) (App.answer app s0.calls.length (truth (w.net list) pc)) g' := by
  obtain ⟨c, r, X, g2, k1, A, k2⟩ := truth_answered hw order hl h.quiet hg (by rw [h.nm]; exact hq)
  obtain ⟨d, e1, e2⟩ := A.sent
  have hid : g2.nodeId = gz.nodeId := by rw [A.eq]; exact A.id.trans h.id
  refine ⟨g2, ?_, A.quiet, by rw [A.nm, h.nm]; omega, by rw [A.out, h.out]; omega, hid, by rw [A.eq]; exact A.nodes.trans h.nodes, by rw [A.eq]; exact A.updated.trans h.upd, h.own,
    told_answer _ h.told⟩
  rw [h.eq, waiting_query hc k1]
  unfold turnOf
  dsimp only
  rw [e1, List.getElem?_append_right (Nat.le_refl _), Nat.sub_self, List.getElem?_cons_zero]
  dsimp only
  rw [e2, A.out]
  have := waiting_resume (wt := wt) (u := u) (order := order) hc A.job k2
  rw [h.same hid] at this
  exact congrArg (fun s => (s, g.conn.out.length + 1)) this

/-- The listeners answer. -/
theorem mid_asked (w : Network) (order : List Nat) (h : Mid s0 gz wt u q p app g) {pc : Pc} (hc : app.calls[s0.calls.length]? = some pc) (hq : query pc = none) :
    Mid s0 gz wt u q (turnOf w order s0.calls.length p) (App.answer app s0.calls.length (.asked (.ok ()))) g := by
  refine ⟨?_, h.quiet, h.nm, h.out, h.id, h.nodes, h.upd, h.own, told_answer _ h.told⟩
  rw [h.eq, waiting_none hc hq]
  unfold turnOf
  dsimp only
  rw [List.getElem?_eq_none (Nat.le_refl _)]
  dsimp only
  rw [if_pos rfl]
  dsimp only
  rw [waiting_asked, h.same h.id]

/-- The list of nodes is known. -/
theorem mid_list (w : Network) (order : List Nat) (h : Mid s0 gz wt u q p app g) (hc : app.calls[s0.calls.length]? = some (.list .update)) (hn : g.nodes ≠ []) :
    ∃ g', Mid s0 gz wt u q (turnOf w order s0.calls.length p) (App.answer app s0.calls.length (.list (.ok (Gateway.iter (Dict.keys gz.nodes) order)))) g' := by
  have e : Gateway.step g (.nm .getNodeList) = { g with jobs := g.jobs ++ [.done (.ok (.nodes (Dict.keys g.nodes)))] } := by
    simp only [Gateway.step, Gateway.startNm, hn, ne_eq, not_false_eq_true, and_self, if_true, Gateway.State.addJob]
  refine ⟨{ g with jobs := g.jobs ++ [.done (.ok (.nodes (Dict.keys g.nodes)))] }, ?_, ⟨h.quiet.connected, h.quiet.acks, h.quiet.sessions⟩, h.nm, h.out, h.id, h.nodes, h.upd, h.own, told_answer _ h.told⟩
  rw [h.eq, waiting_query hc rfl, e]
  unfold turnOf
  dsimp only
  rw [List.getElem?_eq_none (Nat.le_refl _)]
  dsimp only
  rw [if_pos rfl]
  dsimp only
  have := waiting_resume (wt := wt) (u := u) (i := s0.calls.length) (g := { g with jobs := g.jobs ++ [.done (.ok (.nodes (Dict.keys g.nodes)))] }) (j := g.jobs.length) (order := order) hc
    (r := .ok (.nodes (Dict.keys g.nodes))) (a := .list (.ok (Gateway.iter (Dict.keys g.nodes) order))) (by simp) rfl
  rw [h.same (g' := { g with jobs := g.jobs ++ [.done (.ok (.nodes (Dict.keys g.nodes)))] }) h.id] at this
  rw [this, h.nodes]

/-- The loop that tells of the new nodes. -/
theorem mid_announce {net : Net} {t0 : List App.Ev} (w : Network) (order : List Nat) (size : Nat) : ∀ (todo : List Nd) (s : App.State) (x : Pc) (p : State × Nat), s.calls[s0.calls.length]? = some x → Honest net t0 s →
    Mid s0 gz wt u q p (App.announce s s0.calls.length .update size todo) g →
    ∃ m app, Mid s0 gz wt u q (times (turnOf w order s0.calls.length) m p) app g ∧ app.calls[s0.calls.length]? = some (.done (.ok ())) ∧ Honest net t0 app := by
  intro todo
  induction todo with
  | nil =>
    intro s x p hc ht h
    refine ⟨0, _, h, ?_, ?_⟩
    · simp only [App.announce, reduceCtorEq, false_and, if_false]; exact Lemmas.App.goto_at hc _
    · simp only [App.announce, reduceCtorEq, false_and, if_false]; exact ht
  | cons nd todo ih =>
    intro s x p hc ht h
    have e : App.announce s s0.calls.length .update size (nd :: todo) = (s.see (.added s0.calls.length nd)).goto s0.calls.length (.adding .update todo size) := by simp [App.announce]
    rw [e] at h
    have hc' : ((s.see (.added s0.calls.length nd)).goto s0.calls.length (.adding .update todo size)).calls[s0.calls.length]? = some (.adding .update todo size) :=
      Lemmas.App.goto_at (s := s.see (.added s0.calls.length nd)) hc _
    have h2 := mid_asked w order h hc' rfl
    have e2 : App.answer ((s.see (.added s0.calls.length nd)).goto s0.calls.length (.adding .update todo size)) s0.calls.length (.asked (.ok ())) =
        App.announce ((s.see (.added s0.calls.length nd)).goto s0.calls.length (.adding .update todo size)) s0.calls.length .update size todo := by
      unfold App.answer
      rw [hc']
    rw [e2] at h2
    have ht' : Honest net t0 (s.see (.added s0.calls.length nd)) := ht.see trivial
    obtain ⟨m, app, h3⟩ := ih _ _ _ hc' ht' h2
    exact ⟨m + 1, app, h3⟩

/-- Some of the questions. -/
theorem mid_some {w : Network} (hw : w.Regular) (order : List Nat) {list : List Nat} (hl : ∀ n ∈ list, n ∈ w.nodes) {known : Nat → Bool} {t0 : List App.Ev} (hown : s0.own = w.own.toNat) (k : Nat) :
    ∀ (r q : Nat) (p : State × Nat) (app : App.State) (g : Gateway.State), Mid s0 gz wt u q p app g → Came w.own.toNat (w.net list) known t0 s0.calls.length r app → k ≤ r → gz.nmSeq + q + k ≤ 255 →
    ∃ m app' g', Mid s0 gz wt u (q + k) (times (turnOf w order s0.calls.length) m p) app' g' ∧ Came w.own.toNat (w.net list) known t0 s0.calls.length (r - k) app' := by
  induction k with
  | zero => intro r q p app g h hcame _ _; exact ⟨0, app, g, h, hcame⟩
  | succ k ih =>
    intro r q p app g h hcame hk hq
    obtain ⟨pc, hc, hg, hr⟩ := hcame.at_
    obtain ⟨g', h2⟩ := mid_question hw order hl h hc (hg.asking (by omega)) (by omega)
    have hcame' := Lemmas.App.came_answer (t0 := t0) (r := r - 1) (accepted_all hw hl) (by rw [h.appOwn, hown]) hc hg hcame.honest (by omega)
    obtain ⟨m, app', g'', h3, h4⟩ := ih _ _ _ _ _ h2 hcame' (by omega) (by omega)
    exact ⟨m + 1, app', g'', by rw [show q + (k + 1) = q + 1 + k by omega]; exact h3, by rw [show r - (k + 1) = r - 1 - k by omega]; exact h4⟩

/-- The loop that loads the new nodes. -/
theorem mid_load {w : Network} (hw : w.Regular) (order : List Nat) {list : List Nat} (hl : ∀ n ∈ list, n ∈ w.nodes) {known : Nat → Bool} {t0 : List App.Ev} (hown : s0.own = w.own.toNat) (r : Nat)
    (q : Nat) (p : State × Nat) (app : App.State) (g : Gateway.State) (h : Mid s0 gz wt u q p app g) (hcame : Came w.own.toNat (w.net list) known t0 s0.calls.length r app) (hq : gz.nmSeq + q + r ≤ 255) :
    ∃ m app' g', Mid s0 gz wt u (q + r) (times (turnOf w order s0.calls.length) m p) app' g' ∧ app'.calls[s0.calls.length]? = some (.done (.ok ())) ∧ Honest (w.net list) t0 app' := by
  obtain ⟨m0, app, g, h, hcame⟩ := mid_some hw order hl hown r _ _ _ _ _ h hcame (Nat.le_refl _) hq
  rw [Nat.sub_self] at hcame
  obtain ⟨pc, hc, hg, hr⟩ := hcame.at_
  cases pc with
  | addedAll k new =>
    obtain rfl : k = .update := hg
    have h2 := mid_asked w order h hc rfl
    have e2 : App.answer app s0.calls.length (.asked (.ok ())) = App.announce app s0.calls.length .update 0 new := by
      unfold App.answer
      rw [hc]
    rw [e2] at h2
    obtain ⟨m, app', h3, h4, h5⟩ := mid_announce (net := w.net list) (t0 := t0) w order 0 new app _ _ hc hcame.honest h2
    exact ⟨m0 + (m + 1), app', g, by rw [times_add]; exact h3, h4, h5⟩
  | done x =>
    obtain rfl : x = .ok () := hg
    exact ⟨m0, app, g, h, hc, hcame.honest⟩
  | info k n rest new => simp only [asks, cost] at hr; omega
  | eps k nd rest new => simp only [asks] at hr; omega
  | cap k nd ep count rest new => simp only [asks] at hr; omega
  | _ => exact hg.elim

/-- The loop that removes the nodes that are gone. -/
theorem mid_remove {net : Net} {known : Nat → Bool} {t0 : List App.Ev} (w : Network) (order : List Nat) (all : List Str) : ∀ (todo : List Str) (s : App.State) (x : Pc) (p : State × Nat),
    s.calls[s0.calls.length]? = some x → Honest net t0 s → s.own = s0.own → todo.Nodup → (∀ k ∈ todo, s.nodes.mem k = true) → (∀ k ∈ todo, ∀ m ∈ net.list, key m 0 ≠ k) →
    Todo net known s.nodes net.list → Mid s0 gz wt u q p (App.remove s s0.calls.length all net.list todo) g →
    ∃ m app, Mid s0 gz wt u q (times (turnOf w order s0.calls.length) m p) app g ∧ Came s0.own net known t0 s0.calls.length (toAsk s0.own net known net.list) app := by
  intro todo
  induction todo with
  | nil =>
    intro s x p hc ht ho _ _ _ hT h
    unfold App.remove at h
    by_cases ha : all = []
    · rw [if_pos ha] at h
      exact ⟨0, _, h, by rw [← ho]; exact Lemmas.App.came_load _ s [] x hc ht hT⟩
    · rw [if_neg ha] at h
      have hc' : ((s.see (.removedAll s0.calls.length all)).goto s0.calls.length (.removedAll net.list)).calls[s0.calls.length]? = some (.removedAll net.list) :=
        Lemmas.App.goto_at (s := s.see (.removedAll s0.calls.length all)) hc _
      have h2 := mid_asked w order h hc' rfl
      have e2 : App.answer ((s.see (.removedAll s0.calls.length all)).goto s0.calls.length (.removedAll net.list)) s0.calls.length (.asked (.ok ())) =
          App.load ((s.see (.removedAll s0.calls.length all)).goto s0.calls.length (.removedAll net.list)) s0.calls.length .update [] net.list := by
        unfold App.answer
        rw [hc']
      rw [e2] at h2
      refine ⟨1, _, h2, ?_⟩
      rw [← ho]
      have ht' : Honest net t0 (s.see (.removedAll s0.calls.length all)) := ht.see trivial
      exact Lemmas.App.came_load _ ((s.see (.removedAll s0.calls.length all)).goto s0.calls.length (.removedAll net.list)) [] _ hc' ht' hT
  | cons k todo ih =>
    intro s x p hc ht ho hnd hmem hne hT h
    unfold App.remove at h
    dsimp only at h
    rw [if_pos (hmem k (.head _))] at h
    have hc' : (({ s with nodes := s.nodes.erase k }.see (.removed s0.calls.length k)).goto s0.calls.length (.removing todo all net.list)).calls[s0.calls.length]? = some (.removing todo all net.list) :=
      Lemmas.App.goto_at (s := { s with nodes := s.nodes.erase k }.see (.removed s0.calls.length k)) hc _
    have h2 := mid_asked w order h hc' rfl
    have e2 : App.answer (({ s with nodes := s.nodes.erase k }.see (.removed s0.calls.length k)).goto s0.calls.length (.removing todo all net.list)) s0.calls.length (.asked (.ok ())) =
        App.remove (({ s with nodes := s.nodes.erase k }.see (.removed s0.calls.length k)).goto s0.calls.length (.removing todo all net.list)) s0.calls.length all net.list todo := by
      unfold App.answer
      rw [hc']
    rw [e2] at h2
    have ht' : Honest net t0 (({ s with nodes := s.nodes.erase k } : App.State).see (.removed s0.calls.length k)) := Honest.see (s := { s with nodes := s.nodes.erase k }) ht trivial
    have her : ∀ y, y ≠ k → (s.nodes.erase k).mem y = s.nodes.mem y := by
      intro y hy
      rw [Dict.mem, Dict.mem, Dict.get?_erase, if_neg (fun e => hy e.symm)]
    obtain ⟨m, app, h3⟩ := ih _ _ _ hc' ht' ho (List.nodup_cons.1 hnd).2
      (fun y hy => (her y (fun e => (List.nodup_cons.1 hnd).1 (e ▸ hy))).trans (hmem y (.tail _ hy)))
      (fun y hy => hne y (.tail _ hy)) ⟨hT.sub, hT.nodup, fun m hm => (her _ (hne k (.head _) m hm)).trans (hT.known m hm)⟩ h2
    exact ⟨m + 1, app, h3⟩

end Model.Boot

namespace Model.Boot
open Spec Spec.App Spec.Peer Props.Gateway
open Model.Gateway (StillOpen notIn plus)
open Model.App (Pc Ans Nd key)
open Lemmas.App (Honest Came Todo toAsk)

theorem iter_nodup {l order : List Nat} (h : l.Nodup) : (Gateway.iter l order).Nodup := by
  unfold Gateway.iter
  split
  · rename_i hp; exact (List.isPerm_iff.mp hp).nodup_iff.2 h
  · exact h

/-- After a report and the lookups for it. -/
structure Noticed (w : Network) (a : Addresses) (s : State) (g1 : Gateway.State) : Prop where
  quiet : StillOpen g1
  keys : (Dict.keys s.gw.nodes).Nodup → (Dict.keys g1.nodes).Nodup
  nodes : ∀ n v, (n, v) ∈ g1.nodes ↔ Props.MarkedIn w.mask n ∧ if n ∈ Dict.keys s.gw.nodes then (n, v) ∈ s.gw.nodes else v = some (a.of (UInt8.ofNat n))
  nm : g1.nmSeq = s.gw.nmSeq
  id : g1.nodeId = s.gw.nodeId
  upd : g1.listUpdated = s.gw.listUpdated + 1
  out : g1.conn.out.length = s.gw.conn.out.length + (unknown s.gw w).length

theorem mem_keys {κ α : Type} {d : Dict κ α} {k : κ} : k ∈ Dict.keys d ↔ ∃ v, (k, v) ∈ d := by
  unfold Dict.keys
  rw [List.mem_map]
  exact ⟨fun ⟨⟨a, b⟩, h, e⟩ => ⟨b, e ▸ h⟩, fun ⟨v, h⟩ => ⟨(k, v), h, rfl⟩⟩

theorem noticed_state {w : Network} (hm : w.mask.length = 28) (a : Addresses) (f : Freedom) {s : State} (hq : StillOpen s.gw) :
    ∃ g1, noticed w a f s = ({ s with gw := g1 }, g1.conn.out.length) ∧ Noticed w a s g1 := by
  obtain ⟨p, c, l, e1, e2, e3, e4, hnd, hl⟩ := nodeListPacket_decode f.header f.fits f.plain f.seq f.status w.own w.mask hm
  have hst := Gateway.handler_started s.gw _ f.sender f.lookups p c l e1 e2 e3 e4
  dsimp only at hst
  have hlt : ∀ n ∈ Gateway.iter l f.lookups, n < 256 := fun n hn => mem_nodes_lt ((mem_nodes hm n).2 ((hl n).1 ((Gateway.mem_iter l f.lookups n).1 hn)))
  have hmem : ∀ n, n ∈ notIn { s.gw with nodes := s.gw.nodes.filter (fun p => p.1 ∈ l) } (Gateway.iter l f.lookups) ↔ Props.MarkedIn w.mask n ∧ n ∉ Dict.keys s.gw.nodes := by
    intro n
    simp only [notIn, List.mem_filter, Gateway.mem_iter, hl]
    refine and_congr_right fun hn => ?_
    rw [Bool.not_eq_true', ← Bool.not_eq_true, Lemmas.App.mem_iff, mem_keys, mem_keys]
    refine not_congr ⟨fun ⟨v, h⟩ => ⟨v, (List.mem_filter.1 h).1⟩, fun ⟨v, h⟩ => ⟨v, List.mem_filter.2 ⟨h, by simpa using (hl n).2 hn⟩⟩⟩
  have hnd' : (notIn { s.gw with nodes := s.gw.nodes.filter (fun p => p.1 ∈ l) } (Gateway.iter l f.lookups)).Nodup := (iter_nodup hnd).filter _
  have hperm : (notIn { s.gw with nodes := s.gw.nodes.filter (fun p => p.1 ∈ l) } (Gateway.iter l f.lookups)).Perm (unknown s.gw w) := by
    have hu : (unknown s.gw w).Nodup := (List.nodup_range.filter _).filter _
    refine (List.perm_ext_iff_of_nodup hnd' hu).2 fun n => ?_
    rw [hmem, unknown, List.mem_filter, mem_nodes hm]
    refine and_congr_right fun _ => ?_
    rw [Bool.not_eq_true', ← Bool.not_eq_true, Lemmas.App.mem_iff]
  obtain ⟨g1, x1, x2, x3, x4, x5, x6, x7, x8⟩ := Gateway.lookedUp_all a s.gw.jobs (unknown s.gw w).length (Gateway.iter l f.lookups)
    { s.gw with nodes := s.gw.nodes.filter (fun p => p.1 ∈ l) } ⟨hq.connected, hq.acks, hq.sessions⟩ hlt (iter_nodup hnd) hperm.length_eq
  refine ⟨g1, ?_, x1, fun hk => ?_, fun n v => ?_, x3, x4, x5, x6⟩
  · have e : Gateway.step s.gw (.unsolicited (w.notice f.header f.seq f.status) f.sender f.lookups) =
        plus (Gateway.reportLoop { s.gw with nodes := s.gw.nodes.filter (fun p => p.1 ∈ l) } (Gateway.iter l f.lookups)) s.gw.jobs := by
      refine hst.trans ?_
      obtain ⟨cc, kk, j, hfr⟩ := Gateway.reportLoop_frame (Gateway.iter l f.lookups) { s.gw with nodes := s.gw.nodes.filter (fun p => p.1 ∈ l) }
      rw [hfr]
      rfl
    unfold noticed
    rw [e, x8]
  · rw [x2]
    simp only [Dict.keys, List.map_append, List.map_map]
    rw [List.nodup_append]
    refine ⟨(List.filter_sublist.map _).nodup hk, ?_, ?_⟩
    · have : ((notIn { s.gw with nodes := s.gw.nodes.filter (fun p => p.1 ∈ l) } (Gateway.iter l f.lookups)).map (Prod.fst ∘ fun n => (n, some (a.of (UInt8.ofNat n))))) =
          notIn { s.gw with nodes := s.gw.nodes.filter (fun p => p.1 ∈ l) } (Gateway.iter l f.lookups) := by
        rw [show (Prod.fst ∘ fun n : Nat => (n, some (a.of (UInt8.ofNat n)))) = id from rfl, List.map_id]
      rw [this]
      exact hnd'
    · intro x hx y hy hxy
      obtain ⟨n, hn, rfl⟩ := List.mem_map.1 hy
      obtain ⟨⟨k, v⟩, hkv, rfl⟩ := List.mem_map.1 hx
      refine ((hmem n).1 hn).2 (mem_keys.2 ⟨v, ?_⟩)
      have hxy : k = n := hxy
      rw [← hxy]
      exact (List.mem_filter.1 hkv).1
  · rw [x2, List.mem_append, List.mem_filter, List.mem_map]
    constructor
    · rintro (⟨h1, h2⟩ | ⟨m, h1, h2⟩)
      · refine ⟨(hl n).1 (by simpa using h2), ?_⟩
        rw [if_pos (mem_keys.2 ⟨v, h1⟩)]
        exact h1
      · obtain ⟨rfl, rfl⟩ := Prod.mk.inj h2
        obtain ⟨h3, h4⟩ := (hmem m).1 h1
        rw [if_neg h4]
        exact ⟨h3, rfl⟩
    · rintro ⟨h1, h2⟩
      by_cases hk : n ∈ Dict.keys s.gw.nodes
      · rw [if_pos hk] at h2
        exact .inl ⟨h2, by simpa using (hl n).2 h1⟩
      · rw [if_neg hk] at h2
        exact .inr ⟨n, (hmem n).2 ⟨h1, hk⟩, by rw [h2]⟩

end Model.Boot
