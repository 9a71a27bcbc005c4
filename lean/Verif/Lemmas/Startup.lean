import Verif.Lemmas.Turn
/-! Helper lemmas: startup with an adapter that answers truthfully. -/
namespace Lemmas.App
open Model Model.App Spec.App Spec.Peer

/-- How many questions startup still asks. -/
def remaining (own : Nat) (net : Net) : Pc → Nat
  | .info _ n rest _ => cost net n + costs own net rest + 1
  | .eps _ nd rest _ => 1 + net.eps nd.root + costs own net rest + 1
  | .cap _ _ _ count rest _ => 1 + count + costs own net rest + 1
  | .failed => 1
  | _ => 0

/-- Where startup is while it loads the nodes of the list. -/
def Good (own : Nat) (net : Net) : Pc → Prop
  | .info k n rest _ => k = .startup ∧ n ∈ net.list ∧ n ≠ own ∧ ∀ m ∈ rest, m ∈ net.list
  | .eps k nd rest _ => k = .startup ∧ nd.root ∈ net.list ∧ nd.root ≠ own ∧ nd.info = net.info nd.root ∧ multiChannel (net.info nd.root) = true ∧ ∀ m ∈ rest, m ∈ net.list
  | .cap k nd ep count rest _ => k = .startup ∧ nd.root ∈ net.list ∧ nd.root ≠ own ∧ nd.info = net.info nd.root ∧ multiChannel (net.info nd.root) = true ∧ 1 ≤ ep ∧
      ep + count = net.eps nd.root ∧ ∀ m ∈ rest, m ∈ net.list
  | .failed => True
  | .addedAll k _ => k = .startup
  | _ => False

theorem Good.ended {own : Nat} {net : Net} {pc : Pc} (h : Good own net pc) (hr : remaining own net pc = 0) : ∃ new, pc = .addedAll .startup new := by
  cases pc <;> simp only [Good, remaining] at h hr <;> first | omega | skip
  exact ⟨_, by rw [h]⟩

/-- What is asked for is in the network. -/
def Asking (own : Nat) (net : Net) : Pc → Prop
  | .info _ n _ _ => n ∈ net.list ∧ n ≠ own
  | .eps _ nd _ _ => nd.root ∈ net.list ∧ nd.root ≠ own
  | .cap _ nd ep count _ _ => nd.root ∈ net.list ∧ nd.root ≠ own ∧ nd.info = net.info nd.root ∧ multiChannel (net.info nd.root) = true ∧ 1 ≤ ep ∧ ep + count = net.eps nd.root
  | .failed => True
  | _ => False

theorem Good.asking {own : Nat} {net : Net} {pc : Pc} (h : Good own net pc) (hr : remaining own net pc ≠ 0) : Asking own net pc := by
  cases pc with
  | info => exact ⟨h.2.1, h.2.2.1⟩
  | eps => exact ⟨h.2.1, h.2.2.1⟩
  | cap => exact ⟨h.2.1, h.2.2.1, h.2.2.2.1, h.2.2.2.2.1, h.2.2.2.2.2.1, h.2.2.2.2.2.2.1⟩
  | failed => trivial
  | _ => exact absurd rfl hr

/-- What the adapter answers. -/
def truth (net : Net) : Pc → Ans
  | .info _ n _ _ => .info (.ok (net.info n))
  | .eps _ nd _ _ => .eps (.ok (net.eps nd.root))
  | .cap _ nd ep _ _ _ => .cap (.ok (net.cap nd.root ep))
  | _ => .failed (.ok ())

/-- Where startup is, after a step. -/
structure Went (own : Nat) (net : Net) (r : Nat) (s : State) : Prop where
  at_ : ∃ pc, s.calls = [pc] ∧ Good own net pc ∧ remaining own net pc = r
  reports : Reports net s.trace

theorem went_goto {own : Nat} {net : Net} {s : State} {x : Pc} (hc : s.calls = [x]) (ht : Reports net s.trace) {pc : Pc} (hg : Good own net pc) :
    Went own net (remaining own net pc) (s.goto 0 pc) :=
  ⟨⟨pc, by simp [State.goto, hc], hg, rfl⟩, ht⟩

theorem costs_cons (own : Nat) (net : Net) (n : Nat) (l : List Nat) : costs own net (n :: l) = (if n = own then 0 else cost net n) + costs own net l := by simp [costs]

theorem went_load {net : Net} (rest : List Nat) : ∀ (s : State) (new : List Nd) (x : Pc), s.calls = [x] → Reports net s.trace → (∀ m ∈ rest, m ∈ net.list) →
    Went s.own net (costs s.own net rest + 1) (load s 0 .startup new rest) := by
  induction rest with
  | nil =>
    intro s new x hc ht _
    unfold load
    exact went_goto (pc := .failed) hc ht trivial
  | cons n rest ih =>
    intro s new x hc ht hr
    unfold load
    rw [if_neg (by simp), costs_cons]
    by_cases hn : n = s.own
    · rw [if_pos hn, if_pos hn, Nat.zero_add]
      exact ih s new x hc ht fun m hm => hr m (.tail _ hm)
    · rw [if_neg hn, if_neg hn]
      exact went_goto (pc := .info .startup n rest new) hc ht ⟨rfl, hr n (.head _), hn, fun m hm => hr m (.tail _ hm)⟩

theorem reports_see {net : Net} {s : State} (h : Reports net s.trace) {e : Ev} (he : Truthful net e) : Reports net (s.see e).trace := by
  intro x hx
  simp only [State.see, List.mem_append, List.mem_singleton] at hx
  rcases hx with hx | rfl
  · exact h x hx
  · exact he

/-- The nodes and end points are accepted. -/
def AllAccepted (own : Nat) (net : Net) : Prop :=
  ∀ n ∈ net.list, n ≠ own → Accepted (net.info n) ∧ (multiChannel (net.info n) = true → ∀ e, 1 ≤ e → e ≤ net.eps n → Accepted (net.cap n e))

/-- A truthful answer is one question less. -/
theorem went_answer {own : Nat} {net : Net} (hacc : AllAccepted own net) {s : State} (hown : s.own = own) {pc : Pc} (hc : s.calls = [pc]) (hg : Good own net pc) (ht : Reports net s.trace)
    {r : Nat} (hr : remaining own net pc = r + 1) : Went own net r (answer s 0 (truth net pc)) := by
  subst hown
  have h0 : s.calls[0]? = some pc := by rw [hc]; rfl
  unfold answer
  rw [h0]
  cases pc with
  | info k n rest new =>
    obtain ⟨rfl, h1, h2, h3⟩ := hg
    obtain ⟨⟨x, hx⟩, -⟩ := hacc n h1 h2
    simp only [truth, hx]
    simp only [remaining, cost] at hr
    have ht' : Reports net (s.see (.gotInfo 0 n (net.info n))).trace := reports_see ht rfl
    by_cases hm : multiChannel (net.info n) = true
    · rw [if_pos hm]
      rw [if_pos hm] at hr
      have := went_goto (own := s.own) (net := net) (s := { s.see (.gotInfo 0 n (net.info n)) with
        objs := s.objs + 1, nodes := s.nodes.set (Nd.id ⟨s.objs, n, 0, net.info n⟩) ⟨s.objs, n, 0, net.info n⟩ }) hc ht'
        (pc := .eps .startup ⟨s.objs, n, 0, net.info n⟩ rest (new ++ [⟨s.objs, n, 0, net.info n⟩])) ⟨rfl, h1, h2, rfl, hm, h3⟩
      have e : remaining s.own net (.eps .startup ⟨s.objs, n, 0, net.info n⟩ rest (new ++ [⟨s.objs, n, 0, net.info n⟩])) = r := by simp only [remaining]; omega
      rw [e] at this
      exact this
    · rw [if_neg hm]
      rw [if_neg hm] at hr
      have := went_load (net := net) rest { s.see (.gotInfo 0 n (net.info n)) with
        objs := s.objs + 1, nodes := s.nodes.set (Nd.id ⟨s.objs, n, 0, net.info n⟩) ⟨s.objs, n, 0, net.info n⟩ } (new ++ [⟨s.objs, n, 0, net.info n⟩]) _ hc ht' h3
      have e : costs s.own net rest + 1 = r := by omega
      rw [← e]
      exact this
  | eps k nd rest new =>
    obtain ⟨rfl, h1, h2, h3, h4, h5⟩ := hg
    simp only [truth]
    simp only [remaining] at hr
    have ht' : Reports net (s.see (.gotEps 0 nd.root (net.eps nd.root))).trace := reports_see ht rfl
    cases hn : net.eps nd.root with
    | zero =>
      rw [hn] at ht' hr
      have := went_load (net := net) rest (s.see (.gotEps 0 nd.root 0)) new _ hc ht' h5
      have e : costs s.own net rest + 1 = r := by omega
      rw [← e]
      exact this
    | succ c =>
      rw [hn] at ht' hr
      have := went_goto (own := s.own) (net := net) (s := s.see (.gotEps 0 nd.root (c + 1))) hc ht' (pc := .cap .startup nd 1 c rest new)
        ⟨rfl, h1, h2, h3, h4, Nat.le_refl _, by omega, h5⟩
      have e : remaining s.own net (.cap .startup nd 1 c rest new) = r := by simp only [remaining]; omega
      rw [e] at this
      exact this
  | cap k nd ep count rest new =>
    obtain ⟨rfl, h1, h2, h3, h4, h5, h6, h7⟩ := hg
    obtain ⟨x, hx⟩ := (hacc nd.root h1 h2).2 h4 ep h5 (by omega)
    simp only [truth, hx]
    simp only [remaining] at hr
    have ht' : Reports net (s.see (.gotCap 0 nd.root ep (net.cap nd.root ep))).trace := reports_see ht rfl
    cases count with
    | zero =>
      have := went_load (net := net) rest { s.see (.gotCap 0 nd.root ep (net.cap nd.root ep)) with
        objs := s.objs + 1, nodes := s.nodes.set (Nd.id ⟨s.objs, nd.root, ep, net.cap nd.root ep⟩) ⟨s.objs, nd.root, ep, net.cap nd.root ep⟩ }
        (new ++ [⟨s.objs, nd.root, ep, net.cap nd.root ep⟩]) _ hc ht' h7
      have e : costs s.own net rest + 1 = r := by omega
      rw [← e]
      exact this
    | succ c =>
      have := went_goto (own := s.own) (net := net) (s := { s.see (.gotCap 0 nd.root ep (net.cap nd.root ep)) with
        objs := s.objs + 1, nodes := s.nodes.set (Nd.id ⟨s.objs, nd.root, ep, net.cap nd.root ep⟩) ⟨s.objs, nd.root, ep, net.cap nd.root ep⟩ }) hc ht'
        (pc := .cap .startup nd (ep + 1) c rest (new ++ [⟨s.objs, nd.root, ep, net.cap nd.root ep⟩])) ⟨rfl, h1, h2, h3, h4, by omega, by omega, h7⟩
      have e : remaining s.own net (.cap .startup nd (ep + 1) c rest (new ++ [⟨s.objs, nd.root, ep, net.cap nd.root ep⟩])) = r := by simp only [remaining]; omega
      rw [e] at this
      exact this
  | failed =>
    simp only [remaining] at hr
    simp only [truth]
    have := went_goto (own := s.own) (net := net) (s := s.see (.addedAll 0 (s.nodes.map Prod.snd))) hc (reports_see ht trivial) (pc := .addedAll .startup []) rfl
    have e : remaining s.own net (.addedAll .startup []) = r := by simp only [remaining]; omega
    rw [e] at this
    exact this
  | _ => simp only [remaining] at hr; omega

/-- The list of nodes arrives. -/
theorem went_list {net : Net} {s : State} (hc : s.calls = [.list .startup]) (ht : Reports net s.trace) : Went s.own net (costs s.own net net.list + 1) (answer s 0 (.list (.ok net.list))) := by
  have h0 : s.calls[0]? = some (.list .startup) := by rw [hc]; rfl
  unfold answer
  rw [h0]
  exact went_load (net := net) net.list (s.see (.gotList 0 net.list)) [] _ hc (reports_see ht rfl) fun m hm => hm

theorem answer_own (s : State) (i : Nat) (a : Ans) : (answer s i a).own = s.own := run_own s [.answer i a]

end Lemmas.App

namespace Model.Boot
open Spec Spec.App Spec.Peer Props.Gateway
open Model.Gateway (StillOpen Nm nm_answered nm_stuck)
open Model.App (Pc Ans)

/-- One call of the application that waits for what it asked for. -/
def waitingFor (app : App.State) (g : Gateway.State) : State := issue ⟨g, app, fun _ => none, 0⟩ 0

theorem issue_waits (g : Gateway.State) (app : App.State) (x : Option Nat) : issue ⟨g, app, fun j => if j = 0 then x else none, 0⟩ 0 = waitingFor app g := by
  unfold waitingFor issue
  have h : ∀ y : Option Nat, (fun j : Nat => if j = 0 then y else if j = 0 then x else none) = fun j : Nat => if j = 0 then y else none := by
    intro y; funext j; split <;> rfl
  cases (app.calls[0]?).bind query with
  | none => exact congrArg (fun f => State.mk g app f 0) (h none)
  | some c => exact congrArg (fun f => State.mk (Gateway.step g (.nm c)) app f 0) (h _)

theorem waitingFor_query {app : App.State} {g : Gateway.State} {pc : Pc} {c : Nm} (hc : app.calls = [pc]) (hq : query pc = some c) :
    waitingFor app g = ⟨Gateway.step g (.nm c), app, fun j => if j = 0 then some g.jobs.length else none, 0⟩ := by
  unfold waitingFor issue
  rw [show (app.calls[0]?).bind query = some c by rw [hc]; exact hq]

theorem waitingFor_none {app : App.State} {g : Gateway.State} {pc : Pc} (hc : app.calls = [pc]) (hq : query pc = none) :
    waitingFor app g = ⟨g, app, fun _ => none, 0⟩ := by
  unfold waitingFor issue
  rw [show (app.calls[0]?).bind query = none by rw [hc]; exact hq]
  refine congrArg (fun f => State.mk g app f 0) ?_
  funext j; split <;> rfl

/-- The coroutine has returned and the call goes on. -/
theorem resume_done {g : Gateway.State} {app : App.State} {pc : Pc} {j : Nat} {r : Py Gateway.Ret} {order : List Nat} {a : Ans} (hc : app.calls = [pc]) (hj : g.jobs[j]? = some (.done r))
    (ha : answerOf pc r order = some a) :
    step ⟨g, app, fun i => if i = 0 then some j else none, 0⟩ (.resume 0 order) = waitingFor (App.answer { app with own := ownId g } 0 a) g := by
  have h0 : app.calls[0]? = some pc := by rw [hc]; rfl
  simp only [step, h0, if_true, hj, ha, goOn]
  exact issue_waits g _ _

theorem ackFor_reply {q : Nat} (hq : q < 256) : AckFor [0x23, 0x02, 0x40, 0x10, UInt8.ofNat q, 0, 0] q := by
  have hd : decode [0x23, 0x02, 0x40, 0x10, UInt8.ofNat q, 0, 0] = .ok (.known 0x2302 (zipAll 0x40 0x10 (UInt8.ofNat q) 0 0 none)) := by
    rw [zip_decode]; rfl
  exact Props.ackFor_wire { ackResponse := true, secure := true, seq := q, src := 0, dst := 0 } ⟨hq, Nat.zero_lt_succ _, Nat.zero_lt_succ _⟩ rfl rfl [] _ hd

theorem reply_gateway (w : Network) (q : Nat) (cmd : Bytes) :
    w.reply ((gatewayHeader q).bytes ++ cmd) = ([0x23, 0x02, 0x40, 0x10, UInt8.ofNat q, 0, 0], Props.GatewayCalls.answer (w.report cmd)) := rfl

/-- A question is asked and answered: what has been sent, and the state after that. -/
structure Answered (w : Network) (g : Gateway.State) (c : Nm) (F : Gateway.State → Gateway.State) (r : Py Gateway.Ret) (X g2 : Gateway.State) : Prop where
  sent : ∃ d, (Gateway.step g (.nm c)).conn.out = g.conn.out ++ [d] ∧
    Gateway.run (Gateway.step g (.nm c)) (answeringLast (Gateway.step g (.nm c)) (w.reply d).1 (w.reply d).2) = g2
  eq : g2 = (F X).setJob g.jobs.length (.done r)
  quiet : StillOpen g2
  nm : g2.nmSeq = g.nmSeq + 1
  id : X.nodeId = g.nodeId
  nodes : X.nodes = g.nodes
  updated : X.listUpdated = g.listUpdated
  out : g2.conn.out.length = g.conn.out.length + 1
  job : g2.jobs[g.jobs.length]? = some (.done r)

theorem question_answered (w : Network) {g : Gateway.State} {c : Nm} {hid : Nat} (h : StillOpen g)
    (hf : NmFits c) (hn : ¬ (c = .getNodeList ∧ g.nodes ≠ [])) (hq : g.nmSeq < 255) (hw : c.waitsFor = some (hid, 3))
    {m : Msg} (hne : w.report (nmBytes (g.nmSeq + 1) c) ≠ []) (hd : decode (w.report (nmBytes (g.nmSeq + 1) c)) = .ok m) (hh : m.hid = hid)
    {F : Gateway.State → Gateway.State} {r : Py Gateway.Ret}
    (hF : ∀ X, Gateway.afterAsk X (if c = .getNodeList then .list else .nm c) (.ok m) [] = (F X, .done r))
    (hkeep : ∀ X, (F X).conn = X.conn ∧ (F X).nmSeq = X.nmSeq ∧ (F X).jobs = X.jobs) : ∃ X g2, Answered w g c F r X g2 := by
  obtain ⟨h1, h2⟩ := nm_answered h c hf hn hq hw
  obtain ⟨X, x1, x2, x3, x4, x4', x5, ⟨j, x6⟩, x7⟩ := h2 _ _ m (ackFor_reply (q := (g.conn.seq + 1) % 256) (by omega)) hne hd hh
  obtain ⟨k1, k2, k3⟩ := hkeep X
  rw [hF X] at x7
  refine ⟨X, (F X).setJob g.jobs.length (.done r), ⟨_, h1, ?_⟩, rfl, ⟨?_, ?_, ?_⟩, ?_, x4, x3, x4', ?_, ?_⟩
  · rw [reply_gateway]
    exact x7
  · simp only [Gateway.State.setJob, k1]; exact x1.connected
  · simp only [Gateway.State.setJob, k1]; exact x1.acks
  · simp only [Gateway.State.setJob, k1]; exact x1.sessions
  · simp only [Gateway.State.setJob, k2]; exact x2
  · simp only [Gateway.State.setJob, k1, x5, h1, List.length_append, List.length_singleton]
  · simp only [Gateway.State.setJob, k3, x6]
    simp

/-- One turn. -/
theorem turn_answered (w : Network) (order : List Nat) {app : App.State} {g : Gateway.State} {pc : Pc} {c : Nm} (hc : app.calls = [pc]) (hqc : query pc = some c)
    {F : Gateway.State → Gateway.State} {r : Py Gateway.Ret} {X g2 : Gateway.State} (h : Answered w g c F r X g2) {a : Ans} (ha : answerOf pc r order = some a) :
    turn w order (waitingFor app g, g.conn.out.length) = (waitingFor (App.answer { app with own := ownId g2 } 0 a) g2, g2.conn.out.length) := by
  obtain ⟨d, h1, h2⟩ := h.sent
  rw [waitingFor_query hc hqc]
  unfold turn
  dsimp only
  rw [h1, List.getElem?_append_right (Nat.le_refl _), Nat.sub_self, List.getElem?_cons_zero]
  dsimp only
  rw [h2, h.out]
  exact congrArg (fun s => (s, g.conn.out.length + 1)) (resume_done hc h.job ha)

theorem marked_iff (mask : Bytes) (n : Nat) : marked mask n = true ↔ Props.MarkedIn mask n := by
  simp only [marked, Props.MarkedIn, Bool.and_eq_true, decide_eq_true_eq]
  refine and_congr_right fun _ => ?_
  cases mask[(n - 1) / 8]? with
  | none => simp
  | some b => simp

theorem mem_nodes {w : Network} (hm : w.mask.length = 28) (n : Nat) : n ∈ w.nodes ↔ Props.MarkedIn w.mask n := by
  simp only [Network.nodes, List.mem_filter, List.mem_range, marked_iff]
  refine ⟨fun h => h.2, fun h => ⟨?_, h⟩⟩
  obtain ⟨h1, b, hb, -⟩ := h
  have : (n - 1) / 8 < 28 := by rw [← hm]; exact (List.getElem?_eq_some_iff.1 hb).1
  omega

theorem mem_nodes_lt {w : Network} {n : Nat} (h : n ∈ w.nodes) : n < 256 := by
  simp only [Network.nodes, List.mem_filter, List.mem_range] at h; exact h.1

/-- The list of nodes arrives. -/
theorem turn_list {w : Network} (hw : w.Regular) (order : List Nat) {app : App.State} {g : Gateway.State} (h : StillOpen g) (hc : app.calls = [.list .startup]) (hn : g.nodes = []) (hq : g.nmSeq < 255) :
    ∃ l g2, l.Nodup ∧ (∀ n, n ∈ l ↔ n ∈ w.nodes) ∧
      turn w order (waitingFor app g, g.conn.out.length) = (waitingFor (App.answer { app with own := w.own.toNat } 0 (.list (.ok l))) g2, g2.conn.out.length) ∧
        StillOpen g2 ∧ g2.nmSeq = g.nmSeq + 1 ∧ ownId g2 = w.own.toNat ∧ g2.conn.out.length = g.conn.out.length + 1 ∧
        (Dict.keys g2.nodes).Nodup ∧ g2.listUpdated = g.listUpdated := by
  obtain ⟨m, l, e, h1, -, -, h3, h4, h5, h6⟩ := Props.C18_node_list (byte ((g.nmSeq + 1 : Nat) : Int)) 0 w.own w.mask [] hw.mask
  rw [List.append_nil] at e
  have hl : Gateway.reportNodes m = some l := by unfold Gateway.reportNodes; rw [h4]
  obtain ⟨X, g2, A⟩ := question_answered w h (c := .getNodeList) trivial (fun x => x.2 hn) hq rfl
    (m := m) (by simp [Network.report, nmBytes]) (by simpa only [Network.report, nmBytes] using e) h1
    (F := fun X => { X with nodeId := some (w.own.toNat : Int), nodes := l.map fun n => (n, none) }) (r := .ok (.nodes l))
    (fun X => by simp only [if_true, Gateway.afterAsk, Gateway.storeList, hl, h3]) (fun X => ⟨rfl, rfl, rfl⟩)
  have t1 := turn_answered w order hc rfl A (a := .list (.ok (Gateway.iter l order))) rfl
  have ho : ownId g2 = w.own.toNat := by rw [A.eq]; rfl
  rw [ho] at t1
  have hk : Dict.keys g2.nodes = l := by
    rw [A.eq]
    simp [Gateway.State.setJob, Dict.keys, Function.comp_def]
  refine ⟨Gateway.iter l order, g2, ?_, ?_, t1, A.quiet, A.nm, ho, A.out, by rw [hk]; exact h5, by rw [A.eq]; exact A.updated⟩
  · unfold Gateway.iter
    split
    · rename_i hp; exact (List.isPerm_iff.mp hp).nodup_iff.2 h5
    · exact h5
  · intro n
    rw [Gateway.mem_iter, h6, mem_nodes hw.mask]

theorem ofNat_toNat {n : Nat} (h : n < 256) : (UInt8.ofNat n).toNat = n := by rw [UInt8.toNat_ofNat', Nat.mod_eq_of_lt h]

theorem classList_bytes {m : Msg} {b : Bytes} (h : m.attr "commandClass" = some (.bytes b)) : classList m = .ok (b.map UInt8.toNat) := by
  unfold classList; rw [h]

theorem nodeInfo_of_says {m : Msg} {x : App.Info} (h : Props.Boot.Says m x) : nodeInfo m = .ok x := by
  obtain ⟨-, b, hb, rfl⟩ := h
  unfold nodeInfo
  rw [classList_bytes hb]
  rfl

theorem endPointInfo_of_says {m : Msg} {nd : App.Nd} {x : App.Info} (h : Props.Boot.SaysEnd nd.info m x) : endPointInfo nd m = .ok x := by
  obtain ⟨-, b, hb, rfl⟩ := h
  unfold endPointInfo
  rw [classList_bytes hb]
  rfl

/-- What the gateway's report on a question about a node or the failed nodes is, and what startup makes of it. -/
structure Truth (w : Network) (q : Nat) (pc : Pc) (c : Nm) (hid : Nat) (m : Msg) (r : Py Gateway.Ret) (a : Ans) : Prop where
  query : query pc = some c
  notList : c ≠ .getNodeList
  fits : NmFits c
  waitsFor : c.waitsFor = some (hid, 3)
  report : w.report (nmBytes q c) ≠ []
  decodes : decode (w.report (nmBytes q c)) = .ok m
  isHid : m.hid = hid
  answer : Gateway.answer c m = r
  answerOf : ∀ order, answerOf pc r order = some a

theorem truth_report {w : Network} (hw : w.Regular) {list : List Nat} (hl : ∀ n ∈ list, n ∈ w.nodes) {q : Nat} {pc : Pc} (hg : Lemmas.App.Asking w.own.toNat (w.net list) pc) :
    ∃ c hid m r, Truth w q pc c hid m r (Lemmas.App.truth (w.net list) pc) ∧ hid / 256 = 0x52 := by
  have key : ∀ {c : Nm} {hid : Nat} {m : Msg} {ret : Py Gateway.Ret}, query pc = some c → c ≠ .getNodeList → NmFits c → c.waitsFor = some (hid, 3) → hid / 256 = 0x52 →
      w.report (nmBytes q c) ≠ [] → decode (w.report (nmBytes q c)) = .ok m → m.hid = hid → Gateway.answer c m = ret →
      (∀ order, answerOf pc ret order = some (Lemmas.App.truth (w.net list) pc)) →
      ∃ c hid m r, Truth w q pc c hid m r (Lemmas.App.truth (w.net list) pc) ∧ hid / 256 = 0x52 :=
    fun k1 k2 k3 k4 kp k5 k6 k7 k8 k9 => ⟨_, _, _, _, ⟨k1, k2, k3, k4, k5, k6, k7, k8, k9⟩, kp⟩
  have byteNat : ∀ n : Nat, byte (n : Int) = UInt8.ofNat n := fun _ => rfl
  cases pc with
  | info k n rest new =>
    obtain ⟨h1, h2⟩ := hg
    have hn := hl n h1
    have hlt := mem_nodes_lt hn
    obtain ⟨hne, -⟩ := hw.nodes n hn h2
    obtain ⟨c, cs, hcs⟩ := List.exists_cons_of_ne_nil hne
    obtain ⟨m, e1, -, e2⟩ := Props.Boot.C132_info (byte (q : Int)) 0 (w.node (UInt8.ofNat n)).flags 0 0 (w.node (UInt8.ofNat n)).basic (w.node (UInt8.ofNat n)).generic
      (w.node (UInt8.ofNat n)).specific c cs
    rw [← hcs] at e1 e2
    refine key (c := .getNodeInfo n) (hid := 0x5204) (m := m) (ret := .ok (.msg m)) rfl (by simp) ⟨by omega, by omega⟩ rfl (by decide) (by simp [Network.report, nmBytes]) ?_ e2.1 rfl ?_
    · simpa only [Network.report, nmBytes, byteNat] using e1
    · intro order; simp only [answerOf, nodeInfo_of_says e2, Lemmas.App.truth, Network.net]
  | eps k nd rest new =>
    obtain ⟨h1, h2⟩ := hg
    have hn := hl _ h1
    have hlt := mem_nodes_lt hn
    obtain ⟨m, e1, e2, -, e3, e4⟩ := Props.GatewayCalls.C87_end_points (byte (q : Int)) (UInt8.ofNat nd.root) 0 (w.individual (UInt8.ofNat nd.root)) (w.aggregated (UInt8.ofNat nd.root))
    refine key (c := .getMultiChannelEndPoints nd.root) (hid := 0x5206) (m := m) rfl (by simp) ⟨by omega, by omega⟩ rfl (by decide) (by simp [Network.report, nmBytes]) ?_ e2 rfl ?_
    · simpa only [Network.report, nmBytes, byteNat] using e1
    · intro order; simp only [Gateway.answer, e3, e4, answerOf, Lemmas.App.truth, Network.net]
      rw [← Int.natCast_add, Int.toNat_natCast]
  | cap k nd ep count rest new =>
    obtain ⟨h1, h2, h3, h4, h5, h6⟩ := hg
    have hn := hl _ h1
    have hlt := mem_nodes_lt hn
    obtain ⟨he, hends⟩ := hw.ends _ hn h2 h4
    have h6 : ep + count = (w.net []).eps nd.root := h6
    obtain ⟨hne, -⟩ := hends ep h5 (by omega)
    obtain ⟨c, cs, hcs⟩ := List.exists_cons_of_ne_nil hne
    obtain ⟨m, e1, -, -, e2⟩ := Props.Boot.C132_capability (byte (q : Int)) (UInt8.ofNat nd.root) (UInt8.ofNat (w.endPoint (UInt8.ofNat nd.root) (UInt8.ofNat ep)).classes.length) (UInt8.ofNat ep)
      (w.endPoint (UInt8.ofNat nd.root) (UInt8.ofNat ep)).generic (w.endPoint (UInt8.ofNat nd.root) (UInt8.ofNat ep)).specific c cs nd.info
    rw [← hcs] at e1 e2
    refine key (c := .getMultiChannelCapability nd.root ep) (hid := 0x5208) (m := m) (ret := .ok (.msg m)) rfl (by simp) ⟨⟨by omega, by omega⟩, by omega, by omega⟩ rfl (by decide)
      (by simp [Network.report, nmBytes]) ?_ e2.1 rfl ?_
    · simpa only [Network.report, nmBytes, byteNat] using e1
    · intro order; simp only [answerOf, endPointInfo_of_says e2, Lemmas.App.truth, Network.net, h3]
  | failed =>
    obtain ⟨m, l, e1, e2, -, e3, -, -⟩ := Props.C18_failed_node_list (byte (q : Int)) w.failed [] hw.failed
    rw [List.append_nil] at e1
    have ha : getAttr registry m "failedNodeList" = some (.nodeSet l) := by unfold getAttr; rw [e3]
    refine key (c := .getFailedNodeList) (hid := 0x520C) (m := m) rfl (by simp) trivial rfl (by decide) (by simp [Network.report, nmBytes]) ?_ e2 rfl ?_
    · simpa only [Network.report, nmBytes] using e1
    · intro order; simp only [Gateway.answer, ha, answerOf, Lemmas.App.truth]
  | _ => exact hg.elim

/-- A question about a node or the failed nodes is answered. -/
theorem truth_answered {w : Network} (hw : w.Regular) (order : List Nat) {list : List Nat} (hl : ∀ n ∈ list, n ∈ w.nodes) {g : Gateway.State} {pc : Pc} (h : StillOpen g)
    (hg : Lemmas.App.Asking w.own.toNat (w.net list) pc) (hq : g.nmSeq < 255) :
    ∃ c r X g2, query pc = some c ∧ Answered w g c id r X g2 ∧ answerOf pc r order = some (Lemmas.App.truth (w.net list) pc) := by
  obtain ⟨c, hid, m, r, t, -⟩ := truth_report hw hl (q := g.nmSeq + 1) hg
  obtain ⟨X, g2, A⟩ := question_answered w h t.fits (fun x => t.notList x.1) hq t.waitsFor t.report t.decodes t.isHid (F := id) (r := r)
    (fun X => by rw [if_neg t.notList]; simp only [Gateway.afterAsk, t.answer, id]) (fun X => ⟨rfl, rfl, rfl⟩)
  exact ⟨c, r, X, g2, t.query, A, t.answerOf order⟩

/-- The same, as one turn of startup. -/
theorem turn_truth {w : Network} (hw : w.Regular) (order : List Nat) {list : List Nat} (hl : ∀ n ∈ list, n ∈ w.nodes) {app : App.State} {g : Gateway.State} {pc : Pc} (h : StillOpen g)
    (hc : app.calls = [pc]) (hg : Lemmas.App.Good w.own.toNat (w.net list) pc) {r : Nat} (hr : Lemmas.App.remaining w.own.toNat (w.net list) pc = r + 1) (hq : g.nmSeq < 255)
    (how : ownId g = w.own.toNat) (hown : app.own = w.own.toNat) :
    ∃ g2, turn w order (waitingFor app g, g.conn.out.length) = (waitingFor (App.answer app 0 (Lemmas.App.truth (w.net list) pc)) g2, g2.conn.out.length) ∧
        StillOpen g2 ∧ g2.nmSeq = g.nmSeq + 1 ∧ ownId g2 = w.own.toNat ∧ g2.conn.out.length = g.conn.out.length + 1 ∧ g2.nodes = g.nodes ∧ g2.listUpdated = g.listUpdated := by
  obtain ⟨c, ret, X, g2, k1, A, k2⟩ := truth_answered hw order hl h (hg.asking (by omega)) hq
  have t1 := turn_answered w order hc k1 A k2
  have ho : ownId g2 = w.own.toNat := by
    rw [← how, A.eq]; simp only [ownId, id, Gateway.State.setJob, A.id]
  rw [ho, ← hown] at t1
  exact ⟨g2, t1, A.quiet, A.nm, ho, A.out, by rw [A.eq]; exact A.nodes, by rw [A.eq]; exact A.updated⟩

/-- Some turns. -/
def turnsFrom (w : Network) (order : List Nat) (p : State × Nat) : Nat → State × Nat
  | 0 => p
  | n + 1 => turn w order (turnsFrom w order p n)

theorem turns_succ (w : Network) (order : List Nat) (n : Nat) : turns w order (n + 1) = turnsFrom w order (turns w order 1) n := by
  induction n with
  | zero => rfl
  | succ n ih =>
    show turn w order (turns w order (n + 1)) = turn w order (turnsFrom w order (turns w order 1) n)
    rw [ih]

/-- What the application has been told since it was made. -/
def Told (own : Nat) (net : Net) (app : App.State) : Prop :=
  ∃ answers : List Ans, app = App.run (App.fresh own) (.start .startup :: answers.map (.answer 0)) ∧ Reports net app.trace

theorem Told.answer {own : Nat} {net : Net} {app : App.State} (h : Told own net app) (a : Ans) (hr : Reports net (App.answer app 0 a).trace) : Told own net (App.answer app 0 a) := by
  obtain ⟨answers, e, -⟩ := h
  refine ⟨answers ++ [a], ?_, hr⟩
  rw [List.map_append, ← List.cons_append, Lemmas.App.run_append, ← e]
  rfl

theorem Told.own {own : Nat} {net : Net} {app : App.State} (h : Told own net app) : app.own = own := by
  obtain ⟨answers, rfl, -⟩ := h
  rw [Lemmas.App.run_own]; rfl

/-- The state between two turns, with `q` questions asked and `r` to go. -/
structure Between (w : Network) (list : List Nat) (q r : Nat) (p : State × Nat) (app : App.State) (g : Gateway.State) : Prop where
  eq : p = (waitingFor app g, g.conn.out.length)
  quiet : StillOpen g
  nm : g.nmSeq = q
  out : g.conn.out.length = q
  own : ownId g = w.own.toNat
  table : (Dict.keys g.nodes).Nodup
  upd : g.listUpdated = 0
  told : Told w.own.toNat (w.net list) app
  at_ : ∃ pc, app.calls = [pc] ∧ Lemmas.App.Good w.own.toNat (w.net list) pc ∧ Lemmas.App.remaining w.own.toNat (w.net list) pc = r

theorem accepted_all {w : Network} (hw : w.Regular) {list : List Nat} (hl : ∀ n ∈ list, n ∈ w.nodes) : Lemmas.App.AllAccepted w.own.toNat (w.net list) := by
  intro n hn ho
  exact ⟨(hw.nodes n (hl n hn) ho).2, fun hm e h1 h2 => ((hw.ends n (hl n hn) ho hm).2 e h1 h2).2⟩

theorem between_turn {w : Network} (hw : w.Regular) (order : List Nat) {list : List Nat} (hl : ∀ n ∈ list, n ∈ w.nodes) {q r : Nat} {p : State × Nat} {app : App.State} {g : Gateway.State}
    (h : Between w list q (r + 1) p app g) (hq : q < 255) : ∃ app' g', Between w list (q + 1) r (turn w order p) app' g' := by
  obtain ⟨pc, hc, hg, hr⟩ := h.at_
  obtain ⟨g2, t1, t2, t3, t4, t5, t6, t7⟩ := turn_truth hw order hl h.quiet hc hg hr (by rw [h.nm]; exact hq) h.own h.told.own
  have hwent := Lemmas.App.went_answer (accepted_all hw hl) h.told.own hc hg h.told.choose_spec.2 hr
  exact ⟨_, g2, by rw [h.eq, t1], t2, by rw [t3, h.nm], by rw [t5, h.out], t4, by rw [t6]; exact h.table, t7.trans h.upd, h.told.answer _ hwent.reports, hwent.at_⟩

theorem between_turns {w : Network} (hw : w.Regular) (order : List Nat) {list : List Nat} (hl : ∀ n ∈ list, n ∈ w.nodes) {q r : Nat} {p : State × Nat} {app : App.State} {g : Gateway.State}
    (h : Between w list q r p app g) (k : Nat) (hk : k ≤ r) (hq : q + k ≤ 255) : ∃ app' g', Between w list (q + k) (r - k) (turnsFrom w order p k) app' g' := by
  induction k with
  | zero => exact ⟨app, g, h⟩
  | succ k ih =>
    obtain ⟨app', g', h'⟩ := ih (by omega) (by omega)
    have e : r - k = (r - (k + 1)) + 1 := by omega
    rw [e] at h'
    exact between_turn hw order hl h' (by show q + k < 255; omega)

/-- After the first turn. -/
theorem between_first {w : Network} (hw : w.Regular) (order : List Nat) :
    ∃ list, list.Nodup ∧ (∀ n, n ∈ list ↔ n ∈ w.nodes) ∧ ∃ app g, Between w list 1 (costs w.own.toNat (w.net []) list + 1) (turns w order 1) app g := by
  have e : turns w order 0 = (waitingFor (App.step (App.fresh 0) (.start .startup)) (Gateway.step Gateway.init (.conn .connect)), 0) := rfl
  obtain ⟨l, g2, h1, h2, t1, t2, t3, t4, t5, t6, t7⟩ := turn_list hw order (app := App.step (App.fresh 0) (.start .startup)) (g := Gateway.step Gateway.init (.conn .connect))
    ⟨rfl, rfl, rfl⟩ rfl rfl (by decide)
  have e0 : (Gateway.step Gateway.init (.conn .connect)).conn.out.length = 0 := rfl
  rw [e0] at t1 t5
  have hwent := Lemmas.App.went_list (net := w.net l) (s := { App.step (App.fresh 0) (.start .startup) with own := w.own.toNat }) rfl (fun x hx => by cases hx)
  refine ⟨l, h1, h2, _, g2, ?_, t2, t3, t5, t4, t6, t7, ?_, hwent.at_⟩
  · exact Eq.trans (congrArg (turn w order) e) t1
  · exact ⟨[.list (.ok l)], rfl, hwent.reports⟩

theorem costs_perm (own : Nat) (net : Net) {a b : List Nat} (h : a.Perm b) : costs own net a = costs own net b := by
  unfold costs
  induction h with
  | nil => rfl
  | cons x _ ih => simp only [List.map_cons, List.sum_cons, ih]
  | swap x y l => simp only [List.map_cons, List.sum_cons]; omega
  | trans _ _ ih1 ih2 => exact ih1.trans ih2

theorem costs_nodes {w : Network} {list : List Nat} (h1 : list.Nodup) (h2 : ∀ n, n ∈ list ↔ n ∈ w.nodes) : 1 + (costs w.own.toNat (w.net []) list + 1) = w.questions := by
  have hn : w.nodes.Nodup := (List.nodup_range).filter _
  rw [costs_perm _ _ ((List.perm_ext_iff_of_nodup h1 hn).2 h2)]
  unfold Network.questions
  omega

end Model.Boot
