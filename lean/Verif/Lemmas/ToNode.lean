import Verif.Model.ToNode
import Verif.Lemmas.NodeLinks
/-!
# Lemmas about sending to nodes
-/
namespace Model.Gateway

/-- What an operation does to the connection `k`. -/
def linkOps (k : Nat) (g : State) : Op → List Conn.Op
  | .link k' o => if k' = k then [o] else []
  | .opened i true =>
    match g.jobs[i]? with
    | some (.opening _ k') => if k' = k then [.connect] else []
    | _ => []
  | _ => []

theorem linkOps_le (k : Nat) (g : State) (o : Op) : (linkOps k g o).length ≤ 1 := by
  cases o with
  | link k' c => simp only [linkOps]; split <;> simp
  | opened i ok =>
    cases ok with
    | false => simp [linkOps]
    | true => simp only [linkOps]; split <;> (try split) <;> simp
  | _ => simp [linkOps]

theorem stepJob_links (s : State) (i : Nat) (order : List Nat) : (stepJob s i order).links = s.links ∨ ∃ l, (stepJob s i order).links = s.links ++ [l] ∧ l.conn = Conn.init := by
  simp only [stepJob]
  split
  · exact .inl rfl
  · split <;> exact .inl rfl
  · split
    · rename_i _ a t k _ _ r _
      obtain ⟨c, d, n, j, h⟩ := afterAsk_frame s a r order
      rw [h]; exact .inl rfl
    · split <;> exact .inl rfl
  · split
    · exact .inl rfl
    · exact .inl rfl
    · rename_i _ n todo t _ _ m _
      obtain ⟨c, k, j, h⟩ := reportLoop_frame todo { s with nodes := s.nodes.set n (advertised m) }
      rw [h]; exact .inl rfl
  · split
    · exact .inl rfl
    · exact .inl rfl
    · rename_i _ n todo t _ _ m _
      obtain ⟨c, j, h⟩ := setupLoop_frame todo { s with nodes := s.nodes.set n (advertised m) }
      rw [h]; exact .inl rfl
  · split
    · exact .inl rfl
    · exact .inl rfl
    · split
      · exact .inl rfl
      · exact .inr ⟨_, rfl, rfl⟩
  · exact .inl rfl
  · exact .inl rfl

theorem step_links (k : Nat) (g : State) (o : Op) :
    (∀ l, g.links[k]? = some l → (step g o).links[k]? = some { l with conn := Conn.run l.conn (linkOps k g o) }) ∧
    (g.links[k]? = none → ∀ l, (step g o).links[k]? = some l → l.conn = Conn.init) := by
  have same : ∀ g' : State, g'.links = g.links → linkOps k g o = [] →
      (∀ l, g.links[k]? = some l → g'.links[k]? = some { l with conn := Conn.run l.conn (linkOps k g o) }) ∧
      (g.links[k]? = none → ∀ l, g'.links[k]? = some l → l.conn = Conn.init) := by
    intro g' h1 h2
    rw [h1, h2]
    exact ⟨fun l h => h, fun h l h' => by rw [h] at h'; cases h'⟩
  cases o with
  | nm c =>
    obtain ⟨x, j, h⟩ := startNm_frame g c
    exact same _ (by simp only [step, h, State.addJob]) rfl
  | setMode mode =>
    obtain ⟨c, j, h⟩ := startAsk_frame g (.mode mode) (.known Reg.ZipGateway.GatewayModeGet.hid []) 0x5F03 3
    exact same _ (by simp only [step, h]; rfl) rfl
  | setup order =>
    refine same _ ?_ rfl
    simp only [step]
    split
    · obtain ⟨c, j, h⟩ := setupLoop_frame (iter g.nodes.keys order) g
      rw [h]; rfl
    · split
      · rfl
      · rename_i cmd _
        obtain ⟨c, j, h⟩ := startAsk_frame { g with nmSeq := g.nmSeq + 1 } .setup cmd 0x5202 3
        rw [h]; rfl
  | connectToNode n =>
    obtain ⟨c, j, h⟩ := connectToNode_frame g n
    exact same _ (by simp only [step, h]; rfl) rfl
  | opened i ok =>
    simp only [step]
    split
    · rename_i n k' hj
      cases ok with
      | false => exact same _ rfl rfl
      | true =>
        simp only [linkOps, hj, if_true, State.setJob]
        rw [List.getElem?_modify]
        by_cases hk : k' = k
        · subst hk
          simp only [if_true]
          exact ⟨fun l h => by rw [h]; rfl, fun h l h' => by rw [h] at h'; cases h'⟩
        · simp only [hk, if_false]
          exact ⟨fun l h => by rw [h]; rfl, fun h l h' => by rw [h] at h'; cases h'⟩
    · rename_i hno
      refine same _ rfl ?_
      cases ok with
      | false => rfl
      | true =>
        simp only [linkOps]
  | unsolicited pkt sender order =>
    obtain ⟨c, n, u, js, t, a, r, h⟩ := unsolicited_frame g pkt sender order
    exact same _ (by simp only [step, h]) rfl
  | job i order =>
    simp only [step]
    rcases stepJob_links g i order with h | ⟨l0, h, h0⟩
    · exact same _ h rfl
    · rw [h]
      refine ⟨fun l hl => ?_, fun hn l hl => ?_⟩
      · rw [List.getElem?_append_left (List.getElem?_eq_some_iff.mp hl).1, hl]; rfl
      · rw [List.getElem?_append_right (List.getElem?_eq_none_iff.mp hn)] at hl
        obtain rfl : l0 = l := by
          have := List.mem_of_getElem? hl
          simp at this; exact this.symm
        exact h0
  | conn o =>
    refine same _ ?_ rfl
    simp only [step]
    split <;> rfl
  | link k' o =>
    simp only [step]
    split
    · rename_i hnone
      by_cases hk : k' = k
      · subst hk
        refine ⟨fun l h => ?_, fun _ l h => ?_⟩ <;> (rw [hnone] at h; cases h)
      · exact same _ rfl (by simp [linkOps, hk])
    · rename_i l0 hl0
      obtain ⟨t, h⟩ := onMessageReceived_frame k' ((Conn.step l0.conn o).heard.drop l0.conn.heard.length)
        { g with links := g.links.set k' ({ l0 with conn := Conn.step l0.conn o } : Link) }
      simp only [h]
      by_cases hk : k' = k
      · subst hk
        simp only [linkOps, if_true]
        refine ⟨fun l hl => ?_, fun hn => by rw [hl0] at hn; cases hn⟩
        rw [hl0] at hl; cases hl
        rw [List.getElem?_set_self (List.getElem?_eq_some_iff.mp hl0).1]; rfl
      · simp only [linkOps, hk, if_false]
        rw [List.getElem?_set_ne hk]
        exact ⟨fun l h => h, fun h l h' => by rw [h] at h'; cases h'⟩

/-- A connection keeps its node. -/
theorem step_link_node (k : Nat) (g : State) (o : Op) (l : Link) (h : g.links[k]? = some l) :
    ∃ l', (step g o).links[k]? = some l' ∧ l'.node = l.node ∧ l'.address = l.address ∧ l'.conn = Conn.run l.conn (linkOps k g o) :=
  ⟨_, (step_links k g o).1 l h, rfl, rfl, rfl⟩

end Model.Gateway

namespace Model.ToNode

theorem run_cons (s : State) (op : Op) (ops : List Op) : run s (op :: ops) = run (step s op) ops := rfl
theorem run_append (s : State) (a b : List Op) : run s (a ++ b) = run (run s a) b := List.foldl_append
theorem run_snoc (s : State) (a : List Op) (op : Op) : run s (a ++ [op]) = step (run s a) op := by rw [run_append]; rfl

/-- What the continuation of a call makes the gateway do. -/
def issued (s : State) (i : Nat) : Option (Nat × Conn.Op) :=
  match s.calls[i]? with
  | none => none
  | some c =>
    match c.pc with
    | .connecting j =>
      match s.gw.jobs[j]? with
      | some (.done (.ok (.conn k))) => some (k, .send c.cmd c.sourceEP c.destEP c.timeout)
      | _ => none
    | _ => none

theorem proceed_gw (s : State) (i : Nat) : (proceed s i).gw = match issued s i with
    | some (k, o) => Gateway.step s.gw (.link k o)
    | none => s.gw := by
  unfold proceed issued
  cases s.calls[i]? with
  | none => rfl
  | some c =>
    dsimp only
    cases c.pc with
    | connecting j =>
      dsimp only
      cases s.gw.jobs[j]? with
      | none => rfl
      | some x =>
        cases x with
        | done r =>
          cases r with
          | error e => rfl
          | ok v => cases v <;> rfl
        | _ => rfl
    | sending k m => dsimp only; cases linkResult s.gw k m <;> rfl
    | done r => rfl

/-- What an operation does to the connection `k`. -/
def linkOps (k : Nat) (s : State) : Op → List Conn.Op
  | .gw o => Gateway.linkOps k s.gw o
  | .resume i => match issued s i with
    | some (k', o) => if k' = k then [o] else []
    | none => []
  | .send node cmd src dst timeout =>
    match issued ⟨Gateway.step s.gw (.connectToNode node), s.calls ++ [⟨node, cmd, src, dst, timeout, .connecting s.gw.jobs.length⟩]⟩ s.calls.length with
    | some (k', o) => if k' = k then [o] else []
    | none => []

theorem linkOps_le (k : Nat) (s : State) (o : Op) : (linkOps k s o).length ≤ 1 := by
  cases o with
  | gw o => exact Gateway.linkOps_le k s.gw o
  | resume i => simp only [linkOps]; split <;> (try split) <;> simp
  | send => simp only [linkOps]; split <;> (try split) <;> simp

theorem linkOps_packet {k : Nat} {s : State} {o : Op} {b : Spec.Bytes} (h : linkOps k s o = [.packet b]) : o = .gw (.link k (.packet b)) := by
  cases o with
  | gw o =>
    simp only [linkOps] at h
    cases o with
    | link k' c =>
      simp only [Gateway.linkOps] at h
      split at h
      · rename_i e; subst e; simp at h; rw [h]
      · cases h
    | opened i ok =>
      cases ok with
      | false => cases h
      | true => simp only [Gateway.linkOps] at h; split at h <;> (try split at h) <;> simp at h
    | _ => simp [Gateway.linkOps] at h
  | resume i =>
    simp only [linkOps] at h
    split at h
    · rename_i k' c hi
      split at h
      · simp only [List.cons.injEq, and_true] at h
        subst h
        unfold issued at hi
        split at hi <;> (try cases hi)
        split at hi <;> (try cases hi)
        split at hi <;> cases hi
      · cases h
    · cases h
  | send =>
    simp only [linkOps] at h
    split at h
    · rename_i k' c hi
      split at h
      · simp only [List.cons.injEq, and_true] at h
        subst h
        unfold issued at hi
        split at hi <;> (try cases hi)
        split at hi <;> (try cases hi)
        split at hi <;> cases hi
      · cases h
    · cases h

theorem step_links (k : Nat) (s : State) (o : Op) :
    (∀ l, s.gw.links[k]? = some l → (step s o).gw.links[k]? = some { l with conn := Conn.run l.conn (linkOps k s o) }) ∧
    (s.gw.links[k]? = none → ∀ l, (step s o).gw.links[k]? = some l → l.conn = Conn.init) := by
  have hproc : ∀ (s : State) (i : Nat),
      (∀ l, s.gw.links[k]? = some l → (proceed s i).gw.links[k]? = some { l with conn := Conn.run l.conn (linkOps k s (.resume i)) }) ∧
      (s.gw.links[k]? = none → ∀ l, (proceed s i).gw.links[k]? = some l → l.conn = Conn.init) := by
    intro s i
    rw [proceed_gw]
    simp only [linkOps]
    cases issued s i with
    | none => exact ⟨fun l h => h, fun h l h' => by rw [h] at h'; cases h'⟩
    | some p =>
      obtain ⟨k', c⟩ := p
      exact Gateway.step_links k s.gw (.link k' c)
  cases o with
  | gw o => exact Gateway.step_links k s.gw o
  | resume i => exact hproc s i
  | send node cmd src dst timeout =>
    simp only [step, sendToNode]
    obtain ⟨h1, h2⟩ := hproc ⟨Gateway.step s.gw (.connectToNode node), s.calls ++ [⟨node, cmd, src, dst, timeout, .connecting s.gw.jobs.length⟩]⟩ s.calls.length
    obtain ⟨g1, g2⟩ := Gateway.step_links k s.gw (.connectToNode node)
    have hl : (Gateway.step s.gw (.connectToNode node)).links = s.gw.links := by
      obtain ⟨c, j, h⟩ := Gateway.connectToNode_frame s.gw node
      simp only [Gateway.step, h]; rfl
    dsimp only at h1 h2
    rw [hl] at h1 h2
    exact ⟨h1, h2⟩

/-- What happens to the connection `k` in a schedule. -/
def proj (k : Nat) : State → List Op → List Conn.Op
  | _, [] => []
  | s, o :: ops => (if (s.gw.links[k]?).isSome then linkOps k s o else []) ++ proj k (step s o) ops

theorem proj_append (k : Nat) (a b : List Op) : ∀ s, proj k s (a ++ b) = proj k s a ++ proj k (run s a) b := by
  induction a with
  | nil => intro s; rfl
  | cons o a ih => intro s; simp only [List.cons_append, proj, ih, List.append_assoc]; rfl

theorem link_run (k : Nat) (ops : List Op) : ∀ (s : State),
    (∀ l, s.gw.links[k]? = some l → (run s ops).gw.links[k]? = some { l with conn := Conn.run l.conn (proj k s ops) }) ∧
    (s.gw.links[k]? = none → ∀ l, (run s ops).gw.links[k]? = some l → l.conn = Conn.run Conn.init (proj k s ops)) := by
  induction ops with
  | nil => intro s; exact ⟨fun l h => h, fun h l h' => by rw [show (run s []).gw = s.gw from rfl, h] at h'; cases h'⟩
  | cons o ops ih =>
    intro s
    obtain ⟨h1, h2⟩ := step_links k s o
    obtain ⟨i1, i2⟩ := ih (step s o)
    refine ⟨fun l h => ?_, fun h l h' => ?_⟩
    · rw [run_cons, i1 _ (h1 l h)]
      simp only [proj, h, Option.isSome_some, if_true, Conn.run_append]
    · rw [run_cons] at h'
      simp only [proj, h, Option.isSome_none, Bool.false_eq_true, if_false, List.nil_append]
      cases hs : (step s o).gw.links[k]? with
      | none => exact i2 hs l h'
      | some l1 =>
        rw [i1 l1 hs] at h'
        cases h'
        rw [h2 h l1 hs]

/-- The state of a connection is that of a connection on its own. -/
theorem link_conn (ops : List Op) (k : Nat) (l : Gateway.Link) (h : (run init ops).gw.links[k]? = some l) : l.conn = Conn.run Conn.init (proj k init ops) :=
  (link_run k ops init).2 rfl l h

/-- A packet that arrived on the connection arrived in the schedule. -/
theorem proj_split (k : Nat) (b : Spec.Bytes) (ops : List Op) : ∀ (s : State) (x y : List Conn.Op), proj k s ops = x ++ .packet b :: y →
    ∃ before after, ops = before ++ .gw (.link k (.packet b)) :: after ∧ proj k s before = x ∧ ((run s before).gw.links[k]?).isSome := by
  induction ops with
  | nil => intro s x y h; simp [proj] at h
  | cons o ops ih =>
    intro s x y h
    simp only [proj] at h
    have hle : (if (s.gw.links[k]?).isSome then linkOps k s o else []).length ≤ 1 := by
      split
      · exact linkOps_le k s o
      · simp
    generalize ha : (if (s.gw.links[k]?).isSome then linkOps k s o else []) = a at h hle
    match a, hle with
    | [], _ =>
      obtain ⟨before, after, h1, h2, h3⟩ := ih (step s o) x y h
      exact ⟨o :: before, after, by rw [h1]; rfl, by simp only [proj, ha, h2, List.nil_append], h3⟩
    | [c], _ =>
      cases x with
      | nil =>
        simp only [List.cons_append, List.nil_append, List.cons.injEq] at h
        obtain ⟨rfl, h⟩ := h
        split at ha
        · rename_i hl
          have := linkOps_packet ha
          subst this
          exact ⟨[], ops, rfl, rfl, hl⟩
        · cases ha
      | cons d x =>
        simp only [List.cons_append, List.nil_append, List.cons.injEq] at h
        obtain ⟨rfl, h⟩ := h
        obtain ⟨before, after, h1, h2, h3⟩ := ih (step s o) x y h
        exact ⟨o :: before, after, by rw [h1]; rfl, by simp only [proj, ha, h2]; rfl, h3⟩

theorem conn_length (ops : List Conn.Op) : ∀ s, s.sends.length ≤ (Conn.run s ops).sends.length := by
  induction ops with
  | nil => intro s; exact Nat.le_refl _
  | cons o ops ih =>
    intro s
    have := ih (Conn.step s o)
    rw [Conn.run_cons]
    rcases Conn.step_seq s o with ⟨-, h⟩ | ⟨-, h⟩ <;> omega

theorem send_length (s : Conn.State) (cmd : Msg) (src dst : Int) (timeout : Nat) : (Conn.step s (.send cmd src dst timeout)).sends.length = s.sends.length + 1 := by
  rcases Conn.send_cases s cmd src dst timeout with ⟨e, -, hq, hs⟩ | ⟨b, -, -, hq, hs⟩ | ⟨b, -, hm, -, hs⟩ <;>
    (simp only [Conn.step]; rw [hs]; simp)

/-- What is known about a call. -/
def CallOk (g : Gateway.State) (c : Call) : Prop :=
  match c.pc with
  | .connecting j => Gateway.ConnectCall g c.node j
  | .sending k m => ∃ l, g.links[k]? = some l ∧ l.node = c.node ∧ m < l.conn.sends.length
  | .done _ => True

structure Inv (s : State) : Prop where
  links : Gateway.LinkInv s.gw
  calls : ∀ (i : Nat) (c : Call), s.calls[i]? = some c → CallOk s.gw c

theorem CallOk.gw {g : Gateway.State} {c : Call} (h : CallOk g c) (hinv : Gateway.LinkInv g) (o : Gateway.Op) : CallOk (Gateway.step g o) c := by
  unfold CallOk at h ⊢
  split
  · rename_i j hj
    rw [hj] at h
    exact h.step hinv o
  · rename_i k m hj
    rw [hj] at h
    obtain ⟨l, h1, h2, h3⟩ := h
    obtain ⟨l', e1, e2, -, e4⟩ := Gateway.step_link_node k g o l h1
    exact ⟨l', e1, by rw [e2, h2], by rw [e4]; exact Nat.lt_of_lt_of_le h3 (conn_length _ _)⟩
  · trivial

theorem connected_job {g : Gateway.State} {n j k : Nat} (h : Gateway.ConnectCall g n j) (hj : g.jobs[j]? = some (.done (.ok (.conn k)))) :
    ∃ l, g.links[k]? = some l ∧ l.node = n := by
  obtain ⟨x, hx, h1⟩ := h
  rw [hj] at hx
  cases hx
  rcases h1 with h1 | ⟨e, h1⟩ | ⟨k', h1, h2⟩
  · cases h1
  · cases h1
  · cases h1
    rw [List.getElem?_map] at h2
    cases hl : g.links[k]? with
    | none => rw [hl] at h2; cases h2
    | some l => rw [hl] at h2; exact ⟨l, rfl, by simpa using h2⟩

theorem get_set {cs : List Call} {c : Call} {m i : Nat} {x : Call} (h : (cs.set m c)[i]? = some x) : (m ≠ i ∧ cs[i]? = some x) ∨ (m = i ∧ x = c) := by
  by_cases hi : m = i
  · subst hi
    rw [List.getElem?_set_self'] at h
    cases hm : cs[m]? with
    | none => simp [hm] at h
    | some y => simp [hm] at h; exact .inr ⟨rfl, h.symm⟩
  · rw [List.getElem?_set_ne hi] at h; exact .inl ⟨hi, h⟩

theorem Inv.proceed {s : State} (h : Inv s) (i : Nat) : Inv (proceed s i) := by
  unfold ToNode.proceed
  split
  · exact h
  · rename_i c hc
    have hok := h.calls i c hc
    unfold CallOk at hok
    split
    · rename_i j hj
      rw [hj] at hok
      split
      · rename_i k hk
        refine ⟨h.links.step (.link k (.send c.cmd c.sourceEP c.destEP c.timeout)), fun i' c' hc' => ?_⟩
        dsimp only at hc' ⊢
        rcases get_set hc' with ⟨-, hc'⟩ | ⟨-, rfl⟩
        · exact (h.calls i' c' hc').gw h.links _
        · obtain ⟨l, hl, hn⟩ := connected_job hok hk
          obtain ⟨l', e1, e2, -, e4⟩ := Gateway.step_link_node k s.gw (.link k (.send c.cmd c.sourceEP c.destEP c.timeout)) l hl
          refine ⟨l', e1, by rw [e2, hn], ?_⟩
          have : l'.conn = Conn.step l.conn (.send c.cmd c.sourceEP c.destEP c.timeout) := by rw [e4]; simp [Gateway.linkOps, Conn.run]
          rw [this, send_length]
          simp only [sendCount, hl]; omega
      · refine ⟨h.links, fun i' c' hc' => ?_⟩
        dsimp only at hc' ⊢
        rcases get_set hc' with ⟨-, hc'⟩ | ⟨-, rfl⟩
        · exact h.calls i' c' hc'
        · trivial
      · exact h
    · split
      · refine ⟨h.links, fun i' c' hc' => ?_⟩
        dsimp only at hc' ⊢
        rcases get_set hc' with ⟨-, hc'⟩ | ⟨-, rfl⟩
        · exact h.calls i' c' hc'
        · trivial
      · exact h
    · exact h

theorem Inv.start {s : State} (h : Inv s) (node : Nat) (cmd : Msg) (src dst : Int) (timeout : Nat) :
    Inv ⟨Gateway.step s.gw (.connectToNode node), s.calls ++ [⟨node, cmd, src, dst, timeout, .connecting s.gw.jobs.length⟩]⟩ := by
  refine ⟨h.links.step (.connectToNode node), fun i c hc => ?_⟩
  dsimp only at hc ⊢
  by_cases hi : i < s.calls.length
  · rw [List.getElem?_append_left hi] at hc
    exact (h.calls i c hc).gw h.links _
  · rw [List.getElem?_append_right (by omega)] at hc
    have := List.mem_of_getElem? hc
    simp at this
    subst this
    exact Gateway.connectCall_start s.gw h.links node

theorem Inv.step {s : State} (h : Inv s) (o : Op) : Inv (step s o) := by
  cases o with
  | gw o => exact ⟨h.links.step o, fun i c hc => (h.calls i c hc).gw h.links o⟩
  | resume i => exact h.proceed i
  | send node cmd src dst timeout => exact (h.start node cmd src dst timeout).proceed _

theorem inv_init : Inv init := ⟨Gateway.linkInv_init, fun i c h => by simp [init] at h⟩

theorem inv_run (ops : List Op) : Inv (run init ops) := by
  induction ops using Conn.snoc_ind with
  | nil => exact inv_init
  | snoc ops o ih => rw [run_snoc]; exact ih.step o

theorem proceed_back {s : State} (h : Inv s) {i i' k m : Nat} {c : Call} (hc : (proceed s i).calls[i']? = some c) (hp : c.pc = .sending k m) :
    s.calls[i']? = some c ∨ ∃ l, s.gw.links[k]? = some l ∧ l.conn.sends.length = m := by
  unfold proceed at hc
  split at hc
  · exact .inl hc
  · rename_i d hd
    have hok := h.calls i d hd
    unfold CallOk at hok
    split at hc
    · rename_i j hj
      rw [hj] at hok
      split at hc
      · rename_i k' hk
        dsimp only at hc
        rcases get_set hc with ⟨-, hc⟩ | ⟨-, rfl⟩
        · exact .inl hc
        · cases hp
          obtain ⟨l, hl, -⟩ := connected_job hok hk
          exact .inr ⟨l, hl, by simp only [sendCount, hl]⟩
      · dsimp only at hc
        rcases get_set hc with ⟨-, hc⟩ | ⟨-, rfl⟩
        · exact .inl hc
        · cases hp
      · exact .inl hc
    · split at hc
      · dsimp only at hc
        rcases get_set hc with ⟨-, hc⟩ | ⟨-, rfl⟩
        · exact .inl hc
        · cases hp
      · exact .inl hc
    · exact .inl hc

theorem step_back {s : State} (h : Inv s) {o : Op} {i k m : Nat} {c : Call} (hc : (step s o).calls[i]? = some c) (hp : c.pc = .sending k m) :
    s.calls[i]? = some c ∨ ∃ l, s.gw.links[k]? = some l ∧ l.conn.sends.length = m := by
  cases o with
  | gw o => exact .inl hc
  | resume i' => exact proceed_back h hc hp
  | send node cmd src dst timeout =>
    rcases proceed_back (h.start node cmd src dst timeout) hc hp with hc | ⟨l, hl, hm⟩
    · left
      dsimp only at hc
      by_cases hi : i < s.calls.length
      · rw [List.getElem?_append_left hi] at hc; exact hc
      · rw [List.getElem?_append_right (by omega)] at hc
        have := List.mem_of_getElem? hc
        simp at this
        subst this
        cases hp
    · right
      refine ⟨l, ?_, hm⟩
      obtain ⟨x, j, h⟩ := Gateway.connectToNode_frame s.gw node
      have hg : (Gateway.step s.gw (.connectToNode node)).links = s.gw.links := by simp only [Gateway.step, h]; rfl
      dsimp only at hl
      rw [hg] at hl
      exact hl

theorem back {s : State} {i k m : Nat} {c : Call} (ops : List Op) (h : Inv s) {l : Gateway.Link} (hl : s.gw.links[k]? = some l) (hm : m < l.conn.sends.length)
    (hc : (run s ops).calls[i]? = some c) (hp : c.pc = .sending k m) : s.calls[i]? = some c := by
  induction ops generalizing s l with
  | nil => exact hc
  | cons o ops ih =>
    have hl' := (step_links k s o).1 l hl
    have := ih (h.step o) hl' (Nat.lt_of_lt_of_le hm (conn_length _ _)) hc
    rcases step_back h this hp with h1 | ⟨l1, h1, h2⟩
    · exact h1
    · rw [hl] at h1; cases h1; omega

/-- What a continuation of a call does to a connection to a node. -/
theorem proceed_only {s : State} (h : Inv s) (i k : Nat) (l : Gateway.Link) (hl : s.gw.links[k]? = some l) :
    ∃ l', (proceed s i).gw.links[k]? = some l' ∧ l'.node = l.node ∧ l'.address = l.address ∧ (l'.conn = l.conn ∨
      ∃ (c d : Call) (j : Nat), (proceed s i).calls[i]? = some c ∧ c.pc = .sending k l.conn.sends.length ∧ c.node = l.node ∧
        s.calls[i]? = some d ∧ d.pc = .connecting j ∧ l'.conn = Conn.step l.conn (.send c.cmd c.sourceEP c.destEP c.timeout)) := by
  unfold proceed
  split
  · exact ⟨l, hl, rfl, rfl, .inl rfl⟩
  · rename_i d hd
    have hok := h.calls i d hd
    unfold CallOk at hok
    split
    · rename_i j hj
      rw [hj] at hok
      split
      · rename_i k' hk
        obtain ⟨l1, h1, hn⟩ := connected_job hok hk
        obtain ⟨l', e1, e2, e3, e4⟩ := Gateway.step_link_node k s.gw (.link k' (.send d.cmd d.sourceEP d.destEP d.timeout)) l hl
        refine ⟨l', e1, e2, e3, ?_⟩
        by_cases hkk : k' = k
        · subst hkk
          rw [hl] at h1; cases h1
          right
          refine ⟨{ d with pc := .sending k' l.conn.sends.length }, d, j, ?_, rfl, hn.symm, hd, hj, ?_⟩
          · rw [List.getElem?_set_self (List.getElem?_eq_some_iff.mp hd).1]
            simp only [sendCount, hl]
          · rw [e4]; simp [Gateway.linkOps, Conn.run]
        · left
          rw [e4]; simp [Gateway.linkOps, Conn.run, hkk]
      · exact ⟨l, hl, rfl, rfl, .inl rfl⟩
      · exact ⟨l, hl, rfl, rfl, .inl rfl⟩
    · split <;> exact ⟨l, hl, rfl, rfl, .inl rfl⟩
    · exact ⟨l, hl, rfl, rfl, .inl rfl⟩

end Model.ToNode
