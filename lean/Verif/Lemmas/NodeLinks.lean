import Verif.Lemmas.Gateway
/-! Helper lemmas: the connections to the nodes. -/
namespace Model.Gateway
open Spec

/-- The node a coroutine of connectToNode is connecting to. -/
def connJob : Job → Option Nat
  | .connect n _ => some n
  | .opening n _ => some n
  | _ => none

def isDone : Job → Bool
  | .done _ => true
  | _ => false

/-- What an operation does to connections and the coroutines that create them. -/
inductive LinkEffect (s : State) (op : Op) (s' : State) : Prop
  | quiet (hc : s'.conns = s.conns) (hl : s'.links.map Link.node = s.links.map Link.node)
      (hj : s'.jobs = s.jobs ∨ (∃ j, s'.jobs = s.jobs ++ [j] ∧ connJob j = none) ∨
        ∃ i x j, s.jobs[i]? = some x ∧ connJob x = none ∧ isDone x = false ∧ s'.jobs = s.jobs.set i j ∧ connJob j = none) (ho : ∀ n, op ≠ .connectToNode n)
      (ha : s'.links.map Link.address = s.links.map Link.address)
  | start (n : Nat) (j : Job) (ho : op = .connectToNode n) (hc : s'.conns = s.conns) (hl : s'.links = s.links) (hjs : s'.jobs = s.jobs ++ [j])
      (hj : (∃ k, s.conns.get? n = some k ∧ j = .done (.ok (.conn k))) ∨ (s.conns.get? n = none ∧ ((∃ e, j = .done (.error e)) ∨ ∃ t, j = .connect n t)))
  | create (i n t : Nat) (l : Link) (hx : s.jobs[i]? = some (.connect n t)) (hn : l.node = n) (hc : s'.conns = s.conns) (hl : s'.links = s.links ++ [l])
      (hj : s'.jobs = s.jobs.set i (.opening n s.links.length)) (ho : ∀ n, op ≠ .connectToNode n) (m : Msg) (hm : taskDone s t = some (.ok m))
      (ha : advertised m = some l.address)
  | fail (i n : Nat) (x : Job) (e : PyErr) (hx : s.jobs[i]? = some x) (hn : connJob x = some n) (hc : s'.conns = s.conns) (hl : s'.links = s.links)
      (hj : s'.jobs = s.jobs.set i (.done (.error e))) (ho : ∀ n, op ≠ .connectToNode n)
  | opened (i n k : Nat) (hx : s.jobs[i]? = some (.opening n k)) (hc : s'.conns = s.conns.set n k) (hl : s'.links.map Link.node = s.links.map Link.node)
      (hj : s'.jobs = s.jobs.set i (.done (.ok (.conn k)))) (ho : ∀ n, op ≠ .connectToNode n)
      (ha : s'.links.map Link.address = s.links.map Link.address)

theorem afterSend_conn (s : State) (c : Conn.State) (k : Nat) : connJob (afterSend s c k).2 = none := by
  unfold afterSend; split <;> rfl

theorem afterAskSend_conn (s : State) (a : Ask) (t : Nat) (c : Conn.State) (k : Nat) : connJob (afterAskSend s a t c k).2 = none := by
  unfold afterAskSend; split <;> rfl

theorem startNm_conn (s : State) (c : Nm) : connJob (startNm s c).2 = none := by
  simp only [startNm]
  split
  · rfl
  · split
    · rfl
    · split
      · exact afterSend_conn _ _ _
      · exact afterAskSend_conn _ _ _ _ _

theorem startAsk_conn (s : State) (a : Ask) (cmd : Msg) (hid timeout : Nat) : connJob (startAsk s a cmd hid timeout).2 = none := afterAskSend_conn _ _ _ _ _

theorem reportLoop_conn (todo : List Nat) : ∀ s, connJob (reportLoop s todo).2 = none := by
  induction todo with
  | nil => intro s; rfl
  | cons n todo ih =>
    intro s
    simp only [reportLoop]
    split
    · exact ih s
    · split <;> rfl

theorem setupLoop_conn (todo : List Nat) : ∀ s, connJob (setupLoop s todo).2 = none := by
  induction todo with
  | nil => intro s; rfl
  | cons n todo ih =>
    intro s
    simp only [setupLoop]
    split
    · rfl
    · exact ih s
    · split <;> rfl

theorem handle_conn (s : State) (m : Msg) (order : List Nat) : connJob (handleNodeListReport s m order).2 = none := by
  simp only [handleNodeListReport]
  split
  · rfl
  · exact reportLoop_conn _ _

theorem afterAsk_conn (s : State) (a : Ask) (r : Py Msg) (order : List Nat) : connJob (afterAsk s a r order).2 = none := by
  unfold afterAsk
  split
  · rfl
  · rfl
  · split <;> rfl
  · rfl
  · split
    · exact setupLoop_conn _ _
    · rfl
  · rfl
  · split
    · rfl
    · split
      · rfl
      · exact afterSend_conn _ _ _
  · rfl
  · rfl

theorem step_linkEffect (s : State) (op : Op) : LinkEffect s op (step s op) := by
  cases op with
  | nm c =>
    obtain ⟨k, j, h⟩ := startNm_frame s c
    have hj := startNm_conn s c
    rw [h] at hj
    simp only [step, h, State.addJob]
    exact .quiet rfl rfl (.inr (.inl ⟨j, rfl, hj⟩)) (by simp) rfl
  | setMode mode =>
    have hj := startAsk_conn s (.mode mode) (.known Reg.ZipGateway.GatewayModeGet.hid []) 0x5F03 3
    obtain ⟨c, j, h⟩ := startAsk_frame s (.mode mode) (.known Reg.ZipGateway.GatewayModeGet.hid []) 0x5F03 3
    rw [h] at hj
    simp only [step, h, State.addJob]
    exact .quiet rfl rfl (.inr (.inl ⟨j, rfl, hj⟩)) (by simp) rfl
  | setup order =>
    simp only [step]
    split
    · have hj := setupLoop_conn (iter s.nodes.keys order) s
      obtain ⟨c, j, h⟩ := setupLoop_frame (iter s.nodes.keys order) s
      rw [h] at hj ⊢
      exact .quiet rfl rfl (.inr (.inl ⟨j, rfl, hj⟩)) (by simp) rfl
    · split
      · exact .quiet rfl rfl (.inr (.inl ⟨_, rfl, rfl⟩)) (by simp) rfl
      · rename_i cmd _
        have hj := startAsk_conn { s with nmSeq := s.nmSeq + 1 } .setup cmd 0x5202 3
        obtain ⟨c, j, h⟩ := startAsk_frame { s with nmSeq := s.nmSeq + 1 } .setup cmd 0x5202 3
        rw [h] at hj ⊢
        exact .quiet rfl rfl (.inr (.inl ⟨j, rfl, hj⟩)) (by simp) rfl
  | connectToNode n =>
    simp only [step, Gateway.connectToNode]
    cases hn : s.conns.get? n with
    | some k => exact .start n _ rfl rfl rfl rfl (.inl ⟨k, hn, rfl⟩)
    | none =>
      obtain ⟨c, r, h⟩ := ipOfNode_frame s n
      rw [h]
      cases r with
      | error e => exact .start n _ rfl rfl rfl rfl (.inr ⟨hn, .inl ⟨e, rfl⟩⟩)
      | ok t => exact .start n _ rfl rfl rfl rfl (.inr ⟨hn, .inr ⟨t, rfl⟩⟩)
  | opened m ok =>
    simp only [step]
    split
    · rename_i n k hm
      split
      · refine .opened m n k hm rfl ?_ rfl (by simp) ?_
        all_goals
          simp only [State.setJob]
          apply List.ext_getElem?
          intro q
          rw [List.getElem?_map, List.getElem?_map, List.getElem?_modify]
          cases s.links[q]? with
          | none => rfl
          | some l => simp only [Option.map_some]; split <;> rfl
      · exact .fail m n _ _ hm rfl rfl rfl rfl (by simp)
    · exact .quiet rfl rfl (.inl rfl) (by simp) rfl
  | unsolicited pkt sender order =>
    simp only [step, onUnsolicitedMessage]
    split
    · exact .quiet rfl rfl (.inl rfl) (by simp) rfl
    · split
      · rename_i a _
        obtain ⟨c, k, n, j, h⟩ := handle_frame s a order
        have hj := handle_conn s a order
        rw [h] at hj ⊢
        exact .quiet rfl rfl (.inr (.inl ⟨j, rfl, hj⟩)) (by simp) rfl
      · split
        · exact .quiet rfl rfl (.inl rfl) (by simp) rfl
        · split
          · split
            · split <;> exact .quiet rfl rfl (.inl rfl) (by simp) rfl
            · exact .quiet rfl rfl (.inl rfl) (by simp) rfl
          · exact .quiet rfl rfl (.inl rfl) (by simp) rfl
  | job i order =>
    simp only [step, stepJob]
    split
    · exact .quiet rfl rfl (.inl rfl) (by simp) rfl
    · rename_i hx
      split
      · exact .quiet rfl rfl (.inl rfl) (by simp) rfl
      · exact .quiet rfl rfl (.inr (.inr ⟨i, _, _, hx, rfl, rfl, rfl, rfl⟩)) (by simp) rfl
      · exact .quiet rfl rfl (.inr (.inr ⟨i, _, _, hx, rfl, rfl, rfl, rfl⟩)) (by simp) rfl
    · rename_i _ a t k hx
      split
      · rename_i _ r _
        have hj := afterAsk_conn s a r order
        obtain ⟨c, d, n, j, h⟩ := afterAsk_frame s a r order
        rw [h] at hj ⊢
        exact .quiet rfl rfl (.inr (.inr ⟨i, _, j, hx, rfl, rfl, rfl, hj⟩)) (by simp) rfl
      · split <;> exact .quiet rfl rfl (.inl rfl) (by simp) rfl
    · rename_i _ n todo t hx
      split
      · exact .quiet rfl rfl (.inl rfl) (by simp) rfl
      · exact .quiet rfl rfl (.inr (.inr ⟨i, _, _, hx, rfl, rfl, rfl, rfl⟩)) (by simp) rfl
      · rename_i m _
        have hj := reportLoop_conn todo { s with nodes := s.nodes.set n (advertised m) }
        obtain ⟨c, k, j, h⟩ := reportLoop_frame todo { s with nodes := s.nodes.set n (advertised m) }
        rw [h] at hj ⊢
        exact .quiet rfl rfl (.inr (.inr ⟨i, _, j, hx, rfl, rfl, rfl, hj⟩)) (by simp) rfl
    · rename_i _ n todo t hx
      split
      · exact .quiet rfl rfl (.inl rfl) (by simp) rfl
      · exact .quiet rfl rfl (.inr (.inr ⟨i, _, _, hx, rfl, rfl, rfl, rfl⟩)) (by simp) rfl
      · rename_i m _
        have hj := setupLoop_conn todo { s with nodes := s.nodes.set n (advertised m) }
        obtain ⟨c, j, h⟩ := setupLoop_frame todo { s with nodes := s.nodes.set n (advertised m) }
        rw [h] at hj ⊢
        exact .quiet rfl rfl (.inr (.inr ⟨i, _, j, hx, rfl, rfl, rfl, hj⟩)) (by simp) rfl
    · rename_i _ n t hx
      split
      · exact .quiet rfl rfl (.inl rfl) (by simp) rfl
      · exact .fail i n _ _ hx rfl rfl rfl rfl (by simp)
      · rename_i m hm
        split
        · exact .fail i n _ _ hx rfl rfl rfl rfl (by simp)
        · rename_i ip hip
          exact .create i n t _ hx rfl rfl rfl rfl (by simp) m hm hip
    · exact .quiet rfl rfl (.inl rfl) (by simp) rfl
    · exact .quiet rfl rfl (.inl rfl) (by simp) rfl
  | conn o => simp only [step]; split <;> exact .quiet rfl rfl (.inl rfl) (by simp) rfl
  | link k o =>
    simp only [step]
    split
    · exact .quiet rfl rfl (.inl rfl) (by simp) rfl
    · rename_i l hl
      obtain ⟨t, h⟩ := onMessageReceived_frame k ((Conn.step l.conn o).heard.drop l.conn.heard.length)
        { s with links := s.links.set k ({ l with conn := Conn.step l.conn o } : Link) }
      rw [h]
      refine .quiet rfl ?_ (.inl rfl) (by simp) ?_
      all_goals
        apply List.ext_getElem?
        intro q
        simp only [List.getElem?_map]
        by_cases hq : k = q
        · subst hq; rw [List.getElem?_set_self']; simp [hl]
        · rw [List.getElem?_set_ne hq]

/-- Connections and coroutines refer to the right connections. -/
structure LinkInv (s : State) : Prop where
  conns : ∀ (n k : Nat), (n, k) ∈ s.conns → (s.links.map Link.node)[k]? = some n
  opening : ∀ (i n k : Nat), s.jobs[i]? = some (.opening n k) → (s.links.map Link.node)[k]? = some n

/-- No two coroutines are connecting to the same node, and none to a node that is connected. -/
structure Single (s : State) : Prop where
  once : ∀ (i i' n : Nat) (x x' : Job), s.jobs[i]? = some x → s.jobs[i']? = some x' → connJob x = some n → connJob x' = some n → i = i'
  fresh : ∀ (i n : Nat) (x : Job), s.jobs[i]? = some x → connJob x = some n → s.conns.get? n = none

theorem mem_set {d : Dict Nat Nat} {n k m v : Nat} (h : (m, v) ∈ d.set n k) : (m, v) = (n, k) ∨ (m, v) ∈ d := by
  induction d with
  | nil => simp [Dict.set] at h; exact .inl (by simp [h])
  | cons p d ih =>
    obtain ⟨a, b⟩ := p
    simp only [Dict.set] at h
    split at h
    · rename_i ha
      subst ha
      rcases List.mem_cons.mp h with h | h
      · exact .inl h
      · exact .inr (.tail _ h)
    · rcases List.mem_cons.mp h with h | h
      · exact .inr (by rw [h]; exact .head _)
      · rcases ih h with h | h
        · exact .inl h
        · exact .inr (.tail _ h)

theorem get_append {js : List Job} {j : Job} {i : Nat} {x : Job} (h : (js ++ [j])[i]? = some x) : js[i]? = some x ∨ (i = js.length ∧ x = j) := by
  by_cases hi : i < js.length
  · rw [List.getElem?_append_left hi] at h; exact .inl h
  · rw [List.getElem?_append_right (by omega)] at h
    rcases Nat.eq_or_lt_of_le (Nat.le_of_not_lt hi) with e | hk
    · subst e; simp at h; exact .inr ⟨rfl, h.symm⟩
    · rw [List.getElem?_eq_none (by simp; omega)] at h; cases h

theorem get_set {js : List Job} {j : Job} {m i : Nat} {x : Job} (h : (js.set m j)[i]? = some x) : (m ≠ i ∧ js[i]? = some x) ∨ (m = i ∧ x = j) := by
  by_cases hi : m = i
  · subst hi
    rw [List.getElem?_set_self'] at h
    cases hm : js[m]? with
    | none => simp [hm] at h
    | some y => simp [hm] at h; exact .inr ⟨rfl, h.symm⟩
  · rw [List.getElem?_set_ne hi] at h; exact .inl ⟨hi, h⟩

theorem LinkInv.step {s : State} (h : LinkInv s) (op : Op) : LinkInv (step s op) := by
  cases step_linkEffect s op with
  | quiet hc hl hj ho =>
    refine ⟨fun n k hm => ?_, fun i n k hm => ?_⟩
    · rw [hc] at hm; rw [hl]; exact h.conns n k hm
    · rw [hl]
      rcases hj with hj | ⟨j, hj, hn⟩ | ⟨m, x, j, -, -, -, hj, hn⟩
      · rw [hj] at hm; exact h.opening i n k hm
      · rw [hj] at hm
        rcases get_append hm with hm | ⟨-, rfl⟩
        · exact h.opening i n k hm
        · simp [connJob] at hn
      · rw [hj] at hm
        rcases get_set hm with ⟨-, hm⟩ | ⟨-, rfl⟩
        · exact h.opening i n k hm
        · simp [connJob] at hn
  | start n j ho hc hl hjs hj =>
    refine ⟨fun n k hm => ?_, fun i m k hm => ?_⟩
    · rw [hc] at hm; rw [hl]; exact h.conns n k hm
    · rw [hl]
      rw [hjs] at hm
      rcases get_append hm with hm | ⟨-, rfl⟩
      · exact h.opening i m k hm
      · rcases hj with ⟨k, -, hj⟩ | ⟨-, ⟨e, hj⟩ | ⟨t, hj⟩⟩ <;> cases hj
  | create i n t l hx hn hc hl hj ho =>
    have hold : ∀ (k v : Nat), (s.links.map Link.node)[k]? = some v → ((s.links ++ [l]).map Link.node)[k]? = some v := by
      intro k v hk
      rw [List.map_append, List.getElem?_append_left (List.getElem?_eq_some_iff.mp hk).1]
      exact hk
    refine ⟨fun n k hm => ?_, fun i m k hm => ?_⟩
    · rw [hc] at hm; rw [hl]; exact hold _ _ (h.conns n k hm)
    · rw [hl]
      rw [hj] at hm
      rcases get_set hm with ⟨-, hm⟩ | ⟨-, hm⟩
      · exact hold _ _ (h.opening i m k hm)
      · cases hm
        simp [hn]
  | fail i n x e hx hn hc hl hj ho =>
    refine ⟨fun n k hm => ?_, fun i m k hm => ?_⟩
    · rw [hc] at hm; rw [hl]; exact h.conns n k hm
    · rw [hl]
      rw [hj] at hm
      rcases get_set hm with ⟨-, hm⟩ | ⟨-, hm⟩
      · exact h.opening i m k hm
      · cases hm
  | opened i n k hx hc hl hj ho =>
    refine ⟨fun m v hm => ?_, fun i m v hm => ?_⟩
    · rw [hc] at hm; rw [hl]
      rcases mem_set hm with e | hm
      · cases e; exact h.opening i n k hx
      · exact h.conns m v hm
    · rw [hl]
      rw [hj] at hm
      rcases get_set hm with ⟨-, hm⟩ | ⟨-, hm⟩
      · exact h.opening i m v hm
      · cases hm

theorem LinkInv.run (ops : List Op) : ∀ {s : State}, LinkInv s → LinkInv (run s ops) := by
  induction ops with
  | nil => intro s h; exact h
  | cons op ops ih => intro s h; exact ih (h.step op)

theorem linkInv_init : LinkInv init := ⟨fun _ _ h => by simp [init] at h, fun _ _ _ h => by simp [init] at h⟩

/-- connectToNode(n) is not called while another call for the same node is in progress. -/
def NoOverlap (s : State) : List Op → Prop
  | [] => True
  | op :: ops => (∀ n, op = .connectToNode n → ∀ (i : Nat) (j : Job), s.jobs[i]? = some j → connJob j ≠ some n) ∧ NoOverlap (step s op) ops

theorem noOverlap_append (a b : List Op) : ∀ s, NoOverlap s (a ++ b) ↔ NoOverlap s a ∧ NoOverlap (Gateway.run s a) b := by
  induction a with
  | nil => intro s; simp [NoOverlap, Gateway.run]
  | cons op a ih => intro s; simp only [List.cons_append, NoOverlap, ih, run_cons, and_assoc]

theorem Single.step {s : State} (h : Single s) (op : Op) (hop : ∀ n, op = .connectToNode n → ∀ (i : Nat) (j : Job), s.jobs[i]? = some j → connJob j ≠ some n) :
    Single (step s op) := by
  cases step_linkEffect s op with
  | quiet hc hl hj ho =>
    have hback : ∀ (i n : Nat) (x : Job), (Gateway.step s op).jobs[i]? = some x → connJob x = some n → s.jobs[i]? = some x := by
      intro i n x hm hx
      rcases hj with hj | ⟨j, hj, hn⟩ | ⟨m, y, j, -, -, -, hj, hn⟩
      · rwa [hj] at hm
      · rw [hj] at hm
        rcases get_append hm with hm | ⟨-, rfl⟩
        · exact hm
        · rw [hn] at hx; cases hx
      · rw [hj] at hm
        rcases get_set hm with ⟨-, hm⟩ | ⟨-, rfl⟩
        · exact hm
        · rw [hn] at hx; cases hx
    exact ⟨fun i i' n x x' h1 h2 h3 h4 => h.once i i' n x x' (hback i n x h1 h3) (hback i' n x' h2 h4) h3 h4,
      fun i n x h1 h2 => by rw [hc]; exact h.fresh i n x (hback i n x h1 h2) h2⟩
  | start n j ho hc hl hjs hj =>
    have hno := hop n ho
    have hcj : ∀ m, connJob j = some m → m = n ∧ s.conns.get? n = none := by
      intro m hm
      rcases hj with ⟨k, -, rfl⟩ | ⟨hn, ⟨e, rfl⟩ | ⟨t, rfl⟩⟩
      · cases hm
      · cases hm
      · simp [connJob] at hm; exact ⟨hm.symm, hn⟩
    refine ⟨fun i i' m x x' h1 h2 h3 h4 => ?_, fun i m x h1 h2 => ?_⟩
    · rw [hjs] at h1 h2
      rcases get_append h1 with g1 | ⟨e1, rfl⟩ <;> rcases get_append h2 with g2 | ⟨e2, rfl⟩
      · exact h.once i i' m x x' g1 g2 h3 h4
      · obtain ⟨rfl, -⟩ := hcj m h4
        exact absurd h3 (hno i x g1)
      · obtain ⟨rfl, -⟩ := hcj m h3
        exact absurd h4 (hno i' x' g2)
      · omega
    · rw [hc]
      rw [hjs] at h1
      rcases get_append h1 with h1 | ⟨e1, rfl⟩
      · exact h.fresh i m x h1 h2
      · obtain ⟨rfl, hn⟩ := hcj m h2
        exact hn
  | create i n t l hx hn hc hl hj ho =>
    have hback : ∀ (a m : Nat) (x : Job), (Gateway.step s op).jobs[a]? = some x → connJob x = some m → ∃ y, s.jobs[a]? = some y ∧ connJob y = some m := by
      intro a m x h1 h2
      rw [hj] at h1
      rcases get_set h1 with ⟨-, h1⟩ | ⟨rfl, rfl⟩
      · exact ⟨x, h1, h2⟩
      · exact ⟨_, hx, h2⟩
    refine ⟨fun a b m x x' h1 h2 h3 h4 => ?_, fun a m x h1 h2 => ?_⟩
    · obtain ⟨y, g1, g2⟩ := hback a m x h1 h3
      obtain ⟨y', g3, g4⟩ := hback b m x' h2 h4
      exact h.once a b m y y' g1 g3 g2 g4
    · obtain ⟨y, g1, g2⟩ := hback a m x h1 h2
      rw [hc]; exact h.fresh a m y g1 g2
  | fail i n y e hx hn hc hl hj ho =>
    have hback : ∀ (a m : Nat) (x : Job), (Gateway.step s op).jobs[a]? = some x → connJob x = some m → s.jobs[a]? = some x := by
      intro a m x h1 h2
      rw [hj] at h1
      rcases get_set h1 with ⟨-, h1⟩ | ⟨rfl, rfl⟩
      · exact h1
      · cases h2
    exact ⟨fun a b m x x' h1 h2 h3 h4 => h.once a b m x x' (hback a m x h1 h3) (hback b m x' h2 h4) h3 h4,
      fun a m x h1 h2 => by rw [hc]; exact h.fresh a m x (hback a m x h1 h2) h2⟩
  | opened i n k hx hc hl hj ho =>
    have hback : ∀ (a m : Nat) (x : Job), (Gateway.step s op).jobs[a]? = some x → connJob x = some m → s.jobs[a]? = some x ∧ i ≠ a := by
      intro a m x h1 h2
      rw [hj] at h1
      rcases get_set h1 with ⟨hne, h1⟩ | ⟨rfl, rfl⟩
      · exact ⟨h1, hne⟩
      · cases h2
    refine ⟨fun a b m x x' h1 h2 h3 h4 => h.once a b m x x' (hback a m x h1 h3).1 (hback b m x' h2 h4).1 h3 h4, fun a m x h1 h2 => ?_⟩
    obtain ⟨g1, g2⟩ := hback a m x h1 h2
    rw [hc]
    have hne : n ≠ m := by
      rintro rfl
      exact g2 (h.once i a n _ x hx g1 rfl h2)
    rw [Dict.get?_set_ne _ _ hne]
    exact h.fresh a m x g1 h2

theorem single_init : Single init := ⟨fun _ _ _ _ _ h => by simp [init] at h, fun _ _ _ h => by simp [init] at h⟩

theorem Single.run (ops : List Op) : ∀ {s : State}, Single s → NoOverlap s ops → Single (run s ops) := by
  induction ops with
  | nil => intro s h _; exact h
  | cons op ops ih => intro s h hno; exact ih (h.step op hno.1) hno.2

/-- A connection of a node is never replaced. -/
theorem Single.keep {s : State} (h : Single s) (op : Op) (n k : Nat) (hk : s.conns.get? n = some k) : (Gateway.step s op).conns.get? n = some k := by
  cases step_linkEffect s op with
  | quiet hc hl hj ho => rw [hc]; exact hk
  | start m j ho hc hl hjs hj => rw [hc]; exact hk
  | create i m t l hx hn hc hl hj ho => rw [hc]; exact hk
  | fail i m x e hx hn hc hl hj ho => rw [hc]; exact hk
  | opened i m v hx hc hl hj ho =>
    rw [hc]
    have hne : m ≠ n := by
      rintro rfl
      have := h.fresh i m _ hx rfl
      rw [hk] at this; cases this
    rw [Dict.get?_set_ne _ _ hne]; exact hk

/-- The coroutine `i` is a call connectToNode(n). -/
def ConnectCall (s : State) (n i : Nat) : Prop :=
  ∃ x, s.jobs[i]? = some x ∧ (connJob x = some n ∨ (∃ e, x = .done (.error e)) ∨ ∃ k, x = .done (.ok (.conn k)) ∧ (s.links.map Link.node)[k]? = some n)

theorem nodes_keep (s : State) (op : Op) (k n : Nat) (h : (s.links.map Link.node)[k]? = some n) : ((Gateway.step s op).links.map Link.node)[k]? = some n := by
  cases step_linkEffect s op with
  | quiet hc hl hj ho => rw [hl]; exact h
  | start m j ho hc hl hjs hj => rw [hl]; exact h
  | create i m t l hx hn hc hl hj ho =>
    rw [hl, List.map_append, List.getElem?_append_left (List.getElem?_eq_some_iff.mp h).1]
    exact h
  | fail i m x e hx hn hc hl hj ho => rw [hl]; exact h
  | opened i m v hx hc hl hj ho => rw [hl]; exact h

theorem jobs_done (s : State) (op : Op) (i : Nat) (r : Py Ret) (h : s.jobs[i]? = some (.done r)) : (Gateway.step s op).jobs[i]? = some (.done r) := by
  have hi := (List.getElem?_eq_some_iff.mp h).1
  have hset : ∀ (m : Nat) (x j : Job), s.jobs[m]? = some x → isDone x = false → (s.jobs.set m j)[i]? = some (.done r) := by
    intro m x j hx hd
    rw [List.getElem?_set_ne, h]
    rintro rfl
    rw [hx] at h
    cases h
    simp [isDone] at hd
  cases step_linkEffect s op with
  | quiet hc hl hj ho =>
    rcases hj with hj | ⟨j, hj, hn⟩ | ⟨m, y, j, g1, g2, g3, hj, hn⟩
    · rw [hj]; exact h
    · rw [hj, List.getElem?_append_left hi]; exact h
    · rw [hj]; exact hset m y j g1 g3
  | start m j ho hc hl hjs hj => rw [hjs, List.getElem?_append_left hi]; exact h
  | create a m t l hx hn hc hl hj ho => rw [hj]; exact hset a _ _ hx rfl
  | fail a m x e hx hn hc hl hj ho =>
    rw [hj]
    refine hset a _ _ hx ?_
    cases x <;> simp_all [connJob, isDone]
  | opened a m v hx hc hl hj ho => rw [hj]; exact hset a _ _ hx rfl

/-- A coroutine of connectToNode keeps connecting, or ends. -/
theorem connJob_step (s : State) (op : Op) (i n : Nat) (x : Job) (hx : s.jobs[i]? = some x) (hn : connJob x = some n) :
    ∃ y, (Gateway.step s op).jobs[i]? = some y ∧ (connJob y = some n ∨ (∃ e, y = .done (.error e)) ∨
      ∃ k, y = .done (.ok (.conn k)) ∧ s.jobs[i]? = some (.opening n k) ∧ (Gateway.step s op).conns = s.conns.set n k) := by
  have hi := (List.getElem?_eq_some_iff.mp hx).1
  have hset : ∀ (m : Nat) (y j : Job), s.jobs[m]? = some y → m ≠ i → (s.jobs.set m j)[i]? = some x := by
    intro m y j hy hm
    rw [List.getElem?_set_ne hm, hx]
  cases step_linkEffect s op with
  | quiet hc hl hj ho =>
    refine ⟨x, ?_, .inl hn⟩
    rcases hj with hj | ⟨j, hj, -⟩ | ⟨m, y, j, g1, g2, g3, hj, -⟩
    · rw [hj]; exact hx
    · rw [hj, List.getElem?_append_left hi]; exact hx
    · rw [hj]
      refine hset m y j g1 ?_
      rintro rfl
      rw [hx] at g1; cases g1
      rw [hn] at g2; cases g2
  | start m j ho hc hl hjs hj => exact ⟨x, by rw [hjs, List.getElem?_append_left hi]; exact hx, .inl hn⟩
  | create a m t l hx' hn' hc hl hj ho =>
    by_cases ha : a = i
    · subst ha
      rw [hx] at hx'; cases hx'
      exact ⟨.opening m s.links.length, by rw [hj, List.getElem?_set_self hi], .inl hn⟩
    · exact ⟨x, by rw [hj]; exact hset a _ _ hx' ha, .inl hn⟩
  | fail a m y e hx' hn' hc hl hj ho =>
    by_cases ha : a = i
    · subst ha
      exact ⟨_, by rw [hj, List.getElem?_set_self hi], .inr (.inl ⟨e, rfl⟩)⟩
    · exact ⟨x, by rw [hj]; exact hset a _ _ hx' ha, .inl hn⟩
  | opened a m v hx' hc hl hj ho =>
    by_cases ha : a = i
    · subst ha
      rw [hx] at hx'; cases hx'
      simp only [connJob, Option.some.injEq] at hn
      subst hn
      exact ⟨_, by rw [hj, List.getElem?_set_self hi], .inr (.inr ⟨v, rfl, hx, hc⟩)⟩
    · exact ⟨x, by rw [hj]; exact hset a _ _ hx' ha, .inl hn⟩

theorem ConnectCall.step {s : State} {n i : Nat} (h : ConnectCall s n i) (hinv : LinkInv s) (op : Op) : ConnectCall (step s op) n i := by
  obtain ⟨x, hx, hc | ⟨e, rfl⟩ | ⟨k, rfl, hk⟩⟩ := h
  · obtain ⟨y, hy, h1 | h1 | ⟨k, h1, h2, -⟩⟩ := connJob_step s op i n x hx hc
    · exact ⟨y, hy, .inl h1⟩
    · exact ⟨y, hy, .inr (.inl h1)⟩
    · exact ⟨y, hy, .inr (.inr ⟨k, h1, nodes_keep s op k n (hinv.opening i n k h2)⟩)⟩
  · exact ⟨_, jobs_done s op i _ hx, .inr (.inl ⟨e, rfl⟩)⟩
  · exact ⟨_, jobs_done s op i _ hx, .inr (.inr ⟨k, rfl, nodes_keep s op k n hk⟩)⟩

theorem ConnectCall.run (ops : List Op) : ∀ {s : State} {n i : Nat}, ConnectCall s n i → LinkInv s → ConnectCall (run s ops) n i := by
  induction ops with
  | nil => intro s n i h _; exact h
  | cons op ops ih => intro s n i h hinv; exact ih (h.step hinv op) (hinv.step op)

theorem connectCall_start (s : State) (hinv : LinkInv s) (n : Nat) : ConnectCall (Gateway.step s (.connectToNode n)) n s.jobs.length := by
  cases step_linkEffect s (.connectToNode n) with
  | quiet hc hl hj ho => exact absurd rfl (ho n)
  | start m j ho hc hl hjs hj =>
    cases ho
    refine ⟨j, by rw [hjs]; simp, ?_⟩
    rcases hj with ⟨k, hk, rfl⟩ | ⟨-, ⟨e, rfl⟩ | ⟨t, rfl⟩⟩
    · exact .inr (.inr ⟨k, rfl, by rw [hl]; exact hinv.conns n k (Dict.mem_of_get? hk)⟩)
    · exact .inr (.inl ⟨e, rfl⟩)
    · exact .inl rfl
  | create i m t l hx hn hc hl hj ho => exact absurd rfl (ho n)
  | fail i m x e hx hn hc hl hj ho => exact absurd rfl (ho n)
  | opened i m v hx hc hl hj ho => exact absurd rfl (ho n)

/-- The coroutine `i` is a call connectToNode(n), and if it has returned a connection that is the one registered for the node. -/
def ConnectCall1 (s : State) (n i : Nat) : Prop :=
  ∃ x, s.jobs[i]? = some x ∧ (connJob x = some n ∨ (∃ e, x = .done (.error e)) ∨ ∃ k, x = .done (.ok (.conn k)) ∧ s.conns.get? n = some k)

theorem ConnectCall1.step {s : State} {n i : Nat} (h : ConnectCall1 s n i) (hs : Single s) (op : Op) : ConnectCall1 (step s op) n i := by
  obtain ⟨x, hx, hc | ⟨e, rfl⟩ | ⟨k, rfl, hk⟩⟩ := h
  · obtain ⟨y, hy, h1 | h1 | ⟨k, h1, -, h3⟩⟩ := connJob_step s op i n x hx hc
    · exact ⟨y, hy, .inl h1⟩
    · exact ⟨y, hy, .inr (.inl h1)⟩
    · exact ⟨y, hy, .inr (.inr ⟨k, h1, by rw [h3, Dict.get?_set_self]⟩)⟩
  · exact ⟨_, jobs_done s op i _ hx, .inr (.inl ⟨e, rfl⟩)⟩
  · exact ⟨_, jobs_done s op i _ hx, .inr (.inr ⟨k, rfl, hs.keep op n k hk⟩)⟩

theorem ConnectCall1.run (ops : List Op) : ∀ {s : State} {n i : Nat}, ConnectCall1 s n i → Single s → NoOverlap s ops → ConnectCall1 (run s ops) n i := by
  induction ops with
  | nil => intro s n i h _ _; exact h
  | cons op ops ih => intro s n i h hs hno; exact ih (h.step hs op) (hs.step op hno.1) hno.2

theorem connectCall1_start (s : State) (n : Nat) : ConnectCall1 (Gateway.step s (.connectToNode n)) n s.jobs.length := by
  cases step_linkEffect s (.connectToNode n) with
  | quiet hc hl hj ho => exact absurd rfl (ho n)
  | start m j ho hc hl hjs hj =>
    cases ho
    refine ⟨j, by rw [hjs]; simp, ?_⟩
    rcases hj with ⟨k, hk, rfl⟩ | ⟨-, ⟨e, rfl⟩ | ⟨t, rfl⟩⟩
    · exact .inr (.inr ⟨k, rfl, by rw [hc]; exact hk⟩)
    · exact .inr (.inl ⟨e, rfl⟩)
    · exact .inl rfl
  | create i m t l hx hn hc hl hj ho => exact absurd rfl (ho n)
  | fail i m x e hx hn hc hl hj ho => exact absurd rfl (ho n)
  | opened i m v hx hc hl hj ho => exact absurd rfl (ho n)

theorem conns_keep (ops : List Op) : ∀ {s : State} {n k : Nat}, s.conns.get? n = some k → Single s → NoOverlap s ops → (Gateway.run s ops).conns.get? n = some k := by
  induction ops with
  | nil => intro s n k h _ _; exact h
  | cons op ops ih => intro s n k h hs hno; exact ih (hs.keep op n k h) (hs.step op hno.1) hno.2

/-! ### Messages on a connection -/

/-- What the listeners are told about a message received on a connection to the node `n`. -/
def toldOf (n : Nat) (m : Msg) : Told :=
  ⟨n, if m.hid = 0x2302 then m.num? "sourceEP" else some 0, if m.hid = 0x2302 then m.command else some m, some (.num .pyint 0)⟩

theorem told_found (k n v : Nat) (ms : List Msg) : ∀ (s : State), s.conns.find? (fun p => p.2 = k) = some (n, v) →
    ms.foldl (fun s m => onMessageReceived s k m) s = { s with told := s.told ++ ms.map (toldOf n) } := by
  induction ms with
  | nil => intro s h; simp
  | cons m ms ih =>
    intro s h
    have h1 : onMessageReceived s k m = { s with told := s.told ++ [toldOf n m] } := by
      simp only [onMessageReceived, h, toldOf]
    simp only [List.foldl_cons, h1]
    have h2 := ih { s with told := s.told ++ [toldOf n m] } h
    rw [h2]
    simp

theorem told_none (k : Nat) (ms : List Msg) : ∀ (s : State), s.conns.find? (fun p => p.2 = k) = none →
    ms.foldl (fun s m => onMessageReceived s k m) s = s := by
  induction ms with
  | nil => intro s h; rfl
  | cons m ms ih =>
    intro s h
    have h1 : onMessageReceived s k m = s := by simp only [onMessageReceived, h]
    simp only [List.foldl_cons, h1]
    exact ih s h

end Model.Gateway
