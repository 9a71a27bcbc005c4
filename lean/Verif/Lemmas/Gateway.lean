import Verif.Lemmas.NetMan
/-! Helper lemmas: what the operations of the gateway change. -/
namespace Model.Gateway
open Spec

theorem run_cons (s : State) (op : Op) (ops : List Op) : run s (op :: ops) = run (step s op) ops := rfl

theorem run_append (s : State) (a b : List Op) : run s (a ++ b) = run (run s a) b := List.foldl_append

theorem run_snoc (s : State) (a : List Op) (op : Op) : run s (a ++ [op]) = step (run s a) op := by rw [run_append]; rfl

theorem afterSend_frame (s : State) (c : Conn.State) (k : Nat) : ∃ j, afterSend s c k = ({ s with conn := c }, j) := by
  unfold afterSend
  split <;> exact ⟨_, rfl⟩

theorem startSend_frame (s : State) (cmd : Msg) : ∃ c j, startSend s cmd = ({ s with conn := c }, j) := by
  obtain ⟨j, h⟩ := afterSend_frame s (Conn.send s.conn cmd 0 0 3) s.conn.sends.length
  exact ⟨_, j, h⟩

theorem afterAskSend_frame (s : State) (a : Ask) (t : Nat) (c : Conn.State) (k : Nat) : ∃ w j, afterAskSend s a t c k = ({ s with conn := { c with w := w } }, j) := by
  unfold afterAskSend
  split <;> exact ⟨_, _, rfl⟩

theorem startAsk_frame (s : State) (a : Ask) (cmd : Msg) (hid timeout : Nat) : ∃ c j, startAsk s a cmd hid timeout = ({ s with conn := c }, j) := by
  obtain ⟨w, j, h⟩ := afterAskSend_frame s a s.conn.w.tasks.length (Conn.send { s.conn with w := Waiter.step s.conn.w (.call .adapter hid timeout) } cmd 0 0 3)
    s.conn.sends.length
  exact ⟨_, j, h⟩

theorem startNm_frame (s : State) (c : Nm) : ∃ k j, startNm s c =
    ({ s with conn := k, nmSeq := s.nmSeq + (if c = .getNodeList ∧ s.nodes ≠ [] then 0 else 1) }, j) := by
  simp only [startNm]
  split
  · exact ⟨_, _, rfl⟩
  · split
    · exact ⟨_, _, rfl⟩
    · split
      · obtain ⟨k, j, h⟩ := startSend_frame { s with nmSeq := s.nmSeq + 1 } (by assumption)
        exact ⟨k, j, h⟩
      · rename_i hid timeout _
        obtain ⟨k, j, h⟩ := startAsk_frame { s with nmSeq := s.nmSeq + 1 } (if c = .getNodeList then .list else .nm c) (by assumption) hid timeout
        exact ⟨k, j, h⟩

theorem ipOfNode_frame (s : State) (n : Nat) : ∃ c r, ipOfNode s n = ({ s with conn := c }, r) := by
  unfold ipOfNode lookup
  split <;> exact ⟨_, _, rfl⟩

theorem reportLoop_frame (todo : List Nat) : ∀ s, ∃ c k j, reportLoop s todo = ({ s with conn := c, listUpdated := k }, j) := by
  induction todo with
  | nil => intro s; exact ⟨_, _, _, rfl⟩
  | cons n todo ih =>
    intro s
    simp only [reportLoop]
    split
    · exact ih s
    · obtain ⟨c, r, h⟩ := ipOfNode_frame s n
      rw [h]
      cases r <;> exact ⟨c, s.listUpdated, _, rfl⟩

theorem setupLoop_frame (todo : List Nat) : ∀ s, ∃ c j, setupLoop s todo = ({ s with conn := c }, j) := by
  induction todo with
  | nil => intro s; exact ⟨_, _, rfl⟩
  | cons n todo ih =>
    intro s
    simp only [setupLoop]
    split
    · exact ⟨s.conn, _, rfl⟩
    · exact ih s
    · obtain ⟨c, r, h⟩ := ipOfNode_frame s n
      rw [h]
      cases r <;> exact ⟨c, _, rfl⟩

theorem storeList_frame (s : State) (m : Msg) : ∃ i n r, storeList s m = ({ s with nodeId := i, nodes := n }, r) := by
  simp only [storeList]
  split <;> exact ⟨_, _, _, rfl⟩

theorem handle_frame (s : State) (m : Msg) (order : List Nat) :
    ∃ c k n j, handleNodeListReport s m order = ({ s with conn := c, listUpdated := k, nodes := n }, j) := by
  simp only [handleNodeListReport]
  split
  · exact ⟨_, _, _, _, rfl⟩
  · rename_i l _
    obtain ⟨c, k, j, h⟩ := reportLoop_frame (iter l order) { s with nodes := s.nodes.filter (fun p => p.1 ∈ l) }
    exact ⟨c, k, _, j, h⟩

theorem connectToNode_frame (s : State) (n : Nat) : ∃ c j, Gateway.connectToNode s n = ({ s with conn := c }, j) := by
  simp only [Gateway.connectToNode]
  split
  · exact ⟨_, _, rfl⟩
  · obtain ⟨c, r, h⟩ := ipOfNode_frame s n
    rw [h]
    cases r <;> exact ⟨c, _, rfl⟩

theorem afterAsk_frame (s : State) (a : Ask) (r : Py Msg) (order : List Nat) :
    ∃ c i n j, afterAsk s a r order = ({ s with conn := c, nodeId := i, nodes := n }, j) := by
  unfold afterAsk
  split
  · exact ⟨_, _, _, _, rfl⟩
  · exact ⟨_, _, _, _, rfl⟩
  · rename_i m
    obtain ⟨i, n, r, h⟩ := storeList_frame s m
    rw [h]
    cases r <;> exact ⟨_, i, n, _, rfl⟩
  · exact ⟨_, _, _, _, rfl⟩
  · rename_i m
    obtain ⟨i, n, r, h⟩ := storeList_frame s m
    rw [h]
    cases r with
    | error e => exact ⟨_, i, n, _, rfl⟩
    | ok l =>
      obtain ⟨c, j, h'⟩ := setupLoop_frame (iter l order) { s with nodeId := i, nodes := n }
      exact ⟨c, i, n, j, h'⟩
  · exact ⟨_, _, _, _, rfl⟩
  · split
    · exact ⟨_, _, _, _, rfl⟩
    · split
      · exact ⟨_, _, _, _, rfl⟩
      · obtain ⟨c, j, h⟩ := startSend_frame s (by assumption)
        exact ⟨c, _, _, j, h⟩
  · exact ⟨_, _, _, _, rfl⟩
  · exact ⟨_, _, _, _, rfl⟩

/-- A coroutine that continues changes the connection, the controller's id, the table, the count of updates, the connections and the jobs. -/
theorem stepJob_frame (s : State) (i : Nat) (order : List Nat) :
    ∃ c d n k l js, stepJob s i order = { s with conn := c, nodeId := d, nodes := n, listUpdated := k, links := l, jobs := js } := by
  simp only [stepJob]
  split
  · exact ⟨_, _, _, _, _, _, rfl⟩
  · split <;> exact ⟨_, _, _, _, _, _, rfl⟩
  · split
    · rename_i _ a t k _ _ r _
      obtain ⟨c, d, n, j, h⟩ := afterAsk_frame s a r order
      rw [h]
      exact ⟨_, _, _, _, _, _, rfl⟩
    · split <;> exact ⟨_, _, _, _, _, _, rfl⟩
  · split
    · exact ⟨_, _, _, _, _, _, rfl⟩
    · exact ⟨_, _, _, _, _, _, rfl⟩
    · rename_i _ n todo t _ _ m _
      obtain ⟨c, k, j, h⟩ := reportLoop_frame todo { s with nodes := s.nodes.set n (advertised m) }
      rw [h]
      exact ⟨_, _, _, _, _, _, rfl⟩
  · split
    · exact ⟨_, _, _, _, _, _, rfl⟩
    · exact ⟨_, _, _, _, _, _, rfl⟩
    · rename_i _ n todo t _ _ m _
      obtain ⟨c, j, h⟩ := setupLoop_frame todo { s with nodes := s.nodes.set n (advertised m) }
      rw [h]
      exact ⟨_, _, _, _, _, _, rfl⟩
  · split
    · exact ⟨_, _, _, _, _, _, rfl⟩
    · exact ⟨_, _, _, _, _, _, rfl⟩
    · split <;> exact ⟨_, _, _, _, _, _, rfl⟩
  · exact ⟨_, _, _, _, _, _, rfl⟩
  · exact ⟨_, _, _, _, _, _, rfl⟩

theorem unsolicited_frame (s : State) (pkt sender : Bytes) (order : List Nat) :
    ∃ c n k js t a r, onUnsolicitedMessage s pkt sender order = ({ s with conn := c, nodes := n, listUpdated := k, jobs := js, told := t, acks := a }, r) := by
  simp only [onUnsolicitedMessage]
  split
  · exact ⟨_, _, _, _, _, _, _, rfl⟩
  · split
    · rename_i a _
      obtain ⟨c, k, n, j, h⟩ := handle_frame s a order
      rw [h]
      exact ⟨_, _, _, _, _, _, _, rfl⟩
    · split
      · exact ⟨_, _, _, _, _, _, _, rfl⟩
      · split
        · split
          · split <;> exact ⟨_, _, _, _, _, _, _, rfl⟩
          · exact ⟨_, _, _, _, _, _, _, rfl⟩
        · exact ⟨_, _, _, _, _, _, _, rfl⟩

theorem onMessageReceived_frame (k : Nat) (ms : List Msg) : ∀ s, ∃ t, ms.foldl (fun s m => onMessageReceived s k m) s = { s with told := t } := by
  induction ms with
  | nil => intro s; exact ⟨_, rfl⟩
  | cons m ms ih =>
    intro s
    obtain ⟨t1, h1⟩ : ∃ t, onMessageReceived s k m = { s with told := t } := by
      simp only [onMessageReceived]
      split <;> exact ⟨_, rfl⟩
    simp only [List.foldl_cons, h1]
    obtain ⟨t, h⟩ := ih { s with told := t1 }
    exact ⟨t, h⟩

/-- Network management commands issued by an operation. -/
def issues (s : State) : Op → Bool
  | .nm c => !decide (c = .getNodeList ∧ s.nodes ≠ [])
  | .setup _ => decide (s.nodes = [])
  | _ => false

theorem step_nmSeq (s : State) (op : Op) : (step s op).nmSeq = s.nmSeq + (if issues s op then 1 else 0) := by
  cases op with
  | nm c =>
    obtain ⟨k, j, h⟩ := startNm_frame s c
    simp only [step, h, State.addJob, issues]
    split <;> simp [*]
  | setMode mode =>
    obtain ⟨c, j, h⟩ := startAsk_frame s (.mode mode) (.known Reg.ZipGateway.GatewayModeGet.hid []) 0x5F03 3
    simp only [step, h]; rfl
  | setup order =>
    simp only [step, issues]
    split
    · rename_i hn
      obtain ⟨c, j, h⟩ := setupLoop_frame (iter s.nodes.keys order) s
      rw [h]; simp [State.addJob, hn]
    · rename_i hn
      have hn : s.nodes = [] := by simpa using hn
      split
      · simp [State.addJob, hn]
      · obtain ⟨c, j, h⟩ := startAsk_frame { s with nmSeq := s.nmSeq + 1 } .setup (by assumption) 0x5202 3
        rw [h]; simp [State.addJob, hn]
  | connectToNode n =>
    obtain ⟨c, j, h⟩ := connectToNode_frame s n
    simp only [step, h]; rfl
  | opened i ok =>
    simp only [step, issues]
    split
    · split <;> rfl
    · rfl
  | unsolicited pkt sender order =>
    obtain ⟨c, n, k, js, t, a, r, h⟩ := unsolicited_frame s pkt sender order
    simp only [step, h]; rfl
  | job i order =>
    obtain ⟨c, d, n, k, l, js, h⟩ := stepJob_frame s i order
    simp only [step, h]; rfl
  | conn o => simp only [step]; split <;> rfl
  | link k o =>
    simp only [step]
    split
    · rfl
    · rename_i l _
      obtain ⟨t, h⟩ := onMessageReceived_frame k ((Conn.step l.conn o).heard.drop l.conn.heard.length)
        { s with links := s.links.set k ({ l with conn := Conn.step l.conn o } : Link) }
      rw [h]; rfl

end Model.Gateway
