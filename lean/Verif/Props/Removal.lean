import Verif.Model.Removal
import Verif.Props.GatewayCalls
/-!
# Removing a failed node

Property C116. `Node.remove()` runs `removeFailedNode(rootNodeId)` on the gateway and returns a bool.
-/
namespace Props.Removal
open Spec Model Model.Gateway Props.Gateway Props.GatewayCalls

/-- The report says that a node has been removed. -/
def SaysRemoved (m : Msg) : Prop := m.hid = 0x3408 ∧ m.num? "status" = some 1

/-- The full property: `remove()` returns True only if the gateway has reported, during the call, that this node has been removed. -/
def C116_statement : Prop :=
  ∀ (ops ops' : List Op) (n : Nat) (r : Py Ret), let s := run init ops
    let s' := run (step s (.nm (.removeFailedNode n))) ops'
    s'.jobs[s.jobs.length]? = some (.done r) → nodeRemove r = .ok true →
    ∃ b m, .conn (.packet b) ∈ ops' ∧ Delivers b m ∧ SaysRemoved m ∧ m.num? "nodeID" = some (n : Int)

/-- The gateway's report about a removal, in a packet. -/
def removal (seq status node : UInt8) : Bytes := GatewayCalls.answer [0x34, 0x08, seq, status, node]

/-- **C116 is violated.** Nodes 5 and 6 are removed at the same time; the report about node 6 makes the removal of node 5 succeed. -/
theorem C116_violated : ¬ C116_statement := by
  intro h
  obtain ⟨b, m, hb, ⟨p, hp, hm⟩, -, hn⟩ := h [.conn .connect] [.nm (.removeFailedNode 6), .conn (.packet ack), .conn (.resume 0), .job 0 [],
    .conn (.packet (removal 2 1 6)), .conn (.waiter (.resume 0)), .job 0 []] 5 (.ok (.val (some (.num (.uint 1) 1)))) (by decide +kernel) (by decide)
  have hb : b = ack ∨ b = removal 2 1 6 := by simpa using hb
  have h1 : ∀ c ∈ [ack, removal 2 1 6], (match decode c with
    | .ok p => decide (p.hid = 0x2302) && p.command.all (fun m => m.num? "nodeID" != some 5)
    | .error _ => true) = true := by decide +kernel
  have := h1 b (by simpa using hb)
  rw [hp] at this
  simp only [Bool.and_eq_true, decide_eq_true_eq] at this
  obtain ⟨k1, k2⟩ := this
  rw [if_pos k1] at hm
  rw [hm] at k2
  simp [hn] at k2

theorem status_attr {m : Msg} (h : m.hid = 0x3408) : getAttr registry m "status" = m.attr "status" := by
  rw [getAttr, h]
  split
  · rename_i h; exact h.symm
  · rename_i h; rw [h]; decide +kernel

/-- A status whose value is 1 is the status 1 of the report. -/
theorem status_num {m : Msg} (h1 : m.hid = 0x3408) (h2 : statusDone (.val (getAttr registry m "status")) = true) : m.num? "status" = some 1 := by
  rw [status_attr h1] at h2
  rw [Msg.num?]
  unfold statusDone at h2
  split at h2
  · cases ‹Ret.val _ = Ret.num _›
  · rename_i v hv
    injection hv with hv
    rw [hv]
    simpa using h2
  · cases h2

/-- **C116**, what holds: True means that a report received during the call says that a node has been removed. If no report about another node
arrives during the call, it says so about this node. -/
theorem C116_reported_partial (ops ops' : List Op) (n : Nat) (r : Py Ret) :
    let s := run init ops
    let s' := run (step s (.nm (.removeFailedNode n))) ops'
    s'.jobs[s.jobs.length]? = some (.done r) → nodeRemove r = .ok true →
    ∃ b m, .conn (.packet b) ∈ ops' ∧ Delivers b m ∧ SaysRemoved m ∧
      ((∀ b m, .conn (.packet b) ∈ ops' → Delivers b m → m.hid = 0x3408 → m.num? "nodeID" = some (n : Int)) → m.num? "nodeID" = some (n : Int)) := by
  intro s s' hj ht
  cases r with
  | error e => cases ht
  | ok r =>
    have hd : statusDone r = true := by simpa [nodeRemove] using ht
    rcases C87_result ops ops' (.removeFailedNode n) 0x3408 r rfl hj with h | ⟨b, m, hb, hd', hm, hr⟩
    · have h : r = .num 2 := h
      subst h
      simp [statusDone] at hd
    · have hr : r = .val (getAttr registry m "status") := hr
      subst hr
      exact ⟨b, m, hb, hd', ⟨hm, status_num hm hd⟩, fun ho => ho b m hb hd' hm⟩

/-- **C116.** If the gateway reports any other status, or says nothing in time, `remove()` returns False; it does not raise. -/
theorem C116_not_removed_partial (s : State) (i t k n : Nat) (order : List Nat) (r : Py Msg) (hj : s.jobs[i]? = some (.ask (.nm (.removeFailedNode n)) t k))
    (ht : taskDone s t = some r) (hr : r = .error .timeout ∨ ∃ m, r = .ok m ∧ m.hid = 0x3408) :
    ∃ v, (step s (.job i order)).jobs[i]? = some (.done (.ok v)) ∧
      (nodeRemove (.ok v) = .ok true ↔ ∃ m, r = .ok m ∧ SaysRemoved m) ∧ (nodeRemove (.ok v) = .ok false ↔ ¬ ∃ m, r = .ok m ∧ SaysRemoved m) := by
  have hi := (List.getElem?_eq_some_iff.mp hj).1
  have key : ∀ (v : Ret) (P : Prop), (statusDone v = true ↔ P) → (nodeRemove (.ok v) = .ok true ↔ P) ∧ (nodeRemove (.ok v) = .ok false ↔ ¬ P) := by
    intro v P h
    rw [← h]
    simp [nodeRemove]
  rcases hr with rfl | ⟨m, rfl, hm⟩
  · refine ⟨.num 2, ?_, key _ _ ?_⟩
    · simp only [Gateway.step, stepJob, hj, ht, afterAsk, State.setJob]
      exact List.getElem?_set_self hi
    · simp [statusDone]
  · refine ⟨.val (getAttr registry m "status"), ?_, key _ _ ?_⟩
    · simp only [Gateway.step, stepJob, hj, ht, afterAsk, State.setJob, Gateway.answer]
      exact List.getElem?_set_self hi
    · constructor
      · exact fun h => ⟨m, rfl, hm, status_num hm h⟩
      · rintro ⟨m', he, -, h2⟩
        cases he
        rw [status_attr hm]
        rw [Msg.num?] at h2
        split at h2
        · rename_i hv
          rw [hv]
          simpa [statusDone] using h2
        · cases h2

/-- **C116.** If the removal could not be asked for, `remove()` raises what was raised, it does not say False. -/
theorem C116_raises_partial (ops ops' : List Op) (n : Nat) (e : PyErr) :
    let s := run init ops
    let s' := run (step s (.nm (.removeFailedNode n))) ops'
    s'.jobs[s.jobs.length]? = some (.done (.error e)) → ∀ r, s'.jobs[s.jobs.length]? = some (.done r) → nodeRemove r = .error e := by
  intro s s' h r hr
  rw [h] at hr
  cases hr
  rfl

/-- The node is removed; the chip does not find it; the gateway does not answer. -/
example : ((run init [.conn .connect, .nm (.removeFailedNode 5), .conn (.packet ack), .conn (.resume 0), .job 0 [],
    .conn (.packet (removal 1 1 5)), .conn (.waiter (.resume 0)), .job 0 []]).jobs.map fun j => match j with | .done r => some (nodeRemove r) | _ => none) = [some (.ok true)] := by
  decide +kernel
example : ((run init [.conn .connect, .nm (.removeFailedNode 5), .conn (.packet ack), .conn (.resume 0), .job 0 [],
    .conn (.packet (removal 1 0 5)), .conn (.waiter (.resume 0)), .job 0 []]).jobs.map fun j => match j with | .done r => some (nodeRemove r) | _ => none) = [some (.ok false)] := by
  decide +kernel

end Props.Removal
